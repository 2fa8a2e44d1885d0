import Mathlib.Algebra.Order.Field.Basic
import Mathlib.Algebra.BigOperators.Group.List.Basic
import Mathlib.Algebra.Order.BigOperators.Group.List
import Mathlib.Data.List.Sort
import Mathlib.Data.List.Basic
import Mathlib.Data.List.GetD
import Mathlib.Data.List.TakeWhile
import Mathlib.Tactic.Ring
import Mathlib.Tactic.Linarith
import Mathlib.Tactic.FieldSimp
import Mathlib.Tactic.Positivity
import Mathlib.Tactic.NormNum
import Mathlib.Tactic.GCongr

/-!
Semantics given to the numpy functions used by craterstats.  Arrays are lists.  Every definition states
the documented behaviour it mirrors.  Numbers are exact (see DESIGN.md, section 1).
-/

set_option linter.unusedSectionVars false

namespace Verif.Py

variable {K : Type*}

/-- `np.searchsorted(a, v)` (side left), for `a` in non-decreasing order:
the index `i` with `a[i-1] < v <= a[i]`. -/
def searchsorted [LinearOrder K] (a : List K) (v : K) : ℕ :=
  (a.takeWhile (fun x => decide (x < v))).length

/-- `np.searchsorted(a, v, side='right')` for `a` in non-decreasing order:
the index `i` with `a[i-1] <= v < a[i]`.  `np.digitize(v, a)` is the same number. -/
def searchsortedRight [LinearOrder K] (a : List K) (v : K) : ℕ :=
  (a.takeWhile (fun x => decide (x ≤ v))).length

/-- `np.cumsum` -/
def cumsum [AddMonoid K] (l : List K) : List K := (l.scanl (· + ·) 0).tail

/-- `np.flip(np.cumsum(np.flip(l)))` -/
def flipCumsumFlip [AddMonoid K] (l : List K) : List K := (cumsum l.reverse).reverse

/-- `np.clip(x, lo, hi)`: numpy defines it as `minimum(hi, maximum(x, lo))`. -/
def clip [LinearOrder K] (x lo hi : K) : K := min hi (max x lo)

/-- `np.linspace(a, b, n)` for `n ≥ 2` -/
def linspace [Field K] (a b : K) (n : ℕ) : List K :=
  (List.range n).map (fun i : ℕ => a + (i : K) * ((b - a) / ((n : K) - 1)))

/-- `np.interp(x, xp, fp)`: piecewise linear, constant beyond the ends; `j` is the number of sample points
`<= x`.  numpy raises on an empty `xp`; here the value would be the dummy `0`, so theorems assume non-empty. -/
def interp [Field K] [LinearOrder K] (xp fp : List K) (x : K) : K :=
  let j := searchsortedRight xp x
  if j = 0 then fp.getD 0 0
  else if j = xp.length then fp.getD (j - 1) 0
  else
    let x0 := xp.getD (j - 1) 0
    let x1 := xp.getD j 0
    let y0 := fp.getD (j - 1) 0
    let y1 := fp.getD j 0
    (y1 - y0) / (x1 - x0) * (x - x0) + y0

/-- `np.diff`-like pairing of consecutive elements -/
def pairs : List K → List (K × K)
  | a :: b :: l => (a, b) :: pairs (b :: l)
  | _ => []

/-- Membership test used by `np.histogram`: bins are half-open, except the last, which is closed. -/
def inBin [LinearOrder K] (lo hi : K) (last : Bool) (x : K) : Bool :=
  decide (lo ≤ x) && (decide (x < hi) || (last && decide (x = hi)))

/-- `np.histogram(x, bins=bins, weights=w)`, `xs` the list of `(x, w)`; with all weights 1 it is the plain
count.  (numpy demands non-decreasing `bins`; `generate_bins` is proved to deliver that.) -/
def histogram {W : Type*} [AddMonoid W] [LinearOrder K] (xs : List (K × W)) : List K → List W
  | lo :: hi :: es =>
      ((xs.filter (fun p => inBin lo hi es.isEmpty p.1)).map Prod.snd).sum :: histogram xs (hi :: es)
  | _ => []

/-! ### exceptions -/

@[simp] theorem except_ok_bind {ε α β : Type} (a : α) (f : α → Except ε β) : (Except.ok a >>= f) = f a := rfl
@[simp] theorem except_error_bind {ε α β : Type} (e : ε) (f : α → Except ε β) :
    ((Except.error e : Except ε α) >>= f) = .error e := rfl

theorem except_bind_eq_ok {ε α β : Type} {x : Except ε α} {f : α → Except ε β} {b : β}
    (h : (x >>= f) = .ok b) : ∃ a, x = .ok a ∧ f a = .ok b := by
  cases x with
  | error e => cases h
  | ok a => exact ⟨a, rfl, h⟩

/-! ### searchsorted -/

section search
variable [LinearOrder K]

theorem searchsorted_le_length (a : List K) (v : K) : searchsorted a v ≤ a.length :=
  (List.takeWhile_prefix _).length_le

theorem searchsortedRight_le_length (a : List K) (v : K) : searchsortedRight a v ≤ a.length :=
  (List.takeWhile_prefix _).length_le

theorem takeWhile_getElem_true (p : K → Bool) (a : List K) (i : ℕ) (h : i < a.length)
    (hi : i < (a.takeWhile p).length) : p a[i] = true := by
  induction a generalizing i with
  | nil => simp at h
  | cons x l ih =>
    by_cases hx : p x
    · cases i with
      | zero => simpa using hx
      | succ i =>
        simp only [List.takeWhile_cons, hx, if_true, List.length_cons] at hi
        simpa using ih i (by simpa using h) (by omega)
    · simp [List.takeWhile_cons, hx] at hi

theorem takeWhile_getElem_false (p : K → Bool) (a : List K)
    (h : (a.takeWhile p).length < a.length) : p a[(a.takeWhile p).length] = false := by
  induction a with
  | nil => simp at h
  | cons x l ih =>
    by_cases hx : p x
    · simp only [List.takeWhile_cons, hx, if_true, List.length_cons, List.getElem_cons_succ]
      simp only [List.takeWhile_cons, hx, if_true, List.length_cons] at h
      exact ih (by omega)
    · simpa [List.takeWhile_cons, hx] using hx

theorem lt_of_lt_searchsorted {a : List K} {v : K} {i : ℕ} (h : i < a.length)
    (hi : i < searchsorted a v) : a[i] < v := by
  simpa using takeWhile_getElem_true (fun x => decide (x < v)) a i h hi

theorem le_getElem_searchsorted {a : List K} {v : K} (h : searchsorted a v < a.length) :
    v ≤ a[searchsorted a v] := by
  have := takeWhile_getElem_false (fun x => decide (x < v)) a h
  exact not_lt.1 (of_decide_eq_false this)

theorem le_of_searchsorted_le {a : List K} {v : K} (ha : a.Pairwise (· ≤ ·)) {i : ℕ} (h : i < a.length)
    (hi : searchsorted a v ≤ i) : v ≤ a[i] := by
  have h0 : searchsorted a v < a.length := by omega
  refine (le_getElem_searchsorted h0).trans ?_
  rcases hi.eq_or_lt with e | l
  · simp [e]
  · exact (List.pairwise_iff_getElem.1 ha) _ _ h0 h l

theorem le_of_lt_searchsortedRight {a : List K} {v : K} {i : ℕ} (h : i < a.length)
    (hi : i < searchsortedRight a v) : a[i] ≤ v := by
  simpa using takeWhile_getElem_true (fun x => decide (x ≤ v)) a i h hi

theorem lt_getElem_searchsortedRight {a : List K} {v : K} (h : searchsortedRight a v < a.length) :
    v < a[searchsortedRight a v] := by
  have := takeWhile_getElem_false (fun x => decide (x ≤ v)) a h
  exact not_le.1 (of_decide_eq_false this)

theorem lt_of_searchsortedRight_le {a : List K} {v : K} (ha : a.Pairwise (· ≤ ·)) {i : ℕ}
    (h : i < a.length) (hi : searchsortedRight a v ≤ i) : v < a[i] := by
  have h0 : searchsortedRight a v < a.length := by omega
  refine (lt_getElem_searchsortedRight h0).trans_le ?_
  rcases hi.eq_or_lt with e | l
  · simp [e]
  · exact (List.pairwise_iff_getElem.1 ha) _ _ h0 h l

/-- characterisation: the left insertion point is the unique index separating `< v` from `>= v` -/
theorem searchsorted_eq_of {a : List K} {v : K} (k : ℕ) (hk : k ≤ a.length)
    (h1 : ∀ i (h : i < a.length), i < k → a[i] < v) (h2 : ∀ (h : k < a.length), v ≤ a[k]) :
    searchsorted a v = k := by
  rcases lt_trichotomy (searchsorted a v) k with h | h | h
  · have := le_getElem_searchsorted (a := a) (v := v) (by omega)
    exact absurd (h1 _ (by omega) h) (not_lt.2 this)
  · exact h
  · have hk' : k < a.length := lt_of_lt_of_le h (searchsorted_le_length a v)
    exact absurd (lt_of_lt_searchsorted hk' h) (not_lt.2 (h2 hk'))

theorem searchsortedRight_eq_of {a : List K} {v : K} (k : ℕ) (hk : k ≤ a.length)
    (h1 : ∀ i (h : i < a.length), i < k → a[i] ≤ v) (h2 : ∀ (h : k < a.length), v < a[k]) :
    searchsortedRight a v = k := by
  rcases lt_trichotomy (searchsortedRight a v) k with h | h | h
  · have := lt_getElem_searchsortedRight (a := a) (v := v) (by omega)
    exact absurd (h1 _ (by omega) h) (not_le.2 this)
  · exact h
  · have hk' : k < a.length := lt_of_lt_of_le h (searchsortedRight_le_length a v)
    exact absurd (le_of_lt_searchsortedRight hk' h) (not_le.2 (h2 hk'))

theorem searchsorted_mono {a : List K} {v w : K} (h : v ≤ w) :
    searchsorted a v ≤ searchsorted a w := by
  by_contra hc
  push Not at hc
  have hl := searchsorted_le_length a v
  have h1 := lt_of_lt_searchsorted (a := a) (v := v) (i := searchsorted a w) (by omega) hc
  have h2 := le_getElem_searchsorted (a := a) (v := w) (by omega)
  exact absurd (lt_of_lt_of_le h1 h) (not_lt.2 h2)

theorem searchsortedRight_mono {a : List K} {v w : K} (h : v ≤ w) :
    searchsortedRight a v ≤ searchsortedRight a w := by
  by_contra hc
  push Not at hc
  have hl := searchsortedRight_le_length a v
  have h1 := le_of_lt_searchsortedRight (a := a) (v := v) (i := searchsortedRight a w) (by omega) hc
  have h2 := lt_getElem_searchsortedRight (a := a) (v := w) (by omega)
  exact absurd (le_trans h1 h) (not_le.2 h2)

end search

/-! ### cumsum -/

section cum
variable [AddMonoid K]

theorem scanl_length {α β : Type*} (f : β → α → β) (b : β) (l : List α) :
    (l.scanl f b).length = l.length + 1 := by simp

@[simp] theorem cumsum_length (l : List K) : (cumsum l).length = l.length := by
  simp [cumsum]

@[simp] theorem flipCumsumFlip_length (l : List K) : (flipCumsumFlip l).length = l.length := by
  simp [flipCumsumFlip]

theorem scanl_add_getElem (l : List K) (b : K) (i : ℕ) (h : i < (l.scanl (· + ·) b).length) :
    (l.scanl (· + ·) b)[i] = b + (l.take i).sum := by
  induction l generalizing b i with
  | nil => simp at h; subst h; simp
  | cons x l ih =>
    cases i with
    | zero => simp
    | succ i =>
      simp only [List.scanl_cons, List.getElem_cons_succ, List.take_succ_cons, List.sum_cons]
      rw [ih]; rw [add_assoc]

theorem cumsum_getElem (l : List K) (i : ℕ) (h : i < (cumsum l).length) :
    (cumsum l)[i] = (l.take (i + 1)).sum := by
  have h' : i < l.length := by simpa using h
  have e : (cumsum l)[i] = (l.scanl (· + ·) 0)[i + 1]'(by simp; omega) := by
    simp only [cumsum, List.getElem_tail]
  rw [e, scanl_add_getElem, zero_add]

theorem cumsum_getLast (l : List K) (h : l ≠ []) (h' : cumsum l ≠ []) :
    (cumsum l).getLast h' = l.sum := by
  rw [List.getLast_eq_getElem, cumsum_getElem]
  have : 0 < l.length := List.length_pos_iff.2 h
  rw [List.take_of_length_le]
  simp; omega

end cum

theorem flipCumsumFlip_getElem [AddCommMonoid K] (l : List K) (i : ℕ) (h : i < (flipCumsumFlip l).length) :
    (flipCumsumFlip l)[i] = (l.drop i).sum := by
  have h' : i < l.length := by simpa using h
  have e : (flipCumsumFlip l)[i] = (cumsum l.reverse)[l.length - 1 - i]'(by simp; omega) := by
    simp only [flipCumsumFlip, List.getElem_reverse, cumsum_length, List.length_reverse]
  rw [e, cumsum_getElem]
  have : l.length - 1 - i + 1 = l.length - i := by omega
  rw [this, List.take_reverse, List.sum_reverse]
  congr 2; omega

theorem flipCumsumFlip_eq_map [AddCommMonoid K] (l : List K) :
    flipCumsumFlip l = (List.range l.length).map (fun i => (l.drop i).sum) := by
  apply List.ext_getElem
  · simp
  · intro i h1 h2
    rw [flipCumsumFlip_getElem]; simp

/-! ### interp -/

section interp
variable [Field K] [LinearOrder K] [IsStrictOrderedRing K]

/-- the three cases of `interp`, with the located interval -/
theorem interp_cases (xp fp : List K) (x : K) (hx : xp.Pairwise (· ≤ ·)) (hlen : xp.length = fp.length)
    (hne : 0 < xp.length) :
    (x < xp[0] ∧ interp xp fp x = fp[0]'(by omega)) ∨
    (xp[xp.length - 1] ≤ x ∧ interp xp fp x = fp[xp.length - 1]'(by omega)) ∨
    (∃ (j : ℕ) (h : j + 1 < xp.length), searchsortedRight xp x = j + 1 ∧ xp[j] ≤ x ∧ x < xp[j + 1] ∧
      interp xp fp x = (fp[j + 1]'(by omega) - fp[j]'(by omega)) / (xp[j + 1] - xp[j]) * (x - xp[j])
        + fp[j]'(by omega)) := by
  have hl := searchsortedRight_le_length xp x
  rcases Nat.eq_zero_or_pos (searchsortedRight xp x) with h0 | h0
  · left
    have h1 := lt_getElem_searchsortedRight (a := xp) (v := x) (by omega)
    refine ⟨by simpa [h0] using h1, ?_⟩
    simp only [interp, h0, if_true]
    rw [List.getD_eq_getElem _ _ (by omega)]
  · right
    rcases hl.eq_or_lt with he | hlt
    · left
      refine ⟨le_of_lt_searchsortedRight (by omega) (by omega), ?_⟩
      simp only [interp, he]
      rw [if_neg (by omega), if_pos trivial, List.getD_eq_getElem _ _ (by omega)]
    · right
      obtain ⟨j, hj⟩ : ∃ j, searchsortedRight xp x = j + 1 := ⟨_, (Nat.succ_pred_eq_of_pos h0).symm⟩
      refine ⟨j, by omega, hj, le_of_lt_searchsortedRight _ (by omega), ?_, ?_⟩
      · have h1 := lt_getElem_searchsortedRight (a := xp) (v := x) (by omega)
        simpa [hj] using h1
      · simp only [interp, hj]
        rw [if_neg (by omega), if_neg (by omega)]
        simp only [Nat.add_sub_cancel]
        rw [List.getD_eq_getElem _ _ (by omega), List.getD_eq_getElem _ _ (by omega),
          List.getD_eq_getElem _ _ (by omega), List.getD_eq_getElem _ _ (by omega)]

theorem lerp_mem {x0 x1 y0 y1 x : K} (h0 : x0 ≤ x) (h1 : x < x1) (hy : y0 ≤ y1) :
    y0 ≤ (y1 - y0) / (x1 - x0) * (x - x0) + y0 ∧ (y1 - y0) / (x1 - x0) * (x - x0) + y0 ≤ y1 := by
  have hd : 0 < x1 - x0 := by linarith
  constructor
  · have : 0 ≤ (y1 - y0) / (x1 - x0) * (x - x0) :=
      mul_nonneg (div_nonneg (by linarith) hd.le) (by linarith)
    linarith
  · have : (y1 - y0) / (x1 - x0) * (x - x0) ≤ (y1 - y0) / (x1 - x0) * (x1 - x0) :=
      mul_le_mul_of_nonneg_left (by linarith) (div_nonneg (by linarith) hd.le)
    rw [div_mul_cancel₀ _ hd.ne'] at this
    linarith

/-- `interp` at a sample point of a strictly increasing table is the tabulated value. -/
theorem interp_node (xp fp : List K) (hx : xp.Pairwise (· < ·)) (hlen : xp.length = fp.length)
    (i : ℕ) (hi : i < xp.length) : interp xp fp xp[i] = fp[i]'(by omega) := by
  have hp := List.pairwise_iff_getElem.1 hx
  have hs : searchsortedRight xp xp[i] = i + 1 := by
    apply searchsortedRight_eq_of _ (by omega)
    · intro k hk hki
      rcases Nat.lt_succ_iff_lt_or_eq.1 hki with h | h
      · exact (hp _ _ hk hi h).le
      · subst h; exact le_rfl
    · intro h; exact hp _ _ hi h (by omega)
  simp only [interp, hs]
  rw [if_neg (by omega)]
  simp only [Nat.add_sub_cancel]
  split
  · rw [List.getD_eq_getElem _ _ (by omega)]
  · rw [List.getD_eq_getElem _ _ hi, List.getD_eq_getElem _ _ (by omega : i < fp.length)]
    simp

theorem getElem_mono {l : List K} (h : l.Pairwise (· ≤ ·)) {i j : ℕ} (hij : i ≤ j) (hj : j < l.length) :
    l[i] ≤ l[j] := by
  rcases hij.eq_or_lt with e | e
  · subst e; exact le_rfl
  · exact List.pairwise_iff_getElem.1 h _ _ _ hj e

/-- value of `interp` lies between the tabulated values around the located interval -/
theorem interp_mem_range (xp fp : List K) (hx : xp.Pairwise (· ≤ ·)) (hf : fp.Pairwise (· ≤ ·))
    (hlen : xp.length = fp.length) (hne : 0 < xp.length) (x : K) :
    fp[0]'(by omega) ≤ interp xp fp x ∧ interp xp fp x ≤ fp[fp.length - 1]'(by omega) := by
  rcases interp_cases xp fp x hx hlen hne with ⟨_, e⟩ | ⟨_, e⟩ | ⟨j, h, _, h1, h2, e⟩
  · rw [e]; exact ⟨le_rfl, getElem_mono hf (by omega) (by omega)⟩
  · rw [e]; exact ⟨getElem_mono hf (by omega) (by omega), getElem_mono hf (by omega) (by omega)⟩
  · have := lerp_mem h1 h2 (getElem_mono hf (i := j) (j := j + 1) (by omega) (by omega))
    rw [e]
    exact ⟨(getElem_mono hf (by omega) (by omega)).trans this.1,
      this.2.trans (getElem_mono hf (by omega) (by omega))⟩

/-- `interp` with non-decreasing sample points and values is monotone. -/
theorem interp_mono (xp fp : List K) (hx : xp.Pairwise (· ≤ ·)) (hf : fp.Pairwise (· ≤ ·))
    (hlen : xp.length = fp.length) (hne : 0 < xp.length) {x y : K} (hxy : x ≤ y) :
    interp xp fp x ≤ interp xp fp y := by
  rcases interp_cases xp fp x hx hlen hne with ⟨_, e⟩ | ⟨h1, e⟩ | ⟨j, h, hs, h1, h2, e⟩
  · rw [e]; exact (interp_mem_range xp fp hx hf hlen hne y).1
  · rcases interp_cases xp fp y hx hlen hne with ⟨g, e'⟩ | ⟨_, e'⟩ | ⟨j, h, _, g1, g2, e'⟩
    · exact absurd (getElem_mono hx (i := 0) (j := xp.length - 1) (by omega) (by omega))
        (not_le.2 (by linarith))
    · rw [e, e']
    · exact absurd (getElem_mono hx (i := j + 1) (j := xp.length - 1) (by omega) (by omega))
        (not_le.2 (by linarith))
  · rcases interp_cases xp fp y hx hlen hne with ⟨g, e'⟩ | ⟨_, e'⟩ | ⟨k, hk, hs', g1, g2, e'⟩
    · exact absurd (getElem_mono hx (i := 0) (j := j) (by omega) (by omega)) (not_le.2 (by linarith))
    · rw [e, e']
      refine (lerp_mem h1 h2 (getElem_mono hf (by omega) (by omega))).2.trans
        (getElem_mono hf (by omega) (by omega))
    · have hjk : j ≤ k := by
        have := searchsortedRight_mono (a := xp) hxy
        omega
      rw [e, e']
      rcases hjk.eq_or_lt with he | hlt
      · subst he
        have hd : 0 < xp[j + 1] - xp[j] := by linarith
        have hs : 0 ≤ (fp[j + 1]'(by omega) - fp[j]'(by omega)) / (xp[j + 1] - xp[j]) :=
          div_nonneg (sub_nonneg.2 (getElem_mono hf (by omega) (by omega))) hd.le
        have := mul_le_mul_of_nonneg_left (sub_le_sub_right hxy xp[j]) hs
        linarith
      · exact (lerp_mem h1 h2 (getElem_mono hf (by omega) (by omega))).2.trans
          ((getElem_mono hf (by omega) (by omega)).trans
            (lerp_mem g1 g2 (getElem_mono hf (by omega) (by omega))).1)

/-- `interp` of the identity table is the identity inside the table -/
theorem interp_at_interval (xp fp : List K) (hx : xp.Pairwise (· < ·)) (hlen : xp.length = fp.length)
    (j : ℕ) (hj : j + 1 < xp.length) (x : K) (h1 : xp[j] ≤ x) (h2 : x < xp[j + 1]) :
    interp xp fp x = (fp[j + 1]'(by omega) - fp[j]'(by omega)) / (xp[j + 1] - xp[j]) * (x - xp[j])
        + fp[j]'(by omega) := by
  have hp := List.pairwise_iff_getElem.1 hx
  have hs : searchsortedRight xp x = j + 1 := by
    apply searchsortedRight_eq_of _ (by omega)
    · intro k hk hki
      rcases Nat.lt_succ_iff_lt_or_eq.1 hki with h | h
      · exact (hp _ _ hk (by omega) h).le.trans h1
      · subst h; exact h1
    · intro _; exact h2
  simp only [interp, hs]
  rw [if_neg (by omega), if_neg (by omega)]
  simp only [Nat.add_sub_cancel]
  rw [List.getD_eq_getElem _ _ (by omega), List.getD_eq_getElem _ _ (by omega),
    List.getD_eq_getElem _ _ (by omega), List.getD_eq_getElem _ _ (by omega)]

end interp

/-! ### clip, linspace -/

theorem clip_mem [LinearOrder K] {x lo hi : K} (h : lo ≤ hi) : lo ≤ clip x lo hi ∧ clip x lo hi ≤ hi := by
  unfold clip
  exact ⟨le_min h (le_max_right _ _), min_le_left _ _⟩

theorem clip_eq_self [LinearOrder K] {x lo hi : K} (h1 : lo ≤ x) (h2 : x ≤ hi) : clip x lo hi = x := by
  unfold clip; rw [max_eq_left h1, min_eq_right h2]

theorem clip_mono [LinearOrder K] {x y lo hi : K} (h : x ≤ y) : clip x lo hi ≤ clip y lo hi := by
  unfold clip; exact min_le_min le_rfl (max_le_max h le_rfl)

@[simp] theorem linspace_length [Field K] (a b : K) (n : ℕ) : (linspace a b n).length = n := by
  simp [linspace]

theorem linspace_getElem [Field K] (a b : K) (n i : ℕ) (h : i < (linspace a b n).length) :
    (linspace a b n)[i] = a + (i : K) * ((b - a) / ((n : K) - 1)) := by
  simp [linspace]

theorem linspace_zero [Field K] (a b : K) (n : ℕ) (h : 0 < (linspace a b n).length) :
    (linspace a b n)[0] = a := by simp [linspace]

theorem linspace_last [Field K] [CharZero K] (a b : K) (n : ℕ) (hn : 2 ≤ n)
    (h : n - 1 < (linspace a b n).length) : (linspace a b n)[n - 1] = b := by
  rw [linspace_getElem]
  obtain ⟨m, rfl⟩ : ∃ m, n = m + 2 := ⟨n - 2, by omega⟩
  have : ((m + 2 - 1 : ℕ) : K) = (m : K) + 1 := by
    have : m + 2 - 1 = m + 1 := by omega
    rw [this]; push_cast; ring
  rw [this]
  have h2 : ((m + 2 : ℕ) : K) - 1 = (m : K) + 1 := by push_cast; ring
  rw [h2]
  have h3 : (m : K) + 1 ≠ 0 := by exact_mod_cast Nat.succ_ne_zero m
  field_simp
  ring

theorem linspace_strictMono [Field K] [LinearOrder K] [IsStrictOrderedRing K] {a b : K} (h : a < b) (n : ℕ) :
    (linspace a b n).Pairwise (· < ·) := by
  rw [List.pairwise_iff_getElem]
  intro i j hi hj hij
  rw [linspace_getElem, linspace_getElem]
  have hn : 2 ≤ n := by simp at hj; omega
  have h1 : (0 : K) < (n : K) - 1 := by
    have : (2 : K) ≤ (n : K) := by exact_mod_cast hn
    linarith
  have hs : 0 < (b - a) / ((n : K) - 1) := div_pos (by linarith) h1
  have : (i : K) < (j : K) := by exact_mod_cast hij
  have := mul_lt_mul_of_pos_right this hs
  linarith

end Verif.Py
