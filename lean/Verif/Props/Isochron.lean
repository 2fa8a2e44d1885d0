import Verif.Props.Fit

/-! C22: plotted production curves and isochrons. -/

namespace Verif.Props
open Verif.Cratercount Verif.Py Verif.Production Verif.Spec

noncomputable section

attribute [local irreducible] linspace

theorem clipE_mem {x : EReal} {lo hi : ℝ} (h : lo ≤ hi) : lo ≤ clipE x lo hi ∧ clipE x lo hi ≤ hi := by
  have h1 : (lo : EReal) ≤ min (hi : EReal) (max x lo) := le_min (EReal.coe_le_coe_iff.2 h) (le_max_right _ _)
  have h2 : min (hi : EReal) (max x lo) ≤ hi := min_le_left _ _
  unfold clipE
  set z := min (hi : EReal) (max x lo)
  have hz1 : z ≠ ⊥ := by rintro e; rw [e] at h1; exact absurd h1 (not_le.2 (EReal.bot_lt_coe lo))
  have hz2 : z ≠ ⊤ := by rintro e; rw [e] at h2; exact absurd h2 (not_le.2 (EReal.coe_lt_top hi))
  rw [← EReal.coe_toReal hz2 hz1] at h1 h2
  exact ⟨EReal.coe_le_coe_iff.1 h1, EReal.coe_le_coe_iff.1 h2⟩

theorem clipE_mono {x y : EReal} {lo hi : ℝ} (h : lo ≤ hi) (hxy : x ≤ y) : clipE x lo hi ≤ clipE y lo hi := by
  have hz : min (hi : EReal) (max x lo) ≤ min (hi : EReal) (max y lo) := min_le_min le_rfl (max_le_max hxy le_rfl)
  unfold clipE
  apply EReal.toReal_le_toReal hz
  · intro e
    have h1 : (lo : EReal) ≤ min (hi : EReal) (max x lo) := le_min (EReal.coe_le_coe_iff.2 h) (le_max_right _ _)
    rw [e] at h1; exact absurd h1 (not_le.2 (EReal.bot_lt_coe lo))
  · intro e
    have h2 : min (hi : EReal) (max y lo) ≤ hi := min_le_left _ _
    rw [e] at h2; exact absurd h2 (not_le.2 (EReal.coe_lt_top hi))

theorem clipE_self {x lo hi : ℝ} (h1 : lo ≤ x) (h2 : x ≤ hi) : clipE (x : EReal) lo hi = x := by
  unfold clipE
  rw [max_eq_left (EReal.coe_le_coe_iff.2 h1), min_eq_right (EReal.coe_le_coe_iff.2 h2), EReal.toReal_coe]

theorem linspace_mem {a b : ℝ} (n : ℕ) (hn : 2 ≤ n) {x : ℝ} (hx : x ∈ linspace a b n) : min a b ≤ x ∧ x ≤ max a b := by
  obtain ⟨i, hi, rfl⟩ := List.getElem_of_mem hx
  have hi' : i < n := by simpa using hi
  rw [linspace_getElem]
  have hn1 : (0 : ℝ) < (n : ℝ) - 1 := by
    have : (2 : ℝ) ≤ n := by exact_mod_cast hn
    linarith
  have e : a + (i : ℝ) * ((b - a) / ((n : ℝ) - 1)) = a + ((i : ℝ) / ((n : ℝ) - 1)) * (b - a) := by ring
  rw [e]
  set s := (i : ℝ) / ((n : ℝ) - 1) with hs
  have hs0 : 0 ≤ s := by positivity
  have hs1 : s ≤ 1 := by
    rw [hs, div_le_one hn1]
    have : (i : ℝ) + 1 ≤ n := by exact_mod_cast hi'
    linarith
  rcases le_total a b with h | h
  · rw [min_eq_left h, max_eq_right h]
    constructor <;> nlinarith
  · rw [min_eq_right h, max_eq_left h]
    constructor <;> nlinarith

theorem linspace_mono {a b : ℝ} (n : ℕ) (h : a ≤ b) : (linspace a b n).Pairwise (· ≤ ·) := by
  rcases h.eq_or_lt with e | e
  · subst e
    rw [List.pairwise_iff_getElem]
    intro i j hi hj _
    rw [linspace_getElem, linspace_getElem]
    simp
  · exact (linspace_strictMono e n).imp (fun {a b} (h : a < b) => h.le)

theorem mapM_length {α β : Type} {g : α → Except Err β} {l : List α} {l' : List β} (h : l.mapM g = .ok l') :
    l'.length = l.length ∧ ∀ i (h1 : i < l.length) (h2 : i < l'.length), g l[i] = .ok l'[i] := by
  induction l generalizing l' with
  | nil =>
    have : l' = [] := by
      rw [List.mapM_nil] at h
      injection h with h
      exact h.symm
    subst this
    simp
  | cons x l ih =>
    rw [List.mapM_cons] at h
    obtain ⟨y, hy, h⟩ := except_bind_eq_ok h
    obtain ⟨ys, hys, h⟩ := except_bind_eq_ok h
    injection h with h
    subst h
    obtain ⟨i1, i2⟩ := ih hys
    refine ⟨by simp [i1], ?_⟩
    intro i h1 h2
    cases i with
    | zero => simpa using hy
    | succ i => simpa using i2 i (by simpa using h1) (by simpa using h2)

/-- what a successful `getplotdata` has computed -/
theorem getplotdata_ok {f : PFn} {pr : Presentation} {a : ℝ} {range : Option (EReal × EReal)} {d y : List ℝ}
    (h : f.getplotdata pr (some a) range = .ok (d, y)) :
    0 < clipE (range.getD ((f.range.1 : EReal), (f.range.2 : EReal))).1 f.range.1 f.range.2 ∧
    0 < clipE (range.getD ((f.range.1 : EReal), (f.range.2 : EReal))).2 f.range.1 f.range.2 ∧
    d = (linspace (log10 (clipE (range.getD ((f.range.1 : EReal), (f.range.2 : EReal))).1 f.range.1 f.range.2))
      (log10 (clipE (range.getD ((f.range.1 : EReal), (f.range.2 : EReal))).2 f.range.1 f.range.2)) 400).map
        (fun x => (10 : ℝ) ^ x) ∧ d.mapM (fun x => f.evaluate pr x (some a)) = .ok y := by
  simp only [PFn.getplotdata, except_ok_bind] at h
  obtain ⟨lo, hlo, h⟩ := except_bind_eq_ok h
  obtain ⟨hi, hhi, h⟩ := except_bind_eq_ok h
  obtain ⟨ys, hys, h⟩ := except_bind_eq_ok h
  obtain ⟨g1, rfl⟩ := log10E_ok.1 hlo
  obtain ⟨g2, rfl⟩ := log10E_ok.1 hhi
  simp only [Except.ok.injEq, Prod.mk.injEq] at h
  obtain ⟨rfl, rfl⟩ := h
  exact ⟨g1, g2, rfl, hys⟩

/-- **C22, curve.** A plotted production curve consists of 400 points whose diameters all lie inside the function's
validity range, whatever range is requested (even infinite, inverted, or outside); for a properly ordered
request they do not decrease and run from the clipped lower to the clipped upper limit; each point carries the
function's value there. -/
theorem C22_curve (f : PFn) (hr : f.range.1 ≤ f.range.2) (pr : Presentation) (a0 : ℝ)
    (range : Option (EReal × EReal)) (d y : List ℝ) (h : f.getplotdata pr (some a0) range = .ok (d, y)) :
    d.length = 400 ∧ y.length = 400 ∧ (∀ x ∈ d, f.range.1 ≤ x ∧ x ≤ f.range.2) ∧
    (∀ r, range = some r → r.1 ≤ r.2 → d.Pairwise (· ≤ ·)) ∧
    (range = none → d.Pairwise (· ≤ ·) ∧ d[0]? = some f.range.1 ∧ d[399]? = some f.range.2) ∧
    (∀ r1 r2 : ℝ, range = some ((r1 : EReal), (r2 : EReal)) → f.range.1 ≤ r1 → r1 ≤ f.range.2 → f.range.1 ≤ r2 →
      r2 ≤ f.range.2 → d[0]? = some r1 ∧ d[399]? = some r2) ∧
    (∀ (i : ℕ) x v, d[i]? = some x → y[i]? = some v → f.evaluate pr x (some a0) = .ok v) := by
  obtain ⟨h1, h2, hd, hy⟩ := getplotdata_ok h
  set L := clipE (range.getD ((f.range.1 : EReal), (f.range.2 : EReal))).1 f.range.1 f.range.2 with hL
  set U := clipE (range.getD ((f.range.1 : EReal), (f.range.2 : EReal))).2 f.range.1 f.range.2 with hU
  obtain ⟨l1, l2⟩ := clipE_mem (x := (range.getD ((f.range.1 : EReal), (f.range.2 : EReal))).1) hr
  obtain ⟨u1, u2⟩ := clipE_mem (x := (range.getD ((f.range.1 : EReal), (f.range.2 : EReal))).2) hr
  rw [← hL] at l1 l2
  rw [← hU] at u1 u2
  obtain ⟨hyl, hyi⟩ := mapM_length hy
  have hdl : d.length = 400 := by rw [hd]; simp
  have hsort : L ≤ U → d.Pairwise (· ≤ ·) := by
    intro hLU
    rw [hd]
    exact (linspace_mono 400 ((log10_le h1 h2).2 hLU)).map _ (fun _ _ h => pow10_le.2 h)
  have h0 : d[0]? = some L := by
    rw [List.getElem?_eq_getElem (by omega)]
    simp only [hd, List.getElem_map, linspace_zero, pow10_log10 h1]
  have h399 : d[399]? = some U := by
    rw [List.getElem?_eq_getElem (by omega)]
    have := linspace_last (log10 L) (log10 U) 400 (by norm_num) (by simp)
    simp only [hd, List.getElem_map]
    rw [this, pow10_log10 h2]
  refine ⟨hdl, hyl.trans hdl, ?_, ?_, ?_, ?_, ?_⟩
  · intro x hx
    rw [hd] at hx
    obtain ⟨z, hz, rfl⟩ := List.mem_map.1 hx
    obtain ⟨z1, z2⟩ := linspace_mem 400 (by norm_num) hz
    constructor
    · rcases min_le_iff.1 z1 with g | g
      · calc f.range.1 ≤ L := l1
          _ = (10 : ℝ) ^ log10 L := (pow10_log10 h1).symm
          _ ≤ 10 ^ z := pow10_le.2 g
      · calc f.range.1 ≤ U := u1
          _ = (10 : ℝ) ^ log10 U := (pow10_log10 h2).symm
          _ ≤ 10 ^ z := pow10_le.2 g
    · rcases le_max_iff.1 z2 with g | g
      · calc (10 : ℝ) ^ z ≤ 10 ^ log10 L := pow10_le.2 g
          _ = L := pow10_log10 h1
          _ ≤ _ := l2
      · calc (10 : ℝ) ^ z ≤ 10 ^ log10 U := pow10_le.2 g
          _ = U := pow10_log10 h2
          _ ≤ _ := u2
  · intro r hr' hle
    apply hsort
    rw [hL, hU, hr']
    exact clipE_mono hr hle
  · intro hn
    subst hn
    have e1 : L = f.range.1 := by rw [hL]; exact clipE_self le_rfl hr
    have e2 : U = f.range.2 := by rw [hU]; exact clipE_self hr le_rfl
    refine ⟨hsort (by rw [e1, e2]; exact hr), by rw [h0, e1], by rw [h399, e2]⟩
  · intro r1 r2 hrr a b c e
    subst hrr
    have e1 : L = r1 := by rw [hL]; exact clipE_self a b
    have e2 : U = r2 := by rw [hU]; exact clipE_self c e
    exact ⟨by rw [h0, e1], by rw [h399, e2]⟩
  · intro i x v hx hv
    obtain ⟨hi, rfl⟩ := List.getElem?_eq_some_iff.1 hx
    obtain ⟨hi', rfl⟩ := List.getElem?_eq_some_iff.1 hv
    exact hyi i hi hi'

/-- polynomial functions with a positive range always deliver a curve, for the four curve presentations -/
theorem C22_curve_defined (a : List ℝ) (r : ℝ × ℝ) (hr0 : 0 < r.1) (hr : r.1 ≤ r.2) (pr : Presentation)
    (hpr : pr ∈ [Presentation.cumulative, .differential, .rplot, .hartmann]) (a0 : ℝ) (ha : a0 ≠ 0 ∨ a ≠ [])
    (range : Option (EReal × EReal)) :
    ∃ d y, (initPoly a (some r)).getplotdata pr (some a0) range = .ok (d, y) := by
  have hp : ∀ x : EReal, 0 < clipE x r.1 r.2 := fun x => lt_of_lt_of_le hr0 (clipE_mem hr).1
  have hev : ∀ x, 0 < x → ∃ v, (PFn.poly a r).evaluate pr x (some a0) = .ok v := by
    intro x hx
    have key : ∀ a1, ∃ v, (match pr with
        | .cumulative => (PFn.poly a r).C x a1
        | .differential => (PFn.poly a r).F x a1
        | .rplot => (PFn.poly a r).R x a1
        | .hartmann => (PFn.poly a r).H x a1
        | _ => .error .presentation) = .ok v := by
      intro a1
      simp only [List.mem_cons, List.not_mem_nil, or_false] at hpr
      rcases hpr with rfl | rfl | rfl | rfl
      · exact ⟨_, polyC_eq hx⟩
      · exact ⟨_, polyF_eq hx⟩
      · simp only [PFn.R, polyR, polyF_eq hx, except_ok_bind]; exact ⟨_, rfl⟩
      · simp only [PFn.H, polyH, polyF_eq hx, except_ok_bind]; exact ⟨_, rfl⟩
    by_cases h0 : a0 = 0
    · obtain ⟨z, l, rfl⟩ := List.exists_cons_of_ne_nil (ha.resolve_left (not_not.2 h0))
      simp only [PFn.evaluate, if_pos h0, PFn.defaultA0, List.getElem?_cons_zero, except_ok_bind]
      exact key z
    · simp only [PFn.evaluate, if_neg h0, except_ok_bind]
      exact key a0
  choose! g hg using hev
  have hm : ∀ l : List ℝ, (l.map (fun x => (10 : ℝ) ^ x)).mapM (fun x => (PFn.poly a r).evaluate pr x (some a0)) =
      .ok ((l.map (fun x => (10 : ℝ) ^ x)).map g) := by
    intro l
    apply mapM_ok_of
    intro x hx
    obtain ⟨z, _, rfl⟩ := List.mem_map.1 hx
    exact hg _ (pow10_pos z)
  simp only [initPoly, PFn.getplotdata, Option.getD_some, except_ok_bind, PFn.range, log10E_pos (hp _), hm]
  exact ⟨_, _, rfl⟩

/-- **C22, functions without range.**  A polynomial function without validity range is drawn from 0.1 m to 2000 km. -/
theorem C22_default_range (a : List ℝ) (pr : Presentation) (hpr : pr ∈ [Presentation.cumulative, .differential, .rplot, .hartmann]) (a0 : ℝ)
    (ha : a0 ≠ 0 ∨ a ≠ []) : ∃ d y, (initPoly a none).getplotdata pr (some a0) none = .ok (d, y) ∧ d.length = 400 ∧
      d[0]? = some (1 / 10000) ∧ d[399]? = some 2000 := by
  have hi : initPoly a none = initPoly a (some (1 / 10000, 2000)) := by
    unfold initPoly
    norm_num
  rw [hi]
  obtain ⟨d, y, h⟩ := C22_curve_defined a (1 / 10000, 2000) (by norm_num) (by norm_num) pr hpr a0 ha none
  obtain ⟨h1, -, -, -, h2, -⟩ := C22_curve _ (by norm_num [initPoly, PFn.range]) pr a0 none d y h
  obtain ⟨-, h3, h4⟩ := h2 rfl
  exact ⟨d, y, h, h1, h3, h4⟩

example : ∃ d y, (initPoly [-3.0768, -3.557528] (some (0.01, 1000))).getplotdata .differential (some (-2)) (some (⊥, ⊤)) = .ok (d, y) :=
  C22_curve_defined _ _ (by norm_num) (by norm_num) _ (by simp) _ (.inl (by norm_num)) _

/-- the limit of an isochron point at diameter `x`: the equilibrium value at the greatest sample below `x`, or the value
at the last sample if there is none below (Python index -1) -/
def IsoLimit (ed ey : List ℝ) (x v : ℝ) : Prop :=
  (∃ (j : ℕ) (e : ℝ), ed[j]? = some e ∧ e < x ∧ (∀ (j' : ℕ) (e' : ℝ), j < j' → ed[j']? = some e' → x ≤ e') ∧ ey[j]? = some v) ∨
  ((∀ e ∈ ed, x ≤ e) ∧ ey.getLast? = some v)

theorem locate_spec {ed ey : List ℝ} (hs : ed.Pairwise (· ≤ ·)) (hl : ed.length = ey.length) {x v : ℝ}
    (h : locate ey (searchsorted ed x) = .ok v) : IsoLimit ed ey x v := by
  unfold locate at h
  split at h
  · next h0 =>
    right
    refine ⟨?_, ?_⟩
    · intro e he
      obtain ⟨i, hi, rfl⟩ := List.getElem_of_mem he
      exact le_of_searchsorted_le hs hi (by omega)
    · split at h
      · next x hx => injection h with h; rw [hx, h]
      · cases h
  · next j hj =>
    left
    split at h
    · next z hz =>
      injection h with h
      obtain ⟨hjl, _⟩ := List.getElem?_eq_some_iff.1 hz
      refine ⟨j, ed[j]'(by omega), List.getElem?_eq_getElem _, lt_of_lt_searchsorted (by omega) (by omega), ?_, by rw [hz, h]⟩
      intro j' e' hjj he'
      obtain ⟨hj', rfl⟩ := List.getElem?_eq_some_iff.1 he'
      exact le_of_searchsorted_le hs hj' (by omega)
    · cases h

/-- **C22, isochron (the part that holds).** An isochron drawn with an equilibrium function is a sub-list of the plotted
curve and a point is kept exactly if its value is below 80% of its limit, which is the equilibrium value at the
next lower equilibrium sample.  Missing: points without a lower sample are compared with the *last* sample, see the
counterexample. -/
theorem C22_isochron_partial (f e : PFn) (he : e.range.1 ≤ e.range.2) (pr : Presentation) (a0 : ℝ)
    (iso : List (ℝ × ℝ)) (h : f.getisochron pr a0 (some e) = .ok iso) :
    ∃ d y ed ey, f.getplotdata pr (some a0) none = .ok (d, y) ∧ e.getplotdata pr none none = .ok (ed, ey) ∧
      iso.Sublist (d.zip y) ∧
      ∃ keep : List Bool, keep.length = (d.zip y).length ∧
        iso = ((d.zip y).zip keep).filterMap (fun q => if q.2 then some q.1 else none) ∧
        ∀ (i : ℕ) q k, (d.zip y)[i]? = some q → keep[i]? = some k →
          ∃ v, IsoLimit ed ey q.1 v ∧ (k = true ↔ q.2 < 0.8 * v) := by
  unfold PFn.getisochron at h
  obtain ⟨⟨d, y⟩, h1, h⟩ := except_bind_eq_ok h
  simp only at h
  obtain ⟨⟨ed, ey⟩, h2, h⟩ := except_bind_eq_ok h
  simp only at h
  obtain ⟨lim, h3, h⟩ := except_bind_eq_ok h
  injection h with h
  -- the equilibrium curve is an ordinary curve
  obtain ⟨a, ha⟩ : ∃ a, e.getplotdata pr (some a) none = .ok (ed, ey) := by
    cases e with
    | poly c r =>
      cases hc : (PFn.poly c r).defaultA0 with
      | ok a => exact ⟨a, by simpa [PFn.getplotdata, hc] using h2⟩
      | error er => simp [PFn.getplotdata, hc] at h2
    | tab x y z r => simp [PFn.getplotdata] at h2
  obtain ⟨c1, c2, _, _, c5, _, _⟩ := C22_curve e he pr a none ed ey ha
  obtain ⟨m1, m2⟩ := mapM_length h3
  have hdy : y.length = d.length := (mapM_length (getplotdata_ok h1).2.2.2).1
  refine ⟨d, y, ed, ey, h1, h2, ?_, ?_⟩
  · rw [← h, List.unzip_fst]
    have : (((d.zip y).zip lim).map Prod.fst) = d.zip y := by
      rw [List.map_fst_zip]
      simp [m1]
    rw [← this]
    simp only [this]
    exact (List.filter_sublist (l := (d.zip y).zip lim)).map Prod.fst |>.trans (by rw [this])
  · refine ⟨List.zipWith (fun q l => decide (q.2 < l * 0.8)) (d.zip y) lim, ?_, ?_, ?_⟩
    · simp [m1]
    · rw [← h, List.unzip_fst]
      generalize d.zip y = l
      clear h3 m2 h m1
      induction l generalizing lim with
      | nil => simp
      | cons q l ih =>
        cases lim with
        | nil => simp
        | cons v lim =>
          simp only [List.zip_cons_cons, List.zipWith_cons_cons, List.filter_cons, List.filterMap_cons]
          by_cases hq : q.2 < v * 0.8
          · simp only [hq, decide_true, if_true, List.map_cons]
            rw [ih]
          · simp only [hq, decide_false, Bool.false_eq_true, if_false]
            rw [ih]
    · intro i q k hq hk
      obtain ⟨hi, rfl⟩ := List.getElem?_eq_some_iff.1 hq
      obtain ⟨hi', rfl⟩ := List.getElem?_eq_some_iff.1 hk
      have hid : i < d.length := by simp at hi; omega
      have hil : i < lim.length := by omega
      refine ⟨lim[i], ?_, ?_⟩
      · have := m2 i hid hil
        rw [List.getElem_zip]
        exact locate_spec (c5 rfl).1 (by rw [c1, c2]) this
      · rw [List.getElem_zipWith, decide_eq_true_eq, mul_comm]

theorem locate_defined {l : List ℝ} (hl : l ≠ []) {i : ℕ} (hi : i ≤ l.length) : ∃ v, locate l i = .ok v := by
  cases i with
  | zero =>
    simp only [locate, List.getLast?_eq_some_getLast hl]
    exact ⟨_, rfl⟩
  | succ j =>
    simp only [locate, List.getElem?_eq_getElem (show j < l.length by omega)]
    exact ⟨_, rfl⟩

/-- isochrons of polynomial functions are always defined -/
theorem C22_isochron_defined (a c : List ℝ) (hc : c ≠ []) (r q : ℝ × ℝ) (hr0 : 0 < r.1) (hr : r.1 ≤ r.2) (hq0 : 0 < q.1)
    (hq : q.1 ≤ q.2) (pr : Presentation)
    (hpr : pr ∈ [Presentation.cumulative, .differential, .rplot, .hartmann]) (a0 : ℝ) (ha : a0 ≠ 0 ∨ a ≠ []) :
    ∃ iso, (initPoly a (some r)).getisochron pr a0 (some (initPoly c (some q))) = .ok iso := by
  obtain ⟨d, y, h1⟩ := C22_curve_defined a r hr0 hr pr hpr a0 ha none
  obtain ⟨c0, c', rfl⟩ := List.exists_cons_of_ne_nil hc
  obtain ⟨ed, ey, h2⟩ := C22_curve_defined (c0 :: c') q hq0 hq pr hpr c0 (.inr hc) none
  have h2' : (initPoly (c0 :: c') (some q)).getplotdata pr none none = .ok (ed, ey) := by
    rw [← h2]
    simp [PFn.getplotdata, initPoly, PFn.defaultA0]
  obtain ⟨c1, c2, _⟩ := C22_curve _ (show (initPoly (c0 :: c') (some q)).range.1 ≤ _ from hq) pr c0 none ed ey h2
  have hloc : ∀ x, ∃ v, locate ey (searchsorted ed x) = .ok v := by
    intro x
    apply locate_defined
    · rintro rfl; simp at c2
    · rw [c2, ← c1]; exact searchsorted_le_length _ _
  choose g hg using hloc
  have hm : d.mapM (fun x => locate ey (searchsorted ed x)) = .ok (d.map g) := mapM_ok_of (fun x _ => hg x)
  simp only [PFn.getisochron, h1, except_ok_bind, h2', hm]
  exact ⟨_, rfl⟩

/-- **C22 is false for the lowest point.** A constant isochron of 10 against the equilibrium curve 1/D over the default
range: at the lower end the equilibrium value is 10000, so the point lies far below it, but it is removed since it
was compared with the value at the upper end. -/
theorem C22_wrap_counterexample :
    ∃ iso, (initPoly [1] (some (0.0001, 2000))).getisochron .cumulative 1 (some (initPoly [0, -1] (some (0.0001, 2000)))) = .ok iso ∧
      (∃ d y, (initPoly [1] (some (0.0001, 2000))).getplotdata .cumulative (some 1) none = .ok (d, y) ∧
        (d.zip y)[0]? = some ((0.0001 : ℝ), (10 : ℝ))) ∧
      (initPoly [0, -1] (some (0.0001, 2000))).evaluate .cumulative 0.0001 none = .ok 10000 ∧
      ((0.0001 : ℝ), (10 : ℝ)) ∉ iso := by
  obtain ⟨iso, h⟩ := C22_isochron_defined [1] [0, -1] (by simp) (0.0001, 2000) (0.0001, 2000) (by norm_num) (by norm_num)
    (by norm_num) (by norm_num) .cumulative (by simp) 1 (.inl one_ne_zero)
  have hr : (initPoly [1] (some (0.0001, 2000))).range.1 ≤ (initPoly [1] (some (0.0001, 2000))).range.2 := by
    simp only [initPoly, PFn.range, Option.getD_some]; norm_num
  have he : (initPoly [0, -1] (some (0.0001, 2000))).range.1 ≤ (initPoly [0, -1] (some (0.0001, 2000))).range.2 := by
    simp only [initPoly, PFn.range, Option.getD_some]; norm_num
  have hev : ∀ x : ℝ, 0 < x → (initPoly [1] (some (0.0001, 2000))).evaluate .cumulative x (some 1) = .ok 10 := by
    intro x hx
    simp [PFn.evaluate, initPoly, PFn.C, polyC_eq hx, except_ok_bind, poly_cons, poly_nil]
  have hee : ∀ x : ℝ, 0 < x → (initPoly [0, -1] (some (0.0001, 2000))).evaluate .cumulative x (some 0) = .ok (1 / x) := by
    intro x hx
    simp [PFn.evaluate, initPoly, PFn.C, polyC_eq hx, except_ok_bind, poly_cons, poly_nil, PFn.defaultA0, Real.rpow_neg,
      pow10_log10 hx]
  refine ⟨iso, h, ?_, ?_, ?_⟩
  · obtain ⟨d, y, hd⟩ := C22_curve_defined [1] (0.0001, 2000) (by norm_num) (by norm_num) .cumulative (by simp) 1 (.inl one_ne_zero) none
    refine ⟨d, y, hd, ?_⟩
    obtain ⟨c1, c2, _, _, c5, _, c7⟩ := C22_curve _ hr .cumulative 1 none d y hd
    have h0 := (c5 rfl).2.1
    have hy0 : y[0]? = some (y[0]'(by omega)) := List.getElem?_eq_getElem _
    have e1 : (initPoly [1] (some (0.0001, 2000))).range.1 = 0.0001 := rfl
    rw [e1] at h0
    have := c7 0 _ _ h0 hy0
    rw [hev _ (by norm_num)] at this
    injection this with this
    rw [List.getElem?_zip_eq_some]
    exact ⟨h0, by rw [hy0, ← this]⟩
  · have := hee 0.0001 (by norm_num)
    have e : (initPoly [0, -1] (some (0.0001, 2000))).evaluate .cumulative 0.0001 none =
      (initPoly [0, -1] (some (0.0001, 2000))).evaluate .cumulative 0.0001 (some 0) := by
      simp [PFn.evaluate]
    rw [e, this]
    norm_num
  · intro hmem
    obtain ⟨d, y, ed, ey, h1, h2, _, keep, hk1, hk2, hk3⟩ := C22_isochron_partial _ _ he .cumulative 1 iso h
    rw [hk2, List.mem_filterMap] at hmem
    obtain ⟨q, hq, hqq⟩ := hmem
    split at hqq
    · next hkeep =>
      injection hqq with hqq
      obtain ⟨i, hi, hqi⟩ := List.getElem_of_mem hq
      simp only [List.getElem_zip] at hqi
      have hi1 : i < (d.zip y).length := by simp at hi ⊢; omega
      have hi2 : i < keep.length := by omega
      have hz : (d.zip y)[i]? = some q.1 := by
        rw [List.getElem?_eq_getElem hi1, ← hqi]; simp
      have hz2 : keep[i]? = some q.2 := by
        rw [List.getElem?_eq_getElem hi2, ← hqi]
      obtain ⟨v, hv, hvk⟩ := hk3 i _ _ hz hz2
      have hlt := hvk.1 hkeep
      rw [hqq] at hv hlt
      have h2' : (initPoly [0, -1] (some (0.0001, 2000))).getplotdata .cumulative (some 0) none = .ok (ed, ey) := by
        rw [← h2]
        simp [PFn.getplotdata, initPoly, PFn.defaultA0]
      obtain ⟨c1, c2, c3, _, c5, _, c7⟩ := C22_curve _ he .cumulative 0 none ed ey h2'
      have e1 : (initPoly [0, -1] (some (0.0001, 2000))).range.1 = 0.0001 := rfl
      have e2 : (initPoly [0, -1] (some (0.0001, 2000))).range.2 = 2000 := rfl
      rw [e1, e2] at c3 c5
      rcases hv with ⟨j, e, hje, hlt', _⟩ | ⟨_, hlast⟩
      · exact absurd (c3 e (List.mem_of_getElem? hje)).1 (not_le.2 hlt')
      · rw [List.getLast?_eq_getElem?, c2] at hlast
        have := c7 399 _ _ (c5 rfl).2.2 hlast
        rw [hee _ (by norm_num)] at this
        injection this with this
        rw [← this] at hlt
        norm_num at hlt
    · cases hqq

end

end Verif.Props
