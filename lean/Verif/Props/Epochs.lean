import Verif.Model.Epochs
import Verif.Props.Fit
import Verif.Props.Chronology
import Verif.Lemmas.Likelihood
import Verif.Props.RandomnessFile

/-! C61, C75: epoch systems. -/

namespace Verif.Props
open Verif.Py Verif.Text Verif.Rand Verif.Cratercount Verif.Production Verif.Chronology Verif.Epochs Verif.Spec

noncomputable section

theorem mapM_ok_forall {α β ε : Type} {g : α → Except ε β} {P : α → β → Prop} {l : List α} (h : ∀ x ∈ l, ∃ y, g x = .ok y ∧ P x y) :
    ∃ ys, l.mapM g = .ok ys ∧ List.Forall₂ P l ys := by
  induction l with
  | nil => exact ⟨[], rfl, .nil⟩
  | cons x l ih =>
    obtain ⟨y, hy, hp⟩ := h x (by simp)
    obtain ⟨ys, hys, hps⟩ := ih (fun z hz => h z (by simp [hz]))
    exact ⟨y :: ys, by rw [List.mapM_cons, hy]; show (l.mapM g >>= _) = _; rw [hys]; rfl, .cons hp hps⟩

/-- ages are strictly increasing in the density, below the end of the chronology -/
theorem age_strict {p : List ℝ} {c : Chron} (hc : Chronology.init p = .ok c) {p0 p1 p3 : ℝ}
    (e0 : p[0]? = some p0) (e1 : p[1]? = some p1) (e3 : p[3]? = some p3)
    (h0 : 0 ≤ p0) (h1 : 0 ≤ p1) (h3 : 0 < p3) {m n s t : ℝ} (hm : 0 ≤ m) (hmn : m < n)
    (hs : c.t none (some m) = .ok s) (ht : c.t none (some n) = .ok t) : s < t ∨ s = 5 := by
  obtain ⟨hp, hts, hns⟩ := init_tables hc e0 e1 e3
  injection hs with hs
  injection ht with ht
  subst hs
  subst ht
  have hsx := n1s_sorted h0 h1 h3
  have hlx : ((linspace (0 : ℝ) 5 1000).map (n1Coeff p0 p1 p3)).length = 1000 := by simp
  have hlt : (linspace (0 : ℝ) 5 1000).length = 1000 := by simp
  by_cases hb : m < n1Coeff p0 p1 p3 5
  · left
    rw [hns, hts]
    refine interp_strict _ _ hsx ts_sorted (by simp) (by rw [hlx]; norm_num) hmn ?_ ?_
    · rw [List.getElem_map, ts_getElem]
      simpa [n1Coeff] using hm
    · rw [List.getElem_map, ts_getElem]
      simp only [hlx]
      norm_num
      exact hb
  · right
    rw [hns, hts]
    have hst := ts_sorted.imp (fun {a b} (h : a < b) => h.le)
    have hsx' := hsx.imp (fun {a b} (h : a < b) => h.le)
    have hn5 := interp_node _ (linspace (0 : ℝ) 5 1000) hsx (by simp) 999 (by rw [hlx]; norm_num)
    rw [List.getElem_map, ts_getElem] at hn5
    norm_num at hn5
    have hmono := interp_mono _ _ hsx' hst (by simp) (by rw [hlx]; norm_num) (not_lt.1 hb)
    have hr := (interp_mem_range _ _ hsx' hst (by simp) (by rw [hlx]; norm_num) m).2
    rw [ts_getElem] at hr
    simp only [hlt] at hr
    norm_num at hr
    linarith

theorem findEpochs_first {identifier : List Char} {before after : List TVal} {e : TVal}
    (hb : ∀ x ∈ before, ∃ n, tget x "name".toList = .ok (.str n) ∧ n ≠ identifier) (he : tget e "name".toList = .ok (.str identifier)) :
    findEpochs identifier (before ++ e :: after) = .ok e := by
  induction before with
  | nil =>
    rw [List.nil_append, findEpochs, he]
    show (if TVal.str identifier = TVal.str identifier then _ else _) = _
    rw [if_pos rfl]
  | cons x l ih =>
    obtain ⟨n, hn, hne⟩ := hb x (by simp)
    rw [List.cons_append, findEpochs, hn]
    show (if TVal.str n = TVal.str identifier then _ else _) = _
    rw [if_neg (by simpa using hne)]
    exact ih (fun y hy => hb y (by simp [hy]))

theorem mapM_texts {α : Type} {f : TVal → Except Exc α} {ts : List (List Char)} {qs : List α}
    (h : List.Forall₂ (fun s q => f (.str s) = .ok q) ts qs) : (ts.map TVal.str).mapM f = .ok qs := by
  induction h with
  | nil => rfl
  | cons h _ ih =>
    rw [List.map_cons, List.mapM_cons, h]
    show ((List.map TVal.str _).mapM f >>= _) = _
    rw [ih]
    rfl

/-- **C61, definitions.** The first definition with the name asked for is used.  If it lists times, the boundary ages are the listed
numbers in their order; otherwise the reference diameters and densities are those listed. -/
theorem C61_definition (src : List (List Char × TVal)) (before after : List TVal) (d : List (List Char × TVal)) (identifier : List Char)
    (hs : dictGet src "epochs".toList = some (.list (before ++ .dict d :: after)))
    (hb : ∀ x ∈ before, ∃ n, tget x "name".toList = .ok (.str n) ∧ n ≠ identifier)
    (hn : dictGet d "name".toList = some (.str identifier)) :
    (∀ ts qs, dictGet d "time".toList = some (.list (ts.map .str)) → List.Forall₂ (fun s q => decVal s = some q) ts qs →
      dictGet d "ref_diameter".toList = none → dictGet d "density".toList = none →
      ∃ e, load (.dict src) identifier = .ok e ∧ ∀ pf cf c, times pf cf c e = .ok (qs.map (fun q : ℚ => (q : ℝ)))) ∧
    (∀ ds zs ns qs, dictGet d "ref_diameter".toList = some (.list (ds.map .str)) → List.Forall₂ (fun s z => intVal s = some z) ds zs →
      dictGet d "density".toList = some (.list (ns.map .str)) → List.Forall₂ (fun s q => decVal s = some q) ns qs →
      dictGet d "time".toList = none → load (.dict src) identifier = .ok ⟨some zs, some qs, none⟩) := by
  have hf := findEpochs_first (after := after) (e := .dict d) hb (by rw [tget, hn])
  have h1 : tget (.dict src) "epochs".toList = .ok (.list (before ++ .dict d :: after)) := by rw [tget, hs]
  have hfl : ∀ {ss : List (List Char)} {qs : List ℚ}, List.Forall₂ (fun s q => decVal s = some q) ss qs →
      (ss.map TVal.str).mapM tfloat = .ok qs := fun h => mapM_texts (h.imp (fun _ _ h => by rw [tfloat, h]))
  have hint : ∀ {ss : List (List Char)} {qs : List ℤ}, List.Forall₂ (fun s q => intVal s = some q) ss qs →
      (ss.map TVal.str).mapM tint = .ok qs := fun h => mapM_texts (h.imp (fun _ _ h => by rw [tint, h]))
  have hload : load (.dict src) identifier = (do
      let r ← optField d "ref_diameter".toList tint
      let n ← optField d "density".toList tfloat
      let t ← optField d "time".toList tfloat
      .ok ⟨r, n, t⟩) := by
    unfold load
    rw [h1]
    show (findEpochs identifier _ >>= _) = _
    rw [hf]
    rfl
  have hopt : ∀ {α : Type} {k : List Char} {f : TVal → Except Exc α} {ss : List (List Char)} {qs : List α},
      dictGet d k = some (.list (ss.map .str)) → (ss.map TVal.str).mapM f = .ok qs → optField d k f = .ok (some qs) := by
    intro α k f ss qs h1 h2
    unfold optField
    rw [h1]
    show ((ss.map TVal.str).mapM f >>= _) = _
    rw [h2]
    rfl
  have hnone : ∀ {α : Type} {k : List Char} {f : TVal → Except Exc α}, dictGet d k = none → optField d k f = .ok none := by
    intro α k f h
    unfold optField
    rw [h]
  constructor
  · intro ts qs g1 g2 g3 g4
    refine ⟨⟨none, none, some qs⟩, ?_, fun pf cf c => rfl⟩
    rw [hload, hnone g3, hnone g4, hopt g1 (hfl g2)]
    rfl
  · intro ds zs ns qs g1 g2 g3 g4 g5
    rw [hload, hopt g1 (hint g2), hopt g3 (hfl g4), hnone g5]
    rfl

example : List.Forall₂ (fun s q => decVal s = some q) [['0', '.'], ['1', '.', '1']] [(0 : ℚ), 11 / 10] :=
  .cons (by decide +kernel) (.cons (by decide +kernel) .nil)

/-- **C61.** If an epoch system is defined by densities (per million km², positive) of craters above reference diameters
(positive), its boundary times are 0 followed by one time per pair.  Each lies in [0,5] Ga and is the age of an isochron through
the given density at the reference diameter.  Boundaries with a common reference diameter are in the same order as their
densities: strictly, except that times beyond the end of the chronology are all 5 Ga. -/
theorem C61_boundary_times (pf : PFn) (hf : Constructed pf) (cf : CurveFit) (hcf : CurveFitSpec cf)
    (p : List ℝ) (c : Chron) (hc : Chronology.init p = .ok c) (p0 p1 p3 : ℝ)
    (e0 : p[0]? = some p0) (e1 : p[1]? = some p1) (e3 : p[3]? = some p3)
    (h0 : 0 ≤ p0) (h1 : 0 ≤ p1) (h3 : 0 < p3)
    (r : List ℤ) (n : List ℚ) (hr : ∀ d ∈ r, 0 < d) (hn : ∀ q ∈ n, 0 < q) :
    ∃ t, times pf cf c ⟨some r, some n, none⟩ = .ok (0 :: t) ∧ t.length = min r.length n.length ∧
      (∀ x ∈ t, 0 ≤ x ∧ x ≤ 5) ∧
      (∀ (i : ℕ) d q x, r[i]? = some d → n[i]? = some q → t[i]? = some x →
        ∃ a, pf.C (d : ℝ) a = .ok ((q : ℝ) / 1e6) ∧ c.t (some a) none = .ok x) ∧
      (∀ (i j : ℕ) d q q' x x', r[i]? = some d → r[j]? = some d → n[i]? = some q → n[j]? = some q' → t[i]? = some x →
        t[j]? = some x' → q < q' → x < x' ∨ x = 5 ∧ x' = 5) := by
  obtain ⟨age, ha1, ha2, hage, hmono, _⟩ := C15_age_inversion p c hc p0 p1 p3 e0 e1 e3 h0 h1 h3
  obtain ⟨K, hK⟩ := C20_cumulative_applies pf
  -- the isochron of one boundary
  have hone : ∀ x ∈ r.zip n, ∃ a, boundaryA0 pf cf x = .ok a ∧ (pf.C (x.1 : ℝ) a = .ok ((x.2 : ℝ) / 1e6) ∧ 0 < (x.1 : ℝ)) := by
    intro x hx
    have hd : (0 : ℝ) < x.1 := by exact_mod_cast hr _ (List.of_mem_zip hx).1
    have hq : (0 : ℝ) < (x.2 : ℝ) / 1e6 := by
      have : (0 : ℝ) < x.2 := by exact_mod_cast hn _ (List.of_mem_zip hx).2
      positivity
    obtain ⟨hk0, hkp⟩ := hK x.1 0 hd
    set y : ℝ := (x.2 : ℝ) / 1e6 with hy
    set a := log10 (y / K x.1 0) with hadef
    have hon : pf.C (x.1 : ℝ) a = .ok y := by
      have := (C16_scaling pf hf x.1 0 a (K x.1 0)).1 hk0
      rw [zero_add] at this
      rw [this, hadef, pow10_log10 (div_pos hq hkp), div_mul_cancel₀ _ hkp.ne']
    obtain ⟨res, hfit, hbest⟩ := C20_fit_recovers pf hf cf hcf .cumulative a [⟨(x.1 : ℝ), y, 0⟩] (by simp)
      (by intro q hq'; simp at hq'; subst hq'; exact ⟨hon, hq⟩) (by intro q hq'; simp at hq'; subst hq'; exact hq)
    refine ⟨a, ?_, hon, hd⟩
    have hfit' : pf.fit cf .cumulative [⟨(x.1 : ℝ), y, 0⟩] = .ok res := hfit
    rw [boundaryA0, hfit']
    show Except.ok res.best = _
    rw [hbest]
  obtain ⟨as, has, hfa⟩ := mapM_ok_forall hone
  have ht : as.mapM (fun a => c.t (some a) none) = .ok (as.map (fun a => age ((10 : ℝ) ^ a))) :=
    mapM_ok_of (fun a _ => ha2 a none)
  have hat : ∀ (i : ℕ) d q x, r[i]? = some d → n[i]? = some q → (as.map (fun a => age ((10 : ℝ) ^ a)))[i]? = some x →
      ∃ a, pf.C (d : ℝ) a = .ok ((q : ℝ) / 1e6) ∧ age ((10 : ℝ) ^ a) = x ∧ 0 < (d : ℝ) := by
    intro i d q x hd hq hx
    rw [List.getElem?_map, Option.map_eq_some_iff] at hx
    obtain ⟨a, hai, rfl⟩ := hx
    obtain ⟨hi, hai⟩ := List.getElem?_eq_some_iff.1 hai
    have hl := hfa.length_eq
    have := (List.forall₂_iff_get.1 hfa).2 i (by omega) hi
    obtain ⟨hri, hrd⟩ := List.getElem?_eq_some_iff.1 hd
    obtain ⟨hni, hnq⟩ := List.getElem?_eq_some_iff.1 hq
    simp only [List.get_eq_getElem, List.getElem_zip, hai, hrd, hnq] at this
    exact ⟨a, this.1, rfl, this.2⟩
  refine ⟨as.map (fun a => age ((10 : ℝ) ^ a)), ?_, ?_, ?_, ?_, ?_⟩
  · show ((r.zip n).mapM (boundaryA0 pf cf) >>= _) = _
    rw [has]
    show (as.mapM (fun a => c.t (some a) none) >>= _) = _
    rw [ht]; rfl
  · rw [List.length_map, ← hfa.length_eq, List.length_zip]
  · intro x hx
    obtain ⟨a, _, rfl⟩ := List.mem_map.1 hx
    exact hage _
  · intro i d q x hd hq hx
    obtain ⟨a, h, hx, _⟩ := hat i d q x hd hq hx
    exact ⟨a, h, by rw [ha2, hx]⟩
  · intro i j d q q' x x' hri hrj hqi hqj hxi hxj hlt
    obtain ⟨a, ha, hxa, hd⟩ := hat i d q x hri hqi hxi
    obtain ⟨b, hb, hxb, _⟩ := hat j d q' x' hrj hqj hxj
    obtain ⟨hk0, hkp⟩ := hK d 0 hd
    have hs := fun a => (C16_scaling pf hf d 0 a (K d 0)).1 hk0
    have ea : (10 : ℝ) ^ a * K d 0 = (q : ℝ) / 1e6 := by
      have := hs a; rw [zero_add] at this; rw [this] at ha; injection ha
    have eb : (10 : ℝ) ^ b * K d 0 = (q' : ℝ) / 1e6 := by
      have := hs b; rw [zero_add] at this; rw [this] at hb; injection hb
    have hab : (10 : ℝ) ^ a < (10 : ℝ) ^ b := by
      have : (q : ℝ) < q' := by exact_mod_cast hlt
      have h6 : (q : ℝ) / 1e6 < (q' : ℝ) / 1e6 := by gcongr
      rw [← ea, ← eb] at h6
      exact lt_of_mul_lt_mul_right h6 hkp.le
    rcases age_strict hc e0 e1 e3 h0 h1 h3 (pow10_pos a).le hab (ha1 _) (ha1 _) with h | h
    · left; rw [← hxa, ← hxb]; exact h
    · right
      refine ⟨hxa ▸ h, ?_⟩
      have := hmono hab.le
      have := (hage ((10 : ℝ) ^ b)).2
      rw [← hxb]
      linarith

/-- a Mars-like system: two boundaries at 1 km and one at 5 km -/
example : (∀ d ∈ ([1, 1, 5] : List ℤ), 0 < d) ∧ (∀ q ∈ ([160, 600, 125] : List ℚ), 0 < q) ∧
    Constructed (initPoly [-3, -2] none) ∧ ∃ c, Chronology.init [5.44e-14, 6.93, 0, 8.38e-4] = .ok c := by
  refine ⟨by simp, by simp, Or.inl ⟨_, _, rfl⟩, ?_⟩
  obtain ⟨c, h, _⟩ := (C14_construct [5.44e-14, 6.93, 0, 8.38e-4]).2 (by simp)
  exact ⟨c, h⟩

/-- reading such a definition -/
example : load (.dict [("epochs".toList, .list [.dict [("name".toList, .str "Moon".toList)],
    .dict [("name".toList, .str "Mars".toList), ("ref_diameter".toList, .list [.str ['1'], .str ['5']]),
      ("density".toList, .list [.str "160".toList, .str "12.5".toList])]])]) "Mars".toList =
    .ok ⟨some [1, 5], some [160, 25 / 2], none⟩ := by decide +kernel

/-! ### C75: labels on the time axis -/

/-- a strictly increasing list is divided by two bounds -/
theorem split_sorted (l : List ℝ) (hl : l.Pairwise (· < ·)) (a b : ℝ) (hab : a < b) :
    ∃ A B D, l = A ++ B ++ D ∧ (∀ x ∈ A, x ≤ a) ∧ (∀ x ∈ B, a < x ∧ x < b) ∧ ∀ x ∈ D, b ≤ x := by
  induction l with
  | nil => exact ⟨[], [], [], rfl, by simp, by simp, by simp⟩
  | cons x l ih =>
    obtain ⟨hx, hl⟩ := List.pairwise_cons.1 hl
    obtain ⟨A, B, D, rfl, hA, hB, hD⟩ := ih hl
    by_cases h1 : x ≤ a
    · exact ⟨x :: A, B, D, rfl, by simpa [h1] using hA, hB, hD⟩
    · push Not at h1
      have hA0 : A = [] := by
        cases A with
        | nil => rfl
        | cons y A =>
          have := hx y (by simp)
          have := hA y (by simp)
          linarith
      subst hA0
      by_cases h2 : x < b
      · exact ⟨[], x :: B, D, by simp, by simp, by simpa [h1, h2] using hB, hD⟩
      · push Not at h2
        have hB0 : B = [] := by
          cases B with
          | nil => rfl
          | cons y B =>
            have := hx y (by simp)
            have := (hB y (by simp)).2
            linarith
        subst hB0
        exact ⟨[], [], x :: D, by simp, by simp, by simp, by simpa [h2] using hD⟩

theorem labelTimes_eq {A B D : List ℝ} (hl : (A ++ B ++ D).Pairwise (· < ·)) {a b : ℝ} (hab : a < b)
    (hA : ∀ x ∈ A, x ≤ a) (hB : ∀ x ∈ B, a < x ∧ x < b) (hD : ∀ x ∈ D, b ≤ x) :
    labelTimes (A ++ B ++ D) a b = (A ++ a :: (B ++ b :: D)).drop 1 := by
  rw [labelTimes]
  congr 1
  have hl' := hl.imp (fun {x y} (h : x < y) => h.le)
  rw [List.pairwise_append, List.pairwise_append] at hl'
  obtain ⟨⟨pA, pB, pAB⟩, pD, pABD⟩ := hl'
  apply List.Perm.eq_of_pairwise (le := (· ≤ ·))
  · intro x y _ _ h1 h2; exact le_antisymm h1 h2
  · exact List.pairwise_insertionSort _ _
  · rw [List.pairwise_append]
    refine ⟨pA, ?_, ?_⟩
    · rw [List.pairwise_cons, List.pairwise_append, List.pairwise_cons]
      refine ⟨?_, pB, ⟨fun y hy => hD y hy, pD⟩, ?_⟩
      · intro y hy
        rw [List.mem_append, List.mem_cons] at hy
        rcases hy with hy | rfl | hy
        · exact (hB y hy).1.le
        · exact hab.le
        · exact hab.le.trans (hD y hy)
      · intro x hx y hy
        rcases List.mem_cons.1 hy with rfl | hy
        · exact (hB x hx).2.le
        · exact (hB x hx).2.le.trans (hD y hy)
    · intro x hx y hy
      refine (hA x hx).trans ?_
      rcases List.mem_cons.1 hy with rfl | hy
      · exact le_refl _
      · rw [List.mem_append, List.mem_cons] at hy
        rcases hy with hy | rfl | hy
        · exact (hB y hy).1.le
        · exact hab.le
        · exact hab.le.trans (hD y hy)
  · refine (List.perm_insertionSort _ _).trans ?_
    refine List.perm_iff_count.2 (fun z => ?_)
    simp only [List.count_append, List.count_cons, List.count_nil]
    omega

/-- the upper end of the visible part -/
theorem next_eq {B D : List ℝ} {a b : ℝ} (hab : a < b) (hB : ∀ x ∈ B, a < x ∧ x < b) (hD : ∀ x ∈ D, b ≤ x) (j : ℕ) (hj : j ≤ B.length) :
    ∃ h, (B ++ b :: D)[j]? = some h ∧ a < h ∧ (∀ e, (B ++ D)[j]? = some e → h = min e b) ∧ ((B ++ D)[j]? = none → h = b) := by
  rcases hj.lt_or_eq with hj | rfl
  · refine ⟨B[j], by rw [List.getElem?_append_left hj, List.getElem?_eq_getElem hj], (hB _ (List.getElem_mem hj)).1, ?_, ?_⟩
    · intro e he
      rw [List.getElem?_append_left hj, List.getElem?_eq_getElem hj] at he
      injection he with he
      rw [← he, min_eq_left (hB _ (List.getElem_mem hj)).2.le]
    · intro he
      rw [List.getElem?_append_left hj, List.getElem?_eq_getElem hj] at he
      cases he
  · refine ⟨b, by simp, hab, ?_, fun _ => rfl⟩
    intro e he
    rw [List.getElem?_append_right (le_refl _)] at he
    rw [min_eq_right (hD e (List.mem_of_getElem? he))]

/-- Specification: the middle of an interval on a linear or logarithmic axis. -/
def middle (log : Bool) (a b : ℝ) : ℝ := if log then Real.sqrt (a * b) else (a + b) / 2

theorem middle_le {log : Bool} {a b c : ℝ} (ha : a ≤ c) (hb : b ≤ c) (h0 : 0 ≤ a) : middle log a b ≤ c := by
  cases log with
  | false => simp only [middle, Bool.false_eq_true, if_false]; linarith
  | true =>
    simp only [middle, if_true]
    rw [Real.sqrt_le_left (by linarith)]
    nlinarith

theorem le_middle {log : Bool} {a b c : ℝ} (ha : c ≤ a) (hb : c ≤ b) (h0 : 0 ≤ c) : c ≤ middle log a b := by
  cases log with
  | false => simp only [middle, Bool.false_eq_true, if_false]; linarith
  | true =>
    simp only [middle, if_true]
    apply Real.le_sqrt_of_sq_le
    nlinarith

/-- **C75.** On a sequence plot with time axis from `tMin` to `tMax`, every epoch of a system of strictly increasing boundary
times beginning with 0 gets exactly one label.  An epoch which is visible on the axis is labelled in the middle of its visible part;
the labels of the others do not lie inside the axis.  (An epoch ends at the next boundary; the oldest has no end.) -/
theorem C75_epoch_labels (time : List ℝ) (h0 : time.head? = some 0) (hs : time.Pairwise (· < ·)) (tMin tMax : ℝ) (hmin : 0 ≤ tMin)
    (hlt : tMin < tMax) (log : Bool) :
    ∃ pos, labelPositions time tMin tMax time.length log = .ok pos ∧ pos.length = time.length ∧
      ∀ (i : ℕ) s e, time[i]? = some s → (time[i + 1]? = some e ∨ time[i + 1]? = none ∧ e = tMax) →
        (max s tMin < min e tMax → pos[i]? = some (middle log (max s tMin) (min e tMax))) ∧
        (min e tMax ≤ max s tMin → ∃ x, pos[i]? = some x ∧ (x ≤ tMin ∨ tMax ≤ x)) := by
  obtain ⟨A, B, D, rfl, hA, hB, hD⟩ := split_sorted time hs tMin tMax hlt
  have hlab := labelTimes_eq hs hlt hA hB hD
  obtain ⟨A', rfl⟩ : ∃ A', A = 0 :: A' := by
    cases A with
    | cons x A => simp at h0; subst h0; exact ⟨A, rfl⟩
    | nil =>
      exfalso
      have h0' := List.mem_of_mem_head? h0
      rw [List.nil_append, List.mem_append] at h0'
      rcases h0' with h | h
      · linarith [(hB 0 h).1]
      · linarith [hD 0 h]
  have hpos : ∀ x ∈ 0 :: A' ++ B ++ D, 0 ≤ x := by
    intro x hx
    rw [List.cons_append, List.cons_append, List.pairwise_cons] at hs
    rw [List.cons_append, List.cons_append, List.mem_cons] at hx
    rcases hx with rfl | hx
    · exact le_refl _
    · exact (hs.1 x hx).le
  have hT : labelTimes (0 :: A' ++ B ++ D) tMin tMax = A' ++ tMin :: (B ++ tMax :: D) := by rw [hlab]; simp
  set T := A' ++ tMin :: (B ++ tMax :: D) with hTdef
  have hlenT : T.length = (0 :: A' ++ B ++ D).length + 1 := by simp [hTdef]; omega
  have hlen : (0 :: A' ++ B ++ D).length = A'.length + 1 + B.length + D.length := by simp; omega
  -- all labels exist
  have hlabel : ∀ i ∈ List.range (0 :: A' ++ B ++ D).length,
      labelAt T log i = .ok (middle log (T.getD i 0) (T.getD (i + 1) 0)) := by
    intro i hi
    rw [List.mem_range] at hi
    rw [labelAt, List.getElem?_eq_getElem (by omega), List.getElem?_eq_getElem (by omega),
      List.getD_eq_getElem _ _ (by omega), List.getD_eq_getElem _ _ (by omega)]
    rfl
  refine ⟨(List.range (0 :: A' ++ B ++ D).length).map (fun i => middle log (T.getD i 0) (T.getD (i + 1) 0)), ?_, by simp, ?_⟩
  · rw [labelPositions, hT]
    exact mapM_eq hlabel
  intro i s e hi he
  obtain ⟨hil, his⟩ := List.getElem?_eq_some_iff.1 hi
  have hget : ((List.range (0 :: A' ++ B ++ D).length).map (fun i => middle log (T.getD i 0) (T.getD (i + 1) 0)))[i]? =
      some (middle log (T.getD i 0) (T.getD (i + 1) 0)) := by
    rw [List.getElem?_map, List.getElem?_range hil]; rfl
  rw [hget]
  have hs0 : 0 ≤ s := hpos s (List.mem_of_getElem? hi)
  rcases lt_trichotomy i A'.length with hk | hk | hk
  · -- before the visible part
    have he' : e = A'[i] := by
      have : (0 :: A' ++ B ++ D)[i + 1]? = some A'[i] := by
        rw [List.cons_append, List.cons_append, List.getElem?_cons_succ, List.append_assoc, List.getElem?_append_left hk, List.getElem?_eq_getElem hk]
      rcases he with he | ⟨he, _⟩
      · rw [this] at he; injection he with he; exact he.symm
      · rw [this] at he; cases he
    have hle : A'[i] ≤ tMin := hA _ (by simp)
    have hnv : min e tMax ≤ max s tMin := (min_le_left _ _).trans (by rw [he']; exact hle.trans (le_max_right _ _))
    refine ⟨fun h => absurd h (not_lt.2 hnv), fun _ => ⟨_, rfl, Or.inl ?_⟩⟩
    have h1 : T.getD i 0 = A'[i] := by
      rw [List.getD_eq_getElem _ _ (by omega)]
      simp only [hTdef]
      rw [List.getElem_append_left hk]
    have h2 : T.getD (i + 1) 0 ≤ tMin := by
      rw [List.getD_eq_getElem _ _ (by omega)]
      simp only [hTdef]
      by_cases hk' : i + 1 < A'.length
      · rw [List.getElem_append_left hk']
        exact hA _ (by simp)
      · rw [List.getElem_append_right (by omega)]
        have : i + 1 - A'.length = 0 := by omega
        simp [this]
    rw [h1]
    exact middle_le hle h2 (hpos _ (by simp))
  · -- the first visible epoch
    subst hk
    have hsle : s ≤ tMin := by
      apply hA s
      rw [List.append_assoc, List.getElem?_append_left (by simp)] at hi
      exact List.mem_of_getElem? hi
    obtain ⟨h, hh, hah, h1, h2⟩ := next_eq hlt hB hD 0 (by omega)
    have hT0 : T.getD A'.length 0 = tMin := by simp [hTdef]
    have hT1 : T.getD (A'.length + 1) 0 = h := by
      rw [hTdef, List.getD_eq_getElem?_getD, List.getElem?_append_right (by omega), Nat.add_sub_cancel_left, List.getElem?_cons_succ, hh]; rfl
    have hnext : (0 :: A' ++ B ++ D)[A'.length + 1]? = (B ++ D)[0]? := by
      rw [List.append_assoc, List.cons_append, List.getElem?_cons_succ, List.getElem?_append_right (le_refl _), Nat.sub_self]
    have hmin' : h = min e tMax := by
      rcases he with he | ⟨he, rfl⟩
      · rw [hnext] at he; exact h1 e he
      · rw [hnext] at he; rw [h2 he, min_self]
    rw [hT0, hT1, max_eq_right hsle, ← hmin']
    exact ⟨fun _ => rfl, fun hc => absurd hc (not_le.2 hah)⟩
  · obtain ⟨j, rfl⟩ : ∃ j, i = A'.length + 1 + j := ⟨i - (A'.length + 1), by omega⟩
    have htime : ∀ m, (0 :: A' ++ B ++ D)[A'.length + 1 + m]? = (B ++ D)[m]? := by
      intro m
      rw [List.append_assoc, List.getElem?_append_right (by simp)]
      congr 1
      simp
    have hTj : ∀ m, T[A'.length + 1 + m]? = (B ++ tMax :: D)[m]? := by
      intro m
      rw [hTdef, List.getElem?_append_right (by omega)]
      have : A'.length + 1 + m - A'.length = m + 1 := by omega
      rw [this, List.getElem?_cons_succ]
    by_cases hj : j < B.length
    · have hsB : s = B[j] := by
        rw [htime, List.getElem?_append_left hj, List.getElem?_eq_getElem hj] at hi
        injection hi with hi; exact hi.symm
      obtain ⟨g1, g2⟩ := hB B[j] (List.getElem_mem hj)
      obtain ⟨h, hh, hah, h1, h2⟩ := next_eq hlt hB hD (j + 1) hj
      have hT0 : T.getD (A'.length + 1 + j) 0 = s := by
        rw [List.getD_eq_getElem?_getD, hTj, List.getElem?_append_left hj, List.getElem?_eq_getElem hj, hsB]; rfl
      have hT1 : T.getD (A'.length + 1 + j + 1) 0 = h := by
        rw [List.getD_eq_getElem?_getD, Nat.add_assoc _ j 1, hTj, hh]; rfl
      have hmin' : h = min e tMax := by
        rw [Nat.add_assoc _ j 1, htime] at he
        rcases he with he | ⟨he, rfl⟩
        · exact h1 e he
        · rw [h2 he, min_self]
      have hsh : s < min e tMax := by
        rw [lt_min_iff]
        refine ⟨?_, by rw [hsB]; exact g2⟩
        rcases he with he | ⟨_, rfl⟩
        · obtain ⟨hel, hee⟩ := List.getElem?_eq_some_iff.1 he
          rw [← his, ← hee]
          exact List.pairwise_iff_getElem.1 hs _ _ _ _ (Nat.lt_succ_self _)
        · rw [hsB]; exact g2
      rw [hT0, hT1, max_eq_left (by rw [hsB]; exact g1.le), ← hmin']
      rw [← hmin'] at hsh
      exact ⟨fun _ => rfl, fun hc => absurd hc (not_le.2 hsh)⟩
    · -- after the visible part
      push Not at hj
      have hsD : tMax ≤ s := by
        rw [htime, List.getElem?_append_right hj] at hi
        exact hD s (List.mem_of_getElem? hi)
      refine ⟨fun h => absurd h (not_lt.2 ((min_le_right _ _).trans (hsD.trans (le_max_left _ _)))), fun _ => ⟨_, rfl, Or.inr ?_⟩⟩
      have hge : ∀ m, B.length ≤ m → A'.length + 1 + m < T.length → tMax ≤ T.getD (A'.length + 1 + m) 0 := by
        intro m hm hml
        have h := hTj m
        rw [List.getElem?_eq_getElem hml, List.getElem?_append_right hm] at h
        rw [List.getD_eq_getElem _ _ hml]
        have := List.mem_of_getElem? h.symm
        rcases List.mem_cons.1 this with h | h
        · exact h.ge
        · exact hD _ h
      exact le_middle (hge j hj (by omega)) (by rw [Nat.add_assoc _ j 1]; exact hge (j + 1) (by omega) (by omega)) (by linarith)

/-- the lunar system of Wilhelms (1987) on an axis from 2 to 4.5 Ga -/
example : ([0, 1.1, 3.2, 3.8, 3.85, 3.92] : List ℝ).head? = some 0 ∧ ([0, 1.1, 3.2, 3.8, 3.85, 3.92] : List ℝ).Pairwise (· < ·) ∧
    (0 : ℝ) ≤ 2 ∧ (2 : ℝ) < 4.5 := by
  refine ⟨rfl, ?_, by norm_num, by norm_num⟩
  simp only [List.pairwise_cons, List.mem_cons, List.not_mem_nil, or_false, List.Pairwise.nil, and_true, IsEmpty.forall_iff, forall_const]
  norm_num

end

end Verif.Props
