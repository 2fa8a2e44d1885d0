import Verif.Model.MapPlot
import Verif.Props.Misc
import Verif.Props.RandomSigma

/-! C125 and C126: maps of a count. -/

namespace Verif.Props
open Verif.Py Verif.Spatial Verif.Misc Verif.MapPlot

noncomputable section

theorem rangeE_ok {v : List ℝ} {r : ℝ × ℝ} (h : rangeE v = .ok r) : r.1 ∈ v ∧ r.2 ∈ v ∧ ∀ x ∈ v, r.1 ≤ x ∧ x ≤ r.2 := by
  unfold rangeE Misc.range at h
  cases v with
  | nil => cases h
  | cons a l =>
    simp only [Bool.false_eq_true, if_false] at h
    injection h with h
    subst h
    obtain ⟨m1, m2, m3⟩ := foldl_min_le a l
    obtain ⟨n1, n2, n3⟩ := foldl_max_ge a l
    refine ⟨?_, ?_, ?_⟩
    · rcases m3 with m3 | m3
      · simp [m3]
      · simp [m3]
    · rcases n3 with n3 | n3
      · simp [n3]
      · simp [n3]
    · intro x hx
      rcases List.mem_cons.1 hx with rfl | hx
      · exact ⟨m1, n1⟩
      · exact ⟨m2 x hx, n2 x hx⟩

theorem rangeE_defined {v : List ℝ} (h : v ≠ []) : ∃ r, rangeE v = .ok r := by
  cases v with
  | nil => exact absurd rfl h
  | cons a l => exact ⟨_, rfl⟩

/-- the range of the numbers seen so far -/
def RangeOf (seen : List ℝ) : Option (ℝ × ℝ) → Prop
  | none => seen = []
  | some r => r.1 ∈ seen ∧ r.2 ∈ seen ∧ ∀ x ∈ seen, r.1 ≤ x ∧ x ≤ r.2

theorem grow_step {seen v : List ℝ} {r q : ℝ × ℝ} (h : RangeOf seen (some r)) (hq : rangeE (v ++ [r.1, r.2]) = .ok q) :
    RangeOf (seen ++ v) (some q) := by
  obtain ⟨h1, h2, h3⟩ := h
  obtain ⟨q1, q2, q3⟩ := rangeE_ok hq
  have hin : ∀ z, z ∈ v ++ [r.1, r.2] → z ∈ seen ++ v := by
    intro z hz
    simp only [List.mem_append, List.mem_cons, List.not_mem_nil, or_false] at hz ⊢
    rcases hz with hz | rfl | rfl
    · exact .inr hz
    · exact .inl h1
    · exact .inl h2
  refine ⟨hin _ q1, hin _ q2, ?_⟩
  intro x hx
  rcases List.mem_append.1 hx with hx | hx
  · have a := h3 x hx
    have b := q3 r.1 (by simp)
    have c := q3 r.2 (by simp)
    exact ⟨b.1.trans a.1, a.2.trans c.2⟩
  · exact q3 x (List.mem_append_left _ hx)

theorem growArea_step {seen v : List ℝ} {acc acc' : Option (ℝ × ℝ)} (h : RangeOf seen acc) (hg : growArea acc v = .ok acc') :
    RangeOf (seen ++ v) acc' := by
  unfold growArea at hg
  cases acc with
  | none =>
    dsimp only at hg
    obtain ⟨q, hq, hg⟩ := except_bind_eq_ok hg
    injection hg with hg
    subst hg
    have : seen = [] := h
    rw [this, List.nil_append]
    exact rangeE_ok hq
  | some r =>
    dsimp only at hg
    obtain ⟨q, hq, hg⟩ := except_bind_eq_ok hg
    injection hg with hg
    subst hg
    exact grow_step h hq

theorem growRim_step {seen v : List ℝ} {acc acc' : Option (ℝ × ℝ)} (h : RangeOf seen acc) (hg : growRim acc v = .ok acc') :
    RangeOf (seen ++ v) acc' := by
  unfold growRim at hg
  cases acc with
  | none => cases hg
  | some r =>
    dsimp only at hg
    obtain ⟨q, hq, hg⟩ := except_bind_eq_ok hg
    injection hg with hg
    subst hg
    exact grow_step h hq

theorem fold_range {g : Option (ℝ × ℝ) → List ℝ → Except Exc (Option (ℝ × ℝ))}
    (hstep : ∀ {seen v : List ℝ} {acc acc' : Option (ℝ × ℝ)}, RangeOf seen acc → g acc v = .ok acc' → RangeOf (seen ++ v) acc')
    (l : List (List ℝ)) : ∀ {seen : List ℝ} {acc acc' : Option (ℝ × ℝ)}, RangeOf seen acc → l.foldlM g acc = .ok acc' →
      RangeOf (seen ++ l.flatten) acc' := by
  induction l with
  | nil =>
    intro seen acc acc' h hg
    rw [List.foldlM_nil] at hg
    injection hg with hg
    subst hg
    simpa using h
  | cons v l ih =>
    intro seen acc acc' h hg
    rw [List.foldlM_cons] at hg
    obtain ⟨b, hb, hg⟩ := except_bind_eq_ok hg
    rw [List.flatten_cons, ← List.append_assoc]
    exact ih (hstep h hb) hg

theorem axisLimits_ok {own : Bool} {areas rims : List (List ℝ)} {r : ℝ × ℝ} (h : axisLimits own areas rims = .ok r) :
    ∃ a b, a ∈ areas.flatten ++ rims.flatten ∧ b ∈ areas.flatten ++ rims.flatten ∧
      (∀ x ∈ areas.flatten ++ rims.flatten, a ≤ x ∧ x ≤ b) ∧
      r.1 = a - (if own then 0.1 else 0.02) * (b - a) ∧ r.2 = b + (if own then 0.1 else 0.02) * (b - a) := by
  unfold axisLimits at h
  obtain ⟨u, hu, h⟩ := except_bind_eq_ok h
  obtain ⟨w, hw, h⟩ := except_bind_eq_ok h
  have h1 : RangeOf ([] ++ areas.flatten) u := fold_range growArea_step areas (show RangeOf [] none from rfl) hu
  have h2 := fold_range growRim_step rims h1 hw
  rw [List.nil_append] at h2
  cases w with
  | none => cases h
  | some p =>
    dsimp only at h
    obtain ⟨q, hq, h⟩ := except_bind_eq_ok h
    injection h with h
    subst h
    obtain ⟨k1, k2, k3⟩ := h2
    obtain ⟨q1, q2, q3⟩ := rangeE_ok hq
    have hle := (k3 _ k1).2
    have e1 : q.1 = p.1 := by
      have := q3 p.1 (by simp)
      simp only [List.mem_cons, List.not_mem_nil, or_false] at q1
      rcases q1 with q1 | q1
      · exact q1
      · rw [q1]; linarith [q1 ▸ this.1]
    have e2 : q.2 = p.2 := by
      have := q3 p.2 (by simp)
      simp only [List.mem_cons, List.not_mem_nil, or_false] at q2
      rcases q2 with q2 | q2
      · rw [q2]; linarith [q2 ▸ this.2]
      · exact q2
    refine ⟨p.1, p.2, k1, k2, k3, ?_, ?_⟩
    · rw [e1]
    · rw [e2]

theorem axisLimits_defined (own : Bool) (areas rims : List (List ℝ)) (h : areas ≠ []) (hn : ∀ v ∈ areas, v ≠ []) :
    ∃ r, axisLimits own areas rims = .ok r := by
  have hsome : ∀ (l : List (List ℝ)) (r : ℝ × ℝ), ∃ q, l.foldlM growArea (some r) = .ok (some q) := by
    intro l
    induction l with
    | nil => intro r; exact ⟨r, rfl⟩
    | cons v l ih =>
      intro r
      obtain ⟨q, hq⟩ := rangeE_defined (v := v ++ [r.1, r.2]) (by simp)
      obtain ⟨z, hz⟩ := ih q
      refine ⟨z, ?_⟩
      rw [List.foldlM_cons]
      unfold growArea
      dsimp only
      rw [hq]
      exact hz
  have hsomeR : ∀ (l : List (List ℝ)) (r : ℝ × ℝ), ∃ q, l.foldlM growRim (some r) = .ok (some q) := by
    intro l
    induction l with
    | nil => intro r; exact ⟨r, rfl⟩
    | cons v l ih =>
      intro r
      obtain ⟨q, hq⟩ := rangeE_defined (v := v ++ [r.1, r.2]) (by simp)
      obtain ⟨z, hz⟩ := ih q
      refine ⟨z, ?_⟩
      rw [List.foldlM_cons]
      unfold growRim
      dsimp only
      rw [hq]
      exact hz
  obtain ⟨v, l, rfl⟩ := List.exists_cons_of_ne_nil h
  obtain ⟨q, hq⟩ := rangeE_defined (hn v (by simp))
  obtain ⟨q1, hq1⟩ := hsome l q
  obtain ⟨q2, hq2⟩ := hsomeR rims q1
  obtain ⟨q3, hq3⟩ := rangeE_defined (v := [q2.1, q2.2]) (by simp)
  have e : (v :: l).foldlM growArea none = .ok (some q1) := by
    rw [List.foldlM_cons]
    have : growArea none v = .ok (some q) := by
      unfold growArea
      dsimp only
      rw [hq]
      rfl
    rw [this]
    exact hq1
  unfold axisLimits
  rw [e, except_ok_bind, hq2, except_ok_bind]
  dsimp only
  rw [hq3]
  exact ⟨_, rfl⟩

theorem projectRing_ok {proj : ℝ × ℝ → Option (ℝ × ℝ)} {r s : Ring} (h : projectRing proj r = .ok s) :
    s.length = r.length ∧ ∀ (i : ℕ) p, r[i]? = some p → ∃ q, s[i]? = some q ∧ proj p = some q := by
  obtain ⟨h1, h2⟩ := mapM_each h
  refine ⟨h1, ?_⟩
  intro i p hp
  obtain ⟨b, hb, hpb⟩ := h2 i p hp
  refine ⟨b, hb, ?_⟩
  cases hq : proj p with
  | none => rw [hq] at hpb; cases hpb
  | some q =>
    rw [hq] at hpb
    injection hpb with hpb
    rw [hpb]

/-- the projected points of rings -/
theorem projected_mem {proj : ℝ × ℝ → Option (ℝ × ℝ)} {l : List Ring} {l' : List Ring} (h : l.mapM (projectRing proj) = .ok l') :
    (∀ r ∈ l, ∀ p ∈ r, ∃ q, proj p = some q ∧ q ∈ l'.flatten) ∧ ∀ q ∈ l'.flatten, ∃ r ∈ l, ∃ p ∈ r, proj p = some q := by
  obtain ⟨h1, h2⟩ := mapM_each h
  constructor
  · intro r hr p hp
    obtain ⟨i, hi⟩ := List.mem_iff_getElem?.1 hr
    obtain ⟨s, hs, hrs⟩ := h2 i r hi
    obtain ⟨j, hj⟩ := List.mem_iff_getElem?.1 hp
    obtain ⟨q, hq, hpq⟩ := (projectRing_ok hrs).2 j p hj
    exact ⟨q, hpq, List.mem_flatten.2 ⟨s, List.mem_of_getElem? hs, List.mem_of_getElem? hq⟩⟩
  · intro q hq
    obtain ⟨s, hs, hqs⟩ := List.mem_flatten.1 hq
    obtain ⟨i, hi⟩ := List.mem_iff_getElem?.1 hs
    have hil : i < l.length := by rw [← h1]; exact (List.getElem?_eq_some_iff.1 hi).1
    obtain ⟨s', hs', hrs⟩ := h2 i _ (List.getElem?_eq_getElem hil)
    rw [hi] at hs'
    injection hs' with hs'
    subst hs'
    obtain ⟨j, hj⟩ := List.mem_iff_getElem?.1 hqs
    obtain ⟨k1, k2⟩ := projectRing_ok hrs
    have hjl : j < (l[i]).length := by rw [← k1]; exact (List.getElem?_eq_some_iff.1 hj).1
    obtain ⟨q', hq', hpq⟩ := k2 j _ (List.getElem?_eq_getElem hjl)
    rw [hj] at hq'
    injection hq' with hq'
    subst hq'
    exact ⟨_, List.getElem_mem hil, _, List.getElem_mem hjl, hpq⟩

/-- **C125: the map shows everything.**  All points of the outlines of the area and of the crater rims are projected and lie in the axes.
At each side there is the same margin, one tenth (in the panels of a randomness analysis two hundredths) of the width or height of what is
shown: the limits are as far beyond the outermost points. -/
theorem C125_shown (proj : ℝ × ℝ → Option (ℝ × ℝ)) (own : Bool) (outlines rims : List Ring) (xr yr : ℝ × ℝ)
    (h : mapLimits proj own outlines rims = .ok (xr, yr)) :
    (∀ r ∈ outlines ++ rims, ∀ p ∈ r, ∃ q, proj p = some q ∧ xr.1 ≤ q.1 ∧ q.1 ≤ xr.2 ∧ yr.1 ≤ q.2 ∧ q.2 ≤ yr.2) ∧
    ∃ west east south north : ℝ × ℝ, (∀ c ∈ [west, east, south, north], ∃ r ∈ outlines ++ rims, ∃ p ∈ r, proj p = some c) ∧
      (∀ r ∈ outlines ++ rims, ∀ p ∈ r, ∀ q, proj p = some q → west.1 ≤ q.1 ∧ q.1 ≤ east.1 ∧ south.2 ≤ q.2 ∧ q.2 ≤ north.2) ∧
      west.1 - xr.1 = (if own then 0.1 else 0.02) * (east.1 - west.1) ∧ xr.2 - east.1 = (if own then 0.1 else 0.02) * (east.1 - west.1) ∧
      south.2 - yr.1 = (if own then 0.1 else 0.02) * (north.2 - south.2) ∧
      yr.2 - north.2 = (if own then 0.1 else 0.02) * (north.2 - south.2) := by
  unfold mapLimits at h
  obtain ⟨A, hA, h⟩ := except_bind_eq_ok h
  obtain ⟨R, hR, h⟩ := except_bind_eq_ok h
  obtain ⟨x, hx, h⟩ := except_bind_eq_ok h
  obtain ⟨y, hy, h⟩ := except_bind_eq_ok h
  injection h with h
  injection h with h1 h2
  subst h1 h2
  obtain ⟨a, b, ha, hb, hab, e1, e2⟩ := axisLimits_ok hx
  obtain ⟨c, d, hc, hd, hcd, e3, e4⟩ := axisLimits_ok hy
  have hflat : ∀ f : ℝ × ℝ → ℝ, (A.map (fun l => l.map f)).flatten ++ (R.map (fun l => l.map f)).flatten = (A.flatten ++ R.flatten).map f := by
    intro f
    rw [List.map_append, List.map_flatten, List.map_flatten]
  rw [hflat] at ha hb hab hc hd hcd
  obtain ⟨pA1, pA2⟩ := projected_mem hA
  obtain ⟨pR1, pR2⟩ := projected_mem hR
  have hm : (0 : ℝ) ≤ if own then 0.1 else 0.02 := by split <;> norm_num
  have hback : ∀ q ∈ A.flatten ++ R.flatten, ∃ r ∈ outlines ++ rims, ∃ p ∈ r, proj p = some q := by
    intro q hq
    rcases List.mem_append.1 hq with hq | hq
    · obtain ⟨r, hr, p, hp, hpq⟩ := pA2 q hq
      exact ⟨r, List.mem_append_left _ hr, p, hp, hpq⟩
    · obtain ⟨r, hr, p, hp, hpq⟩ := pR2 q hq
      exact ⟨r, List.mem_append_right _ hr, p, hp, hpq⟩
  obtain ⟨w, hw, rfl⟩ := List.mem_map.1 ha
  obtain ⟨e, he, rfl⟩ := List.mem_map.1 hb
  obtain ⟨s, hs, rfl⟩ := List.mem_map.1 hc
  obtain ⟨n, hn, rfl⟩ := List.mem_map.1 hd
  have hwe : w.1 ≤ e.1 := (hab _ ha).2
  have hsn : s.2 ≤ n.2 := (hcd _ hc).2
  have hfwd : ∀ r ∈ outlines ++ rims, ∀ p ∈ r, ∃ q, proj p = some q ∧ q ∈ A.flatten ++ R.flatten := by
    intro r hr p hp
    rcases List.mem_append.1 hr with hr | hr
    · obtain ⟨q, h1, h2⟩ := pA1 r hr p hp
      exact ⟨q, h1, List.mem_append_left _ h2⟩
    · obtain ⟨q, h1, h2⟩ := pR1 r hr p hp
      exact ⟨q, h1, List.mem_append_right _ h2⟩
  refine ⟨?_, w, e, s, n, ?_, ?_, by rw [e1]; ring, by rw [e2]; ring, by rw [e3]; ring, by rw [e4]; ring⟩
  · intro r hr p hp
    obtain ⟨q, hq, hqm⟩ := hfwd r hr p hp
    have k1 := hab _ (List.mem_map.2 ⟨q, hqm, rfl⟩)
    have k2 := hcd _ (List.mem_map.2 ⟨q, hqm, rfl⟩)
    have m1 := mul_nonneg hm (sub_nonneg.2 hwe)
    have m2 := mul_nonneg hm (sub_nonneg.2 hsn)
    exact ⟨q, hq, by rw [e1]; linarith [k1.1], by rw [e2]; linarith [k1.2], by rw [e3]; linarith [k2.1], by rw [e4]; linarith [k2.2]⟩
  · intro z hz
    simp only [List.mem_cons, List.not_mem_nil, or_false] at hz
    rcases hz with rfl | rfl | rfl | rfl
    · exact hback _ hw
    · exact hback _ he
    · exact hback _ hs
    · exact hback _ hn
  · intro r hr p hp q hq
    obtain ⟨q', hq', hqm⟩ := hfwd r hr p hp
    rw [hq] at hq'
    injection hq' with hq'
    subst hq'
    have k1 := hab _ (List.mem_map.2 ⟨q, hqm, rfl⟩)
    have k2 := hcd _ (List.mem_map.2 ⟨q, hqm, rfl⟩)
    exact ⟨k1.1, k1.2, k2.1, k2.2⟩

/-- **C125: there is a map** if all points can be projected. -/
theorem C125_defined_partial (proj : ℝ × ℝ → Option (ℝ × ℝ)) (own : Bool) (outlines rims : List Ring) (h : outlines ≠ [])
    (hn : ∀ r ∈ outlines, r ≠ []) (hp : ∀ r ∈ outlines ++ rims, ∀ p ∈ r, ∃ q, proj p = some q) :
    ∃ xr yr, mapLimits proj own outlines rims = .ok (xr, yr) := by
  have key : ∀ r, (∀ p ∈ r, ∃ q, proj p = some q) → ∃ s, projectRing proj r = .ok s := by
    intro r hr
    apply mapM_succeeds
    intro p hp
    obtain ⟨q, hq⟩ := hr p hp
    exact ⟨q, by rw [hq]⟩
  obtain ⟨A, hA⟩ := mapM_succeeds (projectRing proj) outlines (fun r hr => key r (hp r (List.mem_append_left _ hr)))
  obtain ⟨R, hR⟩ := mapM_succeeds (projectRing proj) rims (fun r hr => key r (hp r (List.mem_append_right _ hr)))
  obtain ⟨l1, g1⟩ := mapM_each hA
  have hAne : A ≠ [] := by
    intro e
    rw [e] at l1
    exact h (List.eq_nil_of_length_eq_zero l1.symm)
  have hAn : ∀ s ∈ A, s ≠ [] := by
    intro s hs
    obtain ⟨i, hi⟩ := List.mem_iff_getElem?.1 hs
    have hil : i < outlines.length := by rw [← l1]; exact (List.getElem?_eq_some_iff.1 hi).1
    obtain ⟨s', hs', hrs⟩ := g1 i _ (List.getElem?_eq_getElem hil)
    rw [hi] at hs'
    injection hs' with hs'
    subst hs'
    intro e
    have := (projectRing_ok hrs).1
    rw [e] at this
    exact hn _ (List.getElem_mem hil) (List.eq_nil_of_length_eq_zero this.symm)
  have hlim : ∀ f : ℝ × ℝ → ℝ, ∃ r, axisLimits own (A.map (fun l => l.map f)) (R.map (fun l => l.map f)) = .ok r := by
    intro f
    apply axisLimits_defined
    · simpa using hAne
    · intro v hv
      obtain ⟨s, hs, rfl⟩ := List.mem_map.1 hv
      simpa using hAn s hs
  obtain ⟨x, hx⟩ := hlim Prod.fst
  obtain ⟨y, hy⟩ := hlim Prod.snd
  unfold mapLimits
  rw [hA, except_ok_bind, hR, except_ok_bind, hx, except_ok_bind, hy]
  exact ⟨_, _, rfl⟩

/-- with the orthographic projection: an area around the centre and a crater rim, all within 90° -/
example : ∃ xr yr, mapLimits (ortho 1737.4 0 0) true [[(-30, -30), (30, -30), (30, 30), (-30, -30)]] [[(10, 10), (11, 10), (10, 11)]] =
    .ok (xr, yr) := by
  apply C125_defined_partial
  · simp
  · simp
  · intro r hr p hp
    have hv : ∀ a b : ℝ, |a| ≤ 90 → |b| ≤ 90 → ∃ q, ortho 1737.4 0 0 (a, b) = some q := by
      intro a b ha hb
      unfold ortho
      dsimp only
      rw [if_pos]
      · exact ⟨_, rfl⟩
      · have hc : ∀ z : ℝ, |z| ≤ 90 → 0 ≤ Real.cos (z * Real.pi / 180) := by
          intro z hz
          have hpi := Real.pi_pos
          apply Real.cos_nonneg_of_mem_Icc
          constructor <;> nlinarith [(abs_le.1 hz).1, (abs_le.1 hz).2]
        simp only [sub_zero, zero_mul, zero_div, Real.sin_zero, Real.cos_zero, zero_add, one_mul]
        exact mul_nonneg (hc b hb) (hc a ha)
    simp only [List.cons_append, List.nil_append, List.mem_cons, List.not_mem_nil, or_false] at hr
    rcases hr with rfl | rfl
    · simp only [List.mem_cons, List.not_mem_nil, or_false] at hp
      rcases hp with rfl | rfl | rfl | rfl <;> exact hv _ _ (by norm_num) (by norm_num)
    · simp only [List.mem_cons, List.not_mem_nil, or_false] at hp
      rcases hp with rfl | rfl | rfl <;> exact hv _ _ (by norm_num) (by norm_num)

/-- **C125 is false beyond one hemisphere.**  If some point of the area or of a crater rim is more than 90° from the middle of the area,
there is no map but an error. -/
theorem C125_hemisphere_counterexample (R lon0 lat0 : ℝ) (own : Bool) (outlines rims : List Ring) (r : Ring) (hr : r ∈ outlines ++ rims)
    (p : ℝ × ℝ) (hp : p ∈ r) (hfar : Real.sin (lat0 * Real.pi / 180) * Real.sin (p.2 * Real.pi / 180) + Real.cos (lat0 * Real.pi / 180) *
      Real.cos (p.2 * Real.pi / 180) * Real.cos ((p.1 - lon0) * Real.pi / 180) < 0) :
    ∃ e, mapLimits (ortho R lon0 lat0) own outlines rims = .error e := by
  cases h : mapLimits (ortho R lon0 lat0) own outlines rims with
  | error e => exact ⟨e, rfl⟩
  | ok z =>
    obtain ⟨q, hq, _⟩ := (C125_shown _ _ _ _ z.1 z.2 h).1 r hr p hp
    unfold ortho at hq
    dsimp only at hq
    rw [if_neg (not_le.2 hfar)] at hq
    cases hq

/-- a crater at 120° from the middle -/
example : ∃ e, mapLimits (ortho 1737.4 0 0) true [[(-30, -30), (30, -30), (30, 30), (-30, -30)]] [[(120, 0), (121, 0), (120, 1)]] = .error e :=
  C125_hemisphere_counterexample _ _ _ _ _ _ [(120, 0), (121, 0), (120, 1)] (by simp) (120, 0) (by simp) (by
    have e : ((120 : ℝ) - 0) * Real.pi / 180 = Real.pi - Real.pi / 3 := by ring
    simp only [zero_mul, zero_div, Real.sin_zero, Real.cos_zero, zero_add, one_mul]
    rw [e, Real.cos_pi_sub, Real.cos_pi_div_three]
    norm_num)

/-! ### C126: the map beside the histogram -/

/-- the bounds are those of the region: no point is outside, and there are points at all four sides -/
def IsBounds (s : Shape) : Prop :=
  (∀ p ∈ s.pts, s.x0 ≤ p.1 ∧ p.1 ≤ s.x1 ∧ s.y0 ≤ p.2 ∧ p.2 ≤ s.y1) ∧
  (∃ p ∈ s.pts, p.1 = s.x0) ∧ (∃ p ∈ s.pts, p.1 = s.x1) ∧ (∃ p ∈ s.pts, p.2 = s.y0) ∧ ∃ p ∈ s.pts, p.2 = s.y1

theorem isBounds_scale {s : Shape} (h : IsBounds s) {f : ℝ} (hf : 0 < f) : IsBounds (scale f s) := by
  obtain ⟨h0, ⟨a, ha, ea⟩, ⟨b, hb, eb⟩, ⟨c, hc, ec⟩, ⟨d, hd, ed⟩⟩ := h
  refine ⟨?_, ⟨_, ⟨a, ha, rfl⟩, ?_⟩, ⟨_, ⟨b, hb, rfl⟩, ?_⟩, ⟨_, ⟨c, hc, rfl⟩, ?_⟩, ⟨_, ⟨d, hd, rfl⟩, ?_⟩⟩
  · rintro _ ⟨p, hp, rfl⟩
    obtain ⟨k1, k2, k3, k4⟩ := h0 p hp
    unfold scale
    dsimp only
    refine ⟨?_, ?_, ?_, ?_⟩ <;> nlinarith
  all_goals
    unfold scale
    dsimp only
  · rw [ea]
  · rw [eb]
  · rw [ec]
  · rw [ed]

theorem isBounds_translate {s : Shape} (h : IsBounds s) (dx dy : ℝ) : IsBounds (translate dx dy s) := by
  obtain ⟨h0, ⟨a, ha, ea⟩, ⟨b, hb, eb⟩, ⟨c, hc, ec⟩, ⟨d, hd, ed⟩⟩ := h
  refine ⟨?_, ⟨_, ⟨a, ha, rfl⟩, ?_⟩, ⟨_, ⟨b, hb, rfl⟩, ?_⟩, ⟨_, ⟨c, hc, rfl⟩, ?_⟩, ⟨_, ⟨d, hd, rfl⟩, ?_⟩⟩
  · rintro _ ⟨p, hp, rfl⟩
    obtain ⟨k1, k2, k3, k4⟩ := h0 p hp
    unfold translate
    dsimp only
    refine ⟨?_, ?_, ?_, ?_⟩ <;> linarith
  all_goals
    unfold translate
    dsimp only
  · rw [ea]
  · rw [eb]
  · rw [ec]
  · rw [ed]

/-- the normalised map begins at the origin, and its longer side has length 1 -/
theorem normalise_bounds {s : Shape} (h : IsBounds s) (hpos : 0 < max (s.x1 - s.x0) (s.y1 - s.y0)) :
    IsBounds (normalise s) ∧ (normalise s).x0 = 0 ∧ (normalise s).y0 = 0 ∧ 0 ≤ (normalise s).x1 ∧ 0 ≤ (normalise s).y1 ∧
      max (normalise s).x1 (normalise s).y1 = 1 := by
  have hx : s.x0 ≤ s.x1 := by
    obtain ⟨h0, ⟨a, ha, ea⟩, _⟩ := h
    have := h0 a ha
    linarith
  have hy : s.y0 ≤ s.y1 := by
    obtain ⟨h0, _, _, ⟨a, ha, ea⟩, _⟩ := h
    have := h0 a ha
    linarith
  set mg := max (s.x1 - s.x0) (s.y1 - s.y0) with hmg
  have e1 : (normalise s).x1 = (s.x1 - s.x0) / mg := by
    unfold normalise translate scale
    dsimp only
    rw [← hmg]
    field_simp
    ring
  have e2 : (normalise s).y1 = (s.y1 - s.y0) / mg := by
    unfold normalise translate scale
    dsimp only
    rw [← hmg]
    field_simp
    ring
  refine ⟨isBounds_translate (isBounds_scale h (by rw [← hmg]; positivity)) _ _, ?_, ?_, ?_, ?_, ?_⟩
  · unfold normalise translate; dsimp only; ring
  · unfold normalise translate; dsimp only; ring
  · rw [e1]; exact div_nonneg (by linarith) hpos.le
  · rw [e2]; exact div_nonneg (by linarith) hpos.le
  · rw [e1, e2, max_div_div_right hpos.le, ← hmg, div_self hpos.ne']

theorem interior_histBox : interior histBox ⊆ {p | 0.7 < p.1} := by
  intro p hp
  rw [mem_interior] at hp
  obtain ⟨t, ht, hopen, hpt⟩ := hp
  rw [Metric.isOpen_iff] at hopen
  obtain ⟨ε, hε, hball⟩ := hopen p hpt
  have hin : ((p.1 - ε / 2, p.2) : ℝ × ℝ) ∈ Metric.ball p ε := by
    rw [Metric.mem_ball, Prod.dist_eq, Real.dist_eq, Real.dist_eq]
    have : p.1 - ε / 2 - p.1 = -(ε / 2) := by ring
    rw [this, abs_neg, abs_of_pos (by linarith), sub_self, abs_zero]
    exact max_lt (by linarith) hε
  have := (ht (hball hin)).1
  show 0.7 < p.1
  dsimp only at this
  norm_num at this ⊢
  linarith

theorem small_no_overlap {s : Shape} (h : IsBounds s) (h0 : s.x0 = 0) (h1 : s.x1 ≤ 1) {f : ℝ} (hf0 : 0 < f) (hf : f ≤ 0.4) :
    ¬ overlaps (scale f s).pts histBox := by
  rintro ⟨⟨p, hp1, hp2⟩, _⟩
  have hp := interior_subset hp1
  have hgt : 0.7 < p.1 := interior_histBox hp2
  have hle := ((isBounds_scale h hf0).1 p hp).2.1
  have hx : 0 ≤ s.x1 := by
    obtain ⟨k0, _, ⟨b, hb, eb⟩, _⟩ := h
    have := (k0 b hb).1
    rw [h0] at this
    linarith
  unfold scale at hle
  dsimp only at hle
  rw [h0] at hle
  norm_num at hgt hf
  nlinarith

theorem reduce_spec (s : Shape) (hsmall : ∀ f, 0 < f → f ≤ 0.4 → ¬ overlaps (scale f s).pts histBox) (k : ℕ) :
    ∀ (f : ℝ), 0 < f → f * 0.98 ^ k ≤ 0.4 → ∃ n ≤ k, (∀ fuel, n < fuel → reduce s fuel f = some (f * 0.98 ^ n)) ∧
      ¬ overlaps (scale (f * 0.98 ^ n) s).pts histBox ∧ ∀ j < n, overlaps (scale (f * 0.98 ^ j) s).pts histBox := by
  induction k with
  | zero =>
    intro f hf hk
    rw [pow_zero, mul_one] at hk
    refine ⟨0, le_rfl, ?_, by rw [pow_zero, mul_one]; exact hsmall f hf hk, by intro j hj; omega⟩
    intro fuel hfuel
    cases fuel with
    | zero => omega
    | succ m =>
      unfold reduce
      rw [if_neg (hsmall f hf hk), pow_zero, mul_one]
  | succ k ih =>
    intro f hf hk
    by_cases ho : overlaps (scale f s).pts histBox
    · obtain ⟨n, hn, g1, g2, g3⟩ := ih (f * 0.98) (by positivity) (by rw [mul_assoc, ← pow_succ']; exact hk)
      have e : ∀ j : ℕ, f * 0.98 * 0.98 ^ j = f * 0.98 ^ (j + 1) := by intro j; rw [pow_succ']; ring
      refine ⟨n + 1, by omega, ?_, by rw [← e]; exact g2, ?_⟩
      · intro fuel hfuel
        cases fuel with
        | zero => omega
        | succ m =>
          unfold reduce
          rw [if_pos ho, g1 m (by omega), e]
      · intro j hj
        cases j with
        | zero => rw [pow_zero, mul_one]; exact ho
        | succ j => rw [← e]; exact g3 j (by omega)
    · refine ⟨0, by omega, ?_, by rw [pow_zero, mul_one]; exact ho, by intro j hj; omega⟩
      intro fuel hfuel
      cases fuel with
      | zero => omega
      | succ m =>
        unfold reduce
        rw [if_neg ho, pow_zero, mul_one]

/-- **C126: the size of the map.**  Whatever the shape of the counted area is, the search for the factor ends after at most 46 reductions by 2%.
The factor is the first at which the normalised map, reduced about its middle, does not overlap the lower right corner of the panel; it is
between 0.39 and 1. -/
theorem C126_size (s : Shape) (h : IsBounds s) (hpos : 0 < max (s.x1 - s.x0) (s.y1 - s.y0)) :
    ∃ n f, n ≤ 46 ∧ f = (0.98 : ℝ) ^ n ∧ 0.39 < f ∧ f ≤ 1 ∧ (∀ fuel, n < fuel → reductionFactor s fuel = some f) ∧
      ¬ overlaps (scale f (normalise s)).pts histBox ∧ ∀ j < n, overlaps (scale ((0.98 : ℝ) ^ j) (normalise s)).pts histBox := by
  obtain ⟨hb, hx0, _, _, _, hmax⟩ := normalise_bounds h hpos
  have hx1 : (normalise s).x1 ≤ 1 := by rw [← hmax]; exact le_max_left _ _
  obtain ⟨n, hn, g1, g2, g3⟩ := reduce_spec (normalise s) (fun f => small_no_overlap hb hx0 hx1) 46 1 one_pos (by norm_num)
  rw [one_mul] at g2
  refine ⟨n, 0.98 ^ n, hn, rfl, ?_, pow_le_one₀ (by norm_num) (by norm_num), ?_, g2, ?_⟩
  · have : (0.98 : ℝ) ^ 46 ≤ 0.98 ^ n := pow_le_pow_of_le_one (by norm_num) (by norm_num) hn
    refine lt_of_lt_of_le ?_ this
    norm_num
  · intro fuel hfuel
    unfold reductionFactor
    rw [g1 fuel hfuel, one_mul]
  · intro j hj
    have := g3 j hj
    rwa [one_mul] at this

/-- a triangle whose corner reaches into the place of the histogram -/
def triangle : Shape := ⟨{p | 0 ≤ p.1 ∧ 0 ≤ p.2 ∧ p.1 + p.2 ≤ 1}, 0, 0, 1, 1⟩

example : ∃ n f, n ≤ 46 ∧ f = (0.98 : ℝ) ^ n ∧ 0.39 < f ∧ f ≤ 1 ∧ (∀ fuel, n < fuel → reductionFactor triangle fuel = some f) ∧
      ¬ overlaps (scale f (normalise triangle)).pts histBox ∧
      ∀ j < n, overlaps (scale ((0.98 : ℝ) ^ j) (normalise triangle)).pts histBox := by
  refine C126_size triangle ⟨?_, ⟨(0, 0), ?_, rfl⟩, ⟨(1, 0), ?_, rfl⟩, ⟨(0, 0), ?_, rfl⟩, ⟨(0, 1), ?_, rfl⟩⟩ (by norm_num [triangle])
  · rintro p ⟨h1, h2, h3⟩
    simp only [triangle]
    refine ⟨h1, ?_, h2, ?_⟩ <;> linarith
  all_goals norm_num [triangle]

/-- **C126: no overlap for small maps.**  If the factor is at most 0.7 the map is drawn left of the histogram. -/
theorem C126_clear_partial (s : Shape) (h : IsBounds s) (hpos : 0 < max (s.x1 - s.x0) (s.y1 - s.y0)) (f : ℝ) (hf0 : 0 < f) (hf : f ≤ 0.7)
    (p : ℝ × ℝ) (hp : p ∈ (normalise s).pts) : drawnAt f (normalise s) p ∉ histFrame := by
  obtain ⟨hb, hx0, _, hx, _, hmax⟩ := normalise_bounds h hpos
  have hx1 : (normalise s).x1 ≤ 1 := by rw [← hmax]; exact le_max_left _ _
  have hle := (hb.1 p hp).2.1
  rintro ⟨k1, _⟩
  unfold drawnAt at k1
  dsimp only at k1
  rw [hx0] at k1
  have : f / 1.04 * (p.1 - (0 + (normalise s).x1) / 2) ≤ f / 1.04 * (1 / 2) := by
    apply mul_le_mul_of_nonneg_left _ (by positivity)
    linarith
  norm_num at k1 this hf
  linarith

/-- the unit square -/
def unitSquare : Shape := ⟨{p | 0 ≤ p.1 ∧ p.1 ≤ 1 ∧ 0 ≤ p.2 ∧ p.2 ≤ 1}, 0, 0, 1, 1⟩

theorem unitSquare_bounds : IsBounds unitSquare := by
  refine ⟨fun p hp => ⟨hp.1, hp.2.1, hp.2.2.1, hp.2.2.2⟩, ⟨(0, 0), ?_, rfl⟩, ⟨(1, 0), ?_, rfl⟩, ⟨(0, 0), ?_, rfl⟩, ⟨(0, 1), ?_, rfl⟩⟩ <;>
    simp [unitSquare]

theorem normalise_unit {s : Shape} (h0 : s.x0 = 0) (h1 : s.y0 = 0) (h2 : s.x1 = 1) (h3 : s.y1 = 1) : normalise s = s := by
  unfold normalise translate scale
  dsimp only
  cases s
  simp only at h0 h1 h2 h3
  subst h0 h1 h2 h3
  norm_num

theorem scale_one (s : Shape) : scale 1 s = s := by
  unfold scale
  cases s
  norm_num

/-- the example of C126_clear_partial -/
example : ∀ p ∈ (normalise unitSquare).pts, drawnAt 0.6 (normalise unitSquare) p ∉ histFrame :=
  C126_clear_partial _ unitSquare_bounds (by norm_num [unitSquare]) _ (by norm_num) (by norm_num)

/-- **C126 is false.**  For a square area the factor is 1 and the histogram lies on the map: the corner is inside the map, so that the two
are not said to overlap. -/
theorem C126_square_counterexample : IsBounds unitSquare ∧ (∀ fuel, 0 < fuel → reductionFactor unitSquare fuel = some 1) ∧
    ∃ p ∈ (normalise unitSquare).pts, drawnAt 1 (normalise unitSquare) p ∈ interior histFrame := by
  have hn : normalise unitSquare = unitSquare := normalise_unit rfl rfl rfl rfl
  refine ⟨unitSquare_bounds, ?_, ?_⟩
  · intro fuel hfuel
    cases fuel with
    | zero => omega
    | succ m =>
      unfold reductionFactor reduce
      rw [hn, scale_one, if_neg]
      rintro ⟨_, _, h⟩
      apply h
      rintro p ⟨h1, h2, h3, h4⟩
      norm_num at h1 h4
      exact ⟨by linarith, h2, h3, by linarith⟩
  · rw [hn]
    refine ⟨(0.8, 0.2), by norm_num [unitSquare], ?_⟩
    rw [mem_interior]
    refine ⟨{p | 0.7 < p.1} ∩ {p | p.1 < 1} ∩ {p | 0.1275 < p.2} ∩ {p | p.2 < 0.2775}, ?_, ?_, ?_⟩
    · rintro p ⟨⟨⟨h1, h2⟩, h3⟩, h4⟩
      simp only [Set.mem_setOf_eq] at h1 h2 h3 h4
      norm_num at h1 h2 h3 h4
      refine ⟨?_, ?_, ?_, ?_⟩ <;> norm_num <;> linarith
    · refine ((IsOpen.inter ?_ ?_).inter ?_).inter ?_
      · exact isOpen_lt continuous_const continuous_fst
      · exact isOpen_lt continuous_fst continuous_const
      · exact isOpen_lt continuous_const continuous_snd
      · exact isOpen_lt continuous_snd continuous_const
    · simp only [drawnAt, unitSquare, Set.mem_inter_iff, Set.mem_setOf_eq]
      norm_num

/-- a square without its lower right corner -/
def cornerless : Shape := ⟨{p | 0 ≤ p.1 ∧ p.1 ≤ 1 ∧ 0 ≤ p.2 ∧ p.2 ≤ 1 ∧ (0.16 ≤ p.2 ∨ p.1 ≤ 0.5)}, 0, 0, 1, 1⟩

/-- **C126 is false, second case.**  The search does not take the place of the histogram into account, which is above the corner: an area that
leaves the corner free is not reduced and the histogram lies on the map. -/
theorem C126_offset_counterexample : IsBounds cornerless ∧ cornerless.pts ∩ histBox = ∅ ∧
    (∀ fuel, 0 < fuel → reductionFactor cornerless fuel = some 1) ∧
    ∃ p ∈ (normalise cornerless).pts, drawnAt 1 (normalise cornerless) p ∈ interior histFrame := by
  have hn : normalise cornerless = cornerless := normalise_unit rfl rfl rfl rfl
  have hdis : cornerless.pts ∩ histBox = ∅ := by
    ext p
    simp only [Set.mem_inter_iff, Set.mem_empty_iff_false, iff_false]
    rintro ⟨⟨_, _, _, _, h1⟩, h2, _, _, h3⟩
    norm_num at h1 h2 h3
    rcases h1 with h1 | h1 <;> linarith
  refine ⟨?_, hdis, ?_, ?_⟩
  · refine ⟨fun p hp => ⟨hp.1, hp.2.1, hp.2.2.1, hp.2.2.2.1⟩, ⟨(0, 0), ?_, rfl⟩, ⟨(1, 1), ?_, rfl⟩, ⟨(0, 0), ?_, rfl⟩, ⟨(0, 1), ?_, rfl⟩⟩ <;>
      norm_num [cornerless]
  · intro fuel hfuel
    cases fuel with
    | zero => omega
    | succ m =>
      unfold reductionFactor reduce
      rw [hn, scale_one, if_neg]
      rintro ⟨⟨p, h1, h2⟩, _⟩
      have : p ∈ cornerless.pts ∩ histBox := ⟨interior_subset h1, interior_subset h2⟩
      rw [hdis] at this
      exact this
  · rw [hn]
    refine ⟨(0.8, 0.2), by norm_num [cornerless], ?_⟩
    rw [mem_interior]
    refine ⟨{p | 0.7 < p.1} ∩ {p | p.1 < 1} ∩ {p | 0.1275 < p.2} ∩ {p | p.2 < 0.2775}, ?_, ?_, ?_⟩
    · rintro p ⟨⟨⟨h1, h2⟩, h3⟩, h4⟩
      simp only [Set.mem_setOf_eq] at h1 h2 h3 h4
      norm_num at h1 h2 h3 h4
      refine ⟨?_, ?_, ?_, ?_⟩ <;> norm_num <;> linarith
    · refine ((IsOpen.inter ?_ ?_).inter ?_).inter ?_
      · exact isOpen_lt continuous_const continuous_fst
      · exact isOpen_lt continuous_fst continuous_const
      · exact isOpen_lt continuous_const continuous_snd
      · exact isOpen_lt continuous_snd continuous_const
    · simp only [drawnAt, cornerless, Set.mem_inter_iff, Set.mem_setOf_eq]
      norm_num

end

end Verif.Props
