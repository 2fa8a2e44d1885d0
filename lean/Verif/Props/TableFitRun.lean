import Verif.Props.FitLimits

/-!
C160: the fits to the differential distribution for production functions given by tables, in the table of ages of a command.
-/

namespace Verif.Props

open Verif.Spec Verif.Py Verif.Text Verif.Rand Verif.Cli Verif.PlotObject Verif.Epochs Verif.EpochPlot
open Verif.CountFile Verif.Cratercount Verif.Chronology Verif.Production Verif.Craterpdf Verif.Age Verif.FileAge Verif.RunAges Verif.FunctionRun Verif.EpochRun

noncomputable section

/-- Specification: the width, relative to its middle, which turns the number of craters of a bin from `D/2^(1/4)` to `D·2^(1/4)` into the density at `D` of a power law with slope `k`; for slopes below 0.00001 the width of the bin itself -/
def powerWidth (k : ℝ) : ℝ := if k < 0.00001 then 2 ^ (1 / 4 : ℝ) - 2 ^ (-(1 / 4) : ℝ) else (2 ^ (k / 4) - 2 ^ (-k / 4)) / k

/-- Specification: the craters per diameter and area at the middle of the bin number `i` of a table of increments, that of the bin from 1 km on having the number `idx`, relative to the cumulative number at 1 km.  The slope is that of the cumulative
numbers from this bin to the next; the last bin has the slope of the one before. -/
def MiddleDensity (qs : List ℚ) (idx i : ℕ) (y : ℝ) : Prop :=
  ∃ (q : ℚ) (k : ℝ), qs[i]? = some q ∧ (((qs.drop (min i (qs.length - 2))).sum : ℚ) : ℝ) = 2 ^ (k / 2) * (((qs.drop (min i (qs.length - 2) + 1)).sum : ℚ) : ℝ) ∧
    y = (q : ℝ) / (((qs.drop idx).sum : ℚ) : ℝ) / 2 ^ (((i : ℝ) + 1 / 2 - (idx : ℝ)) / 2) / powerWidth k

/-- Specification: the craters per diameter and area of a table of increments: straight in logarithms between the middles of the bins, and constant beyond -/
def TableDensity (qs : List ℚ) (idx : ℕ) (d y : ℝ) : Prop :=
  (∃ (i : ℕ) (t u v : ℝ), i + 1 < qs.length ∧ 0 ≤ t ∧ t < 1 ∧ d = 2 ^ (((i : ℝ) + t + 1 / 2 - (idx : ℝ)) / 2) ∧ MiddleDensity qs idx i u ∧ MiddleDensity qs idx (i + 1) v ∧
    y = u ^ (1 - t) * v ^ t) ∨
  (2 ^ (((qs.length : ℝ) - 1 / 2 - (idx : ℝ)) / 2) ≤ d ∧ MiddleDensity qs idx (qs.length - 1) y) ∨
  (d < 2 ^ ((1 / 2 - (idx : ℝ)) / 2) ∧ MiddleDensity qs idx 0 y)

theorem tabCentre_eq (idx i : ℕ) : tabCentre idx i = 2 ^ (((i : ℝ) + 1 / 2 - (idx : ℝ)) / 2) := by
  unfold tabCentre tabEdge
  rw [← Real.rpow_add (by norm_num)]
  congr 1
  ring

theorem tabCentre_log (idx i : ℕ) : log10 (tabCentre idx i) = ((i : ℝ) + 1 / 2 - idx) / 2 * log10 2 := by
  rw [tabCentre_eq]
  unfold log10
  rw [Real.logb_rpow_eq_mul_logb_of_pos (by norm_num)]

theorem powerWidth_eq {k : ℝ} (hk : 0 < k) : ((2 : ℝ) ^ (0.25 : ℝ) - (2 : ℝ) ^ (-0.25 : ℝ)) * binBiasCorrection (Real.sqrt 2) k = powerWidth k := by
  have hw := root_width_pos
  unfold powerWidth
  by_cases h : k < 0.00001
  · rw [if_pos h, binBiasCorrection, if_pos (by rw [abs_of_pos hk]; exact h), mul_one]
    norm_num
  · rw [if_neg h]
    have hb : binBiasCorrection (Real.sqrt 2) k = ((2 : ℝ) ^ (k / 4) - (2 : ℝ) ^ (-k / 4)) /
        (((2 : ℝ) ^ (0.25 : ℝ) - (2 : ℝ) ^ (-0.25 : ℝ)) * k) := by
      unfold binBiasCorrection
      simp only
      rw [if_neg (by rw [abs_of_pos hk]; exact h), Real.sqrt_eq_rpow, ← Real.rpow_mul (by norm_num), ← Real.rpow_mul (by norm_num),
        ← Real.rpow_mul (by norm_num), ← Real.rpow_mul (by norm_num)]
      norm_num
      ring_nf
    rw [hb]
    generalize (2 : ℝ) ^ (0.25 : ℝ) - (2 : ℝ) ^ (-0.25 : ℝ) = w at hw
    field_simp

theorem drop_sum_cast (qs : List ℚ) (n : ℕ) : ((qs.map (fun q : ℚ => (q : ℝ))).drop n).sum = (((qs.drop n).sum : ℚ) : ℝ) := by
  rw [← List.map_drop]
  induction qs.drop n with
  | nil => simp
  | cons a l ih => rw [List.map_cons, List.sum_cons, List.sum_cons, ih, Rat.cast_add]

/-- the differential curve of a table, read off the interpolation -/
theorem C160_density {qs : List ℚ} {idx : ℕ} {f : PFn} (hidx : idx < qs.length) (h2 : 2 ≤ qs.length) (hpos : ∀ x ∈ qs, 0 < x)
    (hf : initTab (qs.map (fun q : ℚ => (q : ℝ))) idx = .ok f) (d : ℝ) (hd : 0 < d) :
    ∃ y, 0 < y ∧ TableDensity qs idx d y ∧ ∀ a : ℝ, f.F d a = .ok (10 ^ a * y) := by
  obtain ⟨h, hh⟩ : ∃ h, h = qs.map (fun q : ℚ => (q : ℝ)) := ⟨_, rfl⟩
  have hlen : h.length = qs.length := by rw [hh]; simp
  have hpos' : ∀ x ∈ h, 0 < x := by
    intro x hx
    rw [hh] at hx
    obtain ⟨q, hq, rfl⟩ := List.mem_map.1 hx
    exact_mod_cast hpos q hq
  rw [← hh] at hf
  have hidx' : idx < h.length := by omega
  have hcon : Constructed f := .inr ⟨_, _, hf⟩
  obtain ⟨r, hform⟩ := tab_form hidx' hf
  obtain ⟨dm, hdm⟩ : ∃ dm, dm = (List.range h.length).map (fun i => log10 (tabCentre idx i)) := ⟨_, rfl⟩
  obtain ⟨hC, hhC⟩ : ∃ hC, hC = (List.range h.length).map (fun i => log10 (h.drop i).sum - log10 (h.drop idx).sum) := ⟨_, rfl⟩
  have lC : hC.length = h.length := by rw [hhC]; simp
  have ldm : dm.length = h.length := by rw [hdm]; simp
  rw [← hdm, ← hhC] at hform
  obtain ⟨ks, hks⟩ := slopes_ok (l := hC) (by omega)
  have hFs : ∃ fs, tabFs hC dm 0 = .ok fs ∧ ∀ x ∈ fs, 0 < x := by
    unfold tabFs
    simp only [hks, except_ok_bind]
    refine ⟨_, rfl, ?_⟩
    apply zipWith_pos
    intro a ha b _
    refine div_pos ?_ (binBias_pos sqrt_two_gt b)
    revert a
    apply zipWith_pos
    intro a ha b _
    rw [hhC, tabH_eq h idx hidx' hpos' 0] at ha
    obtain ⟨y, hy, rfl⟩ := List.mem_map.1 ha
    exact div_pos (div_pos (mul_pos (pow10_pos 0) (div_pos (hpos' y hy) (drop_sum_pos hpos' hidx'))) (pow10_pos _)) root_width_pos
  obtain ⟨fs, hfs, hfp⟩ := hFs
  have hfl : fs.length = h.length := by rw [tabFs_length hfs (by omega), lC]
  have hF0 : ∀ x : ℝ, 0 < x → f.F x 0 = .ok (10 ^ interp dm (fs.map log10) (log10 x)) := by
    intro x hx
    rw [hform]
    simp only [PFn.F, log10E_pos hx, except_ok_bind, tabF10, hfs, mapM_log10E.2 ⟨hfp, rfl⟩]
  have hsort : dm.Pairwise (· < ·) := by rw [hdm]; exact tabCentre10_sorted h.length idx
  have gx : ∀ i (hi : i < dm.length), dm[i] = log10 (tabCentre idx i) := by
    intro i hi
    simp [hdm]
  have hmid : ∀ i (hi : i < fs.length), MiddleDensity qs idx i fs[i] := by
    intro i hi
    have hj : min i (qs.length - 2) + 1 < qs.length := by omega
    obtain ⟨j, hjj⟩ : ∃ j, j = min i (qs.length - 2) := ⟨_, rfl⟩
    have hs1 := drop_sum_pos hpos' (i := j) (by omega)
    have hs2 := drop_sum_pos hpos' (i := j + 1) (by omega)
    obtain ⟨k, hk⟩ : ∃ k : ℝ, k = 2 * Real.logb 2 ((h.drop j).sum / (h.drop (j + 1)).sum) := ⟨_, rfl⟩
    have hkeq : (h.drop j).sum = 2 ^ (k / 2) * (h.drop (j + 1)).sum := by
      rw [hk, mul_div_cancel_left₀ _ (by norm_num : (2 : ℝ) ≠ 0), Real.rpow_logb (by norm_num) (by norm_num) (div_pos hs1 hs2), div_mul_cancel₀ _ hs2.ne']
    have hkpos : 0 < k := by
      rw [hk]
      refine mul_pos two_pos (Real.logb_pos (by norm_num) ?_)
      rw [one_lt_div hs2, List.drop_eq_getElem_cons (i := j) (by omega), List.sum_cons]
      linarith [hpos' _ (List.getElem_mem (l := h) (n := j) (by omega))]
    obtain ⟨f', hf', hden⟩ := tabular_density h idx hidx' hpos' (by omega) 0
    rw [hf] at hf'
    injection hf' with hf'
    subst hf'
    have h3 := hden i (by omega) k (by
      rw [edge_ratio, ← Real.rpow_mul (by norm_num), show min i (h.length - 2) = j by omega, show (1 / 2 * k : ℝ) = k / 2 by ring]
      exact hkeq)
    rw [hF0 _ (tabCentre_pos idx i), ← gx i (by omega), interp_node dm (fs.map log10) hsort (by simp; omega) i (by omega), List.getElem_map, pow10_log10 (hfp _ (List.getElem_mem _))] at h3
    injection h3 with h3
    have hi' : i < qs.length := by omega
    refine ⟨qs[i], k, List.getElem?_eq_getElem hi', ?_, ?_⟩
    · rw [← hjj, ← drop_sum_cast, ← drop_sum_cast, ← hh]
      exact hkeq
    · rw [h3, ← powerWidth_eq hkpos, ← drop_sum_cast, ← hh, ← tabCentre_eq, Real.rpow_zero, one_mul]
      have : h[i]'(by omega) = (qs[i] : ℝ) := by simp [hh]
      rw [this, div_div _ _ (binBiasCorrection _ _)]
  refine ⟨10 ^ interp dm (fs.map log10) (log10 d), pow10_pos _, ?_, fun a => by
    have := (C16_scaling f hcon d 0 a _).2.1 (hF0 d hd)
    rwa [zero_add] at this⟩
  have gf : ∀ i (hi : i < (fs.map log10).length), (fs.map log10)[i] = log10 (fs[i]'(by simpa using hi)) := by
    intro i hi
    simp
  rcases interp_cases dm (fs.map log10) (log10 d) (hsort.imp le_of_lt) (by simp; omega) (by omega) with ⟨c1, c2⟩ | ⟨c1, c2⟩ | ⟨j, hj, _, c1, c2, c3⟩
  · refine .inr (.inr ⟨?_, ?_⟩)
    · rw [gx] at c1
      have := (Real.logb_lt_logb_iff (b := 10) (by norm_num) hd (tabCentre_pos idx 0)).1 c1
      rw [tabCentre_eq] at this
      simpa using this
    · rw [c2, gf, pow10_log10 (hfp _ (List.getElem_mem _))]
      exact hmid 0 _
  · refine .inr (.inl ⟨?_, ?_⟩)
    · rw [gx] at c1
      have := (Real.logb_le_logb (b := 10) (by norm_num) (tabCentre_pos idx _) hd).1 c1
      rw [tabCentre_eq, ldm, hlen, Nat.cast_sub (by omega)] at this
      refine le_trans (le_of_eq ?_) this
      congr 1
      push_cast
      ring
    · rw [c2, gf, pow10_log10 (hfp _ (List.getElem_mem _))]
      have := hmid (dm.length - 1) (by omega)
      rw [show qs.length - 1 = dm.length - 1 by omega]
      exact this
  · left
    rw [gx, tabCentre_log] at c1 c2
    have hL := log_two_positive
    obtain ⟨t, ht⟩ : ∃ t : ℝ, t = (log10 d - ((j : ℝ) + 1 / 2 - idx) / 2 * log10 2) / (1 / 2 * log10 2) := ⟨_, rfl⟩
    have ht' : log10 d = ((j : ℝ) + t + 1 / 2 - idx) / 2 * log10 2 := by
      rw [ht]; field_simp; ring
    refine ⟨j, t, _, _, by omega, ?_, ?_, ?_, hmid j (by omega), hmid (j + 1) (by omega), ?_⟩
    · rw [ht]; exact div_nonneg (by linarith) (by positivity)
    · rw [ht, div_lt_one (by positivity)]
      push_cast at c2
      nlinarith
    · have : log10 d = log10 ((2 : ℝ) ^ (((j : ℝ) + t + 1 / 2 - (idx : ℝ)) / 2)) := by
        rw [ht']
        unfold log10
        rw [Real.logb_rpow_eq_mul_logb_of_pos (by norm_num)]
      exact Real.logb_injOn_pos (b := 10) (by norm_num) hd (by positivity : (0 : ℝ) < 2 ^ (((j : ℝ) + t + 1 / 2 - (idx : ℝ)) / 2)) this
    · rw [c3, gf, gf, gx, gx, tabCentre_log, tabCentre_log, ht']
      have h1 := hfp _ (List.getElem_mem (l := fs) (n := j) (by omega))
      have h2 := hfp _ (List.getElem_mem (l := fs) (n := j + 1) (by omega))
      generalize fs[j]'(by omega) = u at h1
      generalize fs[j + 1]'(by omega) = v at h2
      have e : (log10 v - log10 u) / ((((j + 1 : ℕ) : ℝ) + 1 / 2 - idx) / 2 * log10 2 - ((j : ℝ) + 1 / 2 - idx) / 2 * log10 2) *
          (((j : ℝ) + t + 1 / 2 - idx) / 2 * log10 2 - ((j : ℝ) + 1 / 2 - idx) / 2 * log10 2) + log10 u = (1 - t) * log10 u + t * log10 v := by
        push_cast
        field_simp
        ring
      rw [e, Real.rpow_add (by norm_num), mul_comm (1 - t), Real.rpow_mul (by norm_num), mul_comm t, Real.rpow_mul (by norm_num),
        pow10_log10 h1, pow10_log10 h2]

/-- the table made of the definition in the list -/
theorem table_made {C : Classes} {v : TVal} {ds : List (List Char × TVal)} (hv : SourceOf C (.dict v) ds) (hpn : 2 ≤ (occurrences ds "production".toList).length)
    {s : System} {p qs : List ℚ} {idx : ℕ} (hdef : TableDefined ds s p qs idx) {f : PFn} (hf : makeProduction C (.dict v) s.pf false = .ok (some f)) :
    initTab (qs.map (fun q : ℚ => (q : ℝ))) idx = .ok f := by
  obtain ⟨_, ids, i1, i2, i3, i4, it, i5, i6, i7, ⟨r, i8⟩, i9⟩ := hdef
  have hty : typeField (.dict (dictOf ids)) = .ok (.str "tabular incremental root-2".toList) := by
    rw [typeField, if_pos (by rw [has_dictOf, i2]; rfl), tget_dictOf i2]
  obtain ⟨r', hr1⟩ : ∃ r', pairField (.dict (dictOf ids)) "range".toList = .ok r' := by
    rcases i8 with ⟨h1, rfl⟩ | ⟨a, b, h1, rfl⟩
    · exact ⟨none, pairField_none h1⟩
    · exact ⟨some (a, b), pairField_some h1⟩
  obtain ⟨y', hy1⟩ : ∃ y', pairField (.dict (dictOf ids)) "yrange".toList = .ok y' := by
    rcases i9 with h1 | ⟨a, b, h1⟩
    · exact ⟨_, pairField_none h1⟩
    · exact ⟨_, pairField_some h1⟩
  rw [makeProduction, definition_found (kind := productionKind false) hv (production_word false) hpn i1, ok_bind, hty, ok_bind, hr1, ok_bind, hy1, ok_bind, makeByType,
    if_neg (by rw [TVal.str.injEq]; decide), if_pos rfl, floats_entry i3, ok_bind, tget_dictOf i6, ok_bind, tint, i7] at hf
  dsimp only at hf
  rw [ok_bind] at hf
  cases hi : initTab (qs.map (fun q : ℚ => (q : ℝ))) (idx : ℤ) with
  | error e => rw [hi] at hf; cases e <;> cases hf
  | ok g =>
    rw [hi] at hf
    injection hf with hf
    injection hf with hf
    rw [hf]

/-- its curves -/
theorem table_curves {C : Classes} {v : TVal} {ds : List (List Char × TVal)} (hv : SourceOf C (.dict v) ds) (hpn : 2 ≤ (occurrences ds "production".toList).length)
    {s : System} {p qs : List ℚ} {idx : ℕ} (hdef : TableDefined ds s p qs idx) (h2 : 2 ≤ qs.length) {f : PFn} (hf : makeProduction C (.dict v) s.pf false = .ok (some f)) :
    ∃ κ φ : ℝ → ℝ, (∀ d, 0 < d → TableCurve qs idx d (κ d)) ∧ (∀ d, 0 < d → TableDensity qs idx d (φ d)) ∧
      (∀ d, 0 < d → f.evaluate .cumulative d none = .ok (κ d)) ∧ (∀ d, 0 < d → ∀ a : ℝ, f.F d a = .ok (10 ^ a * φ d)) ∧ ∀ d, 0 < d → 0 < φ d := by
  have hi := table_made hv hpn hdef hf
  have h0 := own_made hv hpn (.inr ⟨qs, idx, hdef, rfl⟩) hf
  obtain ⟨_, ids, i1, i2, i3, i4, it, i5, _⟩ := hdef
  have hc : ∀ d : ℝ, ∃ y, 0 < d → TableCurve qs idx d y ∧ ∀ a0 : ℝ, f.C d a0 = .ok (10 ^ a0 * y) := by
    intro d
    by_cases hd : 0 < d
    · obtain ⟨y, hy⟩ := tab_curve i5 i4 hi d hd
      exact ⟨y, fun _ => hy⟩
    · exact ⟨0, fun h => absurd h hd⟩
  have hφ : ∀ d : ℝ, ∃ y, 0 < d → 0 < y ∧ TableDensity qs idx d y ∧ ∀ a : ℝ, f.F d a = .ok (10 ^ a * y) := by
    intro d
    by_cases hd : 0 < d
    · obtain ⟨y, hy⟩ := C160_density i5 h2 i4 hi d hd
      exact ⟨y, fun _ => hy⟩
    · exact ⟨0, fun h => absurd h hd⟩
  choose κ hκ using hc
  choose φ hφ using hφ
  refine ⟨κ, φ, fun d hd => (hκ d hd).1, fun d hd => (hφ d hd).2.1, fun d hd => ?_, fun d hd => (hφ d hd).2.2, fun d hd => (hφ d hd).1⟩
  unfold PFn.evaluate
  simp only [h0, except_ok_bind]
  have := (hκ d hd).2 0
  rwa [Real.rpow_zero, one_mul] at this

theorem middle_pos {b : Binning} (hb : b ≠ .none) {e e' : ℝ} (h : NextEdges (gridOf b 0) e e') : 0 < Real.sqrt (e * e') := by
  obtain ⟨g1, g2, _⟩ := h
  obtain ⟨m, hm⟩ := (edge_iff hb 0 _).1 g1
  obtain ⟨m', hm'⟩ := (edge_iff hb 0 _).1 g2
  rw [hm, hm']
  exact Real.sqrt_pos.2 (mul_pos (gridFn_pos _ 0 m) (gridFn_pos _ 0 m'))

/-- **C160, a command.** If the production function of the chronology system asked for is defined by a table of at least two increments, and the file given for a fit to the differential distribution lists craters with their area, the
row of the fit in the table of ages shows the density for which the craters per diameter and area, corrected for the width of the bins by the slope of the cumulative curve of the table, deviate least from the density curve of the table. -/
theorem C160_command_partial (C : Classes) (isNeg : List Char → Bool) (F : FileSys) (cwd : List Char) (words : List (List Char))
    (l flat : List Given) (cwd' : List Char) (n : ℕ) (hw : CommandOf isNeg words l) (h : Expands C isNeg F cwd l flat cwd' n)
    (depth : ℕ) (hd : n ≤ depth) (E : List Char → RunEnv Opened (EReal × EReal)) (hE : ∀ d, (E d).set.classes = C)
    (hdec : (E cwd').decode = decodeOf) (hload : ∀ c, (E cwd').load [] ≠ .ok c)
    (v : TVal) (ds : List (List Char × TVal)) (hv : SourceOf C (.dict v) ds) (systems : List System)
    (hsys : List.Forall₂ SystemEntry (occurrences ds "chronology_system".toList) systems) (h2 : 2 ≤ systems.length)
    (hcn : 2 ≤ (occurrences ds "chronology".toList).length) (hpn : 2 ≤ (occurrences ds "production".toList).length)
    (hset : (E cwd').set.systems = systems) (hnl : ∀ s ∈ systems, '\n' ∉ s.name)
    (T : TableRow.Env) (hT : ∀ x, OneField (T.floatStr x)) (hcf : CurveFitSpec T.curveFit) (plotPF : PFn → PF)
    (hplot : ∀ f d n, 0 < d → f.evaluate .cumulative d none = .ok n → (plotPF f).C0 d = n) :
    ∃ st, runCommand C isNeg F depth cwd words = .ok st ∧ ∀ P out, prepareRun E st = .ok P → runTable C v T plotPF P = .ok out →
      ∃ i s, systems[i]? = some s ∧ (∀ (j : ℕ) s', j < i → systems[j]? = some s' → s'.name ≠ s.name) ∧
        SystemAsked (E cwd').set.lower (systems.map System.name) flat s.name ∧
        ∀ (p0 p1 p2 p3 : ℚ) more, 0 ≤ p0 → 0 ≤ p1 → 0 < p3 → ∀ qs idx, TableDefined ds s (p0 :: p1 :: p2 :: p3 :: more) qs idx → 2 ≤ qs.length →
        ∃ p input items, PresentedAs (E cwd').set.lower flat p ∧ InputOf flat input ∧
        List.Forall₂ (ItemsOf C) ((flat.filter (fun g => g.dest = "plot".toList)).map (fun g => g.values)) items ∧
        ∀ env : PlotEnv Opened, env = ⟨C, (E cwd').set.lower, (E cwd').path, (E cwd').isabs, input, p == "sequence".toList, (E cwd').load⟩ →
          PlainInput env → ∀ asks, AskedPlots env items asks → (∀ y ∈ agesAsked asks, FitsTable y.2) →
          ∀ (j : ℕ) q shp file diam frac a b, (agesAsked asks)[j]? = some (.differential, q) → String.ofList q.binning = Binning.name b → b ≠ .none →
            ListsCraters C file diam frac a → 0 < a → (∀ x ∈ frac, 0 < x) → (E cwd').load q.source = openCount C shp ".diam".toList file →
            ∃ t row c r first rest κ φ α, out = some t ∧ (split '\n' t)[3 + j]? = some row ∧ openCount C shp ".diam".toList file = .ok c ∧ RangeAsked c q r ∧
              FitBins (gridOf b 0) (craterPairs diam frac) r (first :: rest) ∧ (∀ d, 0 < d → TableCurve qs idx d (κ d)) ∧ (∀ d, 0 < d → TableDensity qs idx d (φ d)) ∧
              (∀ α', α' ≠ α → diffDeviation (craterPairs diam frac) a κ φ (first :: rest) α < diffDeviation (craterPairs diam frac) a κ φ (first :: rest) α') ∧
              (split ',' row)[0]? = some q.name ∧ Field (split ',' row) 1 (Denotes 5 (T.ρ (a : ℝ))) ∧ (split ',' row)[2]? = some q.binning ∧ (split ',' row)[5]? = some "d-fit".toList ∧
              DiffRow T p0 p1 p3 (craterPairs diam frac) (first :: rest)
                (chordBias κ first.1 first.2 / Real.sqrt (countIn (craterPairs diam frac) first.1 first.2)) α (split ',' row) := by
  have hlist := C153_list C v ds hv systems hsys h2
  obtain ⟨st, h1, hchoice⟩ := C153_system C isNeg F cwd words l flat cwd' n hw h depth hd E hE v systems hlist hset hnl T plotPF
  refine ⟨st, h1, fun P out hP hout => ?_⟩
  obtain ⟨i, s, c, f, ref, mu, q2, q4, hask, _, _, hc, hf, htab⟩ := hchoice P out hP hout
  refine ⟨i, s, q2, q4, hask, ?_⟩
  intro p0 p1 p2 p3 more h0 h1' h3 qs idx hdef hlen
  obtain ⟨cids, hci, hcp⟩ : ChronologyDefined ds s (p0 :: p1 :: p2 :: p3 :: more) := hdef.1
  have hgood := made_chron hv hcn hci hcp h0 h1' h3 hc
  have hfc := made_constructed hf
  obtain ⟨κ, φ, z1, z2, z3, z4, z5⟩ := table_curves hv hpn hdef hlen hf
  set T' : TableRow.Env := { T with classes := C, chron := c, pf := f, plotPF := plotPF f, ref := ref, mu := mu } with hT'
  obtain ⟨st', h1'', htable⟩ := C152_table_partial C isNeg F cwd words l flat cwd' n hw h depth hd E hE hdec hload T' hT
  rw [h1] at h1''
  injection h1'' with h1''
  subst h1''
  obtain ⟨p, input, items, a1, a2, a3, hrows⟩ := htable P out hP htab
  refine ⟨p, input, items, a1, a2, a3, ?_⟩
  intro env henv hplain asks hasks hfits j q shp file diam frac a b hj hbin hb hlists ha hfr hopen
  have hne : agesAsked asks ≠ [] := by
    intro e
    rw [e] at hj
    simp at hj
  obtain ⟨t, fs, t1, _, _, hrow⟩ := (hrows env henv hplain asks hasks hfits).2 _ (List.getLast?_eq_some_getLast hne)
  obtain ⟨o, row, c0, r, range, r1, r2, r3, r4, r5, _, _, r8⟩ := hrow j _ q hj
  obtain ⟨k, k1, k2, k3, _, k5, k6, _⟩ := open_lists shp hlists
  rw [hopen, k1] at r3
  injection r3 with r3
  subst r3
  obtain ⟨b', res, b1, b2, b3, b4, b5, b6, b7, b8, b9, b10, _⟩ := r5
  have hbb : b' = b := binning_name (b1.trans hbin)
  subst hbb
  have hfr' : ∀ x ∈ craterPairs diam frac, 0 < x.2 := by
    intro x hx
    rw [craterPairs, List.mem_map] at hx
    obtain ⟨y, hy, rfl⟩ := hx
    have := hfr y.2 (List.of_mem_zip hy).2
    show (0 : ℝ) < (y.2 : ℝ)
    exact_mod_cast this
  obtain ⟨first, rest, hi, thi, B, f1, f2, f3, f4, f5, f6, f7, f8, f9, f10, f11, f12⟩ :=
    C157_fit f hfc c p0 p1 p3 hgood T.curveFit hcf (plotPF f) κ φ 1 one_pos
      (fun d hd => by rw [hplot f d _ hd (z3 d hd), one_mul]) z4 k k5
      (by rw [k3]; exact_mod_cast ha) (craterPairs diam frac) k2 hfr' b' hb (fun e e' he _ => z5 _ (middle_pos hb he)) r _ ref res b2
  rw [k3] at f2
  subst f3
  obtain ⟨lo, g1, g2⟩ := f7 _ b4
  obtain ⟨g3, g4⟩ := (f4 lo).1 g1
  rw [f8] at b5
  rw [g1] at b7
  rw [f5] at b8
  injection b5 with b5
  injection b7 with b7
  injection b8 with b8
  obtain ⟨_, w0, w1, w2, w3, w4, w5, w6, w7, w9, w10, w11, w12, w13, w14, w15, w16, w17, w18, _⟩ := r8
  refine ⟨t, row, _, r, first, rest, κ, φ, res.a0.best, t1, r2, k1, r4, f1, z1, z2, f2, w0, ?_, w2, w5, ?_⟩
  · rw [← k3]
    exact w1
  · obtain ⟨s7, u1, s8, u2, u3, u4⟩ := w7
    refine ⟨?_, ⟨s8, u2, ?_⟩, ?_⟩
    · rcases u3 with ⟨_, e⟩ | ⟨e, _⟩
      · rw [u1, e, b9, f11]
      · exact absurd e (by decide)
    · rcases u4 with ⟨⟨_, _, e⟩, _⟩ | ⟨_, e⟩
      · cases e
      · rw [e, b10, f12, Nat.floor_natCast]
    · rw [b3, ← b5] at *
      refine ⟨_, _, _, lo, hi, g3, g4, f6, f9, g2, f10, w10, w11, w12, ?_⟩
      rw [b6, ← b7, ← b8] at *
      exact ⟨w13, w14, w15, w16, w17, w18⟩

/-- a table of a single increment has a cumulative curve, but no differential or relative one: there is no slope to take (`k[-2]` in Productionfn.py:171) -/
theorem C160_single (q : ℚ) (hq : 0 < q) : ∃ f, initTab [(q : ℝ)] 0 = .ok f ∧ ∀ d : ℝ, 0 < d → ∀ a : Option ℝ,
    (∃ n, f.evaluate .cumulative d a = .ok n ∧ 0 < n) ∧ f.evaluate .differential d a = .error .index ∧ f.evaluate .rplot d a = .error .index := by
  have hq' : (0 : ℝ) < q := by exact_mod_cast hq
  obtain ⟨f, hf⟩ := tab_construct (h := [(q : ℝ)]) (idx := 0) (by simp) (by simpa using hq')
  obtain ⟨r, rfl⟩ := tab_form (h := [(q : ℝ)]) (idx := 0) (by simp) hf
  refine ⟨_, hf, fun d hd a => ?_⟩
  have hl : log10E d = .ok (log10 d) := by rw [log10E, if_pos hd]
  set f : PFn := .tab ((List.range [(q : ℝ)].length).map (fun i => log10 (([(q : ℝ)].drop i).sum) - log10 (([(q : ℝ)].drop 0).sum)))
    ((List.range [(q : ℝ)].length).map (fun i => log10 (tabEdge 0 i))) ((List.range [(q : ℝ)].length).map (fun i => log10 (tabCentre 0 i))) r with hfd
  have hC : ∀ b : ℝ, ∃ n, f.C d b = .ok n ∧ 0 < n := fun b => ⟨_, by rw [hfd, PFn.C, hl]; rfl, pow10_pos _⟩
  have hF : ∀ b : ℝ, f.F d b = .error .index := fun b => by rw [hfd, PFn.F, hl]; rfl
  have hR : ∀ b : ℝ, f.R d b = .error .index := fun b => by rw [hfd, PFn.R, hl]; rfl
  have h0 : f.defaultA0 = .ok 0 := rfl
  rcases a with _ | b
  · simp only [PFn.evaluate, h0, ok_bind]
    exact ⟨hC 0, hF 0, hR 0⟩
  · by_cases hb : b = 0
    · simp only [PFn.evaluate, if_pos hb, h0, ok_bind]
      exact ⟨hC 0, hF 0, hR 0⟩
    · simp only [PFn.evaluate, if_neg hb, ok_bind]
      exact ⟨hC b, hF b, hR b⟩

example : ∃ f, initTab [((3 / 2 : ℚ) : ℝ)] 0 = .ok f ∧ f.evaluate .differential 2 none = .error .index := by
  obtain ⟨f, h1, h2⟩ := C160_single (3 / 2) (by norm_num)
  exact ⟨f, h1, (h2 2 (by norm_num) none).2.1⟩

/-! ### a list of functions whose first system has a table -/

def tabledIds : List (List Char × TVal) :=
  [("name".toList, .str "p".toList), ("type".toList, .str "tabular incremental root-2".toList), ("H".toList, .list [.str "3".toList, .str "1".toList]),
   ("index_1km".toList, .str "1".toList)]

def tabledList : List Char :=
   "chronology_system={\n name=Moon, Neukum (1983)\ncf=c\npf=p\nbody=Moon\n}\n".toList ++
   ("chronology_system={\n name=Mars, Hartmann (2005)\ncf=c2\npf=h\nbody=Mars\n}\n".toList ++
   ("chronology={\n name=c\ncoefficients=[0,0,0,2]\n}\n".toList ++
   ("chronology={\n name=c2\ncoefficients=[5e-14,7,0,8e-4]\n}\n".toList ++
   ("production={\n name=p\ntype='tabular incremental root-2'\nH=[3,1]\nindex_1km=1\n}\n".toList ++
   "production={\n name=h\ncoefficients=[0,-2]\n}\n".toList))))

def tabledDefinitions : List (List Char × TVal) :=
  [("chronology_system".toList, .dict (dictOf (systemIds "Moon, Neukum (1983)" "c" "p" "Moon"))),
   ("chronology_system".toList, .dict (dictOf (systemIds "Mars, Hartmann (2005)" "c2" "h" "Mars"))),
   ("chronology".toList, .dict (dictOf (functionIds "c" ["0", "0", "0", "2"]))),
   ("chronology".toList, .dict (dictOf (functionIds "c2" ["5e-14", "7", "0", "8e-4"]))),
   ("production".toList, .dict (dictOf tabledIds)),
   ("production".toList, .dict (dictOf (functionIds "h" ["0", "-2"])))]

theorem tabled_prod : TextOf .ascii "production={\n name=p\ntype='tabular incremental root-2'\nH=[3,1]\nindex_1km=1\n}\n".toList
    [("production".toList, .dict (dictOf tabledIds))] := by
  have := definition_text (kind := "production") ⟨by decide, by decide⟩ _ _
    (name_line "name" "p" ⟨by decide, by decide⟩ (by decide) (by decide) (by decide) (by decide) (by decide) (by decide)
    (line_text "type" "'tabular incremental root-2'" _ ⟨by decide, by decide⟩ (by decide) (valueText_line _ (by decide) (by decide) (by decide) (by decide))
      (.plain _ _ (by decide) (.text _ _ (by decide) (.quoted '\'' "tabular incremental root-2".toList (Or.inr rfl))))
    (line_text "H" "[3,1]" _ ⟨by decide, by decide⟩ (by decide) (valueText_line _ (by decide) (by decide) (by decide) (by decide))
      (list_value ["3", "1"] (by simp) (by decide))
    (name_line "index_1km" "1" ⟨by decide, by decide⟩ (by decide) (by decide) (by decide) (by decide) (by decide) (by decide) nil_text))))
    (by simp) (by decide) 'n' "ame=p\ntype='tabular incremental root-2'\nH=[3,1]\nindex_1km=1\n".toList
    "name=p\ntype='tabular incremental root-2'\nH=[3,1]\nindex_1km=".toList '1'
    (by decide +kernel) (by decide) (by decide +kernel) (by decide) (by decide +kernel)
  exact this

theorem tabled_text : TextOf .ascii tabledList tabledDefinitions := by
  have ends : ∀ s : String, s.toList.getLast? = some '\n' → s.toList = [] ∨ s.toList.getLast? = some '\n' := fun _ h => .inr h
  have q : ∀ (k : String) (ids : List (List Char × TVal)), ∀ d ∈ [(k.toList, TVal.dict (dictOf ids))], ∀ t, d.2 ≠ .str ('\n' :: t) := by
    intro k ids d hd t
    rw [List.mem_singleton] at hd
    subst hd
    exact nofun
  have := textOf_append small_system1 (textOf_append small_system2 (textOf_append small_chron1 (textOf_append small_chron2
    (textOf_append tabled_prod small_prod2 (ends _ (by decide +kernel)) (q _ _)) (ends _ (by decide +kernel)) (q _ _)) (ends _ (by decide +kernel)) (q _ _))
    (ends _ (by decide +kernel)) (q _ _)) (ends _ (by decide +kernel)) (q _ _)
  exact this

theorem tabled_list : FunctionList .ascii tabledList tabledDefinitions := by
  have ht : functionText .ascii tabledList = tabledList := by decide +kernel
  refine ⟨by rw [ht]; exact tabled_text, by rw [ht]; decide +kernel, ?_, ?_⟩
  · intro d hd l
    simp only [tabledDefinitions, List.mem_cons, List.not_mem_nil, or_false] at hd
    rcases hd with rfl | rfl | rfl | rfl | rfl | rfl <;> exact nofun
  · intro d hd l
    simp only [tabledDefinitions, List.mem_cons, List.not_mem_nil, or_false] at hd
    rcases hd with rfl | rfl | rfl | rfl | rfl | rfl <;> exact nofun

def tabledDisk : Disk := ⟨tabledList, fun _ => none⟩

theorem tabled_source : ∃ v, loadFunctions .ascii none tabledDisk = .ok v ∧ SourceOf .ascii (.dict v) tabledDefinitions := by
  obtain ⟨v, h1, _⟩ := C109_builtin .ascii none tabledDisk (nofun) tabledDefinitions tabled_list (List.cons_ne_nil _ _)
  exact ⟨_, h1, .program none tabledDisk _ _ (nofun) tabled_list (List.cons_ne_nil _ _) h1⟩

theorem tabled_systems : List.Forall₂ SystemEntry (occurrences tabledDefinitions "chronology_system".toList) exEnv.systems := by
  have e : occurrences tabledDefinitions "chronology_system".toList = [.dict (dictOf (systemIds "Moon, Neukum (1983)" "c" "p" "Moon")),
      .dict (dictOf (systemIds "Mars, Hartmann (2005)" "c2" "h" "Mars"))] := by decide +kernel
  rw [e]
  exact .cons ⟨_, rfl, by decide +kernel, by decide +kernel, by decide +kernel, by decide +kernel⟩
    (.cons ⟨_, rfl, by decide +kernel, by decide +kernel, by decide +kernel, by decide +kernel⟩ .nil)

theorem tabled_functions : TableDefined tabledDefinitions ⟨"Moon, Neukum (1983)".toList, "c".toList, "p".toList, "Moon".toList⟩ [0, 0, 0, 2] [3, 1] 1 := by
  have e1 : occurrences tabledDefinitions "chronology".toList = [.dict (dictOf (functionIds "c" ["0", "0", "0", "2"])),
      .dict (dictOf (functionIds "c2" ["5e-14", "7", "0", "8e-4"]))] := by decide +kernel
  have e2 : occurrences tabledDefinitions "production".toList = [.dict (dictOf tabledIds), .dict (dictOf (functionIds "h" ["0", "-2"]))] := by decide +kernel
  exact ⟨⟨_, ⟨[], _, e1, by decide +kernel, by simp⟩, ["0".toList, "0".toList, "0".toList, "2".toList], by decide +kernel,
    .cons (by decide +kernel) (.cons (by decide +kernel) (.cons (by decide +kernel) (.cons (by decide +kernel) .nil)))⟩,
    tabledIds, ⟨[], _, e2, by decide +kernel, by simp⟩, by decide +kernel, ⟨["3".toList, "1".toList], by decide +kernel,
    .cons (by decide +kernel) (.cons (by decide +kernel) .nil)⟩, by simp, "1".toList, by simp, by decide +kernel, by decide +kernel,
    ⟨_, .inl ⟨by unfold NoEntry; decide +kernel, rfl⟩⟩, .inl (by unfold NoEntry; decide +kernel)⟩

theorem tabled_production {v : TVal} (h : SourceOf .ascii (.dict v) tabledDefinitions) : ∃ f, makeProduction .ascii (.dict v) "p".toList false = .ok (some f) := by
  have hpn : 2 ≤ (occurrences tabledDefinitions "production".toList).length := by decide +kernel
  obtain ⟨_, ids, i1, i2, i3, i4, it, i5, i6, i7, ⟨r, i8⟩, i9⟩ := tabled_functions
  obtain ⟨f', g1, _⟩ := C132_table .ascii (.dict v) _ h false _ rfl hpn _ ids i1 i2 _ i3 i4 it _ i5 i6 i7 r i8 i9
  exact ⟨f', g1⟩

theorem tabled_chronology {v : TVal} (h : SourceOf .ascii (.dict v) tabledDefinitions) : ∃ c, makeChronology .ascii (.dict v) "c".toList = .ok c ∧ GoodChron c 0 0 2 := by
  have hcn : 2 ≤ (occurrences tabledDefinitions "chronology".toList).length := by decide +kernel
  obtain ⟨⟨idc, f1, f2⟩, _⟩ := tabled_functions
  obtain ⟨c, hc, _⟩ := C132_chronology .ascii _ _ h hcn _ _ f1 0 0 0 2 [] f2
  have := made_chron h hcn f1 f2 (p0 := 0) (p1 := 0) (p2 := 0) (p3 := 2) (more := []) le_rfl le_rfl (by norm_num) hc
  norm_num at this
  exact ⟨c, hc, this⟩

/-- at and above 1 km the table of the sample is flat -/
theorem tabled_flat {d y : ℝ} (hd : 1 ≤ d) (h : TableCurve [3, 1] 1 d y) : y = 1 := by
  obtain ⟨S, hS, h⟩ := h
  have s1 : S 1 = 1 := by rw [hS]; norm_num
  rcases h with ⟨i, t, h1, h2, h3, h4, _⟩ | ⟨_, h⟩ | ⟨h, _⟩
  · exfalso
    have hi : i = 0 := by simp at h1; omega
    subst hi
    have : d < 1 := by
      rw [h4]
      exact Real.rpow_lt_one_of_one_lt_of_neg (by norm_num) (by push_cast; linarith)
    linarith
  · rw [h]
    norm_num [s1]
  · exfalso
    have : (2 : ℝ) ^ ((0 - ((1 : ℕ) : ℝ)) / 2) < 1 := Real.rpow_lt_one_of_one_lt_of_neg (by norm_num) (by push_cast; norm_num)
    linarith

/-- the command of the sample with this list of functions: the row of the fit to the four craters -/
example (T : TableRow.Env) (hT : ∀ x, OneField (T.floatStr x)) (hcf : CurveFitSpec T.curveFit) : ∃ v plotPF st P t row first rest κ φ α,
    loadFunctions .ascii none tabledDisk = .ok v ∧ (∀ f d n, 0 < d → f.evaluate .cumulative d none = .ok n → (plotPF f).C0 d = n) ∧
    runCommand .ascii (fun _ => false) ageFiles 1 "/u/".toList diffWords = .ok st ∧ prepareRun ageEnv st = .ok P ∧
    runTable .ascii v T plotPF P = .ok (some t) ∧ (split '\n' t)[3]? = some row ∧ (split ',' row)[0]? = some "m".toList ∧
    FitBins (gridOf .pseudoLog 0) (craterPairs [1, 3, 3 / 2, 2] [1, 1, 1 / 2, 1]) (0, ⊤) (first :: rest) ∧ (∀ d, 0 < d → TableCurve [3, 1] 1 d (κ d)) ∧ (∀ d, 0 < d → TableDensity [3, 1] 1 d (φ d)) ∧
    (∀ α', α' ≠ α → diffDeviation (craterPairs [1, 3, 3 / 2, 2] [1, 1, 1 / 2, 1]) 10 κ φ (first :: rest) α <
      diffDeviation (craterPairs [1, 3, 3 / 2, 2] [1, 1, 1 / 2, 1]) 10 κ φ (first :: rest) α') ∧
    DiffRow T 0 0 2 (craterPairs [1, 3, 3 / 2, 2] [1, 1, 1 / 2, 1]) (first :: rest)
      (chordBias κ first.1 first.2 / Real.sqrt (countIn (craterPairs [1, 3, 3 / 2, 2] [1, 1, 1 / 2, 1]) first.1 first.2)) α (split ',' row) := by
  obtain ⟨v, hv, hsrc⟩ := tabled_source
  obtain ⟨st, P, hst, hP⟩ := diffed_runs
  obtain ⟨plotPF, hplot⟩ : ∃ plotPF : PFn → PF, ∀ f d n, 0 < d → f.evaluate .cumulative d none = .ok n → (plotPF f).C0 d = n := by
    refine ⟨fun f => ⟨fun _ => 0, fun _ _ => 0, fun d => match f.evaluate .cumulative d none with | .ok n => n | .error _ => 0⟩, fun f d n _ hn => ?_⟩
    dsimp only
    rw [hn]
  have hlist := C153_list .ascii v _ hsrc _ tabled_systems (by decide)
  have hcn : 2 ≤ (occurrences tabledDefinitions "chronology".toList).length := by decide +kernel
  have hpn : 2 ≤ (occurrences tabledDefinitions "production".toList).length := by decide +kernel
  obtain ⟨c, hc, hgood⟩ := tabled_chronology hsrc
  obtain ⟨hl, ho, _⟩ := sample_count.choose_spec.choose_spec
  have ho' : openCount .ascii (.error .system) ".diam".toList sampleFile = .ok sampleOpened := ho
  obtain ⟨k, k1, k2, k3, _, k5, _, _⟩ := open_lists (.error .system) hl
  have hk : sampleOpened = .craters k := by
    have : openCount .ascii (.error .system) ".diam".toList sampleFile = .ok (.craters k) := k1
    rw [ho'] at this
    injection this
  obtain ⟨k', hk', _, hkne, hkd⟩ := sample_listed
  obtain rfl : k' = k := Opened.craters.inj (hk'.symm.trans hk)
  have hfr : ∀ x ∈ craterPairs [1, 3, 3 / 2, 2] [1, 1, 1 / 2, 1], 0 < x.2 := by
    intro x hx
    simp only [craterPairs, List.zip_cons_cons, List.zip_nil_right, List.map_cons, List.map_nil, List.mem_cons, List.not_mem_nil, or_false] at hx
    rcases hx with rfl | rfl | rfl | rfl <;> norm_num
  have hfr' : ∀ x ∈ k'.craters, 0 < x.2 := fun x hx => hfr x (k2.mem_iff.1 hx)
  obtain ⟨f, hf⟩ := tabled_production hsrc
  have hcon : Constructed f := made_constructed hf
  obtain ⟨κ, φ, z1, z2, z3, z4, z5⟩ := table_curves hsrc hpn tabled_functions (by simp) hf
  have hev1 : ∃ n, f.evaluate .cumulative 1 none = .ok n := ⟨_, z3 1 one_pos⟩
  have ha : 0 < k'.area := by rw [k3]; norm_num
  have hκ : ∀ d, 0 < d → (plotPF f).C0 d = 1 * κ d := fun d hd => by rw [hplot f d _ hd (z3 d hd), one_mul]
  have hfall : ∀ (cs : List (ℝ × ℝ)) (e e' : ℝ), NextEdges (gridOf .pseudoLog 0) e e' → 0 < weightIn cs e e' → 0 < φ (Real.sqrt (e * e')) :=
    fun _ e e' he _ => z5 _ (middle_pos (by simp) he)
  obtain ⟨res, lo', hi', hres, hbr⟩ := C157_exists f hcon hev1 c T.curveFit hcf (plotPF f) κ φ 1 one_pos hκ z4 k' k5 ha hkne
    (fun x hx => lt_of_lt_of_le (by norm_num) (hkd x hx)) hfr' .pseudoLog (by simp) (hfall _) false
  obtain ⟨first, rest, hi, thi, B, f1, _, f3, f4, f5, _, f7, f8, _⟩ := C157_fit f hcon c 0 0 2 hgood T.curveFit hcf (plotPF f) κ φ 1 one_pos hκ z4
    k' k5 ha _ (List.Perm.refl _) hfr' .pseudoLog (by simp) (hfall _) (0, ⊤) false 1 res hres
  have hB : 0.98 * B < 1 := by
    obtain ⟨⟨g1, g2, g3, hgap⟩, g4, _⟩ := (f1.bins first).1 List.mem_cons_self
    have hone : (gridOf .pseudoLog 0).Edge 1 := ⟨0, 1, by simp [pseudoLogMantissas], by simp⟩
    obtain ⟨x, hx, hx2⟩ : ∃ x ∈ k'.craters, x.1 < first.2 := by
      by_contra hcon'
      push Not at hcon'
      have : k'.craters.filter (fun c => decide (first.1 ≤ c.1 ∧ c.1 < first.2)) = [] := by
        rw [List.filter_eq_nil_iff]
        intro c hc hp
        have := hcon' c hc
        simp at hp
        linarith
      rw [weightIn, this] at g4
      simp at g4
    have hx1 : 1 ≤ x.1 := by
      have := k2.mem_iff.1 hx
      simp only [List.zip_cons_cons, List.zip_nil_right, List.map_cons, List.map_nil, List.mem_cons, List.not_mem_nil, or_false] at this
      rcases this with rfl | rfl | rfl | rfl <;> norm_num
    have h1 : 1 ≤ first.1 := by
      by_contra hlt
      have := hgap 1 hone (not_le.1 hlt)
      linarith
    have hflat : chordBias κ first.1 first.2 = 1 := by
      unfold chordBias chordSlope
      rw [tabled_flat h1 (z1 _ (by linarith)), tabled_flat (by linarith : 1 ≤ first.2) (z1 _ (by linarith))]
      norm_num
    have h2 : (1 : ℝ) ≤ countIn k'.craters first.1 first.2 := by
      have : 0 < countIn k'.craters first.1 first.2 := by
        rw [countIn, List.length_pos_iff]
        intro hnil
        rw [weightIn, hnil] at g4
        simp at g4
      exact_mod_cast this
    have h3 : 1 ≤ Real.sqrt (countIn k'.craters first.1 first.2) := by
      rw [show (1 : ℝ) = Real.sqrt 1 by simp]
      exact Real.sqrt_le_sqrt h2
    have h4 : 1 / Real.sqrt (countIn k'.craters first.1 first.2) ≤ 1 := by
      rw [div_le_one (by linarith)]
      exact h3
    rw [f3, hflat]
    norm_num at h4 ⊢
    linarith
  obtain ⟨lo, hlo⟩ : ∃ lo, res.a0.lower = .ok lo := ⟨_, (f4 _).2 ⟨hB, rfl⟩⟩
  obtain ⟨tlo, htlo⟩ : ∃ tlo, res.tLower = .ok tlo := by
    obtain ⟨p, c0, c1, c2, c3, c4, c5, c6⟩ := hgood
    obtain ⟨age, _, b2, _⟩ := C15_age_inversion p c c0 0 0 2 c1 c2 c3 c4 c5 c6
    unfold Verif.Age.fitAge at hres
    dsimp only at hres
    obtain ⟨_, _, hres⟩ := except_bind_eq_ok hres
    obtain ⟨_, _, hres⟩ := except_bind_eq_ok hres
    obtain ⟨_, _, hres⟩ := except_bind_eq_ok hres
    obtain ⟨_, _, hres⟩ := except_bind_eq_ok hres
    injection hres with hres
    rw [← hres] at hlo ⊢
    dsimp only at hlo ⊢
    rw [hlo]
    exact ⟨_, b2 lo none⟩
  obtain ⟨t1, t2⟩ := diffed_settings hst hP
  have hfun : systemFunctions .ascii v "Moon, Neukum (1983)".toList = .ok (c, f) := by
    have hfind : exEnv.systems.find? (fun s => s.name = "Moon, Neukum (1983)".toList) =
        some ⟨"Moon, Neukum (1983)".toList, "c".toList, "p".toList, "Moon".toList⟩ := by decide +kernel
    unfold systemFunctions
    rw [hlist, ok_bind, hfind]
    dsimp only
    rw [hc, ok_bind, hf, ok_bind]
  obtain ⟨out, hout⟩ : ∃ out, runTable .ascii v T plotPF P = .ok out := by
    unfold runTable
    rw [diffed_named hst hP, ok_bind, hfun, ok_bind, t1, ok_bind, t2, ok_bind]
    have := diffed_written ⟨.ascii, T.ρ, T.floatStr, f, plotPF f, c, T.simpson, T.curveFit, 1, decide ((1 : ℝ) ≠ 0)⟩ hT
      ⟨(res.t, tlo, thi), (res.a0.best, lo, hi), res.n, res.nEvent, some res.binRange⟩
      ⟨.pseudoLog, res, by decide +kernel, by rw [show (plotFor askDiff sampleOpened (0, ⊤)).count = .craters k' from hk]; exact hres, rfl, htlo, f8, rfl, hlo, f5, rfl, rfl, rfl⟩
      (by
        intro r hr
        injection hr with hr
        rw [← hr, hbr]
        exact .inr ⟨_, _, rfl⟩) st P hst hP
    exact this
  obtain ⟨st', hst', hfile⟩ := C160_command_partial .ascii (fun _ => false) ageFiles "/u/".toList diffWords diffGiven diffGiven "/u/".toList 0 diffed_words diffed_expands 1
    (by omega) ageEnv (fun _ => rfl) rfl sample_noload v tabledDefinitions hsrc exEnv.systems tabled_systems (by decide) hcn hpn rfl (by decide +kernel) T hT hcf plotPF hplot
  rw [hst] at hst'
  injection hst' with hst'
  subst hst'
  obtain ⟨i, s, s1, _, s2, s3⟩ := hfile P out hP hout
  have hs : s = ⟨"Moon, Neukum (1983)".toList, "c".toList, "p".toList, "Moon".toList⟩ := by
    have hn := diffed_system s2
    have : ∀ s ∈ exEnv.systems, s.name = "Moon, Neukum (1983)".toList → s = ⟨"Moon, Neukum (1983)".toList, "c".toList, "p".toList, "Moon".toList⟩ := by
      decide +kernel
    exact this s (List.mem_of_getElem? s1) hn
  subst hs
  obtain ⟨p, input, items, g1, g2, g3, g4⟩ := s3 0 0 0 2 [] le_rfl le_rfl (by norm_num) [3, 1] 1 tabled_functions (by simp)
  obtain rfl := diffed_presented g1
  obtain rfl := diffed_input g2
  obtain rfl := diffed_items g3
  obtain ⟨t, row, c', r, first, rest, κ', φ', α, e1, e2, e3, e4, e5, y1, y2, e6, e7, _, _, _, e8⟩ := g4 agePlotEnv rfl sample_plain [askData, askDiff] diffed_asked diffed_fitting 0 askDiff
    (.error .system) sampleFile [1, 3, 3 / 2, 2] [1, 1, 1 / 2, 1] 10 .pseudoLog (by rw [diffed_ages]; rfl) (by decide +kernel) (by simp) hl (by norm_num)
    (by intro x hx; simp only [List.mem_cons, List.not_mem_nil, or_false] at hx; rcases hx with rfl | rfl | rfl | rfl <;> norm_num) (sample_load.trans ho.symm)
  rw [ho'] at e3
  injection e3 with e3
  subst e3
  obtain rfl := diffed_range r e4
  rw [show ((10 : ℚ) : ℝ) = 10 by norm_num] at e6
  rw [show ((0 : ℚ) : ℝ) = 0 by norm_num, show ((2 : ℚ) : ℝ) = 2 by norm_num] at e8
  exact ⟨v, plotPF, st, P, t, row, first, rest, κ', φ', α, hv, hplot, hst, hP, by rw [hout, e1], e2, e7, e5, y1, y2, e6, e8⟩

end

end Verif.Props
