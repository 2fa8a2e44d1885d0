import Verif.Props.Production
import Mathlib.Analysis.Convex.Deriv
import Mathlib.Analysis.SpecialFunctions.Trigonometric.DerivHyp
import Mathlib.Analysis.Complex.ExponentialBounds

/-! C19: tabular (incremental root-2) production functions. -/

namespace Verif.Props
open Verif.Cratercount Verif.Py Verif.Production

noncomputable section

/-- lower edge of the i-th bin of a table whose bin number `idx` starts at 1 km -/
def tabEdge (idx i : ℕ) : ℝ := (2 : ℝ) ^ (((i : ℝ) - (idx : ℝ)) / 2)

/-- centre of the i-th bin: the edge times 2^¼ -/
def tabCentre (idx i : ℕ) : ℝ := tabEdge idx i * (2 : ℝ) ^ (1 / 4 : ℝ)

theorem tabEdge_pos (idx i : ℕ) : 0 < tabEdge idx i := Real.rpow_pos_of_pos (by norm_num) _

theorem tabCentre_pos (idx i : ℕ) : 0 < tabCentre idx i :=
  mul_pos (tabEdge_pos idx i) (Real.rpow_pos_of_pos (by norm_num) _)

theorem drop_sum_pos {h : List ℝ} (hpos : ∀ x ∈ h, 0 < x) {i : ℕ} (hi : i < h.length) : 0 < (h.drop i).sum := by
  apply List.sum_pos
  · intro x hx; exact hpos x (List.mem_of_mem_drop hx)
  · intro e
    have := congrArg List.length e
    simp at this
    omega

theorem tab_construct {h : List ℝ} {idx : ℕ} (hidx : idx < h.length) (hpos : ∀ x ∈ h, 0 < x) :
    ∃ f, initTab h idx = .ok f := by
  have h1 : (flipCumsumFlip h).mapM log10E = .ok ((flipCumsumFlip h).map log10) := by
    refine mapM_log10E.2 ⟨?_, rfl⟩
    intro x hx
    obtain ⟨i, hi, rfl⟩ := List.getElem_of_mem hx
    rw [flipCumsumFlip_getElem]
    exact drop_sum_pos hpos (by simpa using hi)
  have h2 : pyIndex ((flipCumsumFlip h).map log10) (idx : ℤ) = some (((flipCumsumFlip h).map log10)[idx]'(by simpa using hidx)) := by
    simp only [pyIndex, Int.natCast_nonneg, if_true, Int.toNat_natCast]
    rw [List.getElem?_eq_getElem]
  unfold initTab
  simp only [h1, except_ok_bind, h2]
  have hne : ((List.range h.length).map (fun i : ℕ => (2 : ℝ) ^ (((i : ℝ) - (((idx : ℕ) : ℤ) : ℝ)) / 2))).map
      (fun d => d * (2 : ℝ) ^ (0.25 : ℝ)) ≠ [] := by
    intro e
    have := congrArg List.length e
    simp at this
    rw [this] at hidx
    simp at hidx
  rw [List.head?_eq_some_head hne, List.getLast?_eq_some_getLast hne]
  exact ⟨_, rfl⟩

/-- the logarithm tables of a constructed function, in readable form -/
theorem tab_form {h : List ℝ} {idx : ℕ} {f : PFn} (hidx : idx < h.length) (hf : initTab h idx = .ok f) :
    ∃ r, f = .tab ((List.range h.length).map (fun i => log10 (h.drop i).sum - log10 (h.drop idx).sum))
      ((List.range h.length).map (fun i => log10 (tabEdge idx i)))
      ((List.range h.length).map (fun i => log10 (tabCentre idx i))) r := by
  obtain ⟨hl, hpos, v, r, hv, rfl⟩ := initTab_ok hf
  have hv' : v = log10 (h.drop idx).sum := by
    simp only [pyIndex, Int.natCast_nonneg, if_true, Int.toNat_natCast] at hv
    rw [List.getElem?_eq_getElem (by simpa using hidx)] at hv
    injection hv with hv
    rw [← hv, List.getElem_map, flipCumsumFlip_getElem]
  refine ⟨r, ?_⟩
  congr 1
  · rw [flipCumsumFlip_eq_map, List.map_map, List.map_map, hv']
    rfl
  · rw [List.map_map]
    apply List.map_congr_left
    intro i _
    simp only [Function.comp, tabEdge, Int.cast_natCast]
  · rw [List.map_map, List.map_map]
    apply List.map_congr_left
    intro i _
    simp only [Function.comp, tabCentre, tabEdge, Int.cast_natCast]
    norm_num

theorem tabEdge10_sorted (n idx : ℕ) : ((List.range n).map (fun i => log10 (tabEdge idx i))).Pairwise (· < ·) := by
  have := tabMin_sorted n idx
  rw [List.map_map] at this
  simpa [Function.comp_def, tabEdge] using this

theorem tabCentre10_sorted (n idx : ℕ) : ((List.range n).map (fun i => log10 (tabCentre idx i))).Pairwise (· < ·) := by
  have := tabMean_sorted n idx
  rw [List.map_map, List.map_map] at this
  have e : (0.25 : ℝ) = 1 / 4 := by norm_num
  simpa [Function.comp_def, tabCentre, tabEdge, e] using this

/-- the value of C through the interpolation table -/
theorem tabC_eq {h : List ℝ} {idx : ℕ} {f : PFn} (hidx : idx < h.length) (hf : initTab h idx = .ok f) (a0 d : ℝ)
    (hd : 0 < d) : f.C d a0 = .ok ((10 : ℝ) ^ interp ((List.range h.length).map (fun i => log10 (tabEdge idx i)))
      ((List.range h.length).map (fun i => log10 (h.drop i).sum - log10 (h.drop idx).sum + a0)) (log10 d)) := by
  obtain ⟨r, rfl⟩ := tab_form hidx hf
  simp only [PFn.C, log10E_pos hd, except_ok_bind, tabC10, List.map_map]
  congr 3
  apply List.map_congr_left
  intro i _
  simp only [Function.comp, log10_pow10]

theorem pow10_ratio {x y a0 : ℝ} (hx : 0 < x) (hy : 0 < y) :
    (10 : ℝ) ^ (log10 x - log10 y + a0) = 10 ^ a0 * (x / y) := by
  rw [pow10_add, ← log10_div hx hy, pow10_log10 (div_pos hx hy), mul_comm]

/-- **C19.** For every table of positive increments with its 1 km bin inside: construction succeeds; the cumulative
curve is 10^a0 at 1 km; at each lower bin edge it is the sum of the increments of this and all larger bins
(normalised by the same sum at 1 km); it never increases; and it is constant below the first and above the last
edge. -/
theorem C19_tabular_cumulative (h : List ℝ) (idx : ℕ) (hidx : idx < h.length) (hpos : ∀ x ∈ h, 0 < x) (a0 : ℝ) :
    ∃ f, initTab h idx = .ok f ∧ ∃ C : ℝ → ℝ, (∀ d, 0 < d → f.C d a0 = .ok (C d)) ∧
      C 1 = (10 : ℝ) ^ a0 ∧
      (∀ i, i < h.length → C (tabEdge idx i) = 10 ^ a0 * ((h.drop i).sum / (h.drop idx).sum)) ∧
      (∀ d d', 0 < d → d ≤ d' → C d' ≤ C d) ∧
      (∀ d, 0 < d → d ≤ tabEdge idx 0 → C d = C (tabEdge idx 0)) ∧
      (∀ d, tabEdge idx (h.length - 1) ≤ d → C d = C (tabEdge idx (h.length - 1))) := by
  obtain ⟨f, hf⟩ := tab_construct hidx hpos
  refine ⟨f, hf, fun d => (10 : ℝ) ^ interp ((List.range h.length).map (fun i => log10 (tabEdge idx i)))
      ((List.range h.length).map (fun i => log10 (h.drop i).sum - log10 (h.drop idx).sum + a0)) (log10 d),
      fun d hd => tabC_eq hidx hf a0 d hd, ?_⟩
  have hs := tabEdge10_sorted h.length idx
  have hnode : ∀ i, i < h.length →
      interp ((List.range h.length).map (fun i => log10 (tabEdge idx i)))
      ((List.range h.length).map (fun i => log10 (h.drop i).sum - log10 (h.drop idx).sum + a0)) (log10 (tabEdge idx i)) =
        log10 (h.drop i).sum - log10 (h.drop idx).sum + a0 := by
    intro i hi
    have := interp_node _ ((List.range h.length).map (fun i => log10 (h.drop i).sum - log10 (h.drop idx).sum + a0)) hs
      (by simp) i (by simpa using hi)
    simpa only [List.getElem_map, List.getElem_range] using this
  have hsum : ∀ i j, i ≤ j → j < h.length → (h.drop j).sum ≤ (h.drop i).sum := by
    intro i j hij hj
    have : h.drop i = (h.drop i).take (j - i) ++ h.drop j := by
      conv_lhs => rw [← List.take_append_drop (j - i) (h.drop i)]
      rw [List.drop_drop]
      congr 2; omega
    rw [this, List.sum_append]
    have : 0 ≤ ((h.drop i).take (j - i)).sum := by
      apply List.sum_nonneg
      intro x hx
      exact (hpos x (List.mem_of_mem_drop (List.mem_of_mem_take hx))).le
    linarith
  have hanti : ((List.range h.length).map (fun i => log10 (h.drop i).sum - log10 (h.drop idx).sum + a0)).Pairwise (· ≥ ·) := by
    rw [List.pairwise_iff_getElem]
    intro i j hi hj hij
    simp only [List.getElem_map, List.getElem_range]
    have hj' : j < h.length := by simpa using hj
    have := (log10_le (drop_sum_pos hpos hj') (drop_sum_pos hpos (by omega))).2 (hsum i j (by omega) hj')
    show _ ≤ _
    linarith
  have hmono : ∀ d d', 0 < d → d ≤ d' →
      interp ((List.range h.length).map (fun i => log10 (tabEdge idx i)))
      ((List.range h.length).map (fun i => log10 (h.drop i).sum - log10 (h.drop idx).sum + a0)) (log10 d') ≤
      interp ((List.range h.length).map (fun i => log10 (tabEdge idx i)))
      ((List.range h.length).map (fun i => log10 (h.drop i).sum - log10 (h.drop idx).sum + a0)) (log10 d) := by
    intro d d' hd hdd
    exact interp_anti _ _ (hs.imp (fun {a b} (h : a < b) => h.le)) hanti (by simp) (by simp; omega)
      ((log10_le hd (by linarith)).2 hdd)
  refine ⟨?_, ?_, ?_, ?_, ?_⟩
  · have e1 : tabEdge idx idx = 1 := by simp [tabEdge]
    have := hnode idx hidx
    rw [e1] at this
    simp only [this]
    congr 1; ring
  · intro i hi
    simp only [hnode i hi]
    exact pow10_ratio (drop_sum_pos hpos hi) (drop_sum_pos hpos hidx)
  · intro d d' hd hdd
    exact pow10_le.2 (hmono d d' hd hdd)
  · intro d hd hd0
    simp only
    congr 1
    rcases hd0.eq_or_lt with e | hlt
    · rw [e]
    · rw [hnode 0 (by omega)]
      have hlog := (log10_lt hd (tabEdge_pos idx 0)).2 hlt
      rcases interp_cases _ ((List.range h.length).map (fun i => log10 (h.drop i).sum - log10 (h.drop idx).sum + a0))
        (log10 d) (hs.imp (fun {a b} (h : a < b) => h.le)) (by simp) (by simp; omega) with ⟨_, e⟩ | ⟨g, e⟩ | ⟨j, hj, _, g1, _, e⟩
      · rw [e]; simp only [List.getElem_map, List.getElem_range]
      · exfalso
        have := getElem_mono (hs.imp (fun {a b} (h : a < b) => h.le)) (i := 0) (j := h.length - 1) (by omega) (by simp; omega)
        simp only [List.getElem_map, List.getElem_range, List.length_map, List.length_range] at g this
        linarith
      · exfalso
        have := getElem_mono (hs.imp (fun {a b} (h : a < b) => h.le)) (i := 0) (j := j) (by omega) (by omega)
        simp only [List.getElem_map, List.getElem_range] at g1 this
        linarith
  · intro d hd
    simp only
    congr 1
    rw [hnode (h.length - 1) (by omega)]
    have hd0 : 0 < d := lt_of_lt_of_le (tabEdge_pos _ _) hd
    have hlog := (log10_le (tabEdge_pos idx (h.length - 1)) hd0).2 hd
    rcases interp_cases _ ((List.range h.length).map (fun i => log10 (h.drop i).sum - log10 (h.drop idx).sum + a0))
        (log10 d) (hs.imp (fun {a b} (h : a < b) => h.le)) (by simp) (by simp; omega) with ⟨g, e⟩ | ⟨g, e⟩ | ⟨j, hj, _, _, g1, e⟩
    · exfalso
      have := getElem_mono (hs.imp (fun {a b} (h : a < b) => h.le)) (i := 0) (j := h.length - 1) (by omega) (by simp; omega)
      simp only [List.getElem_map, List.getElem_range] at g this
      linarith
    · rw [e]; simp only [List.getElem_map, List.getElem_range, List.length_map, List.length_range]
    · exfalso
      have hj' : j + 1 < h.length := by simpa using hj
      have := getElem_mono (hs.imp (fun {a b} (h : a < b) => h.le)) (i := j + 1) (j := h.length - 1) (by omega) (by simp; omega)
      simp only [List.getElem_map, List.getElem_range] at g1 this
      linarith

/-- the increments recovered from the cumulative table -/
theorem tabH_eq (h : List ℝ) (idx : ℕ) (hidx : idx < h.length) (hpos : ∀ x ∈ h, 0 < x) (a0 : ℝ) :
    tabH ((List.range h.length).map (fun i => log10 (h.drop i).sum - log10 (h.drop idx).sum)) a0 =
      h.map (fun x => (10 : ℝ) ^ a0 * (x / (h.drop idx).sum)) := by
  have hc : ((List.range h.length).map (fun i => log10 (h.drop i).sum - log10 (h.drop idx).sum)).map
      (fun x => (10 : ℝ) ^ (x + a0)) = (List.range h.length).map (fun i => 10 ^ a0 * ((h.drop i).sum / (h.drop idx).sum)) := by
    rw [List.map_map]
    apply List.map_congr_left
    intro i hi
    simp only [Function.comp]
    exact pow10_ratio (drop_sum_pos hpos (by simpa using hi)) (drop_sum_pos hpos hidx)
  simp only [tabH]
  rw [hc]
  apply List.ext_getElem
  · simp; omega
  · intro i h1 h2
    have hi : i < h.length := by simpa using h2
    have hd : (h.drop i).sum = h[i] + (h.drop (i + 1)).sum := by
      rw [List.drop_eq_getElem_cons hi, List.sum_cons]
    simp only [List.getElem_zipWith, List.getElem_map, List.getElem_range]
    by_cases hi1 : i + 1 < h.length
    · rw [List.getElem_append_left (by simp; omega), List.getElem_tail]
      simp only [List.getElem_map, List.getElem_range]
      rw [hd]; ring
    · rw [List.getElem_append_right (by simp; omega)]
      have : h.drop (i + 1) = [] := List.drop_eq_nil_of_le (by omega)
      simp only [List.getElem_singleton]
      rw [hd, this]; simp

/-- **C19, increments.** The Hartmann curve at every bin centre is that bin's own increment, normalised in the same
way, and it is defined for all positive diameters. -/
theorem C19_tabular_hartmann (h : List ℝ) (idx : ℕ) (hidx : idx < h.length) (hpos : ∀ x ∈ h, 0 < x) (a0 : ℝ) :
    ∃ f, initTab h idx = .ok f ∧ ∃ H : ℝ → ℝ, (∀ d, 0 < d → f.H d a0 = .ok (H d)) ∧
      ∀ i (hi : i < h.length), H (tabCentre idx i) = 10 ^ a0 * (h[i] / (h.drop idx).sum) := by
  obtain ⟨f, hf⟩ := tab_construct hidx hpos
  obtain ⟨r, hform⟩ := tab_form hidx hf
  have hp : ∀ x ∈ h.map (fun x => (10 : ℝ) ^ a0 * (x / (h.drop idx).sum)), 0 < x := by
    intro x hx
    obtain ⟨y, hy, rfl⟩ := List.mem_map.1 hx
    exact mul_pos (pow10_pos a0) (div_pos (hpos y hy) (drop_sum_pos hpos hidx))
  refine ⟨f, hf, fun d => (10 : ℝ) ^ interp ((List.range h.length).map (fun i => log10 (tabCentre idx i)))
    ((h.map (fun x => (10 : ℝ) ^ a0 * (x / (h.drop idx).sum))).map log10) (log10 d), ?_, ?_⟩
  · intro d hd
    rw [hform]
    simp only [PFn.H, log10E_pos hd, except_ok_bind, tabH10, tabH_eq h idx hidx hpos a0, mapM_log10E.2 ⟨hp, rfl⟩]
  · intro i hi
    have := interp_node _ ((h.map (fun x => (10 : ℝ) ^ a0 * (x / (h.drop idx).sum))).map log10)
      (tabCentre10_sorted h.length idx) (by simp) i (by simpa using hi)
    simp only [List.getElem_map, List.getElem_range] at this
    simp only [this]
    exact pow10_log10 (hp _ (List.mem_map.2 ⟨h[i], List.getElem_mem hi, rfl⟩))

/-- the bias correction of a bin wider than a point is positive -/
theorem binBias_pos {beta : ℝ} (hb : 1 < beta) (k : ℝ) : 0 < binBiasCorrection beta k := by
  unfold binBiasCorrection
  simp only
  split
  · exact one_pos
  · next hk =>
    have hk0 : k ≠ 0 := by rintro rfl; norm_num at hk
    have hg : 0 < beta ^ (0.5 : ℝ) - beta ^ (-0.5 : ℝ) := by
      have := Real.rpow_lt_rpow_of_exponent_lt hb (show (-0.5 : ℝ) < 0.5 by norm_num)
      linarith
    rcases lt_or_gt_of_ne hk0 with h | h
    · apply div_pos_of_neg_of_neg
      · have := Real.rpow_lt_rpow_of_exponent_lt hb (show k / 2 < -k / 2 by linarith)
        linarith
      · exact mul_neg_of_pos_of_neg hg h
    · apply div_pos
      · have := Real.rpow_lt_rpow_of_exponent_lt hb (show -k / 2 < k / 2 by linarith)
        linarith
      · exact mul_pos hg h

theorem slopes_ok {l : List ℝ} (h : 2 ≤ l.length) : ∃ k, slopes l = .ok k := by
  unfold slopes
  split
  · simp at h
  · next x0 rest =>
    simp only
    split
    · exact ⟨_, rfl⟩
    · next hne =>
      exfalso
      have hlen : ((List.zipWith (fun x y => (x - y) / log10 (Real.sqrt 2)) (x0 :: rest) (rest ++ [x0])).reverse).length =
          (x0 :: rest).length := by simp
      revert hlen hne
      generalize (List.zipWith (fun x y => (x - y) / log10 (Real.sqrt 2)) (x0 :: rest) (rest ++ [x0])).reverse = m
      intro hne hlen
      match m, hne, hlen with
      | [], _, hlen => simp at hlen
      | [x], _, hlen => rw [← hlen] at h; simp at h
      | x :: y :: ks, hne, _ => exact hne _ _ _ rfl

theorem sqrt_two_gt : 1 < Real.sqrt 2 := by
  rw [show (1 : ℝ) = Real.sqrt 1 by simp]
  exact Real.sqrt_lt_sqrt (by norm_num) (by norm_num)

theorem zipWith_pos {α β : Type} {g : α → β → ℝ} {l : List α} {m : List β} (h : ∀ a ∈ l, ∀ b ∈ m, 0 < g a b) :
    ∀ x ∈ List.zipWith g l m, 0 < x := by
  intro x hx
  obtain ⟨i, hi, rfl⟩ := List.getElem_of_mem hx
  rw [List.getElem_zipWith]
  exact h _ (List.getElem_mem _) _ (List.getElem_mem _)

/-- **C19, differential and R forms.** For a table of at least two positive increments both are defined and positive at
all positive diameters, and between the first and the last bin centre R = D³ F. -/
theorem C19_tabular_differential (h : List ℝ) (idx : ℕ) (hidx : idx < h.length) (hpos : ∀ x ∈ h, 0 < x)
    (h2 : 2 ≤ h.length) (a0 : ℝ) :
    ∃ f, initTab h idx = .ok f ∧ ∃ F R : ℝ → ℝ, (∀ d, 0 < d → f.F d a0 = .ok (F d) ∧ 0 < F d) ∧
      (∀ d, 0 < d → f.R d a0 = .ok (R d)) ∧
      ∀ d, tabCentre idx 0 ≤ d → d ≤ tabCentre idx (h.length - 1) → R d = d ^ 3 * F d := by
  obtain ⟨f, hf⟩ := tab_construct hidx hpos
  obtain ⟨r, hform⟩ := tab_form hidx hf
  obtain ⟨k, hk⟩ := slopes_ok (l := (List.range h.length).map (fun i => log10 (h.drop i).sum - log10 (h.drop idx).sum))
    (by simpa using h2)
  have hkl := slopes_length hk
  set dm := (List.range h.length).map (fun i => log10 (tabCentre idx i)) with hdm
  have hFs : ∃ fs, tabFs ((List.range h.length).map (fun i => log10 (h.drop i).sum - log10 (h.drop idx).sum)) dm a0 = .ok fs ∧
      (∀ x ∈ fs, 0 < x) := by
    unfold tabFs
    simp only [hk, except_ok_bind]
    refine ⟨_, rfl, ?_⟩
    apply zipWith_pos
    intro a ha b _
    refine div_pos ?_ (binBias_pos sqrt_two_gt b)
    revert a
    apply zipWith_pos
    intro a ha b _
    rw [tabH_eq h idx hidx hpos a0] at ha
    obtain ⟨y, hy, rfl⟩ := List.mem_map.1 ha
    refine div_pos (div_pos (mul_pos (pow10_pos a0) (div_pos (hpos y hy) (drop_sum_pos hpos hidx))) (pow10_pos _)) ?_
    have := Real.rpow_lt_rpow_of_exponent_lt (show (1 : ℝ) < 2 by norm_num) (show (-0.25 : ℝ) < 0.25 by norm_num)
    linarith
  obtain ⟨fs, hfs, hfp⟩ := hFs
  have hfl := tabFs_length hfs (by simp [hdm])
  have hdl : dm.length = h.length := by simp [hdm]
  have hfl' : fs.length = h.length := by rw [hfl]; simp
  have hrp : ∀ x ∈ List.zipWith (fun f m => f / ((10 : ℝ) ^ m) ^ (-3 : ℝ)) fs dm, 0 < x := by
    apply zipWith_pos
    intro a ha b _
    exact div_pos (hfp a ha) (Real.rpow_pos_of_pos (pow10_pos b) _)
  refine ⟨f, hf, fun d => (10 : ℝ) ^ interp dm (fs.map log10) (log10 d),
    fun d => (10 : ℝ) ^ interp dm ((List.zipWith (fun f m => f / ((10 : ℝ) ^ m) ^ (-3 : ℝ)) fs dm).map log10) (log10 d), ?_, ?_, ?_⟩
  · intro d hd
    refine ⟨?_, pow10_pos _⟩
    rw [hform]
    simp only [PFn.F, log10E_pos hd, except_ok_bind, tabF10, hfs, mapM_log10E.2 ⟨hfp, rfl⟩]
  · intro d hd
    rw [hform]
    simp only [PFn.R, log10E_pos hd, except_ok_bind, tabR10, hfs, mapM_log10E.2 ⟨hrp, rfl⟩]
  · intro d hd0 hd1
    have hd : 0 < d := lt_of_lt_of_le (tabCentre_pos _ _) hd0
    have hmap : (List.zipWith (fun f m => f / ((10 : ℝ) ^ m) ^ (-3 : ℝ)) fs dm).map log10 =
        List.zipWith (fun y z => y + 3 * z) (fs.map log10) dm := by
      apply List.ext_getElem
      · simp
      · intro i h1 h2
        simp only [List.getElem_map, List.getElem_zipWith]
        have hfi := hfp _ (List.getElem_mem (l := fs) (n := i) (by simp at h1; omega))
        rw [log10_div hfi (Real.rpow_pos_of_pos (pow10_pos _) _), ← Real.rpow_mul (by norm_num), log10_pow10]
        ring
    have hlin := interp_add_linear dm (fs.map log10) (tabCentre10_sorted h.length idx) (by simp [hdl, hfl'])
      (by rw [hdl]; omega) 3 (log10 d)
      (by simp only [hdm, List.getElem_map, List.getElem_range]
          exact (log10_le (tabCentre_pos _ _) hd).2 hd0)
      (by simp only [hdm, List.getElem_map, List.getElem_range, List.length_map, List.length_range]
          exact (log10_le hd (tabCentre_pos _ _)).2 hd1)
    simp only
    rw [hmap, hlin, pow10_add, mul_comm]
    congr 1
    rw [mul_comm, Real.rpow_mul (by norm_num), pow10_log10 hd]
    norm_cast

example : (1 : ℕ) < ([8, 4, 1] : List ℝ).length ∧ (∀ x ∈ ([8, 4, 1] : List ℝ), 0 < x) ∧ 2 ≤ ([8, 4, 1] : List ℝ).length := by
  refine ⟨by simp, ?_, by simp⟩
  intro x hx
  simp at hx
  rcases hx with rfl | rfl | rfl <;> norm_num

/-- the slopes: those between neighbouring entries, the last one repeated -/
theorem slopes_getElem {l k : List ℝ} (hk : slopes l = .ok k) (i : ℕ) (hi : i < l.length) :
    ∃ (h1 : min i (l.length - 2) + 1 < l.length) (h2 : i < k.length),
      k[i] = (l[min i (l.length - 2)] - l[min i (l.length - 2) + 1]) / log10 (Real.sqrt 2) := by
  have hkl := slopes_length hk
  unfold slopes at hk
  split at hk
  · cases hk
  next x0 rest =>
  simp only at hk
  split at hk
  · next y k2 ks e =>
    injection hk with hk
    subst hk
    set K := List.zipWith (fun x y => (x - y) / log10 (Real.sqrt 2)) (x0 :: rest) (rest ++ [x0]) with hK
    have hKe : K = ks.reverse ++ [k2, y] := by
      have := congrArg List.reverse e
      rw [List.reverse_reverse] at this
      simpa using this
    have hKl : K.length = rest.length + 1 := by simp [hK]
    have hksl : ks.length + 2 = rest.length + 1 := by rw [← hKl, hKe]; simp
    simp only [List.length_cons] at hi
    have hm : min i ((x0 :: rest).length - 2) + 1 < (x0 :: rest).length := by
      simp only [List.length_cons]; omega
    refine ⟨hm, by rw [hkl]; simpa using hi, ?_⟩
    have hval : ∀ j (hj : j + 1 < (x0 :: rest).length), K[j]? = some (((x0 :: rest)[j] - (x0 :: rest)[j + 1]) / log10 (Real.sqrt 2)) := by
      intro j hj
      have hj' : j < rest.length := by simpa using hj
      rw [hK, List.getElem?_eq_getElem (by simp; omega), List.getElem_zipWith, List.getElem_append_left hj', List.getElem_cons_succ]
    have h0 : K[min i ((x0 :: rest).length - 2)]? = some ((k2 :: k2 :: ks).reverse[i]'(by simp; omega)) := by
      rw [← List.getElem?_eq_getElem, hKe]
      simp only [List.length_cons, List.reverse_cons, List.append_assoc, List.cons_append, List.nil_append]
      by_cases hlast : i = rest.length
      · rw [show min i (rest.length + 1 - 2) = ks.reverse.length by simp; omega, show i = ks.reverse.length + 1 by simp; omega]
        rw [List.getElem?_append_right (by omega), List.getElem?_append_right (by omega)]
        simp
      · rw [show min i (rest.length + 1 - 2) = i by omega]
        by_cases h2 : i < ks.reverse.length
        · rw [List.getElem?_append_left h2, List.getElem?_append_left h2]
        · simp only [List.length_reverse] at h2
          rw [show i = ks.reverse.length by simp; omega, List.getElem?_append_right (by omega), List.getElem?_append_right (by omega)]
          simp
    rw [hval _ hm] at h0
    exact (Option.some.inj h0).symm
  · cases hk

/-- the edges of a bin are a factor 2^¼ away from its centre -/
theorem edge_centre (idx i : ℕ) : tabEdge idx i = tabCentre idx i * 2 ^ (-(1 / 4) : ℝ) ∧ tabEdge idx (i + 1) = tabCentre idx i * 2 ^ (1 / 4 : ℝ) := by
  constructor
  · unfold tabCentre
    rw [mul_assoc, ← Real.rpow_add (by norm_num)]
    simp
  · unfold tabCentre tabEdge
    rw [mul_assoc, ← Real.rpow_add (by norm_num), ← Real.rpow_add (by norm_num)]
    congr 1
    push_cast
    ring

theorem edge_ratio (idx i : ℕ) : tabEdge idx (i + 1) / tabEdge idx i = 2 ^ (1 / 2 : ℝ) := by
  rw [(edge_centre idx i).1, (edge_centre idx i).2, mul_div_mul_left _ _ (tabCentre_pos idx i).ne', ← Real.rpow_sub (by norm_num)]
  norm_num

/-- the differential form at the bin centres -/
theorem tabular_density (h : List ℝ) (idx : ℕ) (hidx : idx < h.length) (hpos : ∀ x ∈ h, 0 < x)
    (h2 : 2 ≤ h.length) (a0 : ℝ) :
    ∃ f, initTab h idx = .ok f ∧ ∀ i (hi : i < h.length) (k : ℝ),
      (h.drop (min i (h.length - 2))).sum = (tabEdge idx (i + 1) / tabEdge idx i) ^ k * (h.drop (min i (h.length - 2) + 1)).sum →
      f.F (tabCentre idx i) a0 = .ok (10 ^ a0 * (h[i] / (h.drop idx).sum) / tabCentre idx i / ((2 : ℝ) ^ (0.25 : ℝ) - (2 : ℝ) ^ (-0.25 : ℝ)) /
        binBiasCorrection (Real.sqrt 2) k) := by
  obtain ⟨f, hf⟩ := tab_construct hidx hpos
  obtain ⟨r, hform⟩ := tab_form hidx hf
  refine ⟨f, hf, ?_⟩
  intro i hi k hslope
  obtain ⟨ks, hks⟩ := slopes_ok (l := (List.range h.length).map (fun i => log10 (h.drop i).sum - log10 (h.drop idx).sum)) (by simpa using h2)
  obtain ⟨hm, hik, hki⟩ := slopes_getElem hks i (by simpa using hi)
  simp only [List.length_map, List.length_range, List.getElem_map, List.getElem_range] at hki hm
  have hkl := slopes_length hks
  -- ratio of neighbouring edges
  have hc := tabCentre_pos idx i
  have hratio := edge_ratio idx i
  have hsq : log10 (Real.sqrt 2) = log10 2 / 2 := by
    unfold log10
    rw [Real.sqrt_eq_rpow, Real.logb_rpow_eq_mul_logb_of_pos (by norm_num)]
    ring
  have hl2 := log10_two_pos
  have hkk : ks[i] = k := by
    rw [hki, hsq, hslope, hratio]
    rw [log10_mul (Real.rpow_pos_of_pos (Real.rpow_pos_of_pos (by norm_num) _) _) (drop_sum_pos hpos hm), ← Real.rpow_mul (by norm_num)]
    have : log10 ((2 : ℝ) ^ (1 / 2 * k : ℝ)) = 1 / 2 * k * log10 2 := by
      unfold log10
      rw [Real.logb_rpow_eq_mul_logb_of_pos (by norm_num)]
    rw [this]
    field_simp
    ring
  set dm := (List.range h.length).map (fun i => log10 (tabCentre idx i)) with hdm
  set w0 : ℝ := (2 : ℝ) ^ (0.25 : ℝ) - (2 : ℝ) ^ (-0.25 : ℝ) with hw0
  have hw0p : 0 < w0 := by
    have := Real.rpow_lt_rpow_of_exponent_lt (show (1 : ℝ) < 2 by norm_num) (show (-0.25 : ℝ) < 0.25 by norm_num)
    rw [hw0]; linarith
  have hFs : ∃ fs, tabFs ((List.range h.length).map (fun i => log10 (h.drop i).sum - log10 (h.drop idx).sum)) dm a0 = .ok fs ∧
      (∀ x ∈ fs, 0 < x) ∧ fs[i]? = some (10 ^ a0 * (h[i] / (h.drop idx).sum) / tabCentre idx i / w0 / binBiasCorrection (Real.sqrt 2) k) := by
    unfold tabFs
    simp only [hks, except_ok_bind]
    refine ⟨_, rfl, ?_, ?_⟩
    · apply zipWith_pos
      intro a ha b _
      refine div_pos ?_ (binBias_pos sqrt_two_gt b)
      revert a
      apply zipWith_pos
      intro a ha b _
      rw [tabH_eq h idx hidx hpos a0] at ha
      obtain ⟨y, hy, rfl⟩ := List.mem_map.1 ha
      exact div_pos (div_pos (mul_pos (pow10_pos a0) (div_pos (hpos y hy) (drop_sum_pos hpos hidx))) (pow10_pos _)) hw0p
    · rw [tabH_eq h idx hidx hpos a0, List.getElem?_eq_getElem (by simp [hdm, hkl]; omega)]
      simp only [List.getElem_zipWith, List.getElem_map, hdm, List.getElem_range, hkk, pow10_log10 hc]
      rfl
  obtain ⟨fs, hfs, hfp, hfi⟩ := hFs
  have hfl : fs.length = h.length := by rw [tabFs_length hfs (by simp [hdm])]; simp
  have hnode := interp_node dm (fs.map log10) (tabCentre10_sorted h.length idx) (by simp [hdm, hfl]) i (by simpa [hdm] using hi)
  simp only [List.getElem_map, hdm, List.getElem_range] at hnode
  have hfi' : fs[i]'(by omega) = 10 ^ a0 * (h[i] / (h.drop idx).sum) / tabCentre idx i / w0 / binBiasCorrection (Real.sqrt 2) k := by
    rw [List.getElem?_eq_getElem (by omega)] at hfi
    exact Option.some.inj hfi
  rw [hform]
  simp only [PFn.F, log10E_pos hc, except_ok_bind, tabF10, hfs, mapM_log10E.2 ⟨hfp, rfl⟩]
  rw [hdm, hnode, pow10_log10 (hfp _ (List.getElem_mem _)), hfi']

/-- the density at the centre of a bin, of a power law with `H` craters in the bin -/
theorem density_of_count {idx i : ℕ} {A k H : ℝ} (hk : 0 < k) (hcount : A * tabEdge idx i ^ (-k) - A * tabEdge idx (i + 1) ^ (-k) = H) :
    A * k * tabCentre idx i ^ (-k - 1) = H / tabCentre idx i * (k / ((2 : ℝ) ^ (k / 4) - (2 : ℝ) ^ (-k / 4))) := by
  have hc := tabCentre_pos idx i
  have hD : 0 < (2 : ℝ) ^ (k / 4) - (2 : ℝ) ^ (-k / 4) := by
    have := Real.rpow_lt_rpow_of_exponent_lt (show (1 : ℝ) < 2 by norm_num) (show -k / 4 < k / 4 by linarith)
    linarith
  have hck : 0 < tabCentre idx i ^ (-k) := Real.rpow_pos_of_pos hc _
  rw [← hcount, (edge_centre idx i).1, (edge_centre idx i).2, Real.mul_rpow hc.le (Real.rpow_nonneg (by norm_num) _),
    Real.mul_rpow hc.le (Real.rpow_nonneg (by norm_num) _),
    ← Real.rpow_mul (by norm_num), ← Real.rpow_mul (by norm_num), Real.rpow_sub_one hc.ne']
  rw [show -(1 / 4) * -k = k / 4 by ring, show 1 / 4 * -k = -k / 4 by ring]
  rw [show -k / 4 = -(k / 4) by ring] at hD ⊢
  have hD' := hD.ne'
  field_simp

theorem root_width_pos : 0 < (2 : ℝ) ^ (0.25 : ℝ) - (2 : ℝ) ^ (-0.25 : ℝ) := by
  have := Real.rpow_lt_rpow_of_exponent_lt (show (1 : ℝ) < 2 by norm_num) (show (-0.25 : ℝ) < 0.25 by norm_num)
  linarith

/-- **C139 (partial: slopes of at least 1e-5).** At every bin centre the differential form of a tabular function is the density of the power law
`A·D^-k` which has as many craters in this bin as the table, with the slope `k` given by the cumulative table at both edges of the bin; for the last
bin the slope is that of the bin before. -/
theorem C139_density_partial (h : List ℝ) (idx : ℕ) (hidx : idx < h.length) (hpos : ∀ x ∈ h, 0 < x)
    (h2 : 2 ≤ h.length) (a0 : ℝ) :
    ∃ f, initTab h idx = .ok f ∧ ∀ i (hi : i < h.length) (A k : ℝ), 0.00001 ≤ k →
      (h.drop (min i (h.length - 2))).sum = (tabEdge idx (i + 1) / tabEdge idx i) ^ k * (h.drop (min i (h.length - 2) + 1)).sum →
      A * tabEdge idx i ^ (-k) - A * tabEdge idx (i + 1) ^ (-k) = 10 ^ a0 * (h[i] / (h.drop idx).sum) →
      f.F (tabCentre idx i) a0 = .ok (A * k * tabCentre idx i ^ (-k - 1)) := by
  obtain ⟨f, hf, hF⟩ := tabular_density h idx hidx hpos h2 a0
  refine ⟨f, hf, ?_⟩
  intro i hi A k hk0 hslope hcount
  have hkpos : 0 < k := by linarith [show (0 : ℝ) < 0.00001 by norm_num]
  have hw := root_width_pos
  rw [hF i hi k hslope, density_of_count hkpos hcount]
  congr 1
  have hb : binBiasCorrection (Real.sqrt 2) k = ((2 : ℝ) ^ (k / 4) - (2 : ℝ) ^ (-k / 4)) /
      (((2 : ℝ) ^ (0.25 : ℝ) - (2 : ℝ) ^ (-0.25 : ℝ)) * k) := by
    unfold binBiasCorrection
    simp only
    rw [if_neg (by rw [abs_of_pos hkpos]; linarith), Real.sqrt_eq_rpow, ← Real.rpow_mul (by norm_num), ← Real.rpow_mul (by norm_num),
      ← Real.rpow_mul (by norm_num), ← Real.rpow_mul (by norm_num)]
    norm_num
    ring_nf
  have hD : 0 < (2 : ℝ) ^ (k / 4) - (2 : ℝ) ^ (-k / 4) := by
    have := Real.rpow_lt_rpow_of_exponent_lt (show (1 : ℝ) < 2 by norm_num) (show -k / 4 < k / 4 by linarith)
    linarith
  rw [hb]
  set w := (2 : ℝ) ^ (0.25 : ℝ) - (2 : ℝ) ^ (-0.25 : ℝ)
  set D := (2 : ℝ) ^ (k / 4) - (2 : ℝ) ^ (-k / 4)
  have hc := tabCentre_pos idx i
  field_simp

/-- sinh grows faster than linearly -/
theorem sinh_mul_lt {k x : ℝ} (hk : 0 < k) (hk1 : k < 1) (hx : 0 < x) : Real.sinh (k * x) < k * Real.sinh x := by
  have hconv : StrictConvexOn ℝ (Set.Ici (0 : ℝ)) Real.sinh := by
    apply StrictMonoOn.strictConvexOn_of_deriv (convex_Ici 0) Real.continuous_sinh.continuousOn
    rw [interior_Ici, show deriv Real.sinh = Real.cosh from funext fun z => (Real.hasDerivAt_sinh z).deriv]
    intro a ha b hb hab
    rw [Real.cosh_lt_cosh, abs_of_pos ha, abs_of_pos hb]
    exact hab
  have := hconv.2 (show (0 : ℝ) ∈ Set.Ici (0 : ℝ) by simp) (show x ∈ Set.Ici (0 : ℝ) from hx.le) hx.ne (show 0 < 1 - k by linarith) hk (by ring)
  simpa using this

/-- **C139 is false for nearly flat parts of a table**: with a slope below 1e-5 the value is smaller than the density. -/
theorem C139_flat_counterexample (h : List ℝ) (idx : ℕ) (hidx : idx < h.length) (hpos : ∀ x ∈ h, 0 < x)
    (h2 : 2 ≤ h.length) (a0 : ℝ) :
    ∃ f, initTab h idx = .ok f ∧ ∀ i (hi : i < h.length) (A k : ℝ), 0 < k → k < 0.00001 →
      (h.drop (min i (h.length - 2))).sum = (tabEdge idx (i + 1) / tabEdge idx i) ^ k * (h.drop (min i (h.length - 2) + 1)).sum →
      A * tabEdge idx i ^ (-k) - A * tabEdge idx (i + 1) ^ (-k) = 10 ^ a0 * (h[i] / (h.drop idx).sum) →
      ∃ y, f.F (tabCentre idx i) a0 = .ok y ∧ y < A * k * tabCentre idx i ^ (-k - 1) := by
  obtain ⟨f, hf, hF⟩ := tabular_density h idx hidx hpos h2 a0
  refine ⟨f, hf, ?_⟩
  intro i hi A k hk hk1 hslope hcount
  refine ⟨_, hF i hi k hslope, ?_⟩
  rw [density_of_count hk hcount]
  have hb : binBiasCorrection (Real.sqrt 2) k = 1 := by
    unfold binBiasCorrection
    simp only
    rw [if_pos (by rw [abs_of_pos hk]; exact hk1)]
  rw [hb, div_one, div_eq_mul_one_div]
  have hH : 0 < 10 ^ a0 * (h[i] / (h.drop idx).sum) / tabCentre idx i :=
    div_pos (mul_pos (pow10_pos a0) (div_pos (hpos _ (List.getElem_mem hi)) (drop_sum_pos hpos hidx))) (tabCentre_pos idx i)
  apply mul_lt_mul_of_pos_left _ hH
  have hD : 0 < (2 : ℝ) ^ (k / 4) - (2 : ℝ) ^ (-k / 4) := by
    have := Real.rpow_lt_rpow_of_exponent_lt (show (1 : ℝ) < 2 by norm_num) (show -k / 4 < k / 4 by linarith)
    linarith
  rw [div_lt_div_iff₀ root_width_pos hD, one_mul]
  have hlog := Real.log_pos (show (1 : ℝ) < 2 by norm_num)
  have key := sinh_mul_lt hk (show k < 1 by norm_num at hk1 ⊢; linarith) (show 0 < Real.log 2 / 4 by linarith)
  have e : ∀ t : ℝ, (2 : ℝ) ^ t = Real.exp (Real.log 2 * t) := fun t => Real.rpow_def_of_pos (by norm_num) t
  rw [e, e, e, e]
  rw [Real.sinh_eq, Real.sinh_eq] at key
  have q1 : Real.log 2 * (k / 4) = k * (Real.log 2 / 4) := by ring
  have q2 : Real.log 2 * (-k / 4) = -(k * (Real.log 2 / 4)) := by ring
  have q3 : Real.log 2 * (0.25 : ℝ) = Real.log 2 / 4 := by norm_num; ring
  have q4 : Real.log 2 * (-0.25 : ℝ) = -(Real.log 2 / 4) := by norm_num; ring
  rw [q1, q2, q3, q4]
  linarith

/-- a table with one crater in a million in its first bin -/
example : ∃ k : ℝ, 0 < k ∧ k < 0.00001 ∧ ([0.000001, 1] : List ℝ).sum = (tabEdge 1 1 / tabEdge 1 0) ^ k * ([1] : List ℝ).sum := by
  have h1 : 0 < Real.log 1.000001 := Real.log_pos (by norm_num)
  have h2 : Real.log 1.000001 < 0.000001 := by
    have := Real.log_lt_sub_one_of_pos (show (0 : ℝ) < 1.000001 by norm_num) (by norm_num)
    linarith
  have h3 : (0.5 : ℝ) < Real.log 2 := by linarith [Real.log_two_gt_d9]
  refine ⟨2 * Real.log 1.000001 / Real.log 2, by positivity, ?_, ?_⟩
  · rw [div_lt_iff₀ (by linarith)]
    linarith
  · rw [edge_ratio, ← Real.rpow_mul (by norm_num), Real.rpow_def_of_pos (by norm_num)]
    rw [show Real.log 2 * (1 / 2 * (2 * Real.log 1.000001 / Real.log 2)) = Real.log 1.000001 by
      have : Real.log 2 ≠ 0 := by linarith
      field_simp]
    rw [Real.exp_log (by norm_num)]
    norm_num

/-- a power law with three times as many craters from bin to bin -/
example : ∃ f, initTab [6, 2, 1] 0 = .ok f ∧ f.F (tabCentre 0 0) 0 = .ok (1 * (2 * Real.logb 2 3) * tabCentre 0 0 ^ (-(2 * Real.logb 2 3) - 1)) := by
  obtain ⟨f, hf, h⟩ := C139_density_partial [6, 2, 1] 0 (by simp) (by intro x hx; simp at hx; rcases hx with rfl | rfl | rfl <;> norm_num)
    (by simp) 0
  have e : ((2 : ℝ) ^ (1 / 2 : ℝ)) ^ (2 * Real.logb 2 3) = 3 := by
    rw [← Real.rpow_mul (by norm_num), show (1 : ℝ) / 2 * (2 * Real.logb 2 3) = Real.logb 2 3 by ring,
      Real.rpow_logb (by norm_num) (by norm_num) (by norm_num)]
  have e0 : tabEdge 0 0 = 1 := by simp [tabEdge]
  have e1 : tabEdge 0 1 = 2 ^ (1 / 2 : ℝ) := by simp [tabEdge]
  refine ⟨f, hf, h 0 (by simp) 1 (2 * Real.logb 2 3) ?_ ?_ ?_⟩
  · have : (1 : ℝ) ≤ Real.logb 2 3 := by
      rw [Real.le_logb_iff_rpow_le (by norm_num) (by norm_num)]; norm_num
    linarith
  · rw [e0, e1, div_one, e]; norm_num
  · rw [e0, e1, Real.rpow_neg (Real.rpow_nonneg (by norm_num) _), e]
    norm_num

end

end Verif.Props
