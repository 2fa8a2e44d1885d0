import Verif.Model.Images
import Verif.Props.PlotSpace
import Verif.Props.SigmaPlot
import Verif.Lemmas.Production

/-! C127, C128: colours of the uncertainty plots, sizes of symbols and text. -/

namespace Verif.Props
open Verif.Py Verif.Cratercount Verif.PlotSpace Verif.Images Verif.Production

noncomputable section

/-! ### C127: colours -/

theorem colour_nat {r : ℝ × ℝ} {n : ℕ} (h0 : r.1 = 0) (h1 : r.2 = n) (hn : 0 < n) {v : ℝ} {j : ℕ} (hj : j < n) (hv : (j : ℝ) ≤ v) (hv' : v < j + 1) :
    colour n r v = j := by
  unfold colour
  have hn' : (n : ℝ) ≠ 0 := by exact_mod_cast hn.ne'
  have e : (v - r.1) / (r.2 - r.1) * n = v := by
    rw [h0, h1, sub_zero, sub_zero]
    field_simp
  dsimp only
  have hj0 : (0 : ℝ) ≤ j := Nat.cast_nonneg j
  have hjn : (j : ℝ) + 1 ≤ n := by exact_mod_cast hj
  rw [e, if_neg (by linarith), if_neg (by linarith)]
  rw [Nat.floor_eq_iff (by linarith)]
  exact ⟨hv, hv'⟩

theorem countRange_full {ks : List ℕ} (h0 : 0 ∈ ks) (h8 : ∃ k ∈ ks, 8 ≤ k) : countRange ks = .ok (0, 8) := by
  have hb : ∀ v ∈ clipped ks, (0 : ℝ) ≤ v ∧ v ≤ 8 := by
    intro v hv
    unfold clipped at hv
    rw [List.mem_map] at hv
    obtain ⟨k, _, rfl⟩ := hv
    refine ⟨Nat.cast_nonneg _, ?_⟩
    exact_mod_cast min_le_right k 8
  have m0 : (0 : ℝ) ∈ clipped ks := List.mem_map.2 ⟨0, h0, by norm_num⟩
  have m8 : (8 : ℝ) ∈ clipped ks := by
    obtain ⟨k, hk, hk8⟩ := h8
    exact List.mem_map.2 ⟨k, hk, by rw [min_eq_right hk8]; norm_num⟩
  unfold countRange
  cases hc : clipped ks with
  | nil => rw [hc] at m0; cases m0
  | cons v l =>
    rw [hc] at hb m0 m8
    dsimp only
    obtain ⟨a1, a2⟩ := foldl_min_sigma v l
    obtain ⟨b1, b2⟩ := foldl_max_sigma v l
    have hmin : l.foldl min v = 0 := le_antisymm (a2 0 m0) (hb _ a1).1
    have hmax : l.foldl max v = 8 := le_antisymm (hb _ b1).2 (b2 8 m8)
    rw [hmin, hmax]
    unfold limits
    rw [if_neg (by norm_num)]

/-- **C127: the colour of a cell is that of its label.**  If there are cells without craters and cells with eight or more, all labels are on
the colour bar, and a label has the colour of a cell exactly if it is the number of its craters ("7+" for seven or more). -/
theorem C127_counts_partial (ks : List ℕ) (h0 : 0 ∈ ks) (h8 : ∃ k ∈ ks, 8 ≤ k) : ∃ r, countRange ks = .ok r ∧
    (∀ l ≤ 7, labelShown r l) ∧ ∀ k l, l ≤ 7 → (labelColour r l = countColour r k ↔ l = min k 7) := by
  refine ⟨_, countRange_full h0 h8, ?_, ?_⟩
  · intro l hl
    have : (l : ℝ) ≤ 7 := by exact_mod_cast hl
    have h' : (0 : ℝ) ≤ l := Nat.cast_nonneg l
    unfold labelShown labelValue
    constructor <;> norm_num <;> linarith
  · intro k l hl
    have e1 : labelColour (0, 8) l = l := by
      unfold labelColour labelValue
      refine colour_nat rfl (by norm_num) (by norm_num) (by omega) ?_ ?_ <;> norm_num
    have e2 : countColour (0, 8) k = min k 7 := by
      unfold countColour
      rcases Nat.lt_or_ge k 8 with h | h
      · rw [min_eq_left (by omega : k ≤ 8), min_eq_left (by omega : k ≤ 7)]
        exact colour_nat rfl (by norm_num) (by norm_num) h le_rfl (by linarith)
      · rw [min_eq_right h, min_eq_right (by omega : 7 ≤ k)]
        unfold colour
        norm_num
    rw [e1, e2]

example : ∃ r, countRange [0, 3, 120, 7] = .ok r ∧ (∀ l ≤ 7, labelShown r l) ∧
    ∀ k l, l ≤ 7 → (labelColour r l = countColour r k ↔ l = min k 7) :=
  C127_counts_partial _ (by simp) ⟨120, by simp, by norm_num⟩

/-- **C127 is false in general.**  In an image with at most five craters in a cell, the cells with three craters have the colour labelled 2. -/
theorem C127_few_craters_counterexample : ∃ r, countRange [0, 3, 5] = .ok r ∧ labelShown r 2 ∧ labelShown r 3 ∧
    countColour r 3 = labelColour r 2 ∧ countColour r 3 ≠ labelColour r 3 := by
  have e : countRange [0, 3, 5] = .ok (0, 5) := by
    unfold countRange clipped limits
    norm_num
  have f4 : ⌊(24 / 5 : ℝ)⌋₊ = 4 := by rw [Nat.floor_eq_iff (by norm_num)]; norm_num
  have f4' : ⌊(4 : ℝ)⌋₊ = 4 := by rw [Nat.floor_eq_iff (by norm_num)]; norm_num
  have f5 : ⌊(28 / 5 : ℝ)⌋₊ = 5 := by rw [Nat.floor_eq_iff (by norm_num)]; norm_num
  have c3 : countColour (0, 5) 3 = 4 := by
    unfold countColour colour
    norm_num [f4]
  have l2 : labelColour (0, 5) 2 = 4 := by
    unfold labelColour labelValue colour
    norm_num [f4']
  have l3 : labelColour (0, 5) 3 = 5 := by
    unfold labelColour labelValue colour
    norm_num [f5]
  refine ⟨_, e, ?_, ?_, by rw [c3, l2], by rw [c3, l3]; norm_num⟩ <;> unfold labelShown labelValue <;> norm_num

/-- **C127 is false in general.**  If all cells have eight craters or more, their colour is not the one labelled "7+". -/
theorem C127_many_craters_counterexample (k : ℕ) (hk : 8 ≤ k) : ∃ r, countRange [k, k + 1] = .ok r ∧ labelShown r 7 ∧
    countColour r k ≠ labelColour r 7 := by
  have e : countRange [k, k + 1] = .ok (7.2, 8.8) := by
    unfold countRange clipped limits
    simp only [List.map_cons, List.map_nil, List.foldl_cons, List.foldl_nil]
    rw [min_eq_right hk, min_eq_right (by omega : 8 ≤ k + 1)]
    norm_num
  have f1 : ⌊(3 / 2 : ℝ)⌋₊ = 1 := by rw [Nat.floor_eq_iff (by norm_num)]; norm_num
  have f4 : ⌊(4 : ℝ)⌋₊ = 4 := by rw [Nat.floor_eq_iff (by norm_num)]; norm_num
  have ck : countColour (7.2, 8.8) k = 4 := by
    unfold countColour colour
    rw [min_eq_right hk]
    norm_num [f4]
  have l7 : labelColour (7.2, 8.8) 7 = 1 := by
    unfold labelColour labelValue colour
    norm_num [f1]
  refine ⟨_, e, ?_, by rw [ck, l7]; norm_num⟩
  unfold labelShown labelValue
  norm_num

theorem log10_five_pos : 0 < log10 5 := by
  have := (log10_lt (by norm_num : (0 : ℝ) < 1) (by norm_num : (0 : ℝ) < 5)).2 (by norm_num)
  rwa [log10_one] at this

theorem log10_five_rpow (e : ℝ) : log10 ((5 : ℝ) ^ e) = e * log10 5 := by
  unfold log10
  exact Real.logb_rpow_eq_mul_logb_of_pos (by norm_num)

/-- **C127: ages.**  A cell is drawn exactly if the ratio is between 1/5 and 5.  There are nine colours, each for a range of ratios with a
quotient of 5^(2/9); the middle one is for ratios from 5^(-1/9) to 5^(1/9). -/
theorem C127_ratio (q : ℝ) (hq : 0 < q) : (ratioColour q = none ↔ q ≤ 1 / 5 ∨ 5 ≤ q) ∧
    ∀ j : ℕ, ratioColour q = some j ↔ j < 9 ∧ 1 / 5 < q ∧ (5 : ℝ) ^ ((2 * j - 9 : ℝ) / 9) ≤ q ∧ q < (5 : ℝ) ^ ((2 * j - 7 : ℝ) / 9) := by
  have e5 : log10 (1 / 5) = -log10 5 := by
    rw [log10_div one_pos (by norm_num), log10_one, zero_sub]
  have h5 := log10_five_pos
  have hin : (ratioRange.1 < log10 q ∧ log10 q < ratioRange.2) ↔ 1 / 5 < q ∧ q < 5 := by
    unfold ratioRange
    rw [log10_lt (by norm_num) hq, log10_lt hq (by norm_num)]
  constructor
  · unfold ratioColour
    dsimp only
    split
    · rename_i h
      rw [hin] at h
      simp only [reduceCtorEq, false_iff, not_or, not_le]
      exact h
    · rename_i h
      rw [hin, not_and_or, not_lt, not_lt] at h
      simp only [true_iff]
      exact h
  · intro j
    have hlo : (5 : ℝ) ^ ((2 * j - 9 : ℝ) / 9) ≤ q ↔ (2 * j - 9 : ℝ) / 9 * log10 5 ≤ log10 q := by
      rw [← log10_five_rpow, log10_le (Real.rpow_pos_of_pos (by norm_num) _) hq]
    have hhi : q < (5 : ℝ) ^ ((2 * j - 7 : ℝ) / 9) ↔ log10 q < (2 * j - 7 : ℝ) / 9 * log10 5 := by
      rw [← log10_five_rpow, log10_lt hq (Real.rpow_pos_of_pos (by norm_num) _)]
    rw [hlo, hhi]
    have hx : (log10 q - ratioRange.1) / (ratioRange.2 - ratioRange.1) * (9 : ℕ) = (log10 q / log10 5 + 1) * 9 / 2 := by
      unfold ratioRange
      rw [e5]
      field_simp
      push_cast
      ring
    unfold ratioColour
    dsimp only
    split
    · rename_i h
      have h' := hin.1 h
      unfold ratioRange at h
      rw [e5] at h
      have g1 : -1 < log10 q / log10 5 := by rw [lt_div_iff₀ h5]; linarith [h.1]
      have g2 : log10 q / log10 5 < 1 := by rw [div_lt_iff₀ h5]; linarith [h.2]
      unfold colour
      dsimp only
      rw [hx, if_neg (by linarith), if_neg (by push_cast; linarith)]
      rw [Option.some_inj, Nat.floor_eq_iff (by linarith)]
      have k1 : ((2 * j - 9 : ℝ) / 9 * log10 5 ≤ log10 q) ↔ (j : ℝ) ≤ (log10 q / log10 5 + 1) * 9 / 2 := by
        rw [← le_div_iff₀ h5]
        constructor <;> intro h <;> linarith
      have k2 : (log10 q < (2 * j - 7 : ℝ) / 9 * log10 5) ↔ (log10 q / log10 5 + 1) * 9 / 2 < j + 1 := by
        rw [← div_lt_iff₀ h5]
        constructor <;> intro h <;> linarith
      rw [k1, k2]
      constructor
      · rintro ⟨a, b⟩
        refine ⟨?_, h'.1, a, b⟩
        have : (j : ℝ) < 9 := by linarith
        exact_mod_cast this
      · rintro ⟨_, _, a, b⟩
        exact ⟨a, b⟩
    · rename_i h
      rw [hin] at h
      simp only [reduceCtorEq, false_iff]
      rintro ⟨hj, hq', _, hb⟩
      apply h
      refine ⟨hq', ?_⟩
      rw [← log10_lt hq (by norm_num)]
      have : (j : ℝ) ≤ 8 := by exact_mod_cast (by omega : j ≤ 8)
      nlinarith

/-- the actual age has the middle colour; twice the age does not -/
example : ratioColour 1 = some 4 ∧ ratioColour 2 ≠ some 4 ∧ ratioColour 6 = none := by
  refine ⟨?_, ?_, ?_⟩
  · rw [(C127_ratio 1 one_pos).2 4]
    refine ⟨by norm_num, by norm_num, ?_, ?_⟩
    · exact Real.rpow_le_one_of_one_le_of_nonpos (by norm_num) (by norm_num)
    · exact Real.one_lt_rpow (by norm_num) (by norm_num)
  · rw [Ne, (C127_ratio 2 (by norm_num)).2 4]
    rintro ⟨_, _, _, h⟩
    have h9 : ((5 : ℝ) ^ ((2 * (4 : ℕ) - 7 : ℝ) / 9)) ^ 9 = 5 := by
      rw [← Real.rpow_natCast, ← Real.rpow_mul (by norm_num)]
      norm_num
    have := pow_lt_pow_left₀ h (by norm_num) (by norm_num : (9 : ℕ) ≠ 0)
    rw [h9] at this
    norm_num at this
  · exact (C127_ratio 6 (by norm_num)).1.2 (Or.inr (by norm_num))

/-- **C127: labels of the ratio.**  Every label differs from the ratio at its place by less than 0.015. -/
theorem C127_ratio_labels : ∀ t ∈ ratioTicks, |(t.2 : ℝ) - t.1| < 0.015 := by
  intro t ht
  unfold ratioTicks at ht
  simp only [List.mem_cons, List.not_mem_nil, or_false] at ht
  rcases ht with rfl | rfl | rfl | rfl | rfl | rfl | rfl | rfl | rfl | rfl | rfl <;> norm_num [abs_of_nonneg, abs_of_neg, abs_lt]

/-! ### C128: sizes -/

theorem createPlotSpace_ok {s s' : Symbols} {p : PlotSpace.Pres} {xr yr : ℝ × ℝ} {pt : ℝ} (hpt : 0 < pt) {dims : List ℝ} {l : Layout}
    (h : createPlotSpace s p xr yr pt false dims = .ok (l, s')) : layout p xr yr pt false dims = .ok l ∧ s' = drawSymbols s l.width := by
  unfold createPlotSpace at h
  obtain ⟨l', hl, h⟩ := except_bind_eq_ok h
  obtain ⟨k, hk, h⟩ := except_bind_eq_ok h
  injection h with h
  injection h with h1 h2
  subst h1 h2
  refine ⟨hl, ?_⟩
  rw [layout_eq p xr yr pt hpt dims k hk] at hl
  injection hl with hl
  subst hl
  dsimp only
  rw [axisDecades_eq]

/-- **C128: symbols of a new plot.**  When a plot set is drawn for the first time its symbols have the sizes of the table, 0.8 times as large
for axes 7.5 cm wide and in proportion to the width otherwise. -/
theorem C128_symbols_partial (p : PlotSpace.Pres) (xr yr : ℝ × ℝ) (pt : ℝ) (hpt : 0 < pt) (dims : List ℝ) (l : Layout) (s : Symbols)
    (h : createPlotSpace newSymbols p xr yr pt false dims = .ok (l, s)) :
    s.sizes.length = symbolSizes.length ∧ (∀ (i : ℕ) (e : ℝ), symbolSizes[i]? = some e → s.sizes[i]? = some (0.8 * e * (l.width / 7.5))) ∧
      s.edge = some (0.5 * (l.width / 7.5)) := by
  obtain ⟨_, rfl⟩ := createPlotSpace_ok hpt h
  unfold drawSymbols newSymbols
  refine ⟨by simp, ?_, rfl⟩
  intro i e he
  dsimp only
  rw [List.getElem?_map, he, Option.map_some]
  congr 1
  ring

theorem default_space (s : Symbols) : ∃ l s', createPlotSpace s .cumulative (-3, 2) (-4, 1) 9 false [7.5, 7.5] = .ok (l, s') ∧ l.width = 7.5 := by
  have e1 : spanOf (-3, 2) = 5 := by norm_num [spanOf, abs_of_nonneg]
  have e2 : spanOf (-4, 1) = 5 := by norm_num [spanOf, abs_of_nonneg]
  have hk : printScale .cumulative (axisDecades (-3, 2)) (axisDecades (-4, 1)) [7.5, 7.5] = .ok 1.5 := by
    rw [axisDecades_eq, axisDecades_eq, e1, e2]
    simp only [printScale, dataAspect, reduceCtorEq, if_false, if_true, or_self]
    norm_num
  have hl := layout_eq .cumulative (-3, 2) (-4, 1) 9 (by norm_num) [7.5, 7.5] 1.5 hk
  have hc : ∃ l s', createPlotSpace s .cumulative (-3, 2) (-4, 1) 9 false [7.5, 7.5] = .ok (l, s') := by
    unfold createPlotSpace
    rw [hl, ok_bind, hk, ok_bind]
    exact ⟨_, _, rfl⟩
  obtain ⟨l, s', hc⟩ := hc
  refine ⟨l, s', hc, ?_⟩
  have hl' := (createPlotSpace_ok (by norm_num) hc).1
  rw [hl] at hl'
  injection hl' with hl'
  rw [← hl']
  show spanOf (-3, 2) * 1.5 = 7.5
  rw [e1]
  norm_num

/-- **C128 is false for a second drawing.**  The same plot set drawn again with the same settings has the same axes, but the symbols are
multiplied once more by 0.8 times the width over 7.5 cm; with the default width every symbol is smaller. -/
theorem C128_redraw_counterexample (p : PlotSpace.Pres) (xr yr : ℝ × ℝ) (pt : ℝ) (hpt : 0 < pt) (dims : List ℝ) (l l' : Layout) (s s' s'' : Symbols)
    (h : createPlotSpace s p xr yr pt false dims = .ok (l, s')) (h' : createPlotSpace s' p xr yr pt false dims = .ok (l', s'')) :
    l' = l ∧ (∀ (i : ℕ) (e : ℝ), s'.sizes[i]? = some e → s''.sizes[i]? = some (e * (0.8 * (l.width / 7.5)))) ∧
      (l.width = 7.5 → ∀ (i : ℕ) (e : ℝ), s'.sizes[i]? = some e → 0 < e → ∃ e' < e, s''.sizes[i]? = some e') := by
  obtain ⟨h1, h2⟩ := createPlotSpace_ok hpt h
  obtain ⟨k1, k2⟩ := createPlotSpace_ok hpt h'
  have el : l' = l := by
    rw [h1] at k1
    injection k1 with k1
    exact k1.symm
  subst el
  have key : ∀ (i : ℕ) (e : ℝ), s'.sizes[i]? = some e → s''.sizes[i]? = some (e * (0.8 * (l'.width / 7.5))) := by
    intro i e he
    rw [k2]
    unfold drawSymbols
    dsimp only
    rw [List.getElem?_map, he, Option.map_some]
  refine ⟨rfl, key, ?_⟩
  intro hw i e he hpos
  refine ⟨_, ?_, key i e he⟩
  rw [hw]
  norm_num
  linarith

/-- the squares of the default plot: 2.4 points at first, 1.92 when drawn again -/
example : ∃ l s' s'', createPlotSpace newSymbols .cumulative (-3, 2) (-4, 1) 9 false [7.5, 7.5] = .ok (l, s') ∧
    createPlotSpace s' .cumulative (-3, 2) (-4, 1) 9 false [7.5, 7.5] = .ok (l, s'') ∧ s'.sizes[0]? = some (2.4 : ℝ) ∧ s''.sizes[0]? = some (1.92 : ℝ) := by
  obtain ⟨l, s', h, hw⟩ := default_space newSymbols
  obtain ⟨l', s'', h', _⟩ := default_space s'
  obtain ⟨rfl, hr, _⟩ := C128_redraw_counterexample _ _ _ _ (by norm_num) _ _ _ _ _ _ h h'
  obtain ⟨_, hs, _⟩ := C128_symbols_partial _ _ _ _ (by norm_num) _ _ _ h
  have h0 : s'.sizes[0]? = some (2.4 : ℝ) := by
    rw [hs 0 3 rfl, hw]
    norm_num
  refine ⟨_, _, _, h, h', h0, ?_⟩
  rw [hr 0 _ h0, hw]
  norm_num

/-- **C128: text.**  With one of the seven fonts the size of the text is the given size times a factor between 0.83 and 1 that depends on the
font only. -/
theorem C128_text_partial (font : List Char) (h : font ∈ ["Open Sans", "Noto Sans", "Myriad Pro", "Verdana", "DejaVu Sans", "Tahoma",
    "Times New Roman"].map String.toList) : ∃ c, 0.83 ≤ c ∧ c ≤ 1 ∧ ∀ pt, scaledPtSize font pt = .ok (pt * c) := by
  simp only [List.map_cons, List.map_nil, List.mem_cons, List.not_mem_nil, or_false] at h
  rcases h with rfl | rfl | rfl | rfl | rfl | rfl | rfl
  · exact ⟨0.89, by norm_num, by norm_num, fun pt => rfl⟩
  · exact ⟨0.89, by norm_num, by norm_num, fun pt => rfl⟩
  · exact ⟨1, by norm_num, by norm_num, fun pt => rfl⟩
  · exact ⟨0.83, by norm_num, by norm_num, fun pt => rfl⟩
  · exact ⟨0.83, by norm_num, by norm_num, fun pt => rfl⟩
  · exact ⟨0.93, by norm_num, by norm_num, fun pt => rfl⟩
  · exact ⟨0.99, by norm_num, by norm_num, fun pt => rfl⟩

example : ∃ c, 0.83 ≤ c ∧ c ≤ 1 ∧ ∀ pt, scaledPtSize "Tahoma".toList pt = .ok (pt * c) := C128_text_partial _ (by decide +kernel)

/-- **C128 is false for other fonts**: there is no figure but an error. -/
theorem C128_font_counterexample (font : List Char) (pt : ℝ) (h : font ∉ ["Open Sans", "Noto Sans", "Myriad Pro", "Verdana", "DejaVu Sans",
    "Tahoma", "Times New Roman"].map String.toList) : scaledPtSize font pt = .error .key := by
  have : fontScale.find? (fun e => e.1 == font) = none := by
    rw [List.find?_eq_none]
    intro e he hf
    apply h
    rw [← eq_of_beq hf]
    have : fontScale.map Prod.fst = ["Open Sans", "Noto Sans", "Myriad Pro", "Verdana", "DejaVu Sans", "Tahoma",
      "Times New Roman"].map String.toList := rfl
    rw [← this]
    exact List.mem_map_of_mem he
  unfold scaledPtSize
  rw [this]

example : scaledPtSize "Arial".toList 9 = .error .key := C128_font_counterexample _ _ (by decide +kernel)

end

end Verif.Props
