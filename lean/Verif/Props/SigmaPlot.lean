import Verif.Model.SigmaPlot
import Verif.Props.RandomnessFile
import Verif.Props.BinCraters
import Verif.Props.Misc
import Verif.Props.Scc

/-! # C110: results of the randomness analysis in the count plot -/

namespace Verif.Props

open Verif.Py Verif.Text Verif.Rand Verif.Misc Verif.SigmaPlot Verif.Cratercount Verif.Spec

/-- Specification: the height of the point of a bin.  There is none if the measure was not evaluated for the bin or is not a
number; otherwise it is the number of standard deviations, rounded to four digits, on the scale of the panel, upwards for separated
craters: positive for the mean distance to the second-closest neighbours (`m2cnd`), negative for the scatter of the areas (`sdaa`). -/
def HeightOf (m : List Char × Measured) (b : List Char) (y : Option ℝ) : Prop :=
  if b ∈ m.2.trials.map Prod.fst then
    match m.2.sigma b with
    | none => y = none
    | some v => ∃ r : ℚ, IsRounded 4 v r ∧ y = some (if m.1 = "sdaa".toList then -nSigmaScaling r else nSigmaScaling r)
  else y = none

/-- Specification: the panel of an analysis.  `bins` are the names of the bins, each with the binary logarithm of its lower
boundary. -/
structure PanelOf (A : List (List Char × Measured)) (p : Panel) (bins : List (List Char × ℚ)) : Prop where
  nodup : (bins.map Prod.fst).Nodup
  complete : ∀ b, b ∈ bins.map Prod.fst ↔ ∃ x ∈ A, b ∈ x.2.trials.map Prod.fst
  value : ∀ b ∈ bins, decVal b.1 = some b.2
  sorted : (bins.map Prod.snd).Pairwise (· ≤ ·)
  left : ∃ b ∈ bins, p.left = Real.logb 10 ((2 : ℝ) ^ (b.2 : ℝ)) ∧ ∀ c ∈ bins, b.2 ≤ c.2
  right : ∃ b ∈ bins, p.right = Real.logb 10 ((2 : ℝ) ^ ((b.2 : ℝ) + 1 / 2)) ∧ ∀ c ∈ bins, c.2 ≤ b.2
  names : p.curves.map Prod.fst = ["m2cnd".toList, "sdaa".toList].filter (fun k => decide (k ∈ A.map Prod.fst))
  curves : ∀ m ∈ A, ∃ pts, (m.1, pts) ∈ p.curves ∧
    List.Forall₂ (fun b q => q.1 = Real.logb 10 ((2 : ℝ) ^ ((b.2 : ℝ) + 1 / 4)) ∧ HeightOf m b.1 q.2) bins pts

/-! ### the table -/

theorem names_cases {A : List (List Char × Measured)} (hne : A ≠ []) (hnd : (A.map Prod.fst).Nodup) (hn : ∀ x ∈ A, x.1 ∈ measureNames) :
    A.map Prod.fst ∈ [["m2cnd".toList], ["sdaa".toList], ["m2cnd".toList, "sdaa".toList], ["sdaa".toList, "m2cnd".toList]] := by
  have hm : ∀ k ∈ A.map Prod.fst, k = "m2cnd".toList ∨ k = "sdaa".toList := by
    intro k hk
    obtain ⟨x, hx, rfl⟩ := List.mem_map.1 hk
    simpa [measureNames] using hn x hx
  have hne' : A.map Prod.fst ≠ [] := by simpa using hne
  generalize A.map Prod.fst = l at *
  match l, hne', hnd, hm with
  | [a], _, _, hm =>
    rcases hm a (by simp) with rfl | rfl <;> simp
  | [a, b], _, hnd, hm =>
    rcases hm a (by simp) with rfl | rfl <;> rcases hm b (by simp) with rfl | rfl <;> simp_all
  | a :: b :: c :: l, _, hnd, hm =>
    exfalso
    have ha := hm a (by simp)
    have hb := hm b (by simp)
    have hc := hm c (by simp)
    simp only [List.nodup_cons, List.mem_cons, not_or] at hnd
    obtain ⟨⟨h1, h2, _⟩, ⟨h3, _⟩, _⟩ := hnd
    rcases ha with rfl | rfl <;> rcases hb with rfl | rfl <;> rcases hc with rfl | rfl <;> simp_all

theorem sortedKeys_eq {A : List (List Char × Measured)} (hne : A ≠ []) (hnd : (A.map Prod.fst).Nodup) (hn : ∀ x ∈ A, x.1 ∈ measureNames) :
    sortedKeys ("bin".toList :: A.map Prod.fst) = ["m2cnd".toList, "sdaa".toList].filter (fun k => decide (k ∈ A.map Prod.fst)) := by
  have h := names_cases hne hnd hn
  generalize A.map Prod.fst = l at h
  simp only [List.mem_cons, List.not_mem_nil, or_false] at h
  rcases h with rfl | rfl | rfl | rfl <;> decide +kernel

theorem sigma_keys (A : List (List Char × Measured)) : tkeys (sigmaTable A) = .ok ("bin".toList :: A.map Prod.fst) := by
  rw [sigmaTable, columnsVal, tkeys, List.map_map]
  congr 1
  exact tableColumns_fst _ _

theorem bin_nodup {A : List (List Char × Measured)} (hnd : (A.map Prod.fst).Nodup) (hn : ∀ x ∈ A, x.1 ∈ measureNames) :
    ("bin".toList :: A.map Prod.fst).Nodup := by
  rw [List.nodup_cons]
  refine ⟨?_, hnd⟩
  intro hk
  rw [List.mem_map] at hk
  obtain ⟨x, hx, e⟩ := hk
  have := hn x hx
  rw [e] at this
  exact absurd this (by decide +kernel)

theorem sigma_bins {A : List (List Char × Measured)} (hnd : (A.map Prod.fst).Nodup) (hn : ∀ x ∈ A, x.1 ∈ measureNames) :
    tget (sigmaTable A) "bin".toList = .ok (.list ((allBins A).map .str)) := by
  rw [sigmaTable, columnsVal]
  refine tget_dict ?_
  rw [dictGet_map (fun l : List (List Char) => TVal.list (l.map .str))]
  have : dictGet (tableColumns ("bin".toList :: A.map Prod.fst) ((allBins A).map (fun b => b :: (sigmaCells A b).map Prod.fst))) "bin".toList =
      some (allBins A) := by
    apply dictGet_of_mem
    · rw [tableColumns_fst]; exact bin_nodup hnd hn
    · rw [tableColumns, List.mem_map]
      refine ⟨("bin".toList, 0), ?_, ?_⟩
      · rw [List.mem_zipIdx_iff_getElem?]
        simp
      · simp only [Prod.mk.injEq, true_and]
        rw [List.map_map]
        exact (List.map_congr_left (by intro b _; rfl)).trans (List.map_id _)
  rw [this]
  rfl

/-- the text in the table for a measure and a bin -/
def cellText (m : Measured) (b : List Char) : List Char :=
  if b ∈ m.trials.map Prod.fst then sigmaText (m.sigma b) else ['-']

theorem sigma_column {A : List (List Char × Measured)} (hnd : (A.map Prod.fst).Nodup) (hn : ∀ x ∈ A, x.1 ∈ measureNames)
    {m : List Char × Measured} (hm : m ∈ A) :
    tget (sigmaTable A) m.1 = .ok (.list ((allBins A).map (fun b => .str (cellText m.2 b)))) := by
  rw [sigmaTable, columnsVal]
  refine tget_dict ?_
  rw [dictGet_map (fun l : List (List Char) => TVal.list (l.map .str))]
  have : dictGet (tableColumns ("bin".toList :: A.map Prod.fst) ((allBins A).map (fun b => b :: (sigmaCells A b).map Prod.fst))) m.1 =
      some ((allBins A).map (cellText m.2)) := by
    apply dictGet_of_mem
    · rw [tableColumns_fst]; exact bin_nodup hnd hn
    · obtain ⟨i, hi, rfl⟩ := List.mem_iff_getElem.1 hm
      rw [tableColumns, List.mem_map]
      refine ⟨(A[i].1, i + 1), ?_, ?_⟩
      · rw [List.mem_zipIdx_iff_getElem?]
        simp [hi]
      · simp only [Prod.mk.injEq, true_and]
        rw [List.map_map]
        apply List.map_congr_left
        intro b _
        simp [sigmaCells, hi, cellText]
  rw [this, Option.map_some, List.map_map]
  rfl

/-- the value of the marker -/
noncomputable def heightVal (m : List Char × Measured) (b : List Char) : Option ℝ :=
  if b ∈ m.2.trials.map Prod.fst then (m.2.sigma b).map (fun v => nSigmaScaling (sciSigned 3 v : ℚ) * (if m.1 = "sdaa".toList then -1 else 1))
  else none

theorem marker_height (m : List Char × Measured) (b : List Char) : markerY m.1 (.str (cellText m.2 b)) = .ok (heightVal m b) := by
  rw [cellText, heightVal, markerY]
  by_cases hb : b ∈ m.2.trials.map Prod.fst
  · rw [if_pos hb, if_pos hb]
    cases hs : m.2.sigma b with
    | none =>
      have h1 : ¬ TVal.str (sigmaText none) = .str "-".toList := by
        intro h; injection h with h; exact absurd h (by decide)
      rw [if_neg h1, if_pos (show TVal.str (sigmaText none) = .str "nan".toList from rfl)]
      rfl
    | some v =>
      have hd : decVal (gStr 3 v) = some (sciSigned 3 v) := decVal_gStr 3 v
      have h1 : ¬ TVal.str (sigmaText (some v)) = .str "-".toList := by
        intro h; injection h with h
        have h' : gStr 3 v = "-".toList := h
        rw [h', show decVal "-".toList = none by decide +kernel] at hd
        cases hd
      have h2 : ¬ TVal.str (sigmaText (some v)) = .str "nan".toList := by
        intro h; injection h with h
        have h' : gStr 3 v = "nan".toList := h
        rw [h', show decVal "nan".toList = none by decide +kernel] at hd
        cases hd
      rw [if_neg h1, if_neg h2]
      have : tfloat (.str (sigmaText (some v))) = .ok (sciSigned 3 v) := by
        show (match decVal (gStr 3 v) with | some z => Except.ok z | none => _) = _
        rw [hd]
      rw [this, ok_bind]
      rfl
  · rw [if_neg hb, if_neg hb, if_pos (show TVal.str ['-'] = .str "-".toList from rfl)]

theorem heightVal_spec (m : List Char × Measured) (b : List Char) : HeightOf m b (heightVal m b) := by
  rw [HeightOf, heightVal]
  split
  · cases m.2.sigma b with
    | none => rfl
    | some v =>
      refine ⟨sciSigned 3 v, isRounded_sci 3 v, ?_⟩
      simp only [Option.map_some]
      split <;> simp
  · rfl

/-- the position of the marker -/
noncomputable def markX (b : List Char) : ℝ := Real.logb 10 ((2 : ℝ) ^ ((((decVal b).getD 0 : ℚ) : ℝ) + 0.25))

theorem marker_pos {b : List Char} {q : ℚ} (h : decVal b = some q) : markerX (.str b) = .ok (markX b) := by
  have : tfloat (.str b) = .ok q := by
    show (match decVal b with | some z => Except.ok z | none => _) = _
    rw [h]
  rw [markerX, this, ok_bind, markX, h]
  rfl

theorem foldl_min_sigma (a : ℝ) (l : List ℝ) : l.foldl min a ∈ a :: l ∧ ∀ y ∈ a :: l, l.foldl min a ≤ y := by
  induction l generalizing a with
  | nil => simp
  | cons b l ih =>
    obtain ⟨h1, h2⟩ := ih (min a b)
    have h2a := h2 (min a b) (by simp)
    rw [List.foldl_cons]
    constructor
    · rcases List.mem_cons.1 h1 with h | h
      · rw [h]
        rcases min_choice a b with e | e <;> rw [e] <;> simp
      · simp [h]
    · intro y hy
      simp only [List.mem_cons] at hy
      rcases hy with rfl | rfl | hy
      · exact h2a.trans (min_le_left _ _)
      · exact h2a.trans (min_le_right _ _)
      · exact h2 y (by simp [hy])

theorem foldl_max_sigma (a : ℝ) (l : List ℝ) : l.foldl max a ∈ a :: l ∧ ∀ y ∈ a :: l, y ≤ l.foldl max a := by
  induction l generalizing a with
  | nil => simp
  | cons b l ih =>
    obtain ⟨h1, h2⟩ := ih (max a b)
    have h2a := h2 (max a b) (by simp)
    rw [List.foldl_cons]
    constructor
    · rcases List.mem_cons.1 h1 with h | h
      · rw [h]
        rcases max_choice a b with e | e <;> rw [e] <;> simp
      · simp [h]
    · intro y hy
      simp only [List.mem_cons] at hy
      rcases hy with rfl | rfl | hy
      · exact (le_max_left _ _).trans h2a
      · exact (le_max_right _ _).trans h2a
      · exact h2 y (by simp [hy])

theorem two_pow_log (u v : ℝ) : Real.logb 10 ((2 : ℝ) ^ (u + v)) = Real.logb 10 ((2 : ℝ) ^ u) + Real.logb 10 ((2 : ℝ) ^ v) := by
  rw [Real.rpow_add (by norm_num), Real.logb_mul (by positivity) (by positivity)]

theorem two_log_mono {u v : ℝ} : Real.logb 10 ((2 : ℝ) ^ u) ≤ Real.logb 10 ((2 : ℝ) ^ v) ↔ u ≤ v := by
  rw [Real.logb_le_logb (by norm_num) (by positivity) (by positivity)]
  exact Real.rpow_le_rpow_left_iff (by norm_num)

theorem markX_le {b c : List Char} : markX b ≤ markX c ↔ (decVal b).getD 0 ≤ (decVal c).getD 0 := by
  rw [markX, markX, two_log_mono]
  constructor
  · intro h
    have : (((decVal b).getD 0 : ℚ) : ℝ) ≤ ((decVal c).getD 0 : ℚ) := by linarith
    exact_mod_cast this
  · intro h
    have : (((decVal b).getD 0 : ℚ) : ℝ) ≤ ((decVal c).getD 0 : ℚ) := by exact_mod_cast h
    linarith

theorem panel_of {A : List (List Char × Measured)} (hne : A ≠ []) (hnd : (A.map Prod.fst).Nodup) (hn : ∀ x ∈ A, x.1 ∈ measureNames)
    (hA : ∀ x ∈ A, Analysed x.2) (hb : ∃ x ∈ A, x.2.trials ≠ []) :
    ∃ p bins, panel (sigmaTable A) = .ok p ∧ PanelOf A p bins := by
  obtain ⟨x0, hx0, hx0b⟩ := hb
  have hbins : allBins A ≠ [] := by
    obtain ⟨t, ts, e⟩ := List.exists_cons_of_ne_nil hx0b
    apply List.ne_nil_of_mem (a := t.1)
    rw [mem_allBins]
    exact ⟨x0, hx0, by simp [binNames, e]⟩
  have hval : ∀ b ∈ allBins A, decVal b = some ((decVal b).getD 0) := by
    intro b hb
    obtain ⟨q, hq⟩ := allBins_number hA hb
    rw [hq]; rfl
  set x := (allBins A).map markX with hx
  obtain ⟨a, l, hal⟩ := List.exists_cons_of_ne_nil (show x ≠ [] by simpa [hx] using hbins)
  have hcur : ∀ k ∈ sortedKeys ("bin".toList :: A.map Prod.fst), ∃ m ∈ A, m.1 = k := by
    rw [sortedKeys_eq hne hnd hn]
    intro k hk
    have := (List.mem_filter.1 hk).2
    simp only [decide_eq_true_eq] at this
    obtain ⟨m, hm, e⟩ := List.mem_map.1 this
    exact ⟨m, hm, e⟩
  have hget : ∀ m ∈ A, dictGet A m.1 = some m.2 := fun m hm => dictGet_of_mem hnd hm
  set q := Real.logb 10 ((2 : ℝ) ^ (0.25 : ℝ)) with hq
  set curves := (sortedKeys ("bin".toList :: A.map Prod.fst)).map (fun k => (k, x.zip ((allBins A).map (fun b => match dictGet A k with
    | some m => heightVal (k, m) b | none => none)))) with hcurves
  have hpanel : panel (sigmaTable A) = .ok ⟨l.foldl min a - q, l.foldl max a + q, curves⟩ := by
    rw [panel, sigma_keys, ok_bind, sigma_bins hnd hn, ok_bind]
    have e1 : telems (.list ((allBins A).map .str)) = .ok ((allBins A).map .str) := rfl
    rw [e1, ok_bind, mapM_map', mapM_eq (g := markX) (fun b hb => marker_pos (hval b hb)), ok_bind, ← hx, hal]
    simp only
    rw [mapM_eq (g := fun k => (k, (a :: l).zip ((allBins A).map (fun b => match dictGet A k with
      | some m => heightVal (k, m) b | none => none)))), ok_bind, hcurves, hal]
    intro k hk
    obtain ⟨m, hm, rfl⟩ := hcur k hk
    rw [sigma_column hnd hn hm, ok_bind]
    have e2 : telems (.list ((allBins A).map (fun b => TVal.str (cellText m.2 b)))) = .ok ((allBins A).map (fun b => TVal.str (cellText m.2 b))) := rfl
    rw [e2, ok_bind, mapM_map', mapM_eq (g := heightVal m) (fun b _ => marker_height m b), ok_bind, if_pos (hn m hm), hget m hm]
  have hnames : curves.map Prod.fst = ["m2cnd".toList, "sdaa".toList].filter (fun k => decide (k ∈ A.map Prod.fst)) := by
    rw [hcurves, List.map_map, ← sortedKeys_eq hne hnd hn]
    exact (List.map_congr_left (by intro b _; rfl)).trans (List.map_id _)
  refine ⟨_, (allBins A).map (fun b => (b, (decVal b).getD 0)), hpanel, ?_⟩
  have hfst : ((allBins A).map (fun b => (b, (decVal b).getD 0))).map Prod.fst = allBins A := by
    rw [List.map_map]
    exact (List.map_congr_left (by intro b _; rfl)).trans (List.map_id _)
  refine ⟨?_, ?_, ?_, ?_, ?_, ?_, hnames, ?_⟩
  · rw [hfst, allBins]
    exact (List.perm_insertionSort _ _).nodup_iff.2 (List.nodup_dedup _)
  · intro b
    rw [hfst, mem_allBins]
    rfl
  · intro b hb
    obtain ⟨c, hc, rfl⟩ := List.mem_map.1 hb
    exact hval c hc
  · rw [List.map_map, List.pairwise_map, allBins]
    have : IsTrans (List Char) (fun a b => (decVal a).getD 0 ≤ (decVal b).getD 0) := ⟨fun _ _ _ h1 h2 => le_trans h1 h2⟩
    have : Std.Total (α := List Char) (fun a b => (decVal a).getD 0 ≤ (decVal b).getD 0) := ⟨fun _ _ => le_total _ _⟩
    exact List.pairwise_insertionSort _ _
  · obtain ⟨h1, h2⟩ := foldl_min_sigma a l
    rw [← hal, hx] at h1 h2
    obtain ⟨b, hb, e⟩ := List.mem_map.1 h1
    refine ⟨(b, (decVal b).getD 0), List.mem_map.2 ⟨b, hb, rfl⟩, ?_, ?_⟩
    · show l.foldl min a - q = _
      rw [← e, markX, two_pow_log]
      ring
    · intro c hc
      obtain ⟨c, hc', rfl⟩ := List.mem_map.1 hc
      rw [← markX_le, e]
      exact h2 _ (List.mem_map.2 ⟨c, hc', rfl⟩)
  · obtain ⟨h1, h2⟩ := foldl_max_sigma a l
    rw [← hal, hx] at h1 h2
    obtain ⟨b, hb, e⟩ := List.mem_map.1 h1
    refine ⟨(b, (decVal b).getD 0), List.mem_map.2 ⟨b, hb, rfl⟩, ?_, ?_⟩
    · show l.foldl max a + q = _
      rw [← e, markX, two_pow_log, two_pow_log, hq, add_assoc, ← two_pow_log]
      norm_num
    · intro c hc
      obtain ⟨c, hc', rfl⟩ := List.mem_map.1 hc
      rw [← markX_le, e]
      exact h2 _ (List.mem_map.2 ⟨c, hc', rfl⟩)
  · intro m hm
    refine ⟨x.zip ((allBins A).map (heightVal m)), ?_, ?_⟩
    · show _ ∈ curves
      rw [hcurves, List.mem_map]
      refine ⟨m.1, ?_, ?_⟩
      · rw [sortedKeys_eq hne hnd hn, List.mem_filter]
        refine ⟨by simpa [measureNames] using hn m hm, ?_⟩
        simpa using ⟨m.2, hm⟩
      · rw [hget m hm]
    · rw [hx, List.zip_map', List.forall₂_map_left_iff, List.forall₂_map_right_iff]
      apply List.forall₂_same.2
      intro b _
      refine ⟨?_, heightVal_spec m b⟩
      show markX b = _
      rw [markX]
      norm_num

/-- **C110, contents.** For every analysis with a bin, the file which the analysis writes is found by the count plot in the directory of the
run or beside the count, whatever else stands in the other place, and gives the panel of the analysis: a curve for each measure,
`m2cnd` first, with a point for every bin at the centre of the bin, and bands from the lower boundary of the smallest to the upper
boundary of the largest bin.  The numbers of trials of the measures are found, too.  Missing: as for C56, sources with quotation marks
or line breaks in their names. -/
theorem C110_panel_partial (C : Classes) (sep : List Char) (hsep : sep = ['\n'] ∨ sep = ['\r', '\n']) (version filename : List Char)
    (A : List (List Char × Measured)) (h : AnalysisOk C version filename A) (hb : ∃ x ∈ A, x.2.trials ≠ []) :
    ∃ file s trials p bins, raWrite sep version filename A = .ok file ∧ (∀ other, readRa C (some file) other = .ok (some (s, trials))) ∧
      readRa C none (some file) = .ok (some (s, trials)) ∧ panel s = .ok p ∧ PanelOf A p bins ∧
      List.Forall₂ (fun c t => ∃ m ∈ A, m.1 = c.1 ∧ t = .str (natStr m.2.n)) p.curves trials := by
  obtain ⟨file, d, hw, hr, hget, hs⟩ := read_written h sep hsep
  obtain ⟨p, bins, hp, hpo⟩ := panel_of h.some_measure h.nodup h.names h.measures hb
  have hread : ∀ o1 o2, (o1 <|> o2) = some file → readRa C o1 o2 = .ok (some (sigmaTable A,
      (["m2cnd".toList, "sdaa".toList].filter (fun k => decide (k ∈ A.map Prod.fst))).map (fun k => match dictGet A k with
        | some m => .str (natStr m.n) | none => .none))) := by
    intro o1 o2 ho
    rw [readRa, ho]
    simp only
    rw [hr, ok_bind, tget_dict hs, ok_bind, sigma_keys, ok_bind, sortedKeys_eq h.some_measure h.nodup h.names, mapM_eq, ok_bind]
    intro k hk
    obtain ⟨hk1, hk2⟩ := List.mem_filter.1 hk
    simp only [decide_eq_true_eq] at hk2
    obtain ⟨m, hm, rfl⟩ := List.mem_map.1 hk2
    have e := hget m.1 hk1
    rw [dictGet_of_mem h.nodup (show (m.1, m.2) ∈ A from hm)] at e ⊢
    rw [tget_dict e, ok_bind]
    exact (readMeasure_parts m.2).1
  refine ⟨file, _, _, p, bins, hw, fun other => hread _ _ rfl, hread _ _ rfl, hp, hpo, ?_⟩
  rw [← hpo.names, List.map_map, List.forall₂_map_right_iff]
  apply List.forall₂_same.2
  intro c hc
  have hk : c.1 ∈ p.curves.map Prod.fst := List.mem_map.2 ⟨c, hc, rfl⟩
  rw [hpo.names] at hk
  have hk2 := (List.mem_filter.1 hk).2
  simp only [decide_eq_true_eq] at hk2
  obtain ⟨m, hm, e⟩ := List.mem_map.1 hk2
  refine ⟨m, hm, e, ?_⟩
  simp only [Function.comp]
  rw [← e, dictGet_of_mem h.nodup (show (m.1, m.2) ∈ A from hm)]

/-- **C110, centres.** The names of the bins put the markers at the centres of the bins: for a count with diameters between `2^-98` and `2^98` km
the marker of a bin is at the logarithm of the geometric mean of its boundaries, up to the error `δ` of the floating point logarithm
`ρ`. -/
theorem C110_centre {α : Type} (ρ : ℝ → ℚ) (δ : ℝ) (hρ : ∀ x, |(ρ x : ℝ) - x| ≤ δ) (cs : List (Placed α)) (hcs : cs ≠ [])
    (hd : ∀ c ∈ cs, (2 : ℝ) ^ (-98 : ℝ) ≤ c.diam ∧ c.diam ≤ (2 : ℝ) ^ (98 : ℝ)) :
    ∃ t, applyBinning .root2 0 (cs.map Placed.crater) = .ok t ∧ ∀ x ∈ t, ∃ q, decVal (binKey ρ x.dMin) = some q ∧
      |Real.logb 10 ((2 : ℝ) ^ ((q : ℝ) + 1 / 4)) - Real.logb 10 (Real.sqrt (x.dMin * x.dMax))| ≤ δ := by
  obtain ⟨edges, h1, h2, h3, h4, h5⟩ := root2_setup cs hcs hd
  refine ⟨_, h2, ?_⟩
  intro x hx
  obtain ⟨i, hi, rfl⟩ := List.getElem_of_mem hx
  have hi' : i + 1 < edges.length := by simp at hi; omega
  obtain ⟨e1, e2, _⟩ := tableOf_getElem edges (cs.map Placed.crater) i hi hi'
  rw [e1, e2]
  obtain ⟨j, hj, hpos⟩ := root2_edge (h3.onGrid edges[i] (List.getElem_mem _))
  have hj2 : edges[i] = (2 : ℝ) ^ ((j : ℝ) / 2) := by
    rw [← hj, Real.rpow_logb (by norm_num) (by norm_num) hpos]
  have hmax : edges[i + 1] = (2 : ℝ) ^ (((j : ℝ) + 1) / 2) := by
    apply le_antisymm
    · apply h3.noGap i hi'
      · refine ⟨j + 1, ?_⟩
        rw [← Real.rpow_mul (by norm_num)]
        congr 1
        push_cast
        ring
      · rw [hj2]
        exact Real.rpow_lt_rpow_of_exponent_lt (by norm_num) (by linarith)
    · obtain ⟨k, hk, hkp⟩ := root2_edge (h3.onGrid edges[i + 1] (List.getElem_mem _))
      have hk2 : edges[i + 1] = (2 : ℝ) ^ ((k : ℝ) / 2) := by
        rw [← hk, Real.rpow_logb (by norm_num) (by norm_num) hkp]
      have hlt := List.pairwise_iff_getElem.1 h3.increasing i (i + 1) (by omega) hi' (by omega)
      rw [hj2, hk2, Real.rpow_lt_rpow_left_iff (by norm_num)] at hlt
      have : (j : ℝ) < k := by linarith
      have : j < k := by exact_mod_cast this
      have : (j : ℝ) + 1 ≤ k := by exact_mod_cast this
      rw [hk2]
      exact Real.rpow_le_rpow_of_exponent_le (by norm_num) (by linarith)
  refine ⟨_, decVal_gStr 2 _, ?_⟩
  have hb := h4 i hi'
  rw [hj] at hb ⊢
  have hjb : |5 * j| < 10 ^ 3 := by
    have : |(j : ℝ)| ≤ 198 := by
      rw [abs_div, abs_of_pos (by norm_num : (0 : ℝ) < 2)] at hb
      linarith
    have : |j| ≤ 198 := by exact_mod_cast this
    rw [abs_mul]
    norm_num
    omega
  have hr := (isRounded_sci 2 (ρ ((j : ℝ) / 2))).2.1 (5 * j) (-1) hjb
  have hδ := hρ ((j : ℝ) / 2)
  set r := sciSigned 2 (ρ ((j : ℝ) / 2)) with hrdef
  have hr' : |(ρ ((j : ℝ) / 2) : ℝ) - r| ≤ |(ρ ((j : ℝ) / 2) : ℝ) - (j : ℝ) / 2| := by
    have e : ((5 * j : ℤ) : ℚ) * 10 ^ (-1 : ℤ) = (j : ℚ) / 2 := by
      push_cast
      rw [zpow_neg_one]
      ring
    rw [e] at hr
    have : ((|ρ ((j : ℝ) / 2) - r| : ℚ) : ℝ) ≤ ((|ρ ((j : ℝ) / 2) - (j : ℚ) / 2| : ℚ) : ℝ) := by exact_mod_cast hr
    push_cast at this
    exact this
  have hs : Real.sqrt (edges[i] * edges[i + 1]) = (2 : ℝ) ^ ((j : ℝ) / 2 + 1 / 4) := by
    rw [hj2, hmax, ← Real.rpow_add (by norm_num), Real.sqrt_eq_rpow, ← Real.rpow_mul (by norm_num)]
    congr 1
    ring
  rw [hs, Real.logb_rpow_eq_mul_logb_of_pos (by norm_num), Real.logb_rpow_eq_mul_logb_of_pos (by norm_num), ← sub_mul, abs_mul]
  have hl0 : 0 ≤ Real.logb 10 2 := Real.logb_nonneg (by norm_num) (by norm_num)
  have hl1 : Real.logb 10 2 ≤ 1 / 2 := by
    rw [Real.logb_le_iff_le_rpow (by norm_num) (by norm_num)]
    rw [← Real.sqrt_eq_rpow]
    exact Real.le_sqrt_of_sq_le (by norm_num)
  rw [abs_of_nonneg hl0]
  have hq : |(r : ℝ) + 1 / 4 - ((j : ℝ) / 2 + 1 / 4)| ≤ 2 * δ := by
    have := hr'.trans hδ
    rw [abs_le] at this hδ ⊢
    constructor <;> linarith [this.1, this.2, hδ.1, hδ.2]
  calc _ ≤ 2 * δ * (1 / 2) := mul_le_mul hq hl1 hl0 ((abs_nonneg _).trans hq)
    _ = δ := by ring

/-- the rounded number has the sign of the number -/
theorem rounded_sign {d : ℕ} (hd : 0 < d) {v r : ℚ} (h : IsRounded d v r) : (0 < v ↔ 0 < r) ∧ (v < 0 ↔ r < 0) := by
  have hpos : ∀ v r : ℚ, (∀ m k : ℤ, |m| < 10 ^ d → |v - r| ≤ |v - m * (10 : ℚ) ^ k|) → 0 < v → 0 < r := by
    intro v r h hv
    obtain ⟨n, hn⟩ := exists_pow_lt_of_lt_one hv (show (1 / 10 : ℚ) < 1 by norm_num)
    have := h 1 (-(n : ℤ)) (by
      rw [abs_one]
      exact one_lt_pow₀ (by norm_num) (by omega))
    have e : ((1 : ℤ) : ℚ) * 10 ^ (-(n : ℤ)) = (1 / 10) ^ n := by
      rw [Int.cast_one, one_mul, zpow_neg, zpow_natCast, one_div, inv_pow]
    rw [e] at this
    have hp : (0 : ℚ) < (1 / 10) ^ n := by positivity
    rw [abs_of_pos (show 0 < v - (1 / 10) ^ n by linarith)] at this
    by_contra hr
    rw [abs_of_nonneg (by linarith)] at this
    linarith
  have hneg : ∀ v r : ℚ, (∀ m k : ℤ, |m| < 10 ^ d → |v - r| ≤ |v - m * (10 : ℚ) ^ k|) → v < 0 → r < 0 := by
    intro v r h hv
    have := hpos (-v) (-r) (by
      intro m k hm
      have := h (-m) k (by rwa [abs_neg])
      rw [abs_sub_comm] at this
      rw [show -v - -r = r - v by ring, show -v - m * (10 : ℚ) ^ k = -(v - ((-m : ℤ) : ℚ) * (10 : ℚ) ^ k) by push_cast; ring, abs_neg]
      exact this) (by linarith)
    linarith
  have hzero : v = 0 → r = 0 := by
    rintro rfl
    have := h.2.1 0 0 (by simp)
    simpa using this
  rcases lt_trichotomy v 0 with hv | hv | hv
  · have := hneg v r h.2.1 hv
    constructor <;> constructor <;> intro _ <;> linarith
  · have := hzero hv
    subst hv; subst this
    simp
  · have := hpos v r h.2.1 hv
    constructor <;> constructor <;> intro _ <;> linarith

/-- **C110, direction.** A point is above the zero line — where the panel says "separated" — exactly if the number of standard deviations is positive for
`m2cnd` and negative for `sdaa`, and below — "clustered" — exactly in the opposite case. -/
theorem C110_direction (m : List Char × Measured) (b : List Char) (v : ℚ) (y : Option ℝ) (hb : b ∈ m.2.trials.map Prod.fst)
    (hv : m.2.sigma b = some v) (h : HeightOf m b y) : ∃ z, y = some z ∧
      (0 < z ↔ if m.1 = "sdaa".toList then v < 0 else 0 < v) ∧ (z < 0 ↔ if m.1 = "sdaa".toList then 0 < v else v < 0) := by
  rw [HeightOf, if_pos hb, hv] at h
  obtain ⟨r, hr, rfl⟩ := h
  obtain ⟨h1, h2⟩ := rounded_sign (by norm_num) hr
  have hmono := C64_n_sigma.2.1
  have h0 := C64_n_sigma.2.2.1
  have p1 : 0 < nSigmaScaling r ↔ 0 < v := by
    rw [h1, ← h0, hmono.lt_iff_lt]
    norm_cast
  have p2 : nSigmaScaling r < 0 ↔ v < 0 := by
    rw [h2]
    nth_rw 1 [← h0]
    rw [hmono.lt_iff_lt]
    norm_cast
  refine ⟨_, rfl, ?_, ?_⟩
  · split
    · rw [neg_pos, p2]
    · exact p1
  · split
    · rw [neg_neg_iff_pos, p1]
    · exact p2

/-- **C110, bands.** A point is within the band drawn from `-k` to `k` standard deviations exactly if the rounded number of standard
deviations is at most `k` in size. -/
theorem C110_band (m : List Char × Measured) (b : List Char) (v : ℚ) (y : Option ℝ) (hb : b ∈ m.2.trials.map Prod.fst)
    (hv : m.2.sigma b = some v) (h : HeightOf m b y) (k : ℝ) : ∃ z r, y = some z ∧ IsRounded 4 v r ∧
      (nSigmaScaling (-k) ≤ z ∧ z ≤ nSigmaScaling k ↔ |(r : ℝ)| ≤ k) := by
  rw [HeightOf, if_pos hb, hv] at h
  obtain ⟨r, hr, rfl⟩ := h
  have hmono := C64_n_sigma.2.1
  have hneg := C64_n_sigma.1
  refine ⟨_, r, rfl, hr, ?_⟩
  rw [abs_le]
  split
  · rw [← hneg, hmono.le_iff_le, hmono.le_iff_le]
    constructor <;> rintro ⟨h1, h2⟩ <;> constructor <;> linarith
  · rw [hmono.le_iff_le, hmono.le_iff_le]

/-- **C110 fails for an analysis in which no bin had enough craters**: its file makes every later plot of the count end with a ValueError. -/
theorem C110_no_bins_counterexample (C : Classes) (sep : List Char) (hsep : sep = ['\n'] ∨ sep = ['\r', '\n']) (version filename : List Char)
    (A : List (List Char × Measured)) (h : AnalysisOk C version filename A) (hb : ∀ x ∈ A, x.2.trials = []) :
    ∃ file s trials, raWrite sep version filename A = .ok file ∧ readRa C none (some file) = .ok (some (s, trials)) ∧ panel s = .error .value := by
  obtain ⟨file, d, hw, hr, hget, hs⟩ := read_written h sep hsep
  have hbins : allBins A = [] := by
    rw [List.eq_nil_iff_forall_not_mem]
    intro b hb'
    rw [mem_allBins] at hb'
    obtain ⟨x, hx, hb'⟩ := hb'
    rw [binNames, hb x hx] at hb'
    simp at hb'
  refine ⟨file, sigmaTable A, (["m2cnd".toList, "sdaa".toList].filter (fun k => decide (k ∈ A.map Prod.fst))).map (fun k => match dictGet A k with
        | some m => .str (natStr m.n) | none => .none), hw, ?_, ?_⟩
  · rw [readRa]
    simp only [Option.orElse_eq_orElse, Option.orElse]
    rw [hr, ok_bind, tget_dict hs, ok_bind, sigma_keys, ok_bind, sortedKeys_eq h.some_measure h.nodup h.names, mapM_eq, ok_bind]
    intro k hk
    obtain ⟨hk1, hk2⟩ := List.mem_filter.1 hk
    simp only [decide_eq_true_eq] at hk2
    obtain ⟨m, hm, rfl⟩ := List.mem_map.1 hk2
    have e := hget m.1 hk1
    rw [dictGet_of_mem h.nodup (show (m.1, m.2) ∈ A from hm)] at e ⊢
    rw [tget_dict e, ok_bind]
    exact (readMeasure_parts m.2).1
  · rw [panel, sigma_keys, ok_bind, sigma_bins h.nodup h.names, ok_bind, hbins]
    rfl

/-! ### examples -/

example : AnalysisOk .ascii "3.6.2".toList "my data/a.scc".toList sampleAnalysis ∧ ∃ x ∈ sampleAnalysis, x.2.trials ≠ [] :=
  ⟨sample_ok, by simp [sampleAnalysis]⟩

example : AnalysisOk .ascii "3.6.2".toList "a.scc".toList [("sdaa".toList, ⟨300, [], fun _ => none⟩)] ∧
    ∀ x ∈ [("sdaa".toList, (⟨300, [], fun _ => none⟩ : Measured))], x.2.trials = [] :=
  ⟨⟨by simp, by decide, by decide, by intro x hx; simp at hx; subst hx; exact ⟨by simp, by simp, by simp⟩, by decide, by decide,
    by unfold PlainLine; decide, by decide, by decide⟩, by simp⟩

/-- a bin with `-2.5` standard deviations of `sdaa` -/
example : ∃ y, HeightOf ("sdaa".toList, ⟨1, [("0".toList, [1 / 7])], fun _ => some (-5 / 2)⟩) "0".toList y :=
  ⟨_, heightVal_spec _ _⟩

example : ∃ ρ : ℝ → ℚ, (∀ x, |(ρ x : ℝ) - x| ≤ 1 / 100) := by
  refine ⟨fun x => (round (x * 50) : ℚ) / 50, fun x => ?_⟩
  have h := abs_sub_round (x * 50)
  push_cast
  rw [abs_le] at h ⊢
  constructor <;> linarith [h.1, h.2]

end Verif.Props
