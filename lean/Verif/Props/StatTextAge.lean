import Verif.Props.StatAge
import Verif.Props.StatFile
import Verif.Props.MiniPlot

/-!
C148 for the printed file: a list of whole craters, written as the text of a .stat file with pseudo-log binning and opened again, has the ages
of the list on the area which the file states.
-/

namespace Verif.Props

open Verif.Py Verif.Spec Verif.Text Verif.CountFile Verif.Cratercount Verif.Chronology Verif.Production Verif.Craterpdf Verif.Age Verif.FileAge

/-- numbers of at most `p + 1` digits are printed as they are -/
theorem sci_exact (p : ℕ) {m : ℤ} (e : ℤ) (hm : |m| < 10 ^ (p + 1)) : sciSigned p (m * (10 : ℚ) ^ e) = m * (10 : ℚ) ^ e :=
  rounded_id hm (isRounded_sci p _)

theorem sci_exact_nat (p n : ℕ) (hn : n < 10 ^ (p + 1)) : sciSigned p (n : ℚ) = n := by
  have := sci_exact p (m := (n : ℤ)) 0 (by rw [abs_of_nonneg (by positivity)]; exact_mod_cast hn)
  simpa using this

noncomputable section

/-- a line of the .stat file shows the numbers of a bin -/
structure LineShows (x : Bin) (r : StatLine) : Prop where
  dMin : (r.dMin : ℝ) = x.dMin
  n : (r.n : ℝ) = x.n
  ncum : (r.ncum : ℝ) = x.ncum
  nEvent : (r.nEvent : ℝ) = x.nEvent

theorem shows_filter {t : List Bin} {rows : List StatLine} (h : List.Forall₂ LineShows t rows) :
    List.Forall₂ LineShows (t.filter (fun x => decide (0 < x.n))) (rows.filter (fun r => decide (0 < r.n))) := by
  induction h with
  | nil => exact .nil
  | @cons x r t rows h _ ih =>
    have e : decide (0 < x.n) = decide (0 < r.n) := by
      rw [decide_eq_decide, ← h.n]
      exact_mod_cast Iff.rfl
    rw [List.filter_cons, List.filter_cons, e]
    by_cases hr : 0 < r.n
    · rw [if_pos (by simpa using hr), if_pos (by simpa using hr)]
      exact .cons h ih
    · rw [if_neg (by simpa using hr), if_neg (by simpa using hr)]
      exact ih

/-- the boundaries of the pseudo-log binning have two digits -/
theorem edge_digits {x : ℝ} (h : (gridOf .pseudoLog 0).Edge x) : ∃ m e : ℤ, |m| < 100 ∧ x = m * (10 : ℝ) ^ e := by
  obtain ⟨e, m, hm, rfl⟩ := h
  have h10 : (10 : ℝ) ^ e = 10 * (10 : ℝ) ^ (e - 1) := by
    rw [← zpow_one_add₀ (by norm_num : (10 : ℝ) ≠ 0)]; congr 1; ring
  have key : ∃ j : ℤ, |j| < 100 ∧ m * 10 = j := by
    simp only [pseudoLogMantissas, List.mem_cons, List.not_mem_nil, or_false] at hm
    rcases hm with rfl | rfl | rfl | rfl | rfl | rfl | rfl | rfl | rfl | rfl | rfl | rfl | rfl | rfl | rfl | rfl | rfl | rfl
    · exact ⟨10, by decide, by norm_num⟩
    · exact ⟨11, by decide, by norm_num⟩
    · exact ⟨12, by decide, by norm_num⟩
    · exact ⟨13, by decide, by norm_num⟩
    · exact ⟨14, by decide, by norm_num⟩
    · exact ⟨15, by decide, by norm_num⟩
    · exact ⟨17, by decide, by norm_num⟩
    · exact ⟨20, by decide, by norm_num⟩
    · exact ⟨25, by decide, by norm_num⟩
    · exact ⟨30, by decide, by norm_num⟩
    · exact ⟨35, by decide, by norm_num⟩
    · exact ⟨40, by decide, by norm_num⟩
    · exact ⟨45, by decide, by norm_num⟩
    · exact ⟨50, by decide, by norm_num⟩
    · exact ⟨60, by decide, by norm_num⟩
    · exact ⟨70, by decide, by norm_num⟩
    · exact ⟨80, by decide, by norm_num⟩
    · exact ⟨90, by decide, by norm_num⟩
  obtain ⟨j, hj, e'⟩ := key
  exact ⟨j, e - 1, hj, by rw [h10, ← e']; ring⟩

theorem weights_one (l : List Crater) (h : ∀ c ∈ l, c.2 = 1) : (l.map Prod.snd).sum = (l.length : ℝ) := by
  induction l with
  | nil => simp
  | cons x l ih =>
    rw [List.map_cons, List.sum_cons, ih (fun c hc => h c (List.mem_cons_of_mem _ hc)), h x List.mem_cons_self, List.length_cons]
    push_cast; ring

/-- rows which agree but for the density -/
def SameBut (r r' : StatRow) : Prop := r.diam = r'.diam ∧ r.n = r'.n ∧ r.ncum = r'.ncum ∧ r.nEvent = r'.nEvent

theorem sameBut_diam {l l' : List StatRow} (h : List.Forall₂ SameBut l l') : l'.map StatRow.diam = l.map StatRow.diam := by
  induction h with
  | nil => rfl
  | cons h _ ih => rw [List.map_cons, List.map_cons, h.1, ih]

theorem sameBut_zip {l l' : List StatRow} (h : List.Forall₂ SameBut l l') (m : List ℝ) :
    List.zipWith (fun (r : StatRow) (hi : ℝ) =>
      ({ dMin := r.diam, dMax := hi, width := hi - r.diam, dMean := Real.sqrt (r.diam * hi),
         n := r.n, nEvent := r.nEvent, ncum := r.ncum, ncumEvent := r.ncum } : Bin)) l' m =
    List.zipWith (fun (r : StatRow) (hi : ℝ) =>
      ({ dMin := r.diam, dMax := hi, width := hi - r.diam, dMean := Real.sqrt (r.diam * hi),
         n := r.n, nEvent := r.nEvent, ncum := r.ncum, ncumEvent := r.ncum } : Bin)) l m := by
  induction h generalizing m with
  | nil => rfl
  | cons h _ ih =>
    cases m with
    | nil => rfl
    | cons z m => rw [List.zipWith_cons_cons, List.zipWith_cons_cons, ih m, h.1, h.2.1, h.2.2.1, h.2.2.2]

/-- the bins read do not depend on the densities -/
theorem readStat_bins {l l' : List StatRow} (h : List.Forall₂ SameBut l l')
    {a a' : ℝ} {t t' : List Bin} (ht : readStat l = .ok (a, t)) (ht' : readStat l' = .ok (a', t')) : t' = t := by
  have hd := sameBut_diam h
  have hz := sameBut_zip h
  unfold readStat at ht ht'
  dsimp only at ht ht'
  obtain ⟨m, hm, ht⟩ := except_bind_eq_ok ht
  obtain ⟨m', hm', ht'⟩ := except_bind_eq_ok ht'
  rw [hd, hm] at hm'
  injection hm' with hm'
  subst hm'
  cases h with
  | nil => cases ht
  | @cons r r' l l' h1 h2 =>
    dsimp only [List.head?_cons] at ht ht'
    obtain ⟨b, _, ht⟩ := except_bind_eq_ok ht
    obtain ⟨b', _, ht'⟩ := except_bind_eq_ok ht'
    injection ht with ht
    injection ht with _ ht
    injection ht' with ht'
    injection ht' with _ ht'
    rw [← ht, ← ht', hz m]

/-- what is read of the printed table is the table, but for the area -/
theorem stat_printed (C : Classes) (shp : Except Exc Reading.Count) (sep : List Char) (hsep : sep = ['\n'] ∨ sep = ['\r', '\n'])
    {text binning : List Char} (hs : PlainLine text) (hb : PlainLine binning) (area : ℚ) (harea : 0 < area) {cs : List Crater}
    (hone : ∀ c ∈ cs, c.2 = 1) (hlen : cs.length < 100000) {t : List Bin} (ht : applyBinning .pseudoLog 0 cs = .ok t)
    (h2 : 2 ≤ (t.filter (fun x => decide (0 < x.n))).length) (rows : List StatLine) (hrows : List.Forall₂ LineShows t rows)
    (hother : ∀ r ∈ rows, 0 < r.n → r.other.length = 6 ∧ ∀ w ∈ r.other, Plain w ∧ w.length < 12)
    (hdens : ∀ r ∈ rows, 0 < r.n → TwoDigitExponent (r.ncum / area)) :
    ∃ a t', openCount C shp ".stat".toList (statText sep text binning area rows) = .ok (.table a t') ∧ |a - (area : ℝ)| ≤ 6 / 10000 * area ∧
      readStat (statRows t a) = .ok (a, t') := by
  have hcont := fun x hx => C03_bin_contents .pseudoLog (by decide) 0 cs t ht x hx
  have nat_of : ∀ (p : Crater → Bool), ∃ n : ℕ, n < 100000 ∧ ((cs.filter p).map Prod.snd).sum = (n : ℝ) ∧ (cs.filter p).length = n := by
    intro p
    refine ⟨(cs.filter p).length, lt_of_le_of_lt (List.length_filter_le _ _) hlen, weights_one _ (fun c hc => hone c (List.mem_filter.1 hc).1), rfl⟩
  have hexp : ∀ n : ℕ, n < 100000 → TwoDigitExponent (n : ℚ) := by
    intro n hn
    rcases Nat.eq_zero_or_pos n with rfl | hp
    · exact Or.inl (by norm_num)
    · refine Or.inr ⟨le_trans (b := (1 : ℚ)) (by norm_num) (by exact_mod_cast hp), lt_of_lt_of_le (b := (100000 : ℚ)) (by exact_mod_cast hn) (by norm_num)⟩
  have hbin : ∀ x ∈ t, ∀ r, LineShows x r → ∃ n e c : ℕ, n < 100000 ∧ e < 100000 ∧ c < 100000 ∧ r.n = n ∧ r.nEvent = e ∧ r.ncum = c ∧
      sciSigned 4 r.dMin = r.dMin ∧ n ≤ c := by
    intro x hx r hr
    obtain ⟨k1, k2, k3, k4, k5, k6, k7, k8, k9, k10, k11⟩ := hcont x hx
    obtain ⟨n, hn, e1, e1'⟩ := nat_of (fun c => decide (x.dMin ≤ c.1 ∧ c.1 < x.dMax))
    obtain ⟨c, hc, e2, e2'⟩ := nat_of (fun c => decide (x.dMin ≤ c.1))
    refine ⟨n, n, c, hn, hn, hc, ?_, ?_, ?_, ?_, ?_⟩
    · have := hr.n
      rw [k8, weightIn, e1] at this
      exact_mod_cast this
    · have := hr.nEvent
      rw [k9, countIn, e1'] at this
      exact_mod_cast this
    · have := hr.ncum
      rw [k10, weightFrom, e2] at this
      exact_mod_cast this
    · obtain ⟨m, e, hm, he⟩ := edge_digits k1
      have hd := hr.dMin
      rw [he] at hd
      have hd : r.dMin = m * (10 : ℚ) ^ e := by
        have : ((r.dMin : ℚ) : ℝ) = ((m * (10 : ℚ) ^ e : ℚ) : ℝ) := by rw [hd]; push_cast; rfl
        exact_mod_cast this
      rw [hd]
      exact sci_exact 4 e (lt_of_lt_of_le hm (by norm_num))
    · rw [← e1', ← e2', ← List.countP_eq_length_filter, ← List.countP_eq_length_filter]
      apply List.countP_mono_left
      intro d _ hd
      simp only [decide_eq_true_eq] at hd ⊢
      exact hd.1
  have hq := shows_filter hrows
  have hrow : ∀ r ∈ rows, ∃ x ∈ t, LineShows x r := by
    intro r hr
    obtain ⟨i, hi, rfl⟩ := List.getElem_of_mem hr
    exact ⟨t[i]'(by rw [hrows.length_eq]; exact hi), List.getElem_mem _, List.Forall₂.get hrows _ hi⟩
  have hline : ∀ r ∈ rows, 0 < r.n → LineOk area r ∧ 0 < r.ncum := by
    intro r hr hn
    obtain ⟨x, hx, hs⟩ := hrow r hr
    obtain ⟨n, e, c, h1, h2, h3, e1, e2, e3, _, hle⟩ := hbin x hx r hs
    refine ⟨⟨?_, ?_, ?_, hdens r hr hn, (hother r hr hn).1, (hother r hr hn).2⟩, ?_⟩
    · rw [e1]; exact hexp n h1
    · rw [e3]; exact hexp c h3
    · rw [e2]; exact hexp e h2
    · rw [e1] at hn
      rw [e3]
      have : 0 < n := by exact_mod_cast hn
      exact_mod_cast lt_of_lt_of_le this hle
  have h2' : 2 ≤ (rows.filter (fun r => decide (0 < r.n))).length := by rw [← hq.length_eq]; exact h2
  obtain ⟨q, hqe⟩ : ∃ q, q = rows.filter (fun r => decide (0 < r.n)) := ⟨_, rfl⟩
  have hf := stat_fields C sep hsep hs hb area rows (fun r hr hn => (hline r hr hn).1) (by intro e; rw [e] at h2'; simp at h2')
  have hmem : ∀ r ∈ q, LineOk area r ∧ 0 < r.ncum := by
    intro r hr
    rw [hqe] at hr
    have := List.mem_filter.1 hr
    exact hline r this.1 (by simpa using this.2)
  rw [← hqe] at hf h2' hq
  obtain ⟨a, t', ho, hclose, _⟩ := stat_table C shp area harea q hmem h2' hf
  refine ⟨a, t', ho, hclose, ?_⟩
  have hread : readStat ((q.map (roundedRow area)).map StatFields.toRow) = .ok (a, t') := by
    unfold openCount at ho
    rw [if_pos rfl, hf] at ho
    dsimp only at ho
    cases hres : readStat ((q.map (roundedRow area)).map StatFields.toRow) with
    | error e => rw [hres] at ho; cases ho
    | ok r =>
      obtain ⟨a1, t1⟩ := r
      rw [hres] at ho
      injection ho with ho
      injection ho with ho1 ho2
      rw [ho1, ho2]
  have ha : a ≠ 0 := by
    intro e
    rw [e, zero_sub, abs_neg] at hclose
    have hpos : (0 : ℝ) < area := by exact_mod_cast harea
    rw [abs_of_pos hpos] at hclose
    linarith
  obtain ⟨t1, g1, _⟩ := exported (b := .pseudoLog) (by decide) (fun c hc => by rw [hone c hc]; exact one_pos) ht a ha h2
  rw [g1]
  have hsame : List.Forall₂ SameBut ((q.map (roundedRow area)).map StatFields.toRow) (statRows t a) := by
    rw [statRows, List.map_map, List.forall₂_map_left_iff, List.forall₂_map_right_iff]
    refine List.Forall₂.flip (List.forall₂_iff_get.2 ⟨hq.length_eq, ?_⟩)
    intro i hi hi'
    have hS := List.Forall₂.get hq hi hi'
    have hx : (nonEmpty t).get ⟨i, hi⟩ ∈ t := (List.mem_filter.1 (List.get_mem (nonEmpty t) ⟨i, hi⟩)).1
    obtain ⟨n, e, c, h1, h2, h3, e1, e2, e3, e4, _⟩ := hbin _ hx _ hS
    refine ⟨?_, ?_, ?_, ?_⟩
    · show ((sciSigned 4 (q.get ⟨i, hi'⟩).dMin : ℚ) : ℝ) = _
      rw [e4]; exact hS.dMin
    · show ((sciSigned 4 (q.get ⟨i, hi'⟩).n : ℚ) : ℝ) = _
      rw [e1, sci_exact_nat 4 n h1, ← e1]; exact hS.n
    · show ((sciSigned 4 (q.get ⟨i, hi'⟩).ncum : ℚ) : ℝ) = _
      rw [e3, sci_exact_nat 4 c h3, ← e3]; exact hS.ncum
    · show ((sciSigned 4 (q.get ⟨i, hi'⟩).nEvent : ℚ) : ℝ) = _
      rw [e2, sci_exact_nat 4 e h2, ← e2]; exact hS.nEvent
  rw [readStat_bins hsame hread g1]

/-- **C148, the printed file.** A list of fewer than 100000 whole craters, written as the text of a .stat file with pseudo-log binning and opened
again, has the Poisson ages, and the ages of cumulative fits, of the list on an area which is that of the list up to six parts in ten thousand,
for diameter ranges as in `C148_poisson_partial` and `C148_fit_partial`. -/
theorem C148_text_partial (C : Classes) (shp : Except Exc Reading.Count) (sep : List Char) (hsep : sep = ['\n'] ∨ sep = ['\r', '\n'])
    {text binning : List Char} (hs : PlainLine text) (hb : PlainLine binning) (area : ℚ) (harea : 0 < area) (k : Reading.Count)
    (hone : ∀ c ∈ k.craters, c.2 = 1) (hk : k.prebinned = false) (hlen : k.craters.length < 100000)
    (t : List Bin) (ht : applyBinning .pseudoLog 0 k.craters = .ok t)
    (h2 : 2 ≤ (t.filter (fun x => decide (0 < x.n))).length) (rows : List StatLine) (hrows : List.Forall₂ LineShows t rows)
    (hother : ∀ r ∈ rows, 0 < r.n → r.other.length = 6 ∧ ∀ w ∈ r.other, Plain w ∧ w.length < 12)
    (hdens : ∀ r ∈ rows, 0 < r.n → TwoDigitExponent (r.ncum / area)) :
    ∃ a t', openCount C shp ".stat".toList (statText sep text binning area rows) = .ok (.table a t') ∧ |a - (area : ℝ)| ≤ 6 / 10000 * area ∧
      (∀ (pf : PFn) (c : Chron) (simpson : Simpson) (range : EReal × EReal) (ref lo hi : ℝ),
        lo = clipE range.1 pf.range.1 pf.range.2 → hi = clipE range.2 pf.range.1 pf.range.2 →
        StartsAtBin t lo → EndsAtBin t hi → EndsAtBin t' hi →
        ageOf pf c simpson (.table a t') range false ref = ageOf pf c simpson (.craters { k with area := a }) range false ref) ∧
      ∀ (pf : PFn) (c : Chron) (cf : CurveFit) (pfc : PF) (range : EReal × EReal)
        (resurf : Bool) (ref : ℝ) (r r' : FitAge), StartsAtBin t range.1 → EndsAtBin t range.2 → EndsAtBin t' range.2 →
        fitAge pf c cf pfc (object (.craters { k with area := a })) .cFit .pseudoLog range resurf ref = .ok r →
        fitAge pf c cf pfc (object (.table a t')) .cFit .pseudoLog range resurf ref = .ok r' →
        r'.t = r.t ∧ r'.tLower = r.tLower ∧ r'.tUpper = r.tUpper ∧ r'.a0 = r.a0 ∧ r'.nd = r.nd ∧ r'.n = r.n ∧ r'.nEvent = r.nEvent := by
  obtain ⟨a, t', h1, hclose, h⟩ := stat_printed C shp sep hsep hs hb area harea hone hlen ht h2 rows hrows hother hdens
  have ha : a ≠ 0 := by
    intro e
    rw [e, zero_sub, abs_neg] at hclose
    have hpos : (0 : ℝ) < area := by exact_mod_cast harea
    rw [abs_of_pos hpos] at hclose
    linarith
  refine ⟨a, t', h1, hclose, ?_, ?_⟩
  · obtain ⟨t1, g1, g2⟩ := C148_poisson_partial .pseudoLog (by decide) 0 { k with area := a } (fun c hc => by rw [hone c hc]; exact one_pos) ha t ht h2
    have e : t1 = t' := by
      rw [h] at g1
      injection g1 with g1
      injection g1 with _ g1
      exact g1.symm
    rw [e] at g2
    exact g2
  · obtain ⟨t1, g1, g2⟩ := C148_fit_partial .pseudoLog (by decide) { k with area := a } hone hk ha t ht h2
    have e : t1 = t' := by
      rw [h] at g1
      injection g1 with g1
      injection g1 with _ g1
      exact g1.symm
    rw [e] at g2
    exact g2

/-- every table of whole craters in pseudo-log bins has such lines -/
theorem lines_exist {cs : List Crater} (hone : ∀ c ∈ cs, c.2 = 1) {t : List Bin} (ht : applyBinning .pseudoLog 0 cs = .ok t) :
    ∃ rows : List StatLine, List.Forall₂ LineShows t rows ∧ ∀ r ∈ rows, (r.other.length = 6 ∧ ∀ w ∈ r.other, Plain w ∧ w.length < 12) ∧
      ∃ n : ℕ, n ≤ cs.length ∧ r.ncum = n := by
  have hcont := fun x hx => C03_bin_contents .pseudoLog (by decide) 0 cs t ht x hx
  have hplain : ∀ w ∈ ["1", "1", "1", "1", "1", "1"].map String.toList, Plain w ∧ w.length < 12 := by unfold Plain; decide +kernel
  have key : ∀ x ∈ t, ∃ r : StatLine, LineShows x r ∧ (r.other.length = 6 ∧ ∀ w ∈ r.other, Plain w ∧ w.length < 12) ∧ ∃ n : ℕ, n ≤ cs.length ∧ r.ncum = n := by
    intro x hx
    obtain ⟨k1, k2, k3, k4, k5, k6, k7, k8, k9, k10, k11⟩ := hcont x hx
    obtain ⟨m, e, _, he⟩ := edge_digits k1
    refine ⟨⟨m * (10 : ℚ) ^ e, countIn cs x.dMin x.dMax, countFrom cs x.dMin, countIn cs x.dMin x.dMax,
      ["1", "1", "1", "1", "1", "1"].map String.toList⟩, ⟨?_, ?_, ?_, ?_⟩, ⟨rfl, hplain⟩,
      countFrom cs x.dMin, List.length_filter_le _ _, rfl⟩
    · rw [he]; push_cast; rfl
    · rw [k8, weightIn, weights_one _ (fun c hc => hone c (List.mem_filter.1 hc).1), countIn]; push_cast; rfl
    · rw [k10, weightFrom, weights_one _ (fun c hc => hone c (List.mem_filter.1 hc).1), countFrom]; push_cast; rfl
    · rw [k9]; push_cast; rfl
  clear hcont ht
  induction t with
  | nil => exact ⟨[], .nil, by simp⟩
  | cons x t ih =>
    obtain ⟨r, h1, h2⟩ := key x List.mem_cons_self
    obtain ⟨rows, g1, g2⟩ := ih (fun y hy => key y (List.mem_cons_of_mem _ hy))
    exact ⟨r :: rows, .cons h1 g1, List.forall_mem_cons.2 ⟨h2, g2⟩⟩

/-- craters of 1 and 100 km on 5 km²: the hypotheses of `C148_text_partial` hold -/
example (C : Classes) (shp : Except Exc Reading.Count) : ∃ (t : List Bin) (rows : List StatLine), applyBinning .pseudoLog 0 [((1 : ℝ), (1 : ℝ)), (100, 1)] = .ok t ∧
    List.Forall₂ LineShows t rows ∧ ∃ a t', openCount C shp ".stat".toList (statText ['\n'] "a.scc".toList "pseudo-log".toList 5 rows) = .ok (.table a t') ∧
      |a - 5| ≤ 3 / 1000 := by
  obtain ⟨t, q, ht, hq, hl, _⟩ := export_example
  have h2 : 2 ≤ (t.filter (fun x => decide (0 < x.n))).length := by rw [← hq]; exact hl
  obtain ⟨rows, hr, ho⟩ := lines_exist (by simp) ht
  refine ⟨t, rows, ht, hr, ?_⟩
  obtain ⟨a, t', h1, hclose, _⟩ := C148_text_partial C shp ['\n'] (.inl rfl) (text := "a.scc".toList) (binning := "pseudo-log".toList)
    (by unfold PlainLine; decide +kernel) (by unfold PlainLine; decide +kernel) 5 (by norm_num) ⟨[((1 : ℝ), (1 : ℝ)), (100, 1)], 5, none, false, false⟩
    (by simp) rfl (by simp) t ht h2 rows hr (fun r hr _ => (ho r hr).1) (by
      intro r hr _
      obtain ⟨n, hn, e⟩ := (ho r hr).2
      rw [e]
      rcases Nat.eq_zero_or_pos n with rfl | hp
      · exact Or.inl (by norm_num)
      · have h1 : (1 : ℚ) ≤ n := by exact_mod_cast hp
        have h2 : (n : ℚ) ≤ 2 := by exact_mod_cast hn
        refine Or.inr ⟨le_trans (b := (1 / 5 : ℚ)) (by norm_num) (by linarith), lt_of_le_of_lt (b := (1 : ℚ)) (by linarith) (by norm_num)⟩)
  refine ⟨a, t', h1, le_trans hclose (by norm_num)⟩

end

end Verif.Props
