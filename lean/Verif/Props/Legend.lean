import Verif.Model.Legend
import Verif.Props.TextStructure

/-! C47: the legend. -/

namespace Verif.Props
open Verif.Py Verif.Text Verif.Legend

/-- Specification: what each letter of the legend option shows: of data, `n` the name (or that of the source), `a` the area, `p` the
perimeter if there is one; of fits, `c` the craters, `r` the diameter range, `N` the density. -/
def letters (s : Series) : List (Char × Option (List Char)) :=
  if s.fit then [('c', some s.craters), ('r', some s.range), ('N', some s.density)]
  else [('n', some (if s.name = [] then s.sourceName else s.name)), ('a', some s.area), ('p', s.perimeter)]

/-- Specification: the text of a plot in the legend: what the letters given show, separated by commas; none if they show nothing. -/
def labelText (legend : List Char) (s : Series) : Option (List Char) :=
  match (letters s).filterMap (fun x => if x.1 ∈ legend then x.2 else none) with
  | [] => none
  | l => some (join ", ".toList l)

theorem labelOf_eq (legend : List Char) (s : Series) : labelOf legend s = labelText legend s := by
  have hp : legendParts false legend s = (letters s).filterMap (fun x => if x.1 ∈ legend then x.2 else none) := by
    rw [legendParts, letters]
    split_ifs with h1 h2 h3 h4 h5 h6 h7 h8 h9 h10 h11 h12 h13 h14 h15 h16 h17 <;> (first | rfl | (cases s.perimeter <;> simp_all))
  rw [labelOf, labelText, ← hp]
  cases legendParts false legend s <;> rfl

/-- Specification: the entry of a drawn plot: its text, beside its points, and for a fit also its curve. -/
def entryOf (legend : List Char) (x : ℕ × Series) : Option (List Handle × List Char) :=
  if x.2.drawn then
    (labelText legend x.2).map (fun l => (if x.2.fit then [⟨x.1, true⟩, ⟨x.1, false⟩] else [⟨x.1, false⟩], l))
  else none

/-- Specification: a text which matplotlib shows, and which is not the mark of a fit curve. -/
structure ShownText (l : List Char) : Prop where
  ne : l ≠ []
  underscore : l.head? ≠ some '_'
  not_fit : l ≠ "fit".toList

/-- what follows a completed entry -/
theorem aggregate_cons {legend : List Char} {h : Handle} {e : List Char} (he : e ≠ "fit".toList) (rest : List (Handle × List Char)) :
    aggregate legend ((h, e) :: rest) = (aggregate legend rest >>= fun r => .ok (([h], e) :: r)) := by
  cases rest with
  | nil => show (if e = "fit".toList then _ else _) = _; rw [if_neg he]; rfl
  | cons x rest => obtain ⟨h', e'⟩ := x; rw [aggregate, if_neg he]

theorem handlesLabels_append (a b : List (Handle × Option (List Char))) : handlesLabels (a ++ b) = handlesLabels a ++ handlesLabels b := by
  rw [handlesLabels, List.filterMap_append]; rfl

theorem handlesLabels_shown {h : Handle} {l : List Char} (hl : l ≠ []) (hu : l.head? ≠ some '_') : handlesLabels [(h, some l)] = [(h, l)] := by
  cases l with
  | nil => exact absurd rfl hl
  | cons c l =>
    have : c ≠ '_' := by intro e; exact hu (by rw [e]; rfl)
    simp [handlesLabels, this]

theorem fit_label {legend : List Char} (hc : fitCodes legend = true) {s : Series} (hs : s.fit = true) : labelOf legend s ≠ none := by
  rw [fitCodes, List.any_eq_true] at hc
  obtain ⟨c, hm, hc⟩ := hc
  simp only [Bool.or_eq_true, decide_eq_true_eq] at hc
  rw [labelOf, if_neg]
  · simp
  · intro e
    rw [legendParts, if_pos hs] at e
    rcases hc with (rfl | rfl) | rfl <;> simp [hm] at e

theorem aggregate_lines {legend : List Char} (xs : List (ℕ × Series))
    (hc : fitCodes legend = true ∨ ∀ x ∈ xs, x.2.drawn = true → x.2.fit = false)
    (hshown : ∀ x ∈ xs, x.2.drawn = true → ∀ l ∈ labelOf legend x.2, ShownText l) :
    aggregate legend (handlesLabels (xs.flatMap (drawnLines legend))) = .ok (xs.filterMap (entryOf legend)) := by
  induction xs with
  | nil => rfl
  | cons x xs ih =>
    have ih := ih (hc.imp id (fun h y hy => h y (by simp [hy]))) (fun y hy => hshown y (by simp [hy]))
    rw [List.flatMap_cons, handlesLabels_append]
    by_cases hd : x.2.drawn = true
    · have hs := hshown x (by simp) hd
      rw [drawnLines, if_pos hd]
      by_cases hf : x.2.fit = true
      · have hcode : fitCodes legend = true := by
          rcases hc with hc | hc
          · exact hc
          · exact absurd (hc x (by simp) hd) (by simp [hf])
        obtain ⟨l, hl⟩ := Option.ne_none_iff_exists'.1 (fit_label hcode hf)
        have hsl := hs l hl
        have e : entryOf legend x = some ([⟨x.1, true⟩, ⟨x.1, false⟩], l) := by rw [entryOf, if_pos hd, ← labelOf_eq, hl, if_pos hf]; rfl
        rw [if_pos hf, handlesLabels_append, handlesLabels_shown (by decide) (by decide), hl, handlesLabels_shown hsl.ne hsl.underscore,
          List.filterMap_cons_some e]
        rw [List.cons_append, List.nil_append, List.cons_append, List.cons_append, List.nil_append]
        rw [aggregate, if_pos rfl, if_pos hcode, ih]
        rfl
      · rw [if_neg hf, List.nil_append]
        cases hl : labelOf legend x.2 with
        | none =>
          have e : entryOf legend x = none := by rw [entryOf, if_pos hd, ← labelOf_eq, hl]; rfl
          rw [List.filterMap_cons_none e]
          exact ih
        | some l =>
          have hsl := hs l hl
          have e : entryOf legend x = some ([⟨x.1, false⟩], l) := by rw [entryOf, if_pos hd, ← labelOf_eq, hl, if_neg hf]; rfl
          rw [handlesLabels_shown hsl.ne hsl.underscore, List.filterMap_cons_some e]
          rw [List.cons_append, List.nil_append]
          rw [aggregate_cons hsl.not_fit, ih]
          rfl
    · have e : entryOf legend x = none := by rw [entryOf, if_neg hd]
      rw [drawnLines, if_neg hd, List.filterMap_cons_none e]
      exact ih

/-- **C47 (partial).** If the legend shows any of the elements of fits (craters, range or N) or no fit is drawn, the legend has,
from top to bottom in the order of the plots, exactly one entry for each plot drawn which has a legend text, with that text, beside
the points of the plot itself and, for a fit, its own curve.  Missing: other choices of legend elements (see
`C47_lost_series_counterexample`), and texts which are empty, begin with an underscore or are the word "fit". -/
theorem C47_legend_partial (legend : List Char) (plots : List Series)
    (hc : 'c' ∈ legend ∨ 'r' ∈ legend ∨ 'N' ∈ legend ∨ ∀ s ∈ plots, s.drawn = true → s.fit = false)
    (hshown : ∀ s ∈ plots, s.drawn = true → ∀ l ∈ labelText legend s, ShownText l) :
    legendEntries legend plots = .ok ((plots.mapIdx (fun i s => (i, s))).filterMap (entryOf legend)) := by
  have hmem : ∀ x ∈ (plots.mapIdx (fun i s => (i, s))).reverse, x.2 ∈ plots := by
    intro x hx
    rw [List.mem_reverse, List.mem_mapIdx] at hx
    obtain ⟨i, hi, rfl⟩ := hx
    exact List.getElem_mem hi
  rw [legendEntries, allLines, aggregate_lines]
  · show Except.ok _ = _
    rw [List.filterMap_reverse, List.reverse_reverse]
  · have hcode : ∀ c, (c = 'c' ∨ c = 'r' ∨ c = 'N') → c ∈ legend → fitCodes legend = true := by
      intro c h hm
      rw [fitCodes, List.any_eq_true]
      exact ⟨c, hm, by rcases h with rfl | rfl | rfl <;> decide⟩
    rcases hc with h | h | h | h
    · exact Or.inl (hcode _ (by simp) h)
    · exact Or.inl (hcode _ (by simp) h)
    · exact Or.inl (hcode _ (by simp) h)
    · exact Or.inr (fun x hx => h x.2 (hmem x hx))
  · exact fun x hx => labelOf_eq legend x.2 ▸ hshown x.2 (hmem x hx)

/-- **C47 fails if the legend shows none of the elements of fits** (for instance `-legend na`): the text of a data series is lost
when the plot after it is a fit. -/
theorem C47_lost_series_counterexample (legend : List Char) (hc : 'c' ∉ legend) (hr : 'r' ∉ legend) (hN : 'N' ∉ legend)
    (plots : List Series) (d f : Series) (hd : d.drawn = true) (hdf : d.fit = false) (hf : f.drawn = true) (hff : f.fit = true) (l : List Char)
    (hl : labelText legend d = some l) (hne : l ≠ []) (hu : l.head? ≠ some '_') :
    legendEntries legend (plots ++ [d, f]) = legendEntries legend plots := by
  rw [← labelOf_eq] at hl
  have hcode : fitCodes legend = false := by
    rw [fitCodes, List.any_eq_false]
    intro c hm
    simp only [Bool.or_eq_true, decide_eq_true_eq, not_or]
    exact ⟨⟨fun e => hc (e ▸ hm), fun e => hr (e ▸ hm)⟩, fun e => hN (e ▸ hm)⟩
  have hlf : labelOf legend f = none := by
    rw [labelOf]
    simp [legendParts, hff, hc, hr, hN]
  have e : handlesLabels (allLines legend (plots ++ [d, f])) =
      (⟨plots.length + 1, true⟩, "fit".toList) :: (⟨plots.length, false⟩, l) :: handlesLabels (allLines legend plots) := by
    rw [allLines, List.mapIdx_append, List.reverse_append, List.flatMap_append, handlesLabels_append]
    have : handlesLabels ((List.mapIdx (fun i s => (i + plots.length, s)) [d, f]).reverse.flatMap (drawnLines legend)) =
        [(⟨plots.length + 1, true⟩, "fit".toList), (⟨plots.length, false⟩, l)] := by
      have e1 : (List.mapIdx (fun i s => (i + plots.length, s)) [d, f]).reverse = [(plots.length + 1, f), (plots.length, d)] := by
        simp [List.mapIdx_cons, Nat.add_comm]
      rw [e1, List.flatMap_cons, List.flatMap_cons, List.flatMap_nil, drawnLines, drawnLines, if_pos hf, if_pos hd, if_pos hff,
        if_neg (by simp [hdf]), hlf, hl, handlesLabels_append, handlesLabels_append, handlesLabels_shown (by decide) (by decide),
        List.nil_append, List.append_nil, handlesLabels_shown hne hu]
      rfl
    rw [this]
    rfl
  rw [legendEntries, e, aggregate, if_pos rfl, if_neg (by simp [hcode]), legendEntries]

/-- **C47**: with no legend elements (`-legend 0`), there are no entries, whatever is plotted. -/
theorem C47_suppressed (legend : List Char) (h : ∀ c ∈ "napcrN".toList, c ∉ legend) (plots : List Series) :
    legendEntries legend plots = .ok [] := by
  have hcode : fitCodes legend = false := by
    rw [fitCodes, List.any_eq_false]
    intro c hm
    simp only [Bool.or_eq_true, decide_eq_true_eq, not_or]
    exact ⟨⟨fun e => h 'c' (by decide) (e ▸ hm), fun e => h 'r' (by decide) (e ▸ hm)⟩, fun e => h 'N' (by decide) (e ▸ hm)⟩
  have hlab : ∀ s, labelOf legend s = none := by
    intro s
    rw [labelOf, legendParts, if_neg (h 'c' (by decide)), if_neg (h 'r' (by decide)), if_neg (h 'N' (by decide)),
      if_neg (h 'n' (by decide)), if_neg (h 'a' (by decide)), if_neg (h 'p' (by decide))]
    simp
  have hall : ∀ x ∈ handlesLabels (allLines legend plots), x.2 = "fit".toList := by
    intro x hx
    rw [handlesLabels, List.mem_filterMap] at hx
    obtain ⟨y, hy, hx⟩ := hx
    rw [allLines, List.mem_flatMap] at hy
    obtain ⟨z, _, hy⟩ := hy
    rw [drawnLines, hlab] at hy
    split at hy
    · split at hy
      · simp only [List.cons_append, List.nil_append, List.mem_cons, List.not_mem_nil, or_false] at hy
        rcases hy with rfl | rfl
        · simp at hx
          rw [← hx]; rfl
        · cases hx
      · simp only [List.nil_append, List.mem_cons, List.not_mem_nil, or_false] at hy
        subst hy
        cases hx
    · cases hy
  have key : ∀ n (xs : List (Handle × List Char)), xs.length ≤ n → (∀ x ∈ xs, x.2 = "fit".toList) → aggregate legend xs = .ok [] := by
    intro n
    induction n using Nat.strong_induction_on with
    | _ n ih =>
      intro xs hn hx
      match xs, hx with
      | [], _ => rfl
      | [(h, e)], hx =>
        have : e = "fit".toList := hx (h, e) (by simp)
        rw [aggregate, if_pos this, if_neg (by simp [hcode])]
      | (h, e) :: (h', e') :: rest, hx =>
        have : e = "fit".toList := hx (h, e) (by simp)
        rw [aggregate, if_pos this, if_neg (by simp [hcode])]
        simp only [List.length_cons] at hn
        exact ih rest.length (by omega) rest le_rfl (fun x hm => hx x (by simp [hm]))
  rw [legendEntries, key _ _ le_rfl hall]
  rfl

/-! ### examples -/

def sampleData : Series := ⟨false, true, "site A".toList, "a".toList, "12 km2".toList, none, [], [], [], []⟩
def sampleFit : Series := ⟨true, true, [], "a".toList, "12 km2".toList, none, "31 craters".toList, "1–5 km".toList, "3e-4".toList, "3 Ga".toList⟩

/-- two series with fits, one of them hidden -/
example : ('c' ∈ "fnacr".toList) ∧ (∀ s ∈ [sampleData, sampleFit, { sampleData with drawn := false }, sampleFit], s.drawn = true →
      ∀ l ∈ labelText "fnacr".toList s, ShownText l) ∧
    legendEntries "fnacr".toList [sampleData, sampleFit, { sampleData with drawn := false }, sampleFit] =
      .ok [([⟨0, false⟩], "site A, 12 km2".toList), ([⟨1, true⟩, ⟨1, false⟩], "31 craters, 1–5 km".toList),
        ([⟨3, true⟩, ⟨3, false⟩], "31 craters, 1–5 km".toList)] := by
  refine ⟨by decide, ?_, by decide +kernel⟩
  intro s hs hd l hl
  simp only [List.mem_cons, List.not_mem_nil, or_false] at hs
  rcases hs with rfl | rfl | rfl | rfl
  · have : l = "site A, 12 km2".toList := by
      have h : labelText "fnacr".toList sampleData = some "site A, 12 km2".toList := by decide +kernel
      rw [h] at hl; simpa using hl.symm
    subst this; exact ⟨by decide, by decide, by decide⟩
  · have : l = "31 craters, 1–5 km".toList := by
      have h : labelText "fnacr".toList sampleFit = some "31 craters, 1–5 km".toList := by decide +kernel
      rw [h] at hl; simpa using hl.symm
    subst this; exact ⟨by decide, by decide, by decide⟩
  · cases hd
  · have : l = "31 craters, 1–5 km".toList := by
      have h : labelText "fnacr".toList sampleFit = some "31 craters, 1–5 km".toList := by decide +kernel
      rw [h] at hl; simpa using hl.symm
    subst this; exact ⟨by decide, by decide, by decide⟩

/-- the series is lost with `-legend na` -/
example : labelText "na".toList sampleData = some "site A, 12 km2".toList ∧ legendEntries "na".toList [sampleData, sampleFit] = .ok [] ∧
    legendEntries "na".toList [sampleData] = .ok [([⟨0, false⟩], "site A, 12 km2".toList)] := by decide +kernel

end Verif.Props
