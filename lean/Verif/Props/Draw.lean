import Verif.Model.Draw
import Verif.Model.Abbrev
import Verif.Props.PlotSpace
import Verif.Props.Notation

/-! C130, C131: presentations that can be drawn, the order of the parts of a figure and the function legend. -/

namespace Verif.Props
open Verif.Py Verif.Text Verif.Draw

/-! ### C130: every presentation offered can be drawn -/

theorem titles_ok (j : Job) (hp : j.presentation ∈ ["cumulative", "differential", "R-plot", "Hartmann", "chronology", "rate"].map String.toList) :
    ∃ y, titles j = .ok ((if j.presentation ∈ ["chronology", "rate"].map String.toList then "Age, Ga" else "Diameter").toList, y) := by
  have hx : (if onTime j.presentation then "Age, Ga".toList else "Diameter".toList) =
      (if j.presentation ∈ ["chronology", "rate"].map String.toList then "Age, Ga" else "Diameter").toList := by
    unfold onTime
    by_cases h : j.presentation ∈ ["chronology", "rate"].map String.toList
    · rw [if_pos h, if_pos (decide_eq_true h)]
    · rw [if_neg h, if_neg (fun h' => h (of_decide_eq_true h'))]
  rw [← hx]
  have hp' := hp
  rw [List.map_cons, List.mem_cons, List.map_cons, List.mem_cons, List.map_cons, List.mem_cons, List.map_cons, List.mem_cons, List.map_cons,
    List.mem_cons, List.map_cons, List.mem_cons, List.map_nil] at hp'
  unfold titles
  dsimp only
  by_cases h1 : j.presentation = "cumulative".toList
  · rw [if_pos h1]; exact ⟨_, rfl⟩
  rw [if_neg h1]
  by_cases h2 : j.presentation = "differential".toList
  · rw [if_pos h2]; exact ⟨_, rfl⟩
  rw [if_neg h2]
  by_cases h3 : j.presentation = "R-plot".toList
  · rw [if_pos h3]; exact ⟨_, rfl⟩
  rw [if_neg h3]
  by_cases h4 : j.presentation = "Hartmann".toList
  · rw [if_pos h4]; exact ⟨_, rfl⟩
  rw [if_neg h4]
  by_cases h5 : j.presentation = "chronology".toList
  · rw [if_pos h5]; exact ⟨_, rfl⟩
  rw [if_neg h5]
  by_cases h6 : j.presentation = "rate".toList
  · rw [if_pos h6]; exact ⟨_, rfl⟩
  rcases hp' with h | h | h | h | h | h | h
  · exact absurd h h1
  · exact absurd h h2
  · exact absurd h h3
  · exact absurd h h4
  · exact absurd h h5
  · exact absurd h h6
  · cases h

/-- **C130 (partial): presentations.**  Eight of the presentations are drawn, with and without function legend, if the functions are known; the
horizontal axis of chronology and rate plots shows ages, that of the others diameters; sequence and uncertainty plots have no such titles. -/
theorem C130_drawn_partial (j : Job) (hp : j.presentation ∈ ["cumulative", "differential", "R-plot", "Hartmann", "chronology", "rate",
    "sequence", "uncertainty"].map String.toList) (hpf : j.pf ≠ none) (hcf : j.cf ≠ none) (f : Bool) :
    ∃ t l p, draw j f = .ok (t, l, p) ∧ (t = none ↔ j.presentation ∈ ["sequence", "uncertainty"].map String.toList) ∧ (l = none ↔ f = false) ∧
      ∀ x y, t = some (x, y) → x = (if j.presentation ∈ ["chronology", "rate"].map String.toList then "Age, Ga" else "Diameter").toList := by
  have hl : ∃ s, functionLegend j = .ok s := by
    unfold functionLegend
    dsimp only
    obtain ⟨n, hn⟩ := Option.ne_none_iff_exists'.1 hpf
    obtain ⟨m, hm⟩ := Option.ne_none_iff_exists'.1 hcf
    rw [hn, hm]
    split <;> exact ⟨_, rfl⟩
  obtain ⟨s, hs⟩ := hl
  have hL : ∃ l, (if f then (functionLegend j).map some else .ok none : Except Exc (Option (List Char))) = .ok l ∧ (l = none ↔ f = false) := by
    cases f
    · exact ⟨none, rfl, by simp⟩
    · exact ⟨some s, by rw [if_pos rfl, hs]; rfl, by simp⟩
  obtain ⟨l, hl1, hl2⟩ := hL
  unfold draw
  rw [hl1]
  by_cases hs : j.presentation = "sequence".toList ∨ j.presentation = "uncertainty".toList
  · rw [if_pos hs]
    refine ⟨none, l, _, rfl, ?_, hl2, by intro x y h; cases h⟩
    simpa using hs
  · rw [if_neg hs]
    obtain ⟨y, hy⟩ := titles_ok j (by
      rw [show ["cumulative", "differential", "R-plot", "Hartmann", "chronology", "rate", "sequence", "uncertainty"] =
        ["cumulative", "differential", "R-plot", "Hartmann", "chronology", "rate"] ++ ["sequence", "uncertainty"] from rfl, List.map_append,
        List.mem_append] at hp
      rcases hp with hp | hp
      · exact hp
      · exfalso
        rw [List.map_cons, List.mem_cons, List.map_cons, List.mem_cons, List.map_nil] at hp
        rcases hp with h | h | h
        · exact hs (Or.inl h)
        · exact hs (Or.inr h)
        · cases h)
    rw [hy]
    refine ⟨some _, l, _, rfl, ?_, hl2, ?_⟩
    · simpa using hs
    · intro x y' h
      injection h with h
      injection h with h1 h2
      exact h1.symm

example : ∃ t l p, draw ⟨"cumulative".toList, 1, some "Mars".toList, none, some "Ivanov".toList, some "Hartmann".toList, true, []⟩ true = .ok (t, l, p) :=
  let ⟨t, l, p, h, _⟩ := C130_drawn_partial ⟨"cumulative".toList, 1, some "Mars".toList, none, some "Ivanov".toList, some "Hartmann".toList, true, []⟩
    (by decide +kernel) (by simp) (by simp) true
  ⟨t, l, p, h⟩

/-- **C130: the title of Hartmann plots** says "equivalent" exactly if some plot does not have root-2 bins. -/
theorem C130_hartmann (j : Job) (hp : j.presentation = "Hartmann".toList) : ∃ x y, titles j = .ok (x, y) ∧
    (y = "Craters per $√$2-bin (equivalent), km$^{-2}$".toList ↔ ∃ b ∈ j.plots, b ≠ "root-2".toList) ∧
    (y = "Craters per $√$2-bin, km$^{-2}$".toList ↔ ∀ b ∈ j.plots, b = "root-2".toList) := by
  have e : titles j = .ok ("Diameter".toList, "Craters per $√$2-bin".toList ++ (if j.plots.any (fun b => decide (b ≠ "root-2".toList)) then
      " (equivalent)".toList else []) ++ ", km$^{-2}$".toList) := by
    unfold titles onTime
    rw [hp]
    dsimp only
    iterate 3 rw [if_neg (by decide +kernel)]
    rw [if_pos rfl, if_neg (by decide +kernel)]
  refine ⟨_, _, e, ?_⟩
  have hany : j.plots.any (fun b => decide (b ≠ "root-2".toList)) = true ↔ ∃ b ∈ j.plots, b ≠ "root-2".toList := by
    rw [List.any_eq_true]
    constructor
    · rintro ⟨b, hb, h⟩; exact ⟨b, hb, of_decide_eq_true h⟩
    · rintro ⟨b, hb, h⟩; exact ⟨b, hb, decide_eq_true h⟩
  by_cases h : ∃ b ∈ j.plots, b ≠ "root-2".toList
  · rw [if_pos (hany.2 h)]
    refine ⟨⟨fun _ => h, fun _ => by decide +kernel⟩, ⟨fun h' => absurd h' (by decide +kernel), fun h' => ?_⟩⟩
    obtain ⟨b, hb, hne⟩ := h
    exact absurd (h' b hb) hne
  · rw [if_neg (fun h' => h (hany.1 h'))]
    refine ⟨⟨fun h' => absurd h' (by decide +kernel), fun h' => absurd h' h⟩, ⟨fun _ b hb => ?_, fun _ => by decide +kernel⟩⟩
    by_contra hne
    exact h ⟨b, hb, hne⟩

/-- **C130 is false.**  Three of the presentations which the program offers and whose abbreviations it accepts, `map`, `sdaa` and `m2cnd`, end
with an error when they are drawn. -/
theorem C130_offered_counterexample (j : Job) (f : Bool) (hp : j.presentation ∈ ["map", "sdaa", "m2cnd"].map String.toList) :
    j.presentation ∈ Cli.presentations ∧ draw j f = .error .key := by
  simp only [List.map_cons, List.map_nil, List.mem_cons, List.not_mem_nil, or_false] at hp
  have key : ∀ p ∈ ["map", "sdaa", "m2cnd"].map String.toList, j.presentation = p → draw j f = .error .key := by
    intro p hp h
    unfold draw titles
    rw [h]
    dsimp only
    simp only [List.map_cons, List.map_nil, List.mem_cons, List.not_mem_nil, or_false] at hp
    rcases hp with rfl | rfl | rfl <;>
    · iterate 7 rw [if_neg (by decide +kernel)]
      rfl
  rcases hp with h | h | h
  · exact ⟨by rw [h]; decide +kernel, key _ (by decide +kernel) h⟩
  · exact ⟨by rw [h]; decide +kernel, key _ (by decide +kernel) h⟩
  · exact ⟨by rw [h]; decide +kernel, key _ (by decide +kernel) h⟩

/-! ### C131: order of the parts, and the function legend -/

/-- Specification: what is drawn before what (and so lies below it): epochs, then the equilibrium function, then isochrons, then the counts, the
first one last -/
def Below : Layer → Layer → Prop
  | .epochs _, .epochs _ => False
  | .epochs _, _ => True
  | .chronology a, .chronology b => a ≠ b ∧ b = 1
  | .equilibrium _, .isochrons => True
  | .equilibrium _, .count _ => True
  | .isochrons, .count _ => True
  | .count i, .count k => k < i
  | _, _ => False

theorem countLayers_mem (p : List Char) (plots : List (List Char)) (i : ℕ) : Layer.count i ∈ countLayers p plots ↔
    ∃ b, plots[i]? = some b ∧ ¬(p ∈ ["differential", "R-plot", "Hartmann"].map String.toList ∧ b = "none".toList) := by
  unfold countLayers
  rw [List.mem_map]
  constructor
  · rintro ⟨⟨b, k⟩, hx, e⟩
    rw [List.mem_filter, List.mem_reverse] at hx
    obtain ⟨h1, h2⟩ := hx
    injection e with e
    dsimp only at e
    subst e
    refine ⟨b, List.mem_zipIdx_iff_getElem?.1 h1, ?_⟩
    rintro ⟨h3, h4⟩
    rw [decide_eq_true h3, decide_eq_true h4] at h2
    cases h2
  · rintro ⟨b, hb, h⟩
    refine ⟨(b, i), ?_, rfl⟩
    rw [List.mem_filter, List.mem_reverse]
    refine ⟨List.mem_zipIdx_iff_getElem?.2 hb, ?_⟩
    rw [Bool.not_eq_true', Bool.and_eq_false_iff]
    rcases not_and_or.1 h with h | h
    · exact Or.inl (decide_eq_false h)
    · exact Or.inr (decide_eq_false h)

theorem countLayers_counts {p : List Char} {plots : List (List Char)} {a : Layer} (h : a ∈ countLayers p plots) : ∃ i, a = .count i := by
  unfold countLayers at h
  obtain ⟨x, _, rfl⟩ := List.mem_map.1 h
  exact ⟨_, rfl⟩

theorem countLayers_order (p : List Char) (plots : List (List Char)) : (countLayers p plots).Pairwise Below := by
  unfold countLayers
  rw [List.pairwise_map]
  apply List.Pairwise.filter
  rw [List.pairwise_reverse]
  have : (plots.zipIdx.map Prod.snd).Pairwise (· < ·) := by
    rw [List.zipIdx_map_snd]
    exact List.pairwise_lt_range'
  rw [List.pairwise_map] at this
  exact this.imp (fun h => h)

/-- **C131: order.**  The parts of a figure lie above one another in this order: epochs, equilibrium function, isochrons, and the counts, the
first of them at the top; no part is drawn twice.  On chronology and rate plots there are epochs and the curve of 1 km, above that of the
reference diameter if it is another. -/
theorem C131_order (j : Job) : (layers j).Pairwise Below := by
  unfold layers
  have hseq : onDiameter "sequence".toList = false := by decide +kernel
  have hunc : onDiameter "uncertainty".toList = false := by decide +kernel
  have htseq : onTime "sequence".toList = false := by decide +kernel
  have htunc : onTime "uncertainty".toList = false := by decide +kernel
  have hco := countLayers_order j.presentation j.plots
  have hcc : ∀ a ∈ countLayers j.presentation j.plots, ∃ i, a = .count i := fun a => countLayers_counts
  have htd : onTime j.presentation = true → onDiameter j.presentation = false := by
    intro h
    unfold onTime at h
    have h := of_decide_eq_true h
    rw [List.map_cons, List.mem_cons, List.map_cons, List.mem_cons, List.map_nil] at h
    rcases h with h | h | h
    · rw [h]; decide +kernel
    · rw [h]; decide +kernel
    · cases h
  have hsu : "sequence".toList ≠ "uncertainty".toList := by decide +kernel
  by_cases hs : j.presentation = "sequence".toList
  · rw [hs] at hco hcc ⊢
    rw [hseq, htseq, if_neg (by simp), if_neg (by simp), if_pos rfl, if_pos (by simp), if_neg hsu]
    rw [List.nil_append, List.nil_append, List.append_nil]
    cases j.ep with
    | none => exact hco
    | some n =>
      rw [List.singleton_append, List.pairwise_cons]
      refine ⟨?_, hco⟩
      intro a ha
      obtain ⟨i, rfl⟩ := hcc a ha
      exact trivial
  · rw [if_neg hs, decide_eq_false hs]
    by_cases hu : j.presentation = "uncertainty".toList
    · rw [hu, hunc, htunc, if_neg (by simp), if_neg (by simp), if_neg (by simp), if_pos rfl]
      simp only [List.nil_append]
      cases j.ef with
      | none => exact List.Pairwise.nil
      | some n => exact List.pairwise_singleton _ _
    · rw [if_neg hu, List.append_nil, List.append_nil, Bool.or_false]
      cases ht : onTime j.presentation with
      | true =>
        rw [htd ht]
        simp only [Bool.false_eq_true, if_false, if_true, List.append_nil]
        have hchron : (if j.refDiameter ≠ 1 then [Layer.chronology j.refDiameter, .chronology 1] else [.chronology 1]).Pairwise Below := by
          split
          · rename_i h
            rw [List.pairwise_cons]
            refine ⟨?_, List.pairwise_singleton _ _⟩
            intro a ha
            rw [List.mem_singleton] at ha
            subst ha
            exact ⟨h, rfl⟩
          · exact List.pairwise_singleton _ _
        cases j.ep with
        | none => exact hchron
        | some n =>
          rw [List.singleton_append, List.pairwise_cons]
          refine ⟨?_, hchron⟩
          intro a ha
          split at ha
          · simp only [List.mem_cons, List.not_mem_nil, or_false] at ha
            rcases ha with rfl | rfl <;> exact trivial
          · rw [List.mem_singleton] at ha
            subst ha
            exact trivial
      | false =>
        rw [if_neg (by simp), List.nil_append]
        cases hd : onDiameter j.presentation with
        | false => rw [if_neg (by simp), if_neg (by simp)]; exact List.Pairwise.nil
        | true =>
          rw [if_pos rfl, if_pos rfl]
          have h3 : ((if j.isochrons then [Layer.isochrons] else []) ++ countLayers j.presentation j.plots).Pairwise Below := by
            split
            · rw [List.singleton_append, List.pairwise_cons]
              refine ⟨?_, hco⟩
              intro a ha
              obtain ⟨i, rfl⟩ := hcc a ha
              exact trivial
            · exact hco
          have m3 : ∀ a ∈ (if j.isochrons then [Layer.isochrons] else []) ++ countLayers j.presentation j.plots, a = .isochrons ∨ ∃ i, a = .count i := by
            intro a ha
            rw [List.mem_append] at ha
            rcases ha with ha | ha
            · split at ha
              · rw [List.mem_singleton] at ha; exact Or.inl ha
              · cases ha
            · exact Or.inr (hcc a ha)
          have h2 : ((match j.ef with | some n => [Layer.equilibrium n] | none => []) ++ ((if j.isochrons then [Layer.isochrons] else []) ++
              countLayers j.presentation j.plots)).Pairwise Below := by
            cases j.ef with
            | none => exact h3
            | some n =>
              rw [List.singleton_append, List.pairwise_cons]
              refine ⟨?_, h3⟩
              intro a ha
              rcases m3 a ha with rfl | ⟨i, rfl⟩ <;> exact trivial
          rw [List.append_assoc, List.append_assoc]
          cases hep : j.ep with
          | none => exact h2
          | some n =>
            rw [List.singleton_append, List.pairwise_cons]
            refine ⟨?_, h2⟩
            intro a ha
            rw [List.mem_append] at ha
            rcases ha with ha | ha
            · cases hef : j.ef with
              | none => rw [hef] at ha; cases ha
              | some m =>
                rw [hef] at ha
                rw [List.mem_singleton.1 ha]
                exact trivial
            · rcases m3 a ha with rfl | ⟨i, rfl⟩ <;> exact trivial

/-- **C131: counts.**  On plots over the diameter and on sequence plots every count is drawn, except, where bins are needed, those without bins. -/
theorem C131_counts (j : Job) (hp : j.presentation ∈ ["cumulative", "differential", "R-plot", "Hartmann", "sequence"].map String.toList) (i : ℕ) :
    Layer.count i ∈ layers j ↔ ∃ b, j.plots[i]? = some b ∧
      ¬(j.presentation ∈ ["differential", "R-plot", "Hartmann"].map String.toList ∧ b = "none".toList) := by
  rw [← countLayers_mem]
  have hdraw : (onDiameter j.presentation || decide (j.presentation = "sequence".toList)) = true := by
    have hp' : j.presentation ∈ ["cumulative", "differential", "R-plot", "Hartmann"].map String.toList ++ ["sequence".toList] := hp
    rw [List.mem_append, List.mem_singleton] at hp'
    rcases hp' with h | h
    · unfold onDiameter
      rw [decide_eq_true h]
      rfl
    · rw [decide_eq_true h, Bool.or_true]
  unfold layers
  rw [if_pos hdraw]
  constructor
  · intro h
    simp only [List.mem_append] at h
    rcases h with (((h | h) | h) | h) | h
    · exfalso
      split at h
      · rw [List.mem_append] at h
        rcases h with h | h
        · cases hep : j.ep <;> rw [hep] at h <;> simp at h
        · split at h <;> simp at h
      · cases h
    · exfalso
      split at h
      · rw [List.mem_append, List.mem_append] at h
        rcases h with (h | h) | h
        · cases hep : j.ep <;> rw [hep] at h <;> simp at h
        · cases hef : j.ef <;> rw [hef] at h <;> simp at h
        · split at h <;> simp at h
      · cases h
    · exfalso
      split at h
      · cases hep : j.ep <;> rw [hep] at h <;> simp at h
      · cases h
    · exact h
    · exfalso
      split at h
      · cases hef : j.ef <;> rw [hef] at h <;> simp at h
      · cases h
  · intro h
    simp only [List.mem_append]
    exact Or.inl (Or.inr h)

example : Layer.count 1 ∈ layers ⟨"R-plot".toList, 1, none, none, none, none, true, ["none".toList, "root-2".toList]⟩ ∧
    Layer.count 0 ∉ layers ⟨"R-plot".toList, 1, none, none, none, none, true, ["none".toList, "root-2".toList]⟩ := by
  constructor
  · exact (C131_counts _ (by decide +kernel) 1).2 ⟨"root-2".toList, rfl, by decide +kernel⟩
  · intro h
    obtain ⟨b, hb, hn⟩ := (C131_counts _ (by decide +kernel) 0).1 h
    cases hb
    exact hn (by decide +kernel)

/-- Specification: the lines of a text -/
def linesIn (s : List Char) : List (List Char) := split '\n' s

/-- Specification: a line naming a function, if there is one -/
def named (w : String) (o : Option (List Char)) : List (List Char) := (o.map (fun n => w.toList ++ n)).toList

theorem linesIn_entry (w : String) (o : Option (List Char)) (b : List Char) (hw : '\n' ∉ w.toList) (ho : ∀ n ∈ o, '\n' ∉ n) :
    linesIn (entry w.toList o ++ b) = named w o ++ linesIn b := by
  cases o with
  | none => rfl
  | some n =>
    unfold entry linesIn
    rw [List.append_assoc, List.singleton_append, split_append]
    · rfl
    · intro h
      rcases List.mem_append.1 h with h | h
      · exact hw h
      · exact ho n rfl h

/-- **C131: lines of the legend.**  The function legend has a line for each of these, in this order: the epochs, the equilibrium function (not on
sequence plots), the production function (not on chronology and rate plots of the reference diameter 1 km without epochs) and the chronology
function.  There is a legend if the two last are known. -/
theorem C131_lines (j : Job) (hn : ∀ o ∈ [j.ep, j.ef, j.pf, j.cf], ∀ n ∈ o, '\n' ∉ n) (hpf : j.pf ≠ none) (hcf : j.cf ≠ none) :
    ∃ s, functionLegend j = .ok s ∧ linesIn s = named "Epochs: " j.ep ++ (if j.presentation = "sequence".toList then [] else named "EF: " j.ef) ++
      (if (j.presentation = "chronology".toList ∨ j.presentation = "rate".toList) ∧ j.refDiameter = 1 ∧ j.ep = none then [] else named "PF: " j.pf) ++
      named "CF: " j.cf := by
  have hep : ∀ n ∈ j.ep, '\n' ∉ n := fun n h => hn j.ep (by simp) n h
  have hef : ∀ n ∈ j.ef, '\n' ∉ n := fun n h => hn j.ef (by simp) n h
  obtain ⟨p, hp⟩ := Option.ne_none_iff_exists'.1 hpf
  obtain ⟨c, hc⟩ := Option.ne_none_iff_exists'.1 hcf
  have hpf' : ∀ n ∈ (some p : Option (List Char)), '\n' ∉ n := fun n h => hn j.pf (by simp) n (by rw [hp]; exact h)
  have hcn : '\n' ∉ c := hn j.cf (by simp) c hc
  have w1 : '\n' ∉ "Epochs: ".toList := by decide +kernel
  have w2 : '\n' ∉ "EF: ".toList := by decide +kernel
  have w3 : '\n' ∉ "PF: ".toList := by decide +kernel
  have w4 : '\n' ∉ "CF: ".toList := by decide +kernel
  have hlast : linesIn ("CF: ".toList ++ c) = named "CF: " j.cf := by
    rw [hc]
    refine split_of_not_mem ?_
    intro h
    rcases List.mem_append.1 h with h | h
    · exact w4 h
    · exact hcn h
  have hmid : ∀ b, linesIn (entry "Epochs: ".toList j.ep ++ ((if j.presentation = "sequence".toList then [] else entry "EF: ".toList j.ef) ++ b)) =
      named "Epochs: " j.ep ++ ((if j.presentation = "sequence".toList then [] else named "EF: " j.ef) ++ linesIn b) := by
    intro b
    rw [linesIn_entry _ _ _ w1 hep]
    split
    · rfl
    · rw [linesIn_entry _ _ _ w2 hef]
  have htime : onTime j.presentation = true ↔ j.presentation = "chronology".toList ∨ j.presentation = "rate".toList := by
    unfold onTime
    rw [decide_eq_true_iff, List.map_cons, List.mem_cons, List.map_cons, List.mem_cons, List.map_nil]
    constructor
    · rintro (h | h | h)
      · exact Or.inl h
      · exact Or.inr h
      · cases h
    · rintro (h | h)
      · exact Or.inl h
      · exact Or.inr (Or.inl h)
  unfold functionLegend
  dsimp only
  rw [hp, hc]
  by_cases hcond : (j.presentation = "chronology".toList ∨ j.presentation = "rate".toList) ∧ j.refDiameter = 1 ∧ j.ep = none
  · have hb : ¬((!(onTime j.presentation && decide (j.refDiameter = 1)) || j.ep.isSome) = true) := by
      rw [htime.2 hcond.1, decide_eq_true hcond.2.1, hcond.2.2]
      decide
    rw [if_neg hb, if_pos hcond]
    refine ⟨_, rfl, ?_⟩
    simp only [List.append_assoc]
    rw [hmid, hlast, hc]
    simp only [List.nil_append]
  · have hb : (!(onTime j.presentation && decide (j.refDiameter = 1)) || j.ep.isSome) = true := by
      by_contra hb
      apply hcond
      rw [Bool.not_eq_true, Bool.or_eq_false_iff, Bool.not_eq_false', Bool.and_eq_true, decide_eq_true_iff] at hb
      exact ⟨htime.1 hb.1.1, hb.1.2, by simpa using hb.2⟩
    rw [if_pos hb, if_neg hcond]
    refine ⟨_, rfl, ?_⟩
    simp only [List.append_assoc]
    rw [hmid, linesIn_entry _ _ _ w3 hpf', hlast, hc]

example : ∃ s, functionLegend ⟨"rate".toList, 1, none, none, some "Mars".toList, some "Hartmann".toList, false, []⟩ = .ok s ∧
    linesIn s = ["CF: Hartmann".toList] := by
  obtain ⟨s, h, hs⟩ := C131_lines ⟨"rate".toList, 1, none, none, some "Mars".toList, some "Hartmann".toList, false, []⟩
    (by decide +kernel) (by simp) (by simp)
  exact ⟨s, h, hs.trans (by decide +kernel)⟩

theorem named_mem (w v : String) (o : Option (List Char)) (n : List Char) (hvw : v.toList.take 2 ≠ w.toList.take 2) (hv : 2 ≤ v.toList.length)
    (hw : 2 ≤ w.toList.length) : w.toList ++ n ∉ named v o := by
  unfold named
  cases o with
  | none => simp
  | some m =>
    intro h
    have he : w.toList ++ n = v.toList ++ m := by simpa using h
    have := congrArg (List.take 2) he
    rw [List.take_append_of_le_length hw, List.take_append_of_le_length hv] at this
    exact hvw this.symm

theorem named_self (w : String) (o : Option (List Char)) (n : List Char) : w.toList ++ n ∈ named w o ↔ o = some n := by
  unfold named
  cases o with
  | none => simp
  | some m =>
    simp only [Option.map_some, Option.toList_some, List.mem_singleton, List.append_cancel_left_eq, Option.some.injEq]
    exact eq_comm

theorem mem_first {α : Type} {x : α} {a b c d : List α} (hb : x ∉ b) (hc : x ∉ c) (hd : x ∉ d) : x ∈ a ++ b ++ c ++ d ↔ x ∈ a := by
  rw [List.mem_append, List.mem_append, List.mem_append]
  exact ⟨fun h => h.elim (fun h => h.elim (fun h => h.elim id (fun h => absurd h hb)) (fun h => absurd h hc)) (fun h => absurd h hd),
    fun h => Or.inl (Or.inl (Or.inl h))⟩

theorem mem_second {α : Type} {x : α} {a b c d : List α} (ha : x ∉ a) (hc : x ∉ c) (hd : x ∉ d) : x ∈ a ++ b ++ c ++ d ↔ x ∈ b := by
  rw [List.mem_append, List.mem_append, List.mem_append]
  exact ⟨fun h => h.elim (fun h => h.elim (fun h => h.elim (fun h => absurd h ha) id) (fun h => absurd h hc)) (fun h => absurd h hd),
    fun h => Or.inl (Or.inl (Or.inr h))⟩

/-- **C131 (partial): the legend and the figure.**  On the plots of crater densities, and on sequence plots, the legend names an epoch system or
an equilibrium function if and only if it is drawn. -/
theorem C131_legend_partial (j : Job) (hp : j.presentation ∈ ["cumulative", "differential", "R-plot", "Hartmann", "sequence"].map String.toList)
    (hn : ∀ o ∈ [j.ep, j.ef, j.pf, j.cf], ∀ n ∈ o, '\n' ∉ n) {s : List Char} (hs : functionLegend j = .ok s) (n : List Char) :
    ("Epochs: ".toList ++ n ∈ linesIn s ↔ Layer.epochs n ∈ layers j) ∧ ("EF: ".toList ++ n ∈ linesIn s ↔ Layer.equilibrium n ∈ layers j) := by
  have hnt : j.presentation ∉ ["chronology", "rate"].map String.toList := by
    intro h
    have := (by decide +kernel : ∀ x ∈ ["cumulative", "differential", "R-plot", "Hartmann", "sequence"].map String.toList,
      x ∉ ["chronology", "rate"].map String.toList)
    exact this _ hp h
  have hot : onTime j.presentation = false := by unfold onTime; exact decide_eq_false hnt
  have hnu : j.presentation ≠ "uncertainty".toList := by
    have := (by decide +kernel : ∀ x ∈ ["cumulative", "differential", "R-plot", "Hartmann", "sequence"].map String.toList,
      x ≠ "uncertainty".toList)
    exact this _ hp
  have hpf : j.pf ≠ none := by
    intro h
    unfold functionLegend at hs
    rw [hot, h] at hs
    cases hs
  have hcf : j.cf ≠ none := by
    intro h
    unfold functionLegend at hs
    rw [hot, h] at hs
    cases hpf' : j.pf <;> rw [hpf'] at hs <;> cases hs
  obtain ⟨s', hs', hl⟩ := C131_lines j hn hpf hcf
  rw [hs] at hs'
  cases hs'
  rw [hl]
  have e1 := named_mem "Epochs: " "EF: " j.ef n (by decide +kernel) (by decide +kernel) (by decide +kernel)
  have e2 := named_mem "Epochs: " "PF: " j.pf n (by decide +kernel) (by decide +kernel) (by decide +kernel)
  have e3 := named_mem "Epochs: " "CF: " j.cf n (by decide +kernel) (by decide +kernel) (by decide +kernel)
  have f1 := named_mem "EF: " "Epochs: " j.ep n (by decide +kernel) (by decide +kernel) (by decide +kernel)
  have f2 := named_mem "EF: " "PF: " j.pf n (by decide +kernel) (by decide +kernel) (by decide +kernel)
  have f3 := named_mem "EF: " "CF: " j.cf n (by decide +kernel) (by decide +kernel) (by decide +kernel)
  have g1 := named_self "Epochs: " j.ep n
  have g2 := named_self "EF: " j.ef n
  have hc : ∀ l : Layer, (∀ i, l ≠ .count i) → l ∉ countLayers j.presentation j.plots := fun l hl h => by
    obtain ⟨i, hi⟩ := countLayers_counts h
    exact hl i hi
  have c1 := hc (.epochs n) (fun i h => by cases h)
  have c2 := hc (.equilibrium n) (fun i h => by cases h)
  have hcond : ¬((j.presentation = "chronology".toList ∨ j.presentation = "rate".toList) ∧ j.refDiameter = 1 ∧ j.ep = none) := by
    rintro ⟨h | h, -⟩
    · exact hnt (by rw [h]; decide +kernel)
    · exact hnt (by rw [h]; decide +kernel)
  rw [if_neg hcond]
  unfold layers
  rw [hot, if_neg hnu]
  by_cases hseq : j.presentation = "sequence".toList
  · have hod : onDiameter j.presentation = false := by rw [hseq]; decide +kernel
    rw [hod, if_pos hseq, if_pos hseq, decide_eq_true hseq, mem_first List.not_mem_nil e2 e3, mem_second f1 f2 f3, g1]
    generalize countLayers j.presentation j.plots = cl at c1 c2
    cases hep : j.ep <;> simp [c1, c2, eq_comm]
  · have hod : onDiameter j.presentation = true := by
      have := (by decide +kernel : ∀ x ∈ ["cumulative", "differential", "R-plot", "Hartmann", "sequence"].map String.toList,
        x = "sequence".toList ∨ onDiameter x = true)
      exact (this _ hp).resolve_left hseq
    rw [hod, if_neg hseq, if_neg hseq, mem_first e1 e2 e3, mem_second f1 f2 f3, g1, g2]
    generalize countLayers j.presentation j.plots = cl at c1 c2
    cases hep : j.ep <;> cases hef : j.ef <;> cases j.isochrons <;> simp [c1, c2, eq_comm]

example : ∃ s, functionLegend ⟨"sequence".toList, 1, some "Mars".toList, some "Hartmann 1984".toList, some "Mars".toList, some "Hartmann".toList, false, []⟩ = .ok s ∧
    "Epochs: ".toList ++ "Mars".toList ∈ linesIn s := by
  obtain ⟨s, h, -⟩ := C131_lines ⟨"sequence".toList, 1, some "Mars".toList, some "Hartmann 1984".toList, some "Mars".toList, some "Hartmann".toList, false, []⟩
    (by decide +kernel) (by simp) (by simp)
  exact ⟨s, h, ((C131_legend_partial _ (by decide +kernel) (by decide +kernel) h "Mars".toList).1).2 (by decide +kernel)⟩

/-- **C131 is false of chronology and rate plots.**  The legend names the equilibrium function, which is not drawn there. -/
theorem C131_chronology_counterexample (j : Job) (hp : j.presentation ∈ ["chronology", "rate"].map String.toList) {n : List Char}
    (hef : j.ef = some n) (hn : ∀ o ∈ [j.ep, j.ef, j.pf, j.cf], ∀ n ∈ o, '\n' ∉ n) (hpf : j.pf ≠ none) (hcf : j.cf ≠ none) :
    ∃ s, functionLegend j = .ok s ∧ "EF: ".toList ++ n ∈ linesIn s ∧ ∀ m, Layer.equilibrium m ∉ layers j := by
  have facts := (by decide +kernel : ∀ x ∈ ["chronology", "rate"].map String.toList,
      x ≠ "sequence".toList ∧ onDiameter x = false ∧ x ≠ "uncertainty".toList) _ hp
  obtain ⟨hs, ho, hu⟩ := facts
  obtain ⟨s, h, hl⟩ := C131_lines j hn hpf hcf
  refine ⟨s, h, ?_, ?_⟩
  · rw [hl, if_neg hs]
    have := (named_self "EF: " j.ef n).2 hef
    exact List.mem_append_left _ (List.mem_append_left _ (List.mem_append_right _ this))
  · intro m
    unfold layers
    rw [ho, if_neg hs, if_neg hu, decide_eq_false hs]
    cases j.ep <;> by_cases hr : j.refDiameter = 1 <;> cases onTime j.presentation <;> simp [hr]

example : ∃ s, functionLegend ⟨"rate".toList, 1, none, some "Hartmann 1984".toList, some "Mars".toList, some "Hartmann".toList, false, []⟩ = .ok s ∧
    "EF: ".toList ++ "Hartmann 1984".toList ∈ linesIn s :=
  (C131_chronology_counterexample ⟨"rate".toList, 1, none, some "Hartmann 1984".toList, some "Mars".toList, some "Hartmann".toList, false, []⟩
    (by decide +kernel) rfl (by decide +kernel) (by simp) (by simp)).imp fun _ h => ⟨h.1, h.2.1⟩

/-- **C131 is false of uncertainty plots.**  The legend names the epochs, which are not drawn there. -/
theorem C131_uncertainty_counterexample (j : Job) (hp : j.presentation = "uncertainty".toList) {n : List Char}
    (hep : j.ep = some n) (hn : ∀ o ∈ [j.ep, j.ef, j.pf, j.cf], ∀ n ∈ o, '\n' ∉ n) (hpf : j.pf ≠ none) (hcf : j.cf ≠ none) :
    ∃ s, functionLegend j = .ok s ∧ "Epochs: ".toList ++ n ∈ linesIn s ∧ ∀ m, Layer.epochs m ∉ layers j := by
  have hs : j.presentation ≠ "sequence".toList := by rw [hp]; decide +kernel
  have ho : onDiameter j.presentation = false := by rw [hp]; decide +kernel
  have ht : onTime j.presentation = false := by rw [hp]; decide +kernel
  obtain ⟨s, h, hl⟩ := C131_lines j hn hpf hcf
  refine ⟨s, h, ?_, ?_⟩
  · rw [hl]
    have := (named_self "Epochs: " j.ep n).2 hep
    exact List.mem_append_left _ (List.mem_append_left _ (List.mem_append_left _ this))
  · intro m
    unfold layers
    rw [ho, ht, if_neg hs, if_pos hp, decide_eq_false hs]
    cases j.ef <;> simp

example : ∃ s, functionLegend ⟨"uncertainty".toList, 1, some "Mars".toList, none, some "Mars".toList, some "Hartmann".toList, false, []⟩ = .ok s ∧
    "Epochs: ".toList ++ "Mars".toList ∈ linesIn s :=
  (C131_uncertainty_counterexample ⟨"uncertainty".toList, 1, some "Mars".toList, none, some "Mars".toList, some "Hartmann".toList, false, []⟩
    rfl rfl (by decide +kernel) (by simp) (by simp)).imp fun _ h => ⟨h.1, h.2.1⟩

end Verif.Props
