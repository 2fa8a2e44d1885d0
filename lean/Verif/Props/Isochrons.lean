import Verif.Model.Isochrons
import Verif.Py.Decimal

/-! C44: the isochron list. -/

namespace Verif.Props

open Verif.Py Verif.Cli

variable {F : Type}

/-- **C44 (partial): suffixes.** A comma separated list of items, each a text followed by any of the letters h, a, s in any
order, gives in order one isochron for every item whose text is a number: its age is the absolute value of the number,
the label is hidden, above or small exactly if the letter h, a or s is there.  Holds for every way of reading numbers, for
texts without comma and without these letters.  The manual documents n instead of h: see the counterexample. -/
theorem C44_suffixes_partial (parse : List Char → Option F) (absF : F → F) (items : List (List Char × List Char))
    (hne : items ≠ []) (ht : ∀ x ∈ items, ∀ c ∈ x.1, c ≠ ',' ∧ c ≠ 'h' ∧ c ≠ 'a' ∧ c ≠ 's')
    (hw : ∀ x ∈ items, ∀ c ∈ x.2, c = 'h' ∨ c = 'a' ∨ c = 's') :
    parseIsochrons parse absF (join [','] (items.map (fun x => x.1 ++ x.2))) =
      items.filterMap (fun x => (parse x.1).map (fun v => ⟨absF v, 'h' ∈ x.2, 'a' ∈ x.2, 's' ∈ x.2⟩)) := by
  rw [parseIsochrons, split_join (by simpa using hne)]
  · rw [List.filterMap_map]
    apply List.filterMap_congr
    intro x hx
    simp only [Function.comp, isochronItem]
    have h1 : rstrip isSuffix (x.1 ++ x.2) = x.1 := by
      have hs : ∀ c ∈ x.2, isSuffix c = true := by
        intro c hc
        rcases hw x hx c hc with rfl | rfl | rfl <;> rfl
      rw [rstrip, rdropWhile_append_of_all hs, List.rdropWhile_eq_self_iff]
      intro hl
      have := ht x hx _ (List.getLast_mem hl)
      simp only [isSuffix, Bool.or_eq_true, beq_iff_eq]
      tauto
    have hm : ∀ c, (c = 'h' ∨ c = 'a' ∨ c = 's') → (c ∈ x.1 ++ x.2 ↔ c ∈ x.2) := by
      intro c hc
      rw [List.mem_append, or_iff_right]
      intro hc1
      have := ht x hx c hc1
      tauto
    rw [h1, decide_eq_decide.2 (hm 'h' (by simp)), decide_eq_decide.2 (hm 'a' (by simp)), decide_eq_decide.2 (hm 's' (by simp))]
  · intro f hf hc
    obtain ⟨x, hx, rfl⟩ := List.mem_map.1 hf
    rcases List.mem_append.1 hc with hc | hc
    · exact (ht x hx _ hc).1 rfl
    · rcases hw x hx _ hc with h | h | h <;> exact absurd h (by decide)

/-- **C44 is false as documented**: the manual's suffix n for hiding the label makes the item no number, so that the
isochron is not drawn at all. -/
theorem C44_manual_counterexample : parseIsochrons decVal (fun v => if v < 0 then -v else v) "3n,1".toList =
    [⟨1, false, false, false⟩] := by decide +kernel

/-- the list of the help text, and combined suffixes -/
example : parseIsochrons decVal (fun v => if v < 0 then -v else v) "1,3,3.7a,4a,1e-4sh,x".toList =
    [⟨1, false, false, false⟩, ⟨3, false, false, false⟩, ⟨37/10, false, true, false⟩, ⟨4, false, true, false⟩,
      ⟨1/10000, true, false, true⟩] := by decide +kernel

end Verif.Props
