import Mathlib.Data.List.Basic
import Mathlib.Tactic.Common

/-! Python dictionaries as association lists in insertion order. -/

namespace Verif.Py

variable {κ α : Type} [DecidableEq κ]

/-- `d[k] = v` -/
def dictSet (d : List (κ × α)) (k : κ) (v : α) : List (κ × α) :=
  match d with
  | [] => [(k, v)]
  | (k', v') :: t => if k' = k then (k, v) :: t else (k', v') :: dictSet t k v

/-- `d.get(k)` -/
def dictGet (d : List (κ × α)) (k : κ) : Option α := (d.find? (fun x => x.1 = k)).map Prod.snd

theorem dictGet_set (d : List (κ × α)) (k : κ) (v : α) (j : κ) :
    dictGet (dictSet d k v) j = if j = k then some v else dictGet d j := by
  induction d with
  | nil =>
    by_cases h : j = k
    · subst h; simp [dictSet, dictGet]
    · simp [dictSet, dictGet, h, Ne.symm h]
  | cons x t ih =>
    obtain ⟨k', v'⟩ := x
    simp only [dictSet]
    by_cases h : k' = k
    · subst h
      rw [if_pos rfl]
      by_cases h2 : j = k'
      · subst h2; simp [dictGet]
      · simp [dictGet, h2, Ne.symm h2]
    · rw [if_neg h]
      by_cases h2 : k' = j
      · subst h2; simp [dictGet, h]
      · have e1 : dictGet ((k', v') :: dictSet t k v) j = dictGet (dictSet t k v) j := by simp [dictGet, h2]
        have e2 : dictGet ((k', v') :: t) j = dictGet t j := by simp [dictGet, h2]
        rw [e1, e2, ih]

/-- setting a new key appends it -/
theorem dictSet_new (d : List (κ × α)) (k : κ) (v : α) (h : k ∉ d.map Prod.fst) : dictSet d k v = d ++ [(k, v)] := by
  induction d with
  | nil => rfl
  | cons x t ih =>
    obtain ⟨k', v'⟩ := x
    rw [List.map_cons, List.mem_cons, not_or] at h
    simp only [dictSet]
    rw [if_neg (fun e => h.1 e.symm), ih h.2]
    rfl

/-- setting the entries of a list with distinct keys -/
theorem foldl_dictSet (l d : List (κ × α)) (h : ((d ++ l).map Prod.fst).Nodup) :
    l.foldl (fun d x => dictSet d x.1 x.2) d = d ++ l := by
  induction l generalizing d with
  | nil => simp
  | cons x t ih =>
    rw [List.foldl_cons, dictSet_new, ih]
    · simp
    · simpa using h
    · rw [List.map_append, List.nodup_append] at h
      intro hm
      exact h.2.2 _ hm _ (by simp) rfl

end Verif.Py
