import Mathlib.Data.List.DropRight
import Mathlib.Data.List.Basic
import Mathlib.Tactic.Common

/-! Python's string methods on lists of characters. -/

namespace Verif.Py

/-- `s.split(sep)` for a single character `sep` -/
def split (sep : Char) : List Char → List (List Char)
  | [] => [[]]
  | c :: l => if c = sep then [] :: split sep l else
    match split sep l with
    | h :: t => (c :: h) :: t
    | [] => [[c]]

/-- `sep.join(fs)` -/
def join (sep : List Char) : List (List Char) → List Char
  | [] => []
  | [f] => f
  | f :: g :: fs => f ++ sep ++ join sep (g :: fs)

/-- `s.strip(chars)`, `lstrip`, `rstrip` with the characters given as a predicate -/
def lstrip (p : Char → Bool) (s : List Char) : List Char := s.dropWhile p
def rstrip (p : Char → Bool) (s : List Char) : List Char := s.rdropWhile p
def strip (p : Char → Bool) (s : List Char) : List Char := rstrip p (lstrip p s)

/-- `s.replace(a, b)` for a two-character `a`, scanning from the left -/
def replace2 (a1 a2 : Char) (b : List Char) : List Char → List Char
  | [] => []
  | [c] => [c]
  | c :: d :: l => if c = a1 ∧ d = a2 then b ++ replace2 a1 a2 b l else c :: replace2 a1 a2 b (d :: l)

/-- `s.replace(pat, rep)` for a nonempty `pat`: occurrences from the left, not overlapping; `skip` counts the characters
of the last occurrence still to be passed over -/
def replaceFrom (pat rep : List Char) : ℕ → List Char → List Char
  | _, [] => []
  | k + 1, _ :: l => replaceFrom pat rep k l
  | 0, c :: l => if pat.isPrefixOf (c :: l) then rep ++ replaceFrom pat rep (pat.length - 1) l
    else c :: replaceFrom pat rep 0 l

def replace (pat rep s : List Char) : List Char := replaceFrom pat rep 0 s

theorem split_ne_nil (sep : Char) (s : List Char) : split sep s ≠ [] := by
  cases s with
  | nil => simp [split]
  | cons c l =>
    simp only [split]
    split
    · simp
    · split <;> simp

theorem split_not_mem (sep : Char) (s : List Char) : ∀ f ∈ split sep s, sep ∉ f := by
  induction s with
  | nil => simp [split]
  | cons c l ih =>
    simp only [split]
    split
    · intro f hf
      rcases List.mem_cons.1 hf with rfl | hf
      · simp
      · exact ih f hf
    · rename_i hc
      cases h : split sep l with
      | nil => exact absurd h (split_ne_nil _ _)
      | cons a t =>
        intro f hf
        simp only at hf
        rcases List.mem_cons.1 hf with rfl | hf
        · rw [List.mem_cons, not_or]
          exact ⟨fun e => hc e.symm, ih a (by simp [h])⟩
        · exact ih f (by simp [h, hf])

theorem join_cons (sep f : List Char) (fs : List (List Char)) : join sep (f :: fs) = f ++ fs.flatMap (sep ++ ·) := by
  induction fs generalizing f with
  | nil => simp [join]
  | cons g fs ih => rw [join, ih, List.flatMap_cons]; simp

theorem join_split (sep : Char) (s : List Char) : join [sep] (split sep s) = s := by
  induction s with
  | nil => rfl
  | cons c l ih =>
    simp only [split]
    split
    · rename_i hc
      subst hc
      cases h : split c l with
      | nil => exact absurd h (split_ne_nil _ _)
      | cons a t => rw [join, ← h, ih]; rfl
    · cases h : split sep l with
      | nil => exact absurd h (split_ne_nil _ _)
      | cons a t =>
        rw [h] at ih
        simp only
        rw [join_cons] at ih ⊢
        rw [List.cons_append, ih]

theorem split_of_not_mem {sep : Char} {f : List Char} (h : sep ∉ f) : split sep f = [f] := by
  induction f with
  | nil => rfl
  | cons c l ih =>
    rw [List.mem_cons, not_or] at h
    simp only [split, if_neg (Ne.symm h.1), ih h.2]

theorem split_append {sep : Char} {f : List Char} (h : sep ∉ f) (s : List Char) :
    split sep (f ++ sep :: s) = f :: split sep s := by
  induction f with
  | nil => simp [split]
  | cons c l ih =>
    rw [List.mem_cons, not_or] at h
    rw [List.cons_append, split, if_neg (Ne.symm h.1), ih h.2]

/-- splitting a joined list gives the list back -/
theorem split_join {sep : Char} {fs : List (List Char)} (hne : fs ≠ []) (h : ∀ f ∈ fs, sep ∉ f) :
    split sep (join [sep] fs) = fs := by
  induction fs with
  | nil => exact absurd rfl hne
  | cons f fs ih =>
    cases fs with
    | nil => exact split_of_not_mem (h f (by simp))
    | cons g fs =>
      rw [join, List.append_assoc, List.singleton_append, split_append (h f (by simp)),
        ih (by simp) (fun f hf => h f (by simp [hf]))]

theorem rdropWhile_append_rtakeWhile (p : Char → Bool) (s : List Char) : s.rdropWhile p ++ s.rtakeWhile p = s := by
  rw [List.rdropWhile, List.rtakeWhile, ← List.reverse_append, List.takeWhile_append_dropWhile, List.reverse_reverse]

/-- what stripping removes -/
theorem strip_decomp (p : Char → Bool) (s : List Char) : ∃ a b, s = a ++ strip p s ++ b ∧ (∀ c ∈ a, p c = true) ∧
    (∀ c ∈ b, p c = true) := by
  refine ⟨s.takeWhile p, (lstrip p s).rtakeWhile p, ?_, fun c hc => List.mem_takeWhile_imp hc, fun c hc => List.mem_rtakeWhile_imp hc⟩
  rw [List.append_assoc, strip, rstrip, rdropWhile_append_rtakeWhile, lstrip, List.takeWhile_append_dropWhile]

theorem dropWhile_append_of_all {p : Char → Bool} {a s : List Char} (h : ∀ c ∈ a, p c = true) :
    (a ++ s).dropWhile p = s.dropWhile p := by
  induction a with
  | nil => rfl
  | cons c a ih => rw [List.cons_append, List.dropWhile_cons_of_pos (h c (by simp)), ih (fun d hd => h d (by simp [hd]))]

theorem rdropWhile_append_of_all {p : Char → Bool} {s b : List Char} (h : ∀ c ∈ b, p c = true) :
    (s ++ b).rdropWhile p = s.rdropWhile p := by
  rw [List.rdropWhile, List.reverse_append, dropWhile_append_of_all (fun c hc => h c (List.mem_reverse.1 hc)), List.rdropWhile]

/-- stripping a core which starts and ends with other characters -/
theorem strip_eq {p : Char → Bool} {a m b : List Char} (ha : ∀ c ∈ a, p c = true) (hb : ∀ c ∈ b, p c = true)
    (hh : ∀ c ∈ m.head?, p c = false) (hl : ∀ c ∈ m.getLast?, p c = false) : strip p (a ++ m ++ b) = m := by
  rw [strip, rstrip, lstrip, List.append_assoc, dropWhile_append_of_all ha]
  cases m with
  | nil =>
    rw [List.nil_append]
    have : b.dropWhile p = [] := by rw [List.dropWhile_eq_nil_iff]; exact hb
    rw [this]; rfl
  | cons c m =>
    have hc : ¬ p c = true := by rw [hh c (by simp)]; simp
    rw [List.cons_append, List.dropWhile_cons_of_neg hc, ← List.cons_append, rdropWhile_append_of_all hb,
      List.rdropWhile_eq_self_iff]
    intro hne
    rw [hl _ (List.getLast?_eq_some_getLast hne)]
    simp

end Verif.Py
