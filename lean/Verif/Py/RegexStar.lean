import Verif.Py.Regex

/-! Lemmas on repetitions and groups of the matcher. -/

namespace Verif.Py

theorem mem_grp {n : ℕ} {r : Re} {s t : St} (h : t ∈ (Re.grp n r).run s) : ∃ u ∈ r.run s, u.pre = t.pre ∧ u.rest = t.rest := by
  rw [run_grp, List.mem_map] at h
  obtain ⟨u, hu, rfl⟩ := h
  exact ⟨u, hu, rfl, rfl⟩

theorem grp_mem {n : ℕ} {r : Re} {s u : St} (h : u ∈ r.run s) : ∃ t ∈ (Re.grp n r).run s, u.pre = t.pre ∧ u.rest = t.rest := by
  rw [run_grp]
  exact ⟨_, List.mem_map.2 ⟨u, h, rfl⟩, rfl, rfl⟩

theorem starRun_ne_nil (body : St → List St) (n : ℕ) (s : St) : starRun body true n s ≠ [] := by
  cases n with
  | zero => simp [starRun]
  | succ n => simp [starRun]

/-- a greedy repetition follows the first way through its body which moves on -/
theorem starRun_head (body : St → List St) (n : ℕ) (s : St) :
    (starRun body true (n + 1) s).head? =
      match ((body s).filter (fun t => decide (t.rest.length < s.rest.length))).head? with
      | some t => (starRun body true n t).head?
      | none => some s := by
  rw [starRun]
  simp only [if_true]
  cases h : (body s).filter (fun t => decide (t.rest.length < s.rest.length)) with
  | nil => rfl
  | cons t ts =>
    rw [List.flatMap_cons, List.append_assoc, List.head?_append_of_ne_nil _ (starRun_ne_nil body n t)]
    rfl

/-- passing over a character at which nothing matches -/
theorem searchFrom_skip {r : Re} {pre : List Char} {c : Char} {l : List Char} (h : r.run ⟨pre, c :: l, []⟩ = []) :
    r.searchFrom pre (c :: l) = r.searchFrom (c :: pre) l := by
  rw [Re.searchFrom, h]; rfl

theorem searchFrom_here {r : Re} {pre l : List Char} {t : St} (h : (r.run ⟨pre, l, []⟩).head? = some t) :
    r.searchFrom pre l = some (⟨pre, l, []⟩, t) := by
  cases l with
  | nil => rw [Re.searchFrom, h]; rfl
  | cons c l => rw [Re.searchFrom, h]

theorem starRun_suffix {body : St → List St} {g : Bool} (h : ∀ s, ∀ t ∈ body s, t.rest <:+ s.rest) (n : ℕ) :
    ∀ s, ∀ t ∈ starRun body g n s, t.rest <:+ s.rest := by
  induction n with
  | zero => intro s t ht; simp [starRun] at ht; rw [ht]; exact List.suffix_refl _
  | succ n ih =>
    intro s t ht
    have hmore : ∀ t ∈ ((body s).filter (fun t => decide (t.rest.length < s.rest.length))).flatMap (starRun body g n), t.rest <:+ s.rest := by
      intro t ht
      obtain ⟨u, hu, ht⟩ := List.mem_flatMap.1 ht
      exact (ih u t ht).trans (h s u (List.mem_filter.1 hu).1)
    rw [starRun] at ht
    cases g with
    | true =>
      simp only [if_true, List.mem_append, List.mem_singleton] at ht
      rcases ht with ht | rfl
      · exact hmore t ht
      · exact List.suffix_refl _
    | false =>
      simp only [Bool.false_eq_true, if_false, List.mem_cons] at ht
      rcases ht with rfl | ht
      · exact List.suffix_refl _
      · exact hmore t ht

theorem uptoRun_suffix {body : St → List St} (h : ∀ s, ∀ t ∈ body s, t.rest <:+ s.rest) (n : ℕ) :
    ∀ s, ∀ t ∈ uptoRun body n s, t.rest <:+ s.rest := by
  induction n with
  | zero => intro s t ht; simp [uptoRun] at ht; rw [ht]; exact List.suffix_refl _
  | succ n ih =>
    intro s t ht
    rw [uptoRun, List.mem_append, List.mem_singleton] at ht
    rcases ht with ht | rfl
    · obtain ⟨u, hu, ht⟩ := List.mem_flatMap.1 ht
      exact (ih u t ht).trans (h s u hu)
    · exact List.suffix_refl _

/-- a match consumes characters from the front -/
theorem run_suffix (r : Re) : ∀ s, ∀ t ∈ r.run s, t.rest <:+ s.rest := by
  induction r with
  | eps => intro s t ht; simp [Re.run] at ht; rw [ht]; exact List.suffix_refl _
  | chr p =>
    intro s t ht
    rw [Re.run] at ht
    split at ht
    · split at ht
      · simp at ht
        rename_i h _
        rw [ht, h]
        exact List.suffix_cons _ _
      · simp at ht
    · simp at ht
  | seq a b iha ihb =>
    intro s t ht
    obtain ⟨u, hu, ht⟩ := List.mem_flatMap.1 ht
    exact (ihb u t ht).trans (iha s u hu)
  | alt a b iha ihb =>
    intro s t ht
    rcases List.mem_append.1 ht with ht | ht
    · exact iha s t ht
    · exact ihb s t ht
  | star g r ih => intro s; exact starRun_suffix ih _ s
  | upto n r ih => intro s; exact uptoRun_suffix ih _ s
  | grp n r ih =>
    intro s t ht
    obtain ⟨u, hu, _, e⟩ := mem_grp ht
    rw [← e]
    exact ih s u hu
  | bol m =>
    intro s t ht
    rw [Re.run] at ht
    split at ht
    · simp at ht; rw [ht]; exact List.suffix_refl _
    · split at ht
      · simp at ht; rw [ht]; exact List.suffix_refl _
      · simp at ht
  | eol m =>
    intro s t ht
    rw [Re.run] at ht
    split at ht
    · simp at ht; rw [ht]; exact List.suffix_refl _
    · split at ht
      · simp at ht; rw [ht]; exact List.suffix_refl _
      · simp at ht
  | look r ih =>
    intro s t ht
    rw [Re.run] at ht
    split at ht
    · simp at ht
    · simp at ht; rw [ht]; exact List.suffix_refl _

end Verif.Py
