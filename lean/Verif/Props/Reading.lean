import Verif.Model.Reading
import Verif.Lemmas.Plot
import Verif.Props.Binning

/-! C12, C50: reading crater files and merging them. -/

namespace Verif.Props
open Verif.Cratercount Verif.Reading Verif.Py

noncomputable section

theorem reciprocals_ok {l w : List ℝ} (h : reciprocals l = .ok w) : w = l.map (fun e => 1 / e) ∧ ∀ e ∈ l, e ≠ 0 := by
  have h2 := mapM_ok _ h
  constructor
  · have := forall₂_map_eq (f := fun e : ℝ => 1 / e) (g := id) h2 (fun a b hab => ((fdiv_ok.1 hab).2).symm)
    simpa using this.symm
  · intro e he
    obtain ⟨i, hi, rfl⟩ := List.getElem_of_mem he
    have := (List.forall₂_iff_get.1 h2).2 i hi (by rw [← h2.length_eq]; exact hi)
    exact (fdiv_ok.1 this).1

theorem craterGe_sorted (l : List Crater) :
    (l.mergeSort (fun p q => craterLe q p)).Pairwise (fun a b => craterLe b a = true) := by
  apply List.pairwise_mergeSort (le := fun p q => craterLe q p)
  · intro a b c h1 h2; exact craterLe_trans c b a h2 h1
  · intro a b; exact craterLe_total b a

/-- **C12 (.diam).** A crater table with equally long columns is read completely: the craters are the
(diameter, fraction) pairs of the table, each as often as it occurs, in descending order; without fraction column every
crater counts 1; area as given. -/
theorem C12_diam (f : DiamFile) (c : Count) (hr : f.referenceArea = Option.none)
    (h : readDiam f = .ok c) :
    c.craters.Perm (List.zip f.diameter (f.fraction.getD (f.diameter.map fun _ => 1))) ∧
    c.craters.Pairwise (fun x y => y.1 ≤ x.1) ∧ f.area = some c.area ∧ c.buffered = false ∧ c.prebinned = false ∧
    c.perimeter = Option.none := by
  unfold readDiam at h
  rw [hr] at h
  cases ha : f.area with
  | none => rw [ha] at h; cases h
  | some a =>
    rw [ha] at h
    simp only [except_ok_bind] at h
    split at h
    · cases h
    · split at h
      · cases h
      · have h := Except.ok.inj h
        subst h
        exact ⟨List.mergeSort_perm _ _, (craterGe_sorted _).imp (fun hh => craterLe_fst hh), rfl, rfl, rfl, rfl⟩

/-- every table with at least one crater and an area is accepted -/
theorem C12_diam_accepted (f : DiamFile) (hr : f.referenceArea = Option.none) (a : ℝ) (ha : f.area = some a)
    (hd : f.diameter ≠ []) (hf : ∀ w, f.fraction = some w → w.length = f.diameter.length) :
    ∃ c, readDiam f = .ok c := by
  have hlen : 0 < f.diameter.length := List.length_pos_iff.2 hd
  have hw : (f.fraction.getD (f.diameter.map fun _ => 1)).length = f.diameter.length := by
    cases hfr : f.fraction with
    | none => simp
    | some w => simpa using hf w hfr
  have h1 : f.fraction.getD (f.diameter.map fun _ => 1) ≠ [] := by
    intro h0; rw [h0] at hw; simp at hw; omega
  have h2 : (List.zip f.diameter (f.fraction.getD (f.diameter.map fun _ => 1))).mergeSort
      (fun p q => craterLe q p) ≠ [] := by
    intro h0
    have h3 := congrArg List.length h0
    rw [List.length_mergeSort, List.length_zip, hw, List.length_nil, min_self] at h3
    omega
  unfold readDiam
  rw [hr, ha]
  simp only [except_ok_bind, h1, h2, if_false]
  exact ⟨_, rfl⟩

/-- **C12 (.diam, buffered).** With a reference area column every crater is weighted by the reciprocal of its
reference area, and the area is the nominal 1. -/
theorem C12_diam_buffered (f : DiamFile) (c : Count) (r : List ℝ) (hr : f.referenceArea = some r)
    (h : readDiam f = .ok c) :
    c.craters.Perm (List.zip f.diameter (r.map fun e => 1 / e)) ∧ (∀ e ∈ r, e ≠ 0) ∧
    c.craters.Pairwise (fun x y => y.1 ≤ x.1) ∧ c.area = 1 ∧ c.buffered = true ∧
    c.perimeter = Option.none := by
  unfold readDiam at h
  rw [hr] at h
  cases hw : reciprocals r with
  | error e => simp only [hw, except_error_bind] at h; cases h
  | ok w =>
    obtain ⟨e1, e2⟩ := reciprocals_ok hw
    simp only [hw, except_ok_bind] at h
    split at h
    · cases h
    · split at h
      · cases h
      · have h := Except.ok.inj h
        subst h
        rw [← e1]
        exact ⟨List.mergeSort_perm _ _, e2, (craterGe_sorted _).imp (fun hh => craterLe_fst hh), rfl, rfl, rfl⟩

example : ∃ c, readDiam ⟨[3, 1, 2], some [10, 20, 5], Option.none, Option.none⟩ = .ok c := by
  have hw : reciprocals [10, 20, 5] = .ok [1 / 10, 1 / 20, 1 / 5] :=
    mapM_of_forall₂ _ (.cons (fdiv_ok.2 ⟨by norm_num, rfl⟩) (.cons (fdiv_ok.2 ⟨by norm_num, rfl⟩)
      (.cons (fdiv_ok.2 ⟨by norm_num, rfl⟩) .nil)))
  have h2 : (List.zip [(3 : ℝ), 1, 2] [1 / 10, 1 / 20, 1 / 5]).mergeSort (fun p q => craterLe q p) ≠ [] := by
    intro h0
    have := congrArg List.length h0
    simp at this
  unfold readDiam
  simp only [hw, except_ok_bind, h2, if_false]
  exact ⟨_, rfl⟩

/-- **C12 (.scc).** A crater table with equally long columns is read completely and in ascending order of
diameter. -/
theorem C12_scc (f : SccFile) (c : Count) (h : readScc f = .ok c) (w : List ℝ)
    (hw : w = f.fraction.getD (f.diam.map fun _ => 1)) (hl : w.length = f.diam.length) :
    c.craters.Perm (List.zip f.diam w) ∧ c.craters.Pairwise (fun x y => x.1 ≤ y.1) ∧ c.area = f.totalArea ∧
    c.perimeter = f.perimeter := by
  unfold readScc at h
  rw [← hw] at h
  obtain ⟨cr, h1, h2⟩ := except_bind_eq_ok h
  have h2 := Except.ok.inj h2
  subst h2
  have hf := mapM_ok _ h1
  set q := (f.diam.zipIdx).mergeSort (fun p q => decide (p.1 ≤ q.1)) with hq
  -- each crater is the image of its index pair
  have key : cr = q.map (fun p => (p.1, w.getD p.2 0)) := by
    have := forall₂_map_eq (f := fun p : ℝ × ℕ => ((p.1, w.getD p.2 0) : Crater)) (g := id) hf (by
      intro a b hab
      unfold sccPick at hab
      cases hx : w[a.2]? with
      | none => simp only [hx] at hab; cases hab
      | some v =>
        simp only [hx] at hab
        have hab := Except.ok.inj hab
        rw [← hab]
        simp [List.getD, hx])
    simpa using this.symm
  have hperm : q.Perm f.diam.zipIdx := List.mergeSort_perm _ _
  have hz : (f.diam.zipIdx).map (fun p => ((p.1, w.getD p.2 0) : Crater)) = List.zip f.diam w := by
    apply List.ext_getElem
    · simp [hl]
    · intro i h1 h2
      have hi : i < w.length := by simp at h1; omega
      simp [List.getD, hi]
  refine ⟨?_, ?_, rfl, rfl⟩
  · rw [key, ← hz]; exact hperm.map _
  · rw [key, List.pairwise_map]
    have : q.Pairwise (fun a b => decide (a.1 ≤ b.1) = true) := by
      apply List.pairwise_mergeSort
      · intro a b c h1 h2
        simp only [decide_eq_true_eq] at h1 h2 ⊢; exact h1.trans h2
      · intro a b
        simp only [Bool.or_eq_true, decide_eq_true_eq]; exact le_total _ _
    exact this.imp (fun hh => by simpa using hh)

/-- every such table is accepted -/
theorem C12_scc_accepted (f : SccFile) (hl : (f.fraction.getD (f.diam.map fun _ => 1)).length = f.diam.length) :
    ∃ c, readScc f = .ok c := by
  have : ∃ cr, ((f.diam.zipIdx).mergeSort (fun p q => decide (p.1 ≤ q.1))).mapM
      (sccPick (f.fraction.getD (f.diam.map fun _ => 1))) = .ok cr := by
    have h0 : ∀ l : List (ℝ × ℕ), (∀ p ∈ l, p.2 < f.diam.length) → ∃ cr, l.mapM
      (sccPick (f.fraction.getD (f.diam.map fun _ => 1))) = .ok cr := by
      intro l
      induction l with
      | nil => intro _; exact ⟨[], rfl⟩
      | cons p l ih =>
        intro hp
        obtain ⟨cr, hcr⟩ := ih (fun p' hp' => hp p' (List.mem_cons_of_mem _ hp'))
        have hlt := hp p List.mem_cons_self
        rw [List.mapM_cons]
        have hx : (f.fraction.getD (f.diam.map fun _ => 1))[p.2]? =
            some ((f.fraction.getD (f.diam.map fun _ => 1))[p.2]'(by omega)) := List.getElem?_eq_getElem _
        simp only [sccPick, hx, except_ok_bind, hcr]
        exact ⟨_, rfl⟩
    apply h0
    intro p hp
    have := (List.mergeSort_perm (f.diam.zipIdx) (fun p q => decide (p.1 ≤ q.1))).subset hp
    have := List.snd_lt_of_mem_zipIdx this
    simpa using this
  obtain ⟨cr, hcr⟩ := this
  refine ⟨⟨cr, f.totalArea, f.perimeter, false, false⟩, ?_⟩
  simp only [readScc, hcr, except_ok_bind]

example : ∃ c, readScc ⟨[3, 1, 2], some [1, 0.5, 1], 100, some 40⟩ = .ok c := C12_scc_accepted _ (by simp)

/-- the accumulation loop in closed form -/
theorem mergeLoop_eq (l : List Count) (h : ∀ c ∈ l, c.prebinned = false ∧ c.perimeter.isSome) (cs : List Crater)
    (a p : ℝ) : mergeLoop l cs a p = .ok (cs ++ l.flatMap Count.craters, a + (l.map Count.area).sum,
      p + (l.map (fun c => c.perimeter.getD 0)).sum) := by
  induction l generalizing cs a p with
  | nil => simp [mergeLoop]
  | cons c l ih =>
    obtain ⟨h1, h2⟩ := h c List.mem_cons_self
    obtain ⟨per, hper⟩ := Option.isSome_iff_exists.1 h2
    simp only [mergeLoop, h1, hper, Bool.false_eq_true, if_false]
    rw [ih (fun c' hc' => h c' (List.mem_cons_of_mem _ hc'))]
    simp [hper, add_assoc]

theorem mergeLoop_error (l : List Count) (h : ¬ ∀ c ∈ l, c.prebinned = false ∧ c.perimeter.isSome) (cs : List Crater)
    (a p : ℝ) : ∃ e, mergeLoop l cs a p = .error e := by
  induction l generalizing cs a p with
  | nil => simp at h
  | cons c l ih =>
    simp only [mergeLoop]
    split
    · exact ⟨_, rfl⟩
    · next hp =>
      cases hper : c.perimeter with
      | none => exact ⟨_, rfl⟩
      | some per =>
        apply ih
        intro hall
        apply h
        intro c' hc'
        rcases List.mem_cons.1 hc' with rfl | hm
        · exact ⟨by simpa using hp, by simp [hper]⟩
        · exact hall c' hm

/-- **C50 (files that carry a perimeter).** Merging gives the craters of all files with multiplicity, in file order, and
the sums of areas and perimeters. -/
theorem C50_merge_partial (l : List Count) (h2 : 2 ≤ l.length)
    (h : ∀ c ∈ l, c.prebinned = false ∧ c.perimeter.isSome) :
    ∃ cs a p, mergeCounts l = .ok (cs, a, p) ∧ cs = l.flatMap Count.craters ∧ a = (l.map Count.area).sum ∧
      p = (l.map (fun c => c.perimeter.getD 0)).sum ∧
      Verif.Spec.weightAll cs = (l.map (fun c => Verif.Spec.weightAll c.craters)).sum := by
  refine ⟨_, _, _, ?_, rfl, rfl, rfl, ?_⟩
  · unfold mergeCounts
    rw [if_neg (by omega), mergeLoop_eq l h]
    simp
  · unfold Verif.Spec.weightAll
    clear h2 h
    induction l with
    | nil => simp
    | cons c l ih => simp [ih]

/-- **C50, order of files.** Merging in another order gives the same craters up to order, and the same sums. -/
theorem C50_merge_order (l l' : List Count) (hl : l.Perm l') (cs : List Crater) (a p : ℝ)
    (h : mergeCounts l = .ok (cs, a, p)) :
    ∃ cs', mergeCounts l' = .ok (cs', a, p) ∧ cs.Perm cs' := by
  unfold mergeCounts at h ⊢
  rw [← hl.length_eq]
  split at h
  · cases h
  · next hn =>
    rw [if_neg hn]
    by_cases hall : ∀ c ∈ l, c.prebinned = false ∧ c.perimeter.isSome
    · rw [mergeLoop_eq l hall] at h
      have h := Except.ok.inj h
      simp only [Prod.mk.injEq, List.nil_append, zero_add] at h
      obtain ⟨rfl, rfl, rfl⟩ := h
      refine ⟨l'.flatMap Count.craters, ?_, hl.flatMap_right _⟩
      rw [mergeLoop_eq l' (fun c hc => hall c (hl.symm.subset hc))]
      simp only [List.nil_append, zero_add]
      rw [(hl.map Count.area).sum_eq, (hl.map (fun c => c.perimeter.getD 0)).sum_eq]
    · obtain ⟨e, he⟩ := mergeLoop_error l hall [] 0 0
      rw [he] at h; cases h

/-- **C50, refused inputs.** Fewer than two files, or a pre-binned file, are refused. -/
theorem C50_refused (l : List Count) (h : l.length < 2 ∨ ∃ c ∈ l, c.prebinned = true) :
    ∃ e, mergeCounts l = .error e := by
  unfold mergeCounts
  split
  · exact ⟨_, rfl⟩
  · next hn =>
    rcases h with h | ⟨c, hc, hp⟩
    · exact absurd h hn
    · apply mergeLoop_error
      intro hall
      have := (hall c hc).1
      rw [hp] at this; cases this

/-- **C50, .diam files.** The claim is false for .diam files: they carry no perimeter, and merging any list of files
that contains one fails. -/
theorem C50_diam_counterexample (f : DiamFile) (c : Count) (hc : readDiam f = .ok c) (l : List Count) (hl : c ∈ l) :
    ∃ e, mergeCounts l = .error e := by
  have hper : c.perimeter = Option.none := by
    cases hr : f.referenceArea with
    | none => exact (C12_diam f c hr hc).2.2.2.2.2
    | some r => exact (C12_diam_buffered f c r hr hc).2.2.2.2.2
  unfold mergeCounts
  split
  · exact ⟨_, rfl⟩
  · apply mergeLoop_error
    intro hall
    have := (hall c hl).2
    rw [hper] at this; cases this

example : ∃ c, readDiam ⟨[3, 1, 2], Option.none, Option.none, some 5⟩ = .ok c :=
  C12_diam_accepted _ rfl 5 rfl (by simp) (by simp)

example : ∃ c₁ c₂, readScc ⟨[3, 1], Option.none, 100, some 40⟩ = .ok c₁ ∧ readScc ⟨[2], Option.none, 50, some 30⟩ = .ok c₂ ∧
    ∀ c ∈ [c₁, c₂], c.prebinned = false ∧ c.perimeter.isSome := by
  obtain ⟨c₁, h1⟩ := C12_scc_accepted ⟨[3, 1], Option.none, 100, some 40⟩ (by simp)
  obtain ⟨c₂, h2⟩ := C12_scc_accepted ⟨[2], Option.none, 50, some 30⟩ (by simp)
  refine ⟨c₁, c₂, h1, h2, ?_⟩
  have key : ∀ f c, readScc f = .ok c → c.prebinned = false ∧ c.perimeter = f.perimeter := by
    intro f c h
    unfold readScc at h
    obtain ⟨cr, h1, h2⟩ := except_bind_eq_ok h
    rw [← Except.ok.inj h2]; exact ⟨rfl, rfl⟩
  intro c hc
  simp only [List.mem_cons, List.not_mem_nil, or_false] at hc
  rcases hc with rfl | rfl
  · obtain ⟨a, b⟩ := key _ _ h1; exact ⟨a, by rw [b]; rfl⟩
  · obtain ⟨a, b⟩ := key _ _ h2; exact ⟨a, by rw [b]; rfl⟩

end

end Verif.Props
