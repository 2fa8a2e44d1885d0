import Verif.Py.Num
import Verif.Spec.Counting

/-! Lemmas on `histogram`. -/

namespace Verif.Py

variable {K W : Type*} [LinearOrder K]

theorem filter_map_sum [AddCommMonoid W] {α : Type*} (p : α → Bool) (f : α → W) (xs : List α) :
    ((xs.filter p).map f).sum = (xs.map (fun x => if p x then f x else 0)).sum := by
  induction xs with
  | nil => simp
  | cons x xs ih =>
    by_cases h : p x
    · simp [h, ih]
    · simp [h, ih]

@[simp] theorem histogram_length [AddMonoid W] (xs : List (K × W)) (edges : List K) :
    (histogram xs edges).length = edges.length - 1 := by
  induction edges with
  | nil => simp [histogram]
  | cons a l ih =>
    cases l with
    | nil => simp [histogram]
    | cons b es => simp [histogram, ih]

theorem histogram_drop [AddMonoid W] (xs : List (K × W)) (edges : List K) (i : ℕ) :
    (histogram xs edges).drop i = histogram xs (edges.drop i) := by
  induction i generalizing edges with
  | zero => simp
  | succ i ih =>
    cases edges with
    | nil => simp [histogram]
    | cons a l =>
      cases l with
      | nil => simp [histogram]
      | cons b es => simp [histogram, ih]

theorem histogram_getElem [AddMonoid W] (xs : List (K × W)) (edges : List K) (i : ℕ)
    (h : i + 1 < edges.length) (h' : i < (histogram xs edges).length) :
    (histogram xs edges)[i] =
      ((xs.filter (fun p => inBin edges[i] edges[i + 1] (decide (i + 2 = edges.length)) p.1)).map Prod.snd).sum := by
  induction edges generalizing i with
  | nil => simp at h
  | cons a l ih =>
    cases l with
    | nil => simp at h
    | cons b es =>
      cases i with
      | zero =>
        simp only [histogram, List.getElem_cons_zero, List.getElem_cons_succ, List.length_cons]
        have : es.isEmpty = decide (0 + 2 = es.length + 1 + 1) := by
          cases es <;> simp
        rw [this]
      | succ i =>
        simp only [histogram, List.getElem_cons_succ]
        rw [ih i (by simpa using h)]
        simp [List.length_cons]

/-- if everything lies strictly below the last boundary, all bins are half-open -/
theorem histogram_getElem_lt [AddMonoid W] (xs : List (K × W)) (edges : List K) (hs : edges.Pairwise (· < ·))
    (i : ℕ) (h : i + 1 < edges.length) (h' : i < (histogram xs edges).length)
    (hlast : ∀ p ∈ xs, p.1 < edges[edges.length - 1]) :
    (histogram xs edges)[i] =
      ((xs.filter (fun p => decide (edges[i] ≤ p.1 ∧ p.1 < edges[i + 1]))).map Prod.snd).sum := by
  rw [histogram_getElem xs edges i h]
  congr 2
  apply List.filter_congr
  intro p hp
  unfold inBin
  by_cases e : i + 2 = edges.length
  · have e' : edges.length - 1 = i + 1 := by omega
    have := hlast p hp
    simp only [e'] at this
    simp [e, this, this.ne]
  · simp [e]

/-- sum over all bins = weight between the first and the last boundary -/
theorem histogram_sum [AddCommMonoid W] (xs : List (K × W)) (edges : List K) (hs : edges.Pairwise (· < ·))
    (hl : 2 ≤ edges.length) :
    (histogram xs edges).sum =
      ((xs.filter (fun p => decide (edges[0] ≤ p.1 ∧ p.1 ≤ edges[edges.length - 1]))).map Prod.snd).sum := by
  induction edges with
  | nil => simp at hl
  | cons a l ih =>
    cases l with
    | nil => simp at hl
    | cons b es =>
      cases es with
      | nil =>
        have hab : a < b := by simpa using hs
        simp only [histogram, List.sum_cons, List.sum_nil, add_zero]
        congr 2
        apply List.filter_congr
        intro p _
        simp only [inBin, List.isEmpty_nil, Bool.true_and, List.getElem_cons_zero, List.length_cons,
          List.length_nil, Nat.add_one_sub_one, List.getElem_cons_succ]
        simp [le_iff_lt_or_eq]
      | cons c es =>
        have hs' := (List.pairwise_cons.1 hs).2
        have hab : a < b := (List.pairwise_cons.1 hs).1 b (by simp)
        have hbl : b ≤ (b :: c :: es)[(b :: c :: es).length - 1] :=
          getElem_mono' (l := b :: c :: es) hs' (i := 0) (j := (b :: c :: es).length - 1) (by omega) (by simp)
        rw [histogram, List.sum_cons, ih hs' (by simp), filter_map_sum, filter_map_sum, filter_map_sum,
          ← List.sum_map_add]
        congr 1
        apply List.map_congr_left
        intro p _
        have elast : (a :: b :: c :: es)[(a :: b :: c :: es).length - 1] =
            (b :: c :: es)[(b :: c :: es).length - 1] := by simp
        rw [elast]
        generalize (b :: c :: es)[(b :: c :: es).length - 1] = z at *
        simp only [inBin, List.isEmpty_cons, Bool.false_and, Bool.or_false, List.getElem_cons_zero,
          Bool.and_eq_true, decide_eq_true_eq]
        by_cases h1 : a ≤ p.1
        · by_cases h2 : p.1 < b
          · have h3 : ¬ (b ≤ p.1) := not_le.2 h2
            have h4 : p.1 ≤ z := h2.le.trans hbl
            simp [h1, h2, h3, h4]
          · have h3 : b ≤ p.1 := not_lt.1 h2
            simp [h1, h2, h3]
        · have h3 : ¬ (b ≤ p.1) := fun h => h1 (hab.le.trans h)
          simp [h1, h3]
where
  getElem_mono' {l : List K} (h : l.Pairwise (· < ·)) {i j : ℕ} (hij : i ≤ j) (hj : j < l.length) :
      l[i] ≤ l[j] := by
    rcases hij.eq_or_lt with e | e
    · subst e; exact le_rfl
    · exact (List.pairwise_iff_getElem.1 h _ _ _ hj e).le

/-- suffix sums of the histogram: weight at or above the boundary -/
theorem histogram_suffix [AddCommMonoid W] (xs : List (K × W)) (edges : List K) (hs : edges.Pairwise (· < ·))
    (i : ℕ) (h : i + 1 < edges.length) (hlast : ∀ p ∈ xs, p.1 < edges[edges.length - 1]) :
    ((histogram xs edges).drop i).sum = ((xs.filter (fun p => decide (edges[i] ≤ p.1))).map Prod.snd).sum := by
  rw [histogram_drop, histogram_sum _ _ (hs.sublist (List.drop_sublist _ _)) (by simp; omega)]
  congr 2
  apply List.filter_congr
  intro p hp
  have h1 : (edges.drop i)[0]'(by simp; omega) = edges[i] := by simp
  have h2 : (edges.drop i)[(edges.drop i).length - 1]'(by simp; omega) = edges[edges.length - 1] := by
    simp only [List.getElem_drop, List.length_drop]
    congr 1; omega
  rw [h1, h2]
  have := (hlast p hp).le
  simp [this]

theorem histogram_perm [AddCommMonoid W] {xs ys : List (K × W)} (h : xs.Perm ys) (edges : List K) :
    histogram xs edges = histogram ys edges := by
  induction edges with
  | nil => simp [histogram]
  | cons a l ih =>
    cases l with
    | nil => simp [histogram]
    | cons b es =>
      simp only [histogram, ih]
      congr 1
      exact ((h.filter _).map _).sum_eq

end Verif.Py
