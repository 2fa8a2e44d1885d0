import Verif.Model.SequencePlot
import Verif.Props.EpochPlot
import Verif.Props.AgeArea

/-! C119: the time axis of sequence and uncertainty plots; C120: epochs on sequence plots. -/

namespace Verif.Props
open Verif.Py Verif.Text Verif.Cratercount Verif.Plotting Verif.Epochs Verif.EpochPlot Verif.SequencePlot

noncomputable section

/-! ### C119 -/

theorem axis_crossover {fuel : ℕ} {xa xb : ℝ} {a : TimeAxis} (h : timeAxis fuel xa xb = some (.ok a)) :
    (a.crossover = true → 0 < a.tMin ∧ a.tMin < a.tCrossover ∧ 0 ≤ a.xfracLinear ∧ a.xfracLinear < 1 ∧
      (a.xfracLinear = 0 ↔ a.tMax = a.tCrossover)) ∧
    (a.crossover = false → a.tCrossover = a.tMin ∧ a.xfracLinear = 1) := by
  have g := goodAxis h
  have key : (a.crossover = true → a.tCrossover = 3 ∧ a.tMin < 1) ∧ (a.crossover = false → a.tCrossover = a.tMin ∧ a.xfracLinear = 1) := by
    unfold timeAxis at h
    dsimp only at h
    split_ifs at h with h1 h2 h4
    · cases h
    · cases h
    · simp only [Option.some.injEq, Except.ok.injEq] at h
      have hpos : 0 < clip (min xa xb) 0 (clip (max xa xb) 3 4.5 - 0.1) :=
        lt_of_le_of_ne (le_min (by
          have : (3 : ℝ) ≤ clip (max xa xb) 3 4.5 := le_min (by norm_num) (le_max_right _ _)
          norm_num; linarith) (le_max_right _ _)) (Ne.symm h1.2)
      subst h
      refine ⟨fun _ => ⟨rfl, lt_of_le_of_lt ?_ h1.1⟩, fun h => by cases h⟩
      conv_rhs => rw [← pow10_log10 hpos]
      rw [← Real.rpow_intCast]
      exact pow10_le.2 (Int.floor_le _)
    · revert h
      split
      · intro h; cases h
      · intro h; cases h
      · split
        · intro h; cases h
        · intro h
          split_ifs at h
          · cases h
          · simp only [Option.some.injEq, Except.ok.injEq] at h
            subst h
            exact ⟨fun h => (by cases h), fun _ => ⟨rfl, by norm_num⟩⟩
  refine ⟨fun hc => ?_, key.2⟩
  obtain ⟨k1, k2⟩ := key.1 hc
  rcases g.cases with k | ⟨k, _⟩
  · exact k
  · rw [k] at k1; linarith

/-- **C119: one axis from two.**  The linear and the logarithmic part of the time axis together show every age between the limits of the
plot at exactly one place: older ages further left, the oldest at the left margin, the youngest at the right margin, and no part of the
width without an age. -/
theorem C119_time_axis (fuel : ℕ) (xa xb : ℝ) (a : TimeAxis) (h : timeAxis fuel xa xb = some (.ok a)) (xsize margin : ℝ)
    (hs : 2 * margin < xsize) :
    ∃ X : ℝ → ℝ,
      (∀ p ∈ timePanels xsize margin a, 0 < p.width → a.tMin ≤ p.young ∧ p.old ≤ a.tMax ∧ ∀ t, p.young ≤ t → t ≤ p.old → p.pos t = X t) ∧
      (∀ t, a.tMin ≤ t → t ≤ a.tMax → ∃ p ∈ timePanels xsize margin a, 0 < p.width ∧ p.young ≤ t ∧ t ≤ p.old) ∧
      (∀ s t, a.tMin ≤ s → s < t → t ≤ a.tMax → X t < X s) ∧ X a.tMax = margin ∧ X a.tMin = xsize - margin ∧
      ∀ x, margin ≤ x → x ≤ xsize - margin → ∃ t, a.tMin ≤ t ∧ t ≤ a.tMax ∧ X t = x := by
  have g := goodAxis h
  obtain ⟨g1, g2⟩ := axis_crossover h
  have hlt := g.lt
  have hW : 0 < xsize - margin * 2 := by linarith
  generalize hWd : xsize - margin * 2 = W at hW
  cases hc : a.crossover with
  | false =>
    obtain ⟨e1, e2⟩ := g2 hc
    have hp : timePanels xsize margin a = [linearPanel xsize margin a] := by simp [timePanels, hc]
    have hL : linearPanel xsize margin a = ⟨margin, W, a.tMax, a.tMin, false⟩ := by
      simp only [linearPanel, e1, e2, one_mul, if_pos hlt, hWd]
    rw [hp, hL]
    have hd : 0 < a.tMax - a.tMin := by linarith
    refine ⟨fun t => margin + W * ((a.tMax - t) / (a.tMax - a.tMin)), ?_, ?_, ?_, ?_, ?_, ?_⟩
    · intro p hp hw
      rw [List.mem_singleton] at hp
      subst hp
      exact ⟨le_refl _, le_refl _, fun t _ _ => by simp [Panel.pos]⟩
    · intro t h1 h2
      exact ⟨_, List.mem_singleton.2 rfl, hW, h1, h2⟩
    · intro s t _ hst _
      have : (a.tMax - t) / (a.tMax - a.tMin) < (a.tMax - s) / (a.tMax - a.tMin) := div_lt_div_of_pos_right (by linarith) hd
      dsimp only
      nlinarith
    · dsimp only; simp
    · dsimp only; rw [div_self hd.ne']; linarith
    · intro x hx0 hx1
      refine ⟨a.tMax - (x - margin) / W * (a.tMax - a.tMin), ?_, ?_, ?_⟩
      · have : (x - margin) / W ≤ 1 := by rw [div_le_one hW]; linarith
        nlinarith
      · have : 0 ≤ (x - margin) / W := div_nonneg (by linarith) hW.le
        nlinarith
      · dsimp only
        rw [sub_sub_cancel, mul_div_assoc, div_self hd.ne', mul_one, mul_div_assoc', mul_div_cancel_left₀ _ hW.ne']
        ring
  | true =>
    obtain ⟨e1, e2, e3, e4, e5⟩ := g1 hc
    have hcl := g.cross_le
    have hc0 : 0 < a.tCrossover := e1.trans e2
    have hp : timePanels xsize margin a = [linearPanel xsize margin a, logPanel xsize margin a] := by simp [timePanels, hc]
    have hl : 0 < log10 a.tCrossover - log10 a.tMin := sub_pos.2 ((log10_lt e1 hc0).2 e2)
    have hG : logPanel xsize margin a = ⟨margin + a.xfracLinear * W, (1 - a.xfracLinear) * W, a.tCrossover, a.tMin, true⟩ := by
      simp only [logPanel, hWd, pow10_log10 e1]
    have hL : linearPanel xsize margin a = ⟨margin, a.xfracLinear * W, if a.tCrossover < a.tMax then a.tMax else a.tCrossover + 0.1,
        a.tCrossover, false⟩ := by
      simp only [linearPanel, hWd]
    rw [hp, hL, hG]
    have hgw : 0 < (1 - a.xfracLinear) * W := mul_pos (by linarith) hW
    generalize hf : a.xfracLinear = f at *
    -- the linear part has a width exactly if there are ages for it
    have hlin : 0 < f * W ↔ a.tCrossover < a.tMax := by
      constructor
      · intro hw
        have hfp : f ≠ 0 := by rintro rfl; simp at hw
        exact lt_of_le_of_ne hcl (fun hh => hfp (e5.2 hh.symm))
      · intro hh
        have hfp : f ≠ 0 := fun h0 => hh.ne' (e5.1 h0)
        exact mul_pos (lt_of_le_of_ne e3 (Ne.symm hfp)) hW
    have hXlog : ∀ s t, a.tMin ≤ s → s < t →
        margin + f * W + (1 - f) * W * ((log10 a.tCrossover - log10 t) / (log10 a.tCrossover - log10 a.tMin)) <
        margin + f * W + (1 - f) * W * ((log10 a.tCrossover - log10 s) / (log10 a.tCrossover - log10 a.tMin)) := by
      intro s t hs1 hst
      have h1 : log10 s < log10 t := (log10_lt (lt_of_lt_of_le e1 hs1) (lt_trans (lt_of_lt_of_le e1 hs1) hst)).2 hst
      have : (log10 a.tCrossover - log10 t) / (log10 a.tCrossover - log10 a.tMin) <
          (log10 a.tCrossover - log10 s) / (log10 a.tCrossover - log10 a.tMin) := div_lt_div_of_pos_right (by linarith) hl
      nlinarith
    refine ⟨fun t => if a.tCrossover < t then margin + f * W * ((a.tMax - t) / (a.tMax - a.tCrossover))
      else margin + f * W + (1 - f) * W * ((log10 a.tCrossover - log10 t) / (log10 a.tCrossover - log10 a.tMin)), ?_, ?_, ?_, ?_, ?_, ?_⟩
    · intro p hp hw
      rcases List.mem_cons.1 hp with rfl | hp
      · dsimp only at hw
        have hh := hlin.1 hw
        have hd : 0 < a.tMax - a.tCrossover := by linarith
        simp only [if_pos hh]
        refine ⟨e2.le, le_refl _, fun t h1 h2 => ?_⟩
        simp only [Panel.pos, Bool.false_eq_true, if_false]
        rcases h1.lt_or_eq with h1 | rfl
        · rw [if_pos h1]
        · rw [if_neg (lt_irrefl _), div_self hd.ne', sub_self, zero_div]; ring
      · rw [List.mem_singleton] at hp
        subst hp
        refine ⟨le_refl _, hcl, fun t h1 h2 => ?_⟩
        simp only [Panel.pos, if_true]
        rw [if_neg (not_lt.2 h2)]
    · intro t h1 h2
      by_cases ht : a.tCrossover < t
      · have hh : a.tCrossover < a.tMax := lt_of_lt_of_le ht h2
        refine ⟨_, List.mem_cons_self .., hlin.2 hh, ht.le, ?_⟩
        dsimp only
        rw [if_pos hh]; exact h2
      · exact ⟨_, List.mem_cons_of_mem _ (List.mem_singleton.2 rfl), hgw, h1, not_lt.1 ht⟩
    · intro s t hs1 hst ht
      dsimp only
      by_cases hs2 : a.tCrossover < s
      · rw [if_pos hs2, if_pos (hs2.trans hst)]
        have hh : a.tCrossover < a.tMax := by linarith
        have : (a.tMax - t) / (a.tMax - a.tCrossover) < (a.tMax - s) / (a.tMax - a.tCrossover) :=
          div_lt_div_of_pos_right (by linarith) (by linarith)
        have := hlin.2 hh
        nlinarith
      · rw [if_neg hs2]
        by_cases ht2 : a.tCrossover < t
        · rw [if_pos ht2]
          have hh : a.tCrossover < a.tMax := by linarith
          have h1 : (a.tMax - t) / (a.tMax - a.tCrossover) < 1 := by rw [div_lt_one (by linarith)]; linarith
          have h2 := hlin.2 hh
          have h3 : 0 ≤ (log10 a.tCrossover - log10 s) / (log10 a.tCrossover - log10 a.tMin) := by
            refine div_nonneg (sub_nonneg.2 ?_) hl.le
            exact (log10_le (lt_of_lt_of_le e1 hs1) hc0).2 (not_lt.1 hs2)
          nlinarith [mul_nonneg hgw.le h3]
        · rw [if_neg ht2]
          exact hXlog s t hs1 hst
    · dsimp only
      by_cases hh : a.tCrossover < a.tMax
      · rw [if_pos hh]; simp
      · have : a.tMax = a.tCrossover := le_antisymm (not_lt.1 hh) hcl
        rw [if_neg hh, this, sub_self, zero_div, e5.2 this]; ring
    · dsimp only
      rw [if_neg (not_lt.2 e2.le), div_self hl.ne']
      linarith
    · intro x hx0 hx1
      by_cases hx : x < margin + f * W
      · have hw : 0 < f * W := by linarith
        have hh := hlin.1 hw
        have hd : 0 < a.tMax - a.tCrossover := by linarith
        have q0 : 0 ≤ (x - margin) / (f * W) := div_nonneg (by linarith) hw.le
        have q1 : (x - margin) / (f * W) < 1 := by rw [div_lt_one hw]; linarith
        have hgt : a.tCrossover < a.tMax - (x - margin) / (f * W) * (a.tMax - a.tCrossover) := by nlinarith
        refine ⟨_, (e2.trans hgt).le, ?_, ?_⟩
        · nlinarith
        · dsimp only
          rw [if_pos hgt, sub_sub_cancel, mul_div_assoc, div_self hd.ne', mul_one, mul_div_assoc', mul_div_cancel_left₀ _ hw.ne']
          ring
      · have q0 : 0 ≤ (x - (margin + f * W)) / ((1 - f) * W) := div_nonneg (by linarith) hgw.le
        have q1 : (x - (margin + f * W)) / ((1 - f) * W) ≤ 1 := by rw [div_le_one hgw]; linarith
        generalize hq : (x - (margin + f * W)) / ((1 - f) * W) = q at q0 q1
        have hxq : x = margin + f * W + (1 - f) * W * q := by
          rw [← hq, mul_div_assoc', mul_div_cancel_left₀ _ hgw.ne']; ring
        have hpw : 0 < (10 : ℝ) ^ (log10 a.tCrossover - q * (log10 a.tCrossover - log10 a.tMin)) := Real.rpow_pos_of_pos (by norm_num) _
        have hlg : log10 ((10 : ℝ) ^ (log10 a.tCrossover - q * (log10 a.tCrossover - log10 a.tMin))) =
            log10 a.tCrossover - q * (log10 a.tCrossover - log10 a.tMin) := log10_pow10 _
        have hle : (10 : ℝ) ^ (log10 a.tCrossover - q * (log10 a.tCrossover - log10 a.tMin)) ≤ a.tCrossover := by
          rw [← log10_le hpw hc0, hlg]; nlinarith
        have hge : a.tMin ≤ (10 : ℝ) ^ (log10 a.tCrossover - q * (log10 a.tCrossover - log10 a.tMin)) := by
          rw [← log10_le e1 hpw, hlg]; nlinarith
        refine ⟨_, hge, hle.trans hcl, ?_⟩
        dsimp only
        rw [if_neg (not_lt.2 hle), hlg, sub_sub_cancel, mul_div_assoc, div_self hl.ne', mul_one]
        exact hxq.symm

/-- a plot from 0.02 to 4 Ga: both parts are there, the linear one from 4 to 3 Ga -/
example : timeAxis 0 0.02 4 = some (.ok ⟨(10 : ℝ) ^ ⌊log10 (0.02 : ℝ)⌋, 4, true, 3,
    (1 / 0.7) / (1 / 0.7 + (log10 3 - log10 ((10 : ℝ) ^ ⌊log10 (0.02 : ℝ)⌋))), 5, [3, 3.5, 4]⟩) := by
  have h1 : max (0.02 : ℝ) 4 = 4 := by norm_num
  have h2 : min (0.02 : ℝ) 4 = 0.02 := by norm_num
  have h3 : clip (4 : ℝ) 3 4.5 = 4 := by norm_num [clip]
  have h4 : clip (0.02 : ℝ) 0 (4 - 0.1) = 0.02 := by norm_num [clip]
  have h5 : ([3, 3.5, 4] : List ℝ).filter (fun e => decide (e ≤ 4)) = [3, 3.5, 4] := by
    rw [List.filter_eq_self]; intro x hx; simp at hx; rcases hx with rfl | rfl | rfl <;> norm_num
  have hz : (10 : ℝ) ^ ⌊log10 (0.02 : ℝ)⌋ ≤ 0.02 := by
    conv_rhs => rw [← pow10_log10 (show (0 : ℝ) < 0.02 by norm_num)]
    rw [← Real.rpow_intCast]
    exact pow10_le.2 (Int.floor_le _)
  have hl : log10 ((10 : ℝ) ^ ⌊log10 (0.02 : ℝ)⌋) < log10 3 := (log10_lt (by positivity) (by norm_num)).2 (by linarith)
  unfold timeAxis
  simp only [h1, h2, h3, h4, h5]
  rw [if_pos (by norm_num), if_neg (by simp), if_neg ?_]
  · norm_num
  · rw [max_eq_left (by norm_num)]
    norm_num
    linarith

/-! ### C120 -/

/-- Specification: initials.  A name of one word is shown by its first letter, one of two words (separated by a space or a hyphen) by
the first letter of the first in lower case and that of the second. -/
theorem nameParts_word : ∀ (w : List Char), (∀ c ∈ w, c ≠ ' ' ∧ c ≠ '-') → nameParts w = [w]
  | [], _ => rfl
  | c :: w, h => by
    rw [nameParts, if_neg (by have := h c (by simp); tauto), nameParts_word w (fun x hx => h x (by simp [hx]))]

theorem nameParts_two : ∀ (w : List Char) (c : Char) (v : List Char), (∀ c ∈ w, c ≠ ' ' ∧ c ≠ '-') → (c = ' ' ∨ c = '-') →
    nameParts (w ++ c :: v) = w :: nameParts v
  | [], c, v, _, hc => by rw [List.nil_append, nameParts, if_pos hc]
  | x :: w, c, v, h, hc => by
    rw [List.cons_append, nameParts, if_neg (by have := h x (by simp); tauto), nameParts_two w c v (fun y hy => h y (by simp [hy])) hc]

/-- **C120: abbreviations.** -/
theorem C120_abbreviation (lower : Char → List Char) (w v : List Char) (hw : ∀ c ∈ w, c ≠ ' ' ∧ c ≠ '-') (hv : ∀ c ∈ v, c ≠ ' ' ∧ c ≠ '-')
    (x y : Char) (sep : Char) (hs : sep = ' ' ∨ sep = '-') (hx : w.head? = some x) (hy : v.head? = some y) :
    abbreviated lower w = .ok [x] ∧ abbreviated lower (w ++ sep :: v) = .ok (lower x ++ [y]) := by
  cases w with
  | nil => cases hx
  | cons a w =>
    cases v with
    | nil => cases hy
    | cons b v =>
      simp only [List.head?_cons, Option.some.injEq] at hx hy
      subst hx hy
      unfold abbreviated
      rw [nameParts_two _ _ _ hw hs, nameParts_word _ hw, nameParts_word _ hv]
      exact ⟨rfl, rfl⟩

example : abbreviated (fun c => [c.toLower]) "Late Imbrian".toList = .ok "lI".toList ∧
    abbreviated (fun c => [c.toLower]) "Pre-Nectarian".toList = .ok "pN".toList ∧
    abbreviated (fun c => [c.toLower]) "Nectarian".toList = .ok "N".toList := by
  refine ⟨rfl, rfl, rfl⟩

theorem split_times {l : List ℝ} (h : l.Pairwise (· < ·)) (v : ℝ) : ∃ A B, l = A ++ B ∧ (∀ x ∈ A, x ≤ v) ∧ ∀ x ∈ B, v < x := by
  induction l with
  | nil => exact ⟨[], [], rfl, by simp, by simp⟩
  | cons x l ih =>
    rw [List.pairwise_cons] at h
    by_cases hx : x ≤ v
    · obtain ⟨A, B, rfl, hA, hB⟩ := ih h.2
      exact ⟨x :: A, B, rfl, by simpa using ⟨hx, hA⟩, hB⟩
    · refine ⟨[], x :: l, rfl, by simp, ?_⟩
      intro y hy
      rcases List.mem_cons.1 hy with rfl | hy
      · exact not_le.1 hx
      · exact (not_le.1 hx).trans (h.1 y hy)

/-- the list of limits, written out -/
theorem limits_eq {time : List ℝ} {a : TimeAxis} (hsort : time.Pairwise (· < ·)) (hlt : a.tMin < a.tMax) :
    ∃ A B C, time = A ++ (B ++ C) ∧ (∀ x ∈ A, x ≤ a.tMin) ∧ (∀ x ∈ B, a.tMin < x ∧ x ≤ a.tMax) ∧ (∀ x ∈ C, a.tMax < x) ∧
      limits time a = (A ++ a.tMin :: (B ++ a.tMax :: C)).drop 1 := by
  obtain ⟨A, D, rfl, hA, hD⟩ := split_times hsort a.tMin
  obtain ⟨B, C, rfl, hB, hC⟩ := split_times (List.pairwise_append.1 hsort).2.1 a.tMax
  have hB' : ∀ x ∈ B, a.tMin < x ∧ x ≤ a.tMax := fun x hx => ⟨hD x (by simp [hx]), hB x hx⟩
  refine ⟨A, B, C, rfl, hA, hB', hC, ?_⟩
  unfold limits
  congr 1
  have hs2 : (A ++ a.tMin :: (B ++ a.tMax :: C)).Pairwise (· ≤ ·) := by
    have s1 := List.pairwise_append.1 hsort
    have s2 := List.pairwise_append.1 s1.2.1
    have ws : ∀ {l : List ℝ}, l.Pairwise (· < ·) → l.Pairwise (· ≤ ·) := fun h => h.imp (fun h => le_of_lt h)
    rw [List.pairwise_append]
    refine ⟨ws s1.1, ?_, ?_⟩
    · rw [List.pairwise_cons]
      refine ⟨?_, ?_⟩
      · intro x hx
        rcases List.mem_append.1 hx with hx | hx
        · exact (hB' x hx).1.le
        · rcases List.mem_cons.1 hx with rfl | hx
          · exact hlt.le
          · exact (hlt.trans (hC x hx)).le
      · rw [List.pairwise_append]
        refine ⟨ws s2.1, ?_, ?_⟩
        · rw [List.pairwise_cons]
          exact ⟨fun x hx => (hC x hx).le, ws s2.2.1⟩
        · intro x hx y hy
          rcases List.mem_cons.1 hy with rfl | hy
          · exact (hB' x hx).2
          · exact ((hB' x hx).2.trans_lt (hC y hy)).le
    · intro x hx y hy
      rcases List.mem_cons.1 hy with rfl | hy
      · exact hA x hx
      · rcases List.mem_append.1 hy with hy | hy
        · exact (hA x hx).trans (hB' y hy).1.le
        · rcases List.mem_cons.1 hy with rfl | hy
          · exact (hA x hx).trans hlt.le
          · exact (hA x hx).trans (hlt.trans (hC y hy)).le
  have hs1 : ((A ++ (B ++ C) ++ [a.tMin, a.tMax]).mergeSort (fun x y => decide (x ≤ y))).Pairwise (· ≤ ·) := by
    have := List.pairwise_mergeSort (le := fun x y : ℝ => decide (x ≤ y)) (fun x y z h1 h2 => by
      simp only [decide_eq_true_eq] at *; exact h1.trans h2) (fun x y => by
      simp only [Bool.or_eq_true, decide_eq_true_eq]; exact le_total x y) (A ++ (B ++ C) ++ [a.tMin, a.tMax])
    exact this.imp (fun h => by simpa using h)
  refine List.Perm.eq_of_pairwise (fun x y _ _ h1 h2 => le_antisymm h1 h2) hs1 hs2 ?_
  refine (List.mergeSort_perm _ _).trans ?_
  rw [List.append_assoc]
  refine List.Perm.append_left A ?_
  exact List.perm_append_comm.trans (List.Perm.cons a.tMin
    (show (a.tMax :: (B ++ C)).Perm (B ++ a.tMax :: C) from List.perm_middle.symm))

/-- the limits of an epoch, cut at the ends of the axis: `x`, `y`; or both are beyond an end -/
theorem limits_spec {time : List ℝ} {a : TimeAxis} (hsort : time.Pairwise (· < ·)) (h0 : ∃ z, time[0]? = some z ∧ z ≤ a.tMin)
    (hlt : a.tMin < a.tMax) (i : ℕ) (s : ℝ) (hs : time[i]? = some s) :
    ∃ x y, (limits time a)[i]? = some x ∧ (limits time a)[i + 1]? = some y ∧
      ((x ≤ a.tMin ∧ y ≤ a.tMin ∧ ∃ e, time[i + 1]? = some e ∧ e ≤ a.tMin) ∨
       (a.tMax ≤ x ∧ a.tMax ≤ y ∧ a.tMax < s) ∨
       (x = max s a.tMin ∧ s ≤ a.tMax ∧ ((∃ e, time[i + 1]? = some e ∧ a.tMin < e ∧ y = min e a.tMax) ∨ (time[i + 1]? = none ∧ y = a.tMax)))) := by
  obtain ⟨A, B, C, rfl, hA, hB, hC, hL⟩ := limits_eq hsort hlt
  obtain ⟨z, hz, hz0⟩ := h0
  have hAne : 0 < A.length := by
    rcases Nat.eq_zero_or_pos A.length with h | h
    · exfalso
      rw [List.length_eq_zero_iff] at h
      subst h
      rw [List.nil_append] at hz
      have : z ∈ B ++ C := List.mem_of_getElem? hz
      rcases List.mem_append.1 this with h | h
      · linarith [(hB z h).1]
      · linarith [hC z h]
    · exact h
  have hget : ∀ k, (limits (A ++ (B ++ C)) a)[k]? = (A ++ a.tMin :: (B ++ a.tMax :: C))[k + 1]? := by
    intro k; rw [hL, List.getElem?_drop, Nat.add_comm]
  -- the elements of the list of limits
  have gA : ∀ k, k < A.length → (A ++ a.tMin :: (B ++ a.tMax :: C))[k]? = A[k]? := fun k hk => List.getElem?_append_left hk
  have gm : (A ++ a.tMin :: (B ++ a.tMax :: C))[A.length]? = some a.tMin := by
    rw [List.getElem?_append_right (le_refl _), Nat.sub_self, List.getElem?_cons_zero]
  have gB : ∀ k, k < B.length → (A ++ a.tMin :: (B ++ a.tMax :: C))[A.length + 1 + k]? = B[k]? := by
    intro k hk
    rw [List.getElem?_append_right (by omega), show A.length + 1 + k - A.length = k + 1 by omega, List.getElem?_cons_succ,
      List.getElem?_append_left hk]
  have gM : (A ++ a.tMin :: (B ++ a.tMax :: C))[A.length + 1 + B.length]? = some a.tMax := by
    rw [List.getElem?_append_right (by omega), show A.length + 1 + B.length - A.length = B.length + 1 by omega, List.getElem?_cons_succ,
      List.getElem?_append_right (le_refl _), Nat.sub_self, List.getElem?_cons_zero]
  have gC : ∀ k, (A ++ a.tMin :: (B ++ a.tMax :: C))[A.length + 1 + B.length + 1 + k]? = C[k]? := by
    intro k
    rw [List.getElem?_append_right (by omega), show A.length + 1 + B.length + 1 + k - A.length = (B.length + 1 + k) + 1 by omega,
      List.getElem?_cons_succ, List.getElem?_append_right (by omega), show B.length + 1 + k - B.length = k + 1 by omega, List.getElem?_cons_succ]
  -- the elements of the list of boundaries
  have tA : ∀ k, k < A.length → (A ++ (B ++ C))[k]? = A[k]? := fun k hk => List.getElem?_append_left hk
  have tB : ∀ k, k < B.length → (A ++ (B ++ C))[A.length + k]? = B[k]? := by
    intro k hk
    rw [List.getElem?_append_right (by omega), show A.length + k - A.length = k by omega, List.getElem?_append_left hk]
  have tC : ∀ k, (A ++ (B ++ C))[A.length + B.length + k]? = C[k]? := by
    intro k
    rw [List.getElem?_append_right (by omega), show A.length + B.length + k - A.length = B.length + k by omega,
      List.getElem?_append_right (by omega), show B.length + k - B.length = k by omega]
  rw [hget, hget]
  -- what follows the boundaries up to the beginning of the axis
  have next : ∀ j, j ≤ B.length → ∃ y, (A ++ a.tMin :: (B ++ a.tMax :: C))[A.length + 1 + j]? = some y ∧
      ((∃ e, (A ++ (B ++ C))[A.length + j]? = some e ∧ a.tMin < e ∧ y = min e a.tMax) ∨
        ((A ++ (B ++ C))[A.length + j]? = none ∧ y = a.tMax)) := by
    intro j hj
    rcases hj.lt_or_eq with hj | rfl
    · have hb := hB _ (List.getElem_mem hj)
      refine ⟨B[j], by rw [gB j hj, List.getElem?_eq_getElem hj], Or.inl ⟨B[j], by rw [tB j hj, List.getElem?_eq_getElem hj], hb.1, ?_⟩⟩
      rw [min_eq_left hb.2]
    · refine ⟨a.tMax, gM, ?_⟩
      have := tC 0
      rw [Nat.add_zero] at this
      rw [this]
      cases hc : C[0]? with
      | none => exact Or.inr ⟨rfl, rfl⟩
      | some e =>
        have he := hC e (List.mem_of_getElem? hc)
        exact Or.inl ⟨e, rfl, hlt.trans he, by rw [min_eq_right he.le]⟩
  rcases Nat.lt_or_ge i A.length with hi | hi
  · have hsA : s ≤ a.tMin := hA s (by rw [tA i hi] at hs; exact List.mem_of_getElem? hs)
    rcases Nat.lt_or_ge (i + 1) A.length with hi1 | hi1
    · -- the next boundary is not later than the beginning
      have e1 := hA _ (List.getElem_mem hi1)
      have hx : (A ++ a.tMin :: (B ++ a.tMax :: C))[i + 1]? = some A[i + 1] := by rw [gA _ hi1, List.getElem?_eq_getElem hi1]
      have hte : (A ++ (B ++ C))[i + 1]? = some A[i + 1] := by rw [tA _ hi1, List.getElem?_eq_getElem hi1]
      rcases Nat.lt_or_ge (i + 1 + 1) A.length with hi2 | hi2
      · exact ⟨_, A[i + 1 + 1], hx, by rw [gA _ hi2, List.getElem?_eq_getElem hi2],
          Or.inl ⟨e1, hA _ (List.getElem_mem hi2), _, hte, e1⟩⟩
      · have : i + 1 + 1 = A.length := by omega
        exact ⟨_, a.tMin, hx, by rw [this]; exact gm, Or.inl ⟨e1, le_refl _, _, hte, e1⟩⟩
    · have h1 : i + 1 = A.length := by omega
      obtain ⟨y, hy, hy2⟩ := next 0 (Nat.zero_le _)
      rw [Nat.add_zero] at hy hy2
      refine ⟨a.tMin, y, by rw [h1]; exact gm, by rw [h1]; exact hy, Or.inr (Or.inr ⟨by rw [max_eq_right hsA], by linarith, ?_⟩)⟩
      rw [h1]; exact hy2
  · rcases Nat.lt_or_ge i (A.length + B.length) with hi2 | hi2
    · obtain ⟨j, rfl⟩ : ∃ j, i = A.length + j := ⟨i - A.length, by omega⟩
      have hj : j < B.length := by omega
      have hsB : s = B[j] := by
        rw [tB j hj, List.getElem?_eq_getElem hj] at hs
        exact (Option.some.inj hs).symm
      have hb := hB _ (List.getElem_mem hj)
      obtain ⟨y, hy, hy2⟩ := next (j + 1) (by omega)
      refine ⟨s, y, ?_, ?_, Or.inr (Or.inr ⟨?_, by rw [hsB]; exact hb.2, ?_⟩)⟩
      · rw [show A.length + j + 1 = A.length + 1 + j by omega, gB j hj, List.getElem?_eq_getElem hj, hsB]
      · rw [show A.length + j + 1 + 1 = A.length + 1 + (j + 1) by omega]; exact hy
      · rw [max_eq_left (by rw [hsB]; exact hb.1.le)]
      · rw [show A.length + j + 1 = A.length + (j + 1) by omega]; exact hy2
    · obtain ⟨j, rfl⟩ : ∃ j, i = A.length + B.length + j := ⟨i - (A.length + B.length), by omega⟩
      rw [tC] at hs
      have hsC := hC s (List.mem_of_getElem? hs)
      have hj : j < C.length := (List.getElem?_eq_some_iff.1 hs).1
      have hy : (A ++ a.tMin :: (B ++ a.tMax :: C))[A.length + B.length + j + 1 + 1]? = some s := by
        rw [show A.length + B.length + j + 1 + 1 = A.length + 1 + B.length + 1 + j by omega, gC, hs]
      rcases Nat.eq_zero_or_pos j with rfl | hj0
      · exact ⟨a.tMax, s, by rw [show A.length + B.length + 0 + 1 = A.length + 1 + B.length by omega]; exact gM, hy,
          Or.inr (Or.inl ⟨le_refl _, hsC.le, hsC⟩)⟩
      · obtain ⟨k, rfl⟩ : ∃ k, j = k + 1 := ⟨j - 1, by omega⟩
        have hk : k < C.length := by omega
        exact ⟨C[k], s, by
          rw [show A.length + B.length + (k + 1) + 1 = A.length + 1 + B.length + 1 + k by omega, gC, List.getElem?_eq_getElem hk], hy,
          Or.inr (Or.inl ⟨(hC _ (List.getElem_mem hk)).le, hsC.le, hsC⟩)⟩

theorem limits_mem {time : List ℝ} {a : TimeAxis} {x : ℝ} (hx : x ∈ limits time a) : x ∈ time ∨ x = a.tMin ∨ x = a.tMax := by
  unfold limits at hx
  have := List.mem_of_mem_drop hx
  rw [List.mem_mergeSort] at this
  simpa using this

theorem sqrt_between {x y : ℝ} (hx : 0 ≤ x) (hxy : x < y) : x ≤ Real.sqrt (x * y) ∧ (0 < x → x < Real.sqrt (x * y)) ∧
    Real.sqrt (x * y) < y ∧ Real.sqrt (x * y) ≤ (x + y) / 2 := by
  have hy : 0 < y := by linarith
  refine ⟨Real.le_sqrt_of_sq_le (by nlinarith), fun h0 => Real.lt_sqrt_of_sq_lt (by nlinarith), ?_, ?_⟩
  · rw [Real.sqrt_lt' hy]; nlinarith
  · rw [Real.sqrt_le_left (by linarith)]; nlinarith [sq_nonneg (x - y)]

/-- Specification: `t` is the age at which the name is written on an axis. -/
def meanAge (log : Bool) (x y : ℝ) : ℝ := if log then Real.sqrt (x * y) else (x + y) / 2

theorem meanAge_le {log : Bool} {x y m : ℝ} (hx : 0 ≤ x) (hy : 0 ≤ y) (h1 : x ≤ m) (h2 : y ≤ m) : meanAge log x y ≤ m := by
  unfold meanAge
  split
  · rw [Real.sqrt_le_left (by linarith)]; nlinarith
  · linarith

theorem le_meanAge {log : Bool} {x y m : ℝ} (hm : 0 ≤ m) (h1 : m ≤ x) (h2 : m ≤ y) : m ≤ meanAge log x y := by
  unfold meanAge
  split
  · refine Real.le_sqrt_of_sq_le ?_; nlinarith
  · linarith

theorem marks_ok {lower : Char → List Char} {grey : List (List Char)} {time : List ℝ} {epoch : List (List Char)} {a : TimeAxis}
    {colour : List ℕ} {boundary : List Bool} {log : Bool} {m : SequenceMarks}
    (h : seqMarks lower grey time epoch a colour boundary log = .ok m) :
    (List.range (time.length - 2)).mapM (seqRegion grey time colour) = .ok m.regions ∧
      (List.range (time.length - 1)).mapM (seqLine time boundary) = .ok m.lines ∧
      (List.range epoch.length).mapM (seqName lower log (limits time a) epoch) = .ok m.names := by
  unfold seqMarks at h
  obtain ⟨r, h1, h⟩ := except_bind_eq_ok h
  obtain ⟨l, h2, h⟩ := except_bind_eq_ok h
  obtain ⟨n, h3, h⟩ := except_bind_eq_ok h
  injection h with h
  subst h
  exact ⟨h1, h2, h3⟩

/-- the marks of the axis: those of the first, or of the second if there is one -/
def marksOf (r : SequenceMarks × Option SequenceMarks) (log : Bool) : Option SequenceMarks := if log then r.2 else some r.1

theorem sequencePlot_ok {lower : Char → List Char} {grey : List (List Char)} {time : List ℝ} {epoch formatting : List (List Char)}
    {a : TimeAxis} {r : SequenceMarks × Option SequenceMarks} (h : sequencePlot lower grey time epoch formatting a = .ok r) :
    ∃ d, lift (decodeFormatting formatting) = .ok d ∧ (a.crossover = true ↔ r.2 ≠ none) ∧
      ∀ log m, marksOf r log = some m → seqMarks lower grey time epoch a d.2.1 d.2.2.2 log = .ok m := by
  unfold sequencePlot at h
  obtain ⟨d, hd, h⟩ := except_bind_eq_ok h
  obtain ⟨m0, h0, h⟩ := except_bind_eq_ok h
  refine ⟨d, hd, ?_⟩
  split_ifs at h with hc
  · obtain ⟨m1, h1, h⟩ := except_bind_eq_ok h
    injection h with h
    subst h
    refine ⟨by simp [hc], ?_⟩
    intro log m hm
    cases log
    · injection hm with hm; subst hm; exact h0
    · injection hm with hm; subst hm; exact h1
  · injection h with h
    subst h
    refine ⟨by simp [hc], ?_⟩
    intro log m hm
    cases log
    · injection hm with hm; subst hm; exact h0
    · cases hm

/-- **C120: shading and dividing lines.**  On every axis of the plot each epoch from the second on is shaded from its beginning to its end
with the shade of its formatting code, and each boundary but the first is a line, marked as a boundary if its code says so. -/
theorem C120_regions (lower : Char → List Char) (grey : List (List Char)) (time : List ℝ) (epoch : List (List Char)) (slant : List Char)
    (codes : List (List Char)) (a : TimeAxis) (r : SequenceMarks × Option SequenceMarks)
    (h : sequencePlot lower grey time epoch (slant :: codes) a = .ok r) (log : Bool) (m : SequenceMarks) (hm : marksOf r log = some m) :
    m.regions.length = time.length - 2 ∧ m.lines.length = time.length - 1 ∧
    (∀ (k : ℕ) s e, time[k + 1]? = some s → time[k + 2]? = some e → ∃ g, m.regions[k]? = some (s, e, g) ∧
      ∀ code n, codes[k + 1]? = some code → ShadeCode code n → grey[3 - n]? = some g) ∧
    ∀ (k : ℕ) s, time[k + 1]? = some s → ∃ code, codes[k]? = some code ∧ m.lines[k]? = some (s, decide ('b' ∈ code)) := by
  obtain ⟨⟨z, colour, offset, boundary⟩, hd, _, hmarks⟩ := sequencePlot_ok h
  obtain ⟨hrs, hls, _⟩ := marks_ok (hmarks log m hm)
  dsimp only at hrs hls
  obtain ⟨c1, _, c3⟩ := formatting_ok (lift_ok.1 hd)
  obtain ⟨k1, g1⟩ := mapM_get hrs
  obtain ⟨k2, g2⟩ := mapM_get hls
  obtain ⟨k3, g3⟩ := mapM_get c1
  rw [List.length_range] at k1 k2
  refine ⟨k1, k2, ?_, ?_⟩
  · intro k s e hs he
    have hk : k + 2 < time.length := (List.getElem?_eq_some_iff.1 he).1
    obtain ⟨r, hr, hr'⟩ := g1 k k (range_get (by omega))
    unfold seqRegion at hr'
    rw [at?_ok.2 hs, except_ok_bind, at?_ok.2 he, except_ok_bind] at hr'
    obtain ⟨n, hn, hr'⟩ := except_bind_eq_ok hr'
    obtain ⟨g, hg, hr'⟩ := except_bind_eq_ok hr'
    injection hr' with hr'
    subst hr'
    refine ⟨g, hr, ?_⟩
    intro code n' hcode hsc
    obtain ⟨n'', e1, e2⟩ := g3 _ _ hcode
    rw [at?_ok.1 hn] at e1
    injection e1 with e1
    subst e1
    rw [colourOf_shade hsc] at e2
    injection e2 with e2
    subst e2
    exact shade_ok hsc.1 hg
  · intro k s hs
    have hk : k + 1 < time.length := (List.getElem?_eq_some_iff.1 hs).1
    obtain ⟨r, hr, hr'⟩ := g2 k k (range_get (by omega))
    unfold seqLine at hr'
    rw [at?_ok.2 hs, except_ok_bind] at hr'
    obtain ⟨b, hb, hr'⟩ := except_bind_eq_ok hr'
    injection hr' with hr'
    subst hr'
    have hb' := at?_ok.1 hb
    rw [c3, List.getElem?_map] at hb'
    cases hcode : codes[k]? with
    | none => rw [hcode] at hb'; cases hb'
    | some code =>
      rw [hcode] at hb'
      injection hb' with hb'
      refine ⟨code, rfl, ?_⟩
      rw [hr, ← hb', ← List.elem_eq_mem]

theorem seqName_ok {lower : Char → List Char} {grey : List (List Char)} {time : List ℝ} {epoch formatting : List (List Char)}
    {a : TimeAxis} {r : SequenceMarks × Option SequenceMarks} (h : sequencePlot lower grey time epoch formatting a = .ok r)
    {log : Bool} {m : SequenceMarks} (hm : marksOf r log = some m) :
    m.names.length = epoch.length ∧ ∀ i e x y, epoch[i]? = some e → (limits time a)[i]? = some x → (limits time a)[i + 1]? = some y →
      ∃ lbl, abbreviated lower e = .ok lbl ∧ m.names[i]? = some (meanAge log x y, lbl) := by
  obtain ⟨d, _, _, hmarks⟩ := sequencePlot_ok h
  obtain ⟨_, _, hns⟩ := marks_ok (hmarks log m hm)
  obtain ⟨k1, g1⟩ := mapM_get hns
  rw [List.length_range] at k1
  refine ⟨k1, ?_⟩
  intro i e x y he hx hy
  obtain ⟨q, hq, hq'⟩ := g1 i i (range_get (List.getElem?_eq_some_iff.1 he).1)
  unfold seqName at hq'
  rw [at?_ok.2 he, except_ok_bind] at hq'
  obtain ⟨lbl, hl, hq'⟩ := except_bind_eq_ok hq'
  rw [at?_ok.2 hx, except_ok_bind, at?_ok.2 hy, except_ok_bind] at hq'
  injection hq' with hq'
  subst hq'
  exact ⟨lbl, hl, hq⟩

theorem nonneg_of_sorted {time : List ℝ} (hsort : time.Pairwise (· < ·)) (h0 : time[0]? = some 0) : ∀ x ∈ time, 0 ≤ x := by
  cases time with
  | nil => simp
  | cons z l =>
    simp only [List.getElem?_cons_zero, Option.some.injEq] at h0
    subst h0
    intro x hx
    rcases List.mem_cons.1 hx with rfl | hx
    · exact le_refl _
    · exact ((List.pairwise_cons.1 hsort).1 x hx).le

theorem meanAge_between {log : Bool} {x y : ℝ} (hx : 0 ≤ x) (hxy : x < y) : x ≤ meanAge log x y ∧ (0 < x → x < meanAge log x y) ∧
    meanAge log x y < y := by
  unfold meanAge
  obtain ⟨s1, s2, s3, _⟩ := sqrt_between hx hxy
  split
  · exact ⟨s1, s2, s3⟩
  · exact ⟨by linarith, fun _ => by linarith, by linarith⟩

/-- **C120: names are at their epochs.**  A name shown between the limits of the plot stands at an age inside its epoch. -/
theorem C120_name_inside (lower : Char → List Char) (grey : List (List Char)) (time : List ℝ) (epoch formatting : List (List Char))
    (a : TimeAxis) (r : SequenceMarks × Option SequenceMarks) (h : sequencePlot lower grey time epoch formatting a = .ok r)
    (hsort : time.Pairwise (· < ·)) (h0 : time[0]? = some 0) (hlen : epoch.length = time.length) (hmin : 0 ≤ a.tMin) (hlt : a.tMin < a.tMax)
    (log : Bool) (m : SequenceMarks) (hm : marksOf r log = some m) (i : ℕ) (t : ℝ) (lbl : List Char) (hi : m.names[i]? = some (t, lbl))
    (ht : a.tMin < t) (ht2 : t < a.tMax) :
    (∃ s, time[i]? = some s ∧ s < t) ∧ (∀ e, time[i + 1]? = some e → t < e) ∧
      ∃ e, epoch[i]? = some e ∧ abbreviated lower e = .ok lbl := by
  obtain ⟨k1, g1⟩ := seqName_ok h hm
  have hil : i < time.length := by
    have := (List.getElem?_eq_some_iff.1 hi).1
    omega
  obtain ⟨s, hs⟩ : ∃ s, time[i]? = some s := ⟨_, List.getElem?_eq_getElem hil⟩
  obtain ⟨e, he⟩ : ∃ e, epoch[i]? = some e := ⟨_, List.getElem?_eq_getElem (by omega)⟩
  obtain ⟨x, y, hx, hy, hcase⟩ := limits_spec hsort ⟨0, h0, hmin⟩ hlt i s hs
  obtain ⟨l, hl, hq⟩ := g1 i e x y he hx hy
  rw [hi] at hq
  injection hq with hq
  injection hq with hq1 hq2
  subst hq2
  have nonneg : ∀ z ∈ limits time a, 0 ≤ z := by
    intro z hz
    rcases limits_mem hz with hz | rfl | rfl
    · exact nonneg_of_sorted hsort h0 z hz
    · exact hmin
    · linarith
  have hx0 := nonneg x (List.mem_of_getElem? hx)
  have hy0 := nonneg y (List.mem_of_getElem? hy)
  have hs0 := nonneg_of_sorted hsort h0 s (List.mem_of_getElem? hs)
  rcases hcase with ⟨c1, c2, _⟩ | ⟨c1, c2, _⟩ | ⟨rfl, hsM, hc⟩
  · have := meanAge_le (log := log) hx0 hy0 c1 c2
    linarith
  · have := le_meanAge (log := log) (by linarith : (0 : ℝ) ≤ a.tMax) c1 c2
    linarith
  · have hlast : ∀ e, time[i + 1]? = some e → s < e := by
      intro e he
      obtain ⟨h1, rfl⟩ := List.getElem?_eq_some_iff.1 hs
      obtain ⟨h2, rfl⟩ := List.getElem?_eq_some_iff.1 he
      exact List.pairwise_iff_getElem.1 hsort _ _ h1 h2 (by omega)
    have hxy : max s a.tMin ≤ y := by
      rcases hc with ⟨e, he, he2, rfl⟩ | ⟨_, rfl⟩
      · exact le_min (max_le (hlast e he).le he2.le) (max_le hsM hlt.le)
      · exact max_le hsM hlt.le
    have hye : ∀ e, time[i + 1]? = some e → y ≤ e := by
      intro e he
      rcases hc with ⟨e', he', _, rfl⟩ | ⟨hn, _⟩
      · rw [he] at he'; injection he' with he'; subst he'; exact min_le_left _ _
      · rw [he] at hn; cases hn
    have hyM : y ≤ a.tMax := by
      rcases hc with ⟨e', he', _, rfl⟩ | ⟨hn, rfl⟩
      · exact min_le_right _ _
      · exact le_refl _
    rcases hxy.lt_or_eq with hxy | hxy
    · obtain ⟨b1, b2, b3⟩ := meanAge_between (log := log) hx0 hxy
      rw [← hq1] at b1 b2 b3
      refine ⟨⟨s, hs, ?_⟩, fun e he => b3.trans_le (hye e he), e, he, hl⟩
      rcases hx0.lt_or_eq with hp | hp
      · exact (le_max_left _ _).trans_lt (b2 hp)
      · have : s ≤ 0 := by rw [hp]; exact le_max_left _ _
        linarith
    · have ht3 : t = y := by
        rw [hq1, hxy]
        unfold meanAge
        split
        · rw [← pow_two, Real.sqrt_sq hy0]
        · linarith
      -- such an epoch begins at the end of the axis
      rcases hc with ⟨e', he', he2, rfl⟩ | ⟨hn, rfl⟩
      · rcases le_total e' a.tMax with h' | h'
        · rw [min_eq_left h'] at hxy
          have := max_lt (hlast e' he') he2
          linarith
        · rw [min_eq_right h'] at ht3
          linarith
      · linarith

/-- **C120: every epoch on the plot is named.**  An epoch of which some part is between the limits of the plot is named within the limits of
one of the axes, at an age of that part. -/
theorem C120_every_epoch_named (lower : Char → List Char) (grey : List (List Char)) (time : List ℝ) (epoch formatting : List (List Char))
    (a : TimeAxis) (r : SequenceMarks × Option SequenceMarks) (h : sequencePlot lower grey time epoch formatting a = .ok r)
    (hsort : time.Pairwise (· < ·)) (h0 : time[0]? = some 0) (hmin : 0 ≤ a.tMin) (hlt : a.tMin < a.tMax)
    (hno : a.crossover = false → a.tCrossover = a.tMin)
    (i : ℕ) (s : ℝ) (hs : time[i]? = some s) (name : List Char) (hname : epoch[i]? = some name) (hs2 : s < a.tMax)
    (he2 : ∀ e, time[i + 1]? = some e → a.tMin < e) :
    ∃ t lbl, abbreviated lower name = .ok lbl ∧ s ≤ t ∧ a.tMin ≤ t ∧ t < a.tMax ∧ (∀ e, time[i + 1]? = some e → t < e) ∧
      ((a.tCrossover ≤ t ∧ r.1.names[i]? = some (t, lbl)) ∨
       (t < a.tCrossover ∧ ∃ m, r.2 = some m ∧ m.names[i]? = some (t, lbl))) := by
  obtain ⟨x, y, hx, hy, hcase⟩ := limits_spec hsort ⟨0, h0, hmin⟩ hlt i s hs
  have hs0 := nonneg_of_sorted hsort h0 s (List.mem_of_getElem? hs)
  obtain ⟨_, _, hcr, _⟩ := sequencePlot_ok h
  rcases hcase with ⟨_, _, e, h1, h2⟩ | ⟨_, _, h1⟩ | ⟨rfl, hsM, hc⟩
  · linarith [he2 e h1]
  · linarith
  · have hlast : ∀ e, time[i + 1]? = some e → s < e := by
      intro e he
      obtain ⟨h1, rfl⟩ := List.getElem?_eq_some_iff.1 hs
      obtain ⟨h2, rfl⟩ := List.getElem?_eq_some_iff.1 he
      exact List.pairwise_iff_getElem.1 hsort _ _ h1 h2 (by omega)
    have hxy : max s a.tMin < y := by
      rcases hc with ⟨e, he, he2, rfl⟩ | ⟨_, rfl⟩
      · exact lt_min (max_lt (hlast e he) he2) (max_lt hs2 hlt)
      · exact max_lt hs2 hlt
    have hye : ∀ e, time[i + 1]? = some e → y ≤ e := by
      intro e he
      rcases hc with ⟨e', he', _, rfl⟩ | ⟨hn, _⟩
      · rw [he] at he'; injection he' with he'; subst he'; exact min_le_left _ _
      · rw [he] at hn; cases hn
    have hyM : y ≤ a.tMax := by
      rcases hc with ⟨e', he', _, rfl⟩ | ⟨hn, rfl⟩
      · exact min_le_right _ _
      · exact le_refl _
    have hx0 : 0 ≤ max s a.tMin := le_max_of_le_left hs0
    have inside : ∀ log, s ≤ meanAge log (max s a.tMin) y ∧ a.tMin ≤ meanAge log (max s a.tMin) y ∧ meanAge log (max s a.tMin) y < a.tMax ∧
        ∀ e, time[i + 1]? = some e → meanAge log (max s a.tMin) y < e := by
      intro log
      obtain ⟨b1, _, b3⟩ := meanAge_between (log := log) hx0 hxy
      exact ⟨(le_max_left _ _).trans b1, (le_max_right _ _).trans b1, b3.trans_le hyM, fun e he => b3.trans_le (hye e he)⟩
    by_cases hlin : a.tCrossover ≤ meanAge false (max s a.tMin) y
    · obtain ⟨_, g⟩ := seqName_ok h (log := false) (m := r.1) rfl
      obtain ⟨lbl, hl, hq⟩ := g i name _ y hname hx hy
      obtain ⟨i1, i2, i3, i4⟩ := inside false
      exact ⟨_, lbl, hl, i1, i2, i3, i4, Or.inl ⟨hlin, hq⟩⟩
    · have hcross : a.crossover = true := by
        by_contra hno'
        have := hno (by simpa using hno')
        rw [this] at hlin
        exact hlin (inside false).2.1
      obtain ⟨m, hm⟩ := Option.ne_none_iff_exists'.1 (hcr.1 hcross)
      obtain ⟨_, g⟩ := seqName_ok h (log := true) (m := m) hm
      obtain ⟨lbl, hl, hq⟩ := g i name _ y hname hx hy
      obtain ⟨i1, i2, i3, i4⟩ := inside true
      refine ⟨_, lbl, hl, i1, i2, i3, i4, Or.inr ⟨?_, m, hm, hq⟩⟩
      exact lt_of_le_of_lt (sqrt_between hx0 hxy).2.2.2 (not_le.1 hlin)

/-- **C120: but not always once.**  An epoch whose geometric middle is younger than the place where the scale changes and whose arithmetic
middle is older is named twice. -/
theorem C120_named_once_counterexample (lower : Char → List Char) (grey : List (List Char)) (time : List ℝ)
    (epoch formatting : List (List Char))
    (a : TimeAxis) (r : SequenceMarks × Option SequenceMarks) (h : sequencePlot lower grey time epoch formatting a = .ok r)
    (hsort : time.Pairwise (· < ·)) (h0 : time[0]? = some 0) (hmin : 0 ≤ a.tMin) (hlt : a.tMin < a.tMax) (hcross : a.crossover = true)
    (i : ℕ) (s e : ℝ) (hs : time[i]? = some s) (he : time[i + 1]? = some e) (name : List Char) (hname : epoch[i]? = some name)
    (h1 : a.tMin < s) (h2 : e < a.tMax) (hg : s * e < a.tCrossover ^ 2) (hc0 : 0 < a.tCrossover) (ha : a.tCrossover ≤ (s + e) / 2) :
    ∃ t t' lbl m, r.1.names[i]? = some (t, lbl) ∧ a.tCrossover ≤ t ∧ r.2 = some m ∧ m.names[i]? = some (t', lbl) ∧ t' < a.tCrossover ∧
      s < t' ∧ t < e := by
  obtain ⟨x, y, hx, hy, hcase⟩ := limits_spec hsort ⟨0, h0, hmin⟩ hlt i s hs
  obtain ⟨_, _, hcr, _⟩ := sequencePlot_ok h
  have hse : s < e := by
    obtain ⟨k1, rfl⟩ := List.getElem?_eq_some_iff.1 hs
    obtain ⟨k2, rfl⟩ := List.getElem?_eq_some_iff.1 he
    exact List.pairwise_iff_getElem.1 hsort _ _ k1 k2 (by omega)
  have hxy : x = s ∧ y = e := by
    rcases hcase with ⟨_, _, e', k1, k2⟩ | ⟨_, _, k1⟩ | ⟨rfl, hsM, ⟨e', k1, k2, rfl⟩ | ⟨k1, _⟩⟩
    · rw [he] at k1; injection k1 with k1; linarith
    · linarith
    · rw [he] at k1; injection k1 with k1; subst k1
      exact ⟨max_eq_left h1.le, min_eq_left h2.le⟩
    · rw [he] at k1; cases k1
  obtain ⟨rfl, rfl⟩ := hxy
  obtain ⟨m, hm⟩ := Option.ne_none_iff_exists'.1 (hcr.1 hcross)
  obtain ⟨_, g⟩ := seqName_ok h (log := true) (m := m) hm
  obtain ⟨_, g'⟩ := seqName_ok h (log := false) (m := r.1) rfl
  obtain ⟨lbl, hl, hq⟩ := g i name _ _ hname hx hy
  obtain ⟨lbl', hl', hq'⟩ := g' i name _ _ hname hx hy
  rw [hl] at hl'
  injection hl' with hl'
  subst hl'
  refine ⟨_, _, lbl, m, hq', ha, hm, hq, ?_, (sqrt_between (by linarith) hse).2.1 (by linarith), (meanAge_between (log := false) (by linarith) hse).2.2⟩
  exact (Real.sqrt_lt' hc0).2 hg

/-- Specification: a name of words, each with at least one letter, with a space or a hyphen between neighbours. -/
inductive Worded : List Char → Prop
  | one (w : List Char) (h : ∀ c ∈ w, c ≠ ' ' ∧ c ≠ '-') (hw : w ≠ []) : Worded w
  | more (w : List Char) (h : ∀ c ∈ w, c ≠ ' ' ∧ c ≠ '-') (hw : w ≠ []) (c : Char) (hc : c = ' ' ∨ c = '-') (v : List Char) :
      Worded v → Worded (w ++ c :: v)

theorem worded_letters {e : List Char} (h : Worded e) : ∃ x l, (nameParts e).mapM firstLetter = .ok (x :: l) := by
  induction h with
  | one w h hw =>
    rw [nameParts_word w h]
    cases w with
    | nil => exact absurd rfl hw
    | cons x w => exact ⟨x, [], rfl⟩
  | more w h hw c hc v _ ih =>
    rw [nameParts_two w c v h hc]
    obtain ⟨y, l, hy⟩ := ih
    cases w with
    | nil => exact absurd rfl hw
    | cons x w =>
      refine ⟨x, y :: l, ?_⟩
      rw [List.mapM_cons, hy]
      rfl

theorem worded_ok {e : List Char} (h : Worded e) (lower : Char → List Char) : ∃ lbl, abbreviated lower e = .ok lbl := by
  obtain ⟨x, l, hl⟩ := worded_letters h
  unfold abbreviated
  rw [hl, except_ok_bind]
  rcases l with _ | ⟨y, _ | ⟨z, l⟩⟩
  · exact ⟨_, rfl⟩
  · exact ⟨_, rfl⟩
  · exact ⟨_, rfl⟩

/-- **C120: the plot exists.** -/
theorem C120_defined (lower : Char → List Char) (grey : List (List Char)) (hg : 4 ≤ grey.length) (time : List ℝ)
    (epoch : List (List Char)) (he : epoch.length = time.length) (hwords : ∀ e ∈ epoch, Worded e) (slant : List Char) (z : ℤ)
    (hz : intVal slant = some z)
    (codes : List (List Char)) (hcodes : ∀ x ∈ codes, ∃ n, ShadeCode x n) (hl : time.length ≤ codes.length) (a : TimeAxis) :
    ∃ r, sequencePlot lower grey time epoch (slant :: codes) a = .ok r := by
  have hcol : ∀ x ∈ codes, ∃ n, colourOf x = .ok n ∧ n < 4 := by
    intro x hx
    obtain ⟨n, hn⟩ := hcodes x hx
    exact ⟨n, colourOf_shade hn, hn.1⟩
  obtain ⟨colour, hc1, hc2⟩ := mapM_ok_forall (P := fun _ n => n < 4) hcol
  have hfmt : decodeFormatting (slant :: codes) = .ok (z, colour, codes.map (fun e => e.contains 'r'), codes.map (fun e => e.contains 'b')) := by
    unfold decodeFormatting
    simp only [hz, hc1]
    rfl
  have hclen : colour.length = codes.length := hc2.length_eq.symm
  have hin : ∀ {α : Type} (l : List α) (i : ℕ) (h : i < l.length), at? l i = .ok (l[i]) :=
    fun l i h => at?_ok.2 (List.getElem?_eq_getElem h)
  have h1 : ∀ i ∈ List.range (time.length - 2), ∃ m, seqRegion grey time colour i = .ok m ∧ True := by
    intro i hi
    have hi' := List.mem_range.1 hi
    have hn : colour[i + 1]'(by omega) < 4 := (List.forall₂_iff_get.1 hc2).2 (i + 1) (by omega) (by omega)
    have hs : shade grey (colour[i + 1]'(by omega)) = .ok (grey[3 - colour[i + 1]'(by omega)]'(by omega)) := by
      unfold shade pyIndex
      rw [if_pos (by omega), List.getElem?_eq_getElem (by omega)]
      simp only [Except.ok.injEq]
      congr 1
      omega
    unfold seqRegion
    rw [hin time _ (by omega), except_ok_bind, hin time _ (by omega), except_ok_bind, hin colour _ (by omega), except_ok_bind,
      hs, except_ok_bind]
    exact ⟨_, rfl, trivial⟩
  have h2 : ∀ i ∈ List.range (time.length - 1), ∃ m, seqLine time (codes.map (fun e => e.contains 'b')) i = .ok m ∧ True := by
    intro i hi
    have hi' := List.mem_range.1 hi
    unfold seqLine
    rw [hin time _ (by omega), except_ok_bind, hin _ _ (by simp; omega), except_ok_bind]
    exact ⟨_, rfl, trivial⟩
  have hlim : (limits time a).length = time.length + 1 := by
    unfold limits
    rw [List.length_drop, List.length_mergeSort, List.length_append]
    simp
  have h3 : ∀ log, ∀ i ∈ List.range epoch.length, ∃ m, seqName lower log (limits time a) epoch i = .ok m ∧ True := by
    intro log i hi
    have hi' := List.mem_range.1 hi
    obtain ⟨lbl, hlbl⟩ := worded_ok (hwords _ (List.getElem_mem hi')) lower
    unfold seqName
    rw [hin epoch i hi', except_ok_bind, hlbl, except_ok_bind, hin (limits time a) i (by omega), except_ok_bind,
      hin (limits time a) (i + 1) (by omega), except_ok_bind]
    exact ⟨_, rfl, trivial⟩
  obtain ⟨m1, w1, _⟩ := mapM_ok_forall h1
  obtain ⟨m2, w2, _⟩ := mapM_ok_forall h2
  have hmarks : ∀ log, ∃ m, seqMarks lower grey time epoch a colour (codes.map (fun e => e.contains 'b')) log = .ok m := by
    intro log
    obtain ⟨m3, w3, _⟩ := mapM_ok_forall (h3 log)
    unfold seqMarks
    rw [w1, except_ok_bind, w2, except_ok_bind, w3, except_ok_bind]
    exact ⟨_, rfl⟩
  obtain ⟨a0, ha0⟩ := hmarks false
  obtain ⟨a1, ha1⟩ := hmarks true
  unfold sequencePlot
  rw [lift_ok.2 hfmt, except_ok_bind]
  dsimp only
  rw [ha0, except_ok_bind, ha1]
  split
  · exact ⟨_, rfl⟩
  · exact ⟨_, rfl⟩

/-- the hypotheses can be met: three epochs beginning at 0, 2 and 4.2 Ga on a plot from 0.01 to 4.5 Ga, the second named at two places -/
example (a : TimeAxis) (ha : a.tMin = 0.01) (hb : a.tMax = 4.5) (hc : a.crossover = true) (hd : a.tCrossover = 3) : ∃ r t t' lbl m,
    sequencePlot (fun c => [c.toLower]) (["#aaaaaa", "#e0e0e0", "#ededed", "#f8f8f8", "#ffffff"].map String.toList) [0, 2, 4.2]
      ["Young".toList, "Middle Age".toList, "Old".toList] ("60".toList :: ["0b", "1b", "0"].map String.toList) a = .ok r ∧
    r.1.names[1]? = some (t, lbl) ∧ 3 ≤ t ∧ r.2 = some m ∧ m.names[1]? = some (t', lbl) ∧ t' < 3 := by
  obtain ⟨r, hr⟩ := C120_defined (fun c => [c.toLower]) (["#aaaaaa", "#e0e0e0", "#ededed", "#f8f8f8", "#ffffff"].map String.toList) (by simp)
    [0, 2, 4.2] ["Young".toList, "Middle Age".toList, "Old".toList] (by simp) (by
      intro e he
      simp only [List.mem_cons, List.not_mem_nil, or_false] at he
      rcases he with rfl | rfl | rfl
      · exact .one _ (by decide +kernel) (by decide +kernel)
      · exact .more "Middle".toList (by decide +kernel) (by decide +kernel) ' ' (Or.inl rfl) "Age".toList
          (.one _ (by decide +kernel) (by decide +kernel))
      · exact .one _ (by decide +kernel) (by decide +kernel)) "60".toList 60 (by decide +kernel) (["0b", "1b", "0"].map String.toList) (by
      intro x hx
      simp only [List.map_cons, List.map_nil, List.mem_cons, List.not_mem_nil, or_false] at hx
      rcases hx with rfl | rfl | rfl
      · exact ⟨0, by norm_num, rfl⟩
      · exact ⟨1, by norm_num, rfl⟩
      · exact ⟨0, by norm_num, rfl⟩) (by simp) a
  obtain ⟨t, t', lbl, m, h1, h2, h3, h4, h5, _⟩ := C120_named_once_counterexample _ _ _ _ _ a r hr (by norm_num) rfl (by rw [ha]; norm_num)
    (by rw [ha, hb]; norm_num) hc 1 2 4.2 rfl rfl _ rfl (by rw [ha]; norm_num) (by rw [hb]; norm_num) (by rw [hd]; norm_num)
    (by rw [hd]; norm_num) (by rw [hd]; norm_num)
  rw [hd] at h2 h5
  exact ⟨r, t, t', lbl, m, hr, h1, h2, h3, h4, h5⟩

end

end Verif.Props
