import Verif.Model.AgeArea
import Verif.Props.Age
import Verif.Props.Ticks

/-! C85-C87: the age-area grid of the uncertainty plot. -/

namespace Verif.Props
open Verif.Cratercount Verif.Py Verif.Production Verif.Chronology Verif.Craterpdf Verif.Plotting Verif.AgeArea

noncomputable section

attribute [local irreducible] linspace

/-! ### rounding -/

theorem pyRound_near {x : ℝ} (hx : 0 ≤ x) : (pyRound x : ℝ) - x ≤ 1 / 2 ∧ x - pyRound x ≤ 1 / 2 := by
  have h1 := Nat.floor_le hx
  have h2 := Nat.lt_floor_add_one x
  unfold pyRound
  dsimp only
  split_ifs <;> push_cast <;> constructor <;> linarith

theorem pyRound_le {x : ℝ} {n : ℕ} (hx : 0 ≤ x) (h : x ≤ n) : pyRound x ≤ n := by
  have h1 := Nat.floor_le hx
  unfold pyRound
  dsimp only
  have hf : ⌊x⌋₊ ≤ n := Nat.floor_le_of_le h
  rcases hf.lt_or_eq with hlt | heq
  · split_ifs <;> omega
  · have : x - (⌊x⌋₊ : ℝ) < 1 / 2 := by rw [heq]; linarith
    rw [if_pos this]; exact hf

example : pyRound 2.5 = 2 ∧ pyRound 3.5 = 4 ∧ pyRound 2.7 = 3 := by
  have e1 : ⌊(2.5 : ℝ)⌋₊ = 2 := by rw [Nat.floor_eq_iff (by norm_num)]; norm_num
  have e2 : ⌊(3.5 : ℝ)⌋₊ = 3 := by rw [Nat.floor_eq_iff (by norm_num)]; norm_num
  have e3 : ⌊(2.7 : ℝ)⌋₊ = 2 := by rw [Nat.floor_eq_iff (by norm_num)]; norm_num
  refine ⟨?_, ?_, ?_⟩ <;> unfold pyRound <;> dsimp only
  · rw [e1]; norm_num
  · rw [e2]; norm_num
  · rw [e3]; norm_num

/-! ### C85 -/

/-- what is used of the time axis parameters -/
structure GoodAxis (a : TimeAxis) : Prop where
  nonneg : 0 ≤ a.tMin
  lt : a.tMin < a.tMax
  cross_le : a.tCrossover ≤ a.tMax
  cases : (0 < a.tMin ∧ a.tMin < a.tCrossover ∧ 0 ≤ a.xfracLinear ∧ a.xfracLinear < 1 ∧ (a.xfracLinear = 0 ↔ a.tMax = a.tCrossover)) ∨
    (a.tCrossover = a.tMin ∧ a.xfracLinear = 1)

theorem linear_fraction {M L : ℝ} (hM : 3 ≤ M) (hL : 0 < L) :
    0 ≤ max (M - 3) 0 / 0.7 / (max (M - 3) 0 / 0.7 + L) ∧ max (M - 3) 0 / 0.7 / (max (M - 3) 0 / 0.7 + L) < 1 ∧
    (max (M - 3) 0 / 0.7 / (max (M - 3) 0 / 0.7 + L) = 0 ↔ M = 3) := by
  rw [max_eq_left (by linarith)]
  have hlin : 0 ≤ (M - 3) / 0.7 := div_nonneg (by linarith) (by norm_num)
  refine ⟨div_nonneg hlin (by linarith), by rw [div_lt_one (by linarith)]; linarith, ?_⟩
  rw [div_eq_zero_iff, div_eq_zero_iff]
  constructor
  · rintro ((h | h) | h)
    · linarith
    · norm_num at h
    · linarith
  · rintro rfl
    left; left; norm_num

theorem goodAxis {fuel : ℕ} {xa xb : ℝ} {a : TimeAxis} (h : timeAxis fuel xa xb = some (.ok a)) : GoodAxis a := by
  have hM : 3 ≤ clip (max xa xb) 3 4.5 := le_min (by norm_num) (le_max_right _ _)
  have hm0 : 0 ≤ clip (min xa xb) 0 (clip (max xa xb) 3 4.5 - 0.1) := le_min (by norm_num; linarith) (le_max_right _ _)
  have hmM : clip (min xa xb) 0 (clip (max xa xb) 3 4.5 - 0.1) < clip (max xa xb) 3 4.5 :=
    lt_of_le_of_lt (min_le_left _ _) (by norm_num)
  unfold timeAxis at h
  dsimp only at h
  split_ifs at h with h1 h2 h4
  · cases h
  · cases h
  · simp only [Option.some.injEq, Except.ok.injEq] at h
    have hpos : 0 < clip (min xa xb) 0 (clip (max xa xb) 3 4.5 - 0.1) := lt_of_le_of_ne hm0 (Ne.symm h1.2)
    set m := clip (min xa xb) 0 (clip (max xa xb) 3 4.5 - 0.1)
    have hz : (10 : ℝ) ^ ⌊log10 m⌋ ≤ m := by
      conv_rhs => rw [← pow10_log10 hpos]
      rw [← Real.rpow_intCast]
      exact pow10_le.2 (Int.floor_le _)
    have hz0 : (0 : ℝ) < (10 : ℝ) ^ ⌊log10 m⌋ := by positivity
    subst h
    have hlog : 0 < log10 3 - log10 ((10 : ℝ) ^ ⌊log10 m⌋) := by
      rw [sub_pos, log10_lt hz0 (by norm_num)]
      linarith [h1.1]
    obtain ⟨x0, x1, x2⟩ := linear_fraction hM hlog
    refine ⟨hz0.le, lt_of_le_of_lt hz hmM, hM, Or.inl ⟨hz0, ?_, x0, x1, x2⟩⟩
    show (10 : ℝ) ^ ⌊log10 m⌋ < 3
    linarith [h1.1]
  · split at h
    · cases h
    · cases h
    · split at h
      · cases h
      · split_ifs at h
        · cases h
        simp only [Option.some.injEq, Except.ok.injEq] at h
        subst h
        exact ⟨hm0, hmM, hmM.le, Or.inr ⟨rfl, by norm_num⟩⟩

theorem nLin_le {a : TimeAxis} (g : GoodAxis a) (nsx : ℕ) : nLin a nsx ≤ nsx := by
  have h : 0 ≤ a.xfracLinear ∧ a.xfracLinear ≤ 1 := by
    rcases g.cases with ⟨_, _, h, h', _⟩ | ⟨_, h⟩
    · exact ⟨h, h'.le⟩
    · rw [h]; norm_num
  exact pyRound_le (mul_nonneg (Nat.cast_nonneg _) h.1) (by nlinarith [Nat.cast_nonneg (α := ℝ) nsx])

theorem nLin_near {a : TimeAxis} (g : GoodAxis a) (nsx : ℕ) :
    (nLin a nsx : ℝ) - nsx * a.xfracLinear ≤ 1 / 2 ∧ nsx * a.xfracLinear - nLin a nsx ≤ 1 / 2 := by
  have h : 0 ≤ a.xfracLinear := by
    rcases g.cases with ⟨_, _, h, h', _⟩ | ⟨_, h⟩
    · exact h
    · rw [h]; norm_num
  exact pyRound_near (mul_nonneg (Nat.cast_nonneg _) h)

theorem ages_length {a : TimeAxis} (g : GoodAxis a) (nsx : ℕ) : (ages a nsx).length = nsx := by
  have := nLin_le g nsx
  simp [ages, logAges]
  omega

/-- a cell on the logarithmic part -/
theorem ages_log {a : TimeAxis} {nsx i : ℕ} (h : i < nsx - nLin a nsx) :
    (ages a nsx)[i]? = some ((10 : ℝ) ^ (log10 a.tMin + (i : ℝ) * ((log10 a.tCrossover - log10 a.tMin) / (((nsx - nLin a nsx : ℕ) : ℝ) - 1)))) := by
  simp only [ages, logAges, List.getElem?_map]
  rw [List.getElem?_append_left (by simpa using h), List.getElem?_eq_getElem (by simpa using h), linspace_getElem]
  rfl

/-- a cell on the linear part -/
theorem ages_lin {a : TimeAxis} (g : GoodAxis a) {nsx j : ℕ} (h : j < nLin a nsx) :
    (ages a nsx)[nsx - nLin a nsx + j]? =
      some (a.tCrossover + ((j + 1 : ℕ) : ℝ) * ((a.tMax - a.tCrossover) / (nLin a nsx : ℝ))) ∧
    0 < a.tCrossover + ((j + 1 : ℕ) : ℝ) * ((a.tMax - a.tCrossover) / (nLin a nsx : ℝ)) := by
  have hn : (0 : ℝ) < nLin a nsx := by exact_mod_cast (by omega : 0 < nLin a nsx)
  have hpos : 0 < a.tCrossover + ((j + 1 : ℕ) : ℝ) * ((a.tMax - a.tCrossover) / (nLin a nsx : ℝ)) := by
    have hj : (0 : ℝ) < ((j + 1 : ℕ) : ℝ) := by positivity
    rcases g.cases with ⟨h1, h2, _⟩ | ⟨h1, _⟩
    · have : 0 ≤ ((j + 1 : ℕ) : ℝ) * ((a.tMax - a.tCrossover) / (nLin a nsx : ℝ)) :=
        mul_nonneg hj.le (div_nonneg (by linarith [g.cross_le]) hn.le)
      linarith
    · rw [h1]
      have : 0 < ((j + 1 : ℕ) : ℝ) * ((a.tMax - a.tMin) / (nLin a nsx : ℝ)) :=
        mul_pos hj (div_pos (by linarith [g.lt]) hn)
      linarith [g.nonneg]
  refine ⟨?_, hpos⟩
  simp only [ages, logAges, List.getElem?_map]
  rw [List.getElem?_append_right (by simp), List.getElem?_map, List.getElem?_tail]
  simp only [linspace_length, Nat.add_sub_cancel_left]
  rw [List.getElem?_eq_getElem (by simpa using h), linspace_getElem]
  simp only [Option.map_some, Option.some.injEq]
  push_cast at hpos ⊢
  rw [add_sub_cancel_right, pow10_log10 hpos]

/-- the number of cells on the logarithmic part is zero without a crossover -/
theorem log_cell {a : TimeAxis} (g : GoodAxis a) {nsx i : ℕ} (h : i < nsx - nLin a nsx) :
    0 < a.tMin ∧ a.tMin < a.tCrossover ∧ 0 ≤ a.xfracLinear ∧ a.xfracLinear < 1 := by
  rcases g.cases with ⟨h1, h2, h3, h4, _⟩ | ⟨_, h1⟩
  · exact ⟨h1, h2, h3, h4⟩
  · exfalso
    have := (nLin_near g nsx).2
    rw [h1] at this
    have h2 : ((nsx - nLin a nsx : ℕ) : ℝ) = nsx - nLin a nsx := Nat.cast_sub (nLin_le g nsx)
    have h3 : (1 : ℝ) ≤ ((nsx - nLin a nsx : ℕ) : ℝ) := by exact_mod_cast (by omega : 1 ≤ nsx - nLin a nsx)
    linarith

theorem lin_cell {a : TimeAxis} (g : GoodAxis a) {nsx j : ℕ} (h : j < nLin a nsx) :
    a.tCrossover < a.tMax ∧ 0 < a.xfracLinear := by
  have hx : 0 < a.xfracLinear := by
    by_contra hx
    have := (nLin_near g nsx).1
    have h1 : (1 : ℝ) ≤ nLin a nsx := by exact_mod_cast (by omega : 1 ≤ nLin a nsx)
    have : (nsx : ℝ) * a.xfracLinear ≤ 0 := mul_nonpos_of_nonneg_of_nonpos (Nat.cast_nonneg _) (by linarith)
    linarith
  refine ⟨?_, hx⟩
  rcases g.cases with ⟨_, _, _, _, h5⟩ | ⟨h1, _⟩
  · rcases g.cross_le.lt_or_eq with h | h
    · exact h
    · exact absurd (h5.2 h.symm) hx.ne'
  · rw [h1]; exact g.lt

theorem log_fraction {n i : ℕ} (h : i < n) : (0 : ℝ) ≤ (i : ℝ) / ((n : ℝ) - 1) ∧ (i : ℝ) / ((n : ℝ) - 1) ≤ 1 := by
  have h1 : (i : ℝ) + 1 ≤ n := by exact_mod_cast h
  have h0 : (0 : ℝ) ≤ i := Nat.cast_nonneg _
  constructor
  · exact div_nonneg h0 (by linarith)
  · exact div_le_one_of_le₀ (by linarith) (by linarith)

/-- age and place of a cell on the logarithmic part -/
theorem log_place {a : TimeAxis} (g : GoodAxis a) {nsx i : ℕ} (h : i < nsx - nLin a nsx) :
    ∃ t, (ages a nsx)[i]? = some t ∧ a.tMin ≤ t ∧ t ≤ a.tCrossover ∧
      axisPos a t = 1 - (1 - a.xfracLinear) * ((i : ℝ) / (((nsx - nLin a nsx : ℕ) : ℝ) - 1)) := by
  obtain ⟨h1, h2, h3, h4⟩ := log_cell g h
  obtain ⟨f0, f1⟩ := log_fraction h
  have hlog : 0 < log10 a.tCrossover - log10 a.tMin := by
    rw [sub_pos, log10_lt h1 (by linarith)]; exact h2
  refine ⟨_, ages_log h, ?_⟩
  have e : (i : ℝ) * ((log10 a.tCrossover - log10 a.tMin) / (((nsx - nLin a nsx : ℕ) : ℝ) - 1)) =
      (i : ℝ) / (((nsx - nLin a nsx : ℕ) : ℝ) - 1) * (log10 a.tCrossover - log10 a.tMin) := by ring
  rw [e]
  generalize (i : ℝ) / (((nsx - nLin a nsx : ℕ) : ℝ) - 1) = f at f0 f1
  have b1 : a.tMin ≤ (10 : ℝ) ^ (log10 a.tMin + f * (log10 a.tCrossover - log10 a.tMin)) := by
    conv_lhs => rw [← pow10_log10 h1]
    exact pow10_le.2 (by nlinarith)
  have b2 : (10 : ℝ) ^ (log10 a.tMin + f * (log10 a.tCrossover - log10 a.tMin)) ≤ a.tCrossover := by
    conv_rhs => rw [← pow10_log10 (h1.trans h2)]
    exact pow10_le.2 (by nlinarith)
  refine ⟨b1, b2, ?_⟩
  rw [axisPos, if_neg (by linarith), log10_pow10]
  have : (log10 a.tCrossover - (log10 a.tMin + f * (log10 a.tCrossover - log10 a.tMin))) / (log10 a.tCrossover - log10 a.tMin) = 1 - f := by
    field_simp
    ring
  rw [this]
  ring

/-- age and place of a cell on the linear part -/
theorem lin_place {a : TimeAxis} (g : GoodAxis a) {nsx j : ℕ} (h : j < nLin a nsx) :
    ∃ t, (ages a nsx)[nsx - nLin a nsx + j]? = some t ∧ a.tCrossover < t ∧ t ≤ a.tMax ∧
      axisPos a t = a.xfracLinear * (1 - ((j + 1 : ℕ) : ℝ) / (nLin a nsx : ℝ)) := by
  obtain ⟨h1, h2⟩ := lin_cell g h
  have hn : (0 : ℝ) < nLin a nsx := by exact_mod_cast (by omega : 0 < nLin a nsx)
  have f0 : (0 : ℝ) < ((j + 1 : ℕ) : ℝ) / (nLin a nsx : ℝ) := by positivity
  have f1 : ((j + 1 : ℕ) : ℝ) / (nLin a nsx : ℝ) ≤ 1 := by
    rw [div_le_one hn]; exact_mod_cast h
  refine ⟨_, (ages_lin g h).1, ?_⟩
  have e : ((j + 1 : ℕ) : ℝ) * ((a.tMax - a.tCrossover) / (nLin a nsx : ℝ)) =
      ((j + 1 : ℕ) : ℝ) / (nLin a nsx : ℝ) * (a.tMax - a.tCrossover) := by ring
  rw [e]
  generalize ((j + 1 : ℕ) : ℝ) / (nLin a nsx : ℝ) = f at f0 f1
  have hw : 0 < a.tMax - a.tCrossover := by linarith
  have b1 : a.tCrossover < a.tCrossover + f * (a.tMax - a.tCrossover) := by nlinarith
  refine ⟨b1, by nlinarith, ?_⟩
  rw [axisPos, if_pos b1]
  have : (a.tMax - (a.tCrossover + f * (a.tMax - a.tCrossover))) / (a.tMax - a.tCrossover) = 1 - f := by
    field_simp
    ring
  rw [this]

theorem place {a : TimeAxis} (g : GoodAxis a) {nsx i : ℕ} (h : i < nsx) :
    ∃ t, (ages a nsx)[i]? = some t ∧ 0 < t ∧ a.tMin ≤ t ∧ t ≤ a.tMax ∧
      1 - ((i : ℝ) + 1 + 1 / 2) / nsx ≤ axisPos a t ∧ axisPos a t ≤ 1 - ((i : ℝ) - 1 / 2) / nsx := by
  have hnsx : (0 : ℝ) < nsx := by exact_mod_cast (by omega : 0 < nsx)
  obtain ⟨r1, r2⟩ := nLin_near g nsx
  have hsub : ((nsx - nLin a nsx : ℕ) : ℝ) = nsx - nLin a nsx := Nat.cast_sub (nLin_le g nsx)
  by_cases hi : i < nsx - nLin a nsx
  · obtain ⟨t, e, t1, t2, e2⟩ := log_place g hi
    obtain ⟨h1, h2, h3, h4⟩ := log_cell g hi
    obtain ⟨f0, f1⟩ := log_fraction hi
    refine ⟨t, e, by linarith, t1, t2.trans g.cross_le, ?_⟩
    rw [e2]
    have hf : (i : ℝ) / (((nsx - nLin a nsx : ℕ) : ℝ) - 1) * (((nsx - nLin a nsx : ℕ) : ℝ) - 1) = i := by
      by_cases h0 : ((nsx - nLin a nsx : ℕ) : ℝ) - 1 = 0
      · have : nsx - nLin a nsx = 1 := by
          have : ((nsx - nLin a nsx : ℕ) : ℝ) = ((1 : ℕ) : ℝ) := by push_cast; linarith
          exact_mod_cast this
        have : i = 0 := by omega
        simp [this]
      · exact div_mul_cancel₀ _ h0
    generalize (i : ℝ) / (((nsx - nLin a nsx : ℕ) : ℝ) - 1) = f at *
    rw [hsub] at hf
    rw [← hf]
    constructor
    · rw [sub_le_sub_iff_left, le_div_iff₀ hnsx]
      nlinarith
    · rw [sub_le_sub_iff_left, div_le_iff₀ hnsx]
      nlinarith
  · obtain ⟨j, rfl⟩ : ∃ j, i = nsx - nLin a nsx + j := ⟨i - (nsx - nLin a nsx), by omega⟩
    have hj : j < nLin a nsx := by
      have := nLin_le g nsx
      omega
    obtain ⟨t, e, t1, t2, e2⟩ := lin_place g hj
    have hpos := (ages_lin g hj)
    have htp : 0 < t := by
      have := hpos.1.symm.trans e
      simp only [Option.some.injEq] at this
      rw [← this]; exact hpos.2
    have hmin : a.tMin ≤ a.tCrossover := by
      rcases g.cases with ⟨_, h, _⟩ | ⟨h, _⟩
      · exact h.le
      · exact h.symm.le
    refine ⟨t, e, htp, by linarith, t2, ?_⟩
    rw [e2]
    have hn : (0 : ℝ) < nLin a nsx := by exact_mod_cast (by omega : 0 < nLin a nsx)
    have f0 : (0 : ℝ) < ((j + 1 : ℕ) : ℝ) / (nLin a nsx : ℝ) := by positivity
    have f1 : ((j + 1 : ℕ) : ℝ) / (nLin a nsx : ℝ) ≤ 1 := by
      rw [div_le_one hn]; exact_mod_cast hj
    have hf : ((j + 1 : ℕ) : ℝ) / (nLin a nsx : ℝ) * nLin a nsx = j + 1 := by
      rw [div_mul_cancel₀ _ hn.ne']; push_cast; ring
    generalize ((j + 1 : ℕ) : ℝ) / (nLin a nsx : ℝ) = f at *
    push_cast
    rw [hsub]
    constructor
    · rw [sub_le_comm, le_div_iff₀ hnsx]
      nlinarith
    · rw [le_sub_comm, div_le_iff₀ hnsx]
      nlinarith

theorem ages_strict {a : TimeAxis} (g : GoodAxis a) {nsx i j : ℕ} {t u : ℝ} (hij : i < j) (hi : (ages a nsx)[i]? = some t)
    (hj : (ages a nsx)[j]? = some u) : t < u := by
  have hjn : j < nsx := by
    have := (List.getElem?_eq_some_iff.1 hj).1
    rwa [ages_length g] at this
  by_cases h1 : j < nsx - nLin a nsx
  · obtain ⟨q1, q2, _⟩ := log_cell g h1
    have hlog : 0 < log10 a.tCrossover - log10 a.tMin := by
      rw [sub_pos, log10_lt q1 (by linarith)]; exact q2
    have h0 : i < nsx - nLin a nsx := by omega
    rw [ages_log h0, Option.some.injEq] at hi
    rw [ages_log h1, Option.some.injEq] at hj
    rw [← hi, ← hj]
    refine pow10_lt.2 ?_
    have hn : (0 : ℝ) < ((nsx - nLin a nsx : ℕ) : ℝ) - 1 := by
      have : (2 : ℝ) ≤ ((nsx - nLin a nsx : ℕ) : ℝ) := by exact_mod_cast (by omega : 2 ≤ nsx - nLin a nsx)
      linarith
    have := div_pos hlog hn
    have hc : (i : ℝ) < j := by exact_mod_cast hij
    nlinarith
  · obtain ⟨j', rfl⟩ : ∃ j', j = nsx - nLin a nsx + j' := ⟨j - (nsx - nLin a nsx), by omega⟩
    have hj' : j' < nLin a nsx := by
      have := nLin_le g nsx
      omega
    by_cases h0 : i < nsx - nLin a nsx
    · obtain ⟨t', e, _, b, _⟩ := log_place g h0
      obtain ⟨u', e', b', _⟩ := lin_place g hj'
      rw [hi, Option.some.injEq] at e
      rw [hj, Option.some.injEq] at e'
      subst e e'
      linarith
    · obtain ⟨i', rfl⟩ : ∃ i', i = nsx - nLin a nsx + i' := ⟨i - (nsx - nLin a nsx), by omega⟩
      have hi' : i' < nLin a nsx := by omega
      rw [(ages_lin g hi').1, Option.some.injEq] at hi
      rw [(ages_lin g hj').1, Option.some.injEq] at hj
      rw [← hi, ← hj]
      have hn : (0 : ℝ) < nLin a nsx := by exact_mod_cast (by omega : 0 < nLin a nsx)
      have := div_pos (sub_pos.2 (lin_cell g hi').1) hn
      have hc : ((i' + 1 : ℕ) : ℝ) < ((j' + 1 : ℕ) : ℝ) := by exact_mod_cast (by omega : i' + 1 < j' + 1)
      nlinarith

/-- **C85.** For every time axis and every number of cells: there are exactly that many ages; they increase strictly, are
positive and lie on the axis; the first is the axis' youngest if there is a cell on the logarithmic part, the last is its
oldest if there is one on the linear part; and the i-th cell, drawn at fractions 1 − (i+1)/n to 1 − i/n of the width, is
drawn at its age on the axis to within half a cell. -/
theorem C85_age_axis (fuel : ℕ) (xa xb : ℝ) (a : TimeAxis) (h : timeAxis fuel xa xb = some (.ok a)) (n : ℕ) :
    (ages a n).length = n ∧ (ages a n).Pairwise (· < ·) ∧
    (∀ (i : ℕ) (t : ℝ), (ages a n)[i]? = some t → 0 < t ∧ a.tMin ≤ t ∧ t ≤ a.tMax ∧
      1 - ((i : ℝ) + 1) / n - 1 / 2 / n ≤ axisPos a t ∧ axisPos a t ≤ 1 - (i : ℝ) / n + 1 / 2 / n) ∧
    (nLin a n < n → (ages a n)[0]? = some a.tMin) ∧ (0 < nLin a n → (ages a n)[n - 1]? = some a.tMax) := by
  have g := goodAxis h
  refine ⟨ages_length g n, ?_, ?_, ?_, ?_⟩
  · rw [List.pairwise_iff_getElem]
    intro i j hi hj hij
    exact ages_strict g hij (List.getElem?_eq_getElem hi) (List.getElem?_eq_getElem hj)
  · intro i t hi
    have hin : i < n := by
      have := (List.getElem?_eq_some_iff.1 hi).1
      rwa [ages_length g] at this
    obtain ⟨t', e, p1, p2, p3, p4, p5⟩ := place g hin
    rw [hi, Option.some.injEq] at e
    subst e
    refine ⟨p1, p2, p3, ?_, ?_⟩
    · rw [sub_sub, ← add_div]; exact p4
    · rw [sub_div] at p5; linarith
  · intro hl
    have h0 : 0 < n - nLin a n := by omega
    rw [ages_log h0]
    simp [pow10_log10 (log_cell g h0).1]
  · intro hl
    have hle := nLin_le g n
    have := (ages_lin g (nsx := n) (j := nLin a n - 1) (by omega)).1
    rw [show n - nLin a n + (nLin a n - 1) = n - 1 by omega, show nLin a n - 1 + 1 = nLin a n by omega] at this
    rw [this]
    have hn : (nLin a n : ℝ) ≠ 0 := by exact_mod_cast hl.ne'
    rw [mul_div_cancel₀ _ hn]
    simp

/-- **C85, size of the grid.** `n` cells along the shorter side of the figure, and along the longer one as many square cells
of the same size as fit. -/
theorem C85_grid (n : ℕ) (aspect : ℝ) (ha : 0 < aspect) :
    (aspect ≤ 1 → (gridSize n aspect).2 = n ∧ n ≤ (gridSize n aspect).1 ∧
      aspect * (gridSize n aspect).1 ≤ n ∧ n < aspect * ((gridSize n aspect).1 + 1)) ∧
    (1 < aspect → (gridSize n aspect).1 = n ∧ n ≤ (gridSize n aspect).2 ∧
      (gridSize n aspect).2 ≤ aspect * n ∧ aspect * n < (gridSize n aspect).2 + 1) := by
  have hn : (0 : ℝ) ≤ n := Nat.cast_nonneg n
  unfold gridSize
  split_ifs with h1
  · have f1 := Nat.floor_le (mul_nonneg hn ha.le)
    have f2 := Nat.lt_floor_add_one ((n : ℝ) * aspect)
    refine ⟨fun h => absurd h (not_le.2 h1), fun _ => ⟨rfl, Nat.le_floor (by nlinarith), ?_, ?_⟩⟩
    · dsimp only; linarith
    · dsimp only; linarith
  · have h1 := not_lt.1 h1
    have f1 := Nat.floor_le (div_nonneg hn ha.le)
    have f2 := Nat.lt_floor_add_one ((n : ℝ) / aspect)
    rw [le_div_iff₀ ha] at f1
    rw [div_lt_iff₀ ha] at f2
    refine ⟨fun _ => ⟨rfl, Nat.le_floor ?_, ?_, ?_⟩, fun h => absurd h (not_lt.2 h1)⟩
    · rw [le_div_iff₀ ha]; nlinarith
    · dsimp only; linarith
    · dsimp only; linarith

/-- an axis with a logarithmic and a linear part, and one with the linear part only -/
example : (∃ fuel a, timeAxis fuel 0.1 4 = some (.ok a) ∧ a.crossover = true) ∧
    ∃ fuel a, timeAxis fuel 1 4 = some (.ok a) ∧ a.crossover = false := by
  constructor
  · obtain ⟨N, a, h, _, _, _, _, _, _, _, _, _, _, _, _, _, h1, _⟩ := C49_time_axis 0.1 4
    exact ⟨N + 1, a, h _ (by omega), (h1 (by norm_num)).1⟩
  · obtain ⟨N, a, h, _, _, _, _, _, _, _, _, _, _, _, _, _, _, h1⟩ := C49_time_axis 1 4
    exact ⟨N + 1, a, h _ (by omega), (h1 (by norm_num)).1⟩

/-! ### C87 -/

/-- **C87 (the part that holds), whole body.** If the boundary is drawn, exactly the areas above it exceed the area of the
body; it is drawn if the area of the body lies on the axis.  Missing: a body smaller than every area of the axis. -/
theorem C87_whole_globe_partial (y0 y1 maxArea : ℝ) (hy : y0 < y1) (hA : 0 < maxArea) :
    ((wholeGlobe y0 y1 maxArea).isSome ↔ (10 : ℝ) ^ y0 < maxArea ∧ maxArea ≤ (10 : ℝ) ^ y1) ∧
    ∀ y, wholeGlobe y0 y1 maxArea = some y → 0 < y ∧ y ≤ 1 ∧
      ∀ f, maxArea < (10 : ℝ) ^ (y0 + f * (y1 - y0)) ↔ y < f := by
  have k0 : y0 < log10 maxArea ↔ (10 : ℝ) ^ y0 < maxArea := by
    conv_rhs => rw [← pow10_log10 hA]
    exact pow10_lt.symm
  have k1 : log10 maxArea ≤ y1 ↔ maxArea ≤ (10 : ℝ) ^ y1 := by
    conv_rhs => rw [← pow10_log10 hA]
    exact pow10_le.symm
  have hs : searchsorted [y0, y1] (log10 maxArea) = 1 ↔ y0 < log10 maxArea ∧ log10 maxArea ≤ y1 := by
    simp only [searchsorted, List.takeWhile_cons, List.takeWhile_nil]
    by_cases h0 : y0 < log10 maxArea
    · by_cases h1 : y1 < log10 maxArea
      · simp [h0, h1]
      · simp [h0, not_lt.1 h1]
    · simp [h0]
  unfold wholeGlobe
  constructor
  · rw [← k0, ← k1, ← hs]
    split_ifs with h <;> simp [h]
  · intro y
    split_ifs with h
    · rw [hs] at h
      rw [max_eq_right hy.le, min_eq_left hy.le]
      intro e
      injection e with e
      have hw : 0 < y1 - y0 := by linarith
      have ey : log10 maxArea = y0 + y * (y1 - y0) := by rw [← e]; field_simp; ring
      refine ⟨by rw [← e]; exact div_pos (by linarith) hw, by rw [← e, div_le_one hw]; linarith, ?_⟩
      intro f
      rw [← pow10_log10 hA, pow10_lt, ey]
      constructor
      · intro h; nlinarith
      · intro h; nlinarith
    · intro h; cases h

/-- a body of 10^3 km² on an axis from 10^5 km²: every area exceeds it, but no boundary is drawn and nothing is shaded -/
theorem C87_small_body_counterexample : ∃ y0 y1 maxArea : ℝ, y0 < y1 ∧ 0 < maxArea ∧
    (∀ f, 0 ≤ f → maxArea < (10 : ℝ) ^ (y0 + f * (y1 - y0))) ∧ wholeGlobe y0 y1 maxArea = none := by
  have e : (1000 : ℝ) = (10 : ℝ) ^ (3 : ℝ) := by norm_num
  refine ⟨5, 7, 1000, by norm_num, by norm_num, ?_, ?_⟩
  · intro f hf
    rw [e, pow10_lt]
    nlinarith
  · unfold wholeGlobe
    rw [e, log10_pow10]
    norm_num [searchsorted, List.takeWhile_cons]

theorem axisPos_strict {a : TimeAxis} (g : GoodAxis a) {s t : ℝ} (hs : a.tMin ≤ s) (hst : s < t) (ht : t ≤ a.tMax) :
    axisPos a t < axisPos a s := by
  unfold axisPos
  rcases g.cases with ⟨h1, h2, h3, h4, h5⟩ | ⟨h1, h2⟩
  · have hlog : 0 < log10 a.tCrossover - log10 a.tMin := by
      rw [sub_pos, log10_lt h1 (by linarith)]; exact h2
    have hx0 : a.tCrossover < t → 0 < a.xfracLinear ∧ 0 < a.tMax - a.tCrossover := by
      intro h
      refine ⟨lt_of_le_of_ne h3 (fun h0 => ?_), by linarith⟩
      linarith [h5.1 h0.symm]
    split_ifs with ct cs cs
    · obtain ⟨hx0, hw⟩ := hx0 ct
      gcongr
    · obtain ⟨hx0, hw⟩ := hx0 ct
      have u1 : (a.tMax - t) / (a.tMax - a.tCrossover) < 1 := by rw [div_lt_one hw]; linarith
      have u2 : 0 ≤ (log10 a.tCrossover - log10 s) / (log10 a.tCrossover - log10 a.tMin) := by
        refine div_nonneg ?_ hlog.le
        rw [sub_nonneg, log10_le (by linarith) (by linarith)]
        linarith
      have := mul_nonneg (sub_nonneg.2 h4.le) u2
      nlinarith
    · linarith
    · have : log10 s < log10 t := (log10_lt (by linarith) (by linarith)).2 hst
      have : 0 < 1 - a.xfracLinear := by linarith
      gcongr
  · have hw : 0 < a.tMax - a.tCrossover := by linarith
    have c1 : a.tCrossover < t := by linarith
    rw [if_pos c1, h2]
    split_ifs with cs
    · gcongr
    · have : (a.tMax - t) / (a.tMax - a.tCrossover) < 1 := by rw [div_lt_one hw]; linarith
      linarith

theorem axisPos_range {a : TimeAxis} (g : GoodAxis a) {t : ℝ} (h0 : a.tMin ≤ t) (h1 : t ≤ a.tMax) :
    0 ≤ axisPos a t ∧ axisPos a t ≤ 1 := by
  have e1 : axisPos a a.tMin = 1 := by
    unfold axisPos
    rcases g.cases with ⟨k1, k2, _⟩ | ⟨k1, k2⟩
    · have hlog : 0 < log10 a.tCrossover - log10 a.tMin := by
        rw [sub_pos, log10_lt k1 (by linarith)]; exact k2
      rw [if_neg (by linarith), div_self hlog.ne']; ring
    · rw [if_neg (by linarith), k2]; ring
  have e0 : axisPos a a.tMax = 0 := by
    unfold axisPos
    rcases g.cross_le.lt_or_eq with h | h
    · rw [if_pos h]; simp
    · rw [if_neg (by linarith)]
      rcases g.cases with ⟨_, _, _, _, k5⟩ | ⟨k1, _⟩
      · rw [k5.2 h.symm, h]; simp
      · linarith [g.lt]
  constructor
  · rw [← e0]
    rcases h1.lt_or_eq with h | h
    · exact (axisPos_strict g h0 h le_rfl).le
    · rw [h]
  · conv_rhs => rw [← e1]
    rcases h0.lt_or_eq with h | h
    · exact (axisPos_strict g le_rfl h h1).le
    · rw [h]

/-- **C87 (the part that holds), saturation.** If the boundary is drawn, exactly the ages drawn on its old side exceed the
saturation age; it is drawn if this age lies on the axis.  Missing: saturation before every age of the axis. -/
theorem C87_saturation_partial (fuel : ℕ) (xa xb : ℝ) (a : TimeAxis) (h : timeAxis fuel xa xb = some (.ok a)) (T : ℝ) :
    ((saturationX a T).isSome ↔ a.tMin < T ∧ T ≤ a.tMax) ∧
    ∀ x, saturationX a T = some x → 0 ≤ x ∧ x ≤ 1 ∧
      ∀ t, a.tMin ≤ t → t ≤ a.tMax → (axisPos a t < x ↔ T < t) := by
  have g := goodAxis h
  have hc0 : a.tMin ≤ a.tCrossover := by
    rcases g.cases with ⟨_, k, _⟩ | ⟨k, _⟩
    · exact k.le
    · exact k.symm.le
  have hc1 := g.cross_le
  have key : saturationX a T = if a.tMin < T ∧ T ≤ a.tMax then some (axisPos a T) else none := by
    have hs : searchsorted [a.tMin, a.tCrossover, a.tMax] T =
        if T ≤ a.tMin then 0 else if T ≤ a.tCrossover then 1 else if T ≤ a.tMax then 2 else 3 := by
      simp only [searchsorted, List.takeWhile_cons, List.takeWhile_nil]
      by_cases h0 : a.tMin < T
      · by_cases h1 : a.tCrossover < T
        · by_cases h2 : a.tMax < T
          · simp [h0, h1, h2, not_le.2 h0, not_le.2 h1, not_le.2 h2]
          · simp [h0, h1, h2, not_le.2 h0, not_le.2 h1, not_lt.1 h2]
        · simp [h0, h1, not_le.2 h0, not_lt.1 h1]
      · simp [h0, not_lt.1 h0]
    unfold saturationX
    dsimp only
    rw [hs]
    by_cases h0 : T ≤ a.tMin
    · rw [if_pos h0, if_neg (by omega), if_neg (by omega), if_neg (by intro h; linarith [h.1])]
    · by_cases h1 : T ≤ a.tCrossover
      · rw [if_neg h0, if_pos h1, if_pos rfl, if_pos ⟨not_le.1 h0, h1.trans hc1⟩, axisPos, if_neg (by linarith)]
        rw [mul_div_assoc]
      · by_cases h2 : T ≤ a.tMax
        · rw [if_neg h0, if_neg h1, if_pos h2, if_neg (by omega), if_pos rfl, if_pos ⟨not_le.1 h0, h2⟩, axisPos,
            if_pos (not_le.1 h1), mul_div_assoc]
        · rw [if_neg h0, if_neg h1, if_neg h2, if_neg (by omega), if_neg (by omega), if_neg (by intro h; exact h2 h.2)]
  rw [key]
  split_ifs with hT
  · refine ⟨by simp [hT], ?_⟩
    intro x hx
    injection hx with hx
    subst hx
    obtain ⟨r0, r1⟩ := axisPos_range g hT.1.le hT.2
    refine ⟨r0, r1, ?_⟩
    intro t t0 t1
    constructor
    · intro hlt
      by_contra hle
      rcases (not_lt.1 hle).lt_or_eq with hle | rfl
      · exact absurd (axisPos_strict g t0 hle hT.2) (not_lt.2 hlt.le)
      · exact absurd hlt (lt_irrefl _)
    · intro hlt
      exact axisPos_strict g hT.1.le hlt t1
  · exact ⟨by simpa using hT, fun x hx => by cases hx⟩

/-- saturation at 0.5 Ga on an axis from 1 Ga: every age of the axis exceeds it, but no boundary is drawn -/
theorem C87_early_saturation_counterexample : ∃ (fuel : ℕ) (xa xb : ℝ) (a : TimeAxis) (T : ℝ),
    timeAxis fuel xa xb = some (.ok a) ∧ 0 < T ∧ (∀ t, a.tMin ≤ t → T < t) ∧ saturationX a T = none := by
  obtain ⟨N, a, h, _, h3, _, _, _, _, _, _, _, _, _, _, _, _, h1⟩ := C49_time_axis 1 4
  obtain ⟨_, e⟩ := h1 (by norm_num)
  have hM : a.tMin = 1 := by
    rw [e, show min (1 : ℝ) 4 = 1 by norm_num, min_eq_left (by norm_num; linarith), max_eq_right zero_le_one]
  refine ⟨N + 1, 1, 4, a, 0.5, h _ (by omega), by norm_num, ?_, ?_⟩
  · intro t ht
    rw [hM] at ht
    norm_num; linarith
  · have := (C87_saturation_partial (N + 1) 1 4 a (h _ (by omega)) 0.5).1
    rw [hM] at this
    rw [← Option.not_isSome_iff_eq_none, this]
    norm_num

/-- **C87, saturation age.** The age of saturation is the age the chronology gives for the 1 km density n of the isochron which
has exactly the equilibrium density at the smallest diameter. -/
theorem C87_saturation_age (pf : PFn) (hf : (∃ a r, pf = initPoly a r) ∨ ∃ h, ∃ idx : ℕ, idx < h.length ∧ initTab h idx = .ok pf)
    (c : Chron) (dmin ef T : ℝ) (hef : 0 < ef) (v a : ℝ) (hv : pf.C dmin 0 = .ok v) (hv0 : 0 < v) (ha : pf.defaultA0 = .ok a)
    (h : saturationAge pf c dmin ef = .ok T) :
    ∃ n, 0 < n ∧ pf.C dmin (log10 n) = .ok ef ∧ c.t none (some n) = .ok T := by
  have hC : Constructed pf := by
    rcases hf with h | ⟨h, idx, _, e⟩
    · exact Or.inl h
    · exact Or.inr ⟨h, idx, e⟩
  have hs : ∀ x, pf.C dmin x = .ok ((10 : ℝ) ^ x * v) := by
    intro x
    have := (C16_scaling pf hC dmin 0 x v).1 hv
    rwa [zero_add] at this
  have h1 : ∀ x, pf.C 1 x = .ok ((10 : ℝ) ^ x) := fun x => C16_at_1km pf hf x
  have e : ∀ d, pf.evaluate .cumulative d none = pf.C d a := by
    intro d
    simp only [PFn.evaluate, ha, except_ok_bind]
  have hne : (10 : ℝ) ^ a * v ≠ 0 := (mul_pos (pow10_pos _) hv0).ne'
  simp only [saturationAge, e, hs, h1, except_ok_bind, fdiv, if_neg hne] at h
  have hn : ef * (10 : ℝ) ^ a / ((10 : ℝ) ^ a * v) = ef / v := by
    have := (pow10_pos a).ne'
    field_simp
  rw [hn] at h
  have hpos : 0 < ef / v := div_pos hef hv0
  refine ⟨ef / v, hpos, ?_, h⟩
  rw [hs, pow10_log10 hpos, div_mul_cancel₀ _ hv0.ne']

/-! ### C86 -/

theorem density_eq {pf : PFn} (hf : Constructed pf) {c : Chron} {p0 p1 p3 : ℝ} (hc : GoodChron c p0 p1 p3) {dmin v0 v1 x N : ℝ}
    (h0 : pf.C dmin 0 = .ok v0) (h1 : pf.C 1000 0 = .ok v1) (hN : c.N1 ((10 : ℝ) ^ x) = .ok N) (hN1 : N ≠ 1) :
    0 < N ∧ density pf c dmin x = .ok (N * v0 - N * v1) := by
  have tN := (Built.tables hc).2.1
  obtain ⟨q, hq, e0, e1, e3, g0, g1, g3⟩ := hc
  have hmono := n1_strictMono g0 g1 g3
  have hz : n1Coeff p0 p1 p3 0 = 0 := by simp [n1Coeff]
  have hpos : 0 < N := by
    rw [tN] at hN
    injection hN with hN
    rw [← hN, ← hz]
    exact hmono (pow10_pos x)
  have ha : c.a0 ((10 : ℝ) ^ x) = .ok (log10 N) := by
    simp only [Chron.a0, hN, except_ok_bind, if_pos hpos]
  have hne : log10 N ≠ 0 := by
    intro h
    have := pow10_log10 hpos
    rw [h] at this
    exact hN1 (by rw [← this]; simp)
  have s0 := (C16_scaling pf hf dmin 0 (log10 N) v0).1 h0
  have s1 := (C16_scaling pf hf 1000 0 (log10 N) v1).1 h1
  rw [zero_add, pow10_log10 hpos] at s0 s1
  refine ⟨hpos, ?_⟩
  simp only [density, ha, except_ok_bind, (C18_evaluate_partial pf .cumulative dmin).1 _ _ hne rfl,
    (C18_evaluate_partial pf .cumulative 1000).1 _ _ hne rfl, s0, s1]

/-- **C86.** In every cell the expected number is (N(≥dmin) − N(≥1000 km)) · area on the isochron of the cell's age; the crater
number is drawn for this expectation, from 1e5 on it is its integer part; `ratio` times the cell's age is the median of the
age distribution of that crater number on that area, and `err` the geometric half-width of its 1-σ interval: (1 + err)² times
the lower bound is the upper bound.  `err` is not negative, `ratio` positive. -/
theorem C86_cell (pf : PFn) (hf : Constructed pf) (c : Chron) (simpson : Simpson) (draw : ℝ → ℕ) (dmin x y : ℝ) (p0 p1 p3 : ℝ)
    (hc : GoodChron c p0 p1 p3) (v0 v1 N : ℝ) (h0 : pf.C dmin 0 = .ok v0) (h1 : pf.C 1000 0 = .ok v1) (hv : v1 < v0)
    (hN : c.N1 ((10 : ℝ) ^ x) = .ok N) (hN1 : N ≠ 1) (r : Cell) (h : cell pf c simpson draw dmin x y = .ok r) :
    (∃ Nlo Nhi, pf.C dmin (log10 N) = .ok Nlo ∧ pf.C 1000 (log10 N) = .ok Nhi ∧ r.lam = (Nlo - Nhi) * (10 : ℝ) ^ y) ∧ 0 < r.lam ∧
    (r.lam < 100000 → r.k = draw r.lam) ∧ (100000 ≤ r.lam → (r.k : ℝ) ≤ r.lam ∧ r.lam < r.k + 1) ∧
    0 ≤ r.err ∧ 0 < r.ratio ∧
    ∃ p med low up, Craterpdf.init pf c simpson ⟨some [Real.sqrt (dmin * 1000)], [], (10 : ℝ) ^ y, none⟩ dmin 1000 (some (r.k : ℝ))
        none false 2000 = .ok p ∧ p.median1sigma = [med, low, up] ∧ r.ratio * (10 : ℝ) ^ x = med ∧ (1 + r.err) ^ 2 * low = up := by
  obtain ⟨hpos, hd⟩ := density_eq hf hc h0 h1 hN hN1
  have s0 := (C16_scaling pf hf dmin 0 (log10 N) v0).1 h0
  have s1 := (C16_scaling pf hf 1000 0 (log10 N) v1).1 h1
  rw [zero_add, pow10_log10 hpos] at s0 s1
  have hlam : 0 < (N * v0 - N * v1) * (10 : ℝ) ^ y := mul_pos (by nlinarith) (pow10_pos y)
  unfold cell at h
  simp only [hd, except_ok_bind] at h
  obtain ⟨k, hk, h⟩ := except_bind_eq_ok h
  obtain ⟨p, hp, h⟩ := except_bind_eq_ok h
  obtain ⟨med, low, up, e, g1, g2, g3, _, o1, o2, o3⟩ := C24_reported_age pf c simpson _ _ _ _ _ _ p0 p1 p3 hc p hp
  have hlow : 0 < low := by rw [g2]; exact t_pos hc hp _
  rw [e] at h
  simp only [fdiv, if_neg hlow.ne', if_neg (pow10_pos x).ne', except_ok_bind, Except.ok.injEq] at h
  have hq : 1 ≤ up / low := by rw [le_div_iff₀ hlow]; linarith
  have hs : 1 ≤ Real.sqrt (up / low) := Real.one_le_sqrt.2 hq
  subst h
  refine ⟨⟨_, _, s0, s1, rfl⟩, hlam, ?_, ?_, ?_, ?_, p, med, low, up, hp, e, ?_, ?_⟩
  · intro hl
    simp only [drawNumber] at hk
    rw [if_pos (by norm_num; exact hl), if_neg (not_lt.2 hlam.le)] at hk
    injection hk with hk
    exact hk.symm
  · intro hl
    simp only [drawNumber] at hk
    rw [if_neg (by norm_num; exact hl)] at hk
    injection hk with hk
    subst hk
    exact ⟨Nat.floor_le hlam.le, Nat.lt_floor_add_one _⟩
  · show 0 ≤ Real.sqrt (up / low) - 1
    linarith
  · exact div_pos (by linarith) (pow10_pos x)
  · exact div_mul_cancel₀ _ (pow10_pos x).ne'
  · show (1 + (Real.sqrt (up / low) - 1)) ^ 2 * low = up
    rw [add_sub_cancel, Real.sq_sqrt (by linarith), div_mul_cancel₀ _ hlow.ne']

/-- **C86, order.** The expected number does not decrease with age or area, and increases strictly with each. -/
theorem C86_monotone (pf : PFn) (hf : Constructed pf) (c : Chron) (simpson : Simpson) (draw draw' : ℝ → ℕ) (dmin x y x' y' : ℝ)
    (p0 p1 p3 : ℝ) (hc : GoodChron c p0 p1 p3) (v0 v1 : ℝ) (h0 : pf.C dmin 0 = .ok v0) (h1 : pf.C 1000 0 = .ok v1) (hv : v1 < v0)
    (hx : c.N1 ((10 : ℝ) ^ x) ≠ .ok 1) (hx' : c.N1 ((10 : ℝ) ^ x') ≠ .ok 1) (r r' : Cell)
    (h : cell pf c simpson draw dmin x y = .ok r) (h' : cell pf c simpson draw' dmin x' y' = .ok r') (hxx : x ≤ x') (hyy : y ≤ y') :
    r.lam ≤ r'.lam ∧ (x < x' ∨ y < y' → r.lam < r'.lam) := by
  have tN := (Built.tables hc).2.1
  have key : ∀ dr x y r, c.N1 ((10 : ℝ) ^ x) ≠ .ok 1 → cell pf c simpson dr dmin x y = .ok r →
      0 < n1Coeff p0 p1 p3 ((10 : ℝ) ^ x) ∧ r.lam = n1Coeff p0 p1 p3 ((10 : ℝ) ^ x) * (v0 - v1) * (10 : ℝ) ^ y := by
    intro dr x y r hx h
    have hN1 : n1Coeff p0 p1 p3 ((10 : ℝ) ^ x) ≠ 1 := by
      intro e; rw [tN, e] at hx; exact hx rfl
    obtain ⟨hpos, _⟩ := density_eq hf hc h0 h1 (tN _) hN1
    obtain ⟨⟨Nlo, Nhi, e1, e2, e3⟩, _⟩ := C86_cell pf hf c simpson dr dmin x y p0 p1 p3 hc v0 v1 _ h0 h1 hv (tN _) hN1 r h
    have s0 := (C16_scaling pf hf dmin 0 (log10 (n1Coeff p0 p1 p3 ((10 : ℝ) ^ x))) v0).1 h0
    have s1 := (C16_scaling pf hf 1000 0 (log10 (n1Coeff p0 p1 p3 ((10 : ℝ) ^ x))) v1).1 h1
    rw [zero_add, pow10_log10 hpos] at s0 s1
    rw [s0] at e1
    rw [s1] at e2
    injection e1 with e1
    injection e2 with e2
    refine ⟨hpos, ?_⟩
    rw [e3, ← e1, ← e2]; ring
  obtain ⟨a1, a2⟩ := key draw x y r hx h
  obtain ⟨b1, b2⟩ := key draw' x' y' r' hx' h'
  obtain ⟨q, hq, e0, e1, e3, g0, g1, g3⟩ := hc
  have hmono := n1_strictMono g0 g1 g3
  have hw : 0 < v0 - v1 := by linarith
  have m1 : n1Coeff p0 p1 p3 ((10 : ℝ) ^ x) ≤ n1Coeff p0 p1 p3 ((10 : ℝ) ^ x') := hmono.monotone (pow10_le.2 hxx)
  have m2 : (10 : ℝ) ^ y ≤ (10 : ℝ) ^ y' := pow10_le.2 hyy
  have hy := pow10_pos y
  have hy' := pow10_pos y'
  rw [a2, b2]
  refine ⟨by gcongr, ?_⟩
  rintro (hlt | hlt)
  · have m : n1Coeff p0 p1 p3 ((10 : ℝ) ^ x) < n1Coeff p0 p1 p3 ((10 : ℝ) ^ x') := hmono (pow10_lt.2 hlt)
    exact mul_lt_mul_of_lt_of_le_of_nonneg_of_pos (mul_lt_mul_of_pos_right m hw) m2 (mul_pos a1 hw).le hy'
  · have m : (10 : ℝ) ^ y < (10 : ℝ) ^ y' := pow10_lt.2 hlt
    exact mul_lt_mul_of_le_of_lt_of_pos_of_nonneg (mul_le_mul_of_nonneg_right m1 hw.le) m (mul_pos a1 hw) hy'.le

/-- **C86, defined.** The cell is computed whenever the drawn number is at most 1e5 times the number expected at 1 Ga. -/
theorem C86_defined (pf : PFn) (hf : Constructed pf) (c : Chron) (simpson : Simpson) (draw : ℝ → ℕ) (dmin x y : ℝ) (p0 p1 p3 : ℝ)
    (hc : GoodChron c p0 p1 p3) (v0 v1 N M : ℝ) (h0 : pf.C dmin 0 = .ok v0) (h1 : pf.C 1000 0 = .ok v1) (hv1 : 0 < v1) (hv : v1 < v0)
    (hN : c.N1 ((10 : ℝ) ^ x) = .ok N) (hN1 : N ≠ 1) (hM : c.N1 1 = .ok M) (hM1 : M ≠ 1)
    (hk : ∀ lam, lam = (N * v0 - N * v1) * (10 : ℝ) ^ y →
      ((if lam < 1e5 then draw lam else ⌊lam⌋₊ : ℕ) : ℝ) ≤ (M * v0 - M * v1) * 10 ^ 5 * (10 : ℝ) ^ y) :
    ∃ r, cell pf c simpson draw dmin x y = .ok r := by
  obtain ⟨hpos, hd⟩ := density_eq hf hc h0 h1 hN hN1
  have hM' : c.N1 ((10 : ℝ) ^ (0 : ℝ)) = .ok M := by rw [Real.rpow_zero]; exact hM
  obtain ⟨hMpos, _⟩ := density_eq hf hc h0 h1 hM' hM1
  have hlam : 0 < (N * v0 - N * v1) * (10 : ℝ) ^ y := mul_pos (by nlinarith) (pow10_pos y)
  have ha : c.a0 1 = .ok (log10 M) := by simp only [Chron.a0, hM, except_ok_bind, if_pos hMpos]
  have hne : log10 M ≠ 0 := by
    intro h
    have := pow10_log10 hMpos
    rw [h] at this
    exact hM1 (by rw [← this]; simp)
  have s0 := (C16_scaling pf hf dmin 0 (log10 M) v0).1 h0
  have s1 := (C16_scaling pf hf 1000 0 (log10 M) v1).1 h1
  rw [zero_add, pow10_log10 hMpos] at s0 s1
  have hdraw : drawNumber draw ((N * v0 - N * v1) * (10 : ℝ) ^ y) =
      .ok (if (N * v0 - N * v1) * (10 : ℝ) ^ y < 1e5 then draw ((N * v0 - N * v1) * (10 : ℝ) ^ y) else ⌊(N * v0 - N * v1) * (10 : ℝ) ^ y⌋₊) := by
    unfold drawNumber
    rw [if_neg (not_lt.2 hlam.le)]
    split_ifs <;> rfl
  obtain ⟨p, hp, _⟩ := C23_defined pf c simpson ⟨some [Real.sqrt (dmin * 1000)], [], (10 : ℝ) ^ y, none⟩ dmin 1000
    (some (((if (N * v0 - N * v1) * (10 : ℝ) ^ y < 1e5 then draw ((N * v0 - N * v1) * (10 : ℝ) ^ y) else ⌊(N * v0 - N * v1) * (10 : ℝ) ^ y⌋₊ : ℕ)) : ℝ))
    2000 (by norm_num) p0 p1 p3 hc (log10 M) (M * v0) (M * v1) ha
    (by rw [(C18_evaluate_partial pf .cumulative dmin).1 _ _ hne rfl, s0])
    (by rw [(C18_evaluate_partial pf .cumulative 1000).1 _ _ hne rfl, s1])
    (mul_pos hMpos hv1) (by nlinarith) (pow10_pos y) _ rfl (hk _ rfl)
  obtain ⟨med, low, up, e, g1, g2, g3, _, o1, o2, o3⟩ := C24_reported_age pf c simpson _ _ _ _ _ _ p0 p1 p3 hc p hp
  have hlow : 0 < low := by rw [g2]; exact t_pos hc hp _
  unfold cell
  simp only [hd, except_ok_bind, hdraw, hp, e, fdiv, if_neg hlow.ne', if_neg (pow10_pos x).ne']
  exact ⟨_, rfl⟩

/-- **C86, grid.** The grid has a row for every age and in each row a cell for every area, in order, each computed from its
own age and area. -/
theorem C86_grid (pf : PFn) (c : Chron) (simpson : Simpson) (draw : ℝ → ℕ) (dmin : ℝ) (xs ys : List ℝ) (m : List (List Cell))
    (h : grid pf c simpson draw dmin xs ys = .ok m) :
    m.length = xs.length ∧ ∀ (i : ℕ) (row : List Cell) (x : ℝ), m[i]? = some row → xs[i]? = some x → row.length = ys.length ∧
      ∀ (j : ℕ) (r : Cell) (y : ℝ), row[j]? = some r → ys[j]? = some y → cell pf c simpson draw dmin x y = .ok r := by
  obtain ⟨h1, h2⟩ := mapM_length h
  refine ⟨h1, ?_⟩
  intro i row x hr hx
  obtain ⟨a1, rfl⟩ := List.getElem?_eq_some_iff.1 hr
  obtain ⟨a2, rfl⟩ := List.getElem?_eq_some_iff.1 hx
  obtain ⟨h3, h4⟩ := mapM_length (h2 i a2 a1)
  refine ⟨h3, ?_⟩
  intro j r y hr hy
  obtain ⟨b1, rfl⟩ := List.getElem?_eq_some_iff.1 hr
  obtain ⟨b2, rfl⟩ := List.getElem?_eq_some_iff.1 hy
  exact h4 j b2 b1

/-- two craters per area and Ga and a 1/D production function: cells of 10 km² and of 10^6 km², of 1 Ga, exist -/
example (simpson : Simpson) : ∃ (c : Chron) (r r' : Cell), GoodChron c 0 0 2 ∧ Constructed (initPoly [0, -1] none) ∧
    (initPoly [0, -1] none).C 1 0 = .ok 1 ∧ (initPoly [0, -1] none).C 1000 0 = .ok (1 / 1000) ∧ c.N1 ((10 : ℝ) ^ (0 : ℝ)) = .ok 2 ∧
    cell (initPoly [0, -1] none) c simpson (fun _ => 3) 1 0 1 = .ok r ∧ cell (initPoly [0, -1] none) c simpson (fun _ => 3) 1 0 6 = .ok r' := by
  obtain ⟨c, hg, hN, _⟩ := age_example simpson none
  have hC : ∀ d : ℝ, 0 < d → (initPoly [0, -1] none).C d 0 = .ok (1 / d) := by
    intro d hd
    simp [initPoly, PFn.C, polyC_eq hd, poly_cons, poly_nil, Real.rpow_neg, pow10_log10 hd]
  have h0 := hC 1 one_pos
  have h1 := hC 1000 (by norm_num)
  rw [div_one] at h0
  have hN' : c.N1 ((10 : ℝ) ^ (0 : ℝ)) = .ok 2 := by rw [Real.rpow_zero]; exact hN
  have hk : ∀ y : ℝ, 1 ≤ y → ∀ lam, lam = ((2 : ℝ) * 1 - 2 * (1 / 1000)) * (10 : ℝ) ^ y →
      ((if lam < 1e5 then (fun _ => 3) lam else ⌊lam⌋₊ : ℕ) : ℝ) ≤ (2 * 1 - 2 * (1 / 1000)) * 10 ^ 5 * (10 : ℝ) ^ y := by
    intro y hy lam hl
    have h10 : (10 : ℝ) ≤ (10 : ℝ) ^ y := by
      calc (10 : ℝ) = (10 : ℝ) ^ (1 : ℝ) := by norm_num
        _ ≤ _ := pow10_le.2 hy
    split_ifs
    · push_cast
      nlinarith
    · refine (Nat.floor_le (by rw [hl]; nlinarith)).trans ?_
      rw [hl]
      nlinarith
  obtain ⟨r, hr⟩ := C86_defined (initPoly [0, -1] none) (Or.inl ⟨_, _, rfl⟩) c simpson (fun _ => 3) 1 0 1 0 0 2 hg 1 (1 / 1000) 2 2 h0 h1
    (by norm_num) (by norm_num) hN' (by norm_num) hN (by norm_num) (hk 1 le_rfl)
  obtain ⟨r', hr'⟩ := C86_defined (initPoly [0, -1] none) (Or.inl ⟨_, _, rfl⟩) c simpson (fun _ => 3) 1 0 6 0 0 2 hg 1 (1 / 1000) 2 2 h0 h1
    (by norm_num) (by norm_num) hN' (by norm_num) hN (by norm_num) (hk 6 (by norm_num))
  exact ⟨c, r, r', hg, Or.inl ⟨_, _, rfl⟩, h0, h1, hN', hr, hr'⟩

/-- and the saturation age of such a surface with one crater ≥ 1 km per km² -/
example (simpson : Simpson) : ∃ (c : Chron) (T : ℝ), GoodChron c 0 0 2 ∧ saturationAge (initPoly [0, -1] none) c 1 1 = .ok T := by
  obtain ⟨c, hg, hN, _⟩ := age_example simpson none
  refine ⟨c, interp c.n1s c.ts 1, hg, ?_⟩
  have e : (initPoly [0, -1] none).evaluate .cumulative 1 none = .ok 1 := by
    simp [PFn.evaluate, initPoly, PFn.defaultA0, PFn.C, polyC_eq one_pos, poly_cons, poly_nil, except_ok_bind, log10_one]
  simp only [saturationAge, e, except_ok_bind, fdiv]
  norm_num [Chron.t, except_ok_bind]

end

end Verif.Props
