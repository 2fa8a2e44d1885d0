import Verif.Lemmas.Plot
import Verif.Spec.Table

/-! Lemmas about `decode_range`. -/

namespace Verif.Cratercount
open Verif.Py Verif.Spec

theorem step_gt : (1.004 : ℝ) < (10 : ℝ) ^ (0.002 : ℝ) := by
  have h2 : (1.004 : ℝ) ^ (500 : ℕ) < ((10 : ℝ) ^ (0.002 : ℝ)) ^ (500 : ℕ) := by
    rw [← Real.rpow_natCast ((10 : ℝ) ^ (0.002 : ℝ)), ← Real.rpow_mul (by norm_num)]
    have e : (0.002 : ℝ) * ((500 : ℕ) : ℝ) = 1 := by norm_num
    rw [e, Real.rpow_one]
    have : (1.004 : ℝ) ^ (500 : ℕ) = ((1.004 : ℝ) ^ 50) ^ 10 := by rw [← pow_mul]
    rw [this]
    have h3 : (1.004 : ℝ) ^ 50 < 1.2210 := by norm_num
    calc ((1.004 : ℝ) ^ 50) ^ 10 < (1.2210 : ℝ) ^ 10 := by gcongr
      _ < 10 := by norm_num
  exact lt_of_pow_lt_pow_left₀ 500 (by positivity) h2

theorem applyBinning_contiguous {b : Binning} (hb : b ≠ .none) {off : ℝ} {cs : List Crater} {t : List Bin}
    (h : applyBinning b off cs = .ok t) : Contiguous t := by
  obtain ⟨A, m, hm, hlen, hte, hcr, hcol⟩ := table_cols hb h
  refine ⟨?_, ?_, ?_, ?_⟩
  · intro x hx
    obtain ⟨i, hi, rfl⟩ := List.getElem_of_mem hx
    rw [(hcol i hi).1]; exact gridFn_pos _ _ _
  · intro x hx
    obtain ⟨i, hi, rfl⟩ := List.getElem_of_mem hx
    rw [(hcol i hi).1, (hcol i hi).2.1]
    have h1 := gridFn_step hb off (A + i)
    have h2 := gridFn_pos b off (A + i)
    have := step_gt
    nlinarith
  · intro x hx
    obtain ⟨i, hi, rfl⟩ := List.getElem_of_mem hx
    exact (hcol i hi).2.2.1
  · intro i hi
    rw [(hcol i (by omega)).2.1, (hcol (i + 1) hi).1]
    congr 1; push_cast; ring

section
variable {t : List Bin} (ht : Contiguous t)
include ht

theorem dMin_lt_dMax (i : ℕ) (hi : i < t.length) : t[i].dMin * 1.004 < t[i].dMax ∧ 0 < t[i].dMin :=
  ⟨ht.ratio _ (List.getElem_mem hi), ht.pos _ (List.getElem_mem hi)⟩

theorem dMin_mono {i j : ℕ} (hij : i < j) (hj : j < t.length) : t[i].dMin * 1.004 < t[j].dMin := by
  induction j with
  | zero => omega
  | succ j ih =>
    have h1 := ht.next j hj
    obtain ⟨h2, h3⟩ := dMin_lt_dMax ht j (by omega)
    rcases Nat.lt_succ_iff_lt_or_eq.1 hij with h | h
    · have := ih h (by omega)
      linarith
    · subst h; linarith

theorem dMax_le_dMin {i j : ℕ} (hij : i < j) (hj : j < t.length) : t[i].dMax ≤ t[j].dMin := by
  rcases Nat.lt_or_ge (i + 1) j with h | h
  · have h1 := dMin_mono ht h hj
    have h2 := ht.next i (by omega)
    have h3 := (dMin_lt_dMax ht (i + 1) (by omega)).2
    rw [h2]; linarith
  · have : j = i + 1 := by omega
    subst this
    exact (ht.next i hj).le

theorem dMax_mono {i j : ℕ} (hij : i < j) (hj : j < t.length) : t[i].dMax * 1.004 < t[j].dMax := by
  have h1 := dMax_le_dMin ht hij hj
  obtain ⟨h2, h3⟩ := dMin_lt_dMax ht j hj
  linarith

theorem mean_bounds (i : ℕ) (hi : i < t.length) : t[i].dMin * 1.001 < t[i].dMean ∧ t[i].dMean * 1.001 < t[i].dMax := by
  obtain ⟨h1, h2⟩ := dMin_lt_dMax ht i hi
  have h3 := ht.mean _ (List.getElem_mem hi)
  rw [h3]
  constructor
  · rw [Real.lt_sqrt (by linarith)]; nlinarith
  · have : Real.sqrt (t[i].dMax * t[i].dMin) < t[i].dMax / 1.001 := by
      have h4 : 0 < t[i].dMax := by linarith
      rw [Real.sqrt_lt' (by positivity), div_pow, lt_div_iff₀ (by norm_num)]
      nlinarith
    have h5 := (lt_div_iff₀ (by norm_num : (0 : ℝ) < 1.001)).1 this
    linarith

end

theorem map_searchsorted (t : List Bin) (f : Bin → ℝ) (x : ℝ) :
    searchsorted (t.map fun b => (f b : EReal)) (x : EReal) = searchsorted (t.map f) x := by
  unfold searchsorted
  induction t with
  | nil => rfl
  | cons y t ih =>
    simp only [List.map_cons, List.takeWhile_cons, EReal.coe_lt_coe_iff]
    by_cases h : f y < x
    · simp [h, ih]
    · simp [h]

/-- the lower limit is snapped to the bin it lies in -/
theorem snapLow_eq (t : List Bin) (ht : Contiguous t) (x : ℝ) (i : ℕ) (hi : i < t.length)
    (h1 : i = 0 ∨ t[i].dMin < x * 1.0000001) (h2 : ∀ h : i + 1 < t.length, x * 1.0000001 ≤ t[i + 1].dMin) :
    snapLow t (x : EReal) = .ok (t[i].dMin : EReal) := by
  have hss : searchsorted (t.map fun b => (b.dMin : EReal)) ((x : EReal) * ((1.0000001 : ℝ) : EReal)) - 1 = i := by
    rw [← EReal.coe_mul, map_searchsorted]
    have hle := searchsorted_le_length (t.map Bin.dMin) (x * 1.0000001)
    rw [List.length_map] at hle
    have hup : searchsorted (t.map Bin.dMin) (x * 1.0000001) ≤ i + 1 := by
      by_contra hc
      have := lt_of_lt_searchsorted (a := t.map Bin.dMin) (v := x * 1.0000001) (i := i + 1) (by simp; omega) (by omega)
      rw [List.getElem_map] at this
      exact absurd (h2 (by omega)) (not_le.2 this)
    have hlo : i = 0 ∨ i + 1 ≤ searchsorted (t.map Bin.dMin) (x * 1.0000001) := by
      rcases h1 with h | h
      · exact Or.inl h
      · right
        by_contra hc
        have hs : (t.map Bin.dMin).Pairwise (· ≤ ·) := by
          rw [List.pairwise_iff_getElem]
          intro a b ha hb hab
          simp only [List.getElem_map]
          have g1 := dMin_mono ht hab (by simpa using hb)
          have g2 := (dMin_lt_dMax ht a (by simpa using ha)).2
          linarith
        have := le_of_searchsorted_le (a := t.map Bin.dMin) hs (i := i) (v := x * 1.0000001) (by simpa using hi) (by omega)
        rw [List.getElem_map] at this
        linarith
    omega
  unfold snapLow
  rw [hss, List.getElem?_eq_getElem (by simpa using hi)]
  simp

theorem snapHigh_eq (t : List Bin) (x : ℝ) (i : ℕ) (hi : i < t.length)
    (h1 : x * 0.999999 ≤ t[i].dMax) (h2 : ∀ j (h : j < i), t[j].dMax < x * 0.999999) :
    snapHigh t (x : EReal) = .ok (t[i].dMax : EReal) := by
  have hss : searchsorted (t.map fun b => (b.dMax : EReal)) ((x : EReal) * ((0.999999 : ℝ) : EReal)) = i := by
    rw [← EReal.coe_mul, map_searchsorted]
    apply searchsorted_eq_of i (by simp; omega)
    · intro j hj hji; rw [List.getElem_map]; exact h2 j hji
    · intro h; rw [List.getElem_map]; exact h1
  unfold snapHigh
  rw [hss, List.getElem?_eq_getElem (by simpa using hi)]
  simp

/-- every positive lower limit is snapped to some bin -/
theorem snapLow_cases (t : List Bin) (ht : Contiguous t) (hne : t ≠ []) (x : EReal) (hx : 0 < x) :
    ∃ i, ∃ hi : i < t.length, snapLow t x = .ok (t[i].dMin : EReal) ∧
      (i = 0 ∨ (t[i].dMin : EReal) < x * ((1.0000001 : ℝ) : EReal)) ∧
      (∀ h : i + 1 < t.length, x * ((1.0000001 : ℝ) : EReal) ≤ (t[i + 1].dMin : EReal)) := by
  have hlen : 0 < t.length := List.length_pos_iff.2 hne
  set v := x * ((1.0000001 : ℝ) : EReal) with hv
  have hle := searchsorted_le_length (t.map fun b => (b.dMin : EReal)) v
  rw [List.length_map] at hle
  refine ⟨searchsorted (t.map fun b => (b.dMin : EReal)) v - 1, by omega, ?_, ?_, ?_⟩
  · unfold snapLow
    rw [← hv, List.getElem?_eq_getElem (by simp; omega)]
    simp
  · by_cases h : searchsorted (t.map fun b => (b.dMin : EReal)) v = 0
    · left; omega
    · right
      have := lt_of_lt_searchsorted (a := t.map fun b => (b.dMin : EReal)) (v := v)
        (i := searchsorted (t.map fun b => (b.dMin : EReal)) v - 1) (by simp; omega) (by omega)
      simpa using this
  · intro h
    by_cases h0 : searchsorted (t.map fun b => (b.dMin : EReal)) v = 0
    · have hs : (t.map fun b => (b.dMin : EReal)).Pairwise (· ≤ ·) := by
        rw [List.pairwise_iff_getElem]
        intro a b ha hb hab
        simp only [List.getElem_map, EReal.coe_le_coe_iff]
        have g1 := dMin_mono ht hab (by simpa using hb)
        have g2 := (dMin_lt_dMax ht a (by simpa using ha)).2
        linarith
      have := le_of_searchsorted_le hs (i := searchsorted (t.map fun b => (b.dMin : EReal)) v - 1 + 1) (v := v)
        (by simpa using h) (by omega)
      simpa using this
    · have e : searchsorted (t.map fun b => (b.dMin : EReal)) v - 1 + 1 =
          searchsorted (t.map fun b => (b.dMin : EReal)) v := by omega
      have := le_getElem_searchsorted (a := t.map fun b => (b.dMin : EReal)) (v := v) (by simp; omega)
      simp only [List.getElem_map] at this
      simp only [e]
      exact this

/-- an upper limit not beyond the last boundary is snapped to some bin -/
theorem snapHigh_cases (t : List Bin) (hne : t ≠ []) (x : ℝ) (hx : 0 ≤ x)
    (hlast : x ≤ (t.getLast hne).dMax) :
    ∃ i, ∃ hi : i < t.length, snapHigh t (x : EReal) = .ok (t[i].dMax : EReal) ∧ x * 0.999999 ≤ t[i].dMax ∧
      (∀ j (h : j < i), t[j].dMax < x * 0.999999) := by
  have hlen : 0 < t.length := List.length_pos_iff.2 hne
  have hle := searchsorted_le_length (t.map Bin.dMax) (x * 0.999999)
  rw [List.length_map] at hle
  have hlt : searchsorted (t.map Bin.dMax) (x * 0.999999) < t.length := by
    by_contra hc
    have := lt_of_lt_searchsorted (a := t.map Bin.dMax) (v := x * 0.999999) (i := t.length - 1) (by simp; omega) (by omega)
    rw [List.getElem_map] at this
    rw [List.getLast_eq_getElem] at hlast
    linarith
  refine ⟨searchsorted (t.map Bin.dMax) (x * 0.999999), hlt, ?_, ?_, ?_⟩
  · apply snapHigh_eq t x _ hlt
    · have := le_getElem_searchsorted (a := t.map Bin.dMax) (v := x * 0.999999) (by simpa using hlt)
      simpa using this
    · intro j hj
      have := lt_of_lt_searchsorted (a := t.map Bin.dMax) (v := x * 0.999999) (i := j) (by simp; omega) hj
      simpa using this
  · have := le_getElem_searchsorted (a := t.map Bin.dMax) (v := x * 0.999999) (by simpa using hlt)
    simpa using this
  · intro j hj
    have := lt_of_lt_searchsorted (a := t.map Bin.dMax) (v := x * 0.999999) (i := j) (by simp; omega) hj
    simpa using this

end Verif.Cratercount
