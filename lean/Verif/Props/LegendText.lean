import Verif.Model.LegendText
import Verif.Props.PlotData
import Verif.Props.Notation

/-! C107, C108: number of craters and diameter range of a fit as shown in the legend. -/

namespace Verif.Props
open Verif.Py Verif.Text Verif.Cratercount Verif.Spec Verif.LegendText

noncomputable section

/-! ### numbers -/

theorem digChar_zero (n : ℕ) : digChar (n * 10) = '0' := by
  have : (n * 10) % 10 = 0 := by omega
  rw [digChar, this]

theorem fixDigits_shift (w k n : ℕ) : fixDigits (w + k) (n * 10 ^ k) = fixDigits w n ++ List.replicate k '0' := by
  induction k with
  | zero => simp
  | succ k ih =>
    have e : n * 10 ^ (k + 1) = n * 10 ^ k * 10 := by ring
    rw [← Nat.add_assoc, fixDigits, e, digChar_zero, Nat.mul_div_cancel _ (by norm_num : 0 < 10), ih, List.append_assoc,
      List.replicate_succ']

theorem roundEven_natCast (n : ℕ) : roundEven (n : ℚ) = n := by
  rw [roundEven]
  simp

/-- six significant digits write a natural number below a million in full -/
theorem gStr_nat (n : ℕ) (hn : n < 10 ^ 6) : gStr 5 (n : ℚ) = natStr n := by
  by_cases h0 : n = 0
  · subst h0; decide +kernel
  have hpos : 0 < n := Nat.pos_of_ne_zero h0
  have hlog : Nat.log 10 n < 6 := Nat.log_lt_of_lt_pow h0 hn
  have hl : Int.log 10 |(n : ℚ)| = (Nat.log 10 n : ℤ) := by
    rw [abs_of_nonneg (by positivity), Int.log_natCast]
  set k := Nat.log 10 n with hk
  have hlt : n < 10 ^ (k + 1) := Nat.lt_pow_succ_log_self (by norm_num) n
  have hsci : sciRound 5 (n : ℚ) = (n * 10 ^ (5 - k), (k : ℤ)) := by
    rw [sciRound, if_neg (by exact_mod_cast h0), hl]
    have e1 : |(n : ℚ)| * (10 : ℚ) ^ ((5 : ℕ) - (k : ℤ) : ℤ) = ((n * 10 ^ (5 - k) : ℕ) : ℚ) := by
      rw [abs_of_nonneg (by positivity), show ((5 : ℕ) - (k : ℤ) : ℤ) = ((5 - k : ℕ) : ℤ) by omega, zpow_natCast]
      push_cast; ring
    have e2 : n * 10 ^ (5 - k) ≠ 10 ^ (5 + 1) := by
      have : n * 10 ^ (5 - k) < 10 ^ (k + 1) * 10 ^ (5 - k) := Nat.mul_lt_mul_of_pos_right hlt (by positivity)
      rw [← pow_add, show k + 1 + (5 - k) = 5 + 1 by omega] at this
      exact this.ne
    simp only [e1, roundEven_natCast, if_neg e2]
  have hds : fixDigits (5 + 1) (n * 10 ^ (5 - k)) = natStr n ++ List.replicate (5 - k) '0' := by
    rw [show 5 + 1 = (k + 1) + (5 - k) by omega, fixDigits_shift, natStr]
  have hlen : (natStr n).length = k + 1 := by rw [natStr, fixDigits_length]
  have hz : (List.replicate (5 - k) '0').rdropWhile (· == '0') = [] := by
    rw [List.rdropWhile_eq_nil_iff]
    intro c hc
    rw [List.eq_of_mem_replicate hc]; rfl
  have hneg : ¬ ((n : ℚ) < 0) := not_lt.2 (by positivity)
  unfold gStr
  simp only [hsci, hds, if_neg hneg, List.nil_append]
  rw [if_pos (by omega)]
  simp only [show ¬ ((k : ℤ) < 0) by omega, if_false, show ((k : ℤ) + 1).toNat = k + 1 by omega]
  rw [← hlen, List.take_left, List.drop_left, if_pos hz]

/-- the text `s` denotes `q` to a tenth -/
def Tenth (q : ℚ) (s : List Char) : Prop := ∃ m : ℕ, decVal s = some ((m : ℚ) / 10) ∧ |q - (m : ℚ) / 10| ≤ 1 / 20

/-- the text `s` consists of decimal digits and denotes `n` -/
def Plainly (n : ℕ) (s : List Char) : Prop := (∀ c ∈ s, '0' ≤ c ∧ c ≤ '9') ∧ decVal s = some (n : ℚ)

theorem tenth_fixedStr (q : ℚ) (hq : 0 ≤ q) : Tenth q (fixedStr 1 q) := by
  refine ⟨roundEven (q * 10), ?_, ?_⟩
  · rw [decVal_fixedStr 1 q hq]; norm_num
  · have h10 : 0 ≤ q * 10 := by positivity
    have h := (roundEven_spec (q * 10) h10).1 (round (q * 10))
    have h2 := abs_sub_round (q * 10)
    have h3 : |q * 10 - (roundEven (q * 10) : ℚ)| ≤ 1 / 2 := le_trans h h2
    have e : q - (roundEven (q * 10) : ℚ) / 10 = (q * 10 - (roundEven (q * 10) : ℚ)) / 10 := by ring
    rw [e, abs_div, abs_of_pos (by norm_num : (0 : ℚ) < 10)]
    linarith

theorem plainly_natStr (n : ℕ) : Plainly n (natStr n) := by
  refine ⟨fun c hc => ?_, ?_⟩
  · have := fixDigits_isDig _ _ c hc
    simpa [isDig] using this
  · rw [decVal_digits (natStr n) (fun c hc => fixDigits_isDig _ _ c hc) (natStr_ne_nil _), digitsNum_natStr]

/-- what is added for buffered counts -/
def bufferedNote (b : Bool) : List Char := if b then " (buffered)".toList else []

/-- **C107, whole craters.** For a fit to the craters between two bin boundaries of a count of whole craters, the legend shows
the number of craters counted with diameters in this range, in plain digits, as long as it is below a million. -/
theorem C107_whole_partial (ρ : ℝ → ℚ) (hρ : ∀ m : ℕ, ρ (m : ℝ) = m) (b : Binning) (hb : b ≠ .none) (off : ℝ) (cs : List Crater)
    (hfrac : ∀ c ∈ cs, c.2 = 1) (t : List Bin) (ht : applyBinning b off cs = .ok t) (i j : ℕ) (hij : i ≤ j) (hj : j < t.length)
    (pr : Presentation) (bn : Binning) (area adj : ℝ) (C : Option (ℝ → ℝ)) (resurf1 : Bool) (pd : PlotData)
    (h : plotData pr bn t area adj C (some ((t[i].dMin : EReal), (t[j].dMax : EReal))) resurf1 false = .ok pd)
    (hN : countIn cs t[i].dMin t[j].dMax < 10 ^ 6) (bPoisson whole : Bool) :
    ∃ s, cratersItem ρ false bPoisson whole pd.n pd.nEvent = .ok (s ++ " craters".toList ++ bufferedNote bPoisson) ∧
      Plainly (countIn cs t[i].dMin t[j].dMax) s := by
  obtain ⟨h1, h2⟩ := C06_aligned_totals b hb off cs (fun c hc => by rw [hfrac c hc]; norm_num) t ht i j hij hj pr bn area adj C resurf1 pd h
  have hw : weightIn cs t[i].dMin t[j].dMax = (countIn cs t[i].dMin t[j].dMax : ℝ) := by
    rw [weightIn, countIn]
    have : ∀ l : List Crater, (∀ c ∈ l, c.2 = 1) → (l.map Prod.snd).sum = (l.length : ℝ) := by
      intro l hl
      induction l with
      | nil => simp
      | cons x l ih =>
        rw [List.map_cons, List.sum_cons, ih (fun c hc => hl c (List.mem_cons_of_mem _ hc)), hl x List.mem_cons_self, List.length_cons]
        push_cast; ring
    exact this _ (fun c hc => hfrac c (List.mem_filter.1 hc).1)
  refine ⟨natStr (countIn cs t[i].dMin t[j].dMax), ?_, plainly_natStr _⟩
  rw [h1, h2, hw, cratersItem]
  simp only [Bool.false_eq_true, if_false, sub_self, abs_zero, Bool.false_or]
  rw [if_pos (by norm_num), hρ, gStr_nat _ hN]
  rfl

/-- **C107, parts of craters.** When craters are counted with fractions, the legend shows the total of the fractions to a tenth and
the number of the craters, both of the craters with diameters in the range of the fit, unless they agree to a thousandth: then
the total is shown with six significant digits. -/
theorem C107_fractions (ρ : ℝ → ℚ) (hρ : ∀ x : ℝ, 0 ≤ x → 0 ≤ ρ x) (b : Binning) (hb : b ≠ .none) (off : ℝ) (cs : List Crater)
    (hfrac : ∀ c ∈ cs, 0 < c.2) (t : List Bin) (ht : applyBinning b off cs = .ok t) (i j : ℕ) (hij : i ≤ j) (hj : j < t.length)
    (pr : Presentation) (bn : Binning) (area adj : ℝ) (C : Option (ℝ → ℝ)) (resurf1 : Bool) (pd : PlotData)
    (h : plotData pr bn t area adj C (some ((t[i].dMin : EReal), (t[j].dMax : EReal))) resurf1 false = .ok pd) (bPoisson : Bool) :
    let total := weightIn cs t[i].dMin t[j].dMax
    let number := countIn cs t[i].dMin t[j].dMax
    (1 / 1000 ≤ |(number : ℝ) - total| → ∃ s s', cratersItem ρ false bPoisson true pd.n pd.nEvent =
        .ok (s ++ " (of ".toList ++ s' ++ ") craters".toList ++ bufferedNote bPoisson) ∧ Tenth (ρ total) s ∧ Plainly number s') ∧
    (|(number : ℝ) - total| < 1 / 1000 → ∃ s, cratersItem ρ false bPoisson true pd.n pd.nEvent =
        .ok (s ++ " craters".toList ++ bufferedNote bPoisson) ∧ Denotes 6 (ρ total) s) := by
  obtain ⟨h1, h2⟩ := C06_aligned_totals b hb off cs hfrac t ht i j hij hj pr bn area adj C resurf1 pd h
  intro total number
  have h1 : pd.n = total := h1
  have h2 : pd.nEvent = number := h2
  have ht0 : 0 ≤ total := by
    apply List.sum_nonneg
    intro x hx
    obtain ⟨c, hc, rfl⟩ := List.mem_map.1 hx
    exact (hfrac c (List.mem_filter.1 hc).1).le
  constructor
  · intro hd
    refine ⟨fixedStr 1 (ρ total), natStr number, ?_, tenth_fixedStr _ (hρ _ ht0), plainly_natStr _⟩
    rw [h1, h2, cratersItem]
    simp only [Bool.false_eq_true, if_false, Bool.false_or, if_true]
    rw [if_neg (not_lt.2 (by norm_num at hd ⊢; exact hd))]
    have : intStr ⌊(number : ℝ)⌋ = natStr number := by simp [intStr]
    rw [this]
    show Except.ok _ = Except.ok _
    rw [bufferedNote]
    simp only [List.append_assoc]
    rfl
  · intro hd
    refine ⟨gStr 5 (ρ total), ?_, _, decVal_gStr 5 _, isRounded_sci 5 _⟩
    rw [h1, h2, cratersItem]
    simp only [Bool.false_eq_true, if_false, Bool.false_or]
    rw [if_pos (by norm_num at hd ⊢; exact hd)]
    rfl

/-- **C107, buffered counts.** For a buffered count the legend shows the number of craters, with one decimal, and says that they are
buffered. -/
theorem C107_buffered (ρ : ℝ → ℚ) (hρ : ∀ m : ℕ, ρ (m : ℝ) = m) (bPoisson whole : Bool) (n : ℝ) (m : ℕ) :
    ∃ s, cratersItem ρ true bPoisson whole n m = .ok (s ++ " craters (buffered)".toList) ∧ decVal s = some (m : ℚ) := by
  refine ⟨fixedStr 1 (m : ℚ), ?_, ?_⟩
  · rw [cratersItem]
    simp only [if_true, Bool.true_or, hρ]
    show Except.ok _ = Except.ok _
    rw [List.append_assoc]; rfl
  · rw [decVal_fixedStr 1 _ (by positivity)]
    have : (m : ℚ) * 10 ^ 1 = ((m * 10 : ℕ) : ℚ) := by push_cast; ring
    rw [this, roundEven_natCast]
    push_cast
    congr 1
    field_simp

/-- **C107, large counts.** From a million on the number of craters is not shown in full: 1234567 craters appear as
`1.23457e+06 craters`. -/
theorem C107_million_counterexample (ρ : ℝ → ℚ) (hρ : ∀ m : ℕ, ρ (m : ℝ) = m) :
    cratersItem ρ false false true (1234567 : ℕ) (1234567 : ℕ) = .ok "1.23457e+06 craters".toList := by
  rw [cratersItem]
  simp only [Bool.false_eq_true, if_false, sub_self, abs_zero, Bool.false_or, hρ]
  rw [if_pos (by norm_num)]
  show Except.ok (gStr 5 ((1234567 : ℕ) : ℚ) ++ " craters".toList ++ []) = _
  have : gStr 5 ((1234567 : ℕ) : ℚ) = "1.23457e+06".toList := by decide +kernel
  rw [this]; rfl

/-- **C107, exported counts.** For a `.stat` file, whose numbers are floating point numbers, no legend can be made for a fit with
crater numbers, whenever the total of the fractions differs from the number of craters by a thousandth or more. -/
theorem C107_stat_counterexample (ρ : ℝ → ℚ) (n nEvent : ℝ) (h : 1 / 1000 ≤ |nEvent - n|) (bPoisson : Bool) :
    cratersItem ρ false bPoisson false n nEvent = .error .value := by
  rw [cratersItem]
  simp only [Bool.false_eq_true, if_false]
  rw [if_neg (not_lt.2 (by norm_num at h ⊢; exact h))]
  rfl

example : cratersItem (fun x => if x = 9.5 then 9.5 else 0) false false true 9.5 10 = .ok "9.5 (of 10) craters".toList ∧
    cratersItem (fun x => if x = 9.5 then 9.5 else 0) false false false 9.5 10 = .error .value := by
  refine ⟨?_, C107_stat_counterexample _ _ _ (by norm_num) _⟩
  rw [cratersItem]
  simp only [Bool.false_eq_true, if_false, if_true]
  rw [if_neg (by norm_num)]
  have e : intStr ⌊(10 : ℝ)⌋ = "10".toList := by
    have : ⌊(10 : ℝ)⌋ = 10 := by norm_num
    rw [this]; decide +kernel
  have e2 : fixedStr 1 (9.5 : ℚ) = "9.5".toList := by decide +kernel
  rw [e, e2]
  rfl

/-- the theorems on whole craters and on fractions apply to the whole range of every list of craters; here two craters -/
example (b : Binning) (hb : b ≠ .none) (ρ : ℝ → ℚ) (hρ : ∀ m : ℕ, ρ (m : ℝ) = m) :
    ∃ t pd, ∃ h : 0 < t.length, applyBinning b 0 [(1, 1), (2.5, 1)] = .ok t ∧
      plotData .cumulative b t 3 0 Option.none (some ((t[0].dMin : EReal), (t[t.length - 1].dMax : EReal))) false false = .ok pd ∧
      ∃ s, cratersItem ρ false false true pd.n pd.nEvent = .ok (s ++ " craters".toList ++ bufferedNote false) ∧
        Plainly (countIn [(1, 1), (2.5, 1)] t[0].dMin t[t.length - 1].dMax) s := by
  have hf : ∀ c ∈ [((1 : ℝ), (1 : ℝ)), (2.5, 1)], c.2 = 1 := by
    intro c hc; simp only [List.mem_cons, List.not_mem_nil, or_false] at hc
    rcases hc with rfl | rfl <;> norm_num
  obtain ⟨t, ht, hne⟩ := C01_binning_succeeds b [(1, 1), (2.5, 1)] (by simp) (by
    intro c hc; simp only [List.mem_cons, List.not_mem_nil, or_false] at hc
    rcases hc with rfl | rfl <;> norm_num) 0
  have hl : 0 < t.length := List.length_pos_iff.2 hne
  obtain ⟨pd, hpd⟩ := C06_succeeds .cumulative (by simp) b hb _ (fun c hc => by rw [hf c hc]; norm_num) t ht 3 0 (by norm_num) 0
    (t.length - 1) (by omega) (by omega) false
  refine ⟨t, pd, hl, ht, hpd, C107_whole_partial ρ hρ b hb 0 _ hf t ht 0 (t.length - 1) (by omega) (by omega) .cumulative b 3 0 _ false pd hpd
    (lt_of_le_of_lt (List.length_filter_le _ _) (by norm_num)) false true⟩

/-! ### diameter range -/

/-- the text of a range between two diameters: in km if the upper one is at least 1 km, otherwise in m, each limit to two figures -/
def RangeText (d0 d1 : ℚ) (s : List Char) : Prop :=
  ∃ s0 s1, s = s0 ++ '–' :: s1 ++ (if 1 ≤ d1 then " km".toList else " m".toList) ∧
    Denotes 2 (d0 / (if 1 ≤ d1 then 1 else 1 / 1000)) s0 ∧ Denotes 2 (d1 / (if 1 ≤ d1 then 1 else 1 / 1000)) s1

theorem rangeText_finite (C : Classes) (ρ : ℝ → ℚ) (x y : ℝ) :
    ∃ s, rangeText C ρ ((x : EReal), (y : EReal)) = .ok s ∧ RangeText (ρ x) (ρ y) s := by
  obtain ⟨s0, s1, h, k0, k1⟩ := (C38_diameter_range C (ρ x) 2 (by norm_num)).2 (ρ y)
  refine ⟨_, ?_, s0, s1, rfl, k0, k1⟩
  simp only [rangeText, EReal.coe_ne_top, EReal.coe_ne_bot, or_self, if_false, EReal.toReal_coe, h]

theorem rangeOf_gridList {b : Binning} (hb : b ≠ .none) (off : ℝ) (A : ℤ) (m : ℕ) (hm : 1 ≤ m) :
    rangeOf (gridList (gridFn b off) A m) = some (gridFn b off A, gridFn b off (A + (m - 1 : ℕ))) := by
  have hmono := gridFn_strictMono hb off
  have hne : gridList (gridFn b off) A m ≠ [] := by
    intro h
    have : (gridList (gridFn b off) A m).length = m := by simp [gridList]
    rw [h] at this; simp at this; omega
  have hlen : (gridList (gridFn b off) A m).length = m := by simp [gridList]
  obtain ⟨mn, mx, h⟩ := rangeOf_ne_nil hne
  obtain ⟨h1, h2, h3⟩ := rangeOf_spec h
  obtain ⟨k1, hk1, e1⟩ := List.getElem_of_mem h1
  obtain ⟨k2, hk2, e2⟩ := List.getElem_of_mem h2
  have a0 := (h3 _ (List.getElem_mem (l := gridList (gridFn b off) A m) (n := 0) (by omega))).1
  have a1 := (h3 _ (List.getElem_mem (l := gridList (gridFn b off) A m) (n := m - 1) (by omega))).2
  rw [gridList_getElem] at a0 a1 e1 e2
  rw [h, ← e1, ← e2]
  have c1 : gridFn b off A ≤ gridFn b off (A + k1) := hmono.monotone (by omega)
  have c2 : gridFn b off (A + k2) ≤ gridFn b off (A + (m - 1 : ℕ)) := hmono.monotone (by omega)
  rw [← e1] at a0
  rw [← e2] at a1
  rw [le_antisymm c2 a1, le_antisymm (by simpa using a0) c1]

theorem ten_small : (10 : ℝ) ^ (0.001 : ℝ) ≤ 1.0025 := by
  have h : (10 : ℝ) ≤ (1.0025 : ℝ) ^ (1000 : ℕ) := by
    have h1 := one_add_mul_le_pow (a := (0.0025 : ℝ)) (by norm_num) 50
    have h2 : (1.125 : ℝ) ≤ (1.0025 : ℝ) ^ 50 := by norm_num at h1 ⊢
    have h3 : (1.125 : ℝ) ^ 20 ≤ ((1.0025 : ℝ) ^ 50) ^ 20 := pow_le_pow_left₀ (by norm_num) h2 20
    rw [← pow_mul] at h3
    have h4 : (10 : ℝ) ≤ (1.125 : ℝ) ^ 20 := by norm_num
    exact h4.trans h3
  calc (10 : ℝ) ^ (0.001 : ℝ) ≤ ((1.0025 : ℝ) ^ (1000 : ℕ)) ^ (0.001 : ℝ) := Real.rpow_le_rpow (by norm_num) h (by norm_num)
    _ = 1.0025 := by rw [← Real.rpow_natCast, ← Real.rpow_mul (by norm_num)]; norm_num

theorem ten_small_two : (10 : ℝ) ^ (0.002 : ℝ) < 1.005 := by
  have h : (10 : ℝ) < (1.005 : ℝ) ^ (500 : ℕ) := by
    have h1 := one_add_mul_le_pow (a := (0.005 : ℝ)) (by norm_num) 25
    have h2 : (1.125 : ℝ) ≤ (1.005 : ℝ) ^ 25 := by norm_num at h1 ⊢
    have h3 : (1.125 : ℝ) ^ 20 ≤ ((1.005 : ℝ) ^ 25) ^ 20 := pow_le_pow_left₀ (by norm_num) h2 20
    rw [← pow_mul] at h3
    have h4 : (10 : ℝ) < (1.125 : ℝ) ^ 20 := by norm_num
    exact h4.trans_le h3
  calc (10 : ℝ) ^ (0.002 : ℝ) < ((1.005 : ℝ) ^ (500 : ℕ)) ^ (0.002 : ℝ) := Real.rpow_lt_rpow (by norm_num) h (by norm_num)
    _ = 1.005 := by rw [← Real.rpow_natCast, ← Real.rpow_mul (by norm_num)]; norm_num

/-- **C108, fits.** For a fit to the craters between two bin boundaries (as set by snapping) the legend shows these two
diameters. -/
theorem C108_fit_partial (C : Classes) (ρ : ℝ → ℚ) (b : Binning) (hb : b ≠ .none) (cs : List Crater) (t : List Bin)
    (ht : applyBinning b 0 cs = .ok t) (i j : ℕ) (hij : i ≤ j) (hj : j < t.length) :
    ∃ s, rangeItem C ρ false false b ((t[i].dMin : EReal), (t[j].dMax : EReal)) = .ok s ∧
      RangeText (ρ t[i].dMin) (ρ t[j].dMax) s := by
  obtain ⟨A, m, hm, hlen, hte, hcr, hcol⟩ := table_cols hb ht
  have e1 := (hcol i (by omega)).1
  have e2 := (hcol j hj).2.1
  obtain ⟨m', hm', hj', hg⟩ := generateBins_aligned hb 0 (A + i) (A + j + 1) (by omega)
  obtain ⟨s, hs, hs'⟩ := rangeText_finite C ρ t[i].dMin t[j].dMax
  refine ⟨s, ?_, hs'⟩
  have hf : fitRange b ((t[i].dMin : EReal), (t[j].dMax : EReal)) = .ok ((t[i].dMin : EReal), (t[j].dMax : EReal)) := by
    rw [fitRange, if_neg hb]
    simp only [EReal.coe_ne_top, EReal.coe_ne_bot, or_self, if_false, EReal.toReal_coe]
    rw [e1, e2, hg, except_ok_bind, rangeOf_gridList hb 0 _ _ (by omega), hj']
  rw [rangeItem]
  simp only [Bool.not_false, Bool.and_false, Bool.false_eq_true, if_false, hf, except_ok_bind, hs]

/-- with a single crater -/
example (C : Classes) (ρ : ℝ → ℚ) : ∃ t, ∃ h : 0 < t.length, applyBinning .pseudoLog 0 [((1 : ℝ), (1 : ℝ))] = .ok t ∧
    ∃ s, rangeItem C ρ false false .pseudoLog ((t[0].dMin : EReal), (t[0].dMax : EReal)) = .ok s ∧
      RangeText (ρ t[0].dMin) (ρ t[0].dMax) s := by
  obtain ⟨t, ht, hne⟩ := C01_binning_succeeds .pseudoLog [((1 : ℝ), (1 : ℝ))] (by simp) (by simp) 0
  have hl : 0 < t.length := List.length_pos_iff.2 hne
  exact ⟨t, hl, ht, C108_fit_partial C ρ .pseudoLog (by simp) _ t ht 0 0 le_rfl hl⟩

/-- **C108, other limits.** For limits which are not bin boundaries and are at least half a percent apart, the legend shows two
bin boundaries which enclose them up to a quarter of a percent, and no boundary nearer to them does. The same holds for Poisson
evaluations of binned counts. -/
theorem C108_fit_limits (C : Classes) (ρ : ℝ → ℚ) (b : Binning) (hb : b ≠ .none) (lo hi : ℝ) (hlo : 0 < lo) (hhi : lo * 1.005 ≤ hi)
    (prebinned poisson : Bool) (hp : prebinned = true ∨ poisson = false) :
    ∃ x y s, rangeItem C ρ prebinned poisson b ((lo : EReal), (hi : EReal)) = .ok s ∧ RangeText (ρ x) (ρ y) s ∧
      (gridOf b 0).Edge x ∧ (gridOf b 0).Edge y ∧ x ≤ lo * 1.0025 ∧ hi ≤ y * 1.0025 ∧
      (∀ z, (gridOf b 0).Edge z → x < z → lo < z) ∧ (∀ z, (gridOf b 0).Edge z → z < y → z < hi) := by
  have hc : (!prebinned && poisson) = false := by rcases hp with rfl | rfl <;> simp
  have hl1 : (0 : ℝ) < hi := by nlinarith
  have e0 : (10 : ℝ) ^ (log10 lo + 0.001) = lo * (10 : ℝ) ^ (0.001 : ℝ) := by rw [Real.rpow_add (by norm_num), pow10_log10 hlo]
  have e1 : (10 : ℝ) ^ (log10 hi - 0.001) = hi / (10 : ℝ) ^ (0.001 : ℝ) := by rw [Real.rpow_sub (by norm_num), pow10_log10 hl1]
  have he2 : (10 : ℝ) ^ (0.002 : ℝ) = (10 : ℝ) ^ (0.001 : ℝ) * (10 : ℝ) ^ (0.001 : ℝ) := by
    rw [← Real.rpow_add (by norm_num)]; norm_num
  have hep : (0 : ℝ) < (10 : ℝ) ^ (0.001 : ℝ) := Real.rpow_pos_of_pos (by norm_num) _
  have h01 : log10 lo + 0.001 < log10 hi - 0.001 := by
    rw [← pow10_lt, e0, e1, lt_div_iff₀ hep, mul_assoc, ← he2]
    have := ten_small_two
    nlinarith
  obtain ⟨A, m, hm, e, k1, k2, k3, k4⟩ := generate_grid hb 0 _ _ h01
  have hmono := gridFn_strictMono hb 0
  have hep1 : (1 : ℝ) < (10 : ℝ) ^ (0.001 : ℝ) := Real.one_lt_rpow (by norm_num) (by norm_num)
  obtain ⟨s, hs, hs'⟩ := rangeText_finite C ρ (gridFn b 0 A) (gridFn b 0 (A + (m - 1 : ℕ)))
  refine ⟨_, _, s, ?_, hs', (edge_iff hb 0 _).2 ⟨_, rfl⟩, (edge_iff hb 0 _).2 ⟨_, rfl⟩, ?_, ?_, ?_, ?_⟩
  · have hr : rangeOf [lo, hi] = some (lo, hi) := by
      have : lo ≤ hi := by nlinarith
      simp [rangeOf, this]
    have hg : generateBins b [lo, hi] 0 false = .ok (gridList (gridFn b 0) A m) := by
      simp only [generateBins, hb, if_false, hr, not_le.2 hlo, Bool.false_eq_true]
      rw [e]
    have hf : fitRange b ((lo : EReal), (hi : EReal)) =
        .ok ((gridFn b 0 A : EReal), (gridFn b 0 (A + (m - 1 : ℕ)) : EReal)) := by
      rw [fitRange, if_neg hb]
      simp only [EReal.coe_ne_top, EReal.coe_ne_bot, or_self, if_false, EReal.toReal_coe]
      rw [hg, except_ok_bind, rangeOf_gridList hb 0 _ _ (by omega)]
    rw [rangeItem, hc]
    simp only [Bool.false_eq_true, if_false, hf, except_ok_bind, hs]
  · rw [e0] at k1
    have := ten_small
    nlinarith
  · rw [e1, div_le_iff₀ hep] at k2
    have := ten_small
    have := gridFn_pos b 0 (A + (m - 1 : ℕ))
    nlinarith
  · intro z hz hlt
    obtain ⟨k, rfl⟩ := (edge_iff hb 0 _).1 hz
    have h1 : A < k := hmono.lt_iff_lt.1 hlt
    have h2 : gridFn b 0 (A + 1) ≤ gridFn b 0 k := hmono.monotone (by omega)
    rw [e0] at k3
    nlinarith
  · intro z hz hlt
    obtain ⟨k, rfl⟩ := (edge_iff hb 0 _).1 hz
    have h1 : k < A + (m - 1 : ℕ) := hmono.lt_iff_lt.1 hlt
    have h2 : gridFn b 0 k ≤ gridFn b 0 (A + (m - 1 : ℕ) - 1) := hmono.monotone (by omega)
    rw [e1] at k4
    exact (h2.trans_lt k4).trans (div_lt_self hl1 hep1)

/-- a fit to the craters from 0.95 to 2.7 km, in bins of a factor of two: the legend shows 0.5 to 4 km -/
example (C : Classes) (ρ : ℝ → ℚ) : ∃ s, rangeItem C ρ false false .x2 (((0.95 : ℝ) : EReal), ((2.7 : ℝ) : EReal)) = .ok s ∧ RangeText (ρ 0.5) (ρ 4) s := by
  obtain ⟨x, y, s, h, ht, ⟨i, hi⟩, ⟨j, hj⟩, h1, h2, h3, h4⟩ := C108_fit_limits C ρ .x2 (by simp) 0.95 2.7 (by norm_num) (by norm_num) false false (.inr rfl)
  have key : ∀ m : ℤ, (gridOf .x2 0).Edge ((2 : ℝ) ^ (m : ℝ)) := fun m => ⟨m, by rw [sub_zero]⟩
  rw [sub_zero] at hi hj
  have ei : i = -1 := by
    have a1 : i < 0 := by
      by_contra hn
      have : (2 : ℝ) ^ (0 : ℝ) ≤ 2 ^ (i : ℝ) := Real.rpow_le_rpow_of_exponent_le (by norm_num) (by exact_mod_cast not_lt.1 hn)
      rw [Real.rpow_zero, ← hi] at this
      norm_num at h1
      linarith
    have a2 : ¬ i < -1 := by
      intro hn
      have := h3 _ (key (-1)) (by rw [hi]; exact (Real.rpow_lt_rpow_left_iff (by norm_num)).2 (by exact_mod_cast hn))
      norm_num [Real.rpow_neg] at this
    omega
  have ej : j = 2 := by
    have a1 : 1 < j := by
      by_contra hn
      have : (2 : ℝ) ^ (j : ℝ) ≤ 2 ^ (1 : ℝ) := Real.rpow_le_rpow_of_exponent_le (by norm_num) (by exact_mod_cast not_lt.1 hn)
      rw [Real.rpow_one, ← hj] at this
      norm_num at h2
      linarith
    have a2 : ¬ 2 < j := by
      intro hn
      have := h4 _ (key 2) (by rw [hj]; exact (Real.rpow_lt_rpow_left_iff (by norm_num)).2 (by exact_mod_cast hn))
      norm_num at this
    omega
  rw [ei] at hi
  rw [ej] at hj
  have e1 : x = 0.5 := by rw [hi]; norm_num [Real.rpow_neg]
  have e2 : y = 4 := by rw [hj]; norm_num
  rw [e1, e2] at ht
  exact ⟨s, h, ht⟩

/-- **C108, Poisson.** For a Poisson evaluation of a crater list the legend shows the limits as they were given. -/
theorem C108_poisson (C : Classes) (ρ : ℝ → ℚ) (b : Binning) (lo : EReal) (hi : ℝ) :
    (∃ s, rangeItem C ρ false true b (lo, (hi : EReal)) = .ok s ∧ RangeText (ρ lo.toReal) (ρ hi) s) ∧
    rangeItem C ρ false true b (lo, ⊤) = .ok "unconstrained".toList := by
  constructor
  · obtain ⟨s0, s1, h, k0, k1⟩ := (C38_diameter_range C (ρ lo.toReal) 2 (by norm_num)).2 (ρ hi)
    refine ⟨_, ?_, s0, s1, rfl, k0, k1⟩
    rw [rangeItem]
    simp only [Bool.not_false, Bool.and_true, if_true, except_ok_bind]
    simp only [rangeText, EReal.coe_ne_top, EReal.coe_ne_bot, or_self, if_false, EReal.toReal_coe, h]
  · rw [rangeItem]
    simp only [Bool.not_false, Bool.and_true, if_true, except_ok_bind]
    simp only [rangeText, true_or, if_true, (C38_diameter_range C (ρ lo.toReal) 2 (by norm_num)).1]

/-- **C108, unconstrained fits.** No legend with the range can be made for a fit whose range begins at 0 or has no upper limit, in
particular not for the default range, from 0 to infinity; the same holds for Poisson evaluations of binned counts. -/
theorem C108_unconstrained_counterexample (C : Classes) (ρ : ℝ → ℚ) (b : Binning) (hb : b ≠ .none) (lo hi : EReal)
    (h : lo ≤ 0 ∨ hi = ⊤) (prebinned poisson : Bool) (hp : prebinned = true ∨ poisson = false) :
    rangeItem C ρ prebinned poisson b (lo, hi) = .error .domain := by
  have hc : (!prebinned && poisson) = false := by rcases hp with rfl | rfl <;> simp
  have hf : fitRange b (lo, hi) = .error .domain := by
    rw [fitRange, if_neg hb]
    split_ifs with h1
    · rfl
    · push Not at h1
      obtain ⟨a1, a2, a3, a4⟩ := h1
      rcases h with h | h
      · rw [generateBins_domain hb _ 0 false ⟨lo.toReal, by simp, ?_⟩]
        · rfl
        · exact EReal.toReal_nonpos h
      · exact absurd h a3
  rw [rangeItem, hc]
  simp only [Bool.false_eq_true, if_false, hf]
  rfl

/-- the default range of a plot -/
example (C : Classes) (ρ : ℝ → ℚ) : rangeItem C ρ false false .pseudoLog (0, ⊤) = .error .domain :=
  C108_unconstrained_counterexample C ρ .pseudoLog (by simp) 0 ⊤ (Or.inl le_rfl) false false (Or.inr rfl)

end

end Verif.Props
