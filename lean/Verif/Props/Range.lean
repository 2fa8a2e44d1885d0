import Verif.Lemmas.Range
import Verif.Props.PlotData

/-! C09, C10: snapping of diameter ranges, bin addressing. -/

namespace Verif.Props
open Verif.Cratercount Verif.Py Verif.Spec

noncomputable section

theorem decodeRange_vals (bn : Binning) (hbn : bn ≠ .none) (t : List Bin) (hne : t ≠ []) (a b a' b' : EReal)
    (hab : a ≤ b) (ea : (if 0 < a then snapLow t a else .ok a) = .ok a')
    (eb : (if b ≤ (((t.getLast hne).dMax - 0.0000001 : ℝ) : EReal) then snapHigh t b else .ok b) = .ok b') :
    decodeRange bn t (.val a) (.val b) true = .ok (a', b') := by
  have hlast : t.getLast? = some (t.getLast hne) := List.getLast?_eq_some_getLast hne
  simp only [decodeRange, decodeLim, except_ok_bind, not_lt.2 hab, if_false, hbn, hlast, true_and]
  by_cases h1 : 0 < a <;> by_cases h2 : b ≤ (((t.getLast hne).dMax - 0.0000001 : ℝ) : EReal) <;>
    simp only [h1, h2, if_true, if_false, Except.ok.injEq] at ea eb ⊢ <;> simp only [ea, eb, except_ok_bind]

theorem decodeRange_swap (bn : Binning) (t : List Bin) (a b : EReal) (snap : Bool) :
    decodeRange bn t (.val a) (.val b) snap = decodeRange bn t (.val a) (.val (max a b)) snap := by
  have e1 : (if b < a then a else b) = max a b := by
    by_cases h : b < a
    · rw [if_pos h, max_eq_left h.le]
    · rw [if_neg h, max_eq_right (not_lt.1 h)]
  have e2 : (if max a b < a then a else max a b) = max a b := by
    rw [if_neg (not_lt.2 (le_max_left a b))]
  simp only [decodeRange, decodeLim, except_ok_bind, e1, e2]

/-- **C09.** With snapping, a requested range with non-negative lower limit is replaced by one that is not inverted;
the lower limit becomes the lower boundary of the bin it lies in (a limit less than one part in 10^7 below a boundary
counts as on it; below the table the first boundary is taken; 0 stays 0), the upper limit the upper boundary of the
bin it lies in (with a tolerance of one part in 10^6) unless it is at or beyond the end of the table; and
decoding the resulting range again changes nothing. -/
theorem C09_snapping (bn : Binning) (hbn : bn ≠ .none) (t : List Bin) (ht : Contiguous t) (hne : t ≠ [])
    (hwide : 0.0000001 ≤ (t.getLast hne).dMax - (t.getLast hne).dMin) (a b : EReal) (ha : 0 ≤ a) :
    ∃ a' b', decodeRange bn t (.val a) (.val b) true = .ok (a', b') ∧ a' ≤ b' ∧
      ((a = 0 ∧ a' = 0) ∨ ∃ x ∈ t, a' = (x.dMin : EReal) ∧
        (t.head? = some x ∨ a' < a * ((1.0000001 : ℝ) : EReal)) ∧
        ∀ y ∈ t, x.dMin < y.dMin → a * ((1.0000001 : ℝ) : EReal) ≤ (y.dMin : EReal)) ∧
      (((((t.getLast hne).dMax - 0.0000001 : ℝ) : EReal) < max a b ∧ b' = max a b) ∨
        ∃ x ∈ t, b' = (x.dMax : EReal) ∧ max a b * ((0.999999 : ℝ) : EReal) ≤ b' ∧
        ∀ y ∈ t, y.dMax < x.dMax → (y.dMax : EReal) < max a b * ((0.999999 : ℝ) : EReal)) ∧
      decodeRange bn t (.val a') (.val b') true = .ok (a', b') := by
  rw [decodeRange_swap]
  have hab : a ≤ max a b := le_max_left a b
  generalize max a b = c at hab ⊢
  have hlen : 0 < t.length := List.length_pos_iff.2 hne
  have hlastE : t.getLast hne = t[t.length - 1] := List.getLast_eq_getElem hne
  set L := t.getLast hne with hL
  have monoMin : ∀ i j (hi : i < t.length) (hj : j < t.length), t[i].dMin < t[j].dMin → i < j := by
    intro i j hi hj h
    by_contra hc
    rcases Nat.lt_or_ge j i with h' | h'
    · have g := dMin_mono ht h' hi
      have g2 := (dMin_lt_dMax ht j hj).2
      linarith
    · have : i = j := by omega
      subst this; exact lt_irrefl _ h
  have monoMax : ∀ i j (hi : i < t.length) (hj : j < t.length), t[i].dMax < t[j].dMax → i < j := by
    intro i j hi hj h
    by_contra hc
    rcases Nat.lt_or_ge j i with h' | h'
    · have g := dMax_mono ht h' hi
      have g2 := dMin_lt_dMax ht j hj
      linarith [g2.1, g2.2]
    · have : i = j := by omega
      subst this; exact lt_irrefl _ h
  -- the lower limit
  have hlow : ∃ a', (if 0 < a then snapLow t a else .ok a) = .ok a' ∧
      ((a = 0 ∧ a' = 0) ∨ ∃ i, ∃ hi : i < t.length, a' = (t[i].dMin : EReal) ∧
        (i = 0 ∨ (t[i].dMin : EReal) < a * ((1.0000001 : ℝ) : EReal)) ∧
        (∀ h : i + 1 < t.length, a * ((1.0000001 : ℝ) : EReal) ≤ (t[i + 1].dMin : EReal))) := by
    by_cases h0 : 0 < a
    · obtain ⟨i, hi, e, g1, g2⟩ := snapLow_cases t ht hne a h0
      exact ⟨_, by rw [if_pos h0, e], Or.inr ⟨i, hi, rfl, g1, g2⟩⟩
    · have : a = 0 := le_antisymm (not_lt.1 h0) ha
      exact ⟨a, by rw [if_neg h0], Or.inl ⟨this, this⟩⟩
  have hhigh : ∃ b', (if c ≤ ((L.dMax - 0.0000001 : ℝ) : EReal) then snapHigh t c else .ok c) = .ok b' ∧
      ((((L.dMax - 0.0000001 : ℝ) : EReal) < c ∧ b' = c) ∨ ∃ x : ℝ, c = (x : EReal) ∧ ∃ j, ∃ hj : j < t.length,
        b' = (t[j].dMax : EReal) ∧ x * 0.999999 ≤ t[j].dMax ∧ (∀ k (h : k < j), t[k].dMax < x * 0.999999)) := by
    by_cases h0 : c ≤ ((L.dMax - 0.0000001 : ℝ) : EReal)
    · have hc0 : 0 ≤ c := ha.trans hab
      have hct : c ≠ ⊤ := by
        intro h; rw [h, top_le_iff] at h0; exact EReal.coe_ne_top _ h0
      have hcb : c ≠ ⊥ := by
        intro h; rw [h] at hc0; exact absurd hc0 (by simp)
      lift c to ℝ using ⟨hct, hcb⟩
      rw [EReal.coe_le_coe_iff] at h0
      obtain ⟨j, hj, e, g1, g2⟩ := snapHigh_cases t hne c (by exact_mod_cast hc0) (by rw [← hL]; linarith)
      exact ⟨_, by rw [if_pos (by exact_mod_cast h0), e], Or.inr ⟨c, rfl, j, hj, rfl, g1, g2⟩⟩
    · exact ⟨c, by rw [if_neg h0], Or.inl ⟨not_le.1 h0, rfl⟩⟩
  obtain ⟨a', ea, ca⟩ := hlow
  obtain ⟨b', eb, cb⟩ := hhigh
  have hle : a' ≤ b' := by
    rcases ca with ⟨e1, e2⟩ | ⟨i, hi, e1, e2, e3⟩
    · rw [e2]
      rcases cb with ⟨_, f2⟩ | ⟨x, f1, j, hj, f2, _, _⟩
      · rw [f2]; exact ha.trans hab
      · rw [f2]
        have := dMin_lt_dMax ht j hj
        have : 0 ≤ t[j].dMax := by linarith [this.1, this.2]
        exact_mod_cast this
    · rw [e1]
      rcases cb with ⟨f1, f2⟩ | ⟨x, f1, j, hj, f2, f3, f4⟩
      · rw [f2]
        refine le_trans ?_ f1.le
        rw [EReal.coe_le_coe_iff]
        have : t[i].dMin ≤ L.dMin := by
          rw [hlastE]
          rcases Nat.lt_or_ge i (t.length - 1) with h | h
          · have g := dMin_mono ht h (by omega)
            have g2 := (dMin_lt_dMax ht i hi).2
            linarith
          · have : i = t.length - 1 := by omega
            subst this; exact le_rfl
        linarith
      · rw [f2, EReal.coe_le_coe_iff]
        rcases Nat.lt_or_ge j i with h | h
        · -- the upper limit is snapped to a lower bin: only possible on a shared boundary
          have hi0 : i ≠ 0 := by omega
          have e2' := e2.resolve_left hi0
          have hac : a ≤ (x : EReal) := f1 ▸ hab
          have hat : a ≠ ⊤ := fun h => by rw [h, top_le_iff] at hac; exact EReal.coe_ne_top _ hac
          have hab' : a ≠ ⊥ := fun h => by rw [h] at ha; exact absurd ha (by simp)
          lift a to ℝ using ⟨hat, hab'⟩
          have hac' : a ≤ x := by exact_mod_cast hac
          have ha0 : 0 ≤ a := by exact_mod_cast ha
          rw [← EReal.coe_mul, EReal.coe_lt_coe_iff] at e2'
          by_contra hcon
          push Not at hcon
          rcases Nat.lt_or_ge (j + 1) i with h' | h'
          · have g := dMin_mono ht h' hi
            have g1 := ht.next j (by omega)
            linarith
          · have : i = j + 1 := by omega
            subst this
            have g1 := ht.next j hi
            linarith
        · have g := dMin_lt_dMax ht j hj
          rcases Nat.lt_or_ge i j with h' | h'
          · have := dMin_mono ht h' hj
            have g2 := (dMin_lt_dMax ht i hi).2
            linarith [g.1, g.2]
          · have : i = j := by omega
            subst this
            linarith [g.1, g.2]
  refine ⟨a', b', ?_, hle, ?_, ?_, ?_⟩
  · exact decodeRange_vals bn hbn t hne a c a' b' hab ea eb
  · rcases ca with h | ⟨i, hi, e1, e2, e3⟩
    · exact Or.inl h
    · refine Or.inr ⟨t[i], List.getElem_mem hi, e1, ?_, ?_⟩
      · rcases e2 with h | h
        · left; subst h; rw [List.head?_eq_getElem?, List.getElem?_eq_getElem]
        · right; rw [e1]; exact h
      · intro y hy hlt
        obtain ⟨k, hk, rfl⟩ := List.getElem_of_mem hy
        have hik := monoMin i k hi hk hlt
        refine (e3 (by omega)).trans ?_
        rw [EReal.coe_le_coe_iff]
        rcases Nat.lt_or_ge (i + 1) k with h' | h'
        · have g := dMin_mono ht h' hk
          have g2 := (dMin_lt_dMax ht (i + 1) (by omega)).2
          linarith
        · have : k = i + 1 := by omega
          subst this; exact le_rfl
  · rcases cb with h | ⟨x, f1, j, hj, f2, f3, f4⟩
    · exact Or.inl h
    · refine Or.inr ⟨t[j], List.getElem_mem hj, f2, ?_, ?_⟩
      · rw [f1, f2, ← EReal.coe_mul, EReal.coe_le_coe_iff]; exact f3
      · intro y hy hlt
        obtain ⟨k, hk, rfl⟩ := List.getElem_of_mem hy
        have hkj := monoMax k j hk hj hlt
        rw [f1, ← EReal.coe_mul, EReal.coe_lt_coe_iff]
        exact f4 k hkj
  · have e1 : (if 0 < a' then snapLow t a' else .ok a') = .ok a' := by
      rcases ca with ⟨_, h⟩ | ⟨i, hi, e1, e2, e3⟩
      · rw [if_neg (by rw [h]; exact lt_irrefl _)]
      · have hp := (dMin_lt_dMax ht i hi).2
        rw [if_pos (by rw [e1]; exact_mod_cast hp), e1]
        apply snapLow_eq t ht _ i hi
        · right; linarith
        · intro h
          have := dMin_mono ht (Nat.lt_succ_self i) h
          linarith
    have e2 : (if b' ≤ ((L.dMax - 0.0000001 : ℝ) : EReal) then snapHigh t b' else .ok b') = .ok b' := by
      rcases cb with ⟨h1, h2⟩ | ⟨x, f1, j, hj, f2, f3, f4⟩
      · rw [h2, if_neg (not_le.2 h1)]
      · by_cases h0 : b' ≤ ((L.dMax - 0.0000001 : ℝ) : EReal)
        · rw [if_pos h0, f2]
          have hp := dMin_lt_dMax ht j hj
          apply snapHigh_eq t _ j hj
          · linarith [hp.1, hp.2]
          · intro k hk
            have := dMax_mono ht hk hj
            have hp2 := dMin_lt_dMax ht k (by omega)
            linarith [hp2.1, hp2.2]
        · rw [if_neg h0]
    exact decodeRange_vals bn hbn t hne a' b' a' b' hle e1 e2

/-- the hypotheses of C09 hold for every binned crater list whose largest bin is at least 0.1 mm wide -/
theorem C09_applies (b : Binning) (hb : b ≠ .none) (off : ℝ) (cs : List Crater) (hcs : cs ≠ [])
    (hd : ∀ c ∈ cs, (0.0001 : ℝ) ≤ c.1) : ∃ t, applyBinning b off cs = .ok t ∧ Contiguous t ∧
      ∃ hne : t ≠ [], 0.0000001 ≤ (t.getLast hne).dMax - (t.getLast hne).dMin := by
  obtain ⟨t, h1, h2⟩ := C01_binning_succeeds b cs hcs (fun c hc => by linarith [hd c hc]) off
  have hc := applyBinning_contiguous hb h1
  refine ⟨t, h1, hc, h2, ?_⟩
  obtain ⟨A, m, hm, hlen, hte, hcr, hcol⟩ := table_cols hb h1
  obtain ⟨c, hcm⟩ := List.exists_mem_of_ne_nil cs hcs
  have g1 := (hcr c hcm).2.2
  have g2 := hd c hcm
  have g3 := hc.ratio _ (List.getLast_mem h2)
  have g4 : (t.getLast h2).dMax = gridFn b off (A + (m - 1 : ℕ)) := by
    rw [List.getLast_eq_getElem, (hcol (t.length - 1) (by omega)).2.1]
    congr 1; omega
  have g5 := hc.pos _ (List.getLast_mem h2)
  rw [← g4] at g1
  linarith

example : ∀ c ∈ ([(1, 1), (0.2, 0.5)] : List Crater), (0.0001 : ℝ) ≤ c.1 := by
  intro c hc; simp only [List.mem_cons, List.not_mem_nil, or_false] at hc
  rcases hc with rfl | rfl <;> norm_num

theorem binAddress_lt {n : ℕ} (hn : 0 < n) (N : ℤ) : binAddress n N < n := by
  unfold binAddress
  split
  · omega
  · split <;> omega

theorem decodeLim_bin (t : List Bin) (hq : nonEmpty t ≠ []) (snap : Bool) (N : ℤ) :
    decodeLim t snap (.bin N) = .ok (((nonEmpty t)[binAddress (nonEmpty t).length N]'(binAddress_lt
      (List.length_pos_iff.2 hq) N)).dMean, true) := by
  have hlen : 0 < (nonEmpty t).length := List.length_pos_iff.2 hq
  have hlt := binAddress_lt hlen N
  have hidx : pyIndex (nonEmpty t)
      (if clip N (-((nonEmpty t).length : ℤ)) ((nonEmpty t).length : ℤ) > 0 then
        clip N (-((nonEmpty t).length : ℤ)) ((nonEmpty t).length : ℤ) - 1
        else clip N (-((nonEmpty t).length : ℤ)) ((nonEmpty t).length : ℤ)) =
      some ((nonEmpty t)[binAddress (nonEmpty t).length N]) := by
    generalize nonEmpty t = q at *
    have key : ∀ (v : ℤ) (k : ℕ) (hk : k < q.length), (v = k ∨ v + q.length = k ∧ v < 0) →
        pyIndex q v = some q[k] := by
      intro v k hk h
      unfold pyIndex
      rcases h with h | ⟨h, h'⟩
      · rw [if_pos (by omega), h]; simp [hk]
      · rw [if_neg (by omega), if_pos (by omega)]
        have : ((q.length : ℤ) + v).toNat = k := by omega
        rw [this, List.getElem?_eq_getElem]
    apply key
    unfold binAddress clip
    split
    · split
      · left; omega
      · split <;> omega
    · split
      · omega
      · split
        · left; omega
        · right; omega
  simp only [decodeLim]
  rw [hidx]

theorem nonEmpty_pairwise {t : List Bin} (ht : Contiguous t) :
    (nonEmpty t).Pairwise (fun x y => x.dMax ≤ y.dMin) := by
  apply List.Pairwise.filter
  rw [List.pairwise_iff_getElem]
  intro i j hi hj hij
  exact dMax_le_dMin ht hij hj

theorem nonEmpty_mem {t : List Bin} {x : Bin} (h : x ∈ nonEmpty t) : x ∈ t ∧ 0 < x.n := by
  unfold nonEmpty at h
  simpa using h

/-- what `decode_range` does with `[bN, bM]` -/
theorem decodeRange_bins (bn : Binning) (hbn : bn ≠ .none) (t : List Bin) (ht : Contiguous t) (hq : nonEmpty t ≠ [])
    (hne : t ≠ []) (snap : Bool) (N M : ℤ) (i j : ℕ) (hi : i < (nonEmpty t).length) (hj : j < (nonEmpty t).length)
    (ei : i = binAddress (nonEmpty t).length N)
    (ej : j = max (binAddress (nonEmpty t).length N) (binAddress (nonEmpty t).length M)) :
    decodeRange bn t (.bin N) (.bin M) snap =
      .ok (((nonEmpty t)[i].dMin : EReal),
        (if (nonEmpty t)[j].dMean ≤ (t.getLast hne).dMax - 0.0000001 then ((nonEmpty t)[j].dMax : EReal)
          else ((nonEmpty t)[j].dMean : EReal))) := by
  have hlen : 0 < (nonEmpty t).length := List.length_pos_iff.2 hq
  have hpw := List.pairwise_iff_getElem.1 (nonEmpty_pairwise ht)
  have hb : ∀ k (hk : k < (nonEmpty t).length), (nonEmpty t)[k].dMin * 1.001 < (nonEmpty t)[k].dMean ∧
      (nonEmpty t)[k].dMean * 1.001 < (nonEmpty t)[k].dMax ∧ 0 < (nonEmpty t)[k].dMin := by
    intro k hk
    obtain ⟨m, hm, e⟩ := List.getElem_of_mem (nonEmpty_mem (List.getElem_mem hk)).1
    rw [← e]
    exact ⟨(mean_bounds ht m hm).1, (mean_bounds ht m hm).2, (dMin_lt_dMax ht m hm).2⟩
  have hmean : ∀ k l (hk : k < (nonEmpty t).length) (hl : l < (nonEmpty t).length), k < l →
      (nonEmpty t)[k].dMean < (nonEmpty t)[l].dMean := by
    intro k l hk hl hkl
    have h1 := hpw k l hk hl hkl
    have h2 := hb k hk
    have h3 := hb l hl
    linarith [h2.1, h2.2.1, h2.2.2, h3.1, h3.2.2]
  have hmaxv : (if ((nonEmpty t)[binAddress (nonEmpty t).length M]'(binAddress_lt hlen M)).dMean <
      ((nonEmpty t)[binAddress (nonEmpty t).length N]'(binAddress_lt hlen N)).dMean then
      ((nonEmpty t)[binAddress (nonEmpty t).length N]'(binAddress_lt hlen N)).dMean else
      ((nonEmpty t)[binAddress (nonEmpty t).length M]'(binAddress_lt hlen M)).dMean) = (nonEmpty t)[j].dMean := by
    have hN := binAddress_lt hlen N
    have hM := binAddress_lt hlen M
    rcases Nat.lt_trichotomy (binAddress (nonEmpty t).length N) (binAddress (nonEmpty t).length M) with h | h | h
    · rw [if_neg (not_lt.2 (hmean _ _ hN hM h).le)]
      simp only [ej, max_eq_right h.le]
    · simp only [ej, h, lt_irrefl, if_false, max_self]
    · rw [if_pos (hmean _ _ hM hN h)]
      simp only [ej, max_eq_left h.le]
  have hlast : t.getLast? = some (t.getLast hne) := List.getLast?_eq_some_getLast hne
  have hlow : snapLow t ((nonEmpty t)[i].dMean : EReal) = .ok ((nonEmpty t)[i].dMin : EReal) := by
    obtain ⟨m, hm, e⟩ := List.getElem_of_mem (nonEmpty_mem (List.getElem_mem hi)).1
    rw [← e]
    have h1 := mean_bounds ht m hm
    have h2 := (dMin_lt_dMax ht m hm).2
    apply snapLow_eq t ht _ m hm
    · right; linarith [h1.1]
    · intro h; rw [← ht.next m h]; linarith [h1.1, h1.2]
  have hhigh : snapHigh t ((nonEmpty t)[j].dMean : EReal) = .ok ((nonEmpty t)[j].dMax : EReal) := by
    obtain ⟨m, hm, e⟩ := List.getElem_of_mem (nonEmpty_mem (List.getElem_mem hj)).1
    rw [← e]
    have h1 := mean_bounds ht m hm
    have h2 := (dMin_lt_dMax ht m hm).2
    apply snapHigh_eq t _ m hm
    · linarith [h1.1, h1.2]
    · intro k hk
      have := dMax_le_dMin ht hk hm
      linarith [h1.1]
  have hpos : (0 : EReal) < ((nonEmpty t)[i].dMean : EReal) := by
    have := hb i hi
    have h0 : 0 < (nonEmpty t)[i].dMean := by linarith [this.1, this.2.2]
    exact_mod_cast h0
  have e1 : decodeLim t snap (.bin N) = .ok (((nonEmpty t)[i].dMean : EReal), true) := by
    rw [decodeLim_bin t hq]; simp only [ei]
  have hif : (if (((nonEmpty t)[binAddress (nonEmpty t).length M]'(binAddress_lt hlen M)).dMean : EReal) <
      ((nonEmpty t)[i].dMean : EReal) then ((nonEmpty t)[i].dMean : EReal) else
      (((nonEmpty t)[binAddress (nonEmpty t).length M]'(binAddress_lt hlen M)).dMean : EReal)) =
        ((nonEmpty t)[j].dMean : EReal) := by
    rw [← hmaxv]
    simp only [ei, EReal.coe_lt_coe_iff]
    split <;> rfl
  simp only [decodeRange, e1, decodeLim_bin t hq snap M, except_ok_bind, hif, hbn, if_false, hlast, true_and, hpos,
    if_true, hlow, hhigh, EReal.coe_le_coe_iff]
  split <;> rfl

/-- **C10.** `range=[bN,bM]` denotes the N-th and M-th non-empty bins (counted from 1, from the end if negative,
clipped): the decoded range runs from the lower boundary of the first to the upper boundary of the second, and the bins
used for plot and fit are exactly the non-empty bins N to M inclusive (bin N alone if M is before N).  The table must
reach far enough for the built-in absolute tolerance of 10^-7 km to be below half a bin. -/
theorem C10_bin_addressing_partial (bn : Binning) (hbn : bn ≠ .none) (t : List Bin) (ht : Contiguous t)
    (hq : nonEmpty t ≠ []) (hne : t ≠ [])
    (hwide : (t.getLast hne).dMean ≤ (t.getLast hne).dMax - 0.0000001) (snap : Bool) (N M : ℤ) :
    let q := t.filter (fun x => decide (0 < x.n))
    let i := binAddress q.length N
    let j := max i (binAddress q.length M)
    ∃ (hi : i < q.length) (hj : j < q.length),
      decodeRange bn t (.bin N) (.bin M) snap = .ok ((q[i].dMin : EReal), (q[j].dMax : EReal)) ∧
      selected t (some ((q[i].dMin : EReal), (q[j].dMax : EReal))) false = (q.take (j + 1)).drop i := by
  intro q i j
  have hqe : q = nonEmpty t := rfl
  have hlen : 0 < q.length := List.length_pos_iff.2 hq
  have hi : i < q.length := binAddress_lt hlen N
  have hj : j < q.length := max_lt hi (binAddress_lt hlen M)
  have htl : 0 < t.length := List.length_pos_iff.2 hne
  have hlastE : t.getLast hne = t[t.length - 1] := List.getLast_eq_getElem hne
  refine ⟨hi, hj, ?_, ?_⟩
  · have := decodeRange_bins bn hbn t ht hq hne snap N M i j hi hj rfl rfl
    rw [if_pos] at this
    · exact this
    refine le_trans ?_ hwide
    obtain ⟨m, hm, e⟩ := List.getElem_of_mem (nonEmpty_mem (List.getElem_mem hj)).1
    have e' : (nonEmpty t)[j].dMean = t[m].dMean := (congrArg Bin.dMean e).symm
    rw [e', hlastE]
    rcases Nat.lt_or_ge m (t.length - 1) with h | h
    · have h1 := mean_bounds ht m hm
      have h2 := dMax_le_dMin ht h (by omega)
      have h3 := mean_bounds ht (t.length - 1) (by omega)
      have h4 := (dMin_lt_dMax ht m hm).2
      have h5 := (dMin_lt_dMax ht (t.length - 1) (by omega)).2
      linarith [h1.1, h1.2, h3.1]
    · have : m = t.length - 1 := by omega
      subst this; exact le_rfl
  · have hsel : selected t (some ((q[i].dMin : EReal), (q[j].dMax : EReal))) false =
        q.filter (fun x => decide (q[i].dMin < x.dMean ∧ x.dMean < q[j].dMax)) := by
      simp only [selected, q, List.filter_filter]
      apply List.filter_congr
      intro x _
      by_cases h0 : 0 < x.n <;> simp [h0]
    rw [hsel]
    apply filter_eq_slice _ q i (j + 1) (by omega) (by omega)
    have hpw := List.pairwise_iff_getElem.1 (nonEmpty_pairwise ht)
    have hb : ∀ k (hk : k < q.length), q[k].dMin < q[k].dMean ∧ q[k].dMean < q[k].dMax := by
      intro k hk
      obtain ⟨m, hm, e⟩ := List.getElem_of_mem (nonEmpty_mem (List.getElem_mem hk)).1
      have e' : q[k] = t[m] := e.symm
      rw [e']
      have h1 := mean_bounds ht m hm
      have h2 := (dMin_lt_dMax ht m hm).2
      constructor <;> linarith [h1.1, h1.2]
    intro k hk
    rw [decide_eq_true_eq]
    constructor
    · rintro ⟨h1, h2⟩
      constructor
      · by_contra hc
        have := hpw k i hk hi (by omega)
        have g := hb k hk
        have : q[k].dMax ≤ q[i].dMin := this
        linarith [g.1, g.2]
      · by_contra hc
        have := hpw j k hj hk (by omega)
        have g := hb k hk
        have : q[j].dMax ≤ q[k].dMin := this
        linarith [g.1, g.2]
    · rintro ⟨h1, h2⟩
      constructor
      · rcases Nat.lt_or_ge i k with h | h
        · have : q[i].dMax ≤ q[k].dMin := hpw i k hi hk h
          linarith [(hb k hk).1, (hb i hi).1, (hb i hi).2]
        · have : i = k := by omega
          have e : q[i].dMin = q[k].dMin := by simp only [this]
          rw [e]; exact (hb k hk).1
      · rcases Nat.lt_or_ge k j with h | h
        · have : q[k].dMax ≤ q[j].dMin := hpw k j hk hj h
          linarith [(hb k hk).2, (hb j hj).1, (hb j hj).2]
        · have : k = j := by omega
          have e : q[j].dMax = q[k].dMax := by simp only [this]
          rw [e]; exact (hb k hk).2

/-- the hypotheses of C10 hold for every binned crater list with diameters of at least 0.2 m -/
theorem C10_applies (b : Binning) (hb : b ≠ .none) (off : ℝ) (cs : List Crater) (hcs : cs ≠ [])
    (hfrac : ∀ c ∈ cs, 0 < c.2)
    (hd : ∀ c ∈ cs, (0.0002 : ℝ) ≤ c.1) : ∃ t, applyBinning b off cs = .ok t ∧ Contiguous t ∧ nonEmpty t ≠ [] ∧
      ∃ hne : t ≠ [], (t.getLast hne).dMean ≤ (t.getLast hne).dMax - 0.0000001 := by
  obtain ⟨t, h1, h2⟩ := C01_binning_succeeds b cs hcs (fun c hc => by linarith [hd c hc]) off
  have hc := applyBinning_contiguous hb h1
  refine ⟨t, h1, hc, ?_, h2, ?_⟩
  · intro h0
    have g1 := (C02_conservation b off cs t h1).2
    have g2 := nonEmpty_sum t Bin.n (nonEmpty_zero hfrac h1)
    rw [h0] at g2
    have g3 : 0 < weightAll cs := by
      unfold weightAll
      apply List.sum_pos
      · intro x hx
        obtain ⟨c, hc, rfl⟩ := List.mem_map.1 hx
        exact hfrac c hc
      · simpa using hcs
    simp at g2
    linarith
  · obtain ⟨A, m, hm, hlen, hte, hcr, hcol⟩ := table_cols hb h1
    obtain ⟨c, hcm⟩ := List.exists_mem_of_ne_nil cs hcs
    have g1 := (hcr c hcm).2.2
    have g2 := hd c hcm
    have g4 : (t.getLast h2).dMax = gridFn b off (A + (m - 1 : ℕ)) := by
      rw [List.getLast_eq_getElem, (hcol (t.length - 1) (by omega)).2.1]
      congr 1; omega
    have g5 := mean_bounds hc (t.length - 1) (by omega)
    have g6 := dMin_lt_dMax hc (t.length - 1) (by omega)
    rw [← g4] at g1
    rw [List.getLast_eq_getElem] at g1 ⊢
    linarith [g5.1, g5.2, g6.1, g6.2]

/-- **C10, binning 'none'.** Here the claim is false for every table: the first and the last crater asked for are never
among those used, because the range ends exactly at their diameters and the selection is strict. -/
theorem C10_none_counterexample (t : List Bin) (hq : nonEmpty t ≠ []) (snap : Bool) (N M : ℤ) (r : EReal × EReal)
    (h : decodeRange .none t (.bin N) (.bin M) snap = .ok r) :
    let q := t.filter (fun x => decide (0 < x.n))
    ∃ (hi : binAddress q.length N < q.length) (hj : binAddress q.length M < q.length),
      q[binAddress q.length N] ∉ selected t (some r) false ∧
      q[binAddress q.length M] ∉ selected t (some r) false := by
  intro q
  have hlen : 0 < q.length := List.length_pos_iff.2 hq
  have hN := binAddress_lt hlen N
  have hM := binAddress_lt hlen M
  refine ⟨hN, hM, ?_⟩
  simp only [decodeRange, decodeLim_bin t hq, except_ok_bind, if_true] at h
  have h := (Except.ok.inj h).symm
  subst h
  constructor
  · intro hm
    simp only [selected, List.mem_filter, decide_eq_true_eq, Bool.false_eq_true, if_false] at hm
    exact absurd hm.2.2.1 (lt_irrefl _)
  · intro hm
    simp only [selected, List.mem_filter, decide_eq_true_eq, Bool.false_eq_true, if_false] at hm
    have h1 := hm.2.2.2
    have h2 := hm.2.2.1
    split at h1
    · next h3 => exact absurd (lt_trans h2 h3) (lt_irrefl _)
    · exact absurd h1 (lt_irrefl _)

example : nonEmpty (tableNone [(1, 1), (2, 1), (3, 1)]) ≠ [] := by
  have hl : 0 < (tableNone [(1, 1), (2, 1), (3, 1)]).length := by simp
  have hx : (tableNone [(1, 1), (2, 1), (3, 1)])[0] ∈ nonEmpty (tableNone [(1, 1), (2, 1), (3, 1)]) := by
    unfold nonEmpty
    rw [List.mem_filter]
    refine ⟨List.getElem_mem _, ?_⟩
    rw [tableNone_getElem _ 0 hl (by simp)]
    have hm := (List.mergeSort_perm ([(1, 1), (2, 1), (3, 1)] : List Crater) craterLe).subset
      (List.getElem_mem (l := ([(1, 1), (2, 1), (3, 1)] : List Crater).mergeSort craterLe) (n := 0) (by simp))
    simp only [List.mem_cons, List.not_mem_nil, or_false] at hm
    simp only [decide_eq_true_eq]
    rcases hm with h | h | h <;> rw [h] <;> norm_num
  exact List.ne_nil_of_mem hx

/-- **C10, microscopic craters.** The claim also fails when the whole table is below 10^-7 km (0.1 mm): the absolute
tolerance then keeps the upper limit from being snapped, and the last bin asked for is left out. -/
theorem C10_micro_counterexample (bn : Binning) (hbn : bn ≠ .none) (t : List Bin) (ht : Contiguous t)
    (hq : nonEmpty t ≠ []) (hne : t ≠ []) (hsmall : (t.getLast hne).dMax ≤ 0.0000001) (snap : Bool) (N : ℤ) :
    ∃ r, decodeRange bn t (.bin N) (.bin N) snap = .ok r ∧ selected t (some r) false = [] := by
  have hlen : 0 < (nonEmpty t).length := List.length_pos_iff.2 hq
  have hi := binAddress_lt hlen N
  have hd := decodeRange_bins bn hbn t ht hq hne snap N N _ _ hi hi rfl (max_self _).symm
  obtain ⟨m, hm, e⟩ := List.getElem_of_mem (nonEmpty_mem (List.getElem_mem hi)).1
  have h1 := mean_bounds ht m hm
  have h2 := (dMin_lt_dMax ht m hm).2
  rw [if_neg (by rw [← e]; linarith [h1.1])] at hd
  refine ⟨_, hd, ?_⟩
  rw [← e]
  simp only [selected, List.filter_eq_nil_iff, decide_eq_true_eq, Bool.false_eq_true, if_false, not_and, not_lt,
    EReal.coe_lt_coe_iff, EReal.coe_le_coe_iff]
  intro x hx _ h3
  obtain ⟨k, hk, rfl⟩ := List.getElem_of_mem hx
  have g1 := mean_bounds ht k hk
  have g2 := (dMin_lt_dMax ht k hk).2
  rcases Nat.lt_trichotomy k m with h | h | h
  · have := dMax_le_dMin ht h hm
    linarith [g1.1, g1.2]
  · subst h; exact le_rfl
  · have := dMax_le_dMin ht h hk
    linarith [g1.1, h1.2, h1.1]

example : ∃ t : List Bin, Contiguous t ∧ nonEmpty t ≠ [] ∧ ∃ hne : t ≠ [], (t.getLast hne).dMax ≤ 0.0000001 := by
  refine ⟨[⟨0.00000001, 0.00000002, 0.00000001, Real.sqrt (0.00000002 * 0.00000001), 1, 1, 1, 1⟩], ?_, ?_, by simp, ?_⟩
  · constructor
    · intro x hx; simp only [List.mem_singleton] at hx; subst hx; norm_num
    · intro x hx; simp only [List.mem_singleton] at hx; subst hx; norm_num
    · intro x hx; simp only [List.mem_singleton] at hx; subst hx; rfl
    · intro i h; simp at h
  · simp [nonEmpty]
  · norm_num

end

end Verif.Props
