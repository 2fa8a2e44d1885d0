import Verif.Model.BinCraters
import Verif.Props.Binning
import Verif.Props.Format
import Verif.Props.Fit
import Verif.Props.RandomnessFile

/-! # C97, C98: search grid and selection of craters by bin -/

namespace Verif.Props

open Verif.Py Verif.Cratercount Verif.Text Verif.Rand Verif.Spec

/-! ### C98 -/

/-- rounding to three digits changes a number below 99.9 by at most 0.05 -/
theorem three_digits {n r : ℚ} (h : IsRounded 3 n r) (hn : |n| ≤ 99.9) : |n - r| ≤ 1 / 20 := by
  obtain ⟨_, h2, _⟩ := h
  have hr : |n * 10 - round (n * 10)| ≤ 1 / 2 := abs_sub_round _
  have hm : |round (n * 10)| < 10 ^ 3 := by
    have h1 : |((round (n * 10) : ℤ) : ℚ)| < 1000 := by
      rw [abs_le] at hr hn
      rw [abs_lt]
      constructor <;> linarith [hr.1, hr.2, hn.1, hn.2]
    exact_mod_cast h1
  have := h2 (round (n * 10)) (-1) hm
  refine this.trans ?_
  rw [abs_le] at hr ⊢
  rw [zpow_neg_one]
  constructor <;> linarith [hr.1, hr.2]

theorem key_close {ρ : ℝ → ℚ} (hρ : ∀ x, |(ρ x : ℝ) - x| ≤ 1 / 100) {x y : ℝ} (hx : |x| ≤ 99) (hy : |y| ≤ 99)
    (h : gStr 2 (ρ x) = gStr 2 (ρ y)) : |x - y| < 1 / 2 := by
  have e := congrArg decVal h
  rw [decVal_gStr, decVal_gStr] at e
  have e' := Option.some.inj e
  have hb : ∀ z : ℝ, |z| ≤ 99 → |ρ z| ≤ 99.9 := by
    intro z hz
    have h1 := hρ z
    have : |(ρ z : ℝ)| ≤ 99.9 := by
      rw [abs_le] at *
      constructor <;> norm_num <;> linarith [h1.1, h1.2, hz.1, hz.2]
    have h2 : ((|ρ z| : ℚ) : ℝ) ≤ ((99.9 : ℚ) : ℝ) := by push_cast; norm_num at this ⊢; exact this
    exact_mod_cast h2
  have k1 := three_digits (isRounded_sci 2 (ρ x)) (hb x hx)
  have k2 := three_digits (isRounded_sci 2 (ρ y)) (hb y hy)
  rw [e'] at k1
  have k3 : |ρ x - ρ y| ≤ 1 / 10 := by
    rw [abs_le] at *
    constructor <;> linarith [k1.1, k1.2, k2.1, k2.2]
  have k4 : |(ρ x : ℝ) - ρ y| ≤ 1 / 10 := by
    have : ((|ρ x - ρ y| : ℚ) : ℝ) ≤ ((1 / 10 : ℚ) : ℝ) := by exact_mod_cast k3
    push_cast at this
    exact this
  have a := hρ x
  have b := hρ y
  rw [abs_le] at a b k4
  rw [abs_lt]
  constructor <;> linarith [a.1, a.2, b.1, b.2, k4.1, k4.2]

/-- the boundaries of the root-2 binning are the powers of two with half-integer exponents -/
theorem root2_edge {e : ℝ} (h : (gridOf .root2 0).Edge e) : ∃ j : ℤ, Real.logb 2 e = j / 2 ∧ 0 < e := by
  obtain ⟨j, rfl⟩ := h
  refine ⟨j, ?_, by positivity⟩
  rw [← Real.rpow_mul (by norm_num), Real.logb_rpow (by norm_num) (by norm_num)]
  ring

theorem root2_bounds {d : List ℝ} {edges : List ℝ} (hs : Stretch (gridOf .root2 0) edges)
    (h1 : ∀ i (h : i < edges.length), 1 ≤ i → ∃ x ∈ d, x ≤ edges[i])
    (h2 : ∀ i (h : i + 1 < edges.length), ∃ x ∈ d, edges[i] < x * (10 : ℝ) ^ (0.001 : ℝ))
    (hd : ∀ x ∈ d, (2 : ℝ) ^ (-98 : ℝ) ≤ x ∧ x ≤ (2 : ℝ) ^ (98 : ℝ)) (i : ℕ) (h : i + 1 < edges.length) :
    |Real.logb 2 edges[i]| ≤ 99 := by
  obtain ⟨j, hj⟩ := hs.onGrid edges[i] (List.getElem_mem _)
  have hj' : edges[i] = (2 : ℝ) ^ ((j : ℝ) / 2) := by
    rw [hj, ← Real.rpow_mul (by norm_num)]
    congr 1
    ring
  have hnext : edges[i + 1] ≤ (2 : ℝ) ^ (((j : ℝ) + 1) / 2) := by
    apply hs.noGap i h
    · refine ⟨j + 1, ?_⟩
      rw [← Real.rpow_mul (by norm_num)]
      congr 1
      push_cast
      ring
    · rw [hj']
      exact Real.rpow_lt_rpow_of_exponent_lt (by norm_num) (by linarith)
  obtain ⟨x, hx, hx1⟩ := h1 (i + 1) h (by omega)
  obtain ⟨y, hy, hy1⟩ := h2 i h
  have lo : (-98 : ℝ) ≤ ((j : ℝ) + 1) / 2 := by
    have := (hd x hx).1.trans (hx1.trans hnext)
    exact (Real.rpow_le_rpow_left_iff (by norm_num)).1 this
  have up : (j : ℝ) / 2 < 99 := by
    have h10 : (10 : ℝ) ^ (0.001 : ℝ) ≤ 2 := by
      have : (10 : ℝ) ^ (0.001 : ℝ) ≤ ((2 : ℝ) ^ (4 : ℝ)) ^ (0.001 : ℝ) := Real.rpow_le_rpow (by norm_num) (by norm_num) (by norm_num)
      rw [← Real.rpow_mul (by norm_num)] at this
      refine this.trans ?_
      calc (2 : ℝ) ^ (4 * 0.001 : ℝ) ≤ (2 : ℝ) ^ (1 : ℝ) := Real.rpow_le_rpow_of_exponent_le (by norm_num) (by norm_num)
        _ = 2 := by norm_num
    have hpos : (0 : ℝ) < (10 : ℝ) ^ (0.001 : ℝ) := by positivity
    have : (2 : ℝ) ^ ((j : ℝ) / 2) < (2 : ℝ) ^ (99 : ℝ) := by
      rw [← hj']
      calc edges[i] < y * (10 : ℝ) ^ (0.001 : ℝ) := hy1
        _ ≤ (2 : ℝ) ^ (98 : ℝ) * 2 := by
          apply mul_le_mul (hd y hy).2 h10 hpos.le (by positivity)
        _ = (2 : ℝ) ^ (99 : ℝ) := by
          rw [← Real.rpow_add_one (by norm_num)]
          norm_num
    exact (Real.rpow_lt_rpow_left_iff (by norm_num)).1 this
  rw [hj', Real.logb_rpow (by norm_num) (by norm_num), abs_le]
  constructor <;> linarith

/-- the keys of different bins differ -/
theorem key_inj {ρ : ℝ → ℚ} (hρ : ∀ x, |(ρ x : ℝ) - x| ≤ 1 / 100) {edges : List ℝ} (hs : Stretch (gridOf .root2 0) edges)
    (hb : ∀ i (h : i + 1 < edges.length), |Real.logb 2 edges[i]| ≤ 99) (i j : ℕ) (hi : i + 1 < edges.length) (hj : j + 1 < edges.length)
    (h : binKey ρ edges[i] = binKey ρ edges[j]) : i = j := by
  have hc := key_close hρ (hb i hi) (hb j hj) h
  obtain ⟨k, hk, hkp⟩ := root2_edge (hs.onGrid edges[i] (List.getElem_mem _))
  obtain ⟨l, hl, hlp⟩ := root2_edge (hs.onGrid edges[j] (List.getElem_mem _))
  rw [hk, hl] at hc
  have hkl : k = l := by
    have : |(k : ℝ) - l| < 1 := by
      rw [abs_lt] at hc ⊢
      constructor <;> linarith [hc.1, hc.2]
    have : |k - l| < 1 := by exact_mod_cast this
    have := Int.abs_lt_one_iff.1 this
    omega
  have he : edges[i] = edges[j] := Real.logb_injOn_pos (b := 2) (by norm_num) hkp hlp (by rw [hk, hl, hkl])
  by_contra hne
  rcases Nat.lt_or_gt_of_ne hne with hlt | hgt
  · exact absurd he (List.pairwise_iff_getElem.1 hs.increasing i j _ _ hlt).ne
  · exact absurd he (List.pairwise_iff_getElem.1 hs.increasing j i _ _ hgt).ne'

theorem mapM_all_ok {ε α β : Type} {l : List α} {g : α → Except ε β} {g' : α → β} (h : ∀ x ∈ l, g x = .ok (g' x)) :
    l.mapM g = .ok (l.map g') := by
  induction l with
  | nil => rfl
  | cons x l ih =>
    rw [List.mapM_cons, h x (by simp), ih (fun y hy => h y (by simp [hy]))]
    rfl

theorem selectBin_eq {α : Type} {ρ : ℝ → ℚ} (hρ : ∀ x, |(ρ x : ℝ) - x| ≤ 1 / 100) {edges : List ℝ} (hs : Stretch (gridOf .root2 0) edges)
    (hb : ∀ i (h : i + 1 < edges.length), |Real.logb 2 edges[i]| ≤ 99) (cs : List (Placed α)) (hcov : ∀ c ∈ cs, ∃ i, InBin edges i c.diam)
    (i : ℕ) (hi : i + 1 < edges.length) : selectBin ρ edges cs (binKey ρ edges[i]) =
      .ok (cs.filter (fun c => decide (edges[i] ≤ c.diam ∧ c.diam < edges[i + 1]))) := by
  have hle : edges.Pairwise (· ≤ ·) := hs.increasing.imp (fun h => le_of_lt h)
  have hzip : cs.zip (reverseIndices edges (cs.map Placed.crater)) = cs.map (fun c => (c, searchsortedRight edges c.diam)) := by
    unfold reverseIndices
    rw [List.map_map]
    clear hcov
    induction cs with
    | nil => rfl
    | cons c cs ih => simp only [List.map_cons, List.zip_cons_cons, ih]; rfl
  have hss : ∀ c ∈ cs, ∃ k, ∃ h : k + 1 < edges.length, searchsortedRight edges c.diam = k + 1 ∧ edges[k] ≤ c.diam ∧ c.diam < edges[k + 1] := by
    intro c hc
    obtain ⟨k, hk, h1, h2⟩ := hcov c hc
    refine ⟨k, hk, searchsortedRight_eq_of (k + 1) (by omega) ?_ (fun _ => h2), h1, h2⟩
    intro i hi hik
    refine le_trans ?_ h1
    rcases Nat.eq_or_lt_of_le (Nat.lt_succ_iff.1 hik) with rfl | hlt
    · exact le_rfl
    · exact List.pairwise_iff_getElem.1 hle i k _ _ hlt
  have hm : ∀ x ∈ cs.map (fun c => (c, searchsortedRight edges c.diam)),
      (keyAt (edges.dropLast.map (binKey ρ)) x.2).map (fun k => (x.1, k)) = .ok (x.1, binKey ρ (edges.getD (x.2 - 1) 0)) := by
    intro x hx
    obtain ⟨c, hc, rfl⟩ := List.mem_map.1 hx
    obtain ⟨k, hk, e, _⟩ := hss c hc
    dsimp only [keyAt]
    rw [e]
    have e2 : (((k + 1 : ℕ) : ℤ) - 1) = (k : ℤ) := by push_cast; ring
    have e3 : pyIndex (edges.dropLast.map (binKey ρ)) (k : ℤ) = some (binKey ρ edges[k]) := by
      unfold pyIndex
      rw [if_pos (by omega), Int.toNat_natCast, List.getElem?_eq_getElem (by simp; omega)]
      simp
    rw [e2, e3]
    simp only [Nat.add_sub_cancel]
    rw [List.getD_eq_getElem _ _ (by omega)]
    rfl
  unfold selectBin
  dsimp only
  rw [hzip, mapM_all_ok hm]
  show Except.ok _ = Except.ok _
  congr 1
  rw [List.map_map, List.filter_map, List.map_map]
  have : (Prod.fst ∘ (fun x : Placed α × ℕ => (x.1, binKey ρ (edges.getD (x.2 - 1) 0))) ∘ fun c => (c, searchsortedRight edges c.diam)) = id := rfl
  rw [this, List.map_id]
  apply List.filter_congr
  intro c hc
  obtain ⟨k, hk, e, g1, g2⟩ := hss c hc
  simp only [Function.comp, decide_eq_decide]
  rw [e, Nat.add_sub_cancel, List.getD_eq_getElem _ _ (by omega)]
  constructor
  · intro h
    have := key_inj hρ hs hb k i hk hi h
    subst this
    exact ⟨g1, g2⟩
  · rintro ⟨f1, f2⟩
    have : k = i := by
      by_contra hne
      rcases Nat.lt_or_gt_of_ne hne with hlt | hgt
      · have : edges[k + 1] ≤ edges[i] := by
          rcases Nat.eq_or_lt_of_le hlt with h | h
          · simp only [← h, Nat.succ_eq_add_one]; exact le_rfl
          · exact List.pairwise_iff_getElem.1 hle (k + 1) i _ _ h
        linarith
      · have : edges[i + 1] ≤ edges[k] := by
          rcases Nat.eq_or_lt_of_le hgt with h | h
          · simp only [← h, Nat.succ_eq_add_one]; exact le_rfl
          · exact List.pairwise_iff_getElem.1 hle (i + 1) k _ _ h
        linarith
    subst this
    rfl

/-- what the binning of a count gives -/
theorem root2_setup {α : Type} (cs : List (Placed α)) (hcs : cs ≠ [])
    (hd : ∀ c ∈ cs, (2 : ℝ) ^ (-98 : ℝ) ≤ c.diam ∧ c.diam ≤ (2 : ℝ) ^ (98 : ℝ)) :
    ∃ edges, generateBins .root2 (cs.map Placed.diam) 0 true = .ok edges ∧
      applyBinning .root2 0 (cs.map Placed.crater) = .ok (tableOf edges (cs.map Placed.crater)) ∧ Stretch (gridOf .root2 0) edges ∧
      (∀ i (h : i + 1 < edges.length), |Real.logb 2 edges[i]| ≤ 99) ∧ (∀ c ∈ cs, ∃ i, InBin edges i c.diam) := by
  have hpos : ∀ x ∈ cs.map Placed.diam, 0 < x := by
    intro x hx
    obtain ⟨c, hc, rfl⟩ := List.mem_map.1 hx
    exact lt_of_lt_of_le (by positivity) (hd c hc).1
  obtain ⟨edges, h1, h2, h3, h4, h5⟩ := C01_bins_cover .root2 (by decide) (cs.map Placed.diam) (by simpa using hcs) hpos 0
  refine ⟨edges, h1, ?_, h2, ?_, ?_⟩
  · have e : (cs.map Placed.crater).map Prod.fst = cs.map Placed.diam := by
      rw [List.map_map]; rfl
    unfold applyBinning
    rw [if_neg (by decide), e, h1]
    rfl
  · intro i h
    apply root2_bounds h2 h4 h5 _ i h
    intro x hx
    obtain ⟨c, hc, rfl⟩ := List.mem_map.1 hx
    exact hd c hc
  · intro c hc
    obtain ⟨i, hi, _⟩ := h3 c.diam (List.mem_map.2 ⟨c, hc, rfl⟩)
    exact ⟨i, hi⟩

/-- **C98, craters of a bin.** For every count with diameters between `2^-98` and `2^98` km the craters found under the name of a bin are exactly
those with diameters in this bin, in the order of the file, and their number is that of the bin.  `ρ` stands for the floating point
evaluation of the logarithm: any function with errors up to 0.01. -/
theorem C98_selection {α : Type} (ρ : ℝ → ℚ) (hρ : ∀ x, |(ρ x : ℝ) - x| ≤ 1 / 100) (cs : List (Placed α)) (hcs : cs ≠ [])
    (hd : ∀ c ∈ cs, (2 : ℝ) ^ (-98 : ℝ) ≤ c.diam ∧ c.diam ≤ (2 : ℝ) ^ (98 : ℝ)) :
    ∃ edges t, generateBins .root2 (cs.map Placed.diam) 0 true = .ok edges ∧ applyBinning .root2 0 (cs.map Placed.crater) = .ok t ∧
      ∀ x ∈ t, let l := cs.filter (fun c => decide (x.dMin ≤ c.diam ∧ c.diam < x.dMax))
        selectBin ρ edges cs (binKey ρ x.dMin) = .ok l ∧ (l.length : ℝ) = x.nEvent ∧
        (0 < x.nEvent → measuredBin ρ edges cs (binKey ρ x.dMin) = .ok l) := by
  obtain ⟨edges, h1, h2, h3, h4, h5⟩ := root2_setup cs hcs hd
  refine ⟨edges, _, h1, h2, ?_⟩
  intro x hx
  have hc := C03_bin_contents .root2 (by decide) 0 _ _ h2 x hx
  obtain ⟨i, hi, rfl⟩ := List.getElem_of_mem hx
  have hi' : i + 1 < edges.length := by simp at hi; omega
  obtain ⟨e1, e2, _⟩ := tableOf_getElem edges (cs.map Placed.crater) i hi hi'
  have hsel := selectBin_eq hρ h3 h4 cs h5 i hi'
  rw [← e1, ← e2] at hsel
  have hlen : ((cs.filter (fun c => decide ((tableOf edges (cs.map Placed.crater))[i].dMin ≤ c.diam ∧
      c.diam < (tableOf edges (cs.map Placed.crater))[i].dMax))).length : ℝ) = (tableOf edges (cs.map Placed.crater))[i].nEvent := by
    rw [hc.2.2.2.2.2.2.2.2.1, countIn, List.filter_map, List.length_map]
    rfl
  refine ⟨hsel, hlen, ?_⟩
  intro hp
  unfold measuredBin
  rw [hsel]
  show (if _ = [] then Except.error Exc.value else Except.ok _) = _
  rw [if_neg]
  intro h0
  rw [h0] at hlen
  simp at hlen
  linarith

/-- **C98, trials of a bin.** The trials are filed under different names for different bins: for each bin with enough craters the trials of
this bin are found under its name, and nothing under the name of another. -/
theorem C98_trials {α β : Type} (ρ : ℝ → ℚ) (hρ : ∀ x, |(ρ x : ℝ) - x| ≤ 1 / 100) (cs : List (Placed α)) (hcs : cs ≠ [])
    (hd : ∀ c ∈ cs, (2 : ℝ) ^ (-98 : ℝ) ≤ c.diam ∧ c.diam ≤ (2 : ℝ) ^ (98 : ℝ)) (minCount : ℝ) (run : ℝ → ℝ → β) :
    ∃ t, applyBinning .root2 0 (cs.map Placed.crater) = .ok t ∧
      splitTrials ρ minCount run t = (t.filter (fun x => decide (minCount ≤ x.nEvent))).map (fun x => (binKey ρ x.dMin, run x.dMin x.nEvent)) ∧
      ∀ x ∈ t, dictGet (splitTrials ρ minCount run t) (binKey ρ x.dMin) =
        if minCount ≤ x.nEvent then some (run x.dMin x.nEvent) else none := by
  obtain ⟨edges, h1, h2, h3, h4, h5⟩ := root2_setup cs hcs hd
  refine ⟨_, h2, ?_⟩
  set t := tableOf edges (cs.map Placed.crater) with ht
  have hlen : t.length = edges.length - 1 := by rw [ht]; simp
  have hmin : ∀ i (h : i < t.length), t[i].dMin = edges[i] := fun i h => (tableOf_getElem edges _ i h (by omega)).1
  have hinj : ∀ i j (hi : i < t.length) (hj : j < t.length), binKey ρ t[i].dMin = binKey ρ t[j].dMin → i = j := by
    intro i j hi hj h
    rw [hmin i hi, hmin j hj] at h
    exact key_inj hρ h3 h4 i j (by omega) (by omega) h
  have hnd : (t.map (fun x => binKey ρ x.dMin)).Nodup := by
    rw [List.nodup_iff_injective_getElem]
    intro i j hij
    simp only [List.getElem_map] at hij
    exact Fin.ext (hinj i.1 j.1 (by simpa using i.2) (by simpa using j.2) hij)
  have e : splitTrials ρ minCount run t =
      (t.filter (fun x => decide (minCount ≤ x.nEvent))).map (fun x => (binKey ρ x.dMin, run x.dMin x.nEvent)) := by
    unfold splitTrials
    have hf := foldl_dictSet ((t.filter (fun x => decide (minCount ≤ x.nEvent))).map (fun x => (binKey ρ x.dMin, run x.dMin x.nEvent))) [] (by
      rw [List.nil_append, List.map_map]
      exact hnd.sublist (List.filter_sublist.map _))
    rw [List.foldl_map, List.nil_append] at hf
    exact hf
  refine ⟨e, ?_⟩
  intro x hx
  rw [e]
  split
  · rename_i hn
    refine dictGet_of_mem ?_ (List.mem_map.2 ⟨x, List.mem_filter.2 ⟨hx, by simpa using hn⟩, rfl⟩)
    rw [List.map_map]
    exact hnd.sublist (List.filter_sublist.map _)
  · rename_i hn
    unfold dictGet
    rw [List.find?_eq_none.2]
    · rfl
    · intro y hy hk
      obtain ⟨z, hz, rfl⟩ := List.mem_map.1 hy
      rw [List.mem_filter] at hz
      simp only [decide_eq_true_eq] at hz hk
      have : z = x := by
        obtain ⟨i, hi, rfl⟩ := List.getElem_of_mem hz.1
        obtain ⟨j, hj, rfl⟩ := List.getElem_of_mem hx
        simp only [hinj i j hi hj hk]
      rw [this] at hz
      exact hn hz.2

example : ∃ ρ : ℝ → ℚ, ∀ x, |(ρ x : ℝ) - x| ≤ 1 / 100 := by
  refine ⟨fun x => (round (x * 50) : ℚ) / 50, fun x => ?_⟩
  have h := abs_sub_round (x * 50)
  push_cast
  rw [abs_le] at h ⊢
  constructor <;> linarith [h.1, h.2]

example : (2 : ℝ) ^ (-98 : ℝ) ≤ 0.001 ∧ (5000 : ℝ) ≤ (2 : ℝ) ^ (98 : ℝ) := by
  constructor
  · rw [show (-98 : ℝ) = ((-98 : ℤ) : ℝ) by norm_num, Real.rpow_intCast]; norm_num
  · rw [show (98 : ℝ) = ((98 : ℕ) : ℝ) by norm_num, Real.rpow_natCast]; norm_num

/-! ### C97 -/

theorem roundInt_near (x : ℝ) : |(roundInt x : ℝ) - x| ≤ 1 / 2 := by
  have h1 := Int.floor_le x
  have h2 := Int.lt_floor_add_one x
  unfold roundInt
  dsimp only
  rw [abs_le]
  split
  · constructor <;> linarith
  · split
    · push_cast; constructor <;> linarith
    · split
      · constructor <;> linarith
      · push_cast; constructor <;> linarith

theorem roundInt_nonneg {x : ℝ} : 0 ≤ roundInt x ↔ -(1 / 2) ≤ x := by
  have hn := roundInt_near x
  rw [abs_le] at hn
  constructor
  · intro h
    have : (0 : ℝ) ≤ roundInt x := by exact_mod_cast h
    linarith [hn.2]
  · intro h
    by_contra hc
    have h1 : roundInt x ≤ -1 := by omega
    have h2 : (roundInt x : ℝ) ≤ -1 := by exact_mod_cast h1
    have h3 : x = -(1 / 2) := by linarith [hn.1]
    have h4 : ⌊x⌋ = -1 := by
      rw [h3, Int.floor_eq_iff]
      norm_num
    have : roundInt x = 0 := by
      unfold roundInt
      dsimp only
      rw [h4, h3]
      norm_num
    omega

/-- the exponent in terms of the number of cells -/
theorem side_exponent {x : ℝ} (hx : 0 < x) : Real.logb 2 (Real.sqrt (x / 12)) = Real.logb 2 (x / 12) / 2 := by
  rw [Real.sqrt_eq_rpow, Real.logb_rpow_eq_mul_logb_of_pos (by positivity)]
  ring

/-- **C97, resolution.** The search grid has a number of cells (12 times the square of its side) between half and twice the number asked for:
one tenth of the number of trials within the counted area. -/
theorem C97_resolution (radius area : ℝ) (n : ℕ) (hr : 0 < radius) (ha : 0 < area) (hn : 0 < n) :
    ∃ side, gridSide radius area n = .ok side ∧ 0 < side ∧
      (n : ℝ) / 10 * (4 * Real.pi * radius ^ 2 / area) / 2 ≤ 12 * side ^ 2 ∧
      12 * side ^ 2 ≤ 2 * ((n : ℝ) / 10 * (4 * Real.pi * radius ^ 2 / area)) := by
  have hn' : (0 : ℝ) < n := by exact_mod_cast hn
  have hpi := Real.pi_pos
  set x := 4 * Real.pi * radius ^ 2 / (area / ((n : ℝ) / 10)) with hx
  have hxe : (n : ℝ) / 10 * (4 * Real.pi * radius ^ 2 / area) = x := by rw [hx]; field_simp
  have hxp : 0 < x := by rw [hx]; positivity
  rw [hxe]
  refine ⟨(2 : ℝ) ^ roundInt (Real.logb 2 (Real.sqrt (x / 12))), ?_, by positivity, ?_⟩
  · unfold gridSide desiredCells
    rw [if_neg (by omega), if_neg ha.ne']
    rfl
  rw [side_exponent hxp]
  set L := Real.logb 2 (x / 12) with hL
  have hn := roundInt_near (L / 2)
  set k := roundInt (L / 2)
  rw [abs_le] at hn
  have hL2 : (2 : ℝ) ^ L = x / 12 := Real.rpow_logb (by norm_num) (by norm_num) (by positivity)
  have hk : ((2 : ℝ) ^ k) ^ 2 = (2 : ℝ) ^ (2 * (k : ℝ)) := by
    rw [← Real.rpow_intCast, ← Real.rpow_natCast, ← Real.rpow_mul (by norm_num)]
    congr 1
    push_cast
    ring
  rw [hk]
  constructor
  · have : (2 : ℝ) ^ (L - 1) ≤ (2 : ℝ) ^ (2 * (k : ℝ)) := Real.rpow_le_rpow_of_exponent_le (by norm_num) (by linarith [hn.1])
    rw [Real.rpow_sub_one (by norm_num), hL2] at this
    linarith
  · have : (2 : ℝ) ^ (2 * (k : ℝ)) ≤ (2 : ℝ) ^ (L + 1) := Real.rpow_le_rpow_of_exponent_le (by norm_num) (by linarith [hn.2])
    rw [Real.rpow_add_one (by norm_num), hL2] at this
    linarith

/-- when the side of the grid is a whole number -/
theorem side_whole (radius area : ℝ) (n : ℕ) (hr : 0 < radius) (ha : 0 < area) (hn : 0 < n) {side : ℝ}
    (h : gridSide radius area n = .ok side) :
    (∃ k : ℕ, side = 2 ^ k) ↔ 6 ≤ (n : ℝ) / 10 * (4 * Real.pi * radius ^ 2 / area) := by
  have hn' : (0 : ℝ) < n := by exact_mod_cast hn
  have hpi := Real.pi_pos
  set x := 4 * Real.pi * radius ^ 2 / (area / ((n : ℝ) / 10)) with hx
  have hxe : (n : ℝ) / 10 * (4 * Real.pi * radius ^ 2 / area) = x := by rw [hx]; field_simp
  have hxp : 0 < x := by rw [hx]; positivity
  rw [hxe]
  have hs : side = (2 : ℝ) ^ roundInt (Real.logb 2 (Real.sqrt (x / 12))) := by
    unfold gridSide desiredCells at h
    rw [if_neg (by omega), if_neg ha.ne'] at h
    exact (Except.ok.inj h).symm
  rw [side_exponent hxp] at hs
  have h6 : 6 ≤ x ↔ -(1 / 2) ≤ Real.logb 2 (x / 12) / 2 := by
    have : -1 ≤ Real.logb 2 (x / 12) ↔ (2 : ℝ) ^ (-1 : ℝ) ≤ x / 12 := Real.le_logb_iff_rpow_le (by norm_num) (by positivity)
    rw [Real.rpow_neg_one] at this
    constructor
    · intro h
      have := this.2 (by linarith)
      linarith
    · intro h
      have := this.1 (by linarith)
      linarith
  rw [h6, ← roundInt_nonneg, hs]
  set k := roundInt (Real.logb 2 (x / 12) / 2)
  constructor
  · rintro ⟨j, hj⟩
    have : (2 : ℝ) ^ k = (2 : ℝ) ^ (j : ℤ) := by rw [hj, zpow_natCast]
    have := zpow_right_injective₀ (by norm_num : (0 : ℝ) < 2) (by norm_num) this
    omega
  · intro hk
    obtain ⟨j, hj⟩ := Int.eq_ofNat_of_zero_le hk
    exact ⟨j, by rw [hj, zpow_natCast]⟩

/-- **C97 (partial: at least sixty trials).** For every area on the body and at least sixty trials the side of the grid is a power of two. -/
theorem C97_side_partial (radius area : ℝ) (n : ℕ) (hr : 0 < radius) (ha : 0 < area) (hglobe : area ≤ 4 * Real.pi * radius ^ 2) (hn : 60 ≤ n) :
    ∃ k : ℕ, gridSide radius area n = .ok (2 ^ k) := by
  obtain ⟨side, h, _⟩ := C97_resolution radius area n hr ha (by omega)
  have hn' : (60 : ℝ) ≤ n := by exact_mod_cast hn
  have h1 : 1 ≤ 4 * Real.pi * radius ^ 2 / area := by rw [le_div_iff₀ ha]; linarith
  obtain ⟨k, hk⟩ := (side_whole radius area n hr ha (by omega) h).2 (by nlinarith)
  exact ⟨k, by rw [h, hk]⟩

example : (100 : ℝ) ≤ 4 * Real.pi * 1737.4 ^ 2 := by nlinarith [Real.pi_gt_three]

/-- **C97, counterexample.** For a count over the whole body and fewer than sixty trials the side of the grid is not a whole number. -/
theorem C97_few_trials_counterexample (radius : ℝ) (n : ℕ) (hr : 0 < radius) (h0 : 0 < n) (hn : n < 60) :
    ∃ side, gridSide radius (4 * Real.pi * radius ^ 2) n = .ok side ∧ 0 < side ∧ ¬ ∃ k : ℕ, side = 2 ^ k := by
  have hpi := Real.pi_pos
  have ha : 0 < 4 * Real.pi * radius ^ 2 := by positivity
  obtain ⟨side, h, hp, _⟩ := C97_resolution radius _ n hr ha h0
  refine ⟨side, h, hp, ?_⟩
  rw [side_whole radius _ n hr ha h0 h, div_self ha.ne']
  have : (n : ℝ) < 60 := by exact_mod_cast hn
  linarith

end Verif.Props
