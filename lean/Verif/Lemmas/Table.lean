import Verif.Lemmas.Binning
import Verif.Lemmas.Histogram
import Verif.Spec.Grids

/-! Lemmas on `generateBins`, `applyBinning` and the binned table. -/

namespace Verif.Cratercount
open Verif.Py Verif.Spec

noncomputable section

/-- the grid as function on the integers -/
def gridFn (b : Binning) (off : ℝ) : ℤ → ℝ := if b = .pseudoLog then plGrid else geoGrid (binsPerDecade b) off

theorem binsPerDecade_pos {b : Binning} (h1 : b ≠ .none) (h2 : b ≠ .pseudoLog) : 0 < binsPerDecade b := by
  have := log10_two_pos
  cases b <;> simp_all [binsPerDecade]

theorem gridFn_strictMono {b : Binning} (h1 : b ≠ .none) (off : ℝ) : StrictMono (gridFn b off) := by
  unfold gridFn
  split
  · exact plGrid_strictMono
  · next h => exact geoGrid_strictMono (binsPerDecade_pos h1 h) off

theorem gridFn_pos (b : Binning) (off : ℝ) (k : ℤ) : 0 < gridFn b off k := by
  unfold gridFn
  split
  · exact plGrid_pos k
  · exact pow10_pos _

theorem geoGrid_eq {bpd ratio : ℝ} (hr : (10 : ℝ) ^ (1 / bpd) = ratio) (off : ℝ) (k : ℤ) :
    geoGrid bpd off k = ratio ^ ((k : ℝ) - off) := by
  unfold geoGrid
  rw [← hr, ← Real.rpow_mul (by norm_num)]
  congr 1; ring

theorem ten_pow_log2 (c : ℝ) : (10 : ℝ) ^ (1 / (c / log10 2)) = (2 : ℝ) ^ (1 / c) := by
  have : 1 / (c / log10 2) = log10 2 * (1 / c) := by
    have := log10_two_pos.ne'
    by_cases hc : c = 0
    · subst hc; simp
    · field_simp
  rw [this, Real.rpow_mul (by norm_num), pow10_log10 (by norm_num)]

theorem edge_iff {b : Binning} (h1 : b ≠ .none) (off x : ℝ) :
    (gridOf b off).Edge x ↔ ∃ k, x = gridFn b off k := by
  cases b with
  | none => exact absurd rfl h1
  | pseudoLog => simpa [gridOf, gridFn] using plGrid_edge_iff x
  | perDecade20 =>
    simp only [gridOf, gridFn, Grid.Edge, reduceCtorEq, if_false]
    simp only [geoGrid_eq (bpd := binsPerDecade .perDecade20) (ratio := (10 : ℝ) ^ (1 / 20 : ℝ)) rfl]
  | perDecade10 =>
    simp only [gridOf, gridFn, Grid.Edge, reduceCtorEq, if_false]
    simp only [geoGrid_eq (bpd := binsPerDecade .perDecade10) (ratio := (10 : ℝ) ^ (1 / 10 : ℝ)) rfl]
  | x2 =>
    simp only [gridOf, gridFn, Grid.Edge, reduceCtorEq, if_false]
    simp only [geoGrid_eq (bpd := binsPerDecade .x2) (ratio := 2)
      (by rw [binsPerDecade, ten_pow_log2]; norm_num)]
  | root2 =>
    simp only [gridOf, gridFn, Grid.Edge, reduceCtorEq, if_false]
    simp only [geoGrid_eq (bpd := binsPerDecade .root2) (ratio := (2 : ℝ) ^ (1 / 2 : ℝ))
      (by rw [binsPerDecade, ten_pow_log2])]
  | root4 =>
    simp only [gridOf, gridFn, Grid.Edge, reduceCtorEq, if_false]
    simp only [geoGrid_eq (bpd := binsPerDecade .root4) (ratio := (2 : ℝ) ^ (1 / 4 : ℝ))
      (by rw [binsPerDecade, ten_pow_log2])]

theorem gridList_stretch {b : Binning} (h1 : b ≠ .none) (off : ℝ) (A : ℤ) (m : ℕ) :
    Stretch (gridOf b off) (gridList (gridFn b off) A m) := by
  refine ⟨gridList_sorted (gridFn_strictMono h1 off) A m, ?_, ?_⟩
  · intro x hx
    rw [edge_iff h1]
    simp only [gridList, List.mem_map, List.mem_range] at hx
    obtain ⟨i, _, rfl⟩ := hx
    exact ⟨_, rfl⟩
  · intro i h x hx hlt
    exact gridList_noGap (gridFn_strictMono h1 off) A m i h x ((edge_iff h1 off x).1 hx) hlt

/-- `generate_bins` for a positive logarithmic range -/
theorem generate_grid {b : Binning} (h1 : b ≠ .none) (off r0 r1 : ℝ) (h01 : r0 < r1) :
    ∃ (A : ℤ) (m : ℕ), 2 ≤ m ∧
      neededBins (if b = .pseudoLog then pseudoLogEdges r0 r1 else regularEdges (binsPerDecade b) off r0 r1) r0 r1 =
        gridList (gridFn b off) A m ∧
      gridFn b off A ≤ (10 : ℝ) ^ r0 ∧ (10 : ℝ) ^ r1 ≤ gridFn b off (A + (m - 1 : ℕ)) ∧
      (10 : ℝ) ^ r0 ≤ gridFn b off (A + 1) ∧ gridFn b off (A + (m - 1 : ℕ) - 1) < (10 : ℝ) ^ r1 := by
  by_cases hp : b = .pseudoLog
  · obtain ⟨B, n, hn, e, k1, k2⟩ := pseudoLogEdges_grid r0 r1 h01
    have hg : gridFn b off = plGrid := by simp [gridFn, hp]
    rw [if_pos hp, e, hg]
    exact neededBins_grid plGrid_strictMono B n r0 r1 hn k1 k2 h01
  · obtain ⟨B, n, hn, e, k1, k2⟩ := regularEdges_grid (binsPerDecade_pos h1 hp) off r0 r1 h01.le
    have hg : gridFn b off = geoGrid (binsPerDecade b) off := by simp [gridFn, hp]
    rw [if_neg hp, e, hg]
    exact neededBins_grid (geoGrid_strictMono (binsPerDecade_pos h1 hp) off) B n r0 r1 hn k1 k2 h01

/-- `generate_bins(..., expand=True)` on a non-empty list of positive diameters -/
theorem generateBins_expand {b : Binning} (h1 : b ≠ .none) (d : List ℝ) (hd : d ≠ []) (hpos : ∀ x ∈ d, 0 < x)
    (off : ℝ) : ∃ (A : ℤ) (m : ℕ) (mn mx : ℝ), rangeOf d = some (mn, mx) ∧ 2 ≤ m ∧
      generateBins b d off true = .ok (gridList (gridFn b off) A m) ∧
      gridFn b off A ≤ mn ∧ mx < gridFn b off (A + (m - 1 : ℕ)) ∧
      mn ≤ gridFn b off (A + 1) ∧ gridFn b off (A + (m - 1 : ℕ) - 1) < mx * (10 : ℝ) ^ (0.001 : ℝ) := by
  obtain ⟨mn, mx, hr⟩ := rangeOf_ne_nil hd
  obtain ⟨m1, m2, m3⟩ := rangeOf_spec hr
  have hmn := hpos _ m1
  have hmx := hpos _ m2
  have hle := (m3 _ m2).1
  have h01 : log10 mn < log10 mx + 0.001 := by
    have := (log10_le hmn hmx).2 hle
    linarith
  obtain ⟨A, m, hm, e, k1, k2, k3, k4⟩ := generate_grid h1 off _ _ h01
  have e10 : (10 : ℝ) ^ (log10 mx + 0.001) = mx * (10 : ℝ) ^ (0.001 : ℝ) := by
    rw [Real.rpow_add (by norm_num), pow10_log10 hmx]
  have hgt : mx < mx * (10 : ℝ) ^ (0.001 : ℝ) := by
    have : (1 : ℝ) < (10 : ℝ) ^ (0.001 : ℝ) := Real.one_lt_rpow (by norm_num) (by norm_num)
    nlinarith
  rw [pow10_log10 hmn] at k1 k3
  rw [e10] at k2 k4
  refine ⟨A, m, mn, mx, hr, hm, ?_, k1, lt_of_lt_of_le hgt k2, k3, k4⟩
  simp only [generateBins, h1, if_false, hr, not_le.2 hmn, if_true]
  rw [e]

theorem generateBins_empty {b : Binning} (h1 : b ≠ .none) (off : ℝ) :
    ∃ (A : ℤ) (m : ℕ), 2 ≤ m ∧ generateBins b [] off true = .ok (gridList (gridFn b off) A m) := by
  obtain ⟨A, m, hm, e, _⟩ := generate_grid h1 off (0 : ℝ) (0 + 0.001) (by norm_num)
  refine ⟨A, m, hm, ?_⟩
  simp only [generateBins, h1, if_false, rangeOf, if_true]
  rw [e]

theorem generateBins_domain {b : Binning} (h1 : b ≠ .none) (d : List ℝ) (off : ℝ) (ex : Bool)
    (h : ∃ x ∈ d, x ≤ 0) : generateBins b d off ex = .error .domain := by
  obtain ⟨x, hx, hx0⟩ := h
  obtain ⟨mn, mx, hr⟩ := rangeOf_ne_nil (List.ne_nil_of_mem hx)
  obtain ⟨_, _, m3⟩ := rangeOf_spec hr
  have : mn ≤ 0 := ((m3 x hx).1).trans hx0
  simp only [generateBins, h1, if_false, hr, this, if_true]

/-- boundaries produced for a crater list: increasing, at least two, all craters strictly inside -/
theorem generateBins_ok {b : Binning} (h1 : b ≠ .none) {cs : List Crater} {off : ℝ} {edges : List ℝ}
    (h : generateBins b (cs.map Prod.fst) off true = .ok edges) :
    ∃ (A : ℤ) (m : ℕ), 2 ≤ m ∧ edges = gridList (gridFn b off) A m ∧
      (∀ c ∈ cs, 0 < c.1 ∧ gridFn b off A ≤ c.1 ∧ c.1 < gridFn b off (A + (m - 1 : ℕ))) := by
  by_cases hcs : cs = []
  · subst hcs
    obtain ⟨A, m, hm, e⟩ := generateBins_empty h1 off
    refine ⟨A, m, hm, ?_, by simp⟩
    simp only [List.map_nil] at h
    rw [e] at h
    exact (Except.ok.inj h).symm
  · have hpos : ∀ x ∈ cs.map Prod.fst, 0 < x := by
      intro x hx
      by_contra hc
      rw [generateBins_domain h1 _ off true ⟨x, hx, not_lt.1 hc⟩] at h
      cases h
    obtain ⟨A, m, mn, mx, hr, hm, e, k1, k2, _, _⟩ :=
      generateBins_expand h1 (cs.map Prod.fst) (by simpa using hcs) hpos off
    rw [e] at h
    obtain ⟨_, _, m3⟩ := rangeOf_spec hr
    refine ⟨A, m, hm, (Except.ok.inj h).symm, ?_⟩
    intro c hc
    have hmem : c.1 ∈ cs.map Prod.fst := List.mem_map_of_mem hc
    exact ⟨hpos _ hmem, k1.trans (m3 _ hmem).1, lt_of_le_of_lt (m3 _ hmem).2 k2⟩

theorem applyBinning_ok {b : Binning} (h1 : b ≠ .none) {cs : List Crater} {off : ℝ} {t : List Bin}
    (h : applyBinning b off cs = .ok t) :
    ∃ (A : ℤ) (m : ℕ), 2 ≤ m ∧ generateBins b (cs.map Prod.fst) off true = .ok (gridList (gridFn b off) A m) ∧
      t = tableOf (gridList (gridFn b off) A m) cs ∧
      (∀ c ∈ cs, 0 < c.1 ∧ gridFn b off A ≤ c.1 ∧ c.1 < gridFn b off (A + (m - 1 : ℕ))) := by
  simp only [applyBinning, h1, if_false] at h
  cases hg : generateBins b (cs.map Prod.fst) off true with
  | error e => rw [hg] at h; cases h
  | ok edges =>
    rw [hg] at h
    obtain ⟨A, m, hm, e, hc⟩ := generateBins_ok h1 hg
    refine ⟨A, m, hm, by rw [e], ?_, hc⟩
    have : tableOf edges cs = t := Except.ok.inj h
    rw [← this, e]

/-! #### the table -/

@[simp] theorem tableOf_length (edges : List ℝ) (cs : List Crater) :
    (tableOf edges cs).length = edges.length - 1 := by
  simp [tableOf]

theorem tableOf_getElem (edges : List ℝ) (cs : List Crater) (i : ℕ) (h : i < (tableOf edges cs).length)
    (h' : i + 1 < edges.length) :
    (tableOf edges cs)[i].dMin = edges[i] ∧ (tableOf edges cs)[i].dMax = edges[i + 1] ∧
    (tableOf edges cs)[i].width = edges[i + 1] - edges[i] ∧
    (tableOf edges cs)[i].dMean = Real.sqrt (edges[i + 1] * edges[i]) ∧
    (tableOf edges cs)[i].n = (histogram cs edges)[i]'(by simp; omega) ∧
    (tableOf edges cs)[i].nEvent = (histogram (cs.map fun c => (c.1, (1 : ℝ))) edges)[i]'(by simp; omega) ∧
    (tableOf edges cs)[i].ncum = ((histogram cs edges).drop i).sum ∧
    (tableOf edges cs)[i].ncumEvent = ((histogram (cs.map fun c => (c.1, (1 : ℝ))) edges).drop i).sum := by
  have g1 : edges.getD i 0 = edges[i] := List.getD_eq_getElem _ _ _
  have g2 : edges.getD (i + 1) 0 = edges[i + 1] := List.getD_eq_getElem _ _ _
  have g3 : (histogram cs edges).getD i 0 = (histogram cs edges)[i]'(by simp; omega) :=
    List.getD_eq_getElem _ _ _
  have g4 : (histogram (cs.map fun c => (c.1, (1 : ℝ))) edges).getD i 0 =
      (histogram (cs.map fun c => (c.1, (1 : ℝ))) edges)[i]'(by simp; omega) := List.getD_eq_getElem _ _ _
  have g5 : (flipCumsumFlip (histogram cs edges)).getD i 0 = ((histogram cs edges).drop i).sum := by
    rw [List.getD_eq_getElem _ _ (by simp; omega), flipCumsumFlip_getElem]
  have g6 : (flipCumsumFlip (histogram (cs.map fun c => (c.1, (1 : ℝ))) edges)).getD i 0 =
      ((histogram (cs.map fun c => (c.1, (1 : ℝ))) edges).drop i).sum := by
    rw [List.getD_eq_getElem _ _ (by simp; omega), flipCumsumFlip_getElem]
  simp only [tableOf, List.getElem_map, List.getElem_range, g1, g2, g3, g4, g5, g6, and_self]

theorem map_one_sum {α : Type*} (l : List α) : (l.map (fun _ => (1 : ℝ))).sum = l.length := by
  induction l with
  | nil => simp
  | cons x l ih => simp [ih]; ring

theorem count_eq (cs : List Crater) (p : ℝ → Bool) :
    (((cs.map fun c => (c.1, (1 : ℝ))).filter (fun q => p q.1)).map Prod.snd).sum =
      ((cs.filter (fun c => p c.1)).length : ℝ) := by
  rw [List.filter_map, List.map_map]
  exact map_one_sum _

/-- the content of every bin of a table with all craters inside the boundaries -/
theorem tableOf_spec (edges : List ℝ) (hs : edges.Pairwise (· < ·)) (cs : List Crater)
    (hlast : ∀ c ∈ cs, ∀ h : edges.length - 1 < edges.length, c.1 < edges[edges.length - 1])
    (b : Bin) (hb : b ∈ tableOf edges cs) :
    ∃ (i : ℕ) (h : i + 1 < edges.length), b.dMin = edges[i] ∧ b.dMax = edges[i + 1] ∧
      b.width = b.dMax - b.dMin ∧ b.dMean = Real.sqrt (b.dMax * b.dMin) ∧
      b.n = weightIn cs b.dMin b.dMax ∧ b.nEvent = countIn cs b.dMin b.dMax ∧
      b.ncum = weightFrom cs b.dMin ∧ b.ncumEvent = countFrom cs b.dMin := by
  obtain ⟨i, hi, rfl⟩ := List.mem_iff_getElem.1 hb
  have h : i + 1 < edges.length := by simp at hi; omega
  obtain ⟨e1, e2, e3, e4, e5, e6, e7, e8⟩ := tableOf_getElem edges cs i hi h
  have hl1 : ∀ c ∈ cs, c.1 < edges[edges.length - 1] := fun c hc => hlast c hc (by omega)
  have hl2 : ∀ p ∈ (cs.map fun c => (c.1, (1 : ℝ))), p.1 < edges[edges.length - 1] := by
    intro p hp
    obtain ⟨c, hc, rfl⟩ := List.mem_map.1 hp
    exact hl1 c hc
  refine ⟨i, h, e1, e2, ?_, ?_, ?_, ?_, ?_, ?_⟩
  · rw [e1, e2, e3]
  · rw [e1, e2, e4]
  · rw [e1, e2, e5, histogram_getElem_lt cs edges hs i h _ hl1]; rfl
  · rw [e1, e2, e6, histogram_getElem_lt _ edges hs i h _ hl2]
    exact count_eq cs (fun x => decide (edges[i] ≤ x ∧ x < edges[i + 1]))
  · rw [e1, e7, histogram_suffix cs edges hs i h hl1]; rfl
  · rw [e1, e8, histogram_suffix _ edges hs i h hl2]
    exact count_eq cs (fun x => decide (edges[i] ≤ x))

theorem gridList_last {g : ℤ → ℝ} {A : ℤ} {m : ℕ} (_hm : 2 ≤ m)
    (h : (gridList g A m).length - 1 < (gridList g A m).length) :
    (gridList g A m)[(gridList g A m).length - 1] = g (A + (m - 1 : ℕ)) := by
  rw [gridList_getElem]; simp

/-! #### binning 'none' -/

theorem craterLe_trans (a b c : Crater) : craterLe a b = true → craterLe b c = true → craterLe a c = true := by
  simp only [craterLe, decide_eq_true_eq]
  rintro (h | ⟨h, h'⟩) (g | ⟨g, g'⟩)
  · exact Or.inl (h.trans g)
  · exact Or.inl (g ▸ h)
  · exact Or.inl (h ▸ g)
  · exact Or.inr ⟨h.trans g, h'.trans g'⟩

theorem craterLe_total (a b : Crater) : (craterLe a b || craterLe b a) = true := by
  simp only [craterLe, Bool.or_eq_true, decide_eq_true_eq]
  rcases lt_trichotomy a.1 b.1 with h | h | h
  · exact Or.inl (Or.inl h)
  · rcases le_total a.2 b.2 with g | g
    · exact Or.inl (Or.inr ⟨h, g⟩)
    · exact Or.inr (Or.inr ⟨h.symm, g⟩)
  · exact Or.inr (Or.inl h)

theorem craterLe_antisymm (a b : Crater) : craterLe a b = true → craterLe b a = true → a = b := by
  simp only [craterLe, decide_eq_true_eq]
  rintro (h | ⟨h, h'⟩) (g | ⟨g, g'⟩)
  · exact absurd (h.trans g) (lt_irrefl _)
  · exact absurd (g ▸ h) (lt_irrefl _)
  · exact absurd (h ▸ g) (lt_irrefl _)
  · exact Prod.ext h (le_antisymm h' g')

theorem craterLe_fst {a b : Crater} (h : craterLe a b = true) : a.1 ≤ b.1 := by
  simp only [craterLe, decide_eq_true_eq] at h
  rcases h with h | ⟨h, _⟩
  · exact h.le
  · exact h.le

theorem sorted_craters (cs : List Crater) : (cs.mergeSort craterLe).Pairwise (fun a b => craterLe a b = true) :=
  List.pairwise_mergeSort craterLe_trans craterLe_total cs

theorem sort_perm {cs cs' : List Crater} (h : cs.Perm cs') : cs.mergeSort craterLe = cs'.mergeSort craterLe := by
  apply List.Perm.eq_of_pairwise (le := fun a b => craterLe a b = true)
  · intro a b _ _ h1 h2; exact craterLe_antisymm a b h1 h2
  · exact sorted_craters cs
  · exact sorted_craters cs'
  · exact (List.mergeSort_perm cs craterLe).trans (h.trans (List.mergeSort_perm cs' craterLe).symm)

@[simp] theorem tableNone_length (cs : List Crater) : (tableNone cs).length = cs.length := by
  simp [tableNone]

theorem tableNone_getElem (cs : List Crater) (i : ℕ) (h : i < (tableNone cs).length)
    (h' : i < (cs.mergeSort craterLe).length) :
    (tableNone cs)[i] =
      { dMin := (cs.mergeSort craterLe)[i].1, dMax := (cs.mergeSort craterLe)[i].1, width := 0,
        dMean := (cs.mergeSort craterLe)[i].1, n := (cs.mergeSort craterLe)[i].2, nEvent := 1,
        ncum := (((cs.mergeSort craterLe).drop i).map Prod.snd).sum,
        ncumEvent := (((cs.mergeSort craterLe).drop i).length : ℝ) } := by
  simp only [tableNone, List.getElem_map, List.getElem_range]
  have g1 : ((cs.mergeSort craterLe).map Prod.fst).getD i 0 = (cs.mergeSort craterLe)[i].1 := by
    rw [List.getD_eq_getElem _ _ (by simpa using h'), List.getElem_map]
  have g2 : ((cs.mergeSort craterLe).map Prod.snd).getD i 0 = (cs.mergeSort craterLe)[i].2 := by
    rw [List.getD_eq_getElem _ _ (by simpa using h'), List.getElem_map]
  have g3 : ((cs.mergeSort craterLe).map (fun _ => (1 : ℝ))).getD i 0 = 1 := by
    rw [List.getD_eq_getElem _ _ (by simpa using h'), List.getElem_map]
  have g4 : (flipCumsumFlip ((cs.mergeSort craterLe).map Prod.snd)).getD i 0 =
      (((cs.mergeSort craterLe).drop i).map Prod.snd).sum := by
    rw [List.getD_eq_getElem _ _ (by simpa using h'), flipCumsumFlip_getElem, List.map_drop]
  have g5 : (flipCumsumFlip ((cs.mergeSort craterLe).map (fun _ => (1 : ℝ)))).getD i 0 =
      (((cs.mergeSort craterLe).drop i).length : ℝ) := by
    rw [List.getD_eq_getElem _ _ (by simpa using h'), flipCumsumFlip_getElem, ← List.map_drop, map_one_sum]
  rw [g1, g2, g3, g4, g5]

/-- the elements from the first of equal diameters on are exactly those not smaller -/
theorem sorted_drop_filter (s : List Crater) (hs : s.Pairwise (fun a b => craterLe a b = true)) (i : ℕ)
    (h : i < s.length) (hfirst : ∀ j (hj : j < i), s[j].1 < s[i].1) :
    s.filter (fun c => decide (s[i].1 ≤ c.1)) = s.drop i := by
  have h0 : s.filter (fun c => decide (s[i].1 ≤ c.1)) = (s.take i).filter (fun c => decide (s[i].1 ≤ c.1)) ++
      (s.drop i).filter (fun c => decide (s[i].1 ≤ c.1)) := by
    rw [← List.filter_append, List.take_append_drop]
  have h1 : (s.take i).filter (fun c => decide (s[i].1 ≤ c.1)) = [] := by
    rw [List.filter_eq_nil_iff]
    intro c hc
    obtain ⟨j, hj, rfl⟩ := List.mem_iff_getElem.1 hc
    have hj' : j < i := by simp at hj; omega
    have := hfirst j hj'
    simpa using this
  have h2 : (s.drop i).filter (fun c => decide (s[i].1 ≤ c.1)) = s.drop i := by
    rw [List.filter_eq_self]
    intro c hc
    obtain ⟨j, hj, rfl⟩ := List.mem_iff_getElem.1 hc
    simp only [List.length_drop] at hj
    simp only [List.getElem_drop, decide_eq_true_eq]
    rcases Nat.eq_zero_or_pos j with e | e
    · subst e; simp
    · exact craterLe_fst (List.pairwise_iff_getElem.1 hs i (i + j) h (by omega) (by omega))
  rw [h0, h1, h2, List.nil_append]

theorem rangeOf_perm {l l' : List ℝ} (h : l.Perm l') : rangeOf l = rangeOf l' := by
  by_cases hl : l = []
  · subst hl; rw [List.nil_perm.1 h]
  · have hl' : l' ≠ [] := fun e => hl (List.perm_nil.1 (e ▸ h))
    obtain ⟨a, b, h1⟩ := rangeOf_ne_nil hl
    obtain ⟨a', b', h2⟩ := rangeOf_ne_nil hl'
    obtain ⟨m1, m2, m3⟩ := rangeOf_spec h1
    obtain ⟨n1, n2, n3⟩ := rangeOf_spec h2
    have ea : a = a' := le_antisymm (m3 _ (h.mem_iff.2 n1)).1 (n3 _ (h.mem_iff.1 m1)).1
    have eb : b = b' := le_antisymm (n3 _ (h.mem_iff.1 m2)).2 (m3 _ (h.mem_iff.2 n2)).2
    rw [h1, h2, ea, eb]

end

end Verif.Cratercount
