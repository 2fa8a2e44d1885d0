import Verif.Lemmas.Production

/-! C16–C19: production functions. -/

namespace Verif.Props
open Verif.Cratercount Verif.Py Verif.Production

noncomputable section

/-- a production function made by one of the two constructors of the program -/
def Constructed (f : PFn) : Prop :=
  (∃ a r, f = initPoly a r) ∨ ∃ h idx, initTab h idx = .ok f

/-! ### tables -/

theorem initTab_ok {h : List ℝ} {idx : ℤ} {f : PFn} (hf : initTab h idx = .ok f) :
    0 < h.length ∧ (∀ x ∈ flipCumsumFlip h, 0 < x) ∧ ∃ v r, pyIndex ((flipCumsumFlip h).map log10) idx = some v ∧
      f = .tab (((flipCumsumFlip h).map log10).map (fun x => x - v))
        (((List.range h.length).map (fun i : ℕ => (2 : ℝ) ^ (((i : ℝ) - (idx : ℝ)) / 2))).map log10)
        ((((List.range h.length).map (fun i : ℕ => (2 : ℝ) ^ (((i : ℝ) - (idx : ℝ)) / 2))).map
          (fun d => d * (2 : ℝ) ^ (0.25 : ℝ))).map log10) r := by
  unfold initTab at hf
  obtain ⟨hC, h1, hf⟩ := except_bind_eq_ok hf
  obtain ⟨h2, rfl⟩ := mapM_log10E.1 h1
  simp only at hf
  split at hf
  · next v' hv' =>
    simp only [except_ok_bind] at hf
    split at hf
    · next r0 r1 e0 e1 =>
      injection hf with hf
      refine ⟨?_, h2, v', (r0, r1), hv', hf.symm⟩
      by_contra hl
      have : h.length = 0 := by omega
      rw [this] at e0
      simp at e0
    · cases hf
  · simp only [except_error_bind] at hf; cases hf

/-- logarithm of the i-th lower bin edge -/
theorem tab_edge10 (i : ℕ) (idx : ℤ) : log10 ((2 : ℝ) ^ (((i : ℝ) - (idx : ℝ)) / 2)) = ((i : ℝ) - idx) / 2 * log10 2 := by
  unfold log10
  rw [Real.logb_rpow_eq_mul_logb_of_pos (by norm_num)]

theorem tab_mean10 (i : ℕ) (idx : ℤ) : log10 ((2 : ℝ) ^ (((i : ℝ) - (idx : ℝ)) / 2) * (2 : ℝ) ^ (0.25 : ℝ)) =
    ((i : ℝ) - idx) / 2 * log10 2 + 0.25 * log10 2 := by
  rw [log10_mul (Real.rpow_pos_of_pos (by norm_num) _) (Real.rpow_pos_of_pos (by norm_num) _), tab_edge10]
  congr 1
  unfold log10
  rw [Real.logb_rpow_eq_mul_logb_of_pos (by norm_num)]

/-- strictly increasing arithmetic progressions -/
theorem prog_sorted (n : ℕ) (g : ℕ → ℝ) (hg : ∀ i j, i < j → g i < g j) : ((List.range n).map g).Pairwise (· < ·) := by
  rw [List.pairwise_iff_getElem]
  intro i j hi hj hij
  simp only [List.getElem_map, List.getElem_range]
  exact hg i j hij

theorem tabMin_sorted (n : ℕ) (idx : ℤ) :
    (((List.range n).map (fun i : ℕ => (2 : ℝ) ^ (((i : ℝ) - (idx : ℝ)) / 2))).map log10).Pairwise (· < ·) := by
  rw [List.map_map]
  apply prog_sorted
  intro i j hij
  simp only [Function.comp, tab_edge10]
  have : (i : ℝ) < j := by exact_mod_cast hij
  nlinarith [log10_two_pos]

theorem tabMean_sorted (n : ℕ) (idx : ℤ) :
    ((((List.range n).map (fun i : ℕ => (2 : ℝ) ^ (((i : ℝ) - (idx : ℝ)) / 2))).map
      (fun d => d * (2 : ℝ) ^ (0.25 : ℝ))).map log10).Pairwise (· < ·) := by
  rw [List.map_map, List.map_map]
  apply prog_sorted
  intro i j hij
  simp only [Function.comp, tab_mean10]
  have : (i : ℝ) < j := by exact_mod_cast hij
  nlinarith [log10_two_pos]

/-! ### C16: scaling with a0 -/

theorem polyC_shift (a : List ℝ) (d a0 x y : ℝ) (h : polyC a d a0 = .ok y) :
    polyC a d (a0 + x) = .ok ((10 : ℝ) ^ x * y) := by
  unfold polyC at h ⊢
  obtain ⟨l, hl, h⟩ := except_bind_eq_ok h
  rw [hl, except_ok_bind]
  injection h with h
  rw [← h, ← pow10_add]
  simp only [polyC10, poly_cons]
  congr 2
  ring

theorem polyF_shift (a : List ℝ) (d a0 x y : ℝ) (h : polyF a d a0 = .ok y) :
    polyF a d (a0 + x) = .ok ((10 : ℝ) ^ x * y) := by
  unfold polyF at h ⊢
  obtain ⟨l, hl, h⟩ := except_bind_eq_ok h
  rw [hl, except_ok_bind]
  injection h with h
  rw [← h]
  simp only [poly_cons, List.tail_cons]
  have e : a0 + x + l * poly a.tail l = x + (a0 + l * poly a.tail l) := by ring
  rw [e, pow10_add]
  congr 1
  ring

theorem polyR_shift (a : List ℝ) (d a0 x y : ℝ) (h : polyR a d a0 = .ok y) :
    polyR a d (a0 + x) = .ok ((10 : ℝ) ^ x * y) := by
  unfold polyR at h ⊢
  obtain ⟨l, hl, h⟩ := except_bind_eq_ok h
  rw [polyF_shift a d a0 x l hl, except_ok_bind]
  injection h with h
  rw [← h, mul_div_assoc]

theorem polyH_shift (a : List ℝ) (d a0 x y : ℝ) (h : polyH a d a0 = .ok y) :
    polyH a d (a0 + x) = .ok ((10 : ℝ) ^ x * y) := by
  unfold polyH at h ⊢
  obtain ⟨l, hl, h⟩ := except_bind_eq_ok h
  rw [polyF_shift a d a0 x l hl, except_ok_bind]
  injection h with h
  rw [← h]
  congr 1
  ring

theorem tabH_shift (hC : List ℝ) (a0 x : ℝ) : tabH hC (a0 + x) = (tabH hC a0).map (fun h => (10 : ℝ) ^ x * h) := by
  have hm : hC.map (fun z => (10 : ℝ) ^ (z + (a0 + x))) = (hC.map (fun z => (10 : ℝ) ^ (z + a0))).map (fun h => (10 : ℝ) ^ x * h) := by
    rw [List.map_map]
    apply List.map_congr_left
    intro z _
    simp only [Function.comp]
    rw [← pow10_add]
    congr 1; ring
  simp only [tabH]
  rw [hm]
  generalize hC.map (fun z => (10 : ℝ) ^ (z + a0)) = c
  apply List.ext_getElem
  · simp
  · intro i h1 h2
    simp only [List.getElem_zipWith, List.getElem_map]
    by_cases hi : i < (c.tail).length
    · rw [List.getElem_append_left (by simpa using hi), List.getElem_append_left hi]
      simp only [List.getElem_tail, List.getElem_map]
      ring
    · rw [List.getElem_append_right (by simpa using hi), List.getElem_append_right (by simpa using hi)]
      simp

@[simp] theorem tabH_length (hC : List ℝ) (a0 : ℝ) : (tabH hC a0).length = hC.length := by
  simp only [tabH, List.length_zipWith, List.length_map, List.length_append, List.length_tail, List.length_cons,
    List.length_nil]
  omega

theorem map_log10_scale {l : List ℝ} (hl : ∀ z ∈ l, 0 < z) (x : ℝ) :
    (l.map (fun h => (10 : ℝ) ^ x * h)).map log10 = (l.map log10).map (fun y => y + x) := by
  simp only [List.map_map]
  apply List.map_congr_left
  intro z hz
  simp only [Function.comp]
  rw [log10_mul (pow10_pos x) (hl z hz), log10_pow10]
  ring

/-- interpolation of the logarithms of a scaled positive table -/
theorem interp_log_scale (xp l : List ℝ) (hlen : xp.length = l.length) (hne : 0 < xp.length) (x d : ℝ)
    (hl : ∀ z ∈ l, 0 < z) :
    interp xp ((l.map (fun h => (10 : ℝ) ^ x * h)).map log10) d = interp xp (l.map log10) d + x := by
  rw [map_log10_scale hl, interp_shift _ _ (by simpa using hlen) hne]

theorem scaled_pos {l : List ℝ} (x : ℝ) (hl : ∀ z ∈ l, 0 < z) : ∀ z ∈ l.map (fun h => (10 : ℝ) ^ x * h), 0 < z := by
  intro z hz
  obtain ⟨w, hw, rfl⟩ := List.mem_map.1 hz
  exact mul_pos (pow10_pos x) (hl w hw)

theorem tabFs_shift (hC dm : List ℝ) (a0 x : ℝ) (l : List ℝ) (h : tabFs hC dm a0 = .ok l) :
    tabFs hC dm (a0 + x) = .ok (l.map (fun h => (10 : ℝ) ^ x * h)) := by
  unfold tabFs at h ⊢
  obtain ⟨k, hk, h⟩ := except_bind_eq_ok h
  simp only [hk, except_ok_bind]
  injection h with h
  rw [← h, tabH_shift]
  congr 1
  rw [List.map_zipWith]
  apply List.ext_getElem
  · simp
  · intro i h1 h2
    simp only [List.getElem_zipWith, List.getElem_map]
    ring

/-- lengths of the columns of a constructed tabular function -/
theorem slopes_length {hC k : List ℝ} (h : slopes hC = .ok k) : k.length = hC.length := by
  unfold slopes at h
  split at h
  · cases h
  · next x0 rest =>
    simp only at h
    split at h
    · next y k2 ks e =>
      injection h with h
      have := congrArg List.length e
      simp only [List.length_reverse, List.length_zipWith, List.length_cons, List.length_append, List.length_nil] at this
      rw [← h]
      simp only [List.length_reverse, List.length_cons]
      omega
    · cases h

theorem tabFs_length {hC dm l : List ℝ} {a0 : ℝ} (h : tabFs hC dm a0 = .ok l) (hlen : dm.length = hC.length) :
    l.length = hC.length := by
  unfold tabFs at h
  obtain ⟨k, hk, h⟩ := except_bind_eq_ok h
  injection h with h
  rw [← h]
  simp [slopes_length hk, hlen]

/-- **C16.** Shifting a0 by x multiplies the cumulative, differential, R and Hartmann curves of every constructed
production function by 10^x, at every diameter at which they are defined. -/
theorem C16_scaling (f : PFn) (hf : Constructed f) (d a0 x y : ℝ) :
    (f.C d a0 = .ok y → f.C d (a0 + x) = .ok ((10 : ℝ) ^ x * y)) ∧
    (f.F d a0 = .ok y → f.F d (a0 + x) = .ok ((10 : ℝ) ^ x * y)) ∧
    (f.R d a0 = .ok y → f.R d (a0 + x) = .ok ((10 : ℝ) ^ x * y)) ∧
    (f.H d a0 = .ok y → f.H d (a0 + x) = .ok ((10 : ℝ) ^ x * y)) := by
  rcases hf with ⟨a, r, rfl⟩ | ⟨h, idx, hf⟩
  · exact ⟨polyC_shift a d a0 x y, polyF_shift a d a0 x y, polyR_shift a d a0 x y, polyH_shift a d a0 x y⟩
  · obtain ⟨hl, hpos, v, r, hv, rfl⟩ := initTab_ok hf
    refine ⟨?_, ?_, ?_, ?_⟩
    · intro hy
      simp only [PFn.C] at hy ⊢
      obtain ⟨d10, hd, hy⟩ := except_bind_eq_ok hy
      rw [hd, except_ok_bind]
      injection hy with hy
      rw [← hy, ← pow10_add]
      congr 2
      simp only [tabC10]
      have : (((flipCumsumFlip h).map log10).map (fun x => x - v)).map (fun z => log10 ((10 : ℝ) ^ (z + (a0 + x)))) =
          ((((flipCumsumFlip h).map log10).map (fun x => x - v)).map (fun z => log10 ((10 : ℝ) ^ (z + a0)))).map
            (fun y => y + x) := by
        simp only [List.map_map]
        apply List.map_congr_left
        intro z _
        simp only [Function.comp, log10_pow10]
        ring
      rw [this, interp_shift _ _ (by simp) (by simpa using hl)]
      ring
    · intro hy
      simp only [PFn.F, tabF10] at hy ⊢
      obtain ⟨d10, hd, hy⟩ := except_bind_eq_ok hy
      obtain ⟨yl, hyl, hy⟩ := except_bind_eq_ok hy
      obtain ⟨fs, hfs, hyl⟩ := except_bind_eq_ok hyl
      obtain ⟨lf, hlf, hyl⟩ := except_bind_eq_ok hyl
      obtain ⟨hfp, rfl⟩ := mapM_log10E.1 hlf
      injection hyl with hyl
      injection hy with hy
      have hlen := tabFs_length hfs (by simp)
      simp only [hd, except_ok_bind, tabFs_shift _ _ _ x _ hfs, mapM_log10E.2 ⟨scaled_pos x hfp, rfl⟩]
      rw [interp_log_scale _ _ (by rw [hlen]; simp) (by simpa using hl) _ _ hfp, hyl, ← hy, ← pow10_add]
      congr 2; ring
    · intro hy
      simp only [PFn.R, tabR10] at hy ⊢
      obtain ⟨d10, hd, hy⟩ := except_bind_eq_ok hy
      obtain ⟨yl, hyl, hy⟩ := except_bind_eq_ok hy
      obtain ⟨fs, hfs, hyl⟩ := except_bind_eq_ok hyl
      obtain ⟨lf, hlf, hyl⟩ := except_bind_eq_ok hyl
      obtain ⟨hfp, rfl⟩ := mapM_log10E.1 hlf
      injection hyl with hyl
      injection hy with hy
      have hlen := tabFs_length hfs (by simp)
      simp only [hd, except_ok_bind, tabFs_shift _ _ _ x _ hfs]
      have hz : ∀ dm : List ℝ, List.zipWith (fun f m => f / ((10 : ℝ) ^ m) ^ (-3 : ℝ)) (fs.map (fun h => (10 : ℝ) ^ x * h)) dm =
          (List.zipWith (fun f m => f / ((10 : ℝ) ^ m) ^ (-3 : ℝ)) fs dm).map (fun h => (10 : ℝ) ^ x * h) := by
        intro dm
        apply List.ext_getElem
        · simp
        · intro i h1 h2
          simp only [List.getElem_zipWith, List.getElem_map]
          ring
      simp only [hz, mapM_log10E.2 ⟨scaled_pos x hfp, rfl⟩, except_ok_bind]
      rw [interp_log_scale _ _ (by simp [hlen]) (by simpa using hl) _ _ hfp, hyl, ← hy, ← pow10_add]
      congr 2; ring
    · intro hy
      simp only [PFn.H, tabH10] at hy ⊢
      obtain ⟨d10, hd, hy⟩ := except_bind_eq_ok hy
      obtain ⟨yl, hyl, hy⟩ := except_bind_eq_ok hy
      obtain ⟨lf, hlf, hyl⟩ := except_bind_eq_ok hyl
      obtain ⟨hfp, rfl⟩ := mapM_log10E.1 hlf
      injection hyl with hyl
      injection hy with hy
      simp only [hd, except_ok_bind, tabH_shift, mapM_log10E.2 ⟨scaled_pos x hfp, rfl⟩]
      rw [interp_log_scale _ _ (by simp) (by simpa using hl) _ _ hfp, hyl, ← hy, ← pow10_add]
      congr 2; ring

/-- **C16, at 1 km.** The cumulative curve passes through 10^a0 at 1 km (for a table whose stated 1 km index is one of
its bins). -/
theorem C16_at_1km (f : PFn) (hf : (∃ a r, f = initPoly a r) ∨
    ∃ h, ∃ idx : ℕ, idx < h.length ∧ initTab h idx = .ok f) (a0 : ℝ) : f.C 1 a0 = .ok ((10 : ℝ) ^ a0) := by
  have h1 : log10E 1 = .ok 0 := by rw [log10E_pos one_pos, log10_one]
  rcases hf with ⟨a, r, rfl⟩ | ⟨h, idx, hidx, hf⟩
  · simp only [initPoly, PFn.C, polyC, h1, except_ok_bind, polyC10, poly_cons, zero_mul, add_zero]
  · obtain ⟨hl, hpos, v, r, hv, rfl⟩ := initTab_ok hf
    have hx : ∀ (hh : idx < (((List.range h.length).map (fun i : ℕ => (2 : ℝ) ^ (((i : ℝ) - ((idx : ℤ) : ℝ)) / 2))).map log10).length),
        (((List.range h.length).map (fun i : ℕ => (2 : ℝ) ^ (((i : ℝ) - ((idx : ℤ) : ℝ)) / 2))).map log10)[idx] = 0 := by
      intro hh
      simp only [List.getElem_map, List.getElem_range, tab_edge10]
      push_cast
      ring
    have hll : idx < (((List.range h.length).map (fun i : ℕ => (2 : ℝ) ^ (((i : ℝ) - ((idx : ℤ) : ℝ)) / 2))).map log10).length := by
      simpa using hidx
    have hn := interp_node _ ((((flipCumsumFlip h).map log10).map (fun x => x - v)).map
      (fun z => log10 ((10 : ℝ) ^ (z + a0)))) (tabMin_sorted h.length idx) (by simp) idx hll
    rw [hx hll] at hn
    simp only [PFn.C, h1, except_ok_bind, tabC10]
    rw [hn]
    simp only [List.getElem_map, log10_pow10]
    have : v = log10 ((flipCumsumFlip h)[idx]'(by simpa using hidx)) := by
      simp only [pyIndex, Int.natCast_nonneg, if_true, Int.toNat_natCast] at hv
      rw [List.getElem?_eq_getElem (by simpa using hidx)] at hv
      injection hv with hv
      rw [← hv, List.getElem_map]
    rw [← this]
    simp

/-- a polynomial and a tabular function meeting the hypotheses -/
example : Constructed (initPoly [-3.0768, -3.557528, 0.781027] none) ∧
    ∃ f, initTab [8, 4, 1] (1 : ℕ) = .ok f ∧ (1 : ℕ) < ([8, 4, 1] : List ℝ).length := by
  refine ⟨Or.inl ⟨_, _, rfl⟩, ?_⟩
  have : (flipCumsumFlip ([8, 4, 1] : List ℝ)).mapM log10E = .ok ((flipCumsumFlip ([8, 4, 1] : List ℝ)).map log10) := by
    refine mapM_log10E.2 ⟨?_, rfl⟩
    intro x hx
    rw [flipCumsumFlip_eq_map] at hx
    simp [List.range_succ] at hx
    rcases hx with rfl | rfl | rfl <;> norm_num
  have hp : ∃ v, pyIndex ((flipCumsumFlip ([8, 4, 1] : List ℝ)).map log10) ((1 : ℕ) : ℤ) = some v := by
    rw [flipCumsumFlip_eq_map]
    simp [List.range_succ, pyIndex]
  obtain ⟨v, hv⟩ := hp
  simp only [initTab, this, except_ok_bind, hv, List.length_cons, List.length_nil, Nat.reduceAdd, List.range_succ,
    List.range_zero, List.nil_append, List.cons_append, List.map_cons, List.map_nil, List.head?_cons,
    List.getLast?_cons_cons, List.getLast?_singleton]
  exact ⟨_, rfl, by norm_num⟩

/-! ### C17: derivative -/

theorem polyC_eq {a : List ℝ} {d a0 : ℝ} (hd : 0 < d) :
    polyC a d a0 = .ok ((10 : ℝ) ^ poly (a0 :: a.tail) (log10 d)) := by
  simp only [polyC, log10E_pos hd, except_ok_bind, polyC10]

theorem polyF_eq {a : List ℝ} {d a0 : ℝ} (hd : 0 < d) :
    polyF a d a0 = .ok (-(Real.log 10 * (10 : ℝ) ^ poly (a0 :: a.tail) (log10 d)) * poly (dCoef 1 a.tail) (log10 d) *
      (1 / (d * Real.log 10))) := by
  simp only [polyF, log10E_pos hd, except_ok_bind, List.tail_cons, dCoef]

/-- **C17.** For every polynomial production function and positive diameter, the differential curve is minus the
derivative of the cumulative curve, the R curve is D³ times the differential curve and the Hartmann curve is
the differential curve times D(2^¼ − 2^−¼). -/
theorem C17_derivative (a : List ℝ) (r : Option (ℝ × ℝ)) (a0 : ℝ) :
    ∃ C F : ℝ → ℝ, ∀ d, 0 < d →
      (initPoly a r).C d a0 = .ok (C d) ∧ (initPoly a r).F d a0 = .ok (F d) ∧
      HasDerivAt C (-F d) d ∧
      (initPoly a r).R d a0 = .ok (d ^ 3 * F d) ∧
      (initPoly a r).H d a0 = .ok (F d * d * ((2 : ℝ) ^ (1 / 4 : ℝ) - (2 : ℝ) ^ (-(1 / 4) : ℝ))) := by
  refine ⟨fun d => (10 : ℝ) ^ poly (a0 :: a.tail) (log10 d), fun d => -(Real.log 10 * (10 : ℝ) ^ poly (a0 :: a.tail) (log10 d)) *
    poly (dCoef 1 a.tail) (log10 d) * (1 / (d * Real.log 10)), ?_⟩
  intro d hd
  refine ⟨polyC_eq hd, polyF_eq hd, ?_, ?_, ?_⟩
  · have hl : HasDerivAt log10 (1 / (d * Real.log 10)) d := by
      have : log10 = fun x => Real.log x / Real.log 10 := by
        funext x; rfl
      rw [this]
      have := (Real.hasDerivAt_log hd.ne').div_const (Real.log 10)
      have e : 1 / (d * Real.log 10) = d⁻¹ / Real.log 10 := by rw [one_div, mul_inv, div_eq_mul_inv]
      rw [e]
      exact this
    have hp := (poly_hasDerivAt a.tail a0 (log10 d)).comp d hl
    have := hp.const_rpow (show (0 : ℝ) < 10 by norm_num)
    have this' : HasDerivAt (fun x => (10 : ℝ) ^ poly (a0 :: a.tail) (log10 x)) (Real.log 10 * (poly (dCoef 1 a.tail) (log10 d) *
        (1 / (d * Real.log 10))) * (10 : ℝ) ^ poly (a0 :: a.tail) (log10 d)) d := this
    convert this' using 1
    ring
  · simp only [initPoly, PFn.R, polyR, polyF_eq hd, except_ok_bind]
    congr 1
    have : d ^ (-3 : ℝ) = (d ^ 3)⁻¹ := by
      rw [Real.rpow_neg hd.le]
      norm_cast
    rw [this, div_inv_eq_mul, mul_comm]
  · simp only [initPoly, PFn.H, polyH, polyF_eq hd, except_ok_bind]
    congr 2
    norm_num

/-- non-positive diameters are rejected (numpy: `nan`/`inf`) by all four forms -/
theorem C17_nonpositive (a : List ℝ) (r : Option (ℝ × ℝ)) (a0 d : ℝ) (hd : d ≤ 0) :
    (initPoly a r).C d a0 = .error .nonFinite ∧ (initPoly a r).F d a0 = .error .nonFinite ∧
    (initPoly a r).R d a0 = .error .nonFinite ∧ (initPoly a r).H d a0 = .error .nonFinite := by
  simp only [initPoly, PFn.C, PFn.F, PFn.R, PFn.H, polyC, polyR, polyH, polyF, log10E_nonpos hd, except_error_bind,
    and_self]

/-! ### C18 -/

/-- the four curves by name, the reference for `evaluate` -/
def curve (f : PFn) (pr : Presentation) (d a0 : ℝ) : Option (Except Err ℝ) :=
  match pr with
  | .cumulative => some (f.C d a0)
  | .differential => some (f.F d a0)
  | .rplot => some (f.R d a0)
  | .hartmann => some (f.H d a0)
  | _ => none

/-- **C18 (the part that holds).** Evaluating with an explicit non-zero a0 uses this a0; without a0 a polynomial uses
its own first coefficient and a tabular function 0.  Missing: a0 = 0 for polynomials, see below. -/
theorem C18_evaluate_partial (f : PFn) (pr : Presentation) (d : ℝ) :
    (∀ a0 v, a0 ≠ 0 → curve f pr d a0 = some v → f.evaluate pr d (some a0) = v) ∧
    (∀ a rg v, f = .poly a rg → ∀ c, a[0]? = some c → curve f pr d c = some v → f.evaluate pr d none = v) ∧
    (∀ x y z rg v, f = .tab x y z rg → curve f pr d 0 = some v →
      f.evaluate pr d none = v ∧ f.evaluate pr d (some 0) = v) := by
  refine ⟨?_, ?_, ?_⟩
  · intro a0 v h0 hv
    simp only [PFn.evaluate, if_neg h0, except_ok_bind]
    cases pr <;> simp only [curve, Option.some.injEq, reduceCtorEq] at hv <;> exact hv
  · intro a rg v hf c hc hv
    have : f.defaultA0 = .ok c := by rw [hf]; simp only [PFn.defaultA0, hc]
    simp only [PFn.evaluate, this, except_ok_bind]
    cases pr <;> simp only [curve, Option.some.injEq, reduceCtorEq] at hv <;> exact hv
  · intro x y z rg v hf hv
    have : f.defaultA0 = .ok 0 := by rw [hf]; rfl
    simp only [PFn.evaluate, if_true, this, except_ok_bind]
    cases pr <;> simp only [curve, Option.some.injEq, reduceCtorEq] at hv <;> exact ⟨hv, hv⟩

/-- **C18 fails at a0 = 0**: whenever a polynomial's own first coefficient is not 0, evaluating with a0 = 0 at any
positive diameter gives the wrong cumulative value. -/
theorem C18_zero_counterexample (a : List ℝ) (r : Option (ℝ × ℝ)) (c : ℝ) (hc : a[0]? = some c) (h0 : c ≠ 0)
    (d : ℝ) (hd : 0 < d) :
    ∃ right wrong, (initPoly a r).C d 0 = .ok right ∧ (initPoly a r).evaluate .cumulative d (some 0) = .ok wrong ∧
      wrong = (10 : ℝ) ^ c * right ∧ wrong ≠ right := by
  have hr := polyC_eq (a := a) (a0 := 0) hd
  have hw := polyC_shift a d 0 c _ hr
  rw [zero_add] at hw
  refine ⟨_, _, hr, ?_, rfl, ?_⟩
  · simp only [PFn.evaluate, if_true, initPoly, PFn.defaultA0, hc, except_ok_bind]
    exact hw
  · intro h
    have hp := pow10_pos (poly (0 :: a.tail) (log10 d))
    have h1 : (10 : ℝ) ^ c = 1 := by
      have := mul_right_cancel₀ hp.ne' (h.trans (one_mul _).symm)
      exact this
    have := congrArg log10 h1
    rw [log10_pow10, log10_one] at this
    exact h0 this

example : ([-3.0768, -3.557528] : List ℝ)[0]? = some (-3.0768 : ℝ) ∧ (-3.0768 : ℝ) ≠ 0 ∧ (0 : ℝ) < 1 :=
  ⟨rfl, by norm_num, by norm_num⟩

end

end Verif.Props
