import Verif.Props.FitScaling

/-!
C163: the ages of fits for larger areas and for more craters.
-/

namespace Verif.Props

open Verif.Spec Verif.Py Verif.Cratercount Verif.Chronology Verif.Production Verif.Age Verif.FileAge

noncomputable section

theorem copies_one (cs : List (ℝ × ℝ)) : copies 1 cs = cs := by
  simp [copies]

/-- a smaller density has no larger age -/
theorem age_le {f : PFn} {c : Chron} {p0 p1 p3 : ℝ} (hc : GoodChron c p0 p1 p3) {cf : CurveFit} {pfc : PF} {o o' : Obj} {k : FitType} {b : Binning} {r : EReal × EReal} {s : Bool} {ref : ℝ}
    {res res' : FitAge} (h : Verif.Age.fitAge f c cf pfc o k b r s ref = .ok res) (h' : Verif.Age.fitAge f c cf pfc o' k b r s ref = .ok res') (e : res'.a0.best ≤ res.a0.best) : res'.t ≤ res.t := by
  obtain ⟨p, c0, c1, c2, c3, c4, c5, c6⟩ := hc
  obtain ⟨age, _, b2, _, b4, _⟩ := C15_age_inversion p c c0 p0 p1 p3 c1 c2 c3 c4 c5 c6
  unfold Verif.Age.fitAge at h h'
  dsimp only at h h'
  obtain ⟨pd, _, h⟩ := except_bind_eq_ok h
  obtain ⟨a0, _, h⟩ := except_bind_eq_ok h
  obtain ⟨t0, q2, h⟩ := except_bind_eq_ok h
  obtain ⟨nd, _, h⟩ := except_bind_eq_ok h
  injection h with h
  obtain ⟨pd', _, h'⟩ := except_bind_eq_ok h'
  obtain ⟨a0', _, h'⟩ := except_bind_eq_ok h'
  obtain ⟨t0', q2', h'⟩ := except_bind_eq_ok h'
  obtain ⟨nd', _, h'⟩ := except_bind_eq_ok h'
  injection h' with h'
  subst h h'
  dsimp only at e ⊢
  rw [b2] at q2 q2'
  injection q2 with q2
  injection q2' with q2'
  rw [← q2, ← q2']
  exact b4 (Real.rpow_le_rpow_of_exponent_le (by norm_num) e)

theorem scaled_one {s : ℝ} (hs : 1 ≤ s) {res res' : FitAge} (h : Scaled 1 s res res') : res'.a0.best ≤ res.a0.best := by
  have h1 := h.density
  have hp : (0 : ℝ) < 10 ^ res.a0.best := Real.rpow_pos_of_pos (by norm_num) _
  have h2 : (10 : ℝ) ^ res'.a0.best ≤ 10 ^ res.a0.best := by
    rw [h1]
    have : ((1 : ℕ) : ℝ) / s ≤ 1 := by
      rw [Nat.cast_one, div_le_one (by linarith)]
      exact hs
    exact mul_le_of_le_one_left hp.le this
  exact (Real.rpow_le_rpow_left_iff (by norm_num)).1 h2

/-- **C163, cumulative.** The same craters on a larger area: the density is smaller in the ratio of the areas, and the age is not larger. -/
theorem C163_area_cumulative (f : PFn) (hf : Constructed f) (c : Chron) (p0 p1 p3 : ℝ) (hc : GoodChron c p0 p1 p3) (cf : CurveFit) (hcf : CurveFitSpec cf) (pfc : PF)
    (κ : ℝ → ℝ) (hκ : ∀ d, 0 < d → ∀ a : ℝ, f.C d a = .ok (10 ^ a * κ d)) (k k' : Reading.Count) (hpre : k.prebinned = false) (hpre' : k'.prebinned = false) (harea : 0 < k.area)
    (hfrac : ∀ c ∈ k.craters, 0 < c.2) (hcs : k'.craters.Perm k.craters) (hsa : k.area ≤ k'.area)
    (b : Binning) (hb : b ≠ .none) (r : EReal × EReal) (ref : ℝ) (res res' : FitAge)
    (h : Verif.Age.fitAge f c cf pfc (object (.craters k)) .cFit b r false ref = .ok res) (h' : Verif.Age.fitAge f c cf pfc (object (.craters k')) .cFit b r false ref = .ok res') :
    (10 : ℝ) ^ res'.a0.best = k.area / k'.area * 10 ^ res.a0.best ∧ res'.t ≤ res.t := by
  have hs : 1 ≤ k'.area / k.area := by
    rw [one_le_div harea]
    exact hsa
  have hsc := C162_cumulative f hf c p0 p1 p3 hc cf hcf pfc κ hκ k k' hpre hpre' harea hfrac 1 one_pos (k'.area / k.area) (by linarith) (by rw [copies_one]; exact hcs)
    (div_mul_cancel₀ _ harea.ne').symm b hb r ref res res' h h'
  refine ⟨?_, age_le hc h h' (scaled_one hs hsc)⟩
  have := hsc.density
  rw [Nat.cast_one, one_div_div] at this
  exact this

/-- four craters on 10 km² and on 20 km² -/
example (cf : CurveFit) (hcf : CurveFitSpec cf) (pfc : PF) : ∃ f c res res',
    Verif.Age.fitAge f c cf pfc (object (.craters ⟨[(1, 1), (3, 1), (1.5, 0.5), (2, 1)], 10, none, false, false⟩)) .cFit .pseudoLog (0, ⊤) false 1 = .ok res ∧
    Verif.Age.fitAge f c cf pfc (object (.craters ⟨[(1, 1), (3, 1), (1.5, 0.5), (2, 1)], 20, none, false, false⟩)) .cFit .pseudoLog (0, ⊤) false 1 = .ok res' ∧
    (10 : ℝ) ^ res'.a0.best = 10 / 20 * 10 ^ res.a0.best ∧ res'.t ≤ res.t := by
  obtain ⟨f, hf⟩ : ∃ f, f = initPoly [0, -1] (some (1, 2.5)) := ⟨_, rfl⟩
  have hcon : Constructed f := hf ▸ .inl ⟨_, _, rfl⟩
  obtain ⟨K, hK⟩ := C20_cumulative_applies f
  have hev1 : ∃ n, f.evaluate .cumulative 1 none = .ok n := by
    refine ⟨K 1 0, ?_⟩
    rw [(C18_evaluate_partial f .cumulative 1).2.1 _ _ _ (hf.trans rfl) 0 rfl rfl]
    exact (hK 1 0 one_pos).1
  obtain ⟨c, hinit⟩ : ∃ c, Chronology.init [0, 0, 0, 2] = .ok c := ⟨_, rfl⟩
  have hgood : GoodChron c 0 0 2 := ⟨_, hinit, rfl, rfl, rfl, le_rfl, le_rfl, two_pos⟩
  have pos : ∀ x ∈ ([(1, 1), (3, 1), (1.5, 0.5), (2, 1)] : List (ℝ × ℝ)), 0 < x.1 ∧ 0 < x.2 := by
    intro x hx
    simp only [List.mem_cons, List.not_mem_nil, or_false] at hx
    rcases hx with rfl | rfl | rfl | rfl <;> norm_num
  obtain ⟨res, _, _, hres, _⟩ := C156_exists f hcon hev1 c cf hcf pfc ⟨[(1, 1), (3, 1), (1.5, 0.5), (2, 1)], 10, none, false, false⟩ rfl (by norm_num) (by simp)
    (fun x hx => (pos x hx).1) (fun x hx => (pos x hx).2) .pseudoLog (by simp)
  obtain ⟨res', _, _, hres', _⟩ := C156_exists f hcon hev1 c cf hcf pfc ⟨[(1, 1), (3, 1), (1.5, 0.5), (2, 1)], 20, none, false, false⟩
    rfl (by norm_num) (by simp) (fun x hx => (pos x hx).1) (fun x hx => (pos x hx).2) .pseudoLog (by simp)
  have hsc := C163_area_cumulative f hcon c 0 0 2 hgood cf hcf pfc (fun d => K d 0)
    (fun d hd a => by
      have hs := C16_scaling f hcon d 0 a (K d 0)
      rw [zero_add] at hs
      exact hs.1 (hK d 0 hd).1) ⟨[(1, 1), (3, 1), (1.5, 0.5), (2, 1)], 10, none, false, false⟩ ⟨[(1, 1), (3, 1), (1.5, 0.5), (2, 1)], 20, none, false, false⟩ rfl rfl (by norm_num) (fun x hx => (pos x hx).2) (List.Perm.refl _) (by norm_num) .pseudoLog (by simp) (0, ⊤) 1 res res' hres hres'
  exact ⟨f, c, res, res', hres, hres', hsc⟩

/-- **C163, differential.** -/
theorem C163_area_differential (f : PFn) (hf : Constructed f) (c : Chron) (p0 p1 p3 : ℝ) (hc : GoodChron c p0 p1 p3) (cf : CurveFit) (hcf : CurveFitSpec cf) (pfc : PF)
    (κ φ : ℝ → ℝ) (q : ℝ) (hq : 0 < q) (hκ : ∀ d, 0 < d → pfc.C0 d = q * κ d) (hφ : ∀ d, 0 < d → ∀ a : ℝ, f.F d a = .ok (10 ^ a * φ d))
    (k k' : Reading.Count) (hpre : k.prebinned = false) (hpre' : k'.prebinned = false) (harea : 0 < k.area)
    (hfrac : ∀ c ∈ k.craters, 0 < c.2) (hcs : k'.craters.Perm k.craters) (hsa : k.area ≤ k'.area)
    (b : Binning) (hb : b ≠ .none) (hfall : ∀ e e', NextEdges (gridOf b 0) e e' → 0 < weightIn k.craters e e' → 0 < φ (Real.sqrt (e * e')))
    (r : EReal × EReal) (resurf : Bool) (ref : ℝ) (res res' : FitAge)
    (h : Verif.Age.fitAge f c cf pfc (object (.craters k)) .dFit b r resurf ref = .ok res) (h' : Verif.Age.fitAge f c cf pfc (object (.craters k')) .dFit b r resurf ref = .ok res') :
    (10 : ℝ) ^ res'.a0.best = k.area / k'.area * 10 ^ res.a0.best ∧ res'.t ≤ res.t := by
  have hs : 1 ≤ k'.area / k.area := by
    rw [one_le_div harea]
    exact hsa
  have hsc := C162_differential f hf c p0 p1 p3 hc cf hcf pfc κ φ q hq hκ hφ k k' hpre hpre' harea hfrac 1 one_pos (k'.area / k.area) (by linarith) (by rw [copies_one]; exact hcs)
    (div_mul_cancel₀ _ harea.ne').symm b hb hfall r resurf ref res res' h h'
  refine ⟨?_, age_le hc h h' (scaled_one hs hsc)⟩
  have := hsc.density
  rw [Nat.cast_one, one_div_div] at this
  exact this

/-- the same with a differential fit -/
example (cf : CurveFit) (hcf : CurveFitSpec cf) (plotPF : PFn → PF) (hplot : ∀ (f : PFn) (d n : ℝ), 0 < d → f.evaluate .cumulative d none = .ok n → (plotPF f).C0 d = n) : ∃ f c res res',
    Verif.Age.fitAge f c cf (plotPF f) (object (.craters ⟨[(1, 1), (3, 1), (1.5, 0.5), (2, 1)], 10, none, false, false⟩)) .dFit .pseudoLog (0, ⊤) false 1 = .ok res ∧
    Verif.Age.fitAge f c cf (plotPF f) (object (.craters ⟨[(1, 1), (3, 1), (1.5, 0.5), (2, 1)], 20, none, false, false⟩)) .dFit .pseudoLog (0, ⊤) false 1 = .ok res' ∧
    (10 : ℝ) ^ res'.a0.best = 10 / 20 * 10 ^ res.a0.best ∧ res'.t ≤ res.t := by
  have hfall : ∀ (cs : List (ℝ × ℝ)) (e e' : ℝ), NextEdges (gridOf .pseudoLog 0) e e' → 0 < weightIn cs e e' → (0 : ℝ) < ((Real.sqrt (e * e')) ^ 2)⁻¹ := by
    rintro cs e e' ⟨g1, g2, _⟩ _
    obtain ⟨m, hm⟩ := (edge_iff (by simp) 0 _).1 g1
    obtain ⟨m', hm'⟩ := (edge_iff (by simp) 0 _).1 g2
    have h1 : 0 < e := by rw [hm]; exact gridFn_pos _ 0 m
    have h2 : 0 < e' := by rw [hm']; exact gridFn_pos _ 0 m'
    have : 0 < Real.sqrt (e * e') := Real.sqrt_pos.2 (mul_pos h1 h2)
    positivity
  obtain ⟨f, hf⟩ : ∃ f, f = initPoly [0, -1] (some (1, 2.5)) := ⟨_, rfl⟩
  have hcon : Constructed f := hf ▸ .inl ⟨_, _, rfl⟩
  obtain ⟨K, hK⟩ := C20_cumulative_applies f
  have hev1 : ∃ n, f.evaluate .cumulative 1 none = .ok n := by
    refine ⟨K 1 0, ?_⟩
    rw [(C18_evaluate_partial f .cumulative 1).2.1 _ _ _ (hf.trans rfl) 0 rfl rfl]
    exact (hK 1 0 one_pos).1
  have hpoly : f = .poly (((0 : ℚ) :: [-1]).map (fun q : ℚ => (q : ℝ))) (1, 2.5) := by
    rw [hf, initPoly]
    norm_num
  obtain ⟨z1, z2, z3⟩ := polynomial_curves 0 [-1] (1, 2.5)
  rw [← hpoly] at z1 z2 z3
  have hκ : ∀ d, 0 < d → (plotPF f).C0 d = 10 ^ ((0 : ℚ) : ℝ) * curveAt 0 [-1] d := fun d hd => by
    obtain ⟨n, hn⟩ := z2 d hd
    rw [hplot f d n hd hn]
    exact z1 d hd n hn
  have hφ := z3 (fun d => (d ^ 2)⁻¹) inverse_slope
  obtain ⟨c, hinit⟩ : ∃ c, Chronology.init [0, 0, 0, 2] = .ok c := ⟨_, rfl⟩
  have hgood : GoodChron c 0 0 2 := ⟨_, hinit, rfl, rfl, rfl, le_rfl, le_rfl, two_pos⟩
  have pos : ∀ x ∈ ([(1, 1), (3, 1), (1.5, 0.5), (2, 1)] : List (ℝ × ℝ)), 0 < x.1 ∧ 0 < x.2 := by
    intro x hx
    simp only [List.mem_cons, List.not_mem_nil, or_false] at hx
    rcases hx with rfl | rfl | rfl | rfl <;> norm_num
  obtain ⟨res, _, _, hres, _⟩ := C157_exists f hcon hev1 c cf hcf (plotPF f) _ _ _ (pow10_pos _) hκ hφ ⟨[(1, 1), (3, 1), (1.5, 0.5), (2, 1)], 10, none, false, false⟩ rfl (by norm_num) (by simp)
    (fun x hx => (pos x hx).1) (fun x hx => (pos x hx).2) .pseudoLog (by simp) (hfall _) false
  obtain ⟨res', _, _, hres', _⟩ := C157_exists f hcon hev1 c cf hcf (plotPF f) _ _ _ (pow10_pos _) hκ hφ ⟨[(1, 1), (3, 1), (1.5, 0.5), (2, 1)], 20, none, false, false⟩
    rfl (by norm_num) (by simp) (fun x hx => (pos x hx).1) (fun x hx => (pos x hx).2) .pseudoLog (by simp) (hfall _) false
  have hsc := C163_area_differential f hcon c 0 0 2 hgood cf hcf (plotPF f) _ _ _ (pow10_pos _) hκ hφ ⟨[(1, 1), (3, 1), (1.5, 0.5), (2, 1)], 10, none, false, false⟩ ⟨[(1, 1), (3, 1), (1.5, 0.5), (2, 1)], 20, none, false, false⟩ rfl rfl (by norm_num) (fun x hx => (pos x hx).2) (List.Perm.refl _) (by norm_num) .pseudoLog (by simp) (hfall _) (0, ⊤) false 1 res res' hres hres'
  exact ⟨f, c, res, res', hres, hres', hsc⟩

theorem double_next (n : ℕ) : NextEdges (gridOf .x2 0) (2 ^ n) (2 ^ (n + 1)) := by
  have key : ∀ m : ℕ, (gridOf .x2 0).Edge (2 ^ m) := fun m => ⟨m, by rw [sub_zero, Int.cast_natCast, Real.rpow_natCast]⟩
  refine ⟨key n, key (n + 1), pow_lt_pow_right₀ (by norm_num) (Nat.lt_succ_self n), ?_⟩
  rintro x ⟨j, hj⟩ hlt
  rw [sub_zero] at hj
  rw [hj, ← Real.rpow_natCast, Real.rpow_lt_rpow_left_iff (by norm_num)] at hlt
  have h1 : (n : ℤ) < j := by exact_mod_cast hlt
  rw [hj, ← Real.rpow_natCast]
  apply Real.rpow_le_rpow_of_exponent_le (by norm_num)
  have h2 : (n : ℤ) + 1 ≤ j := h1
  exact_mod_cast h2

theorem next_unique {G : Grid} {e e' x x' : ℝ} (h : NextEdges G e e') (hx : NextEdges G x x') (h1 : x ≤ e) (h2 : e < x') : x = e ∧ x' = e' := by
  obtain ⟨a1, a2, a3, a4⟩ := h
  obtain ⟨b1, b2, b3, b4⟩ := hx
  have e1 : x = e := by
    rcases h1.lt_or_eq with hl | hl
    · exact absurd (b4 e a1 hl) (not_le.2 h2)
    · exact hl
  subst e1
  exact ⟨rfl, le_antisymm (b4 e' a2 a3) (a4 x' b2 b3)⟩

theorem weightIn_witness {cs : List (ℝ × ℝ)} {lo hi : ℝ} (h : 0 < weightIn cs lo hi) : ∃ c ∈ cs, lo ≤ c.1 ∧ c.1 < hi := by
  by_contra hne
  push Not at hne
  have : cs.filter (fun c => decide (lo ≤ c.1 ∧ c.1 < hi)) = [] := by
    rw [List.filter_eq_nil_iff]
    intro c hc
    simp only [decide_eq_true_eq, not_and, not_lt]
    exact hne c hc
  rw [weightIn, this] at h
  simp at h

theorem two_bins {cs l : List (ℝ × ℝ)} (hcs : ∀ c ∈ cs, c.1 = 1 ∨ c.1 = 1024) (h1 : 0 < weightIn cs 1 2) (h2 : 0 < weightIn cs 1024 2048) (h : FitBins (gridOf .x2 0) cs (0, ⊤) l) :
    l = [(1, 2), (1024, 2048)] := by
  have n1 : NextEdges (gridOf .x2 0) 1 2 := by
    have := double_next 0
    norm_num at this
    exact this
  have n2 : NextEdges (gridOf .x2 0) 1024 2048 := by
    have := double_next 10
    norm_num at this
    exact this
  have hr : ∀ a b : ℝ, 0 < a → 0 < b → (0 : EReal) < ((Real.sqrt (a * b) : ℝ) : EReal) ∧ ((Real.sqrt (a * b) : ℝ) : EReal) < ⊤ := by
    intro a b ha hb
    refine ⟨?_, EReal.coe_lt_top _⟩
    exact_mod_cast Real.sqrt_pos.2 (mul_pos ha hb)
  refine sorted_eq h.sorted (by simp) (fun x => ?_)
  rw [h.bins]
  simp only [List.mem_cons, List.not_mem_nil, or_false]
  constructor
  · rintro ⟨hn, hw, _⟩
    obtain ⟨c, hc, g1, g2⟩ := weightIn_witness hw
    rcases hcs c hc with e | e <;> rw [e] at g1 g2
    · obtain ⟨u, v⟩ := next_unique n1 hn g1 g2
      exact .inl (Prod.ext u v)
    · obtain ⟨u, v⟩ := next_unique n2 hn g1 g2
      exact .inr (Prod.ext u v)
  · rintro (rfl | rfl)
    · exact ⟨n1, h1, hr _ _ (by norm_num) (by norm_num)⟩
    · exact ⟨n2, h2, hr _ _ (by norm_num) (by norm_num)⟩

/-- the least of a weighted sum of two squares -/
theorem two_squares {u v x y a : ℝ} (hu : 0 < u) (hv : 0 < v) (h : ∀ α, α ≠ a → u * (x - a) ^ 2 + v * (y - a) ^ 2 < u * (x - α) ^ 2 + v * (y - α) ^ 2) : (u + v) * a = u * x + v * y := by
  by_contra hne
  have hs : 0 < u + v := by linarith
  have h1 := h ((u * x + v * y) / (u + v)) (fun e => hne (by rw [← e]; field_simp))
  have e : (u * x + v * y) / (u + v) * (u + v) = u * x + v * y := by field_simp
  set w := (u * x + v * y) / (u + v)
  have e2 : u * (x - a) ^ 2 + v * (y - a) ^ 2 - (u * (x - w) ^ 2 + v * (y - w) ^ 2) = (u + v) * (a - w) ^ 2 := by linear_combination (2 * a - 2 * w) * e
  have := mul_nonneg hs.le (sq_nonneg (a - w))
  linarith

/-- **C163 is false for more craters.** One crater of 1 km and one of 1024 km on 4 km², and the same with another crater of 1 km: the age of the fit to the cumulative distribution is smaller for the list with more craters. -/
theorem C163_craters_counterexample (cf : CurveFit) (hcf : CurveFitSpec cf) (pfc : PF) : ∃ f c res res', Constructed f ∧ GoodChron c 0 0 2 ∧
    Verif.Age.fitAge f c cf pfc (object (.craters ⟨[(1, 1), (1024, 1)], 4, none, false, false⟩)) .cFit .x2 (0, ⊤) false 1 = .ok res ∧
    Verif.Age.fitAge f c cf pfc (object (.craters ⟨[(1, 1), (1, 1), (1024, 1)], 4, none, false, false⟩)) .cFit .x2 (0, ⊤) false 1 = .ok res' ∧
    (10 : ℝ) ^ res.a0.best = 4 ∧ (10 : ℝ) ^ res'.a0.best < 13 / 4 ∧ res'.t + 0.3 < res.t := by
  obtain ⟨f, hf⟩ : ∃ f, f = initPoly [0, -1] (some (1, 2.5)) := ⟨_, rfl⟩
  have hcon : Constructed f := hf ▸ .inl ⟨_, _, rfl⟩
  obtain ⟨K, hK⟩ := C20_cumulative_applies f
  have hev : ∀ d : ℝ, 0 < d → f.evaluate .cumulative d none = .ok (K d 0) := by
    intro d hd
    rw [(C18_evaluate_partial f .cumulative d).2.1 _ _ _ (hf.trans rfl) 0 rfl rfl]
    exact (hK d 0 hd).1
  have hpoly : f = .poly (((0 : ℚ) :: [-1]).map (fun q : ℚ => (q : ℝ))) (1, 2.5) := by
    rw [hf, initPoly]
    norm_num
  obtain ⟨z1, _, _⟩ := polynomial_curves 0 [-1] (1, 2.5)
  rw [← hpoly] at z1
  have hκ : ∀ d, 0 < d → ∀ a : ℝ, f.C d a = .ok (10 ^ a * (fun x : ℝ => x⁻¹) d) := by
    intro d hd a
    have hs := C16_scaling f hcon d 0 a (K d 0)
    rw [zero_add] at hs
    have e := z1 d hd _ (hev d hd)
    rw [inverse_curve hd, Rat.cast_zero, Real.rpow_zero, one_mul] at e
    rw [hs.1 (hK d 0 hd).1, e]
  obtain ⟨c, hinit⟩ : ∃ c, Chronology.init [0, 0, 0, 2] = .ok c := ⟨_, rfl⟩
  have hgood : GoodChron c 0 0 2 := ⟨_, hinit, rfl, rfl, rfl, le_rfl, le_rfl, two_pos⟩
  have pos : ∀ x ∈ ([(1, 1), (1024, 1)] : List (ℝ × ℝ)), 0 < x.1 ∧ 0 < x.2 := by
    intro x hx
    simp only [List.mem_cons, List.not_mem_nil, or_false] at hx
    rcases hx with rfl | rfl <;> norm_num
  have pos' : ∀ x ∈ ([(1, 1), (1, 1), (1024, 1)] : List (ℝ × ℝ)), 0 < x.1 ∧ 0 < x.2 := by
    intro x hx
    simp only [List.mem_cons, List.not_mem_nil, or_false] at hx
    rcases hx with rfl | rfl | rfl <;> norm_num
  obtain ⟨res, _, _, hres, _⟩ := C156_exists f hcon ⟨_, hev 1 one_pos⟩ c cf hcf pfc ⟨[(1, 1), (1024, 1)], 4, none, false, false⟩ rfl (by norm_num) (by simp)
    (fun x hx => (pos x hx).1) (fun x hx => (pos x hx).2) .x2 (by simp)
  obtain ⟨res', _, _, hres', _⟩ := C156_exists f hcon ⟨_, hev 1 one_pos⟩ c cf hcf pfc ⟨[(1, 1), (1, 1), (1024, 1)], 4, none, false, false⟩ rfl (by norm_num) (by simp)
    (fun x hx => (pos' x hx).1) (fun x hx => (pos' x hx).2) .x2 (by simp)
  obtain ⟨first, rest, _, _, _, _, f1, f2, _, _, _, _, _, _, f9, _⟩ := C156_fit f hcon c 0 0 2 hgood cf hcf pfc _ hκ _ rfl (by norm_num) _ (List.Perm.refl _) (fun x hx => (pos x hx).2) .x2 (by simp)
    (0, ⊤) 1 res hres
  obtain ⟨first', rest', _, _, _, _, g1, g2, _, _, _, _, _, _, g9, _⟩ := C156_fit f hcon c 0 0 2 hgood cf hcf pfc _ hκ _ rfl (by norm_num) _ (List.Perm.refl _) (fun x hx => (pos' x hx).2) .x2 (by simp)
    (0, ⊤) 1 res' hres'
  have hl := two_bins (by simp) (by norm_num [weightIn, List.filter_cons]) (by norm_num [weightIn, List.filter_cons]) f1
  have hl' := two_bins (by simp) (by norm_num [weightIn, List.filter_cons]) (by norm_num [weightIn, List.filter_cons]) g1
  rw [hl] at f2
  rw [hl'] at g2
  have w1 : weightFrom [(1, 1), (1024, 1)] 1 = 2 := by norm_num [weightFrom, List.filter_cons]
  have w2 : weightFrom [(1, 1), (1024, 1)] 1024 = 1 := by norm_num [weightFrom, List.filter_cons]
  have w3 : weightFrom [(1, 1), (1, 1), (1024, 1)] 1 = 3 := by norm_num [weightFrom, List.filter_cons]
  have w4 : weightFrom [(1, 1), (1, 1), (1024, 1)] 1024 = 1 := by norm_num [weightFrom, List.filter_cons]
  simp only [fitDeviation, List.map_cons, List.map_nil, List.sum_cons, List.sum_nil, add_zero, w1, w2, sub_add_eq_sub_sub_swap] at f2
  simp only [fitDeviation, List.map_cons, List.map_nil, List.sum_cons, List.sum_nil, add_zero, w3, w4, sub_add_eq_sub_sub_swap] at g2
  have b1 := two_squares (by norm_num) (by norm_num) f2
  have b2 := two_squares (by norm_num) (by norm_num) g2
  set L := Real.logb 10 2 with hL
  set T := Real.logb 10 3 with hT
  have l4 : Real.logb 10 4 = 2 * L := by rw [show (4 : ℝ) = 2 ^ 2 by norm_num, Real.logb_pow]; norm_num [hL]
  have l1024 : Real.logb 10 (1024⁻¹) = -(10 * L) := by rw [Real.logb_inv, show (1024 : ℝ) = 2 ^ 10 by norm_num, Real.logb_pow]; norm_num [hL]
  have l1 : Real.logb 10 ((1 : ℝ)⁻¹) = 0 := by simp
  rw [Real.logb_div (by norm_num) (by norm_num), Real.logb_div (by norm_num) (by norm_num), l4, l1024, l1, Real.logb_one, ← hL] at b1
  rw [Real.logb_div (by norm_num) (by norm_num), Real.logb_div (by norm_num) (by norm_num), l4, l1024, l1, Real.logb_one, ← hT] at b2
  have a1 : res.a0.best = L + L := by linarith
  have a2 : res'.a0.best * ((4 : ℕ) : ℝ) = T + T + T + L + L := by push_cast; linarith
  have pL : (10 : ℝ) ^ L = 2 := Real.rpow_logb (by norm_num) (by norm_num) (by norm_num)
  have pT : (10 : ℝ) ^ T = 3 := Real.rpow_logb (by norm_num) (by norm_num) (by norm_num)
  have d1 : (10 : ℝ) ^ res.a0.best = 4 := by
    rw [a1, Real.rpow_add (by norm_num), pL]
    norm_num
  have d2 : (10 : ℝ) ^ res'.a0.best < 13 / 4 := by
    apply lt_of_pow_lt_pow_left₀ 4 (by norm_num)
    rw [← Real.rpow_natCast, ← Real.rpow_mul (by norm_num), a2]
    rw [Real.rpow_add (by norm_num), Real.rpow_add (by norm_num), Real.rpow_add (by norm_num), Real.rpow_add (by norm_num), pL, pT]
    norm_num
  refine ⟨f, c, res, res', hcon, hgood, hres, hres', d1, d2, ?_⟩
  obtain ⟨_, _, n1⟩ := f9
  obtain ⟨_, _, n2⟩ := g9
  have p2 : (0 : ℝ) < 10 ^ res'.a0.best := Real.rpow_pos_of_pos (by norm_num) _
  have t1 := ((n1 2 (by norm_num) (by rw [d1]; norm_num)).1 (by norm_num)).2
  have t2 := ((n2 (10 ^ res'.a0.best / 2) (by linarith) (by ring)).1 (by linarith)).1
  norm_num at t1 ⊢
  linarith

end

end Verif.Props
