import Verif.Props.ResurfRun

/-!
C162: what the fits give for an area which is larger, and for craters which are listed several times.
-/

namespace Verif.Props

open Verif.Spec Verif.Py Verif.Cratercount Verif.Chronology Verif.Production Verif.Age Verif.FileAge

noncomputable section

/-- Specification: a list of craters, `m` times over -/
def copies (m : ℕ) (cs : List (ℝ × ℝ)) : List (ℝ × ℝ) := (List.replicate m cs).flatten

theorem copies_succ (m : ℕ) (cs : List (ℝ × ℝ)) : copies (m + 1) cs = cs ++ copies m cs := by
  rw [copies, List.replicate_succ, List.flatten_cons, copies]

theorem weight_copies (m : ℕ) (cs : List (ℝ × ℝ)) (P : ℝ × ℝ → Bool) : (((copies m cs).filter P).map Prod.snd).sum = m * ((cs.filter P).map Prod.snd).sum := by
  induction m with
  | zero => simp [copies]
  | succ m ih =>
    rw [copies_succ, List.filter_append, List.map_append, List.sum_append, ih]
    push_cast
    ring

theorem count_copies (m : ℕ) (cs : List (ℝ × ℝ)) (P : ℝ × ℝ → Bool) : ((copies m cs).filter P).length = m * (cs.filter P).length := by
  induction m with
  | zero => simp [copies]
  | succ m ih =>
    rw [copies_succ, List.filter_append, List.length_append, ih]
    ring

theorem mem_copies {m : ℕ} {cs : List (ℝ × ℝ)} {x : ℝ × ℝ} (h : x ∈ copies m cs) : x ∈ cs := by
  rw [copies, List.mem_flatten] at h
  obtain ⟨l, hl, hx⟩ := h
  rw [(List.mem_replicate.1 hl).2] at hx
  exact hx

theorem sorted_eq {l l' : List (ℝ × ℝ)} (h : l.Pairwise (fun x y => x.1 < y.1)) (h' : l'.Pairwise (fun x y => x.1 < y.1)) (hmem : ∀ x, x ∈ l ↔ x ∈ l') : l = l' := by
  have nd : ∀ {l : List (ℝ × ℝ)}, l.Pairwise (fun x y => x.1 < y.1) → l.Nodup := fun h => h.imp (fun hlt e => absurd (by rw [e] at hlt; exact hlt) (lt_irrefl _))
  have hp : l.Perm l' := (List.perm_ext_iff_of_nodup (nd h) (nd h')).2 hmem
  exact hp.eq_of_pairwise (fun a b _ _ h1 h2 => absurd (h1.trans h2) (lt_irrefl _)) h h'

/-- the bins of a fit are the same for copies -/
theorem bins_copies {G : Grid} {cs : List (ℝ × ℝ)} {r : EReal × EReal} {l l' : List (ℝ × ℝ)} {m : ℕ} (hm : 0 < m) (h : FitBins G cs r l) (h' : FitBins G (copies m cs) r l') : l' = l := by
  refine sorted_eq h'.sorted h.sorted (fun x => ?_)
  rw [h.bins, h'.bins]
  have : weightIn (copies m cs) x.1 x.2 = m * weightIn cs x.1 x.2 := weight_copies m cs _
  have hm' : (0 : ℝ) < m := by exact_mod_cast hm
  rw [this, mul_pos_iff_of_pos_left hm']

/-- the least of a function which is a multiple of another, shifted -/
theorem shifted_least {F G : ℝ → ℝ} {a b δ s : ℝ} (hs : 0 < s) (hFG : ∀ x, G (x + δ) = s * F x) (ha : ∀ x, x ≠ a → F a < F x) (hb : ∀ x, x ≠ b → G b < G x) : b = a + δ := by
  by_contra hne
  have h1 := hb (a + δ) (Ne.symm hne)
  have h2 := ha (b - δ) (fun e => hne (by linarith))
  have h3 := hFG (b - δ)
  rw [sub_add_cancel] at h3
  rw [h3, hFG] at h1
  have := mul_lt_mul_of_pos_left h2 hs
  linarith

theorem from_pos {cs : List (ℝ × ℝ)} (hfrac : ∀ c ∈ cs, 0 < c.2) {e e' : ℝ} (hlt : e < e') (h : 0 < weightIn cs e e') : 0 < weightFrom cs e := by
  have hsub := weightFrom_sub cs hlt.le
  have h0 : 0 ≤ weightFrom cs e' := by
    unfold weightFrom
    apply List.sum_nonneg
    intro y hy
    obtain ⟨c, hc, rfl⟩ := List.mem_map.1 hy
    exact (hfrac c (List.mem_filter.1 hc).1).le
  linarith

theorem sum_scaled {α : Type} (l : List α) (u v : α → ℝ) (s : ℝ) (h : ∀ x ∈ l, u x = s * v x) : (l.map u).sum = s * (l.map v).sum := by
  rw [← List.sum_map_mul_left]
  congr 1
  exact List.map_congr_left h

theorem fitDeviation_copies {G : Grid} {cs : List (ℝ × ℝ)} {r : EReal × EReal} {l : List (ℝ × ℝ)} (h : FitBins G cs r l) (hfrac : ∀ c ∈ cs, 0 < c.2) {m : ℕ} (hm : 0 < m) {a a' : ℝ} (ha : 0 < a)
    (ha' : 0 < a') (κ : ℝ → ℝ) (α : ℝ) : fitDeviation (copies m cs) a' κ l (α + Real.logb 10 (m * a / a')) = m * a / a' * fitDeviation cs a κ l α := by
  have hm' : (0 : ℝ) < m := by exact_mod_cast hm
  unfold fitDeviation
  apply sum_scaled
  intro x hx
  obtain ⟨⟨_, _, h1, _⟩, h2, _⟩ := (h.bins x).1 hx
  have hw := from_pos hfrac h1 h2
  have e : weightFrom (copies m cs) x.1 / a' = m * a / a' * (weightFrom cs x.1 / a) := by
    rw [show weightFrom (copies m cs) x.1 = m * weightFrom cs x.1 from weight_copies m cs _]
    field_simp
  rw [e, Real.logb_mul (by positivity) (by positivity)]
  ring

theorem diffDeviation_copies {G : Grid} {cs : List (ℝ × ℝ)} {r : EReal × EReal} {l : List (ℝ × ℝ)} (h : FitBins G cs r l) {m : ℕ} (hm : 0 < m) {a a' : ℝ} (ha : 0 < a)
    (ha' : 0 < a') (κ φ : ℝ → ℝ) (hκ : ∀ x ∈ l, 0 < chordBias κ x.1 x.2) (α : ℝ) :
    diffDeviation (copies m cs) a' κ φ l (α + Real.logb 10 (m * a / a')) = m * a / a' / Real.sqrt m * diffDeviation cs a κ φ l α := by
  have hm' : (0 : ℝ) < m := by exact_mod_cast hm
  unfold diffDeviation
  apply sum_scaled
  intro x hx
  obtain ⟨⟨_, _, h1, _⟩, h2, _⟩ := (h.bins x).1 hx
  have hB := hκ x hx
  have hd : 0 < x.2 - x.1 := by linarith
  have ew : weightIn (copies m cs) x.1 x.2 = m * weightIn cs x.1 x.2 := weight_copies m cs _
  have ec : ((countIn (copies m cs) x.1 x.2 : ℕ) : ℝ) = m * countIn cs x.1 x.2 := by
    rw [show countIn (copies m cs) x.1 x.2 = m * countIn cs x.1 x.2 from count_copies m cs _]
    push_cast
    rfl
  have e : m * weightIn cs x.1 x.2 / (x.2 - x.1) / a' / chordBias κ x.1 x.2 = m * a / a' * (weightIn cs x.1 x.2 / (x.2 - x.1) / a / chordBias κ x.1 x.2) := by
    field_simp
  rw [ew, ec, e, Real.logb_mul (by positivity) (by positivity), Real.sqrt_mul hm'.le]
  have e' : m * weightIn cs x.1 x.2 / (x.2 - x.1) / a' / (Real.sqrt m * Real.sqrt (countIn cs x.1 x.2)) =
      m * a / a' / Real.sqrt m * (weightIn cs x.1 x.2 / (x.2 - x.1) / a / Real.sqrt (countIn cs x.1 x.2)) := by
    field_simp
  rw [e']
  ring

/-- the width of the limits for `m` times the number of craters -/
theorem limit_scaled {β β' B hi hi' : ℝ} {m : ℕ} (hm : 0 < m) (hB : 0 ≤ B) (h : hi = β + Real.logb 10 (1 + 0.98 * B)) (h' : hi' = β' + Real.logb 10 (1 + 0.98 * (B / Real.sqrt m))) :
    10 ^ hi' / (10 : ℝ) ^ β' - 1 = (10 ^ hi / (10 : ℝ) ^ β - 1) / Real.sqrt m := by
  have key : ∀ γ X : ℝ, 0 < X → (10 : ℝ) ^ (γ + Real.logb 10 X) / 10 ^ γ = X := by
    intro γ X hX
    rw [Real.rpow_add (by norm_num), Real.rpow_logb (by norm_num) (by norm_num) hX]
    have : (0 : ℝ) < 10 ^ γ := Real.rpow_pos_of_pos (by norm_num) _
    field_simp
  have hs : 0 < Real.sqrt m := Real.sqrt_pos.2 (by exact_mod_cast hm)
  rw [h, h', key _ _ (by positivity), key _ _ (by positivity)]
  ring

/-- the age follows the density -/
theorem same_age {f : PFn} {c : Chron} {cf : CurveFit} {pfc : PF} {o o' : Obj} {k : FitType} {b : Binning} {r : EReal × EReal} {s : Bool} {ref : ℝ} {res res' : FitAge}
    (h : Verif.Age.fitAge f c cf pfc o k b r s ref = .ok res) (h' : Verif.Age.fitAge f c cf pfc o' k b r s ref = .ok res') (e : res'.a0.best = res.a0.best) :
    res'.t = res.t ∧ res'.nd = res.nd := by
  unfold Verif.Age.fitAge at h h'
  dsimp only at h h'
  obtain ⟨pd, p1, h⟩ := except_bind_eq_ok h
  obtain ⟨a0, q1, h⟩ := except_bind_eq_ok h
  obtain ⟨t0, q2, h⟩ := except_bind_eq_ok h
  obtain ⟨nd, q3, h⟩ := except_bind_eq_ok h
  injection h with h
  obtain ⟨pd', p1', h'⟩ := except_bind_eq_ok h'
  obtain ⟨a0', q1', h'⟩ := except_bind_eq_ok h'
  obtain ⟨t0', q2', h'⟩ := except_bind_eq_ok h'
  obtain ⟨nd', q3', h'⟩ := except_bind_eq_ok h'
  injection h' with h'
  subst h h'
  dsimp only at e ⊢
  rw [e] at q2' q3'
  rw [q2] at q2'
  rw [q3] at q3'
  injection q2' with q2'
  injection q3' with q3'
  exact ⟨q2'.symm, q3'.symm⟩

/-- Specification: what two results of a fit have to do with each other, the second one being that of `m` times the craters on `s` times the area: the density is `m/s` times the first, for `s = m` density and age are the same,
the numbers of craters are `m` times the first, and the relative distance of the upper limit is that of the first divided by the square root of `m` -/
structure Scaled (m : ℕ) (s : ℝ) (res res' : FitAge) : Prop where
  density : (10 : ℝ) ^ res'.a0.best = m / s * 10 ^ res.a0.best
  age : s = m → res'.a0.best = res.a0.best ∧ res'.t = res.t ∧ res'.nd = res.nd
  number : res'.n = m * res.n ∧ res'.nEvent = m * res.nEvent
  limit : ∃ hi hi', res.a0.upper = .ok hi ∧ res'.a0.upper = .ok hi' ∧ 10 ^ hi' / (10 : ℝ) ^ res'.a0.best - 1 = (10 ^ hi / (10 : ℝ) ^ res.a0.best - 1) / Real.sqrt m

theorem density_scaled {β β' s a a' : ℝ} {m : ℕ} (hm : 0 < m) (ha : 0 < a) (hs : 0 < s) (hsa : a' = s * a) (h : β' = β + Real.logb 10 (m * a / a')) :
    (10 : ℝ) ^ β' = m / s * 10 ^ β ∧ (s = m → β' = β) := by
  have hm' : (0 : ℝ) < m := by exact_mod_cast hm
  have e : m * a / a' = m / s := by
    rw [hsa]
    field_simp
  rw [e] at h
  constructor
  · rw [h, Real.rpow_add (by norm_num), Real.rpow_logb (by norm_num) (by norm_num) (by positivity)]
    ring
  · intro hsm
    rw [h, hsm, div_self hm'.ne', Real.logb_one, add_zero]

theorem sum_counts (m : ℕ) (cs l : List (ℝ × ℝ)) : (((l.map (fun x => countIn (copies m cs) x.1 x.2)).sum : ℕ) : ℝ) = m * ((l.map (fun x => countIn cs x.1 x.2)).sum : ℕ) := by
  have : (l.map (fun x => countIn (copies m cs) x.1 x.2)).sum = m * (l.map (fun x => countIn cs x.1 x.2)).sum := by
    rw [← List.sum_map_mul_left]
    congr 1
    exact List.map_congr_left (fun x _ => count_copies m cs _)
  rw [this]
  push_cast
  rfl

/-- **C162, cumulative.** The fit to the cumulative distribution of `m` times the craters on `s` times the area. -/
theorem C162_cumulative (f : PFn) (hf : Constructed f) (c : Chron) (p0 p1 p3 : ℝ) (hc : GoodChron c p0 p1 p3) (cf : CurveFit) (hcf : CurveFitSpec cf) (pfc : PF)
    (κ : ℝ → ℝ) (hκ : ∀ d, 0 < d → ∀ a : ℝ, f.C d a = .ok (10 ^ a * κ d)) (k k' : Reading.Count) (hpre : k.prebinned = false) (hpre' : k'.prebinned = false) (harea : 0 < k.area)
    (hfrac : ∀ c ∈ k.craters, 0 < c.2) (m : ℕ) (hm : 0 < m) (s : ℝ) (hs : 0 < s) (hcs : k'.craters.Perm (copies m k.craters)) (hsa : k'.area = s * k.area)
    (b : Binning) (hb : b ≠ .none) (r : EReal × EReal) (ref : ℝ) (res res' : FitAge)
    (h : Verif.Age.fitAge f c cf pfc (object (.craters k)) .cFit b r false ref = .ok res) (h' : Verif.Age.fitAge f c cf pfc (object (.craters k')) .cFit b r false ref = .ok res') :
    Scaled m s res res' := by
  have harea' : 0 < k'.area := by rw [hsa]; positivity
  have hm' : (0 : ℝ) < m := by exact_mod_cast hm
  obtain ⟨first, rest, lo, hi, tlo, thi, f1, f2, _, f4, _, f6, _, _, _, _, _, f12, f13⟩ := C156_fit f hf c p0 p1 p3 hc cf hcf pfc κ hκ k hpre harea k.craters (List.Perm.refl _) hfrac b hb r ref res h
  obtain ⟨first', rest', lo', hi', tlo', thi', g1, g2, _, g4, _, g6, _, _, _, _, _, g12, g13⟩ := C156_fit f hf c p0 p1 p3 hc cf hcf pfc κ hκ k' hpre' harea' (copies m k.craters) hcs
    (fun x hx => hfrac x (mem_copies hx)) b hb r ref res' h'
  have hbins := bins_copies hm f1 g1
  rw [hbins] at g2 g12 g13
  have hfirst : first' = first := (List.cons.inj hbins).1
  have hbest := shifted_least (s := m * k.area / k'.area) (by positivity) (fun α => fitDeviation_copies f1 hfrac hm harea harea' κ α) f2 g2
  obtain ⟨d1, d2⟩ := density_scaled hm harea hs hsa hbest
  refine ⟨d1, fun e => ⟨d2 e, same_age h h' (d2 e)⟩, ⟨?_, ?_⟩, hi, hi', f4, g4, ?_⟩
  · rw [f12, g12]
    exact sum_scaled _ _ _ _ (fun x _ => weight_copies m _ _)
  · rw [f13, g13]
    exact sum_counts m _ _
  · refine limit_scaled (B := 1 / Real.sqrt (countFrom k.craters first.1)) hm (by positivity) (by rw [f6]; congr 3; ring) ?_
    rw [g6, hfirst, show countFrom (copies m k.craters) first.1 = m * countFrom k.craters first.1 from count_copies m _ _]
    push_cast
    rw [Real.sqrt_mul hm'.le]
    congr 3
    have : 0 < Real.sqrt m := Real.sqrt_pos.2 hm'
    rw [div_div, mul_one_div, mul_comm (Real.sqrt _) (Real.sqrt (m : ℝ))]

/-- **C162, differential.** The fit to the differential distribution of `m` times the craters on `s` times the area. -/
theorem C162_differential (f : PFn) (hf : Constructed f) (c : Chron) (p0 p1 p3 : ℝ) (hc : GoodChron c p0 p1 p3) (cf : CurveFit) (hcf : CurveFitSpec cf) (pfc : PF)
    (κ φ : ℝ → ℝ) (q : ℝ) (hq : 0 < q) (hκ : ∀ d, 0 < d → pfc.C0 d = q * κ d) (hφ : ∀ d, 0 < d → ∀ a : ℝ, f.F d a = .ok (10 ^ a * φ d))
    (k k' : Reading.Count) (hpre : k.prebinned = false) (hpre' : k'.prebinned = false) (harea : 0 < k.area)
    (hfrac : ∀ c ∈ k.craters, 0 < c.2) (m : ℕ) (hm : 0 < m) (s : ℝ) (hs : 0 < s) (hcs : k'.craters.Perm (copies m k.craters)) (hsa : k'.area = s * k.area)
    (b : Binning) (hb : b ≠ .none) (hfall : ∀ e e', NextEdges (gridOf b 0) e e' → 0 < weightIn k.craters e e' → 0 < φ (Real.sqrt (e * e')))
    (r : EReal × EReal) (resurf : Bool) (ref : ℝ) (res res' : FitAge)
    (h : Verif.Age.fitAge f c cf pfc (object (.craters k)) .dFit b r resurf ref = .ok res) (h' : Verif.Age.fitAge f c cf pfc (object (.craters k')) .dFit b r resurf ref = .ok res') :
    Scaled m s res res' := by
  have harea' : 0 < k'.area := by rw [hsa]; positivity
  have hm' : (0 : ℝ) < m := by exact_mod_cast hm
  have hsm : 0 < Real.sqrt m := Real.sqrt_pos.2 hm'
  have hw : ∀ e e', weightIn (copies m k.craters) e e' = m * weightIn k.craters e e' := fun e e' => weight_copies m _ _
  obtain ⟨first, rest, hi, thi, B, f1, f2, f3, _, f5, f6, _, _, _, _, f11, f12⟩ := C157_fit f hf c p0 p1 p3 hc cf hcf pfc κ φ q hq hκ hφ k hpre harea k.craters (List.Perm.refl _) hfrac b hb hfall r resurf ref res h
  obtain ⟨first', rest', hi', thi', B', g1, g2, g3, _, g5, g6, _, _, _, _, g11, g12⟩ := C157_fit f hf c p0 p1 p3 hc cf hcf pfc κ φ q hq hκ hφ k' hpre' harea' (copies m k.craters) hcs
    (fun x hx => hfrac x (mem_copies hx)) b hb (fun e e' he hwt => hfall e e' he (by rw [hw] at hwt; exact (mul_pos_iff_of_pos_left hm').1 hwt)) r resurf ref res' h'
  have hbins := bins_copies hm f1 g1
  rw [hbins] at g2 g11 g12
  have hfirst : first' = first := (List.cons.inj hbins).1
  have hpos : ∀ x ∈ first :: rest, 0 < chordBias κ x.1 x.2 := by
    intro x hx
    obtain ⟨⟨e1, _, e3, _⟩, _⟩ := (f1.bins x).1 hx
    obtain ⟨i, hi⟩ := (edge_iff hb 0 _).1 e1
    exact (bias_chord hq hκ (by rw [hi]; exact gridFn_pos _ 0 i) e3).2
  have hbest := shifted_least (s := m * k.area / k'.area / Real.sqrt m) (by positivity) (fun α => diffDeviation_copies f1 hm harea harea' κ φ hpos α) f2 g2
  obtain ⟨d1, d2⟩ := density_scaled hm harea hs hsa hbest
  refine ⟨d1, fun e => ⟨d2 e, same_age h h' (d2 e)⟩, ⟨?_, ?_⟩, hi, hi', f5, g5, ?_⟩
  · rw [f11, g11]
    exact sum_scaled _ _ _ _ (fun x _ => weight_copies m _ _)
  · rw [f12, g12]
    exact sum_counts m _ _
  · have hB : 0 ≤ B := by
      rw [f3]
      exact div_nonneg (hpos first List.mem_cons_self).le (Real.sqrt_nonneg _)
    refine limit_scaled (B := B) hm hB f6 ?_
    have hBB : B' = B / Real.sqrt m := by
      rw [g3, f3, hfirst, show countIn (copies m k.craters) first.1 first.2 = m * countIn k.craters first.1 first.2 from count_copies m _ _]
      push_cast
      rw [Real.sqrt_mul hm'.le, div_div, mul_comm (Real.sqrt _) (Real.sqrt (m : ℝ))]
    rw [g6, hBB]

/-- four craters on 10 km², and each of them twice on 20 km²: the age is the same and the relative error smaller by √2 -/
example (cf : CurveFit) (hcf : CurveFitSpec cf) (pfc : PF) : ∃ f c res res',
    Verif.Age.fitAge f c cf pfc (object (.craters ⟨[(1, 1), (3, 1), (1.5, 0.5), (2, 1)], 10, none, false, false⟩)) .cFit .pseudoLog (0, ⊤) false 1 = .ok res ∧
    Verif.Age.fitAge f c cf pfc (object (.craters ⟨[(1, 1), (1, 1), (3, 1), (3, 1), (1.5, 0.5), (1.5, 0.5), (2, 1), (2, 1)], 20, none, false, false⟩)) .cFit .pseudoLog (0, ⊤) false 1 = .ok res' ∧
    Scaled 2 2 res res' ∧ res'.t = res.t := by
  obtain ⟨f, hf⟩ : ∃ f, f = initPoly [0, -1] (some (1, 2.5)) := ⟨_, rfl⟩
  have hcon : Constructed f := hf ▸ .inl ⟨_, _, rfl⟩
  obtain ⟨K, hK⟩ := C20_cumulative_applies f
  have hev1 : ∃ n, f.evaluate .cumulative 1 none = .ok n := by
    refine ⟨K 1 0, ?_⟩
    rw [(C18_evaluate_partial f .cumulative 1).2.1 _ _ _ (hf.trans rfl) 0 rfl rfl]
    exact (hK 1 0 one_pos).1
  obtain ⟨c, hinit⟩ : ∃ c, Chronology.init [0, 0, 0, 2] = .ok c := ⟨_, rfl⟩
  have hgood : GoodChron c 0 0 2 := ⟨_, hinit, rfl, rfl, rfl, le_rfl, le_rfl, two_pos⟩
  have pos : ∀ x ∈ ([(1, 1), (3, 1), (1.5, 0.5), (2, 1)] : List (ℝ × ℝ)), 0 < x.1 ∧ 0 < x.2 := by
    intro x hx
    simp only [List.mem_cons, List.not_mem_nil, or_false] at hx
    rcases hx with rfl | rfl | rfl | rfl <;> norm_num
  have hperm : ([(1, 1), (1, 1), (3, 1), (3, 1), (1.5, 0.5), (1.5, 0.5), (2, 1), (2, 1)] : List (ℝ × ℝ)).Perm (copies 2 [(1, 1), (3, 1), (1.5, 0.5), (2, 1)]) := by
    generalize (1, 1) = a, (3, 1) = b, (1.5, 0.5) = d, ((2, 1) : ℝ × ℝ) = e
    rw [List.perm_iff_count]
    intro x
    simp only [copies, List.replicate, List.flatten_cons, List.flatten_nil, List.append_nil, List.cons_append, List.nil_append, List.count_cons, List.count_nil]
    ring
  have pos' := fun x hx => pos x (mem_copies (hperm.mem_iff.1 hx))
  obtain ⟨res, _, _, hres, _⟩ := C156_exists f hcon hev1 c cf hcf pfc ⟨[(1, 1), (3, 1), (1.5, 0.5), (2, 1)], 10, none, false, false⟩ rfl (by norm_num) (by simp)
    (fun x hx => (pos x hx).1) (fun x hx => (pos x hx).2) .pseudoLog (by simp)
  obtain ⟨res', _, _, hres', _⟩ := C156_exists f hcon hev1 c cf hcf pfc ⟨[(1, 1), (1, 1), (3, 1), (3, 1), (1.5, 0.5), (1.5, 0.5), (2, 1), (2, 1)], 20, none, false, false⟩
    rfl (by norm_num) (by simp) (fun x hx => (pos' x hx).1) (fun x hx => (pos' x hx).2) .pseudoLog (by simp)
  have hsc := C162_cumulative f hcon c 0 0 2 hgood cf hcf pfc (fun d => K d 0)
    (fun d hd a => by
      have hs := C16_scaling f hcon d 0 a (K d 0)
      rw [zero_add] at hs
      exact hs.1 (hK d 0 hd).1) _ _ rfl rfl (by norm_num) (fun x hx => (pos x hx).2) 2 two_pos 2 two_pos hperm (by norm_num) .pseudoLog (by simp) (0, ⊤) 1 res res' hres hres'
  exact ⟨f, c, res, res', hres, hres', hsc, (hsc.age (by norm_num)).2.1⟩

/-- the same craters with a differential fit; the density is the same if both the craters and the area are doubled -/
example (cf : CurveFit) (hcf : CurveFitSpec cf) (plotPF : PFn → PF) (hplot : ∀ (f : PFn) (d n : ℝ), 0 < d → f.evaluate .cumulative d none = .ok n → (plotPF f).C0 d = n) : ∃ f c res res',
    Verif.Age.fitAge f c cf (plotPF f) (object (.craters ⟨[(1, 1), (3, 1), (1.5, 0.5), (2, 1)], 10, none, false, false⟩)) .dFit .pseudoLog (0, ⊤) false 1 = .ok res ∧
    Verif.Age.fitAge f c cf (plotPF f) (object (.craters ⟨copies 2 [(1, 1), (3, 1), (1.5, 0.5), (2, 1)], 20, none, false, false⟩)) .dFit .pseudoLog (0, ⊤) false 1 = .ok res' ∧
    Scaled 2 2 res res' ∧ res'.t = res.t := by
  have hfall : ∀ (cs : List (ℝ × ℝ)) (e e' : ℝ), NextEdges (gridOf .pseudoLog 0) e e' → 0 < weightIn cs e e' → (0 : ℝ) < ((Real.sqrt (e * e')) ^ 2)⁻¹ := by
    rintro cs e e' ⟨g1, g2, _⟩ _
    obtain ⟨m, hm⟩ := (edge_iff (by simp) 0 _).1 g1
    obtain ⟨m', hm'⟩ := (edge_iff (by simp) 0 _).1 g2
    have h1 : 0 < e := by rw [hm]; exact gridFn_pos _ 0 m
    have h2 : 0 < e' := by rw [hm']; exact gridFn_pos _ 0 m'
    have : 0 < Real.sqrt (e * e') := Real.sqrt_pos.2 (mul_pos h1 h2)
    positivity
  obtain ⟨f, hf⟩ : ∃ f, f = initPoly [0, -1] (some (1, 2.5)) := ⟨_, rfl⟩
  have hcon : Constructed f := hf ▸ .inl ⟨_, _, rfl⟩
  obtain ⟨K, hK⟩ := C20_cumulative_applies f
  have hev1 : ∃ n, f.evaluate .cumulative 1 none = .ok n := by
    refine ⟨K 1 0, ?_⟩
    rw [(C18_evaluate_partial f .cumulative 1).2.1 _ _ _ (hf.trans rfl) 0 rfl rfl]
    exact (hK 1 0 one_pos).1
  have hpoly : f = .poly (((0 : ℚ) :: [-1]).map (fun q : ℚ => (q : ℝ))) (1, 2.5) := by
    rw [hf, initPoly]
    norm_num
  obtain ⟨z1, z2, z3⟩ := polynomial_curves 0 [-1] (1, 2.5)
  rw [← hpoly] at z1 z2 z3
  have hκ : ∀ d, 0 < d → (plotPF f).C0 d = 10 ^ ((0 : ℚ) : ℝ) * curveAt 0 [-1] d := fun d hd => by
    obtain ⟨n, hn⟩ := z2 d hd
    rw [hplot f d n hd hn]
    exact z1 d hd n hn
  have hφ := z3 (fun d => (d ^ 2)⁻¹) inverse_slope
  obtain ⟨c, hinit⟩ : ∃ c, Chronology.init [0, 0, 0, 2] = .ok c := ⟨_, rfl⟩
  have hgood : GoodChron c 0 0 2 := ⟨_, hinit, rfl, rfl, rfl, le_rfl, le_rfl, two_pos⟩
  have pos : ∀ x ∈ ([(1, 1), (3, 1), (1.5, 0.5), (2, 1)] : List (ℝ × ℝ)), 0 < x.1 ∧ 0 < x.2 := by
    intro x hx
    simp only [List.mem_cons, List.not_mem_nil, or_false] at hx
    rcases hx with rfl | rfl | rfl | rfl <;> norm_num
  have pos' : ∀ x ∈ copies 2 ([(1, 1), (3, 1), (1.5, 0.5), (2, 1)] : List (ℝ × ℝ)), 0 < x.1 ∧ 0 < x.2 := fun x hx => pos x (mem_copies hx)
  obtain ⟨res, _, _, hres, _⟩ := C157_exists f hcon hev1 c cf hcf (plotPF f) _ _ _ (pow10_pos _) hκ hφ ⟨[(1, 1), (3, 1), (1.5, 0.5), (2, 1)], 10, none, false, false⟩ rfl (by norm_num) (by simp)
    (fun x hx => (pos x hx).1) (fun x hx => (pos x hx).2) .pseudoLog (by simp) (hfall _) false
  obtain ⟨res', _, _, hres', _⟩ := C157_exists f hcon hev1 c cf hcf (plotPF f) _ _ _ (pow10_pos _) hκ hφ ⟨copies 2 [(1, 1), (3, 1), (1.5, 0.5), (2, 1)], 20, none, false, false⟩
    rfl (by norm_num) (by simp [copies]) (fun x hx => (pos' x hx).1) (fun x hx => (pos' x hx).2) .pseudoLog (by simp) (hfall _) false
  have hsc := C162_differential f hcon c 0 0 2 hgood cf hcf (plotPF f) _ _ _ (pow10_pos _) hκ hφ _ _ rfl rfl (by norm_num) (fun x hx => (pos x hx).2) 2 two_pos 2 two_pos
    (List.Perm.refl _) (by norm_num) .pseudoLog (by simp) (hfall _) (0, ⊤) false 1 res res' hres hres'
  exact ⟨f, c, res, res', hres, hres', hsc, (hsc.age (by norm_num)).2.1⟩

/-- repeated steps which are determined by the value before end with a determined value -/
theorem rounds_unique {step : ℝ → ℝ → Prop} (hstep : ∀ a x y, step a x → step a y → x = y) {k : ℕ} {a x y : ℝ} (h : Rounds step k a x) (h' : Rounds step k a y) : x = y := by
  induction h with
  | stop k a x h hs =>
    cases h' with
    | stop _ _ _ g gs => exact hstep _ _ _ h g
    | more _ _ z _ g gs gk gr =>
      obtain rfl := hstep _ _ _ h g
      rcases hs with hs | hs
      · exact absurd hs (not_lt.2 gs)
      · omega
  | more k a z x h hs hk hr ih =>
    cases h' with
    | stop _ _ _ g gs =>
      obtain rfl := hstep _ _ _ h g
      rcases gs with gs | gs
      · exact absurd gs (not_lt.2 hs)
      · omega
    | more _ _ z' _ g gs gk gr =>
      obtain rfl := hstep _ _ _ h g
      exact ih gr

theorem resurfaced_unique {cs : List (ℝ × ℝ)} {area : ℝ} {κ : ℝ → ℝ} {c0 : ℝ} {l : List (ℝ × ℝ)} {x y : ℝ} (h : Resurfaced cs area κ c0 l x) (h' : Resurfaced cs area κ c0 l y) : x = y := by
  obtain ⟨last, h1, h2, h3⟩ := h
  obtain ⟨last', g1, g2, g3⟩ := h'
  obtain rfl : last = last' := Option.some.inj (h1.symm.trans g1)
  rcases Nat.lt_or_ge l.length 2 with hl | hl
  · rw [h2 hl, g2 hl]
  · refine rounds_unique ?_ (h3 hl) (g3 hl)
    rintro a u v ⟨α, e1, e2⟩ ⟨β, d1, d2⟩
    have : α = β := by
      by_contra hne
      exact lt_asymm (e1 β (Ne.symm hne)) (d1 α hne)
    rw [← this] at d2
    linarith

theorem raised_copies {m : ℕ} (hm : 0 < m) (cs : List (ℝ × ℝ)) (area : ℝ) : (fun e => weightFrom (copies m cs) e / (m * area)) = fun e => weightFrom cs e / area := by
  have hm' : (m : ℝ) ≠ 0 := by exact_mod_cast hm.ne'
  funext e
  rw [show weightFrom (copies m cs) e = m * weightFrom cs e from weight_copies m cs _, mul_div_mul_left _ _ hm']

theorem raisedDeviation_copies {m : ℕ} (hm : 0 < m) (cs : List (ℝ × ℝ)) (area : ℝ) (κ : ℝ → ℝ) (l : List (ℝ × ℝ)) (adj α : ℝ) :
    raisedDeviation (copies m cs) (m * area) κ l adj α = raisedDeviation cs area κ l adj α := by
  unfold raisedDeviation
  congr 1
  apply List.map_congr_left
  intro x _
  rw [congrFun (raised_copies hm cs area) x.1]

theorem resurfaced_copies {m : ℕ} (hm : 0 < m) {cs : List (ℝ × ℝ)} {area : ℝ} {κ : ℝ → ℝ} {c0 : ℝ} {l : List (ℝ × ℝ)} {adj : ℝ} (h : Resurfaced (copies m cs) (m * area) κ c0 l adj) :
    Resurfaced cs area κ c0 l adj := by
  have e : ∀ d, RaiseStep (copies m cs) (m * area) κ c0 l d = RaiseStep cs area κ c0 l d := by
    intro d
    funext a a'
    unfold RaiseStep
    rw [congrFun (raised_copies hm cs area) d]
    simp only [raisedDeviation_copies hm]
  obtain ⟨last, h1, h2, h3⟩ := h
  rw [e] at h3
  exact ⟨last, h1, h2, h3⟩

/-- **C162, cumulative with correction for resurfacing.** `m` times the craters on `m` times the area have the same density and age.  (Other factors
of the area are left out: the rounds of the correction end at an absolute difference of densities, see `C102_density_counterexample`.) -/
theorem C162_resurfacing (f : PFn) (hf : Constructed f) (c : Chron) (p0 p1 p3 : ℝ) (hc : GoodChron c p0 p1 p3) (cf : CurveFit) (hcf : CurveFitSpec cf) (pfc : PF) (hpfc : PlotOf f cf pfc)
    (κ : ℝ → ℝ) (hκ : ∀ d, 0 < d → ∀ a : ℝ, f.C d a = .ok (10 ^ a * κ d)) (c0 : ℝ) (hc0 : f.defaultA0 = .ok c0) (k k' : Reading.Count) (hpre : k.prebinned = false) (hpre' : k'.prebinned = false)
    (harea : 0 < k.area) (hfrac : ∀ c ∈ k.craters, 0 < c.2) (m : ℕ) (hm : 0 < m) (hcs : k'.craters.Perm (copies m k.craters)) (hsa : k'.area = m * k.area)
    (b : Binning) (hb : b ≠ .none) (r : EReal × EReal) (ref : ℝ) (res res' : FitAge)
    (h : Verif.Age.fitAge f c cf pfc (object (.craters k)) .cFit b r true ref = .ok res) (h' : Verif.Age.fitAge f c cf pfc (object (.craters k')) .cFit b r true ref = .ok res') :
    Scaled m m res res' := by
  have hm' : (0 : ℝ) < m := by exact_mod_cast hm
  have harea' : 0 < k'.area := by rw [hsa]; positivity
  obtain ⟨first, rest, adj, lo, hi, tlo, thi, f1, f2, _, f3, _, f4, _, f6, _, _, _, _, _, f12, f13⟩ :=
    C158_fit f hf c p0 p1 p3 hc cf hcf pfc hpfc κ hκ c0 hc0 k hpre harea k.craters (List.Perm.refl _) hfrac b hb r ref res h
  obtain ⟨first', rest', adj', lo', hi', tlo', thi', g1, g2, _, g3, _, g4, _, g6, _, _, _, _, _, g12, g13⟩ :=
    C158_fit f hf c p0 p1 p3 hc cf hcf pfc hpfc κ hκ c0 hc0 k' hpre' harea' (copies m k.craters) hcs (fun x hx => hfrac x (mem_copies hx)) b hb r ref res' h'
  have hbins := bins_copies hm f1 g1
  rw [hbins] at g2 g3 g12 g13
  have hfirst : first' = first := (List.cons.inj hbins).1
  rw [hsa] at g2 g3
  have hadj : adj' = adj := resurfaced_unique (resurfaced_copies hm g2) f2
  simp only [raisedDeviation_copies hm, hadj] at g3
  have hbest : res'.a0.best = res.a0.best := by
    by_contra hne
    exact lt_asymm (f3 _ hne) (g3 _ (Ne.symm hne))
  refine ⟨by rw [hbest, div_self hm'.ne', one_mul], fun _ => ⟨hbest, same_age h h' hbest⟩, ⟨?_, ?_⟩, hi, hi', f4, g4, ?_⟩
  · rw [f12, g12]
    exact sum_scaled _ _ _ _ (fun x _ => weight_copies m _ _)
  · rw [f13, g13]
    exact sum_counts m _ _
  · refine limit_scaled (B := 1 / Real.sqrt (countFrom k.craters first.1)) hm (by positivity) (by rw [f6]; congr 3; ring) ?_
    rw [g6, hfirst, show countFrom (copies m k.craters) first.1 = m * countFrom k.craters first.1 from count_copies m _ _]
    push_cast
    rw [Real.sqrt_mul hm'.le]
    congr 3
    have hsm : 0 < Real.sqrt (m : ℝ) := Real.sqrt_pos.2 hm'
    field_simp

/-- the same craters with correction for resurfacing -/
example (cf : CurveFit) (hcf : CurveFitSpec cf) : ∃ f c pfc res res', PlotOf f cf pfc ∧
    Verif.Age.fitAge f c cf pfc (object (.craters ⟨[(1, 1), (3, 1), (1.5, 0.5), (2, 1)], 10, none, false, false⟩)) .cFit .pseudoLog (0, ⊤) true 1 = .ok res ∧
    Verif.Age.fitAge f c cf pfc (object (.craters ⟨copies 3 [(1, 1), (3, 1), (1.5, 0.5), (2, 1)], 30, none, false, false⟩)) .cFit .pseudoLog (0, ⊤) true 1 = .ok res' ∧
    Scaled 3 (3 : ℕ) res res' ∧ res'.t = res.t := by
  obtain ⟨f, hf⟩ : ∃ f, f = initPoly [0, -1] (some (1, 2.5)) := ⟨_, rfl⟩
  have hcon : Constructed f := hf ▸ .inl ⟨_, _, rfl⟩
  obtain ⟨K, hK⟩ := C20_cumulative_applies f
  have hdef0 : f.defaultA0 = .ok 0 := by rw [hf]; rfl
  obtain ⟨pfc, hpfc⟩ := plotOf_exists f cf
  obtain ⟨c, hinit⟩ : ∃ c, Chronology.init [0, 0, 0, 2] = .ok c := ⟨_, rfl⟩
  have hgood : GoodChron c 0 0 2 := ⟨_, hinit, rfl, rfl, rfl, le_rfl, le_rfl, two_pos⟩
  have pos : ∀ x ∈ ([(1, 1), (3, 1), (1.5, 0.5), (2, 1)] : List (ℝ × ℝ)), 0 < x.1 ∧ 0 < x.2 := by
    intro x hx
    simp only [List.mem_cons, List.not_mem_nil, or_false] at hx
    rcases hx with rfl | rfl | rfl | rfl <;> norm_num
  have pos' : ∀ x ∈ copies 3 ([(1, 1), (3, 1), (1.5, 0.5), (2, 1)] : List (ℝ × ℝ)), 0 < x.1 ∧ 0 < x.2 := fun x hx => pos x (mem_copies hx)
  obtain ⟨res, _, _, hres, _⟩ := C158_exists f hcon 0 hdef0 c 0 0 2 hgood cf hcf pfc hpfc ⟨[(1, 1), (3, 1), (1.5, 0.5), (2, 1)], 10, none, false, false⟩ rfl (by norm_num) (by simp)
    (fun x hx => (pos x hx).1) (fun x hx => (pos x hx).2) .pseudoLog (by simp)
  obtain ⟨res', _, _, hres', _⟩ := C158_exists f hcon 0 hdef0 c 0 0 2 hgood cf hcf pfc hpfc ⟨copies 3 [(1, 1), (3, 1), (1.5, 0.5), (2, 1)], 30, none, false, false⟩ rfl (by norm_num)
    (by simp [copies]) (fun x hx => (pos' x hx).1) (fun x hx => (pos' x hx).2) .pseudoLog (by simp)
  have hsc := C162_resurfacing f hcon c 0 0 2 hgood cf hcf pfc hpfc (fun d => K d 0)
    (fun d hd a => by
      have hs := C16_scaling f hcon d 0 a (K d 0)
      rw [zero_add] at hs
      exact hs.1 (hK d 0 hd).1) 0 hdef0 _ _ rfl rfl (by norm_num) (fun x hx => (pos x hx).2) 3 (by norm_num) (List.Perm.refl _) (by norm_num) .pseudoLog (by simp) (0, ⊤) 1 res res' hres hres'
  exact ⟨f, c, pfc, res, res', hpfc, hres, hres', hsc, (hsc.age rfl).2.1⟩

end

end Verif.Props
