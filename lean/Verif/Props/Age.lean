import Verif.Model.Age
import Verif.Props.Likelihood
import Verif.Props.Gaussian
import Verif.Props.Fit

/-! C80-C83: ages from counts, end to end. -/

namespace Verif.Props
open Verif.Cratercount Verif.Py Verif.Production Verif.Chronology Verif.Craterpdf Verif.Age

noncomputable section

attribute [local irreducible] linspace

/-! ### C80: adjacent diameter ranges -/

theorem count_sum (l : List ℝ) (P : ℝ → Prop) [DecidablePred P] :
    ((l.filter (fun e => decide (P e))).length : ℝ) = (l.map (fun d => if P d then (1 : ℝ) else 0)).sum := by
  induction l with
  | nil => simp
  | cons x l ih =>
    rw [List.map_cons, List.sum_cons, ← ih, List.filter_cons]
    by_cases hx : P x
    · simp [hx, add_comm]
    · simp [hx]

theorem count_binned (l : List Bin) (P : Bin → Prop) [DecidablePred P] :
    ((l.filter (fun b => decide (P b))).map Bin.nEvent).sum = (l.map (fun b => if P b then b.nEvent else 0)).sum := by
  induction l with
  | nil => simp
  | cons x l ih =>
    rw [List.map_cons, List.sum_cons, ← ih, List.filter_cons]
    by_cases hx : P x
    · simp [hx]
    · simp [hx]

/-- **C80, counted craters.** For a list of craters the number used for an age counts every crater with
lo ≤ diameter < hi once; for a binned count it is the number in the bins lying between lo and hi. -/
theorem C80_counted (pf : PFn) (c : Chron) (simpson : Simpson) (cc : Source) (lo hi : ℝ) (bcc : Bool) (n : ℕ) (p : Pdf)
    (h : Craterpdf.init pf c simpson cc lo hi none none bcc n = .ok p) :
    (∀ ds, cc.diam = some ds → ds ≠ [] → p.k = (ds.map (fun d => if lo ≤ d ∧ d < hi then (1 : ℝ) else 0)).sum) ∧
    (cc.diam = none → p.k = (cc.binned.map (fun b => if lo ≤ b.dMin ∧ b.dMax ≤ hi then b.nEvent else 0)).sum) := by
  obtain ⟨a0, s, pm, ph, w, b⟩ := built h
  rw [b.k_eq]
  constructor
  · intro ds hds hne
    cases ds with
    | nil => exact absurd rfl hne
    | cons d ds =>
      simp only [countK, hds]
      exact count_sum (d :: ds) (fun e => lo ≤ e ∧ e < hi)
  · intro hds
    simp only [countK, hds]
    exact count_binned cc.binned (fun b => lo ≤ b.dMin ∧ b.dMax ≤ hi)

/-- **C80.** Splitting a diameter range at any diameter m splits the age evaluation's crater number without loss or double
counting, and the expected number at every sampled age. -/
theorem C80_adjacent_ranges (pf : PFn) (c : Chron) (simpson : Simpson) (cc : Source) (lo m hi : ℝ) (n : ℕ) (p p1 p2 : Pdf)
    (hlm : lo ≤ m) (hmh : m ≤ hi)
    (h : Craterpdf.init pf c simpson cc lo hi none none false n = .ok p)
    (h1 : Craterpdf.init pf c simpson cc lo m none none false n = .ok p1)
    (h2 : Craterpdf.init pf c simpson cc m hi none none false n = .ok p2)
    (ds : List ℝ) (hds : cc.diam = some ds) (hne : ds ≠ []) :
    p.k = p1.k + p2.k ∧ p.ts = p1.ts ∧ p.ts = p2.ts ∧
    ∀ (i : ℕ) (v v1 v2 : ℝ), p.lam[i]? = some v → p1.lam[i]? = some v1 → p2.lam[i]? = some v2 → v = v1 + v2 := by
  refine ⟨?_, ?_, ?_, ?_⟩
  · rw [(C80_counted pf c simpson cc lo hi false n p h).1 ds hds hne, (C80_counted pf c simpson cc lo m false n p1 h1).1 ds hds hne,
      (C80_counted pf c simpson cc m hi false n p2 h2).1 ds hds hne, ← List.sum_map_add]
    congr 1
    apply List.map_congr_left
    intro d _
    by_cases ha : d < m
    · have hb : d < hi := by linarith
      have hc' : ¬ m ≤ d := not_le.2 ha
      by_cases hl : lo ≤ d <;> simp [ha, hb, hc', hl]
    · have hc' : m ≤ d := not_lt.1 ha
      have hl : lo ≤ d := hlm.trans hc'
      by_cases hb : d < hi <;> simp [ha, hb, hc', hl]
  all_goals
    obtain ⟨a, s, pm, ph, w, b⟩ := built h
    obtain ⟨a1, s1, pm1, ph1, w1, b1⟩ := built h1
    obtain ⟨a2, s2, pm2, ph2, w2, b2⟩ := built h2
    have e1 : a = a1 := by have := b.a0_ok.symm.trans b1.a0_ok; injection this
    have e2 : a = a2 := by have := b.a0_ok.symm.trans b2.a0_ok; injection this
    subst e1 e2
  · rw [b.ts_eq, b1.ts_eq]
  · rw [b.ts_eq, b2.ts_eq]
  · intro i v v1 v2 g g1 g2
    have l := b.lam_eq
    have l1 := b1.lam_eq
    have l2 := b2.lam_eq
    simp only [lams, Bool.false_eq_true, if_false] at l l1 l2
    obtain ⟨x0, hx0, l⟩ := except_bind_eq_ok l
    obtain ⟨x1, hx1, l⟩ := except_bind_eq_ok l
    obtain ⟨n0, hn0, l⟩ := except_bind_eq_ok l
    obtain ⟨n1, hn1, l⟩ := except_bind_eq_ok l
    obtain ⟨y0, hy0, l1⟩ := except_bind_eq_ok l1
    obtain ⟨y1, hy1, l1⟩ := except_bind_eq_ok l1
    obtain ⟨m0, hm0, l1⟩ := except_bind_eq_ok l1
    obtain ⟨m1, hm1, l1⟩ := except_bind_eq_ok l1
    obtain ⟨z0, hz0, l2⟩ := except_bind_eq_ok l2
    obtain ⟨z1, hz1, l2⟩ := except_bind_eq_ok l2
    obtain ⟨q0, hq0, l2⟩ := except_bind_eq_ok l2
    obtain ⟨q1, hq1, l2⟩ := except_bind_eq_ok l2
    rw [hx0] at hy0
    rw [hx1] at hz1
    rw [hy1] at hz0
    injection hy0 with e; subst e
    injection hz1 with e; subst e
    injection hz0 with e; subst e
    rw [hn0] at hm0
    rw [hn1] at hq1
    rw [hm1] at hq0
    injection hm0 with e; subst e
    injection hq1 with e; subst e
    injection hq0 with e; subst e
    injection l with l
    injection l1 with l1
    injection l2 with l2
    rw [← l, List.getElem?_map] at g
    rw [← l1, List.getElem?_map] at g1
    rw [← l2, List.getElem?_map] at g2
    cases hx : (linspace (-10 : ℝ) 5 n)[i]? with
    | none => simp [hx] at g
    | some x =>
      simp only [hx, Option.map_some, Option.some.injEq] at g g1 g2
      rw [← g, ← g1, ← g2]
      ring

/-! ### C81: the expected numbers -/

/-- the density at 1 km of sample `i` of `n`: `N1` is the density of a surface of 1 Ga -/
def sampleDensity (N1 : ℝ) (n i : ℕ) : ℝ := N1 * (10 : ℝ) ^ (-10 + (i : ℝ) * (15 / ((n : ℝ) - 1)))

theorem sample_log {N1 : ℝ} (h : 0 < N1) (n i : ℕ) :
    0 < sampleDensity N1 n i ∧ log10 (sampleDensity N1 n i) = log10 N1 + (-10 + (i : ℝ) * (15 / ((n : ℝ) - 1))) := by
  constructor
  · exact mul_pos h (pow10_pos _)
  · unfold sampleDensity
    conv_lhs => rw [← pow10_log10 h, ← pow10_add, log10_pow10]

theorem linspace_get? (n i : ℕ) (hi : i < n) :
    (linspace (-10 : ℝ) 5 n)[i]? = some (-10 + (i : ℝ) * (15 / ((n : ℝ) - 1))) := by
  rw [List.getElem?_eq_getElem (by simpa using hi), linspace_getElem]
  norm_num

/-- **C81.** At every sample the age is the chronology's age for the sample's density, and the expected number is
(N(≥lo) − N(≥hi)) · area on the isochron of this density. -/
theorem C81_expected (pf : PFn) (hf : Constructed pf) (c : Chron) (simpson : Simpson) (cc : Source) (lo hi : ℝ)
    (k : Option ℝ) (n : ℕ) (p0 p1 p3 : ℝ) (hc : GoodChron c p0 p1 p3) (N1 : ℝ) (hN : c.N1 1 = .ok N1) (h1 : N1 ≠ 1)
    (p : Pdf) (h : Craterpdf.init pf c simpson cc lo hi k none false n = .ok p) (i : ℕ) (hi' : i < n) :
    ∃ Nlo Nhi, pf.C lo (log10 (sampleDensity N1 n i)) = .ok Nlo ∧ pf.C hi (log10 (sampleDensity N1 n i)) = .ok Nhi ∧
      p.lam[i]? = some ((Nlo - Nhi) * cc.area) ∧
      ∃ t, p.ts[i]? = some t ∧ c.t none (some (sampleDensity N1 n i)) = .ok t := by
  obtain ⟨a, s, pm, ph, w, b⟩ := built h
  have hN' := (Built.tables hc).2.1 1
  rw [hN] at hN'
  injection hN' with hN'
  obtain ⟨hpos, ha⟩ := b.a0_val hc
  rw [← hN'] at hpos ha
  obtain ⟨hd, hl⟩ := sample_log hpos n i
  have ha0 : a ≠ 0 := by
    rw [ha]
    intro h0
    have := pow10_log10 hpos
    rw [h0] at this
    exact h1 (by rw [← this]; simp)
  have l := b.lam_eq
  simp only [lams, Bool.false_eq_true, if_false] at l
  obtain ⟨x0, hx0, l⟩ := except_bind_eq_ok l
  obtain ⟨x1, hx1, l⟩ := except_bind_eq_ok l
  obtain ⟨n0, hn0, l⟩ := except_bind_eq_ok l
  obtain ⟨n1, hn1, l⟩ := except_bind_eq_ok l
  injection l with l
  obtain ⟨q0, rfl⟩ := log10E_ok.1 hn0
  obtain ⟨q1, rfl⟩ := log10E_ok.1 hn1
  have c0 : pf.C lo a = .ok x0 := by
    rw [← hx0]; exact ((C18_evaluate_partial pf .cumulative lo).1 a _ ha0 rfl).symm
  have c1 : pf.C hi a = .ok x1 := by
    rw [← hx1]; exact ((C18_evaluate_partial pf .cumulative hi).1 a _ ha0 rfl).symm
  have g0 := (C16_scaling pf hf lo a (-10 + (i : ℝ) * (15 / ((n : ℝ) - 1))) x0).1 c0
  have g1 := (C16_scaling pf hf hi a (-10 + (i : ℝ) * (15 / ((n : ℝ) - 1))) x1).1 c1
  rw [ha] at g0 g1
  rw [hl]
  refine ⟨_, _, g0, g1, ?_, ?_⟩
  · rw [← l, List.getElem?_map, linspace_get? n i hi']
    simp only [Option.map_some, Option.some.injEq]
    generalize -10 + (i : ℝ) * (15 / ((n : ℝ) - 1)) = x
    rw [pow10_add, pow10_add, pow10_log10 q0, pow10_log10 q1]
    ring
  · refine ⟨interp c.n1s c.ts (sampleDensity N1 n i), ?_, ?_⟩
    · rw [b.ts_eq, List.getElem?_map, linspace_get? n i hi']
      simp only [Option.map_some, Option.some.injEq]
      rw [ha, ← hl, pow10_log10 hd]
    · simp only [Chron.t]

/-- the area in which the centre of a crater of diameter d touching a convex region of area A and perimeter P can lie
(Steiner's formula for the region grown by the radius d/2) -/
def grownArea (A P d : ℝ) : ℝ := A + P * (d / 2) + Real.pi * (d / 2) ^ 2

/-- **C81, buffered counts.** For a buffered Poisson age the expected number at every sample is the integral (by the
quadrature rule used, which must be homogeneous) over the 500 diameters from lo to hi of the differential density on the
isochron of the sample times the area grown by the crater radius. -/
theorem C81_expected_buffered (pf : PFn) (hf : Constructed pf) (c : Chron) (simpson : Simpson)
    (hs : ∀ (q : ℝ) (y d : List ℝ), simpson (y.map (fun v => q * v)) d = q * simpson y d)
    (cc : Source) (lo hi : ℝ) (k : Option ℝ) (n : ℕ) (p0 p1 p3 : ℝ) (hc : GoodChron c p0 p1 p3) (N1 : ℝ)
    (hN : c.N1 1 = .ok N1) (per : ℝ) (hper : cc.perimeter = some per)
    (p : Pdf) (h : Craterpdf.init pf c simpson cc lo hi k none true n = .ok p) (i : ℕ) (hi' : i < n) :
    ∃ F : ℝ → ℝ, (∀ d ∈ linspace lo hi 500, pf.F d (log10 (sampleDensity N1 n i)) = .ok (F d)) ∧
      p.lam[i]? = some (simpson ((linspace lo hi 500).map (fun d => grownArea cc.area per d * F d)) (linspace lo hi 500)) ∧
      ∃ t, p.ts[i]? = some t ∧ c.t none (some (sampleDensity N1 n i)) = .ok t := by
  obtain ⟨a, s, pm, ph, w, b⟩ := built h
  have hN' := (Built.tables hc).2.1 1
  rw [hN] at hN'
  injection hN' with hN'
  obtain ⟨hpos, ha⟩ := b.a0_val hc
  rw [← hN'] at hpos ha
  obtain ⟨hd, hl⟩ := sample_log hpos n i
  have l := b.lam_eq
  simp only [lams, if_true, hper] at l
  obtain ⟨f, hf', l⟩ := except_bind_eq_ok l
  obtain ⟨n0, hn0, l⟩ := except_bind_eq_ok l
  injection l with l
  obtain ⟨q0, rfl⟩ := log10E_ok.1 hn0
  obtain ⟨m1, m2⟩ := mapM_length hf'
  have hF : ∀ d ∈ linspace lo hi 500, pf.F d a = .ok (okVal (pf.F d a)) := by
    intro d hd
    obtain ⟨j, hj, rfl⟩ := List.getElem_of_mem hd
    rw [m2 j hj (by omega)]
    rfl
  have hfm : f = (linspace lo hi 500).map (fun d => okVal (pf.F d a)) := by
    apply List.ext_getElem
    · simp [m1]
    · intro j h1 h2
      rw [List.getElem_map, m2 j (by omega) h1]
      rfl
  set x : ℝ := -10 + (i : ℝ) * (15 / ((n : ℝ) - 1)) with hx
  refine ⟨fun d => (10 : ℝ) ^ x * okVal (pf.F d a), ?_, ?_, ?_⟩
  · intro d hd
    rw [hl, ← ha]
    exact (C16_scaling pf hf d a x _).2.1 (hF d hd)
  · rw [← l, List.getElem?_map, linspace_get? n i hi']
    simp only [Option.map_some, Option.some.injEq]
    rw [pow10_add, pow10_log10 q0, mul_comm, ← hs, hfm]
    congr 1
    rw [List.zipWith_map_right, List.zipWith_self, List.map_map]
    apply List.map_congr_left
    intro d _
    simp only [Function.comp, grownArea]
    ring
  · refine ⟨interp c.n1s c.ts (sampleDensity N1 n i), ?_, ?_⟩
    · rw [b.ts_eq, List.getElem?_map, linspace_get? n i hi']
      simp only [Option.map_some, Option.some.injEq]
      rw [ha, ← hl, pow10_log10 hd]
    · simp only [Chron.t]

/-! ### C82: the reported age -/

/-- percentile ages are positive -/
theorem t_pos {pf : PFn} {c : Chron} {simpson : Simpson} {cc : Source} {lo hi : ℝ} {k : Option ℝ} {bcc : Bool} {n : ℕ}
    {p0 p1 p3 : ℝ} (hc : GoodChron c p0 p1 p3) {p : Pdf}
    (h : Craterpdf.init pf c simpson cc lo hi k none bcc n = .ok p) (q : ℝ) : 0 < p.t q := by
  obtain ⟨c1, c2, c3, c4, c5, c6, _, _, _, _, c7, c8, _⟩ := C23_likelihood pf c simpson cc lo hi k bcc n p0 p1 p3 hc p h
  obtain ⟨a0, s, pm, ph, w, b⟩ := built h
  obtain ⟨hn, _⟩ := b.props hc
  have h1 := (interp_mem_range p.cdf p.ts c7 c5 (by omega) (by omega) q).1
  refine lt_of_lt_of_le ?_ h1
  obtain ⟨_, _, tts, tns⟩ := Built.tables hc
  obtain ⟨qq, hq, e0, e1, e3, g0, g1, g3⟩ := hc
  have hmono := n1_strictMono g0 g1 g3
  have hN0 : n1Coeff p0 p1 p3 0 = 0 := by simp [n1Coeff]
  have hsx := n1s_sorted g0 g1 g3
  have e : p.ts[0]'(by omega) = interp c.n1s c.ts ((10 : ℝ) ^ (a0 + -10)) := by
    simp only [b.ts_eq, List.getElem_map, linspace_zero]
  rw [e, tts, tns]
  have hlx : ((linspace (0 : ℝ) 5 1000).map (n1Coeff p0 p1 p3)).length = 1000 := by simp
  have hz : ∀ (hh : 0 < ((linspace (0 : ℝ) 5 1000).map (n1Coeff p0 p1 p3)).length),
      ((linspace (0 : ℝ) 5 1000).map (n1Coeff p0 p1 p3))[0] = 0 := by
    intro hh
    rw [List.getElem_map, linspace_zero, hN0]
  have hnode := interp_node _ _ hsx (by simp : _ = (linspace (0 : ℝ) 5 1000).length) 0 (by omega)
  rw [hz (by omega), linspace_zero] at hnode
  have hlast : 0 < n1Coeff p0 p1 p3 (((1000 - 1 : ℕ) : ℝ) * (5 / 999)) := by
    rw [← hN0]
    apply hmono
    norm_num
  have := interp_strict _ _ hsx ts_sorted (by simp) (by omega) (pow10_pos (a0 + -10)) (by rw [hz]) (by
    simp only [hlx, List.getElem_map, ts_getElem]
    exact hlast)
  rw [hnode] at this
  exact this

/-- **C82.** A reported Poisson age is a triple 0 < lower ≤ median ≤ upper ≤ 5 Ga at the 16%, 50% and 84% points of the
likelihood; the reported a0 are the logarithms of the chronology's densities at these three ages, in the same order; the
reported crater numbers are the number of craters the likelihood was computed for. -/
theorem C82_reported (pf : PFn) (c : Chron) (simpson : Simpson) (cc : Source) (range : EReal × EReal) (bcc : Bool) (ref : ℝ)
    (p0 p1 p3 : ℝ) (hc : GoodChron c p0 p1 p3) (r : PoissonAge) (h : poissonAge pf c simpson cc range bcc ref = .ok r) :
    ∃ med low up Nm Nl Nu, r.t = [med, low, up] ∧ 0 < low ∧ low ≤ med ∧ med ≤ up ∧ up ≤ 5 ∧
      med = r.pdf.t 0.5 ∧ low = r.pdf.t ((1 - erf (1 / Real.sqrt 2)) / 2) ∧ up = r.pdf.t ((1 + erf (1 / Real.sqrt 2)) / 2) ∧
      c.N1 med = .ok Nm ∧ c.N1 low = .ok Nl ∧ c.N1 up = .ok Nu ∧ 0 < Nl ∧ Nl ≤ Nm ∧ Nm ≤ Nu ∧
      r.a0 = [log10 Nm, log10 Nl, log10 Nu] ∧ r.n = r.pdf.k ∧ r.nEvent = r.pdf.k := by
  unfold poissonAge at h
  obtain ⟨pdf, h1, h⟩ := except_bind_eq_ok h
  dsimp only at h
  obtain ⟨a0, h2, h⟩ := except_bind_eq_ok h
  obtain ⟨nd, h3, h⟩ := except_bind_eq_ok h
  injection h with h
  subst h
  obtain ⟨med, low, up, e, g1, g2, g3, _, o1, o2, o3⟩ := C24_reported_age pf c simpson cc _ _ none bcc 5000 p0 p1 p3 hc pdf h1
  have hpos : 0 < low := by rw [g2]; exact t_pos hc h1 _
  have hN := (Built.tables hc).2.1
  obtain ⟨q, hq, e0, e1, e3, k0, k1, k3⟩ := hc
  have hmono := n1_strictMono k0 k1 k3
  have hN0 : n1Coeff p0 p1 p3 0 = 0 := by simp [n1Coeff]
  have hNl : 0 < n1Coeff p0 p1 p3 low := by rw [← hN0]; exact hmono hpos
  have hlm : n1Coeff p0 p1 p3 low ≤ n1Coeff p0 p1 p3 med := hmono.monotone o1
  have hmu : n1Coeff p0 p1 p3 med ≤ n1Coeff p0 p1 p3 up := hmono.monotone o2
  refine ⟨med, low, up, _, _, _, e, hpos, o1, o2, o3, g1, g2, g3, hN med, hN low, hN up, hNl, hlm, hmu, ?_, rfl, rfl⟩
  have ha : ∀ t, 0 < n1Coeff p0 p1 p3 t → c.a0 t = .ok (log10 (n1Coeff p0 p1 p3 t)) := by
    intro t ht
    simp only [Chron.a0, hN, except_ok_bind, if_pos ht]
  rw [e] at h2
  simp only [List.mapM_cons, List.mapM_nil, ha med (by linarith), ha low hNl, ha up (by linarith), except_ok_bind] at h2
  injection h2 with h2
  exact h2.symm

/-- **C82, existence.** Once the likelihood exists the age is reported, for every reference diameter at which the
production function can be evaluated. -/
theorem C82_defined (pf : PFn) (c : Chron) (simpson : Simpson) (cc : Source) (range : EReal × EReal)
    (bcc : Bool) (ref : ℝ) (p0 p1 p3 : ℝ) (hc : GoodChron c p0 p1 p3) (href : 0 < ref)
    (hd : ∃ a, pf.defaultA0 = .ok a) (p : Pdf)
    (h : Craterpdf.init pf c simpson cc (clipE range.1 pf.range.1 pf.range.2) (clipE range.2 pf.range.1 pf.range.2) none none
      bcc 5000 = .ok p) :
    ∃ r, poissonAge pf c simpson cc range bcc ref = .ok r ∧ r.pdf = p := by
  obtain ⟨med, low, up, e, g1, g2, g3, _, o1, o2, o3⟩ := C24_reported_age pf c simpson cc _ _ none bcc 5000 p0 p1 p3 hc p h
  have hpos : 0 < low := by rw [g2]; exact t_pos hc h _
  have hN := (Built.tables hc).2.1
  obtain ⟨q, hq, e0, e1, e3, k0, k1, k3⟩ := hc
  have hmono := n1_strictMono k0 k1 k3
  have hN0 : n1Coeff p0 p1 p3 0 = 0 := by simp [n1Coeff]
  have ha : ∀ t, 0 < t → c.a0 t = .ok (log10 (n1Coeff p0 p1 p3 t)) := by
    intro t ht
    have : 0 < n1Coeff p0 p1 p3 t := by rw [← hN0]; exact hmono ht
    simp only [Chron.a0, hN, except_ok_bind, if_pos this]
  have hC : ∀ a, ∃ v, pf.C ref a = .ok v := by
    intro a
    obtain ⟨K, hK⟩ := C20_cumulative_applies pf
    exact ⟨_, (hK ref a href).1⟩
  obtain ⟨da, hda⟩ := hd
  have hev : ∀ a, ∃ v, pf.evaluate .cumulative ref (some a) = .ok v := by
    intro a
    simp only [PFn.evaluate]
    split
    · simp only [hda, except_ok_bind]; exact hC da
    · simp only [except_ok_bind]; exact hC a
  obtain ⟨v, hv⟩ := hev (log10 (n1Coeff p0 p1 p3 med))
  refine ⟨⟨p, [med, low, up], [log10 (n1Coeff p0 p1 p3 med), log10 (n1Coeff p0 p1 p3 low), log10 (n1Coeff p0 p1 p3 up)],
    p.k, p.k, v⟩, ?_, rfl⟩
  unfold poissonAge
  rw [h, except_ok_bind]
  dsimp only
  rw [e]
  simp only [List.mapM_cons, List.mapM_nil, ha med (by linarith), ha low hpos, ha up (by linarith), except_ok_bind, pure,
    Except.pure]
  simp only [densityAt, hv, except_ok_bind]

/-! ### C83: the density shown -/

/-- **C83 (the part that holds): the density at 1 km.** With reference diameter 1 km, the density stored with a Poisson age,
and the first of the three densities shown in the legend and in the summary table, are the chronology's density at the
reported age; the others are those at the bounds of the age.  (Unless the density is exactly 1 km⁻².)  Missing: other
reference diameters, see below. -/
theorem C83_poisson_partial (pf : PFn) (hf : (∃ a r, pf = initPoly a r) ∨
    ∃ h, ∃ idx : ℕ, idx < h.length ∧ initTab h idx = .ok pf) (c : Chron) (simpson : Simpson) (cc : Source)
    (range : EReal × EReal) (bcc : Bool) (p0 p1 p3 : ℝ) (hc : GoodChron c p0 p1 p3) (r : PoissonAge)
    (h : poissonAge pf c simpson cc range bcc 1 = .ok r) :
    ∃ med low up Nm Nl Nu, r.t = [med, low, up] ∧ c.N1 med = .ok Nm ∧ c.N1 low = .ok Nl ∧ c.N1 up = .ok Nu ∧
      (Nm ≠ 1 → r.nd = Nm) ∧ legendDensity 1 r.a0 = .ok (1, [Nm, Nu, Nl]) ∧ tableDensity 1 r.a0 = (1, [Nm, Nl, Nu]) := by
  obtain ⟨med, low, up, Nm, Nl, Nu, e, _, _, _, _, _, _, _, n1, n2, n3, q1, q2, q3, ea, _⟩ :=
    C82_reported pf c simpson cc range bcc 1 p0 p1 p3 hc r h
  have hm : 0 < Nm := by linarith
  have hu : 0 < Nu := by linarith
  refine ⟨med, low, up, Nm, Nl, Nu, e, n1, n2, n3, ?_, ?_, ?_⟩
  · intro hne
    have h0 : log10 Nm ≠ 0 := by
      intro h0
      have := pow10_log10 hm
      rw [h0] at this
      exact hne (by rw [← this]; simp)
    unfold poissonAge at h
    obtain ⟨pdf, h1, h⟩ := except_bind_eq_ok h
    dsimp only at h
    obtain ⟨a0, h2, h⟩ := except_bind_eq_ok h
    obtain ⟨nd, h3, h⟩ := except_bind_eq_ok h
    injection h with h
    subst h
    simp only at ea
    rw [ea] at h3
    simp only [densityAt] at h3
    rw [(C18_evaluate_partial pf .cumulative 1).1 _ _ h0 rfl, C16_at_1km pf hf, pow10_log10 hm] at h3
    injection h3 with h3
    exact h3.symm
  · simp [legendDensity, ea, pow10_log10 hm, pow10_log10 hu, pow10_log10 q1]
  · simp [tableDensity, ea, pow10_log10 hm, pow10_log10 hu, pow10_log10 q1]

/-- **C83, fits (the part that holds).** For a fitted age the reported age is the chronology's age for 10^a0, so that the
chronology's density at any age t in [0,5] equal to it means that the reported age is at most 5/999 Ga too young; with
reference diameter 1 km the stored density is 10^a0 (unless a0 is exactly 0), which is also what is shown. -/
theorem C83_fit_partial (pf : PFn) (hf : (∃ a r, pf = initPoly a r) ∨
    ∃ h, ∃ idx : ℕ, idx < h.length ∧ initTab h idx = .ok pf) (c : Chron) (cf : CurveFit) (pfc : PF) (o : Obj) (k : FitType)
    (b : Binning) (range : EReal × EReal) (resurf : Bool) (p0 p1 p3 : ℝ) (hc : GoodChron c p0 p1 p3) (r : FitAge)
    (h : fitAge pf c cf pfc o k b range resurf 1 = .ok r) :
    0 ≤ r.t ∧ r.t ≤ 5 ∧ (∀ t, 0 ≤ t → t ≤ 5 → c.N1 t = .ok ((10 : ℝ) ^ r.a0.best) → r.t ≤ t ∧ t - 5 / 999 < r.t) ∧
    (∀ l tl, r.a0.lower = .ok l → r.tLower = .ok tl → l ≤ r.a0.best → tl ≤ r.t) ∧
    (∀ u tu, r.a0.upper = .ok u → r.tUpper = .ok tu → r.a0.best ≤ u → r.t ≤ tu) ∧
    (r.a0.best ≠ 0 → r.nd = (10 : ℝ) ^ r.a0.best) := by
  obtain ⟨q, hq, e0, e1, e3, k0, k1, k3⟩ := hc
  obtain ⟨age, a1, a2, a3, a4, a5, a6, _⟩ := C15_age_inversion q c hq p0 p1 p3 e0 e1 e3 k0 k1 k3
  unfold fitAge at h
  dsimp only at h
  obtain ⟨pd, h1, h⟩ := except_bind_eq_ok h
  obtain ⟨a0, h2, h⟩ := except_bind_eq_ok h
  obtain ⟨t, h3, h⟩ := except_bind_eq_ok h
  obtain ⟨nd, h4, h⟩ := except_bind_eq_ok h
  injection h with h
  subst h
  rw [a2] at h3
  injection h3 with h3
  subst h3
  refine ⟨(a3 _).1, (a3 _).2, fun t g1 g2 g3 => a6 t g1 g2 _ g3, ?_, ?_, ?_⟩
  · intro l tl hl htl hle
    simp only at hl htl hle ⊢
    rw [hl] at htl
    simp only [Except.bind, a2] at htl
    injection htl with htl
    rw [← htl]
    exact a4 (pow10_le.2 hle)
  · intro l tl hl htl hle
    simp only at hl htl hle ⊢
    rw [hl] at htl
    simp only [Except.bind, a2] at htl
    injection htl with htl
    rw [← htl]
    exact a4 (pow10_le.2 hle)
  · intro hne
    simp only [densityAt] at h4 hne ⊢
    rw [(C18_evaluate_partial pf .cumulative 1).1 _ _ hne rfl, C16_at_1km pf hf] at h4
    injection h4 with h4
    exact h4.symm

/-- **C83 fails for other reference diameters.** With a production function falling as D⁻³ and the reference diameter 10 km,
legend and summary table show under the name N(10) a value 1000 times the cumulative density at 10 km, for every a0. -/
theorem C83_other_diameter_counterexample (a l u : ℝ) (ha : a ≠ 0) :
    ∃ right, densityAt (initPoly [-3, -3] none) 10 [a, l, u] = .ok right ∧ 0 < right ∧
      (initPoly [-3, -3] none).C 10 a = .ok right ∧
      ∃ x y, legendDensity 10 [a, l, u] = .ok (10, [1000 * right, x, y]) ∧
      ∃ x y, tableDensity 10 [a, l, u] = (10, [1000 * right, x, y]) := by
  have hC : (initPoly [-3, -3] none).C 10 a = .ok ((10 : ℝ) ^ (a + -3)) := by
    simp only [initPoly, PFn.C]
    rw [polyC_eq (by norm_num)]
    congr 2
    have : log10 10 = 1 := by
      have := log10_pow10 1
      rwa [Real.rpow_one] at this
    simp [this, poly_cons, poly_nil]
  have h1000 : (10 : ℝ) ^ a = 1000 * (10 : ℝ) ^ (a + -3) := by
    rw [pow10_add]
    have : (10 : ℝ) ^ (-3 : ℝ) = 1 / 1000 := by
      rw [Real.rpow_neg (by norm_num)]
      norm_num
    rw [this]
    ring
  refine ⟨(10 : ℝ) ^ (a + -3), ?_, pow10_pos _, hC, (10 : ℝ) ^ u, (10 : ℝ) ^ l, ?_, (10 : ℝ) ^ l, (10 : ℝ) ^ u, ?_⟩
  · simp only [densityAt]
    rw [(C18_evaluate_partial _ .cumulative 10).1 a _ ha rfl, hC]
  · simp [legendDensity, h1000]
  · simp [tableDensity, h1000]

/-! ### C84: the probability ratio -/

theorem interp_nonneg (xp fp : List ℝ) (x : ℝ) (hx : xp.Pairwise (· ≤ ·)) (hlen : xp.length = fp.length) (hne : 0 < xp.length)
    (hf : ∀ y ∈ fp, 0 ≤ y) : 0 ≤ interp xp fp x := by
  rcases interp_cases xp fp x hx hlen hne with ⟨_, e⟩ | ⟨_, e⟩ | ⟨j, h, _, h1, h2, e⟩
  · rw [e]; exact hf _ (List.getElem_mem _)
  · rw [e]; exact hf _ (List.getElem_mem _)
  · rw [e]
    have ha := hf _ (List.getElem_mem (show j < fp.length by omega))
    have hb := hf _ (List.getElem_mem (show j + 1 < fp.length by omega))
    generalize fp[j]'(by omega) = a at ha ⊢
    generalize fp[j + 1]'(by omega) = b at hb ⊢
    have hd : 0 < xp[j + 1] - xp[j] := by linarith
    have e2 : (b - a) / (xp[j + 1] - xp[j]) * (x - xp[j]) + a =
        b * ((x - xp[j]) / (xp[j + 1] - xp[j])) + a * ((xp[j + 1] - x) / (xp[j + 1] - xp[j])) := by
      field_simp
      ring
    rw [e2]
    have g1 : 0 ≤ (x - xp[j]) / (xp[j + 1] - xp[j]) := div_nonneg (by linarith) hd.le
    have g2 : 0 ≤ (xp[j + 1] - x) / (xp[j + 1] - xp[j]) := div_nonneg (by linarith) hd.le
    positivity

/-- **C84.** Where the ratio of the likelihood at an age to that at the median age is defined it is not negative, it is 1 at
the median, and at two ages it has the ratio of the likelihoods. -/
theorem C84_ratio (pf : PFn) (c : Chron) (simpson : Simpson) (cc : Source) (lo hi : ℝ) (k : Option ℝ) (bcc : Bool) (n : ℕ)
    (p0 p1 p3 : ℝ) (hc : GoodChron c p0 p1 p3) (p : Pdf) (h : Craterpdf.init pf c simpson cc lo hi k none bcc n = .ok p) :
    (∀ t v, p.instantaneousRatio t = .ok v → 0 ≤ v) ∧
    (p.relativeProbability (p.t 0.5) ≠ 0 → p.instantaneousRatio (p.t 0.5) = .ok 1) ∧
    (∀ t t' v v', p.instantaneousRatio t = .ok v → p.instantaneousRatio t' = .ok v' →
      v * p.relativeProbability t' = v' * p.relativeProbability t) := by
  obtain ⟨c1, c2, c3, c4, c5, c6, _, c9, _, _, c7, c8, _⟩ := C23_likelihood pf c simpson cc lo hi k bcc n p0 p1 p3 hc p h
  have hform : ∀ t v, p.instantaneousRatio t = .ok v → v = p.relativeProbability t / p.relativeProbability (p.t 0.5) := by
    intro t v hv
    simp only [Pdf.instantaneousRatio, fdiv] at hv
    split at hv
    · cases hv
    · injection hv with hv; exact hv.symm
  have hnn : ∀ t, 0 ≤ p.relativeProbability t := by
    intro t
    obtain ⟨a0, s, pm, ph, w, b⟩ := built h
    obtain ⟨hn, _⟩ := b.props hc
    exact interp_nonneg _ _ _ c5 (by omega) (by omega) c9
  refine ⟨?_, ?_, ?_⟩
  · intro t v hv
    rw [hform t v hv]
    exact div_nonneg (hnn _) (hnn _)
  · intro hne
    simp only [Pdf.instantaneousRatio, fdiv, if_neg hne, div_self hne]
  · intro t t' v v' hv hv'
    rw [hform t v hv, hform t' v' hv']
    ring

/-! ### an example -/

/-- two craters per area and Ga, a 1/D production function, four craters on an area of 10: ages exist for the diameters
1 to 2, 2 to 4 and 1 to 4 km, and a density of 2 at 1 Ga -/
theorem age_example (simpson : Simpson) (rg : Option (ℝ × ℝ)) : ∃ c : Chron, GoodChron c 0 0 2 ∧ c.N1 1 = .ok 2 ∧
    ∀ lo hi : ℝ, 1 ≤ lo → lo < hi → hi ≤ 4 → 1 ≤ hi - lo →
      ∃ p, Craterpdf.init (initPoly [0, -1] rg) c simpson ⟨some [1, 1.5, 2, 3], [], 10, none⟩ lo hi none none false 5000 = .ok p := by
  obtain ⟨c, hc, _⟩ := (C14_construct [0, 0, 0, 2]).2 (by simp)
  have hg : GoodChron c 0 0 2 := ⟨_, hc, rfl, rfl, rfl, le_rfl, le_rfl, two_pos⟩
  have hN1 : c.N1 1 = .ok 2 := by
    rw [(Built.tables hg).2.1]
    norm_num [n1Coeff]
  have hN : c.a0 1 = .ok (log10 2) := by
    simp only [Chron.a0, hN1, except_ok_bind]
    norm_num
  have h0 : log10 2 ≠ 0 := by
    intro h0
    have := pow10_log10 two_pos
    rw [h0] at this
    norm_num at this
  have hev : ∀ d : ℝ, 0 < d → (initPoly [0, -1] rg).evaluate .cumulative d (some (log10 2)) = .ok (2 * (1 / d)) := by
    intro x hx
    rw [(C18_evaluate_partial _ .cumulative x).1 _ _ h0 rfl]
    simp [initPoly, PFn.C, polyC_eq hx, poly_cons, poly_nil, pow10_add, Real.rpow_neg, pow10_log10 hx, pow10_log10 two_pos]
  refine ⟨c, hg, hN1, ?_⟩
  intro lo hi h1 h2 h3 h4
  have hlo : 0 < lo := by linarith
  have hhi : 0 < hi := by linarith
  have hk : countK none ⟨some [1, 1.5, 2, 3], [], 10, none⟩ lo hi =
      ((([1, 1.5, 2, 3] : List ℝ).filter (fun e => decide (lo ≤ e ∧ e < hi))).length : ℝ) := rfl
  have hlen : (([1, 1.5, 2, 3] : List ℝ).filter (fun e => decide (lo ≤ e ∧ e < hi))).length ≤ 4 :=
    List.length_filter_le _ _
  obtain ⟨p, hp, _⟩ := C23_defined (initPoly [0, -1] rg) c simpson ⟨some [1, 1.5, 2, 3], [], 10, none⟩ lo hi none 5000
    (by norm_num) 0 0 2 hg (log10 2) _ _ hN (hev lo hlo) (hev hi hhi) (by positivity) (by
      have := one_div_lt_one_div_of_lt hlo h2
      linarith) (by norm_num) _ hk (by
      have hle : ((([1, 1.5, 2, 3] : List ℝ).filter (fun e => decide (lo ≤ e ∧ e < hi))).length : ℝ) ≤ 4 := by
        exact_mod_cast hlen
      have : 2 * (1 / lo) - 2 * (1 / hi) = 2 * (hi - lo) / (lo * hi) := by field_simp
      rw [this]
      have h5 : (1 : ℝ) / 16 ≤ (hi - lo) / (lo * hi) := by
        rw [div_le_div_iff₀ (by norm_num) (by positivity)]
        nlinarith
      have h6 : 2 * (hi - lo) / (lo * hi) = 2 * ((hi - lo) / (lo * hi)) := by ring
      rw [h6]
      refine hle.trans ?_
      generalize (hi - lo) / (lo * hi) = x at h5 ⊢
      norm_num at h5 ⊢
      linarith)
  exact ⟨p, hp⟩

/-- the hypotheses of C80 and C81 are met by three ranges of one count -/
example (simpson : Simpson) : ∃ c p p1 p2, GoodChron c 0 0 2 ∧ c.N1 1 = .ok 2 ∧ Constructed (initPoly [0, -1] none) ∧
    Craterpdf.init (initPoly [0, -1] none) c simpson ⟨some [1, 1.5, 2, 3], [], 10, none⟩ 1 4 none none false 5000 = .ok p ∧
    Craterpdf.init (initPoly [0, -1] none) c simpson ⟨some [1, 1.5, 2, 3], [], 10, none⟩ 1 2 none none false 5000 = .ok p1 ∧
    Craterpdf.init (initPoly [0, -1] none) c simpson ⟨some [1, 1.5, 2, 3], [], 10, none⟩ 2 4 none none false 5000 = .ok p2 ∧
    p.k = 4 ∧ p1.k = 2 ∧ p2.k = 2 := by
  obtain ⟨c, hg, hN, h⟩ := age_example simpson none
  obtain ⟨p, hp⟩ := h 1 4 (by norm_num) (by norm_num) (by norm_num) (by norm_num)
  obtain ⟨p1, hp1⟩ := h 1 2 (by norm_num) (by norm_num) (by norm_num) (by norm_num)
  obtain ⟨p2, hp2⟩ := h 2 4 (by norm_num) (by norm_num) (by norm_num) (by norm_num)
  refine ⟨c, p, p1, p2, hg, hN, Or.inl ⟨_, _, rfl⟩, hp, hp1, hp2, ?_, ?_, ?_⟩
  · rw [(C80_counted _ _ _ _ _ _ _ _ _ hp).1 _ rfl (by simp)]; norm_num
  · rw [(C80_counted _ _ _ _ _ _ _ _ _ hp1).1 _ rfl (by simp)]; norm_num
  · rw [(C80_counted _ _ _ _ _ _ _ _ _ hp2).1 _ rfl (by simp)]; norm_num

/-- and an age for it, without limits: the production function is used from 1 to 4 km -/
example (simpson : Simpson) : ∃ c r, GoodChron c 0 0 2 ∧
    poissonAge (initPoly [0, -1] (some (1, 4))) c simpson ⟨some [1, 1.5, 2, 3], [], 10, none⟩ (0, ⊤) false 1 = .ok r := by
  obtain ⟨c, hg, hN, h⟩ := age_example simpson (some (1, 4))
  obtain ⟨p, hp⟩ := h 1 4 (by norm_num) (by norm_num) (by norm_num) (by norm_num)
  have e1 : clipE 0 1 4 = 1 := by
    unfold clipE
    rw [max_eq_right (by exact_mod_cast (zero_le_one : (0 : ℝ) ≤ 1)), min_eq_right (by exact_mod_cast (by norm_num : (1 : ℝ) ≤ 4))]
    exact EReal.toReal_coe _
  have e2 : clipE ⊤ 1 4 = 4 := by
    unfold clipE
    rw [max_eq_left le_top, min_eq_left le_top]
    exact EReal.toReal_coe _
  obtain ⟨r, hr, _⟩ := C82_defined (initPoly [0, -1] (some (1, 4))) c simpson ⟨some [1, 1.5, 2, 3], [], 10, none⟩ (0, ⊤) false 1
    0 0 2 hg one_pos ⟨0, rfl⟩ p (by
      have : (initPoly [0, -1] (some (1, 4))).range = (1, 4) := rfl
      rw [this, e1, e2]
      exact hp)
  exact ⟨c, r, hg, hr⟩

/-- a buffered count with a homogeneous quadrature rule meeting the hypotheses of C81 -/
example : ∃ (simpson : Simpson) (c : Chron) (p : Pdf),
    (∀ (q : ℝ) (y d : List ℝ), simpson (y.map (fun v => q * v)) d = q * simpson y d) ∧ GoodChron c 0 0 2 ∧ c.N1 1 = .ok 2 ∧
    Craterpdf.init (initPoly [0, -1] none) c simpson ⟨some [1, 1.5], [], 10, some 12⟩ 1 2 none none true 5000 = .ok p := by
  obtain ⟨c, hg, hN1, _⟩ := age_example (fun _ _ => 0) none
  have hN : c.a0 1 = .ok (log10 2) := by
    simp only [Chron.a0, hN1, except_ok_bind]
    norm_num
  have hF : ∀ d ∈ linspace (1 : ℝ) 2 500, (initPoly [0, -1] none).F d (log10 2) = .ok (2 / d / d) := by
    intro d hd
    obtain ⟨j, hj, rfl⟩ := List.getElem_of_mem hd
    have hpos : (0 : ℝ) < (linspace (1 : ℝ) 2 500)[j] := by
      rw [linspace_getElem]
      positivity
    generalize (linspace (1 : ℝ) 2 500)[j] = d at hpos
    simp only [initPoly, PFn.F, polyF_eq hpos, List.tail_cons]
    congr 1
    have hl : Real.log 10 ≠ 0 := (Real.log_pos (by norm_num)).ne'
    simp only [dCoef, poly_cons, poly_nil, List.zipIdx, List.map]
    have e : (10 : ℝ) ^ (log10 2 + log10 d * (-1 + log10 d * 0)) = 2 / d := by
      rw [show log10 2 + log10 d * (-1 + log10 d * 0) = log10 2 + -log10 d by ring, pow10_add, Real.rpow_neg (by norm_num),
        pow10_log10 hpos, pow10_log10 two_pos]
      rfl
    rw [e]
    field_simp
    norm_num
  set I : ℝ := ((linspace (1 : ℝ) 2 500).map (fun d => ((10 : ℝ) + d * 12 / 2 + Real.pi * d ^ 2 / 4) * (2 / d / d))).sum with hI
  have hI32 : 32 ≤ I := by
    have hnn : ∀ x ∈ (linspace (1 : ℝ) 2 500).map (fun d => ((10 : ℝ) + d * 12 / 2 + Real.pi * d ^ 2 / 4) * (2 / d / d)), 0 ≤ x := by
      intro x hx
      obtain ⟨d, hd, rfl⟩ := List.mem_map.1 hx
      obtain ⟨j, hj, rfl⟩ := List.getElem_of_mem hd
      have hpos : (0 : ℝ) < (linspace (1 : ℝ) 2 500)[j] := by
        rw [linspace_getElem]
        positivity
      have := Real.pi_pos
      positivity
    have hmem : ((10 : ℝ) + 1 * 12 / 2 + Real.pi * 1 ^ 2 / 4) * (2 / 1 / 1) ∈
        (linspace (1 : ℝ) 2 500).map (fun d => ((10 : ℝ) + d * 12 / 2 + Real.pi * d ^ 2 / 4) * (2 / d / d)) := by
      refine List.mem_map.2 ⟨1, ?_, rfl⟩
      have : (linspace (1 : ℝ) 2 500)[0]'(by simp) = 1 := linspace_zero _ _ _ _
      have hm := List.getElem_mem (l := linspace (1 : ℝ) 2 500) (n := 0) (by simp)
      rwa [this] at hm
    have := List.single_le_sum hnn _ hmem
    have := Real.pi_pos
    rw [hI]
    linarith
  obtain ⟨p, hp, _⟩ := C23_defined_buffered (initPoly [0, -1] none) c (fun y _ => y.sum) ⟨some [1, 1.5], [], 10, some 12⟩ 1 2 none
    5000 (by norm_num) 0 0 2 hg (log10 2) hN 12 rfl (fun d => 2 / d / d) hF I hI (by linarith) 2
    (by simp [countK]; norm_num) (by push_cast; linarith)
  exact ⟨fun y _ => y.sum, c, p, fun q y d => by simpa using List.sum_map_mul_left y id q, hg, hN1, hp⟩

/-- a fitted age is reported once the data have been fitted -/
theorem fitAge_ok {pf : PFn} {c : Chron} {cf : CurveFit} {pfc : PF} {o : Obj} {k : FitType} {b : Binning}
    {range : EReal × EReal} {resurf : Bool} {ref : ℝ} {pd : PlotData} {fr : FitResult} {v : ℝ}
    (h1 : (o.getplotdata (k.args b range resurf pfc)).2 = .ok pd)
    (h2 : pf.fit cf (k.args b range resurf pfc).pr pd.points = .ok fr) (h3 : densityAt pf ref [fr.best] = .ok v) :
    ∃ r, fitAge pf c cf pfc o k b range resurf ref = .ok r ∧ r.a0 = fr := by
  simp only [fitAge, h1, h2, h3, except_ok_bind, Chron.t]
  exact ⟨_, rfl, rfl⟩

/-- a cumulative fit to a count with one bin -/
example : ∃ c r, GoodChron c 0 0 2 ∧
    fitAge (initPoly [0, -1] none) c (fun _ _ _ _ => .ok 1) ⟨fun _ => 1, fun _ _ => 1, fun _ => 1⟩
      ⟨[], 10, true, some .none, [⟨1, 2, 1, 1.5, 4, 4, 4, 4⟩]⟩ .cFit .none (0, ⊤) false 1 = .ok r ∧ r.a0.best ≠ 0 := by
  obtain ⟨c, hg, hN, _⟩ := age_example (fun _ _ => 0) none
  have hpt : point .cumulative 10 0 (some fun _ => 1) ⟨1, 2, 1, 1.5, 4, 4, 4, 4⟩ = .ok ⟨1, 4 / 10 + 0, (4 / 10 + 0) / Real.sqrt 4⟩ := by
    have h1 : fdiv 4 10 = .ok (4 / 10) := by simp [fdiv]
    have h2 : errBar (4 / 10 + 0) 4 = .ok ((4 / 10 + 0) / Real.sqrt 4) := by
      unfold errBar; rw [if_neg (by norm_num)]
    simp only [point, h1, except_ok_bind, h2]
  have hk : (nonEmpty [⟨1, 2, 1, 1.5, 4, 4, 4, 4⟩]).filter (inRange (0, ⊤) false) = [⟨1, 2, 1, 1.5, 4, 4, 4, 4⟩] := by
    have h3 : ((0 : EReal) < ((1.5 : ℝ) : EReal)) := by exact_mod_cast (by norm_num : (0 : ℝ) < 1.5)
    simp [nonEmpty, inRange, h3, EReal.coe_lt_top]
  have hbr : binRangeOf .none [⟨1, 2, 1, 1.5, 4, 4, 4, 4⟩] (0, ⊤) false = .ok (((1 : ℝ) : EReal), ((2 : ℝ) : EReal)) := by
    simp [binRangeOf]
  have hpd : plotData .cumulative .none [⟨1, 2, 1, 1.5, 4, 4, 4, 4⟩] 10 0 (some fun _ => 1) (some (0, ⊤)) false false =
      .ok ⟨[⟨1, 4 / 10 + 0, (4 / 10 + 0) / Real.sqrt 4⟩], 4, 4, (((1 : ℝ) : EReal), ((2 : ℝ) : EReal))⟩ := by
    simp only [plotData, hk, List.mapM_cons, List.mapM_nil, hpt, except_ok_bind, hbr, pure, Except.pure]
    simp
  have hfit : (initPoly [0, -1] none).fit (fun _ _ _ _ => .ok 1) .cumulative [⟨1, 4 / 10 + 0, (4 / 10 + 0) / Real.sqrt 4⟩] = .ok
      ⟨1 - 0, do
            let l ← log10E (4 / 10 + 0 - 0.98 * ((4 / 10 + 0) / Real.sqrt 4))
            .ok (1 - (log10 (4 / 10 + 0) - l)), do
            let l ← log10E (4 / 10 + 0 + 0.98 * ((4 / 10 + 0) / Real.sqrt 4))
            .ok (1 - (log10 (4 / 10 + 0) - l))⟩ := by
    have h4 : (0 : ℝ) < 4 / 10 + 0 := by norm_num
    simp only [PFn.fit, fitData, List.mapM_cons, List.mapM_nil, except_ok_bind, sigmaOf, if_pos h4, log10E_pos h4,
      log10E_pos one_pos, pure, Except.pure]
  have hev : densityAt (initPoly [0, -1] none) 1 [(1 : ℝ) - 0] = .ok ((10 : ℝ) ^ (1 - 0 : ℝ)) := by
    simp only [densityAt]
    rw [(C18_evaluate_partial _ .cumulative 1).1 (1 - 0) _ (by norm_num) rfl, C16_at_1km _ (Or.inl ⟨_, _, rfl⟩)]
  obtain ⟨r, hr, ha⟩ := fitAge_ok (c := c) (k := .cFit) (b := .none) (range := (0, ⊤)) (resurf := false)
    (pfc := ⟨fun _ => 1, fun _ _ => 1, fun _ => 1⟩) (o := ⟨[], 10, true, some .none, [⟨1, 2, 1, 1.5, 4, 4, 4, 4⟩]⟩) hpd hfit hev
  exact ⟨c, r, hg, hr, by rw [ha]; norm_num⟩

end

end Verif.Props
