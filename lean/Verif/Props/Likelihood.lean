import Verif.Model.Craterpdf
import Verif.Lemmas.Likelihood
import Verif.Props.Chronology
import Verif.Props.Isochron

/-! C23-C26, C70: the age likelihood. -/

namespace Verif.Props
open Verif.Cratercount Verif.Py Verif.Production Verif.Chronology Verif.Craterpdf

noncomputable section

attribute [local irreducible] linspace

/-- a constructed chronology with non-negative exponential and positive linear coefficient (all chronologies of
config/functions.txt) -/
def GoodChron (c : Chron) (p0 p1 p3 : ℝ) : Prop :=
  ∃ p, Chronology.init p = .ok c ∧ p[0]? = some p0 ∧ p[1]? = some p1 ∧ p[3]? = some p3 ∧ 0 ≤ p0 ∧ 0 ≤ p1 ∧ 0 < p3

/-- what is left of `__init__` after success -/
structure Built (pf : PFn) (c : Chron) (simpson : Simpson) (cc : Source) (lo hi : ℝ) (k : Option ℝ) (bcc : Bool) (n : ℕ)
    (p : Pdf) (a0 s : ℝ) (pm ph w : List ℝ) : Prop where
  a0_ok : c.a0 1 = .ok a0
  k_eq : p.k = countK k cc lo hi
  ts_eq : p.ts = (linspace (-10) 5 n).map (fun e => interp c.n1s c.ts ((10 : ℝ) ^ (a0 + e)))
  dt_eq : steps p.ts = .ok p.dt
  lam_eq : lams pf simpson cc lo hi a0 bcc (linspace (-10) 5 n) = .ok p.lam
  pm_eq : p.lam.mapM (poissonPmf p.k) = .ok pm
  ph_eq : p.ts.mapM c.phi = .ok ph
  w_eq : forcePeak (List.zipWith (· * ·) pm ph) p.lam p.k = .ok w
  s_eq : s = (List.zipWith (· * ·) w p.dt).sum
  s_ne : s ≠ 0
  pdf_eq : p.pdf = w.map (fun e => e / s)
  cdf_eq : p.cdf = cumsum (List.zipWith (· * ·) p.pdf p.dt)

theorem mapM_pure_ok {α β : Type} (l : List α) (f : α → β) :
    l.mapM (fun x => (Except.ok (f x) : Except Err β)) = .ok (l.map f) := by
  induction l with
  | nil => rfl
  | cons x l ih => simp only [List.mapM_cons, ih, except_ok_bind, List.map_cons]; rfl

theorem built {pf : PFn} {c : Chron} {simpson : Simpson} {cc : Source} {lo hi : ℝ} {k : Option ℝ} {bcc : Bool} {n : ℕ}
    {p : Pdf} (h : Craterpdf.init pf c simpson cc lo hi k none bcc n = .ok p) :
    ∃ a0 s pm ph w, Built pf c simpson cc lo hi k bcc n p a0 s pm ph w := by
  unfold Craterpdf.init at h
  obtain ⟨a0, h1, h⟩ := except_bind_eq_ok h
  simp only [Chron.t, mapM_pure_ok, except_ok_bind, lamMissing, if_true] at h
  obtain ⟨dt, h2, h⟩ := except_bind_eq_ok h
  obtain ⟨lam, h3, h⟩ := except_bind_eq_ok h
  unfold finish at h
  obtain ⟨pm, h4, h⟩ := except_bind_eq_ok h
  obtain ⟨ph, h5, h⟩ := except_bind_eq_ok h
  obtain ⟨w, h6, h⟩ := except_bind_eq_ok h
  simp only at h
  split at h
  · cases h
  · next hs =>
    injection h with h
    subst h
    exact ⟨a0, _, pm, ph, w, h1, rfl, rfl, h2, h3, h4, h5, h6, rfl, hs, rfl, rfl⟩

theorem steps_ok {ts dt : List ℝ} (h : steps ts = .ok dt) :
    2 ≤ ts.length ∧ dt.length = ts.length ∧
    (∀ i (h1 : i + 1 < ts.length) (h2 : i + 1 < dt.length), dt[i + 1] = ts[i + 1] - ts[i]) ∧
    (∀ (h1 : 0 < dt.length) (h2 : 1 < dt.length), dt[0] = dt[1]) := by
  match ts, h with
  | [], h => simp [steps] at h
  | [x], h => simp [steps] at h
  | x :: y :: l, h =>
    simp only [steps, List.tail_cons, List.zipWith_cons_cons] at h
    injection h with h
    subst h
    refine ⟨by simp, by simp, ?_, ?_⟩
    · intro i h1 h2
      cases i with
      | zero => simp
      | succ i =>
        simp only [List.getElem_cons_succ]
        have hi : i < l.length := by simp at h1; omega
        rw [List.getElem_zipWith]
    · intro h1 h2
      simp

theorem steps_nonneg {ts dt : List ℝ} (h : steps ts = .ok dt) (hs : ts.Pairwise (· ≤ ·)) : ∀ x ∈ dt, 0 ≤ x := by
  obtain ⟨h2, hl, h3, h4⟩ := steps_ok h
  intro x hx
  obtain ⟨i, hi, rfl⟩ := List.getElem_of_mem hx
  cases i with
  | zero =>
    rw [h4 hi (by omega), h3 0 (by omega) (by omega)]
    have := getElem_mono hs (i := 0) (j := 1) (by omega) (by omega)
    linarith
  | succ i =>
    rw [h3 i (by omega) hi]
    have := getElem_mono hs (i := i) (j := i + 1) (by omega) (by omega)
    linarith

theorem poissonPmf_nat (n : ℕ) {l : ℝ} (hl : 0 ≤ l) :
    poissonPmf n l = .ok (l ^ n * Real.exp (-l) / (n.factorial : ℝ)) := by
  have hex : ∃ m : ℕ, (n : ℝ) = m := ⟨n, rfl⟩
  have hch : hex.choose = n := by
    have := hex.choose_spec
    exact_mod_cast this.symm
  unfold poissonPmf
  rw [if_neg (not_lt.2 hl), dif_pos hex, hch]

theorem poissonPmf_ok {k l v : ℝ} (h : poissonPmf k l = .ok v) :
    0 ≤ l ∧ 0 ≤ v ∧ ∀ n : ℕ, k = n → v = l ^ n * Real.exp (-l) / (n.factorial : ℝ) := by
  have hl : 0 ≤ l := by
    by_contra hl
    simp only [poissonPmf, if_pos (not_le.1 hl)] at h
    cases h
  refine ⟨hl, ?_, ?_⟩
  · by_cases hex : ∃ n : ℕ, k = n
    · obtain ⟨n, rfl⟩ := hex
      rw [poissonPmf_nat n hl] at h
      injection h with h
      rw [← h]
      positivity
    · simp only [poissonPmf, if_neg (not_lt.2 hl), dif_neg hex] at h
      injection h with h
      rw [← h]
  · rintro n rfl
    rw [poissonPmf_nat n hl] at h
    injection h with h
    exact h.symm

section
variable {pf : PFn} {c : Chron} {simpson : Simpson} {cc : Source} {lo hi : ℝ} {k : Option ℝ} {bcc : Bool} {n : ℕ}
  {p : Pdf} {a0 s : ℝ} {pm ph w : List ℝ} {p0 p1 p3 : ℝ}

theorem Built.tables (hc : GoodChron c p0 p1 p3) :
    (∀ t, c.phi t = .ok (phiCoeff p0 p1 p3 t)) ∧ (∀ t, c.N1 t = .ok (n1Coeff p0 p1 p3 t)) ∧ c.ts = linspace 0 5 1000 ∧
      c.n1s = (linspace 0 5 1000).map (n1Coeff p0 p1 p3) := by
  obtain ⟨q, hq, e0, e1, e3, h0, h1, h3⟩ := hc
  obtain ⟨a, b, d⟩ := init_tables hq e0 e1 e3
  have e := coeffs_ok e0 e1 e3
  exact ⟨fun t => by simp only [Chron.phi, a, e, except_ok_bind], fun t => by simp only [Chron.N1, a, e, except_ok_bind], b, d⟩

theorem Built.a0_val (hc : GoodChron c p0 p1 p3) (b : Built pf c simpson cc lo hi k bcc n p a0 s pm ph w) :
    0 < n1Coeff p0 p1 p3 1 ∧ a0 = log10 (n1Coeff p0 p1 p3 1) := by
  have h := b.a0_ok
  simp only [Chron.a0, (Built.tables hc).2.1, except_ok_bind] at h
  split at h
  · next h1 => injection h with h; exact ⟨h1, h.symm⟩
  · cases h

/-- the sampled ages: n of them, non-decreasing, in [0,5] -/
theorem Built.ts_props (hc : GoodChron c p0 p1 p3) (b : Built pf c simpson cc lo hi k bcc n p a0 s pm ph w) :
    p.ts.length = n ∧ p.ts.Pairwise (· ≤ ·) ∧ ∀ t ∈ p.ts, 0 ≤ t ∧ t ≤ 5 := by
  obtain ⟨q, hq, e0, e1, e3, h0, h1, h3⟩ := hc
  obtain ⟨age, a1, a2, a3, a4, _⟩ := C15_age_inversion q c hq p0 p1 p3 e0 e1 e3 h0 h1 h3
  have hage : ∀ e, interp c.n1s c.ts ((10 : ℝ) ^ (a0 + e)) = age ((10 : ℝ) ^ (a0 + e)) := by
    intro e
    have := a2 (a0 + e) none
    simp only [Chron.t] at this
    injection this
  rw [b.ts_eq]
  refine ⟨by simp, ?_, ?_⟩
  · refine List.Pairwise.map _ ?_ (linspace_mono n (by norm_num : (-10 : ℝ) ≤ 5))
    intro x y hxy
    rw [hage, hage]
    exact a4 (pow10_le.2 (by linarith))
  · intro t ht
    obtain ⟨e, _, rfl⟩ := List.mem_map.1 ht
    rw [hage]
    exact a3 _

theorem lams_length {x lam : List ℝ} (h : lams pf simpson cc lo hi a0 bcc x = .ok lam) : lam.length = x.length := by
  unfold lams at h
  split at h
  · split at h
    · cases h
    · obtain ⟨f, _, h⟩ := except_bind_eq_ok h
      simp only at h
      obtain ⟨l, _, h⟩ := except_bind_eq_ok h
      injection h with h
      rw [← h]; simp
  · obtain ⟨c0, _, h⟩ := except_bind_eq_ok h
    obtain ⟨c1, _, h⟩ := except_bind_eq_ok h
    obtain ⟨n0, _, h⟩ := except_bind_eq_ok h
    obtain ⟨n1, _, h⟩ := except_bind_eq_ok h
    injection h with h
    rw [← h]; simp

theorem forcePeak_ok {l lam : List ℝ} {k : ℝ} {w : List ℝ} (h : forcePeak l lam k = .ok w) :
    w.length = l.length ∧ ((∀ x ∈ l, 0 ≤ x) → ∀ x ∈ w, 0 ≤ x) ∧ (1e-30 ≤ l.sum → w = l) := by
  unfold forcePeak at h
  split at h
  · next hs =>
    split at h
    · injection h with h
      subst h
      refine ⟨by simp, ?_, fun hh => absurd hs (not_lt.2 hh)⟩
      intro hl x hx
      rcases List.mem_or_eq_of_mem_set hx with hx | rfl
      · exact hl x hx
      · norm_num
    · cases h
  · injection h with h
    subst h
    exact ⟨rfl, fun h => h, fun _ => rfl⟩

/-- lengths and signs of all columns -/
theorem Built.props (hc : GoodChron c p0 p1 p3) (b : Built pf c simpson cc lo hi k bcc n p a0 s pm ph w) :
    2 ≤ n ∧ p.dt.length = n ∧ p.lam.length = n ∧ pm.length = n ∧ ph.length = n ∧ w.length = n ∧ p.pdf.length = n ∧
    p.cdf.length = n ∧ (∀ x ∈ p.dt, 0 ≤ x) ∧ (∀ x ∈ w, 0 ≤ x) ∧ 0 < s ∧
    ph = p.ts.map (phiCoeff p0 p1 p3) := by
  obtain ⟨t1, t2, t3⟩ := b.ts_props hc
  obtain ⟨s1, s2, _, _⟩ := steps_ok b.dt_eq
  have hlam := lams_length b.lam_eq
  rw [linspace_length] at hlam
  obtain ⟨m1, m2⟩ := mapM_length b.pm_eq
  have hph : ph = p.ts.map (phiCoeff p0 p1 p3) := by
    have := b.ph_eq
    have hfun : c.phi = fun t => .ok (phiCoeff p0 p1 p3 t) := funext (Built.tables hc).1
    rw [hfun, mapM_pure_ok] at this
    injection this with this
    exact this.symm
  obtain ⟨f1, f2, _⟩ := forcePeak_ok b.w_eq
  have hphl : ph.length = n := by rw [hph]; simp [t1]
  have hw : w.length = n := by rw [f1]; simp [m1, hlam, hphl]
  have hdt : p.dt.length = n := by omega
  have hd0 := steps_nonneg b.dt_eq t2
  obtain ⟨q, hq, e0, e1, e3, h0, h1, h3⟩ := hc
  have hw0 : ∀ x ∈ w, 0 ≤ x := by
    apply f2
    intro x hx
    obtain ⟨i, hi, rfl⟩ := List.getElem_of_mem hx
    rw [List.getElem_zipWith]
    have hi' : i < n := by simp at hi; omega
    apply mul_nonneg
    · exact (poissonPmf_ok (m2 i (by omega) (by omega))).2.1
    · simp only [hph, List.getElem_map]
      exact (phi_pos h0 h1 h3 _).le
  have hs0 : 0 ≤ s := by
    rw [b.s_eq]
    apply List.sum_nonneg
    intro x hx
    obtain ⟨i, hi, rfl⟩ := List.getElem_of_mem hx
    rw [List.getElem_zipWith]
    exact mul_nonneg (hw0 _ (List.getElem_mem _)) (hd0 _ (List.getElem_mem _))
  have hpdf : p.pdf.length = n := by rw [b.pdf_eq]; simp [hw]
  have hcdf : p.cdf.length = n := by rw [b.cdf_eq]; simp [hpdf, hdt]
  exact ⟨by omega, hdt, hlam, by omega, hphl, hw, hpdf, hcdf, hd0, hw0, lt_of_le_of_ne hs0 (Ne.symm b.s_ne), hph⟩

/-- cumulative fractions as prefix sums -/
theorem Built.cdf_get (hc : GoodChron c p0 p1 p3) (b : Built pf c simpson cc lo hi k bcc n p a0 s pm ph w) (j : ℕ)
    (hj : j < p.cdf.length) :
    p.cdf[j] = (∑ i ∈ Finset.range (j + 1), w.getD i 0 * p.dt.getD i 0) / s ∧
    s = ∑ i ∈ Finset.range n, w.getD i 0 * p.dt.getD i 0 := by
  obtain ⟨_, d1, _, _, _, d2, d3, d4, _, _, _, _⟩ := b.props hc
  have hz : ∀ i, i < n → (List.zipWith (fun x1 x2 => x1 * x2) w p.dt).getD i 0 = w.getD i 0 * p.dt.getD i 0 := by
    intro i hi
    rw [List.getD_eq_getElem _ _ (by simp; omega), List.getD_eq_getElem _ _ (by omega), List.getD_eq_getElem _ _ (by omega),
      List.getElem_zipWith]
  constructor
  · have e : p.cdf[j] = (cumsum (List.zipWith (· * ·) p.pdf p.dt))[j]'(by rw [← b.cdf_eq]; exact hj) := by
      simp only [b.cdf_eq]
    rw [e, cumsum_getElem, sum_take_eq_range, Finset.sum_div]
    apply Finset.sum_congr rfl
    intro i hi
    have hi : i < n := by have := Finset.mem_range.1 hi; omega
    rw [List.getD_eq_getElem _ _ (by simp; omega), List.getElem_zipWith, List.getD_eq_getElem _ _ (by omega),
      List.getD_eq_getElem _ _ (by omega)]
    simp only [b.pdf_eq, List.getElem_map]
    ring
  · rw [b.s_eq, sum_eq_range]
    have : (List.zipWith (fun x1 x2 => x1 * x2) w p.dt).length = n := by simp; omega
    rw [this]
    exact Finset.sum_congr rfl (fun i hi => hz i (Finset.mem_range.1 hi))

end

/-- **C23.** Every constructed age likelihood is a probability distribution on n sampled ages between 0 and 5 Ga: the
density is non-negative, density times step sums to 1, the cumulative fraction is its running sum, non-decreasing,
between 0 and 1, and ends at 1. -/
theorem C23_likelihood (pf : PFn) (c : Chron) (simpson : Simpson) (cc : Source) (lo hi : ℝ) (k : Option ℝ) (bcc : Bool)
    (n : ℕ) (p0 p1 p3 : ℝ) (hc : GoodChron c p0 p1 p3) (p : Pdf)
    (h : Craterpdf.init pf c simpson cc lo hi k none bcc n = .ok p) :
    p.ts.length = n ∧ p.dt.length = n ∧ p.pdf.length = n ∧ p.cdf.length = n ∧
    p.ts.Pairwise (· ≤ ·) ∧ (∀ t ∈ p.ts, 0 ≤ t ∧ t ≤ 5) ∧
    (∀ x ∈ p.dt, 0 ≤ x) ∧ (∀ y ∈ p.pdf, 0 ≤ y) ∧ (List.zipWith (· * ·) p.pdf p.dt).sum = 1 ∧
    (∀ (j : ℕ) v, p.cdf[j]? = some v → v = ((List.zipWith (· * ·) p.pdf p.dt).take (j + 1)).sum) ∧
    p.cdf.Pairwise (· ≤ ·) ∧ (∀ v ∈ p.cdf, 0 ≤ v ∧ v ≤ 1) ∧ p.cdf[n - 1]? = some 1 := by
  obtain ⟨a0, s, pm, ph, w, b⟩ := built h
  obtain ⟨t1, t2, t3⟩ := b.ts_props hc
  obtain ⟨hn, d1, _, _, _, d2, d3, d4, d5, d6, d7, _⟩ := b.props hc
  have hnn : ∀ i, 0 ≤ w.getD i 0 * p.dt.getD i 0 := by
    intro i
    apply mul_nonneg
    · rw [List.getD_eq_getElem?_getD]
      cases hw : w[i]? with
      | none => simp
      | some v => exact d6 _ (List.mem_of_getElem? hw)
    · rw [List.getD_eq_getElem?_getD]
      cases hw : p.dt[i]? with
      | none => simp
      | some v => exact d5 _ (List.mem_of_getElem? hw)
  have hs := (b.cdf_get hc 0 (by omega)).2
  have hmono : ∀ i j, i ≤ j → (∑ i ∈ Finset.range i, w.getD i 0 * p.dt.getD i 0) ≤
      ∑ i ∈ Finset.range j, w.getD i 0 * p.dt.getD i 0 := by
    intro i j hij
    exact Finset.sum_le_sum_of_subset_of_nonneg (Finset.range_mono hij) (fun x _ _ => hnn x)
  have hlast : p.cdf[n - 1]'(by omega) = 1 := by
    rw [(b.cdf_get hc (n - 1) (by omega)).1]
    have : n - 1 + 1 = n := by omega
    rw [this, ← hs, div_self d7.ne']
  have hsorted : p.cdf.Pairwise (· ≤ ·) := by
    rw [List.pairwise_iff_getElem]
    intro i j hi hj hij
    rw [(b.cdf_get hc i hi).1, (b.cdf_get hc j hj).1]
    exact div_le_div_of_nonneg_right (hmono _ _ (by omega)) d7.le
  refine ⟨t1, d1, d3, d4, t2, t3, d5, ?_, ?_, ?_, hsorted, ?_, ?_⟩
  · intro y hy
    rw [b.pdf_eq] at hy
    obtain ⟨e, he, rfl⟩ := List.mem_map.1 hy
    exact div_nonneg (d6 _ he) d7.le
  · have hl := hlast
    simp only [b.cdf_eq] at hl
    rw [cumsum_getElem] at hl
    have : n - 1 + 1 = n := by omega
    rw [this, List.take_of_length_le (by simp; omega)] at hl
    exact hl
  · intro j v hv
    obtain ⟨hj, rfl⟩ := List.getElem?_eq_some_iff.1 hv
    have hj' := hj
    simp only [b.cdf_eq] at hj' ⊢
    rw [cumsum_getElem]
  · intro v hv
    obtain ⟨j, hj, rfl⟩ := List.getElem_of_mem hv
    constructor
    · rw [(b.cdf_get hc j hj).1]
      exact div_nonneg (Finset.sum_nonneg (fun i _ => hnn i)) d7.le
    · rw [← hlast]
      exact getElem_mono hsorted (by omega) (by omega)
  · rw [List.getElem?_eq_getElem (by omega), hlast]

/-- total of the likelihood before normalisation, for a whole number of craters -/
def rawMass (p0 p1 p3 : ℝ) (m : ℕ) (p : Pdf) : ℝ :=
  (List.zipWith (fun l t => l ^ m * Real.exp (-l) / (m.factorial : ℝ) * phiCoeff p0 p1 p3 t) p.lam p.ts).sum

theorem Built.raw {pf : PFn} {c : Chron} {simpson : Simpson} {cc : Source} {lo hi : ℝ} {k : Option ℝ} {bcc : Bool} {n : ℕ}
    {p : Pdf} {a0 s : ℝ} {pm ph w : List ℝ} {p0 p1 p3 : ℝ} (hc : GoodChron c p0 p1 p3)
    (b : Built pf c simpson cc lo hi k bcc n p a0 s pm ph w) (m : ℕ) (hm : p.k = m) :
    List.zipWith (· * ·) pm ph =
      List.zipWith (fun l t => l ^ m * Real.exp (-l) / (m.factorial : ℝ) * phiCoeff p0 p1 p3 t) p.lam p.ts := by
  obtain ⟨t1, _, _⟩ := b.ts_props hc
  obtain ⟨hn, d1, dl, dm, dp, d2, d3, d4, d5, d6, d7, hph⟩ := b.props hc
  obtain ⟨_, m2⟩ := mapM_length b.pm_eq
  apply List.ext_getElem
  · simp; omega
  · intro i h1 h2
    have hi : i < n := by simp at h1; omega
    rw [List.getElem_zipWith, List.getElem_zipWith]
    have := (poissonPmf_ok (m2 i (by omega) (by omega))).2.2 m hm
    rw [this]
    simp only [hph, List.getElem_map]

/-- **C23, shape.** Unless the whole curve is numerically zero (the raw likelihood sums to less than 1e-30), the density
is proportional to the Poisson probability of the count times the impact rate. -/
theorem C23_shape (pf : PFn) (c : Chron) (simpson : Simpson) (cc : Source) (lo hi : ℝ) (k : Option ℝ) (bcc : Bool)
    (n : ℕ) (p0 p1 p3 : ℝ) (hc : GoodChron c p0 p1 p3) (p : Pdf)
    (h : Craterpdf.init pf c simpson cc lo hi k none bcc n = .ok p) (m : ℕ) (hm : p.k = m)
    (hraw : 1e-30 ≤ rawMass p0 p1 p3 m p) :
    ∃ z, 0 < z ∧ ∀ (i : ℕ) l t y, p.lam[i]? = some l → p.ts[i]? = some t → p.pdf[i]? = some y →
      y = z * (l ^ m * Real.exp (-l) / (m.factorial : ℝ)) * phiCoeff p0 p1 p3 t := by
  obtain ⟨a0, s, pm, ph, w, b⟩ := built h
  obtain ⟨hn, d1, dl, dm, dp, d2, d3, d4, d5, d6, d7, hph⟩ := b.props hc
  have hr := b.raw hc m hm
  have hw := (forcePeak_ok b.w_eq).2.2 (by rw [hr]; exact hraw)
  refine ⟨1 / s, by positivity, ?_⟩
  intro i l t y hl ht hy
  rw [b.pdf_eq, List.getElem?_map, hw, hr, List.getElem?_zipWith, hl, ht] at hy
  simp only [Option.map_some, Option.some.injEq] at hy
  rw [← hy]
  ring

/-- **C24.** Ages for percentiles are monotone in the percentile and lie in [0,5] Ga. -/
theorem C24_percentiles_ordered (pf : PFn) (c : Chron) (simpson : Simpson) (cc : Source) (lo hi : ℝ) (k : Option ℝ)
    (bcc : Bool) (n : ℕ) (p0 p1 p3 : ℝ) (hc : GoodChron c p0 p1 p3) (p : Pdf)
    (h : Craterpdf.init pf c simpson cc lo hi k none bcc n = .ok p) :
    (∀ q, 0 ≤ p.t q ∧ p.t q ≤ 5) ∧ (∀ q q', q ≤ q' → p.t q ≤ p.t q') ∧
    (∀ t t', t ≤ t' → p.cumulativeFraction t ≤ p.cumulativeFraction t') ∧
    (∀ t, 0 ≤ p.cumulativeFraction t ∧ p.cumulativeFraction t ≤ 1) := by
  obtain ⟨c1, c2, c3, c4, c5, c6, _, _, _, _, c7, c8, _⟩ := C23_likelihood pf c simpson cc lo hi k bcc n p0 p1 p3 hc p h
  obtain ⟨a0, s, pm, ph, w, b⟩ := built h
  obtain ⟨hn, _⟩ := b.props hc
  refine ⟨?_, ?_, ?_, ?_⟩
  · intro q
    have := interp_mem_range p.cdf p.ts c7 c5 (by omega) (by omega) q
    exact ⟨(c6 _ (List.getElem_mem _)).1.trans this.1, this.2.trans (c6 _ (List.getElem_mem _)).2⟩
  · intro q q' hqq
    exact interp_mono p.cdf p.ts c7 c5 (by omega) (by omega) hqq
  · intro q q' hqq
    exact interp_mono p.ts p.cdf c5 c7 (by omega) (by omega) hqq
  · intro q
    have := interp_mem_range p.ts p.cdf c5 c7 (by omega) (by omega) q
    exact ⟨(c8 _ (List.getElem_mem _)).1.trans this.1, this.2.trans (c8 _ (List.getElem_mem _)).2⟩

/-- ordering of the percentile ages from a monotone likelihood ratio -/
theorem t_le_of_ratio (p p' : Pdf) (n : ℕ) (u u' : ℕ → ℝ) (r : ℕ → ℝ) (s s' : ℝ) (hs : 0 < s) (hs' : 0 < s')
    (hts : p'.ts = p.ts) (hsort : p.ts.Pairwise (· ≤ ·)) (htl : p.ts.length = n) (hn : 0 < n)
    (hc : p.cdf.Pairwise (· ≤ ·)) (hc' : p'.cdf.Pairwise (· ≤ ·)) (hcl : p.cdf.length = n) (hcl' : p'.cdf.length = n)
    (h1 : ∀ j (hj : j < p.cdf.length), p.cdf[j] = (∑ i ∈ Finset.range (j + 1), u i) / s)
    (h1' : ∀ j (hj : j < p'.cdf.length), p'.cdf[j] = (∑ i ∈ Finset.range (j + 1), u' i) / s')
    (h2 : s = ∑ i ∈ Finset.range n, u i) (h2' : s' = ∑ i ∈ Finset.range n, u' i)
    (hu : ∀ i < n, 0 ≤ u i) (hr : ∀ i < n, u' i = u i * r i) (hrm : ∀ i k, i ≤ k → k < n → r i ≤ r k) (q : ℝ) :
    p.t q ≤ p'.t q := by
  unfold Pdf.t
  rw [hts]
  apply interp_anti_xp p.cdf p'.cdf p.ts hc hc' hsort (by omega) (by omega) (by omega)
  intro j hj
  rw [h1 j (by omega), h1' j (by omega), div_le_div_iff₀ hs' hs]
  have := mlr_prefix u r n (j + 1) (by omega) hu hrm
  have e1 : ∑ i ∈ Finset.range (j + 1), u' i = ∑ i ∈ Finset.range (j + 1), u i * r i :=
    Finset.sum_congr rfl (fun i hi => hr i (by have := Finset.mem_range.1 hi; omega))
  have e2 : ∑ i ∈ Finset.range n, u' i = ∑ i ∈ Finset.range n, u i * r i :=
    Finset.sum_congr rfl (fun i hi => hr i (Finset.mem_range.1 hi))
  rw [h2, h2', e1, e2]
  exact this

theorem lams_form {pf : PFn} {simpson : Simpson} {cc : Source} {lo hi a0 : ℝ} {bcc : Bool} {x lam : List ℝ}
    (h : lams pf simpson cc lo hi a0 bcc x = .ok lam) : ∃ K, lam = x.map (fun e => (10 : ℝ) ^ e * K) := by
  unfold lams at h
  split at h
  · split at h
    · cases h
    · obtain ⟨f, _, h⟩ := except_bind_eq_ok h
      simp only at h
      obtain ⟨l, _, h⟩ := except_bind_eq_ok h
      injection h with h
      refine ⟨(10 : ℝ) ^ l, ?_⟩
      rw [← h]
      apply List.map_congr_left
      intro e _
      rw [pow10_add, mul_comm]
  · obtain ⟨c0, _, h⟩ := except_bind_eq_ok h
    obtain ⟨c1, _, h⟩ := except_bind_eq_ok h
    obtain ⟨n0, _, h⟩ := except_bind_eq_ok h
    obtain ⟨n1, _, h⟩ := except_bind_eq_ok h
    injection h with h
    refine ⟨((10 : ℝ) ^ n0 - (10 : ℝ) ^ n1) * cc.area, ?_⟩
    rw [← h]
    apply List.map_congr_left
    intro e _
    rw [pow10_add, pow10_add]
    ring

theorem lams_std (pf : PFn) (simpson : Simpson) (lo hi a0 : ℝ) :
    ∃ κ : ℝ, ∀ (cc : Source) (x lam : List ℝ), lams pf simpson cc lo hi a0 false x = .ok lam →
      lam = x.map (fun e => (10 : ℝ) ^ e * (κ * cc.area)) := by
  cases h0 : pf.evaluate .cumulative lo (some a0) with
  | error e => exact ⟨0, fun cc x lam h => by simp [lams, h0] at h⟩
  | ok c0 =>
    cases h1 : pf.evaluate .cumulative hi (some a0) with
    | error e => exact ⟨0, fun cc x lam h => by simp [lams, h0, h1] at h⟩
    | ok c1 =>
      refine ⟨c0 - c1, ?_⟩
      intro cc x lam h
      simp only [lams, Bool.false_eq_true, if_false, h0, h1, except_ok_bind] at h
      obtain ⟨n0, g0, h⟩ := except_bind_eq_ok h
      obtain ⟨n1, g1, h⟩ := except_bind_eq_ok h
      obtain ⟨q0, rfl⟩ := log10E_ok.1 g0
      obtain ⟨q1, rfl⟩ := log10E_ok.1 g1
      injection h with h
      rw [← h]
      apply List.map_congr_left
      intro e _
      rw [pow10_add, pow10_add, pow10_log10 q0, pow10_log10 q1]
      ring

theorem lams_congr {pf : PFn} {simpson : Simpson} {cc cc' : Source} {lo hi a0 : ℝ} {bcc : Bool} {x : List ℝ}
    (ha : cc.area = cc'.area) (hp : cc.perimeter = cc'.perimeter) :
    lams pf simpson cc lo hi a0 bcc x = lams pf simpson cc' lo hi a0 bcc x := by
  unfold lams
  rw [ha, hp]

section
variable {pf : PFn} {c : Chron} {simpson : Simpson} {cc : Source} {lo hi : ℝ} {k : Option ℝ} {bcc : Bool} {n : ℕ}
  {p : Pdf} {a0 s : ℝ} {pm ph w : List ℝ} {p0 p1 p3 : ℝ}

/-- expected numbers are non-negative and non-decreasing -/
theorem Built.lam_props (hc : GoodChron c p0 p1 p3) (b : Built pf c simpson cc lo hi k bcc n p a0 s pm ph w) :
    (∀ i (h : i < p.lam.length), 0 ≤ p.lam[i]) ∧ p.lam.Pairwise (· ≤ ·) := by
  obtain ⟨hn, d1, dl, dm, _⟩ := b.props hc
  obtain ⟨_, m2⟩ := mapM_length b.pm_eq
  have hnn : ∀ i (h : i < p.lam.length), 0 ≤ p.lam[i] := fun i h => (poissonPmf_ok (m2 i h (by omega))).1
  refine ⟨hnn, ?_⟩
  obtain ⟨K, hK⟩ := lams_form b.lam_eq
  have hK0 : 0 ≤ K := by
    have := hnn 0 (by omega)
    simp only [hK, List.getElem_map] at this
    exact nonneg_of_mul_nonneg_right this (pow10_pos _)
  rw [hK]
  refine List.Pairwise.map _ ?_ (linspace_mono n (by norm_num : (-10 : ℝ) ≤ 5))
  intro x y hxy
  exact mul_le_mul_of_nonneg_right (pow10_le.2 hxy) hK0

/-- unnormalised weights for a resolved likelihood -/
theorem Built.weight (hc : GoodChron c p0 p1 p3) (b : Built pf c simpson cc lo hi k bcc n p a0 s pm ph w) (m : ℕ)
    (hm : p.k = m) (hraw : 1e-30 ≤ rawMass p0 p1 p3 m p) (i : ℕ) (hi : i < n) :
    w.getD i 0 = p.lam.getD i 0 ^ m * Real.exp (-(p.lam.getD i 0)) / (m.factorial : ℝ) * phiCoeff p0 p1 p3 (p.ts.getD i 0) := by
  obtain ⟨t1, _, _⟩ := b.ts_props hc
  obtain ⟨hn, d1, dl, dm, dp, d2, d3, d4, d5, d6, d7, hph⟩ := b.props hc
  have hr := b.raw hc m hm
  have hw := (forcePeak_ok b.w_eq).2.2 (by rw [hr]; exact hraw)
  clear hraw
  rw [hw, hr, List.getD_eq_getElem _ _ (by simp; omega), List.getElem_zipWith, List.getD_eq_getElem _ _ (by omega),
    List.getD_eq_getElem _ _ (by omega)]

end

/-- **C25, count (resolved likelihoods).** With the same functions, range, area and perimeter, a larger crater count never
gives a smaller age at any percentile.  Missing: the case where the whole curve sums to less than 1e-30 and an
artificial peak is inserted. -/
theorem C25_more_craters_partial (pf : PFn) (c : Chron) (simpson : Simpson) (cc cc' : Source) (lo hi : ℝ)
    (k k' : Option ℝ) (bcc : Bool) (n : ℕ) (p0 p1 p3 : ℝ) (hc : GoodChron c p0 p1 p3) (p p' : Pdf)
    (ha : cc.area = cc'.area) (hper : cc.perimeter = cc'.perimeter)
    (h : Craterpdf.init pf c simpson cc lo hi k none bcc n = .ok p)
    (h' : Craterpdf.init pf c simpson cc' lo hi k' none bcc n = .ok p') (m m' : ℕ) (hm : p.k = m) (hm' : p'.k = m')
    (hmm : m ≤ m') (hraw : 1e-30 ≤ rawMass p0 p1 p3 m p) (hraw' : 1e-30 ≤ rawMass p0 p1 p3 m' p') (q : ℝ) :
    p.t q ≤ p'.t q := by
  obtain ⟨_, _, _, c4, _, _, _, _, _, _, c7, _, _⟩ := C23_likelihood pf c simpson cc lo hi k bcc n p0 p1 p3 hc p h
  obtain ⟨_, _, _, c4', _, _, _, _, _, _, c7', _, _⟩ := C23_likelihood pf c simpson cc' lo hi k' bcc n p0 p1 p3 hc p' h'
  obtain ⟨a0, s, pm, ph, w, b⟩ := built h
  obtain ⟨a0', s', pm', ph', w', b'⟩ := built h'
  have W := b.weight hc m hm hraw
  have W' := b'.weight hc m' hm' hraw'
  clear hraw hraw'
  have ea : a0' = a0 := by
    have := b.a0_ok.symm.trans b'.a0_ok
    injection this with this
    exact this.symm
  subst ea
  have ets : p'.ts = p.ts := by rw [b.ts_eq, b'.ts_eq]
  have edt : p'.dt = p.dt := by
    have := b'.dt_eq
    rw [ets, b.dt_eq] at this
    injection this with this
    exact this.symm
  have elam : p'.lam = p.lam := by
    have := b'.lam_eq
    rw [← lams_congr ha hper, b.lam_eq] at this
    injection this with this
    exact this.symm
  obtain ⟨t1, t2, _⟩ := b.ts_props hc
  obtain ⟨hn, d1, dl, _, _, d2, d3, d4, d5, d6, d7, _⟩ := b.props hc
  obtain ⟨_, _, _, _, _, d2', _, _, _, _, d7', _⟩ := b'.props hc
  obtain ⟨l1, l2⟩ := b.lam_props hc
  have hn0 : 0 < n := lt_of_lt_of_le two_pos hn
  have hsum := (b.cdf_get hc 0 (by rw [c4]; exact hn0)).2
  have hsum' := (b'.cdf_get hc 0 (by rw [c4']; exact hn0)).2
  refine t_le_of_ratio p p' n (fun i => w.getD i 0 * p.dt.getD i 0) (fun i => w'.getD i 0 * p'.dt.getD i 0)
    (fun i => p.lam.getD i 0 ^ (m' - m) * ((m.factorial : ℝ) / (m'.factorial : ℝ))) s s' d7 d7' ets t2 t1 hn0
    c7 c7' c4 c4' (fun j hj => (b.cdf_get hc j hj).1) (fun j hj => (b'.cdf_get hc j hj).1)
    hsum hsum' ?_ ?_ ?_ q
  · intro i hi
    have g1 : i < w.length := by rw [d2]; exact hi
    have g2 : i < p.dt.length := by rw [d1]; exact hi
    rw [List.getD_eq_getElem _ _ g1, List.getD_eq_getElem _ _ g2]
    exact mul_nonneg (d6 _ (List.getElem_mem _)) (d5 _ (List.getElem_mem _))
  · intro i hi
    rw [W i hi, W' i hi, elam, ets, edt]
    have hpow : p.lam.getD i 0 ^ m' = p.lam.getD i 0 ^ m * p.lam.getD i 0 ^ (m' - m) := by
      rw [← pow_add]; congr 1; omega
    have f1 : (m.factorial : ℝ) ≠ 0 := by positivity
    have f2 : (m'.factorial : ℝ) ≠ 0 := by positivity
    rw [hpow]
    field_simp
  · intro i j hij hj
    have g1 : i < p.lam.length := by rw [dl]; exact lt_of_le_of_lt hij hj
    have g2 : j < p.lam.length := by rw [dl]; exact hj
    rw [List.getD_eq_getElem _ _ g1, List.getD_eq_getElem _ _ g2]
    apply mul_le_mul_of_nonneg_right _ (by positivity)
    exact pow_le_pow_left₀ (l1 i g1) (getElem_mono l2 hij g2) _

/-- **C25, area (resolved likelihoods, standard count).** With the same count, a larger counting area never gives a larger
age at any percentile. -/
theorem C25_more_area_partial (pf : PFn) (c : Chron) (simpson : Simpson) (cc cc' : Source) (lo hi : ℝ)
    (k k' : Option ℝ) (n : ℕ) (p0 p1 p3 : ℝ) (hc : GoodChron c p0 p1 p3) (p p' : Pdf)
    (ha0 : 0 < cc.area) (ha : cc.area ≤ cc'.area)
    (h : Craterpdf.init pf c simpson cc lo hi k none false n = .ok p)
    (h' : Craterpdf.init pf c simpson cc' lo hi k' none false n = .ok p') (m : ℕ) (hm : p.k = m) (hm' : p'.k = m)
    (hraw : 1e-30 ≤ rawMass p0 p1 p3 m p) (hraw' : 1e-30 ≤ rawMass p0 p1 p3 m p') (q : ℝ) :
    p'.t q ≤ p.t q := by
  obtain ⟨_, _, _, c4, _, _, _, _, _, _, c7, _, _⟩ := C23_likelihood pf c simpson cc lo hi k false n p0 p1 p3 hc p h
  obtain ⟨_, _, _, c4', _, _, _, _, _, _, c7', _, _⟩ := C23_likelihood pf c simpson cc' lo hi k' false n p0 p1 p3 hc p' h'
  obtain ⟨a0, s, pm, ph, w, b⟩ := built h
  obtain ⟨a0', s', pm', ph', w', b'⟩ := built h'
  have W := b.weight hc m hm hraw
  have W' := b'.weight hc m hm' hraw'
  clear hraw hraw'
  have ea : a0' = a0 := by
    have := b.a0_ok.symm.trans b'.a0_ok
    injection this with this
    exact this.symm
  subst ea
  have ets : p'.ts = p.ts := by rw [b.ts_eq, b'.ts_eq]
  have edt : p'.dt = p.dt := by
    have := b'.dt_eq
    rw [ets, b.dt_eq] at this
    injection this with this
    exact this.symm
  obtain ⟨κ, hκ⟩ := lams_std pf simpson lo hi a0'
  have e1 := hκ cc _ _ b.lam_eq
  have e2 := hκ cc' _ _ b'.lam_eq
  obtain ⟨t1, t2, _⟩ := b.ts_props hc
  obtain ⟨hn, d1, dl, _, _, d2, d3, d4, d5, d6, d7, _⟩ := b.props hc
  obtain ⟨_, d1', dl', _, _, d2', _, _, d5', d6', d7', _⟩ := b'.props hc
  obtain ⟨l1, l2⟩ := b.lam_props hc
  have hκ0 : 0 ≤ κ := by
    have := l1 0 (by rw [dl]; exact lt_of_lt_of_le two_pos hn)
    simp only [e1, List.getElem_map] at this
    have := nonneg_of_mul_nonneg_right this (pow10_pos _)
    exact nonneg_of_mul_nonneg_left this ha0
  have ha0' : 0 < cc'.area := lt_of_lt_of_le ha0 ha
  have hl : ∀ i (hi : i < n), p.lam.getD i 0 = (10 : ℝ) ^ ((linspace (-10 : ℝ) 5 n)[i]'(by simp; exact hi)) * (κ * cc.area) ∧
      p'.lam.getD i 0 = (10 : ℝ) ^ ((linspace (-10 : ℝ) 5 n)[i]'(by simp; exact hi)) * (κ * cc'.area) := by
    intro i hi
    rw [List.getD_eq_getElem _ _ (by rw [dl]; exact hi), List.getD_eq_getElem _ _ (by rw [dl']; exact hi)]
    simp only [e1, e2, List.getElem_map, and_self]
  have hn0 : 0 < n := lt_of_lt_of_le two_pos hn
  have hsum := (b.cdf_get hc 0 (by rw [c4]; exact hn0)).2
  have hsum' := (b'.cdf_get hc 0 (by rw [c4']; exact hn0)).2
  refine t_le_of_ratio p' p n (fun i => w'.getD i 0 * p'.dt.getD i 0) (fun i => w.getD i 0 * p.dt.getD i 0)
    (fun i => (cc.area / cc'.area) ^ m * Real.exp (p'.lam.getD i 0 - p.lam.getD i 0)) s' s d7' d7 ets.symm
    (by rw [ets]; exact t2) (by rw [ets]; exact t1) hn0
    c7' c7 c4' c4 (fun j hj => (b'.cdf_get hc j hj).1) (fun j hj => (b.cdf_get hc j hj).1)
    hsum' hsum ?_ ?_ ?_ q
  · intro i hi
    have g1 : i < w'.length := by rw [d2']; exact hi
    have g2 : i < p'.dt.length := by rw [d1']; exact hi
    rw [List.getD_eq_getElem _ _ g1, List.getD_eq_getElem _ _ g2]
    exact mul_nonneg (d6' _ (List.getElem_mem _)) (d5' _ (List.getElem_mem _))
  · intro i hi
    rw [W i hi, W' i hi, ets, edt]
    have hexp : Real.exp (-(p.lam.getD i 0)) = Real.exp (-(p'.lam.getD i 0)) * Real.exp (p'.lam.getD i 0 - p.lam.getD i 0) := by
      rw [← Real.exp_add]; congr 1; ring
    have hpow : p.lam.getD i 0 ^ m = p'.lam.getD i 0 ^ m * (cc.area / cc'.area) ^ m := by
      rw [← mul_pow, (hl i hi).1, (hl i hi).2]
      congr 1
      field_simp
    rw [hexp, hpow]
    ring
  · intro i j hij hj
    apply mul_le_mul_of_nonneg_left _ (by positivity)
    apply Real.exp_le_exp.2
    have hi := lt_of_le_of_lt hij hj
    have li : i < (linspace (-10 : ℝ) 5 n).length := by rw [linspace_length]; exact hi
    have lj : j < (linspace (-10 : ℝ) 5 n).length := by rw [linspace_length]; exact hj
    rw [(hl i hi).1, (hl i hi).2, (hl j hj).1, (hl j hj).2]
    have hx : (10 : ℝ) ^ ((linspace (-10 : ℝ) 5 n)[i]'li) ≤ (10 : ℝ) ^ ((linspace (-10 : ℝ) 5 n)[j]'lj) :=
      pow10_le.2 (getElem_mono (linspace_mono n (by norm_num)) hij lj)
    have hk : 0 ≤ κ * cc'.area - κ * cc.area := by
      rw [← mul_sub]; exact mul_nonneg hκ0 (sub_nonneg.2 ha)
    have := mul_le_mul_of_nonneg_right hx hk
    linarith

/-- existence of the likelihood from the form of the expected numbers -/
theorem defined_of_lams (pf : PFn) (c : Chron) (simpson : Simpson) (cc : Source) (lo hi : ℝ) (k : Option ℝ) (bcc : Bool)
    (n : ℕ) (hn : 2 ≤ n) (p0 p1 p3 : ℝ) (hc : GoodChron c p0 p1 p3) (a0 K : ℝ) (ha0 : c.a0 1 = .ok a0) (hKpos : 0 < K)
    (hlams : lams pf simpson cc lo hi a0 bcc (linspace (-10) 5 n) = .ok ((linspace (-10 : ℝ) 5 n).map (fun e => (10 : ℝ) ^ e * K)))
    (m : ℕ) (hm : countK k cc lo hi = m) (hmax : (m : ℝ) ≤ K * 10 ^ 5) :
    ∃ p, Craterpdf.init pf c simpson cc lo hi k none bcc n = .ok p ∧
      ∃ v, p.cdf[0]? = some v ∧ 0 < v := by
  have hlx : (linspace (-10 : ℝ) 5 n).length = n := linspace_length ..
  obtain ⟨tphi, tN1, tts, tns⟩ := Built.tables hc
  have hfun : c.phi = fun t => .ok (phiCoeff p0 p1 p3 t) := funext tphi
  obtain ⟨qq, hq, e0, e1, e3, g0, g1, g3⟩ := id hc
  have hmono := n1_strictMono g0 g1 g3
  have hN0 : n1Coeff p0 p1 p3 0 = 0 := by simp [n1Coeff]
  have hN1 : 0 < n1Coeff p0 p1 p3 1 := by rw [← hN0]; exact hmono one_pos
  have ea0 : a0 = log10 (n1Coeff p0 p1 p3 1) := by
    simp only [Chron.a0, tN1, except_ok_bind, if_pos hN1] at ha0
    injection ha0 with ha0
    exact ha0.symm
  -- the ages
  set ts := (linspace (-10 : ℝ) 5 n).map (fun e => interp c.n1s c.ts ((10 : ℝ) ^ (a0 + e))) with hts
  have hltn : ts.length = n := by rw [hts, List.length_map, hlx]
  obtain ⟨age, a1, a2, a3, a4, _⟩ := C15_age_inversion qq c hq p0 p1 p3 e0 e1 e3 g0 g1 g3
  have hage : ∀ e, interp c.n1s c.ts ((10 : ℝ) ^ (a0 + e)) = age ((10 : ℝ) ^ (a0 + e)) := by
    intro e
    have := a2 (a0 + e) none
    simp only [Chron.t] at this
    injection this
  have htsorted : ts.Pairwise (· ≤ ·) := by
    rw [hts]
    refine List.Pairwise.map _ ?_ (linspace_mono n (by norm_num : (-10 : ℝ) ≤ 5))
    intro x y hxy
    rw [hage, hage]
    exact a4 (pow10_le.2 (by linarith))
  have hx01 : (linspace (-10 : ℝ) 5 n)[0]'(by omega) < (linspace (-10 : ℝ) 5 n)[1]'(by omega) :=
    List.pairwise_iff_getElem.1 (linspace_strictMono (by norm_num : (-10 : ℝ) < 5) n) 0 1 (by omega) (by omega) (by norm_num)
  have ht01 : ts[0]'(by omega) < ts[1]'(by omega) := by
    suffices hh : interp ((linspace 0 5 1000).map (n1Coeff p0 p1 p3)) (linspace 0 5 1000)
        ((10 : ℝ) ^ (a0 + (linspace (-10 : ℝ) 5 n)[0]'(by omega))) <
        interp ((linspace 0 5 1000).map (n1Coeff p0 p1 p3)) (linspace 0 5 1000)
        ((10 : ℝ) ^ (a0 + (linspace (-10 : ℝ) 5 n)[1]'(by omega))) by
      simp only [hts, List.getElem_map, tns, tts]
      exact hh
    apply interp_strict _ _ (n1s_sorted g0 g1 g3) ts_sorted (by simp) (by simp) (pow10_lt.2 (by linarith))
    · rw [List.getElem_map, linspace_zero, hN0]
      exact (pow10_pos _).le
    · have e : ∀ h, ((linspace (0 : ℝ) 5 1000).map (n1Coeff p0 p1 p3))[((linspace (0 : ℝ) 5 1000).map (n1Coeff p0 p1 p3)).length - 1]'h
          = n1Coeff p0 p1 p3 5 := by
        intro h
        rw [List.getElem_map]
        congr 1
        have := linspace_last (0 : ℝ) 5 1000 (by norm_num) (by simp)
        simp only [List.length_map, linspace_length]
        exact this
      rw [e, linspace_zero, pow10_add, ea0, pow10_log10 hN1]
      have h5 : n1Coeff p0 p1 p3 1 < n1Coeff p0 p1 p3 5 := hmono (by norm_num)
      have : (10 : ℝ) ^ (-10 : ℝ) ≤ 1 := by
        have := pow10_le.2 (show (-10 : ℝ) ≤ 0 by norm_num)
        simpa using this
      nlinarith
  -- the steps
  obtain ⟨dt, hdt⟩ : ∃ dt, steps ts = .ok dt := by
    match ts, hltn with
    | [], h => simp at h; omega
    | [x], h => simp at h; omega
    | x :: y :: l, _ => exact ⟨_, rfl⟩
  obtain ⟨_, dl, ds, dz⟩ := steps_ok hdt
  have hd0 := steps_nonneg hdt htsorted
  have hdt0 : (0 : ℝ) < dt[0]'(by omega) := by
    rw [dz (by omega) (by omega), ds 0 (by omega) (by omega)]
    exact sub_pos.2 ht01
  -- expected numbers
  set lam := (linspace (-10 : ℝ) 5 n).map (fun e => (10 : ℝ) ^ e * K) with hlam
  have hlaml : lam.length = n := by rw [hlam, List.length_map, hlx]
  have hlampos : ∀ l ∈ lam, 0 < l := by
    intro l hl
    obtain ⟨e, _, rfl⟩ := List.mem_map.1 hl
    exact mul_pos (pow10_pos _) hKpos
  have hpm : lam.mapM (poissonPmf m) = .ok (lam.map (fun l => l ^ m * Real.exp (-l) / (m.factorial : ℝ))) :=
    mapM_ok_of (fun l hl => poissonPmf_nat m (hlampos l hl).le)
  have hph : ts.mapM c.phi = .ok (ts.map (phiCoeff p0 p1 p3)) := by rw [hfun, mapM_pure_ok]
  set l0 := List.zipWith (fun x1 x2 => x1 * x2) (lam.map (fun l => l ^ m * Real.exp (-l) / (m.factorial : ℝ)))
    (ts.map (phiCoeff p0 p1 p3)) with hl0
  have hl0l : l0.length = n := by rw [hl0]; simp [hlaml, hltn]
  have hl0pos : ∀ x ∈ l0, 0 < x := by
    intro x hx
    obtain ⟨i, hi, rfl⟩ := List.getElem_of_mem hx
    have hi' : i < lam.length := by omega
    simp only [hl0, List.getElem_zipWith, List.getElem_map]
    have := hlampos _ (List.getElem_mem hi')
    exact mul_pos (by positivity) (phi_pos g0 g1 g3 _)
  have hlast : (m : ℝ) ≤ lam[n - 1]'(by omega) := by
    simp only [hlam, List.getElem_map]
    rw [linspace_last (-10 : ℝ) 5 n hn (by omega)]
    have e5 : (10 : ℝ) ^ (5 : ℝ) = 10 ^ 5 := by
      rw [show (5 : ℝ) = ((5 : ℕ) : ℝ) by norm_num, Real.rpow_natCast]
    rw [e5]
    linarith
  have hss : searchsorted lam (m : ℝ) < n := by
    by_contra hcon
    have hge : n ≤ searchsorted lam (m : ℝ) := not_lt.1 hcon
    have := lt_of_lt_searchsorted (a := lam) (v := (m : ℝ)) (i := n - 1) (by omega) (by omega)
    exact absurd hlast (not_le.2 this)
  obtain ⟨w, hw, hwl, hwpos⟩ : ∃ w, forcePeak l0 lam m = .ok w ∧ w.length = n ∧ ∀ x ∈ w, 0 < x := by
    unfold forcePeak
    split
    · rw [if_pos (by rw [hl0l]; exact hss)]
      refine ⟨_, rfl, by simp [hl0l], ?_⟩
      intro x hx
      rcases List.mem_or_eq_of_mem_set hx with hx | rfl
      · exact hl0pos x hx
      · norm_num
    · exact ⟨_, rfl, hl0l, hl0pos⟩
  have hw0 : (0 : ℝ) < w[0]'(by omega) * dt[0]'(by omega) := mul_pos (hwpos _ (List.getElem_mem _)) hdt0
  have hs : 0 < (List.zipWith (fun x1 x2 => x1 * x2) w dt).sum := by
    have hnn : ∀ x ∈ List.zipWith (fun x1 x2 => x1 * x2) w dt, 0 ≤ x := by
      intro x hx
      obtain ⟨i, hi, rfl⟩ := List.getElem_of_mem hx
      rw [List.getElem_zipWith]
      exact mul_nonneg (hwpos _ (List.getElem_mem _)).le (hd0 _ (List.getElem_mem _))
    have hmem : w[0]'(by omega) * dt[0]'(by omega) ∈ List.zipWith (fun x1 x2 => x1 * x2) w dt := by
      have : (List.zipWith (fun x1 x2 => x1 * x2) w dt)[0]'(by simp; omega) = w[0]'(by omega) * dt[0]'(by omega) := by
        rw [List.getElem_zipWith]
      rw [← this]
      exact List.getElem_mem _
    exact lt_of_lt_of_le hw0 (List.single_le_sum hnn _ hmem)
  have hinit : Craterpdf.init pf c simpson cc lo hi k none bcc n =
      .ok { k := m, ts := ts, dt := dt, lam := lam,
            pdf := w.map (fun e => e / (List.zipWith (fun x1 x2 => x1 * x2) w dt).sum),
            cdf := cumsum (List.zipWith (fun x1 x2 => x1 * x2)
              (w.map (fun e => e / (List.zipWith (fun x1 x2 => x1 * x2) w dt).sum)) dt) } := by
    unfold Craterpdf.init
    simp only [ha0, except_ok_bind, Chron.t, mapM_pure_ok, ← hts, hdt, lamMissing, if_true, hlams, finish, hm, hpm, hph,
      ← hl0, hw, if_neg hs.ne']
  refine ⟨_, hinit, _, List.getElem?_eq_getElem (by simp; omega), ?_⟩
  rw [cumsum_getElem, sum_take_eq_range]
  simp only [zero_add, Finset.range_one, Finset.sum_singleton]
  rw [List.getD_eq_getElem _ _ (by simp; omega), List.getElem_zipWith, List.getElem_map, div_mul_eq_mul_div]
  exact div_pos hw0 hs

/-- **C23, existence.** For a crater number that does not exceed the expectation at 10^5 times the density of a 1 Ga old
surface the likelihood exists.  (`c0`, `c1`: cumulative densities per area of a 1 Ga old surface at the ends of the
diameter range.) -/
theorem C23_defined (pf : PFn) (c : Chron) (simpson : Simpson) (cc : Source) (lo hi : ℝ) (k : Option ℝ)
    (n : ℕ) (hn : 2 ≤ n) (p0 p1 p3 : ℝ) (hc : GoodChron c p0 p1 p3) (a0 c0 c1 : ℝ) (ha0 : c.a0 1 = .ok a0)
    (h0 : pf.evaluate .cumulative lo (some a0) = .ok c0) (h1 : pf.evaluate .cumulative hi (some a0) = .ok c1)
    (hc1 : 0 < c1) (hc01 : c1 < c0) (harea : 0 < cc.area) (m : ℕ) (hm : countK k cc lo hi = m)
    (hmax : (m : ℝ) ≤ (c0 - c1) * 10 ^ 5 * cc.area) :
    ∃ p, Craterpdf.init pf c simpson cc lo hi k none false n = .ok p ∧
      ∃ v, p.cdf[0]? = some v ∧ 0 < v := by
  have hc0 : 0 < c0 := by linarith
  refine defined_of_lams pf c simpson cc lo hi k false n hn p0 p1 p3 hc a0 ((c0 - c1) * cc.area) ha0
    (mul_pos (by linarith) harea) ?_ m hm (by linarith)
  simp only [lams, Bool.false_eq_true, if_false, h0, h1, except_ok_bind, log10E_pos hc0, log10E_pos hc1]
  congr 1
  apply List.map_congr_left
  intro e _
  rw [pow10_add, pow10_add, pow10_log10 hc0, pow10_log10 hc1]
  ring

/-- **C23, existence for buffered counts.** (`F`: differential densities of a 1 Ga old surface.) -/
theorem C23_defined_buffered (pf : PFn) (c : Chron) (simpson : Simpson) (cc : Source) (lo hi : ℝ) (k : Option ℝ)
    (n : ℕ) (hn : 2 ≤ n) (p0 p1 p3 : ℝ) (hc : GoodChron c p0 p1 p3) (a0 : ℝ) (ha0 : c.a0 1 = .ok a0) (per : ℝ)
    (hper : cc.perimeter = some per) (F : ℝ → ℝ) (hF : ∀ d ∈ linspace lo hi 500, pf.F d a0 = .ok (F d))
    (I : ℝ) (hI : I = simpson ((linspace lo hi 500).map (fun d => (cc.area + d * per / 2 + Real.pi * d ^ 2 / 4) * F d))
      (linspace lo hi 500)) (hI0 : 0 < I) (m : ℕ) (hm : countK k cc lo hi = m) (hmax : (m : ℝ) ≤ I * 10 ^ 5) :
    ∃ p, Craterpdf.init pf c simpson cc lo hi k none true n = .ok p ∧ ∃ v, p.cdf[0]? = some v ∧ 0 < v := by
  refine defined_of_lams pf c simpson cc lo hi k true n hn p0 p1 p3 hc a0 I ha0 hI0 ?_ m hm hmax
  simp only [lams, if_true, hper, mapM_ok_of hF, except_ok_bind, List.zipWith_map_right, List.zipWith_self, ← hI,
    log10E_pos hI0]
  congr 1
  apply List.map_congr_left
  intro e _
  rw [pow10_add, pow10_log10 hI0, mul_comm]

/-- a chronology with a constant rate of one crater per area and Ga, a 1/D production function and 3 craters between
1 and 2 km on an area of 10: the likelihood exists for every number of samples -/
theorem likelihood_example (n : ℕ) (hn : 2 ≤ n) (m : ℕ) (hm : m ≤ 3) (simpson : Simpson) :
    ∃ c p, Chronology.init [0, 0, 0, 1] = .ok c ∧ GoodChron c 0 0 1 ∧
      Craterpdf.init (initPoly [0, -1] none) c simpson ⟨none, [], 10, none⟩ 1 2 (some (m : ℝ)) none false n = .ok p ∧
      p.k = m ∧ ∃ v, p.cdf[0]? = some v ∧ 0 < v := by
  obtain ⟨c, hc, _⟩ := (C14_construct [0, 0, 0, 1]).2 (by simp)
  have hg : GoodChron c 0 0 1 := ⟨_, hc, rfl, rfl, rfl, le_rfl, le_rfl, one_pos⟩
  have hN : c.a0 1 = .ok 0 := by
    simp only [Chron.a0, (Built.tables hg).2.1, except_ok_bind, n1Coeff]
    norm_num [log10]
  have hev : ∀ d : ℝ, 0 < d → (initPoly [0, -1] none).evaluate .cumulative d (some 0) = .ok (1 / d) := by
    intro x hx
    simp [PFn.evaluate, initPoly, PFn.C, polyC_eq hx, except_ok_bind, poly_cons, poly_nil, PFn.defaultA0, Real.rpow_neg,
      pow10_log10 hx]
  obtain ⟨p, hp, hv⟩ := C23_defined (initPoly [0, -1] none) c simpson ⟨none, [], 10, none⟩ 1 2 (some (m : ℝ)) n hn 0 0 1 hg 0
    (1 / 1) (1 / 2) hN (hev 1 one_pos) (hev 2 two_pos) (by norm_num) (by norm_num) (by norm_num) m rfl (by
      have : (m : ℝ) ≤ 3 := by exact_mod_cast hm
      norm_num
      linarith)
  obtain ⟨a0, s, pm, ph, w, b⟩ := built hp
  exact ⟨c, p, hc, hg, hp, b.k_eq, hv⟩

/-- two mass functions: midpoint rule of the cumulative sums -/
theorem abel (a b : ℕ → ℝ) (n : ℕ) :
    (∑ i ∈ Finset.range n, a i * ((∑ j ∈ Finset.range (i + 1), b j) + ∑ j ∈ Finset.range i, b j)) +
      (∑ i ∈ Finset.range n, b i * ((∑ j ∈ Finset.range (i + 1), a j) + ∑ j ∈ Finset.range i, a j)) =
      2 * ((∑ i ∈ Finset.range n, a i) * ∑ i ∈ Finset.range n, b i) := by
  induction n with
  | zero => simp
  | succ n ih =>
    rw [Finset.sum_range_succ, Finset.sum_range_succ (fun i => b i * _), Finset.sum_range_succ a, Finset.sum_range_succ b]
    linear_combination ih

theorem roll1_length (l : List ℝ) : (roll1 l).length = l.length := by
  unfold roll1
  cases l with
  | nil => rfl
  | cons x l => simp [List.getLast?_cons]

theorem roll1_getD_succ (l : List ℝ) (i : ℕ) (h : i + 1 < l.length) : (roll1 l).getD (i + 1) 0 = l.getD i 0 := by
  unfold roll1
  obtain ⟨x, hx⟩ : ∃ x, l.getLast? = some x := by
    cases l with
    | nil => simp at h
    | cons y l => simp [List.getLast?_cons]
  rw [hx]
  simp only [List.getD_cons_succ]
  rw [List.getD_eq_getElem _ _ (by simp; omega), List.getD_eq_getElem _ _ (by omega), List.getElem_dropLast]

theorem roll1_getD_zero (l : List ℝ) {x : ℝ} (h : l.getLast? = some x) : (roll1 l).getD 0 0 = x := by
  unfold roll1
  rw [h]
  simp

/-- the probability as a double sum over the mass functions `a` (of `p`) and `b` (of `q`) -/
theorem seqProb_eq (p q : Pdf) (n : ℕ) (hn : 1 ≤ n) (h1 : p.dt.length = n) (h2 : p.pdf.length = n) (h3 : q.cdf.length = n)
    (b : ℕ → ℝ) (hb : ∀ j (hj : j < q.cdf.length), q.cdf[j] = ∑ i ∈ Finset.range (j + 1), b i)
    (htot : ∑ i ∈ Finset.range n, b i = 1) :
    p.sequenceProbability q =
      (∑ i ∈ Finset.range n, p.pdf.getD i 0 * p.dt.getD i 0 *
        ((∑ j ∈ Finset.range (i + 1), b j) + ∑ j ∈ Finset.range i, b j)) / 2 + p.pdf.getD 0 0 * p.dt.getD 0 0 / 2 := by
  unfold Pdf.sequenceProbability
  simp only
  rw [sum_eq_range]
  have hl : (List.zipWith (fun x1 x2 => x1 * x2) (List.zipWith (fun x1 x2 => x1 * x2) p.dt p.pdf)
      (List.zipWith (fun a b => (a + b) / 2) q.cdf (roll1 q.cdf))).length = n := by
    simp [roll1_length, h1, h2, h3]
  rw [hl]
  obtain ⟨n, rfl⟩ : ∃ n', n = n' + 1 := ⟨n - 1, by omega⟩
  have hlast : q.cdf.getLast? = some 1 := by
    rw [List.getLast?_eq_getElem?, h3, List.getElem?_eq_getElem (by omega), hb _ (by omega)]
    simp only [Nat.add_sub_cancel]
    rw [htot]
  have hterm : ∀ i < n + 1, (List.zipWith (fun x1 x2 => x1 * x2) (List.zipWith (fun x1 x2 => x1 * x2) p.dt p.pdf)
      (List.zipWith (fun a b => (a + b) / 2) q.cdf (roll1 q.cdf))).getD i 0 =
      p.pdf.getD i 0 * p.dt.getD i 0 * ((∑ j ∈ Finset.range (i + 1), b j) + (roll1 q.cdf).getD i 0) / 2 := by
    intro i hi
    have r1 := roll1_length q.cdf
    rw [List.getD_eq_getElem _ _ (by omega), List.getElem_zipWith, List.getElem_zipWith, List.getElem_zipWith,
      List.getD_eq_getElem _ _ (by omega), List.getD_eq_getElem _ _ (by omega), List.getD_eq_getElem _ _ (by omega),
      hb i (by omega)]
    ring
  rw [Finset.sum_congr rfl (fun i hi => hterm i (Finset.mem_range.1 hi))]
  rw [Finset.sum_range_succ', Finset.sum_range_succ' _ n]
  rw [roll1_getD_zero _ hlast]
  have hcongr : ∀ i ∈ Finset.range n, p.pdf.getD (i + 1) 0 * p.dt.getD (i + 1) 0 *
      ((∑ j ∈ Finset.range (i + 1 + 1), b j) + (roll1 q.cdf).getD (i + 1) 0) / 2 =
      p.pdf.getD (i + 1) 0 * p.dt.getD (i + 1) 0 *
      ((∑ j ∈ Finset.range (i + 1 + 1), b j) + ∑ j ∈ Finset.range (i + 1), b j) / 2 := by
    intro i hi
    have hi := Finset.mem_range.1 hi
    rw [roll1_getD_succ _ _ (by omega), List.getD_eq_getElem q.cdf _ (by omega), hb i (by omega)]
  rw [Finset.sum_congr rfl hcongr, ← Finset.sum_div]
  simp only [zero_add, Finset.range_one, Finset.sum_singleton, Finset.range_zero, Finset.sum_empty, add_zero]
  ring

/-- the mass function of a likelihood, as used below -/
theorem mass_facts (pf : PFn) (c : Chron) (simpson : Simpson) (cc : Source) (lo hi : ℝ) (k : Option ℝ) (bcc : Bool)
    (n : ℕ) (p0 p1 p3 : ℝ) (hc : GoodChron c p0 p1 p3) (p : Pdf)
    (h : Craterpdf.init pf c simpson cc lo hi k none bcc n = .ok p) :
    2 ≤ n ∧ p.dt.length = n ∧ p.pdf.length = n ∧ p.cdf.length = n ∧
    (∀ j (hj : j < p.cdf.length), p.cdf[j] = ∑ i ∈ Finset.range (j + 1), p.pdf.getD i 0 * p.dt.getD i 0) ∧
    (∑ i ∈ Finset.range n, p.pdf.getD i 0 * p.dt.getD i 0 = 1) ∧ (∀ i, 0 ≤ p.pdf.getD i 0 * p.dt.getD i 0) := by
  obtain ⟨_, c2, c3, c4, _, _, c5, c6, c7, c8, _, _, _⟩ := C23_likelihood pf c simpson cc lo hi k bcc n p0 p1 p3 hc p h
  obtain ⟨a0, s, pm, ph, w, b⟩ := built h
  obtain ⟨hn, _⟩ := b.props hc
  have hz : ∀ i, i < n → (List.zipWith (fun x1 x2 => x1 * x2) p.pdf p.dt).getD i 0 = p.pdf.getD i 0 * p.dt.getD i 0 := by
    intro i hi
    rw [List.getD_eq_getElem _ _ (by simp; omega), List.getD_eq_getElem _ _ (by omega), List.getD_eq_getElem _ _ (by omega),
      List.getElem_zipWith]
  refine ⟨hn, c2, c3, c4, ?_, ?_, ?_⟩
  · intro j hj
    rw [c8 j _ (List.getElem?_eq_getElem hj), sum_take_eq_range]
    exact Finset.sum_congr rfl (fun i hi => hz i (by have := Finset.mem_range.1 hi; omega))
  · rw [sum_eq_range] at c7
    have : (List.zipWith (fun x1 x2 => x1 * x2) p.pdf p.dt).length = n := by simp; omega
    rw [this, Finset.sum_congr rfl (fun i hi => hz i (Finset.mem_range.1 hi))] at c7
    exact c7
  · intro i
    apply mul_nonneg
    · rw [List.getD_eq_getElem?_getD]
      cases hw : p.pdf[i]? with
      | none => simp
      | some v => exact c6 _ (List.mem_of_getElem? hw)
    · rw [List.getD_eq_getElem?_getD]
      cases hw : p.dt[i]? with
      | none => simp
      | some v => exact c5 _ (List.mem_of_getElem? hw)

/-- **C26, what holds.** For two likelihoods of the same chronology and number of samples each sequence probability lies
in [0,1], but the two add up to 1 plus half of the probabilities of the two first samples (the cumulative fraction
"before the first sample" is taken from the end of the list, 1 instead of 0). -/
theorem C26_sum_partial (pf pf' : PFn) (c : Chron) (simpson : Simpson) (cc cc' : Source) (lo hi lo' hi' : ℝ)
    (k k' : Option ℝ) (bcc bcc' : Bool) (n : ℕ) (p0 p1 p3 : ℝ) (hc : GoodChron c p0 p1 p3) (p q : Pdf)
    (h : Craterpdf.init pf c simpson cc lo hi k none bcc n = .ok p)
    (h' : Craterpdf.init pf' c simpson cc' lo' hi' k' none bcc' n = .ok q) :
    0 ≤ p.sequenceProbability q ∧ p.sequenceProbability q ≤ 1 ∧
    p.sequenceProbability q + q.sequenceProbability p = 1 + (p.cdf.getD 0 0 + q.cdf.getD 0 0) / 2 := by
  obtain ⟨hn, a1, a2, a3, a4, a5, a6⟩ := mass_facts pf c simpson cc lo hi k bcc n p0 p1 p3 hc p h
  obtain ⟨_, b1, b2, b3, b4, b5, b6⟩ := mass_facts pf' c simpson cc' lo' hi' k' bcc' n p0 p1 p3 hc q h'
  have e1 := seqProb_eq p q n (by omega) a1 a2 b3 _ b4 b5
  have e2 := seqProb_eq q p n (by omega) b1 b2 a3 _ a4 a5
  have hB : ∀ j, j ≤ n → 0 ≤ ∑ i ∈ Finset.range j, q.pdf.getD i 0 * q.dt.getD i 0 ∧
      ∑ i ∈ Finset.range j, q.pdf.getD i 0 * q.dt.getD i 0 ≤ 1 := by
    intro j hj
    refine ⟨Finset.sum_nonneg (fun i _ => b6 i), ?_⟩
    rw [← b5]
    exact Finset.sum_le_sum_of_subset_of_nonneg (Finset.range_mono hj) (fun x _ _ => b6 x)
  have hp0 : p.cdf.getD 0 0 = p.pdf.getD 0 0 * p.dt.getD 0 0 := by
    rw [List.getD_eq_getElem _ _ (by omega), a4 0 (by omega)]; simp
  have hq0 : q.cdf.getD 0 0 = q.pdf.getD 0 0 * q.dt.getD 0 0 := by
    rw [List.getD_eq_getElem _ _ (by omega), b4 0 (by omega)]; simp
  refine ⟨?_, ?_, ?_⟩
  · rw [e1]
    have : 0 ≤ ∑ i ∈ Finset.range n, p.pdf.getD i 0 * p.dt.getD i 0 *
        ((∑ j ∈ Finset.range (i + 1), q.pdf.getD j 0 * q.dt.getD j 0) + ∑ j ∈ Finset.range i, q.pdf.getD j 0 * q.dt.getD j 0) := by
      apply Finset.sum_nonneg
      intro i hi
      have hi := Finset.mem_range.1 hi
      exact mul_nonneg (a6 i) (add_nonneg (hB _ (by omega)).1 (hB _ (by omega)).1)
    have := a6 0
    linarith
  · rw [e1]
    obtain ⟨n, rfl⟩ : ∃ n', n = n' + 1 := ⟨n - 1, by omega⟩
    rw [Finset.sum_range_succ'] at a5 ⊢
    have : ∑ i ∈ Finset.range n, p.pdf.getD (i + 1) 0 * p.dt.getD (i + 1) 0 *
        ((∑ j ∈ Finset.range (i + 1 + 1), q.pdf.getD j 0 * q.dt.getD j 0) +
          ∑ j ∈ Finset.range (i + 1), q.pdf.getD j 0 * q.dt.getD j 0) ≤
        ∑ i ∈ Finset.range n, p.pdf.getD (i + 1) 0 * p.dt.getD (i + 1) 0 * 2 := by
      apply Finset.sum_le_sum
      intro i hi
      have hi := Finset.mem_range.1 hi
      apply mul_le_mul_of_nonneg_left _ (a6 _)
      have x1 := (hB (i + 1 + 1) (by omega)).2
      have x2 := (hB (i + 1) (by omega)).2
      linarith
    rw [← Finset.sum_mul] at this
    have h0 := mul_le_mul_of_nonneg_left (hB 1 (by omega)).2 (a6 0)
    simp only [zero_add, Finset.range_zero, Finset.sum_empty, add_zero]
    linarith
  · have := abel (fun i => p.pdf.getD i 0 * p.dt.getD i 0) (fun i => q.pdf.getD i 0 * q.dt.getD i 0) n
    rw [e1, e2, hp0, hq0]
    rw [a5, b5] at this
    linarith

/-- **C26 is false**: there are two likelihoods (0 and 3 craters on the same area) whose sequence probabilities do not add
up to 1 -/
theorem C26_not_complementary_counterexample : ∃ p q : Pdf,
    (∃ pf c simpson cc lo hi k, Craterpdf.init pf c simpson cc lo hi k none false 5000 = .ok p ∧
      ∃ k', Craterpdf.init pf c simpson cc lo hi k' none false 5000 = .ok q) ∧
    p.sequenceProbability q + q.sequenceProbability p ≠ 1 := by
  obtain ⟨c, p, hc, hg, hp, _, v, hv, hv0⟩ := likelihood_example 5000 (by norm_num) 0 (by norm_num) (fun _ _ => 0)
  obtain ⟨c', q, hc', _, hq, _, v', hv', hv0'⟩ := likelihood_example 5000 (by norm_num) 3 (by norm_num) (fun _ _ => 0)
  have hcc : c' = c := by
    rw [hc] at hc'
    injection hc' with hc'
    exact hc'.symm
  subst hcc
  refine ⟨p, q, ⟨_, _, _, _, _, _, _, hp, _, hq⟩, ?_⟩
  rw [(C26_sum_partial _ _ _ _ _ _ _ _ _ _ _ _ _ _ _ _ _ _ hg _ _ hp hq).2.2]
  rw [List.getD_eq_getElem?_getD, hv, List.getD_eq_getElem?_getD, hv']
  simp only [Option.getD_some]
  intro hcon
  linarith

/-- **C70 is false**: the second part of the sequence table constructs likelihoods with a given array of expected numbers,
which fails for every number of samples other than one -/
theorem C70_forced_array_counterexample (pf : PFn) (c : Chron) (simpson : Simpson) (cc : Source) (lo hi : ℝ)
    (k : Option ℝ) (lam : List ℝ) (bcc : Bool) (n : ℕ) (hn : lam.length ≠ 1) :
    ∃ e, Craterpdf.init pf c simpson cc lo hi k (some lam) bcc n = .error e := by
  cases h : Craterpdf.init pf c simpson cc lo hi k (some lam) bcc n with
  | error e => exact ⟨e, rfl⟩
  | ok p =>
    exfalso
    unfold Craterpdf.init at h
    obtain ⟨a0, _, h⟩ := except_bind_eq_ok h
    obtain ⟨ts, _, h⟩ := except_bind_eq_ok h
    obtain ⟨dt, _, h⟩ := except_bind_eq_ok h
    obtain ⟨mi, h1, h⟩ := except_bind_eq_ok h
    simp only [lamMissing] at h1
    obtain ⟨b, h2, _⟩ := except_bind_eq_ok h1
    match lam, hn, h2 with
    | [], _, h2 => cases h2
    | [x], hn, _ => exact hn rfl
    | _ :: _ :: _, _, h2 => cases h2

/-- the likelihoods of `likelihood_example` are resolved, so that C25 applies to them -/
theorem C25_applies (n : ℕ) (m : ℕ) (hm : m ≤ 3) (simpson : Simpson) (c : Chron) (p : Pdf)
    (hg : GoodChron c 0 0 1)
    (hp : Craterpdf.init (initPoly [0, -1] none) c simpson ⟨none, [], 10, none⟩ 1 2 (some (m : ℝ)) none false n = .ok p) :
    1e-30 ≤ rawMass 0 0 1 m p := by
  obtain ⟨a0, s, pm, ph, w, b⟩ := built hp
  obtain ⟨t1, _, _⟩ := b.ts_props hg
  obtain ⟨hn, _, dl, _⟩ := b.props hg
  have hev : ∀ d : ℝ, 0 < d → (initPoly [0, -1] none).evaluate .cumulative d (some 0) = .ok (1 / d) := by
    intro x hx
    simp [PFn.evaluate, initPoly, PFn.C, polyC_eq hx, except_ok_bind, poly_cons, poly_nil, PFn.defaultA0, Real.rpow_neg,
      pow10_log10 hx]
  have ha0 : a0 = 0 := by
    rw [(b.a0_val hg).2]
    norm_num [n1Coeff, log10]
  subst ha0
  have hlam := b.lam_eq
  simp only [lams, Bool.false_eq_true, if_false, hev 1 one_pos, hev 2 two_pos, except_ok_bind,
    log10E_pos (show (0 : ℝ) < 1 / 1 by norm_num), log10E_pos (show (0 : ℝ) < 1 / 2 by norm_num)] at hlam
  injection hlam with hlam
  obtain ⟨l1, _⟩ := b.lam_props hg
  have h0 : p.lam[0]'(by omega) = 5 / 10 ^ 10 := by
    simp only [← hlam, List.getElem_map, linspace_zero]
    rw [pow10_add, pow10_add, pow10_log10 (by norm_num), pow10_log10 (by norm_num)]
    rw [Real.rpow_neg (by norm_num), show (10 : ℝ) = ((10 : ℕ) : ℝ) by norm_num, Real.rpow_natCast]
    norm_num
  set L := List.zipWith (fun l t => l ^ m * Real.exp (-l) / (m.factorial : ℝ) * phiCoeff 0 0 1 t) p.lam p.ts with hL
  have hphi : ∀ t, phiCoeff 0 0 1 t = 1 := by intro t; simp [phiCoeff]
  have hLl : L.length = n := by rw [hL]; simp; omega
  have hnn : ∀ x ∈ L, 0 ≤ x := by
    intro x hx
    obtain ⟨i, hi, rfl⟩ := List.getElem_of_mem hx
    simp only [hL, List.getElem_zipWith, hphi]
    have := l1 i (by omega)
    positivity
  have hmem : (5 / 10 ^ 10 : ℝ) ^ m * Real.exp (-(5 / 10 ^ 10)) / (m.factorial : ℝ) ∈ L := by
    have e : L[0]'(by omega) = (5 / 10 ^ 10 : ℝ) ^ m * Real.exp (-(5 / 10 ^ 10)) / (m.factorial : ℝ) := by
      simp only [hL, List.getElem_zipWith, hphi, h0, mul_one]
    rw [← e]
    exact List.getElem_mem _
  have hle := List.single_le_sum hnn _ hmem
  have hbound : (1e-30 : ℝ) ≤ (5 / 10 ^ 10 : ℝ) ^ m * Real.exp (-(5 / 10 ^ 10)) / (m.factorial : ℝ) := by
    have hexp : (0.5 : ℝ) ≤ Real.exp (-(5 / 10 ^ 10)) := by
      have := Real.add_one_le_exp (-(5 / 10 ^ 10 : ℝ))
      norm_num at this ⊢
      linarith
    have hf : (m.factorial : ℝ) ≤ 6 := by
      have : m.factorial ≤ (3).factorial := Nat.factorial_le hm
      exact_mod_cast this
    have hf0 : (0 : ℝ) < m.factorial := by positivity
    have hpow : (5 / 10 ^ 10 : ℝ) ^ 3 ≤ (5 / 10 ^ 10 : ℝ) ^ m :=
      pow_le_pow_of_le_one (by norm_num) (by norm_num) hm
    rw [le_div_iff₀ hf0]
    have h1 : (5 / 10 ^ 10 : ℝ) ^ 3 * 0.5 ≤ (5 / 10 ^ 10 : ℝ) ^ m * Real.exp (-(5 / 10 ^ 10)) :=
      mul_le_mul hpow hexp (by norm_num) (by positivity)
    have h2 : (1e-30 : ℝ) * (m.factorial : ℝ) ≤ 1e-30 * 6 := mul_le_mul_of_nonneg_left hf (by norm_num)
    have h3 : (1e-30 : ℝ) * 6 ≤ (5 / 10 ^ 10 : ℝ) ^ 3 * 0.5 := by norm_num
    linarith
  exact hbound.trans hle

end

end Verif.Props
