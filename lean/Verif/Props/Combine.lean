import Verif.Props.FileAge
import Verif.Props.Reading
import Verif.Props.Resolved
import Mathlib.Algebra.BigOperators.Fin

/-! C145: the likelihoods of separate evaluations combine to the likelihood of the joint one. -/

namespace Verif.Props
open Verif.Cratercount Verif.Py Verif.Production Verif.Chronology Verif.Craterpdf Verif.Age Verif.FileAge

noncomputable section

attribute [local irreducible] linspace

theorem rawMass_zero {p : Pdf} {p0 p1 p3 : ℝ} {m : ℕ} (hm : m ≠ 0) (h : ∀ l ∈ p.lam, l = 0) : rawMass p0 p1 p3 m p = 0 := by
  unfold rawMass
  apply List.sum_eq_zero
  intro x hx
  obtain ⟨i, hi, rfl⟩ := List.getElem_of_mem hx
  rw [List.getElem_zipWith, h _ (List.getElem_mem _), zero_pow hm]
  simp

/-- expected numbers as a constant times the powers of ten of the grid; the constant to the power of the count is positive for a resolved
likelihood -/
theorem lam_power {pf : PFn} {c : Chron} {simpson : Simpson} {cc : Source} {lo hi : ℝ} {k : Option ℝ} {bcc : Bool} {n : ℕ} {p0 p1 p3 : ℝ}
    (hc : GoodChron c p0 p1 p3) {p : Pdf} (h : Craterpdf.init pf c simpson cc lo hi k none bcc n = .ok p) (m : ℕ)
    (hraw : 1e-30 ≤ rawMass p0 p1 p3 m p) :
    ∃ K : ℝ, 0 < K ^ m ∧ p.lam = (linspace (-10) 5 n).map (fun e : ℝ => (10 : ℝ) ^ e * K) := by
  obtain ⟨a0, s, pm, ph, w, b⟩ := built h
  obtain ⟨hn, d1, dl, _⟩ := b.props hc
  obtain ⟨l1, _⟩ := b.lam_props hc
  obtain ⟨K, hK⟩ := lams_form b.lam_eq
  refine ⟨K, ?_, hK⟩
  have hK0 : 0 ≤ K := by
    have := l1 0 (by omega)
    simp only [hK, List.getElem_map] at this
    exact nonneg_of_mul_nonneg_right this (pow10_pos _)
  rcases hK0.lt_or_eq with h0 | h0
  · exact pow_pos h0 _
  · by_cases hm : m = 0
    · rw [hm, pow_zero]; exact one_pos
    · exfalso
      rw [rawMass_zero hm (by rw [hK, ← h0]; simp)] at hraw
      norm_num at hraw

/-- the core: if count and expected numbers of an evaluation are the sums of those of others, so is the logarithm of its likelihood -/
theorem combine {ι : Type} [Fintype ι] (c : Chron) (p0 p1 p3 : ℝ) (hc : GoodChron c p0 p1 p3) (simpson : Simpson) (n : ℕ) (pf : ι → PFn)
    (cc : ι → Source) (lo hi : ι → ℝ) (k : ι → Option ℝ) (bcc : ι → Bool) (q : ι → Pdf)
    (hq : ∀ j, Craterpdf.init (pf j) c simpson (cc j) (lo j) (hi j) (k j) none (bcc j) n = .ok (q j)) (m : ι → ℕ) (hm : ∀ j, (q j).k = m j)
    (hraw : ∀ j, 1e-30 ≤ rawMass p0 p1 p3 (m j) (q j)) (pf' : PFn) (cc' : Source) (lo' hi' : ℝ) (k' : Option ℝ) (bcc' : Bool) (p : Pdf)
    (hp : Craterpdf.init pf' c simpson cc' lo' hi' k' none bcc' n = .ok p) (M : ℕ) (hM : p.k = M) (hsum : M = ∑ j, m j)
    (hrawp : 1e-30 ≤ rawMass p0 p1 p3 M p) (hlam : ∀ (i : ℕ) l, p.lam[i]? = some l → l = ∑ j, (q j).lam.getD i 0) :
    ∃ z, 0 < z ∧ ∀ (i : ℕ) t y r, p.ts[i]? = some t → p.pdf[i]? = some y → c.phi t = .ok r →
      y * r ^ Fintype.card ι = z * r * ∏ j, (q j).pdf.getD i 0 := by
  have S := fun j => C23_shape (pf j) c simpson (cc j) (lo j) (hi j) (k j) (bcc j) n p0 p1 p3 hc (q j) (hq j) (m j) (hm j) (hraw j)
  obtain ⟨Z, hZ, SP⟩ := C23_shape pf' c simpson cc' lo' hi' k' bcc' n p0 p1 p3 hc p hp M hM hrawp
  have L := fun j => lam_power hc (hq j) (m j) (hraw j)
  obtain ⟨K', hK', hL'⟩ := lam_power hc hp M hrawp
  clear hraw hrawp
  choose zj hzj S using S
  choose K hK L using L
  obtain ⟨a0, s, pm, ph, w, b⟩ := built hp
  obtain ⟨t1, _, _⟩ := b.ts_props hc
  obtain ⟨hn, _, dl, _, _, _, dpdf, _⟩ := b.props hc
  have hqlen : ∀ j, (q j).ts = p.ts ∧ (q j).pdf.length = n := by
    intro j
    obtain ⟨a0', s', pm', ph', w', b'⟩ := built (hq j)
    obtain ⟨_, _, _, _, _, _, d, _⟩ := b'.props hc
    have ea : a0' = a0 := by have := b'.a0_ok.symm.trans b.a0_ok; injection this
    exact ⟨by rw [b'.ts_eq, b.ts_eq, ea], d⟩
  have hF : ∀ j, 0 < zj j * K j ^ m j / ((m j).factorial : ℝ) := fun j => div_pos (mul_pos (hzj j) (hK j)) (by positivity)
  have hPF : 0 < ∏ j, (zj j * K j ^ m j / ((m j).factorial : ℝ)) := Finset.prod_pos (fun j _ => hF j)
  refine ⟨Z * K' ^ M / (M.factorial : ℝ) / ∏ j, (zj j * K j ^ m j / ((m j).factorial : ℝ)),
    div_pos (div_pos (mul_pos hZ hK') (by positivity)) hPF, ?_⟩
  intro i t y r ht hy hr
  rw [(Built.tables hc).1] at hr
  injection hr with hr
  have hi' : i < n := by rw [← t1]; exact (List.getElem?_eq_some_iff.1 ht).1
  obtain ⟨e, he⟩ : ∃ e, (linspace (-10 : ℝ) 5 n)[i]? = some e :=
    ⟨_, List.getElem?_eq_getElem (by rw [linspace_length]; exact hi')⟩
  have lp : p.lam[i]? = some ((10 : ℝ) ^ e * K') := by rw [hL', List.getElem?_map, he]; rfl
  have lq : ∀ j, (q j).lam[i]? = some ((10 : ℝ) ^ e * K j) := by intro j; rw [L j, List.getElem?_map, he]; rfl
  have hs := hlam i _ lp
  have hs' : ((10 : ℝ) ^ e * K') = ∑ j, (10 : ℝ) ^ e * K j := by
    rw [hs]
    apply Finset.sum_congr rfl
    intro j _
    rw [List.getD_eq_getElem?_getD, lq j]; rfl
  have hyj : ∀ j, (q j).pdf.getD i 0 =
      zj j * K j ^ m j / ((m j).factorial : ℝ) * ((10 : ℝ) ^ e) ^ m j * Real.exp (-((10 : ℝ) ^ e * K j)) * r := by
    intro j
    have hb : i < (q j).pdf.length := by rw [(hqlen j).2]; exact hi'
    rw [List.getD_eq_getElem _ _ hb, S j i _ t _ (lq j) (by rw [(hqlen j).1]; exact ht) (List.getElem?_eq_getElem hb), mul_pow, hr]
    ring
  have hyp := SP i _ t y lp ht hy
  rw [hyp, hr, Finset.prod_congr rfl (fun j _ => hyj j), Finset.prod_mul_distrib, Finset.prod_mul_distrib, Finset.prod_mul_distrib,
    Finset.prod_const, Finset.card_univ, ← Real.exp_sum, Finset.prod_pow_eq_pow_sum, ← hsum, Finset.sum_neg_distrib, ← hs', mul_pow]
  have hPF' := hPF.ne'
  field_simp

/-- expected numbers of a standard evaluation from the densities at the ends of the range -/
theorem lam_ends {pf : PFn} {c : Chron} {simpson : Simpson} {cc : Source} {lo hi : ℝ} {k : Option ℝ} {n : ℕ} {p : Pdf}
    (h : Craterpdf.init pf c simpson cc lo hi k none false n = .ok p) :
    ∃ a0 c0 c1, c.a0 1 = .ok a0 ∧ pf.evaluate .cumulative lo (some a0) = .ok c0 ∧ pf.evaluate .cumulative hi (some a0) = .ok c1 ∧
      p.lam = (linspace (-10) 5 n).map (fun e : ℝ => (10 : ℝ) ^ e * ((c0 - c1) * cc.area)) := by
  obtain ⟨a0, s, pm, ph, w, b⟩ := built h
  have hl := b.lam_eq
  simp only [lams, Bool.false_eq_true, if_false] at hl
  obtain ⟨c0, h0, hl⟩ := except_bind_eq_ok hl
  obtain ⟨c1, h1, hl⟩ := except_bind_eq_ok hl
  obtain ⟨n0, g0, hl⟩ := except_bind_eq_ok hl
  obtain ⟨n1, g1, hl⟩ := except_bind_eq_ok hl
  obtain ⟨q0, rfl⟩ := log10E_ok.1 g0
  obtain ⟨q1, rfl⟩ := log10E_ok.1 g1
  injection hl with hl
  refine ⟨a0, c0, c1, b.a0_ok, h0, h1, ?_⟩
  rw [← hl]
  apply List.map_congr_left
  intro e _
  rw [pow10_add, pow10_add, pow10_log10 q0, pow10_log10 q1]
  ring

/-- the number of craters of a list in a range -/
theorem countK_list (cc : Source) (ds : List ℝ) (hd : cc.diam = some ds) (hb : ds = [] → cc.binned = []) (lo hi : ℝ) :
    countK none cc lo hi = (ds.map (fun d => if lo ≤ d ∧ d < hi then (1 : ℝ) else 0)).sum := by
  cases ds with
  | nil => simp [countK, hd, hb rfl]
  | cons d ds =>
    simp only [countK, hd]
    exact count_sum (d :: ds) (fun e => lo ≤ e ∧ e < hi)

theorem sum_list_swap {α ι : Type} [Fintype ι] (l : List α) (f : α → ι → ℝ) :
    (l.map (fun x => ∑ j, f x j)).sum = ∑ j, (l.map (fun x => f x j)).sum := by
  induction l with
  | nil => simp
  | cons x l ih => simp [ih, Finset.sum_add_distrib]

theorem sum_flatMap_list {α : Type} (l : List α) (f : α → List ℝ) : (l.flatMap f).sum = (l.map (fun x => (f x).sum)).sum := by
  induction l with
  | nil => simp
  | cons x l ih => simp [ih]

/-- every diameter lies in one of the ranges between successive limits, or outside all of them -/
theorem ranges_partition (b : ℕ → ℝ) (hb : Monotone b) (d : ℝ) (N : ℕ) :
    (if b 0 ≤ d ∧ d < b N then (1 : ℝ) else 0) = ∑ j : Fin N, if b j ≤ d ∧ d < b (j + 1) then (1 : ℝ) else 0 := by
  rw [Fin.sum_univ_eq_sum_range (fun j => if b j ≤ d ∧ d < b (j + 1) then (1 : ℝ) else 0) N]
  induction N with
  | zero =>
    rw [Finset.sum_range_zero, if_neg]
    rintro ⟨h1, h2⟩
    exact absurd h1 (not_le.2 h2)
  | succ N ih =>
    rw [Finset.sum_range_succ, ← ih]
    have h1 := hb (Nat.zero_le N)
    have h2 := hb (Nat.le_succ N)
    by_cases ha : d < b N
    · have : ¬ (b N ≤ d) := not_le.2 ha
      have hc : d < b (N + 1) := ha.trans_le h2
      by_cases h0 : b 0 ≤ d <;> simp [ha, this, hc, h0]
    · have h3 : b N ≤ d := not_lt.1 ha
      have h4 : b 0 ≤ d := h1.trans h3
      simp [ha, h3, h4]

/-- Specification: `p` is a whole number of craters evaluated finely enough not to need the artificial peak -/
def Resolved (p0 p1 p3 : ℝ) (p : Pdf) : Prop := ∃ m : ℕ, p.k = m ∧ 1e-30 ≤ rawMass p0 p1 p3 m p

/-- **C145, diameter ranges.** A range of diameters divided at any number of places: the likelihood of the whole range is, at each sampled age
and up to one factor, the product of the likelihoods of the parts, with the impact rate (which enters each) counted once. -/
theorem C145_ranges_partial (pf : PFn) (c : Chron) (p0 p1 p3 : ℝ) (hc : GoodChron c p0 p1 p3) (simpson : Simpson) (cc : Source) (ds : List ℝ)
    (hds : cc.diam = some ds) (hne : ds ≠ []) (n N : ℕ) (b : ℕ → ℝ) (hb : Monotone b) (q : Fin N → Pdf)
    (hq : ∀ j : Fin N, Craterpdf.init pf c simpson cc (b j) (b (j + 1)) none none false n = .ok (q j)) (hres : ∀ j, Resolved p0 p1 p3 (q j))
    (p : Pdf) (hp : Craterpdf.init pf c simpson cc (b 0) (b N) none none false n = .ok p) (hresp : Resolved p0 p1 p3 p) :
    ∃ z, 0 < z ∧ ∀ (i : ℕ) t y r, p.ts[i]? = some t → p.pdf[i]? = some y → c.phi t = .ok r →
      y * r ^ N = z * r * ∏ j, (q j).pdf.getD i 0 := by
  obtain ⟨M, hM, hrawp⟩ := hresp
  choose m hm hraw using hres
  have hk : p.k = ∑ j, (q j).k := by
    have e : ∀ lo hi k' p', Craterpdf.init pf c simpson cc lo hi k' none false n = .ok p' → k' = none →
        p'.k = (ds.map (fun d => if lo ≤ d ∧ d < hi then (1 : ℝ) else 0)).sum := by
      intro lo hi k' p' h hk'
      obtain ⟨a0, s, pm, ph, w, bb⟩ := built h
      rw [bb.k_eq, hk', countK_list cc ds hds (fun h => absurd h hne)]
    rw [e _ _ _ _ hp rfl, Finset.sum_congr rfl (fun j _ => e _ _ _ _ (hq j) rfl), ← sum_list_swap]
    congr 1
    apply List.map_congr_left
    intro d _
    exact ranges_partition b hb d N
  have hsum : M = ∑ j, m j := by
    rw [hM, Finset.sum_congr rfl (fun j _ => hm j)] at hk
    exact_mod_cast hk
  have hlam : ∀ (i : ℕ) l, p.lam[i]? = some l → l = ∑ j, (q j).lam.getD i 0 := by
    intro i l hl
    obtain ⟨a0, C0, C1, ha, h0, h1, hL⟩ := lam_ends hp
    rw [hL, List.getElem?_map] at hl
    cases he : (linspace (-10 : ℝ) 5 n)[i]? with
    | none => rw [he] at hl; cases hl
    | some e =>
      rw [he] at hl
      injection hl with hl
      obtain ⟨V, hV⟩ : ∃ V : ℕ → ℝ, ∀ j v, pf.evaluate .cumulative (b j) (some a0) = .ok v → V j = v :=
        ⟨fun j => match pf.evaluate .cumulative (b j) (some a0) with | .ok v => v | .error _ => 0, fun j v h => by dsimp only; rw [h]⟩
      have hj : ∀ j : Fin N, (q j).lam.getD i 0 = (10 : ℝ) ^ e * ((V j - V (j + 1)) * cc.area) := by
        intro j
        obtain ⟨a0', D0, D1, ha', g0, g1, hD⟩ := lam_ends (hq j)
        rw [ha] at ha'
        injection ha' with ha'
        subst ha'
        rw [List.getD_eq_getElem?_getD, hD, List.getElem?_map, he, hV _ _ g0, hV _ _ g1]
        rfl
      rw [Finset.sum_congr rfl (fun j _ => hj j), ← Finset.mul_sum, ← Finset.sum_mul,
        Fin.sum_univ_eq_sum_range (fun j => V j - V (j + 1)) N, Finset.sum_range_sub', hV _ _ h0, hV _ _ h1, ← hl]
  have := combine c p0 p1 p3 hc simpson n (fun _ => pf) (fun _ => cc) (fun j : Fin N => b j) (fun j => b (j + 1)) (fun _ => none) (fun _ => false) q hq
    m hm hraw pf cc (b 0) (b N) none false p hp M hM hsum hrawp hlam
  rw [Fintype.card_fin] at this
  exact this

/-- **C145, counting areas.** Counts on separate areas which are merged: the likelihood of the merged count over a range of diameters is, at each
sampled age and up to one factor, the product of the likelihoods of the counts, with the impact rate counted once.  The merged count may list the
craters in any order. -/
theorem C145_areas_partial (pf : PFn) (c : Chron) (p0 p1 p3 : ℝ) (hc : GoodChron c p0 p1 p3) (simpson : Simpson) (l : List Reading.Count)
    (craters : List (ℝ × ℝ)) (area perimeter : ℝ) (hmerge : Reading.mergeCounts l = .ok (craters, area, perimeter)) (o : Reading.Count)
    (ho : o.craters.Perm craters) (hoa : o.area = area) (lo hi : ℝ) (n : ℕ) (q : Fin l.length → Pdf)
    (hq : ∀ j : Fin l.length, Craterpdf.init pf c simpson (source (.craters l[j])) lo hi none none false n = .ok (q j))
    (hres : ∀ j, Resolved p0 p1 p3 (q j)) (p : Pdf)
    (hp : Craterpdf.init pf c simpson (source (.craters o)) lo hi none none false n = .ok p) (hresp : Resolved p0 p1 p3 p) :
    ∃ z, 0 < z ∧ ∀ (i : ℕ) t y r, p.ts[i]? = some t → p.pdf[i]? = some y → c.phi t = .ok r →
      y * r ^ l.length = z * r * ∏ j, (q j).pdf.getD i 0 := by
  have hall : 2 ≤ l.length ∧ ∀ x ∈ l, x.prebinned = false ∧ x.perimeter.isSome := by
    unfold Reading.mergeCounts at hmerge
    split at hmerge
    · cases hmerge
    · next hn =>
      refine ⟨by omega, ?_⟩
      by_contra hc
      obtain ⟨e, he⟩ := mergeLoop_error l hc [] 0 0
      rw [he] at hmerge
      cases hmerge
  obtain ⟨cs, a, per, hm', hcs, ha, _⟩ := C50_merge_partial l hall.1 hall.2
  rw [hmerge] at hm'
  injection hm' with hm'
  obtain ⟨hm1, hm'⟩ := Prod.mk.inj hm'
  obtain ⟨hm2, _⟩ := Prod.mk.inj hm'
  rw [← hm1] at hcs
  rw [← hm2] at ha
  obtain ⟨M, hM, hrawp⟩ := hresp
  choose m hm hraw using hres
  have e : ∀ (o : Reading.Count) k' p', Craterpdf.init pf c simpson (source (.craters o)) lo hi k' none false n = .ok p' → k' = none →
      p'.k = (o.craters.map (fun d => if lo ≤ d.1 ∧ d.1 < hi then (1 : ℝ) else 0)).sum := by
    intro o k' p' h hk'
    obtain ⟨a0, s, pm, ph, w, bb⟩ := built h
    rw [bb.k_eq, hk', countK_list _ (o.craters.map Prod.fst) rfl (fun _ => rfl), List.map_map]
    rfl
  have hk : p.k = ∑ j, (q j).k := by
    rw [e _ _ _ hp rfl, (ho.map _).sum_eq, hcs, Finset.sum_congr rfl (fun j _ => e _ _ _ (hq j) rfl), List.map_flatMap]
    rw [sum_flatMap_list]
    exact (Fin.sum_univ_fun_getElem l (fun x => (x.craters.map (fun d => if lo ≤ d.1 ∧ d.1 < hi then (1 : ℝ) else 0)).sum)).symm
  have hsum : M = ∑ j, m j := by
    rw [hM, Finset.sum_congr rfl (fun j _ => hm j)] at hk
    exact_mod_cast hk
  have hlam : ∀ (i : ℕ) v, p.lam[i]? = some v → v = ∑ j, (q j).lam.getD i 0 := by
    intro i v hl
    obtain ⟨a0, C0, C1, ha0, h0, h1, hL⟩ := lam_ends hp
    rw [hL, List.getElem?_map] at hl
    cases he : (linspace (-10 : ℝ) 5 n)[i]? with
    | none => rw [he] at hl; cases hl
    | some e =>
      rw [he] at hl
      injection hl with hl
      have hj : ∀ j : Fin l.length, (q j).lam.getD i 0 = (10 : ℝ) ^ e * ((C0 - C1) * l[j].area) := by
        intro j
        obtain ⟨a0', D0, D1, ha', g0, g1, hD⟩ := lam_ends (hq j)
        rw [ha0] at ha'
        injection ha' with ha'
        subst ha'
        rw [h0] at g0
        rw [h1] at g1
        injection g0 with g0
        injection g1 with g1
        rw [List.getD_eq_getElem?_getD, hD, List.getElem?_map, he, ← g0, ← g1]
        rfl
      rw [Finset.sum_congr rfl (fun j _ => hj j), ← Finset.mul_sum, ← Finset.mul_sum, ← hl]
      show _ * (_ * o.area) = _
      rw [hoa, ha]
      congr 2
      exact (Fin.sum_univ_fun_getElem l Reading.Count.area).symm
  have := combine c p0 p1 p3 hc simpson n (fun _ => pf) (fun j => source (.craters l[j])) (fun _ => lo) (fun _ => hi) (fun _ => none) (fun _ => false)
    q hq m hm hraw pf _ lo hi none false p hp M hM hsum hrawp hlam
  rw [Fintype.card_fin] at this
  exact this

/-- Specification: up to a million craters, and the expected numbers at the sampled ages reach from below to above the count -/
def WithinGrid (p : Pdf) : Prop :=
  ∃ m : ℕ, p.k = m ∧ m ≤ 1000000 ∧ (∀ l ∈ p.lam.head?, l ≤ max (m : ℝ) 1) ∧ ∀ l ∈ p.lam.getLast?, (m : ℝ) ≤ l

theorem WithinGrid.resolved {pf : PFn} {c : Chron} {simpson : Simpson} {cc : Source} {lo hi : ℝ} {k : Option ℝ} {bcc : Bool} {n : ℕ} {p0 p1 p3 : ℝ}
    (hc : GoodChron c p0 p1 p3) (hn : 5000 ≤ n) (hp3 : 0.0001 ≤ p3) {p : Pdf} (h : Craterpdf.init pf c simpson cc lo hi k none bcc n = .ok p)
    (hw : WithinGrid p) : Resolved p0 p1 p3 p := by
  obtain ⟨m, hm, h1, h2, h3⟩ := hw
  exact ⟨m, hm, C25_resolved pf c simpson cc lo hi k bcc n p0 p1 p3 hc p h m hn hp3 h1 h2 h3⟩

/-- **C145, diameter ranges, as evaluated by the program** (5000 samples): no condition on the size of the likelihood is needed for up to a million
craters and ages within the grid -/
theorem C145_ranges (pf : PFn) (c : Chron) (p0 p1 p3 : ℝ) (hc : GoodChron c p0 p1 p3) (hp3 : 0.0001 ≤ p3) (simpson : Simpson) (cc : Source)
    (ds : List ℝ) (hds : cc.diam = some ds) (hne : ds ≠ []) (N : ℕ) (b : ℕ → ℝ) (hb : Monotone b) (q : Fin N → Pdf)
    (hq : ∀ j : Fin N, Craterpdf.init pf c simpson cc (b j) (b (j + 1)) none none false 5000 = .ok (q j)) (hgrid : ∀ j, WithinGrid (q j))
    (p : Pdf) (hp : Craterpdf.init pf c simpson cc (b 0) (b N) none none false 5000 = .ok p) (hgridp : WithinGrid p) :
    ∃ z, 0 < z ∧ ∀ (i : ℕ) t y r, p.ts[i]? = some t → p.pdf[i]? = some y → c.phi t = .ok r →
      y * r ^ N = z * r * ∏ j, (q j).pdf.getD i 0 :=
  C145_ranges_partial pf c p0 p1 p3 hc simpson cc ds hds hne 5000 N b hb q hq (fun j => (hgrid j).resolved hc le_rfl hp3 (hq j)) p hp
    (hgridp.resolved hc le_rfl hp3 hp)

/-- **C145, counting areas, as evaluated by the program** -/
theorem C145_areas (pf : PFn) (c : Chron) (p0 p1 p3 : ℝ) (hc : GoodChron c p0 p1 p3) (hp3 : 0.0001 ≤ p3) (simpson : Simpson)
    (l : List Reading.Count) (craters : List (ℝ × ℝ)) (area perimeter : ℝ) (hmerge : Reading.mergeCounts l = .ok (craters, area, perimeter))
    (o : Reading.Count) (ho : o.craters.Perm craters) (hoa : o.area = area) (lo hi : ℝ) (q : Fin l.length → Pdf)
    (hq : ∀ j : Fin l.length, Craterpdf.init pf c simpson (source (.craters l[j])) lo hi none none false 5000 = .ok (q j))
    (hgrid : ∀ j, WithinGrid (q j)) (p : Pdf)
    (hp : Craterpdf.init pf c simpson (source (.craters o)) lo hi none none false 5000 = .ok p) (hgridp : WithinGrid p) :
    ∃ z, 0 < z ∧ ∀ (i : ℕ) t y r, p.ts[i]? = some t → p.pdf[i]? = some y → c.phi t = .ok r →
      y * r ^ l.length = z * r * ∏ j, (q j).pdf.getD i 0 :=
  C145_areas_partial pf c p0 p1 p3 hc simpson l craters area perimeter hmerge o ho hoa lo hi 5000 q hq
    (fun j => (hgrid j).resolved hc le_rfl hp3 (hq j)) p hp (hgridp.resolved hc le_rfl hp3 hp)

/-- counts of a few craters on areas between 10 and 1000 km² with a production function 1/D: the evaluations exist and lie within the grid -/
theorem combine_example (simpson : Simpson) : ∃ c : Chron, GoodChron c 0 0 2 ∧
    ∀ (ds : List ℝ) (A : ℝ) (per : Option ℝ) (lo hi : ℝ), ds.length ≤ 8 → 10 ≤ A → A ≤ 1000 → 1 ≤ lo → hi ≤ 4 → 1 ≤ hi - lo →
      ∃ p, Craterpdf.init (initPoly [0, -1] none) c simpson ⟨some ds, [], A, per⟩ lo hi none none false 5000 = .ok p ∧ WithinGrid p := by
  obtain ⟨c, hc, _⟩ := (C14_construct [0, 0, 0, 2]).2 (by simp)
  have hg : GoodChron c 0 0 2 := ⟨_, hc, rfl, rfl, rfl, le_rfl, le_rfl, two_pos⟩
  have hN1 : c.N1 1 = .ok 2 := by
    rw [(Built.tables hg).2.1]
    norm_num [n1Coeff]
  have hN : c.a0 1 = .ok (log10 2) := by
    simp only [Chron.a0, hN1, except_ok_bind]
    norm_num
  have h0 : log10 2 ≠ 0 := by
    intro h0
    have := pow10_log10 two_pos
    rw [h0] at this
    norm_num at this
  have hev : ∀ d : ℝ, 0 < d → (initPoly [0, -1] none).evaluate .cumulative d (some (log10 2)) = .ok (2 * (1 / d)) := by
    intro x hx
    rw [(C18_evaluate_partial _ .cumulative x).1 _ _ h0 rfl]
    simp [initPoly, PFn.C, polyC_eq hx, poly_cons, poly_nil, pow10_add, Real.rpow_neg, pow10_log10 hx, pow10_log10 two_pos]
  refine ⟨c, hg, ?_⟩
  intro ds A per lo hi hlen hA1 hA2 h1 h3 h4
  have hlo : 0 < lo := by linarith
  have hhi : 0 < hi := by linarith
  have h2 : lo < hi := by linarith
  obtain ⟨m, hm, hm8⟩ : ∃ m : ℕ, countK none ⟨some ds, [], A, per⟩ lo hi = m ∧ m ≤ 8 := by
    cases ds with
    | nil => exact ⟨0, by simp [countK], by norm_num⟩
    | cons d ds => exact ⟨_, rfl, (List.length_filter_le _ _).trans hlen⟩
  have hm8' : (m : ℝ) ≤ 8 := by exact_mod_cast hm8
  have hK : 2 * (1 / lo) - 2 * (1 / hi) = 2 * (hi - lo) / (lo * hi) := by field_simp
  have h5 : (1 : ℝ) / 8 ≤ 2 * (hi - lo) / (lo * hi) := by
    rw [div_le_div_iff₀ (by norm_num) (by positivity)]
    nlinarith
  have h6 : 2 * (hi - lo) / (lo * hi) ≤ 6 := by
    rw [div_le_iff₀ (by positivity)]
    nlinarith
  obtain ⟨p, hp, _⟩ := C23_defined (initPoly [0, -1] none) c simpson ⟨some ds, [], A, per⟩ lo hi none 5000
    (by norm_num) 0 0 2 hg (log10 2) _ _ hN (hev lo hlo) (hev hi hhi) (by positivity) (by
      have := one_div_lt_one_div_of_lt hlo h2
      linarith) (by show (0 : ℝ) < A; linarith) m hm (by
      rw [hK]
      show (m : ℝ) ≤ _ * 10 ^ 5 * A
      nlinarith)
  refine ⟨p, hp, ?_⟩
  obtain ⟨a0, s, pm, ph, w, b⟩ := built hp
  obtain ⟨a0', c0, c1, ha, g0, g1, hL⟩ := lam_ends hp
  rw [hN] at ha
  injection ha with ha
  subst ha
  rw [hev lo hlo] at g0
  rw [hev hi hhi] at g1
  injection g0 with g0
  injection g1 with g1
  have e1 : (10 : ℝ) ^ (-10 : ℝ) = 1 / 10 ^ 10 := by
    rw [Real.rpow_neg (by norm_num), show (10 : ℝ) = ((10 : ℕ) : ℝ) by norm_num, Real.rpow_natCast]
    norm_num
  have e2 : (10 : ℝ) ^ (5 : ℝ) = 10 ^ 5 := by
    rw [show (5 : ℝ) = ((5 : ℕ) : ℝ) by norm_num, Real.rpow_natCast]
  refine ⟨m, b.k_eq.trans hm, by omega, ?_, ?_⟩
  · intro v hv
    rw [hL, List.head?_map, Option.mem_def, List.head?_eq_getElem?, List.getElem?_eq_getElem (by rw [linspace_length]; norm_num), linspace_zero,
      Option.map_some, Option.some.injEq] at hv
    rw [← hv, e1, ← g0, ← g1, hK]
    refine le_trans ?_ (le_max_right _ _)
    show 1 / 10 ^ 10 * (_ * A) ≤ 1
    nlinarith
  · intro v hv
    rw [hL, List.getLast?_map, Option.mem_def, List.getLast?_eq_getElem?, linspace_length,
      List.getElem?_eq_getElem (by rw [linspace_length]; norm_num), linspace_last (-10 : ℝ) 5 5000 (by norm_num) (by simp),
      Option.map_some, Option.some.injEq] at hv
    rw [← hv, e2, ← g0, ← g1, hK]
    show (m : ℝ) ≤ 10 ^ 5 * (_ * A)
    nlinarith

/-- four craters between 1 and 4 km, divided at 2 and 3 km -/
example (simpson : Simpson) : ∃ (c : Chron) (q : Fin 3 → Pdf) (p : Pdf), GoodChron c 0 0 2 ∧ (∀ j, WithinGrid (q j)) ∧ WithinGrid p ∧
    Craterpdf.init (initPoly [0, -1] none) c simpson ⟨some [1, 1.5, 2, 3], [], 10, none⟩ 1 4 none none false 5000 = .ok p ∧
    ∃ z, 0 < z ∧ ∀ (i : ℕ) t y r, p.ts[i]? = some t → p.pdf[i]? = some y → c.phi t = .ok r →
      y * r ^ 3 = z * r * ((q 0).pdf.getD i 0 * (q 1).pdf.getD i 0 * (q 2).pdf.getD i 0) := by
  obtain ⟨c, hg, hex⟩ := combine_example simpson
  have hq : ∀ j : Fin 3, ∃ q, Craterpdf.init (initPoly [0, -1] none) c simpson ⟨some [1, 1.5, 2, 3], [], 10, none⟩ (1 + ((j : ℕ) : ℝ))
      (1 + ((j + 1 : ℕ) : ℝ)) none none false 5000 = .ok q ∧ WithinGrid q := by
    intro j
    have : ((j : ℕ) : ℝ) ≤ 2 := by have := j.2; exact_mod_cast (by omega : (j : ℕ) ≤ 2)
    refine hex [1, 1.5, 2, 3] 10 none (1 + ((j : ℕ) : ℝ)) (1 + ((j + 1 : ℕ) : ℝ)) (by simp) le_rfl (by norm_num) ?_ ?_ ?_
    · have : (0 : ℝ) ≤ ((j : ℕ) : ℝ) := Nat.cast_nonneg _
      linarith
    · push_cast; linarith
    · push_cast; linarith
  choose q hq hgq using hq
  obtain ⟨p, hp, hgp⟩ := hex [1, 1.5, 2, 3] 10 none 1 4 (by simp) le_rfl (by norm_num) le_rfl le_rfl (by norm_num)
  refine ⟨c, q, p, hg, hgq, hgp, hp, ?_⟩
  have hp' : Craterpdf.init (initPoly [0, -1] none) c simpson ⟨some [1, 1.5, 2, 3], [], 10, none⟩ (1 + ((0 : ℕ) : ℝ)) (1 + ((3 : ℕ) : ℝ)) none none
      false 5000 = .ok p := by
    rw [← hp]; norm_num
  have := C145_ranges (initPoly [0, -1] none) c 0 0 2 hg (by norm_num) simpson _ _ rfl (by simp) 3 (fun j => 1 + (j : ℝ))
    (fun x y h => by dsimp only; have : (x : ℝ) ≤ y := by exact_mod_cast h
                     linarith) q hq hgq p hp' hgp
  simpa only [Fin.prod_univ_three] using this

/-- two counts on areas of 10 and 20 km² and the count merged from them -/
example (simpson : Simpson) : ∃ (c : Chron) (l : List Reading.Count) (o : Reading.Count) (q : Fin l.length → Pdf) (p : Pdf), l.length = 2 ∧
    Reading.mergeCounts l = .ok (o.craters, o.area, 30) ∧ o.craters.length = 3 ∧ GoodChron c 0 0 2 ∧
    (∀ j : Fin l.length, Craterpdf.init (initPoly [0, -1] none) c simpson (source (.craters l[j])) 1 3 none none false 5000 = .ok (q j)) ∧
    (∀ j, WithinGrid (q j)) ∧
    Craterpdf.init (initPoly [0, -1] none) c simpson (source (.craters o)) 1 3 none none false 5000 = .ok p ∧ WithinGrid p := by
  obtain ⟨c, hg, hex⟩ := combine_example simpson
  have h1 := hex [2] 10 (some 13) 1 3 (by simp) le_rfl (by norm_num) le_rfl (by norm_num) (by norm_num)
  have h2 := hex [2.5, 1.5] 20 (some 17) 1 3 (by simp) (by norm_num) (by norm_num) le_rfl (by norm_num) (by norm_num)
  obtain ⟨p, hp, hgp⟩ := hex [2, 2.5, 1.5] 30 (some 30) 1 3 (by simp) (by norm_num) (by norm_num) le_rfl (by norm_num) (by norm_num)
  have hq : ∀ j : Fin 2, ∃ q, Craterpdf.init (initPoly [0, -1] none) c simpson (source (.craters
      ([⟨[(2, 1)], 10, some 13, false, false⟩, ⟨[(2.5, 1), (1.5, 1)], 20, some 17, false, false⟩] : List Reading.Count)[j])) 1 3 none none false 5000 =
        .ok q ∧ WithinGrid q := by
    intro j
    match j with
    | 0 => exact h1
    | 1 => exact h2
  choose q hq hgq using hq
  refine ⟨c, [⟨[(2, 1)], 10, some 13, false, false⟩, ⟨[(2.5, 1), (1.5, 1)], 20, some 17, false, false⟩],
    ⟨[(2, 1), (2.5, 1), (1.5, 1)], 30, some 30, false, false⟩, q, p, rfl, ?_, rfl, hg, hq, hgq, hp, hgp⟩
  norm_num [Reading.mergeCounts, Reading.mergeLoop]

end

end Verif.Props
