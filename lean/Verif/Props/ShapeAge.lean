import Verif.Model.ShapeCount
import Verif.Props.SpatialAge
import Verif.Props.Spatial
import Verif.Props.StatFile

/-!
C151: ages of counts drawn as polygons in shapefiles.
-/

namespace Verif.Props

open Verif.Py Verif.Text Verif.Spec Verif.Rand Verif.CountFile Verif.Cratercount Verif.Chronology Verif.Production Verif.Craterpdf Verif.Age Verif.FileAge
open Verif.Spatial Verif.ShapeCount

noncomputable section

/-- Specification: of crater polygons on a sphere of radius `R`, how many overlap the counting area and have an area at least that of the cap of
diameter `lo` and below that of the cap of diameter `hi` (diameters along the surface) -/
def capsBetween (R : ℝ) (l : List CraterShape) (lo hi : ℝ) : ℕ :=
  l.countP (fun s => decide (0 < s.inter ∧ capArea R (lo / (2 * R)) ≤ s.area ∧ s.area < capArea R (hi / (2 * R))))

/-- without buffering, ages depend on the number of craters in the range and the area only -/
theorem age_congr {pf : PFn} {c : Chron} {simpson : Simpson} {s s' : Craterpdf.Source} {range : EReal × EReal} {ref : ℝ} (ha : s.area = s'.area)
    (hk : countK none s (clipE range.1 pf.range.1 pf.range.2) (clipE range.2 pf.range.1 pf.range.2) =
      countK none s' (clipE range.1 pf.range.1 pf.range.2) (clipE range.2 pf.range.1 pf.range.2)) :
    poissonAge pf c simpson s range false ref = poissonAge pf c simpson s' range false ref := by
  have e2 : ∀ lo hi a0 x, lams pf simpson s lo hi a0 false x = lams pf simpson s' lo hi a0 false x := by
    intro lo hi a0 x
    rw [lams, lams, if_neg (by simp), if_neg (by simp), ha]
  unfold poissonAge Craterpdf.init
  simp only [hk, e2]

theorem countK_diameters (l : List ℝ) (a : ℝ) (p : Option ℝ) (lo hi : ℝ) :
    countK none ⟨some l, [], a, p⟩ lo hi = (l.countP (fun e => decide (lo ≤ e ∧ e < hi)) : ℝ) := by
  rw [List.countP_eq_length_filter]
  cases l with
  | nil => simp [countK]
  | cons d l => rfl

/-- a polygon has a diameter in a range if its area lies between those of the caps -/
theorem diameter_between {R : ℝ} (hR : 0 < R) {A d x : ℝ} (hA : 0 < A) (hA' : A ≤ 4 * Real.pi * R ^ 2) (hd : sphericalDiameter R A = .ok d) (h0 : 0 ≤ x)
    (h1 : x ≤ 2 * Real.pi * R) : x ≤ d ↔ capArea R (x / (2 * R)) ≤ A := by
  have hpi := Real.pi_pos
  obtain ⟨D, g1, g2, _⟩ := C99_increasing R hR
  have hx0 : 0 ≤ x / (2 * R) := by positivity
  have hx1 : x / (2 * R) ≤ Real.pi := by rw [div_le_iff₀ (by positivity)]; linarith
  have hcap := C99_diameter R (x / (2 * R)) hR hx0 hx1
  have hc0 : 0 ≤ capArea R (x / (2 * R)) := by
    rw [capArea_eq]
    have := Real.cos_le_one (x / (2 * R))
    have : 0 ≤ 1 - Real.cos (x / (2 * R)) := by linarith
    positivity
  have hc1 : capArea R (x / (2 * R)) ≤ 4 * Real.pi * R ^ 2 := by
    rw [capArea_eq]
    have h := Real.neg_one_le_cos (x / (2 * R))
    have : 2 * Real.pi * R ^ 2 * (1 - Real.cos (x / (2 * R))) ≤ 2 * Real.pi * R ^ 2 * 2 := by
      apply mul_le_mul_of_nonneg_left _ (by positivity)
      linarith
    linarith
  have e1 : D A = d := by
    have := g1 A hA.le hA'
    rw [hd] at this
    injection this with this
    exact this.symm
  have e2 : D (capArea R (x / (2 * R))) = x := by
    have := g1 _ hc0 hc1
    rw [hcap] at this
    injection this with this
    rw [← this]
    field_simp
  have := g2.le_iff_le (a := capArea R (x / (2 * R))) (b := A) ⟨hc0, hc1⟩ ⟨hA.le, hA'⟩
  rw [e1, e2] at this
  exact this

theorem readShapes_append {R : ℝ} {l l' : List CraterShape} {a b r : List Stored} (h : readShapes R R l = .ok a) (h' : readShapes R R l' = .ok b)
    (hr : readShapes R R (l ++ l') = .ok r) : r = a ++ b := by
  unfold readShapes at h h' hr
  rw [if_neg (by simp)] at h h' hr
  obtain ⟨x, hx, h⟩ := except_bind_eq_ok h
  obtain ⟨y, hy, h'⟩ := except_bind_eq_ok h'
  rw [List.mapM_append, hx] at hr
  obtain ⟨z, hz, hr⟩ := except_bind_eq_ok hr
  rw [ok_bind, hy, ok_bind] at hz
  injection hz with hz
  injection h with h
  injection h' with h'
  injection hr with hr
  rw [← hr, ← hz, List.filter_append, h, h']

/-- opening a pair of shapefiles with valid polygons -/
theorem open_shapes' (C : Classes) (R area perimeter : ℝ) (l : List CraterShape) (hl : ∀ s ∈ l, ValidShape R s) (file : List Char) :
    ∃ (d f : CraterShape → ℝ), (∀ s ∈ l, sphericalDiameter R s.area = .ok (d s) ∧ fractionOf s = .ok (f s)) ∧
      openCount C (readShp R R area perimeter l) ".shp".toList file =
        .ok (.craters ⟨(l.filter (fun s => decide (0 < s.inter))).map (fun s => (d s, f s)), area, some perimeter, false, false⟩) := by
  obtain ⟨d, f, h1, h2, _⟩ := C99_craters R l hl
  have hf : ∀ s ∈ l, ∃ g, fractionOf s = .ok g ∧ (0 < g ↔ 0 < s.inter) := by
    intro s hs
    obtain ⟨h1, _, h3, h4, h5⟩ := hl s hs
    obtain ⟨inv, i1, _, _, _, i5, _, _, i8⟩ := C29_inverse
    unfold fractionOf
    by_cases hc : s.covered = true
    · exact ⟨1, by rw [if_pos hc], by rw [h5 hc]; exact ⟨fun _ => h1, fun _ => one_pos⟩⟩
    · refine ⟨inv (s.inter / s.area), by rw [if_neg hc, if_neg h1.ne', i1], ?_⟩
      have hu : s.inter / s.area ∈ Set.Icc (0 : ℝ) 1 := ⟨div_nonneg h3 h1.le, (div_le_one h1).2 h4⟩
      constructor
      · intro h
        rcases h3.lt_or_eq with h' | h'
        · exact h'
        · rw [← h', zero_div, i5] at h
          exact absurd h (lt_irrefl _)
      · intro h
        have := i8 (Set.left_mem_Icc.2 zero_le_one) hu (div_pos h h1)
        rwa [i5] at this
  choose! g hg using hf
  have hst : readShapes R R l = .ok ((l.map (fun s => (⟨d s, g s, s.lon, s.lat⟩ : Stored))).filter (fun c => decide (c.fraction > 0))) := by
    unfold readShapes
    rw [if_neg (by simp), mapM_all_ok (g' := fun s => (⟨d s, g s, s.lon, s.lat⟩ : Stored)) (fun s hs => by
      unfold storeOne
      rw [(h2 s hs).1, (hg s hs).1]
      rfl)]
    rfl
  have hfil : (l.map (fun s => (⟨d s, g s, s.lon, s.lat⟩ : Stored))).filter (fun c => decide (c.fraction > 0)) =
      (l.filter (fun s => decide (0 < s.inter))).map (fun s => (⟨d s, g s, s.lon, s.lat⟩ : Stored)) := by
    rw [List.filter_map]
    congr 1
    apply List.filter_congr
    intro s hs
    simp only [Function.comp, decide_eq_decide]
    exact (hg s hs).2
  refine ⟨d, g, fun s hs => ⟨(h2 s hs).1, (hg s hs).1⟩, ?_⟩
  unfold openCount
  rw [if_neg (by decide), if_neg (by decide), if_neg (by decide), if_pos rfl]
  unfold readShp
  rw [hst, hfil]
  show Except.ok (Opened.craters _) = _
  rw [List.map_map]
  rfl

theorem open_shapes (C : Classes) (R area perimeter : ℝ) (l : List CraterShape) (hl : ∀ s ∈ l, ValidShape R s) (file : List Char) :
    ∃ (d f : CraterShape → ℝ), (∀ s ∈ l, sphericalDiameter R s.area = .ok (d s)) ∧
      openCount C (readShp R R area perimeter l) ".shp".toList file =
        .ok (.craters ⟨(l.filter (fun s => decide (0 < s.inter))).map (fun s => (d s, f s)), area, some perimeter, false, false⟩) := by
  obtain ⟨d, f, h, h'⟩ := open_shapes' C R area perimeter l hl file
  exact ⟨d, f, fun s hs => (h s hs).1, h'⟩

theorem shapes_counted {R : ℝ} (hR : 0 < R) {l : List CraterShape} (hl : ∀ s ∈ l, ValidShape R s) {d f : CraterShape → ℝ}
    (hd : ∀ s ∈ l, sphericalDiameter R s.area = .ok (d s)) {lo hi : ℝ} (hlo : 0 ≤ lo) (hlh : lo ≤ hi) (hhi : hi ≤ 2 * Real.pi * R) (a : ℝ) (p : Option ℝ) :
    countK none ⟨some (((l.filter (fun s => decide (0 < s.inter))).map (fun s => (d s, f s))).map Prod.fst), [], a, p⟩ lo hi =
      (capsBetween R l lo hi : ℝ) := by
  rw [countK_diameters, List.map_map, List.countP_map, List.countP_filter, capsBetween]
  congr 1
  apply List.countP_congr
  intro s hs
  obtain ⟨a1, a2, _⟩ := hl s hs
  have b1 := diameter_between hR a1 a2 (hd s hs) hlo (hlh.trans hhi)
  have b2 := diameter_between hR a1 a2 (hd s hs) (hlo.trans hlh) hhi
  simp only [Function.comp, Bool.and_eq_true, decide_eq_true_eq]
  rw [b1, ← not_le, b2, not_le]
  tauto

/-- **C151, what is counted.** The age of a count drawn as polygons is that of the number of polygons which overlap the counting area and whose areas
lie between those of the spherical caps at the ends of the diameter range; the expected number at each sampled age is the density between
these limits on the isochron, times the counting area. -/
theorem C151_age_partial (C : Classes) (R area perimeter : ℝ) (hR : 0 < R) (l : List CraterShape) (hl : ∀ s ∈ l, ValidShape R s) (file : List Char)
    (pf : PFn) (hf : Constructed pf) (c : Chron) (simpson : Simpson) (range : EReal × EReal) (ref lo hi p0 p1 p3 N1 : ℝ) (hc : GoodChron c p0 p1 p3)
    (hN : c.N1 1 = .ok N1) (hN1 : N1 ≠ 1) (elo : lo = clipE range.1 pf.range.1 pf.range.2) (ehi : hi = clipE range.2 pf.range.1 pf.range.2)
    (hlo : 0 ≤ lo) (hlh : lo ≤ hi) (hhi : hi ≤ 2 * Real.pi * R) :
    ∃ o, openCount C (readShp R R area perimeter l) ".shp".toList file = .ok o ∧ ∀ r, ageOf pf c simpson o range false ref = .ok r →
      r.n = (capsBetween R l lo hi : ℝ) ∧ ∀ i < 5000, ∃ Nlo Nhi, pf.C lo (log10 (sampleDensity N1 5000 i)) = .ok Nlo ∧
        pf.C hi (log10 (sampleDensity N1 5000 i)) = .ok Nhi ∧ r.pdf.lam[i]? = some ((Nlo - Nhi) * area) := by
  obtain ⟨d, f, hd, ho⟩ := open_shapes C R area perimeter l hl file
  refine ⟨_, ho, ?_⟩
  intro r hr
  obtain ⟨i1, _, hn⟩ := age_parts hr
  constructor
  · obtain ⟨_, _, _, _, _, b⟩ := built i1
    rw [hn, b.k_eq, source, ← elo, ← ehi]
    exact shapes_counted hR hl hd hlo hlh hhi _ _
  · intro i hi'
    obtain ⟨Nlo, Nhi, g1, g2, g3, _⟩ := C81_expected pf hf c simpson _ _ _ none 5000 p0 p1 p3 hc N1 hN hN1 r.pdf i1 i hi'
    rw [← elo] at g1
    rw [← ehi] at g2
    exact ⟨Nlo, Nhi, g1, g2, g3⟩

/-- **C151, buffered ages.** With buffering the expected number at each sampled age is Simpson's integral of the differential isochron times the counting
area grown by half a crater diameter along its perimeter; the number counted is the same. -/
theorem C151_buffered_partial (C : Classes) (R area perimeter : ℝ) (hR : 0 < R) (l : List CraterShape) (hl : ∀ s ∈ l, ValidShape R s) (file : List Char)
    (pf : PFn) (hf : Constructed pf) (c : Chron) (simpson : Simpson) (hs : ∀ (q : ℝ) (y d : List ℝ), simpson (y.map (fun v => q * v)) d = q * simpson y d)
    (range : EReal × EReal) (ref lo hi p0 p1 p3 N1 : ℝ) (hc : GoodChron c p0 p1 p3)
    (hN : c.N1 1 = .ok N1) (elo : lo = clipE range.1 pf.range.1 pf.range.2) (ehi : hi = clipE range.2 pf.range.1 pf.range.2)
    (hlo : 0 ≤ lo) (hlh : lo ≤ hi) (hhi : hi ≤ 2 * Real.pi * R) :
    ∃ o, openCount C (readShp R R area perimeter l) ".shp".toList file = .ok o ∧ ∀ r, ageOf pf c simpson o range true ref = .ok r →
      r.n = (capsBetween R l lo hi : ℝ) ∧ ∀ i < 5000, ∃ (F : ℝ → ℝ) (t : ℝ),
        (∀ d ∈ linspace lo hi 500, pf.F d (log10 (sampleDensity N1 5000 i)) = .ok (F d)) ∧
        r.pdf.lam[i]? = some (simpson ((linspace lo hi 500).map (fun d => grownArea area perimeter d * F d)) (linspace lo hi 500)) ∧
        r.pdf.ts[i]? = some t ∧ c.t none (some (sampleDensity N1 5000 i)) = .ok t := by
  obtain ⟨d, f, hd, ho⟩ := open_shapes C R area perimeter l hl file
  refine ⟨_, ho, ?_⟩
  intro r hr
  obtain ⟨i1, _, hn⟩ := age_parts hr
  rw [← elo, ← ehi] at i1
  constructor
  · obtain ⟨_, _, _, _, _, b⟩ := built i1
    rw [hn, b.k_eq, source]
    exact shapes_counted hR hl hd hlo hlh hhi _ _
  · intro i hi'
    obtain ⟨F, g1, g2, t, g3, g4⟩ := C81_expected_buffered pf hf c simpson hs _ _ _ none 5000 p0 p1 p3 hc N1 hN perimeter rfl r.pdf i1 i hi'
    exact ⟨F, t, g1, g2, g3, g4⟩

/-- **C151, plots.** Plots and diameter ranges are those of a .diam file listing the polygons which overlap the counting area with their diameters and
fractions, on the same area. -/
theorem C151_plots_partial (C : Classes) (R area perimeter : ℝ) (l : List CraterShape) (hl : ∀ s ∈ l, ValidShape R s) (file : List Char) :
    ∃ (d f : CraterShape → ℝ) (o : Opened), (∀ s ∈ l, sphericalDiameter R s.area = .ok (d s) ∧ fractionOf s = .ok (f s)) ∧
      openCount C (readShp R R area perimeter l) ".shp".toList file = .ok o ∧
      ∀ (shp : Except Exc Reading.Count) (file' : List Char) (diam frac : List ℚ) (a : ℚ), ListsCraters C file' diam frac a → (a : ℝ) = area →
        ((diam.zip frac).map (fun x => ((x.1 : ℝ), (x.2 : ℝ)))).Perm ((l.filter (fun s => decide (0 < s.inter))).map (fun s => (d s, f s))) →
        ∃ o', openCount C shp ".diam".toList file' = .ok o' ∧ (∀ args, ((object o).getplotdata args).2 = ((object o').getplotdata args).2) ∧
          ∀ l0 l1 b snap, ((object o).decodeRange l0 l1 b snap).2 = ((object o').decodeRange l0 l1 b snap).2 := by
  obtain ⟨d, f, hd, ho⟩ := open_shapes' C R area perimeter l hl file
  refine ⟨d, f, _, hd, ho, ?_⟩
  intro shp file' diam frac a hlist ha hp
  obtain ⟨k', ho', hk', ha', _, hb', _⟩ := open_lists shp hlist
  refine ⟨_, ho', ?_, ?_⟩
  · intro args
    simp only [object, ha', hb', ha]
    exact (C04_plot_order_irrelevant _ _ (hp.symm.trans hk'.symm) _ args .bad .bad .none false).1
  · intro l0 l1 b snap
    simp only [object, ha', hb', ha]
    exact (C04_plot_order_irrelevant _ _ (hp.symm.trans hk'.symm) _ ⟨.cumulative, b, none, none, false, none⟩ l0 l1 b snap).2

/-- **C151, order and outside.** The order of the polygons in the shapefile and the polygons outside the counting area matter neither for ages, with
and without buffering, nor for plots and diameter ranges. -/
theorem C151_order_partial (C : Classes) (R area perimeter : ℝ) (l l' : List CraterShape) (hl : ∀ s ∈ l, ValidShape R s)
    (hl' : ∀ s ∈ l', ValidShape R s) (h : (l.filter (fun s => decide (0 < s.inter))).Perm (l'.filter (fun s => decide (0 < s.inter)))) (file file' : List Char) :
    ∃ o o', openCount C (readShp R R area perimeter l) ".shp".toList file = .ok o ∧
      openCount C (readShp R R area perimeter l') ".shp".toList file' = .ok o' ∧
      (∀ pf c simpson range bcc ref, ageOf pf c simpson o range bcc ref = ageOf pf c simpson o' range bcc ref) ∧
      (∀ args, ((object o).getplotdata args).2 = ((object o').getplotdata args).2) ∧
      ∀ l0 l1 b snap, ((object o).decodeRange l0 l1 b snap).2 = ((object o').decodeRange l0 l1 b snap).2 := by
  obtain ⟨d, f, h1, _⟩ := C99_craters R (l ++ l') (fun s hs => (List.mem_append.1 hs).elim (hl s) (hl' s))
  obtain ⟨d1, f1, e1, _⟩ := C99_craters R l hl
  obtain ⟨d2, f2, e2, _⟩ := C99_craters R l' hl'
  have e := readShapes_append e1 e2 h1
  rw [List.filter_append, List.map_append] at e
  obtain ⟨u1, u2⟩ := List.append_inj e (by rw [List.length_map, List.length_map])
  have ho : ∀ (m : List CraterShape) (file : List Char),
      readShapes R R m = .ok ((m.filter (fun s => decide (0 < s.inter))).map (fun s => ⟨d s, f s, s.lon, s.lat⟩)) →
      openCount C (readShp R R area perimeter m) ".shp".toList file =
        .ok (.craters ⟨(m.filter (fun s => decide (0 < s.inter))).map (fun s => (d s, f s)), area, some perimeter, false, false⟩) := by
    intro m file hm
    unfold openCount
    rw [if_neg (by decide), if_neg (by decide), if_neg (by decide), if_pos rfl]
    unfold readShp
    rw [hm]
    show Except.ok (Opened.craters _) = _
    rw [List.map_map]
    rfl
  have hp := h.map (fun s => (d s, f s))
  refine ⟨_, _, ho l file (by rw [e1, u1]), ho l' file' (by rw [e2, u2]), ?_, ?_, ?_⟩
  · intro pf c simpson range bcc ref
    exact age_perm (hp.map Prod.fst) _ _ _ _ _ _ _ _
  · intro args
    exact (C04_plot_order_irrelevant _ _ hp _ args .bad .bad .none false).1
  · intro l0 l1 b snap
    exact (C04_plot_order_irrelevant _ _ hp _ ⟨.cumulative, b, none, none, false, none⟩ l0 l1 b snap).2

/-- Specification: a diameter is not within the error of seven printed digits of a limit -/
def Apart (x : ℝ) (d : ℚ) : Prop := (d : ℝ) < |(d : ℝ) - x| * (2 * 10 ^ 6)

theorem apart_side {x : ℝ} {d : ℚ} (h0 : 0 < d) (h : Apart x d) : x ≤ ((sciSigned 6 d : ℚ) : ℝ) ↔ x ≤ (d : ℝ) := by
  have hr := sci_relative 6 h0
  have hr : |((sciSigned 6 d : ℚ) : ℝ) - (d : ℝ)| * (2 * 10 ^ 6) ≤ (d : ℝ) := by exact_mod_cast hr
  have h : |((sciSigned 6 d : ℚ) : ℝ) - (d : ℝ)| < |(d : ℝ) - x| := by
    have : |((sciSigned 6 d : ℚ) : ℝ) - (d : ℝ)| * (2 * 10 ^ 6) < |(d : ℝ) - x| * (2 * 10 ^ 6) := lt_of_le_of_lt hr h
    exact lt_of_mul_lt_mul_right this (by norm_num)
  generalize ((sciSigned 6 d : ℚ) : ℝ) = r at h
  constructor
  · intro hx
    by_contra hc
    rw [abs_of_neg (a := (d : ℝ) - x) (by linarith), abs_lt] at h
    linarith [h.2]
  · intro hx
    rw [abs_of_nonneg (a := (d : ℝ) - x) (by linarith), abs_lt] at h
    linarith [h.1]

/-- **C151, conversion.** A count of polygons converted to an .scc file has the ages of the shapefiles, on the area written, for diameter ranges
without craters at the limits; the area written differs from that of the shapefiles by at most five parts in a million. -/
theorem C151_converted_partial (C : Classes) (R area perimeter : ℝ) (l : List CraterShape) (file0 : List Char)
    (version : List Char) (S : Scc.Source) (shapes : List (List (List Scc.Pt))) (h : Convertible version S shapes) (sep : List Char)
    (hsep : sep = ['\n'] ∨ sep = ['\r', '\n']) (hpos : 0 < S.area) (hS : (S.area : ℝ) = area) (hdpos : ∀ c ∈ S.craters, 0 < c.diam) (k : Reading.Count)
    (_hk : openCount C (readShp R R area perimeter l) ".shp".toList file0 = .ok (.craters k))
    (hcr : (S.craters.map (fun c => (c.diam : ℝ))).Perm (k.craters.map Prod.fst)) :
    ∃ file o a, Scc.writeScc sep version S = .ok file ∧ openCount C (readShp R R area perimeter l) ".scc".toList file = .ok o ∧
      |a - area| * 200000 ≤ area ∧ ∀ (pf : PFn) c simpson (range : EReal × EReal) ref (lo hi : ℝ),
        lo = clipE range.1 pf.range.1 pf.range.2 → hi = clipE range.2 pf.range.1 pf.range.2 →
        (∀ c ∈ S.craters, Apart lo c.diam ∧ Apart hi c.diam) →
        ageOf pf c simpson o range false ref = ageOf pf c simpson (.craters { k with area := a }) range false ref := by
  obtain ⟨file, k', h1, h2, hk', _, ha, hper⟩ :=
    C78_converted_partial C (readShp R R area perimeter l) h.texts shapes h.shapes_eq h.points h.rings sep hsep h.area h.perimeter
  refine ⟨file, _, ((sciSigned 5 S.area : ℚ) : ℝ), h1, h2, ?_, ?_⟩
  · have := sci_relative 5 hpos
    rw [← hS]
    have : |((sciSigned 5 S.area : ℚ) : ℝ) - (S.area : ℝ)| * (2 * 10 ^ 5) ≤ (S.area : ℝ) := by exact_mod_cast this
    linarith
  · intro pf c simpson range ref lo hi elo ehi hap
    unfold ageOf
    refine age_congr (by simp only [source, ha]) ?_
    rw [← elo, ← ehi]
    simp only [source]
    rw [countK_diameters, countK_diameters]
    have e := hk'.map Prod.fst
    rw [List.map_map] at e
    rw [e.countP_eq, ← hcr.countP_eq, List.countP_map, List.countP_map]
    congr 1
    apply List.countP_congr
    intro x hx
    have h0 := hdpos x hx
    have b1 := apart_side h0 (hap x hx).1
    have b2 := apart_side h0 (hap x hx).2
    simp only [Function.comp, decide_eq_true_eq]
    rw [b1, ← not_le, b2, not_le]

/-- polygons meeting the hypotheses: one cut by the boundary and one outside -/
example : (∀ s ∈ [(⟨10, false, 4, 20, 30⟩ : CraterShape), ⟨20, false, 0, 40, 30⟩], ValidShape 1737.4 s) ∧
    capsBetween 1737.4 [(⟨10, false, 4, 20, 30⟩ : CraterShape), ⟨20, false, 0, 40, 30⟩] 0 (2 * Real.pi * 1737.4) = 1 := by
  have hpi := Real.pi_gt_three
  refine ⟨?_, ?_⟩
  · intro s hs
    simp only [List.mem_cons, List.not_mem_nil, or_false] at hs
    rcases hs with rfl | rfl <;> refine ⟨by norm_num, ?_, by norm_num, by norm_num, by simp⟩ <;> norm_num <;> nlinarith
  · have e1 : capArea 1737.4 (0 / (2 * 1737.4)) = 0 := by rw [capArea_eq]; simp
    have e2 : capArea 1737.4 (2 * Real.pi * 1737.4 / (2 * 1737.4)) = 4 * Real.pi * 1737.4 ^ 2 := by
      rw [capArea_eq, show 2 * Real.pi * 1737.4 / (2 * 1737.4) = Real.pi by field_simp, Real.cos_pi]; ring
    have h10 : (10 : ℝ) < 4 * Real.pi * 1737.4 ^ 2 := by norm_num; nlinarith
    rw [capsBetween, e1, e2]
    simp [h10]

/-- polygons with the diameters of the sample count -/
example (C : Classes) (file : List Char) : ∃ (l : List CraterShape) (k : Reading.Count), (∀ s ∈ l, ValidShape 1 s) ∧
    openCount C (readShp 1 1 100 50 l) ".shp".toList file = .ok (.craters k) ∧
    (exampleSource.craters.map (fun c => (c.diam : ℝ))).Perm (k.craters.map Prod.fst) := by
  have hpi := Real.pi_pos
  have hv : ∀ θ : ℝ, 0 < θ → θ ≤ 1 → ValidShape 1 ⟨capArea 1 θ, true, capArea 1 θ, 0, 0⟩ := by
    intro θ h0 h1
    have hc : Real.cos θ < 1 := by
      rw [← Real.cos_zero]
      exact Real.cos_lt_cos_of_nonneg_of_le_pi le_rfl (by linarith [Real.pi_gt_three]) h0
    have hc' := Real.neg_one_le_cos θ
    have hpos : 0 < capArea 1 θ := by
      rw [capArea_eq]
      have : 0 < 1 - Real.cos θ := by linarith
      positivity
    refine ⟨hpos, ?_, hpos.le, le_rfl, fun _ => rfl⟩
    show capArea 1 θ ≤ 4 * Real.pi * 1 ^ 2
    rw [capArea_eq]
    nlinarith
  have hl : ∀ s ∈ [(⟨capArea 1 1, true, capArea 1 1, 0, 0⟩ : CraterShape), ⟨capArea 1 (1 / 4), true, capArea 1 (1 / 4), 0, 0⟩], ValidShape 1 s := by
    intro s hs
    simp only [List.mem_cons, List.not_mem_nil, or_false] at hs
    rcases hs with rfl | rfl
    · exact hv 1 (by norm_num) le_rfl
    · exact hv (1 / 4) (by norm_num) (by norm_num)
  obtain ⟨d, f, hd, ho⟩ := open_shapes C 1 100 50 _ hl file
  refine ⟨_, _, hl, ho, ?_⟩
  have e1 := hd _ List.mem_cons_self
  have e2 := hd _ (List.mem_cons_of_mem _ List.mem_cons_self)
  rw [C99_diameter 1 1 one_pos (by norm_num) (by linarith [Real.pi_gt_three])] at e1
  rw [C99_diameter 1 (1 / 4) one_pos (by norm_num) (by linarith [Real.pi_gt_three])] at e2
  injection e1 with e1
  injection e2 with e2
  have p1 := (hl _ List.mem_cons_self).1
  have p2 := (hl _ (List.mem_cons_of_mem _ List.mem_cons_self)).1
  simp only at p1 p2
  rw [List.filter_cons, if_pos (by simpa using p1), List.filter_cons, if_pos (by simpa using p2), List.filter_nil]
  simp only [List.map_cons, List.map_nil, ← e1, ← e2, exampleSource]
  norm_num

example : Apart 10 3 ∧ ¬ Apart 3 3 := by
  unfold Apart
  constructor <;> norm_num

/-- **C151, radii.** Shapefiles of craters and areas on spheres of different radius are not opened. -/
theorem C151_radii (C : Classes) (rc ra area perimeter : ℝ) (h : rc ≠ ra) (l : List CraterShape) (file : List Char) :
    ∃ e, openCount C (readShp rc ra area perimeter l) ".shp".toList file = .error e := by
  unfold openCount
  rw [if_neg (by decide), if_neg (by decide), if_neg (by decide), if_pos rfl]
  unfold readShp
  rw [C99_radii rc ra h l]
  exact ⟨_, rfl⟩

/-- the Moon and Mars -/
example (C : Classes) (l : List CraterShape) (file : List Char) : ∃ e, openCount C (readShp 1737.4 3396.19 100 40 l) ".shp".toList file = .error e :=
  C151_radii C _ _ _ _ (by norm_num) l file

end

end Verif.Props
