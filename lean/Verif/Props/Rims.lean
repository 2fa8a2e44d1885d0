import Verif.Model.Rims
import Verif.Props.Spatial
import Verif.Props.BinCraters
import Verif.Props.Convert
import Verif.Py.Dict
import Mathlib.Analysis.SpecialFunctions.Trigonometric.Bounds

/-! C116: craters written as shapes; C117: the file of the counting area. -/

namespace Verif.Props
open Verif.Py Verif.Text Verif.Cli Verif.Spatial

/-! ### C116 -/

theorem origin_near (x : ℝ) : |x - ((Rand.roundInt (x / 5) * 5 : ℤ) : ℝ)| ≤ 5 / 2 := by
  have h := roundInt_near (x / 5)
  rw [abs_le] at h ⊢
  push_cast
  constructor <;> linarith [h.1, h.2]

/-- Specification: every transformer remembered is that of its origin -/
def Faithful (make : Origin → Projection) (t : Cache) : Prop := ∀ o P, dictGet t o = some P → P = make o

theorem remember_spec (make : Origin → Projection) (t : Cache) (o : Origin) (h : Faithful make t) :
    Faithful make (remember make t o) ∧ dictGet (remember make t o) o = some (make o) := by
  unfold remember
  cases hd : dictGet t o with
  | some P => exact ⟨h, by rw [hd, h o P hd]⟩
  | none =>
    dsimp only
    refine ⟨fun o' P hP => ?_, by rw [dictGet_set, if_pos rfl]⟩
    rw [dictGet_set] at hP
    split_ifs at hP with he
    · subst he; exact (Option.some.inj hP).symm
    · exact h o' P hP

theorem rimStep_spec (make : Origin → Projection) (ns : ℕ) (st : Cache × List Ring) (c : Place) (h : Faithful make st.1) :
    ∃ t, rimStep make ns st c = .ok (t, st.2 ++ [(circle ns).map (fun e =>
      (make (originOf c.lon c.lat)).inv (((make (originOf c.lon c.lat)).fwd (c.lon, c.lat)).1 + e.1 * (c.diam * 1000 / 2),
        ((make (originOf c.lon c.lat)).fwd (c.lon, c.lat)).2 + e.2 * (c.diam * 1000 / 2)))]) ∧ Faithful make t := by
  obtain ⟨h1, h2⟩ := remember_spec make st.1 (originOf c.lon c.lat) h
  refine ⟨_, ?_, h1⟩
  simp only [rimStep, h2]

theorem rims_spec (make : Origin → Projection) (ns : ℕ) (l : List Place) : ∀ (st : Cache × List Ring), Faithful make st.1 →
    ∃ t, l.foldlM (rimStep make ns) st = .ok (t, st.2 ++ l.map (fun c => (circle ns).map (fun e =>
      (make (originOf c.lon c.lat)).inv (((make (originOf c.lon c.lat)).fwd (c.lon, c.lat)).1 + e.1 * (c.diam * 1000 / 2),
        ((make (originOf c.lon c.lat)).fwd (c.lon, c.lat)).2 + e.2 * (c.diam * 1000 / 2))))) := by
  induction l with
  | nil => intro st _; exact ⟨st.1, by simp; rfl⟩
  | cons c l ih =>
    intro st h
    obtain ⟨t, h1, h2⟩ := rimStep_spec make ns st c h
    obtain ⟨t', h3⟩ := ih (t, _) h2
    refine ⟨t', ?_⟩
    rw [List.foldlM_cons, h1, ok_bind, h3]
    simp

/-- Specification: a ring is the outline of a crater with `ns` corners, drawn in the projection `P`: its points are those at the
angles `0, 2π/ns, …, 2π` on the circle (in metres) whose centre is the image of the centre of the crater and whose diameter is that
of the crater. -/
def OutlineIn (P : Projection) (ns : ℕ) (c : Place) (ring : Ring) : Prop :=
  ring.length = ns + 1 ∧ ∀ i ≤ ns, ∃ p : ℝ × ℝ, ring[i]? = some (P.inv p) ∧
    p.1 - (P.fwd (c.lon, c.lat)).1 = 500 * c.diam * Real.cos (2 * Real.pi * i / ns) ∧
    p.2 - (P.fwd (c.lon, c.lat)).2 = 500 * c.diam * Real.sin (2 * Real.pi * i / ns)

/-- **C116: outlines.**  For any number of craters there is one outline per crater, in their order: a closed ring of `ns` corners on a
circle of the crater's diameter around its centre, drawn in a projection whose origin lies within 2.5 degrees of that centre in
longitude and latitude. -/
theorem C116_rims (make : Origin → Projection) (ns : ℕ) (hns : 0 < ns) (l : List Place) :
    ∃ rims, findRims make ns l = .ok rims ∧ rims.length = l.length ∧
      ∀ (k : ℕ) (c : Place) (ring : Ring), l[k]? = some c → rims[k]? = some ring → ring.head? = ring.getLast? ∧
        ∃ o : ℤ × ℤ, (5 : ℤ) ∣ o.1 ∧ (5 : ℤ) ∣ o.2 ∧ |c.lon - (o.1 : ℝ)| ≤ 5 / 2 ∧ |c.lat - (o.2 : ℝ)| ≤ 5 / 2 ∧ OutlineIn (make o) ns c ring := by
  obtain ⟨t, ht⟩ := rims_spec make ns l ([], []) (fun o P h => by simp [dictGet] at h)
  refine ⟨_, by rw [findRims, if_neg (by omega), ht]; rfl, by simp, ?_⟩
  intro k c ring hc hr
  simp only [List.nil_append, List.getElem?_map, hc, Option.map_some, Option.some.injEq] at hr
  subst hr
  have hne : (ns : ℝ) ≠ 0 := by exact_mod_cast hns.ne'
  refine ⟨?_, originOf c.lon c.lat, ⟨_, mul_comm _ _⟩, ⟨_, mul_comm _ _⟩, origin_near _, origin_near _, by simp [circle], ?_⟩
  · rw [List.getLast?_eq_getElem?, List.head?_eq_getElem?]
    simp only [circle, List.length_map, List.length_range, Nat.add_sub_cancel, List.getElem?_map,
      List.getElem?_range (show 0 < ns + 1 by omega), List.getElem?_range (show ns < ns + 1 by omega), Option.map_some]
    rw [mul_div_assoc _ (ns : ℝ), div_self hne]
    simp
  · intro i hi
    refine ⟨(((make (originOf c.lon c.lat)).fwd (c.lon, c.lat)).1 + Real.cos (2 * Real.pi * i / ns) * (c.diam * 1000 / 2),
      ((make (originOf c.lon c.lat)).fwd (c.lon, c.lat)).2 + Real.sin (2 * Real.pi * i / ns) * (c.diam * 1000 / 2)), ?_, ?_, ?_⟩
    · simp only [circle, List.getElem?_map, List.getElem?_range (show i < ns + 1 by omega), Option.map_some]
    · dsimp only; ring
    · dsimp only; ring

/-- an example: a crater of 2 km at 12.5° E (halves are rounded to the even multiple) 3° S -/
example : ∃ ring, findRims (fun o => ⟨fun p => (p.1 - o.1, p.2 - o.2), fun p => (p.1 + o.1, p.2 + o.2)⟩) 4 [⟨2, 12.5, -3⟩] = .ok [ring] ∧
    ring.length = 5 := by
  obtain ⟨rims, h, hl, hk⟩ := C116_rims (fun o => ⟨fun p => (p.1 - o.1, p.2 - o.2), fun p => (p.1 + o.1, p.2 + o.2)⟩) 4 (by omega) [⟨2, 12.5, -3⟩]
  match rims, hl with
  | [ring], _ =>
    obtain ⟨_, _, _, _, _, _, h3, _⟩ := hk 0 _ ring rfl rfl
    exact ⟨ring, h, h3⟩

/-- Specification: the area enclosed by the corners `p 0, …, p (n - 1), p n` (with `p n = p 0`) joined by straight lines. -/
noncomputable def ringArea (n : ℕ) (p : ℕ → ℝ × ℝ) : ℝ := (∑ i ∈ Finset.range n, ((p i).1 * (p (i + 1)).2 - (p (i + 1)).1 * (p i).2)) / 2

/-- the area of a regular polygon, anywhere in the plane -/
theorem ringArea_regular (n : ℕ) (hn : 0 < n) (q : ℝ × ℝ) (r : ℝ) :
    ringArea n (fun i : ℕ => (q.1 + r * Real.cos (2 * Real.pi * i / n), q.2 + r * Real.sin (2 * Real.pi * i / n))) =
      n * r ^ 2 * Real.sin (2 * Real.pi / n) / 2 := by
  have hne : (n : ℝ) ≠ 0 := by exact_mod_cast hn.ne'
  unfold ringArea
  have e : ∀ i : ℕ, ((q.1 + r * Real.cos (2 * Real.pi * i / n)) * (q.2 + r * Real.sin (2 * Real.pi * ((i + 1 : ℕ) : ℝ) / n)) -
      (q.1 + r * Real.cos (2 * Real.pi * ((i + 1 : ℕ) : ℝ) / n)) * (q.2 + r * Real.sin (2 * Real.pi * i / n))) =
      r ^ 2 * Real.sin (2 * Real.pi / n) +
      ((q.1 * r * Real.sin (2 * Real.pi * ((i + 1 : ℕ) : ℝ) / n) - q.2 * r * Real.cos (2 * Real.pi * ((i + 1 : ℕ) : ℝ) / n)) -
        (q.1 * r * Real.sin (2 * Real.pi * i / n) - q.2 * r * Real.cos (2 * Real.pi * i / n))) := by
    intro i
    have h : Real.sin (2 * Real.pi / n) = Real.sin (2 * Real.pi * ((i + 1 : ℕ) : ℝ) / n - 2 * Real.pi * i / n) := by
      congr 1; push_cast; ring
    rw [h, Real.sin_sub]
    ring
  dsimp only
  rw [Finset.sum_congr rfl (fun i _ => e i), Finset.sum_add_distrib,
    Finset.sum_range_sub (fun i : ℕ => q.1 * r * Real.sin (2 * Real.pi * i / n) - q.2 * r * Real.cos (2 * Real.pi * i / n)) n]
  have h1 : 2 * Real.pi * (n : ℝ) / n = 2 * Real.pi := by field_simp
  rw [h1]
  simp
  ring

/-- **C116: size of the outlines.**  In its projection a written outline (of 100 corners) encloses `50 r² sin(π / 50)` square metres,
where `r` is the radius of the crater in metres. -/
theorem C116_area (P : Projection) (hP : ∀ p, P.fwd (P.inv p) = p) (c : Place) (ring : Ring) (h : OutlineIn P 100 c ring) :
    ringArea 100 (fun i => P.fwd (ring.getD i (0, 0))) = 50 * (500 * c.diam) ^ 2 * Real.sin (Real.pi / 50) := by
  obtain ⟨hlen, hp⟩ := h
  have e : ∀ i ≤ 100, P.fwd (ring.getD i (0, 0)) = ((P.fwd (c.lon, c.lat)).1 + 500 * c.diam * Real.cos (2 * Real.pi * i / (100 : ℕ)),
      (P.fwd (c.lon, c.lat)).2 + 500 * c.diam * Real.sin (2 * Real.pi * i / (100 : ℕ))) := by
    intro i hi
    obtain ⟨p, h1, h2, h3⟩ := hp i hi
    rw [List.getD_eq_getElem?_getD, h1, Option.getD_some, hP]
    ext
    · dsimp only; linarith
    · dsimp only; linarith
  have := ringArea_regular 100 (by norm_num) (P.fwd (c.lon, c.lat)) (500 * c.diam)
  have h2 : ringArea 100 (fun i => P.fwd (ring.getD i (0, 0))) = ringArea 100 (fun i : ℕ =>
      ((P.fwd (c.lon, c.lat)).1 + 500 * c.diam * Real.cos (2 * Real.pi * i / (100 : ℕ)),
      (P.fwd (c.lon, c.lat)).2 + 500 * c.diam * Real.sin (2 * Real.pi * i / (100 : ℕ)))) := by
    unfold ringArea
    congr 1
    refine Finset.sum_congr rfl (fun i hi => ?_)
    have := Finset.mem_range.1 hi
    dsimp only
    rw [e i (by omega), e (i + 1) (by omega)]
  rw [h2, this]
  have h3 : 2 * Real.pi / ((100 : ℕ) : ℝ) = Real.pi / 50 := by push_cast; ring
  rw [h3]; push_cast; ring

/-- `sin (π / 50)` in relation to `π / 50` -/
theorem corner_loss : 9993 / 10000 * (Real.pi / 50) < Real.sin (Real.pi / 50) ∧
    Real.sin (Real.pi / 50) < 99936 / 100000 * (Real.pi / 50) := by
  have h1 : (314 : ℝ) / 100 < Real.pi := by have := Real.pi_gt_d2; norm_num at this ⊢; exact this
  have h2 : Real.pi < (315 : ℝ) / 100 := by have := Real.pi_lt_d2; norm_num at this ⊢; exact this
  generalize hy : Real.pi / 50 = y
  have hy0 : (628 : ℝ) / 10000 < y := by rw [← hy]; linarith
  have hy1 : y < (63 : ℝ) / 1000 := by rw [← hy]; linarith
  have hb := Real.sin_bound (x := y) (by rw [abs_le]; constructor <;> linarith)
  have hpos : 0 < y := by linarith
  rw [abs_le, abs_of_pos hpos] at hb
  have q1 : y ^ 2 < (63 / 1000) ^ 2 := by nlinarith
  have q2 : (628 / 10000 : ℝ) ^ 2 < y ^ 2 := by nlinarith
  have q3 : y ^ 3 = y * y ^ 2 := by ring
  have q4 : y ^ 4 = y * y * y ^ 2 := by ring
  have q5 : y * y * y ^ 2 ≤ y * (63 / 1000) * (63 / 1000) ^ 2 := by
    have : y * y ≤ y * (63 / 1000) := by nlinarith
    nlinarith [mul_nonneg hpos.le hpos.le]
  constructor
  · have : y * y ^ 2 ≤ y * (63 / 1000) ^ 2 := by nlinarith
    nlinarith [hb.1]
  · have : y * (628 / 10000) ^ 2 ≤ y * y ^ 2 := by nlinarith
    nlinarith [hb.2]

/-- **C116: diameters read back from the outlines.**  A crater of at most a sixth of the planetary radius which is written as a shape of
100 corners and read again (from the area which it encloses in the equal-area projection) has become smaller, by less than 0.04 %. -/
theorem C116_read_back (R : ℝ) (P : Projection) (hP : ∀ p, P.fwd (P.inv p) = p) (c : Place) (ring : Ring) (h : OutlineIn P 100 c ring)
    (hd : 0 < c.diam) (hR : 6 * c.diam ≤ R) :
    ∃ d, sphericalDiameter R (ringArea 100 (fun i => P.fwd (ring.getD i (0, 0))) / 1000000) = .ok d ∧
      9996 / 10000 * c.diam < d ∧ d < c.diam := by
  rw [C116_area P hP c ring h]
  obtain ⟨hl, hu⟩ := corner_loss
  have hπ := Real.pi_pos
  have hRp : 0 < R := by linarith
  generalize hs : Real.sin (Real.pi / 50) = s at hl hu
  have hs0 : 0 < s := lt_trans (by positivity) hl
  -- the half angle
  set x := c.diam / (4 * R) with hx
  have hx0 : 0 < x := by positivity
  have hx1 : x ≤ 1 / 24 := by rw [hx, div_le_div_iff₀ (by positivity) (by norm_num)]; linarith
  set κ := Real.sqrt (50 * s / Real.pi) with hκ
  have hk2 : κ ^ 2 = 50 * s / Real.pi := Real.sq_sqrt (by positivity)
  have hκ0 : 0 ≤ κ := Real.sqrt_nonneg _
  have e1 : 50 * s / Real.pi < 99936 / 100000 := by rw [div_lt_iff₀ hπ]; linarith
  have e2 : 9993 / 10000 < 50 * s / Real.pi := by rw [lt_div_iff₀ hπ]; linarith
  have hκu : κ < 9997 / 10000 := by
    by_contra hc
    push Not at hc
    nlinarith
  have hκl : 9996 / 10000 < κ := by
    by_contra hc
    push Not at hc
    nlinarith
  have hkx : κ * x < Real.sin x := by
    have hb := Real.sin_bound (x := x) (by rw [abs_le]; constructor <;> linarith)
    rw [abs_le, abs_of_pos hx0] at hb
    have q1 : x ^ 3 ≤ x * (1 / 24) ^ 2 := by
      have : x ^ 2 ≤ (1 / 24) ^ 2 := by nlinarith
      nlinarith
    have q2 : x ^ 4 ≤ x * (1 / 24) ^ 3 := by
      have : x * x ≤ x * (1 / 24) := by nlinarith
      have h2 : x ^ 2 ≤ (1 / 24) ^ 2 := by nlinarith
      nlinarith [mul_nonneg hx0.le hx0.le]
    nlinarith [hb.1]
  have hz : 1 - 50 * (500 * c.diam) ^ 2 * s / 1000000 / (2 * Real.pi * R ^ 2) = Real.cos (2 * Real.arcsin (κ * x)) := by
    rw [Real.cos_two_mul, Real.cos_sq', Real.sin_arcsin (by nlinarith) (by nlinarith), mul_pow κ x, hk2, hx]
    field_simp
    ring
  have ha0 : 0 ≤ Real.arcsin (κ * x) := Real.arcsin_nonneg.2 (by positivity)
  have ha1 : Real.arcsin (κ * x) < x := by
    rw [Real.arcsin_lt_iff_lt_sin' ⟨by linarith, by linarith [Real.pi_gt_three]⟩]
    exact hkx
  have ha2 : κ * x ≤ Real.arcsin (κ * x) := by
    have := Real.sin_le ha0
    rwa [Real.sin_arcsin (by nlinarith) (by nlinarith)] at this
  refine ⟨2 * R * (2 * Real.arcsin (κ * x)), ?_, ?_, ?_⟩
  · unfold sphericalDiameter
    dsimp only
    rw [hz, if_pos ⟨Real.neg_one_le_cos _, Real.cos_le_one _⟩, Real.arccos_cos (by linarith) (by linarith [Real.pi_gt_three])]
  · have : c.diam = 4 * R * x := by rw [hx]; field_simp
    rw [this]
    nlinarith [mul_lt_mul_of_pos_right hκl hx0]
  · have : c.diam = 4 * R * x := by rw [hx]; field_simp
    rw [this]
    nlinarith

/-- a crater of one kilometre, of the Moon, in a plane projection of which nothing but the invertibility is used -/
example : ∃ d, sphericalDiameter 1737.4 (50 * (500 * 1) ^ 2 * Real.sin (Real.pi / 50) / 1000000) = .ok d ∧ 9996 / 10000 * 1 < d ∧ d < 1 := by
  obtain ⟨rims, _, hl, hk⟩ := C116_rims (fun _ => ⟨id, id⟩) 100 (by omega) [⟨1, 10, 20⟩]
  match rims, hl with
  | [ring], _ =>
    obtain ⟨_, o, _, _, _, _, ho⟩ := hk 0 _ ring rfl rfl
    have h := C116_read_back 1737.4 ⟨id, id⟩ (fun _ => rfl) ⟨1, 10, 20⟩ ring ho (by norm_num) (by norm_num)
    rw [C116_area ⟨id, id⟩ (fun _ => rfl) _ ring ho] at h
    exact h

/-- **C116: the two files.**  If the counting area is one polygon, the crater file has one record per crater, in their order, with its
diameter, its position and its outline, and the area file has the outline and the holes of the area. -/
theorem C116_written (make : Origin → Projection) (l : List Place) (outline : Ring) (holes : List Ring) :
    ∃ recs, writeShp make l (.polygon outline holes) = ⟨some recs, some [("Area_1".toList, outline :: holes)], none⟩ ∧
      recs.length = l.length ∧ ∀ (k : ℕ) (c : Place), l[k]? = some c → ∃ rec, recs[k]? = some rec ∧
        rec.diam = c.diam ∧ rec.lon = c.lon ∧ rec.lat = c.lat ∧
        ∃ o : ℤ × ℤ, |c.lon - (o.1 : ℝ)| ≤ 5 / 2 ∧ |c.lat - (o.2 : ℝ)| ≤ 5 / 2 ∧ OutlineIn (make o) 100 c rec.rim := by
  obtain ⟨rims, h1, h2, h3⟩ := C116_rims make 100 (by omega) l
  refine ⟨List.zipWith (fun (p : Place) r => ⟨p.diam, p.lon, p.lat, r⟩) l rims, ?_, by simp [h2], ?_⟩
  · rw [writeShp, h1]
    have : areaName 0 = "Area_1".toList := by decide +kernel
    simp only [polygonToPts, List.mapIdx_cons, List.mapIdx_nil, this]
  · intro k c hc
    have hk : k < rims.length := by
      rw [h2]
      exact (List.getElem?_eq_some_iff.1 hc).1
    obtain ⟨_, o, _, _, h4, h5, h6⟩ := h3 k c rims[k] hc (List.getElem?_eq_getElem hk)
    exact ⟨⟨c.diam, c.lon, c.lat, rims[k]⟩, by simp [List.getElem?_zipWith, hc, List.getElem?_eq_getElem hk], rfl, rfl, rfl, o, h4, h5, h6⟩

/-- **C116 (counterexample): several counting areas.**  A count with separate parts cannot be written: the crater file is there, the
area file is not. -/
theorem C116_parts_counterexample (make : Origin → Projection) (l : List Place) (parts : List (Ring × List Ring)) :
    ∃ recs, writeShp make l (.multi parts) = ⟨some recs, none, some .attribute⟩ ∧ recs.length = l.length := by
  obtain ⟨rims, h1, h2, _⟩ := C116_rims make 100 (by omega) l
  refine ⟨List.zipWith (fun (p : Place) r => ⟨p.diam, p.lon, p.lat, r⟩) l rims, ?_, by simp [h2]⟩
  rw [writeShp, h1]
  rfl

/-! ### C117 -/

theorem craterToArea_none : ∀ (n : ℕ) (s : List Char), ¬ "CRATER".toList <:+: s → craterToArea n s = s := by
  intro n
  induction n with
  | zero => intro s _; rfl
  | succ n ih =>
    intro s hs
    unfold craterToArea
    rw [if_neg (fun h => hs h.isInfix)]
    cases s with
    | nil => rfl
    | cons c t =>
      dsimp only
      rw [ih t (fun h => hs (h.trans (List.suffix_cons c t).isInfix))]

/-- one occurrence, with nothing of the kind before or after it -/
theorem craterToArea_one : ∀ (a b : List Char) (n : ℕ), a.length < n →
    (∀ k, k < a.length → ¬ "CRATER".toList <+: (a ++ "CRATER".toList ++ b).drop k) → ¬ "CRATER".toList <:+: b →
    craterToArea n (a ++ "CRATER".toList ++ b) = a ++ "AREA".toList ++ b := by
  intro a
  induction a with
  | nil =>
    intro b n hn _ hb
    obtain ⟨m, rfl⟩ : ∃ m, n = m + 1 := ⟨n - 1, by simp at hn; omega⟩
    unfold craterToArea
    rw [if_pos (by rw [List.nil_append]; exact List.prefix_append _ _)]
    have : ([] ++ "CRATER".toList ++ b).drop 6 = b := by rw [List.nil_append]; rfl
    rw [this, craterToArea_none _ _ hb]
    rfl
  | cons c a ih =>
    intro b n hn hk hb
    obtain ⟨m, rfl⟩ : ∃ m, n = m + 1 := ⟨n - 1, by simp at hn; omega⟩
    unfold craterToArea
    rw [if_neg (by have := hk 0 (by simp); rwa [List.drop_zero] at this)]
    simp only [List.cons_append]
    rw [ih b m (by simp at hn; omega) (fun k h => by have := hk (k + 1) (by simp; omega); simpa using this) hb]

/-- Specification: the word occurs exactly once, between `a` and `b`. -/
def OnlyHere (w a b : List Char) : Prop := ∀ x y, x ++ w ++ y = a ++ w ++ b → x = a

theorem onlyHere_before {w a b : List Char} (h : OnlyHere w a b) : ∀ k, k < a.length → ¬ w <+: (a ++ w ++ b).drop k := by
  rintro k hk ⟨t, ht⟩
  have := h ((a ++ w ++ b).take k) t (by rw [List.append_assoc, ht, List.take_append_drop])
  have hl := congrArg List.length this
  simp at hl
  omega

theorem onlyHere_after {w a b : List Char} (h : OnlyHere w a b) (hw : w ≠ []) : ¬ w <:+: b := by
  rintro ⟨x, y, hxy⟩
  have := h (a ++ w ++ x) y (by simp only [← hxy, List.append_assoc])
  have hl := congrArg List.length this
  have : 0 < w.length := List.length_pos_iff.2 hw
  simp only [List.length_append] at hl
  omega

/-- **C117: the file of the counting area.**  If no area file is given and the word `CRATER` occurs once in the name of the crater file
`<dir><a>CRATER<b>.shp`, the counting area is read from `<dir><a>AREA<b>.shp`. -/
theorem C117_area_file {C : Classes} {dir a b e : List Char} (hp : PathOf C dir (a ++ "CRATER".toList ++ b)) (he : IsExt C 4 ('.' :: e))
    (h : OnlyHere "CRATER".toList a b) :
    areaFile C (dir ++ (a ++ "CRATER".toList ++ b) ++ '.' :: e) none = .ok (dir ++ (a ++ "AREA".toList ++ b) ++ '.' :: e) := by
  have e1 : filename C (dir ++ (a ++ "CRATER".toList ++ b) ++ '.' :: e) ['n'] none none 4 = .ok (a ++ "CRATER".toList ++ b) := by
    rw [filename_ext (by omega) hp he]
    show Except.ok ((a ++ "CRATER".toList ++ b) ++ []) = _
    rw [List.append_nil]
  unfold areaFile
  dsimp only
  rw [e1, ok_bind, insert_name hp he, craterToArea_one _ _ _ (by simp) (onlyHere_before h) (onlyHere_after h (by decide))]

theorem crater_suffix (C : Classes) : ∀ c ∈ "_CRATER".toList, nameCh C c = true := by
  intro c hc
  have h1 : ∀ c ∈ "_CRATER".toList, c.toNat < 128 ∧ (c.isAlphanum || c == '_') = true := by decide
  obtain ⟨a, b⟩ := h1 c hc
  have : C.word c = true := by rw [C.word_ascii _ a]; exact b
  rw [nameCh, this]; simp

theorem only_suffix {s : List Char} (h : ¬ "CRATER".toList <:+: s) : OnlyHere "CRATER".toList (s ++ ['_']) [] := by
  intro x y hxy
  have hl := congrArg List.length hxy
  have h6 : "CRATER".toList.length = 6 := by decide
  simp only [List.length_append, List.length_nil, List.length_singleton, h6] at hl
  rcases Nat.lt_or_ge s.length x.length with h1 | h1
  · have : x.length = s.length + 1 := by omega
    have h2 := congrArg (List.take x.length) hxy
    rw [List.append_assoc, List.take_left] at h2
    rw [h2, this]
    have : s.length + 1 = (s ++ ['_']).length := by simp
    rw [List.append_assoc, this, List.take_left]
  · exfalso
    rcases Nat.lt_or_ge s.length (x.length + 6) with h2 | h2
    · have h3 := congrArg (fun l => l[s.length]?) hxy
      rw [List.append_assoc x, List.getElem?_append_right h1, List.getElem?_append_left (by rw [h6]; omega),
        List.append_assoc, List.append_assoc, List.getElem?_append_right (le_refl _), Nat.sub_self] at h3
      have h4 : '_' ∈ "CRATER".toList := List.mem_of_getElem? h3
      exact absurd h4 (by decide)
    · apply h
      have h3 := congrArg (List.take s.length) hxy
      have h4 : (s ++ ['_'] ++ "CRATER".toList ++ []).take s.length = s := by
        rw [List.append_assoc, List.append_assoc, List.take_left]
      rw [h4] at h3
      have h5 : (x ++ "CRATER".toList ++ y).take s.length = x ++ "CRATER".toList ++ y.take (s.length - (x.length + 6)) := by
        have h7 : (x ++ "CRATER".toList).length = x.length + 6 := by rw [List.length_append, h6]
        rw [List.take_append, h7, List.take_of_length_le (by omega)]
      exact ⟨x, _, h5.symm.trans h3⟩

/-- **C117: a written pair is found again.**  After conversion to shapefiles under the name `<odir><oname>`, which does not contain the
word `CRATER`, the area file belonging to the crater file is the one that has been written. -/
theorem C117_pair_partial {C : Classes} {j : ConvertJob} {sdir base odir oname : List Char}
    (h : Asked C j sdir base "scc".toList odir oname "shp".toList) (hn : ¬ "CRATER".toList <:+: oname) :
    ∃ fc fa r, convert C j = .ok ([.craters fc, .areas fa], .written r) ∧ areaFile C fc none = .ok fa := by
  obtain ⟨r, hr⟩ := C88_shapefiles h
  refine ⟨_, _, r, hr, ?_⟩
  have hp : PathOf C odir ((oname ++ ['_']) ++ "CRATER".toList ++ []) := by
    have := h.out_path.append (crater_suffix C) (by decide)
    simpa using this
  have he : IsExt C 4 ('.' :: "shp".toList) := h.to_ext
  have := C117_area_file hp he (only_suffix hn)
  have e1 : odir ++ oname ++ "_CRATER.shp".toList = odir ++ ((oname ++ ['_']) ++ "CRATER".toList ++ []) ++ '.' :: "shp".toList := by simp
  have e2 : odir ++ oname ++ "_AREA.shp".toList = odir ++ ((oname ++ ['_']) ++ "AREA".toList ++ []) ++ '.' :: "shp".toList := by simp
  rw [e1, e2]
  exact this

/-- the conversion `-convert shp` of `count.scc` with the name `maps/mare` -/
example : convert .ascii ⟨"shp".toList, "count.scc".toList, "maps/mare".toList, false, false⟩ =
    .ok ([.craters "maps/mare_CRATER.shp".toList, .areas "maps/mare_AREA.shp".toList], .written "maps/mare[_CRATER,_AREA].shp".toList) ∧
    areaFile .ascii "maps/mare_CRATER.shp".toList none = .ok "maps/mare_AREA.shp".toList ∧
    areaFile .ascii "maps/CRATER_mare.shp".toList none = .ok "maps/AREA_mare.shp".toList := by
  decide +kernel

/-- **C117 (counterexample): names with the word.**  Converted under the name `CRATERS`, the count is written to `CRATERS_CRATER.shp`
and `CRATERS_AREA.shp`, but opening the first looks for `AREAS_AREA.shp`. -/
theorem C117_pair_counterexample : convert .ascii ⟨"shp".toList, "count.scc".toList, "CRATERS".toList, false, false⟩ =
    .ok ([.craters "CRATERS_CRATER.shp".toList, .areas "CRATERS_AREA.shp".toList], .written "CRATERS[_CRATER,_AREA].shp".toList) ∧
    areaFile .ascii "CRATERS_CRATER.shp".toList none = .ok "AREAS_AREA.shp".toList := by
  decide +kernel

/-- **C117 (counterexample): names without the word.**  Without the word `CRATER` in its name and without an area file given, the crater
file itself is taken for the counting area. -/
theorem C117_same_file_counterexample {C : Classes} {dir base e : List Char} (hp : PathOf C dir base) (he : IsExt C 4 ('.' :: e))
    (h : ¬ "CRATER".toList <:+: base) : areaFile C (dir ++ base ++ '.' :: e) none = .ok (dir ++ base ++ '.' :: e) := by
  have e1 : filename C (dir ++ base ++ '.' :: e) ['n'] none none 4 = .ok base := by
    rw [filename_ext (by omega) hp he]
    show Except.ok (base ++ []) = _
    rw [List.append_nil]
  unfold areaFile
  dsimp only
  rw [e1, ok_bind, insert_name hp he, craterToArea_none _ _ h]

example : areaFile .ascii "d/c_crater.shp".toList none = .ok "d/c_crater.shp".toList := by decide +kernel

end Verif.Props
