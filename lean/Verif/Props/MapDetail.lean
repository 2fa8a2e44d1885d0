import Mathlib.Analysis.SpecialFunctions.Complex.Arg
import Verif.Model.MapDetail
import Verif.Props.Measure
import Verif.Props.BinCraters

/-! Property C136: what is drawn over the maps of a randomness analysis. -/

namespace Verif.Props

open Verif.Py Verif.Spatial Verif.Rand Verif.Cratercount Verif.MapDetail

/-- Specification: `G` calculates shortest lines for the distance `dist`. -/
structure Shortest (G : Geod) (dist : ℝ × ℝ → ℝ × ℝ → ℝ) : Prop where
  nonneg : ∀ p q, 0 ≤ dist p q
  self : ∀ p, dist p p = 0
  symm : ∀ p q, dist p q = dist q p
  tri : ∀ p q r, dist p r ≤ dist p q + dist q r
  length : ∀ p q, (G.inv p q).2 = dist p q
  start : ∀ p q, dist p (G.fwd p (G.inv p q).1 0) = 0
  finish : ∀ p q, dist (G.fwd p (G.inv p q).1 (dist p q)) q = 0
  along : ∀ p q s t, 0 ≤ s → s ≤ t → t ≤ dist p q →
    dist (G.fwd p (G.inv p q).1 s) (G.fwd p (G.inv p q).1 t) = t - s

/-- Specification: `x` lies between `p` and `q`. -/
def OnEdge (dist : ℝ × ℝ → ℝ × ℝ → ℝ) (p x q : ℝ × ℝ) : Prop := dist p x + dist x q = dist p q

/-- Specification: `x` lies on an edge of the closed line `r`. -/
def OnRing (dist : ℝ × ℝ → ℝ × ℝ → ℝ) (r : Ring) (x : ℝ × ℝ) : Prop := ∃ e ∈ r.zip r.tail, OnEdge dist e.1 x e.2

theorem mem_fractions {f : ℝ} (h : f ∈ fractions) : ∃ j : ℕ, j < 20 ∧ f = j / 20 := by
  unfold fractions at h
  obtain ⟨j, hj, rfl⟩ := List.mem_map.1 h
  exact ⟨j, List.mem_range.1 hj, by ring⟩

theorem fractions_eq : fractions = (List.range 20).map (fun j : ℕ => (j : ℝ) / 20) :=
  List.map_congr_left (fun j _ => by ring)

/-- the edges of a ring, with the one from the last place to the first -/
theorem ringPlaces_eq (G : Geod) (a : ℝ × ℝ) (l : Ring) :
    ringPlaces G (a :: l) = ((a :: l).zip (l ++ [a])).flatMap (fun e => edgePlaces G e.1 e.2) := by
  unfold ringPlaces
  rw [List.flatMap_def, List.flatMap_def]
  congr 1
  apply List.ext_getElem
  · simp
  · intro i h1 h2
    simp only [List.length_map, List.length_range] at h1
    have h3 : (a :: l)[i]? = some (a :: l)[i] := List.getElem?_eq_getElem h1
    have h4 : (a :: l)[(i + 1) % (a :: l).length]? = some ((l ++ [a])[i]'(by simpa using h1)) := by
      simp only [List.length_cons] at h1 ⊢
      rcases Nat.lt_or_ge i l.length with h | h
      · rw [Nat.mod_eq_of_lt (by omega), List.getElem?_cons_succ, List.getElem_append_left h, List.getElem?_eq_getElem h]
      · have : i = l.length := by omega
        subst this
        simp
    simp only [List.getElem_map, List.getElem_zip, List.getElem_range, h3, h4]

theorem edgePlaces_self {G : Geod} {dist : ℝ × ℝ → ℝ × ℝ → ℝ} (hG : Shortest G dist) (a : ℝ × ℝ) : edgePlaces G a a = [a] := by
  unfold edgePlaces
  dsimp only
  rw [hG.length, hG.self, if_neg]
  have := Real.pi_pos
  intro h
  linarith

theorem zip_close (a : ℝ × ℝ) : ∀ (b : ℝ × ℝ) (l : Ring), (b :: l).getLast? = some a →
    (b :: l).zip (l ++ [a]) = (b :: l).zip l ++ [(a, a)] := by
  intro b l
  induction l generalizing b with
  | nil => intro h; simp at h; simp [h]
  | cons c l ih =>
    intro h
    rw [List.getLast?_cons_cons] at h
    rw [List.cons_append, List.zip_cons_cons, ih c h, List.zip_cons_cons, List.cons_append]

/-- the places drawn for a closed ring -/
theorem ringPlaces_closed {G : Geod} {dist : ℝ × ℝ → ℝ × ℝ → ℝ} (hG : Shortest G dist) {a : ℝ × ℝ} {l : Ring}
    (h : (a :: l).getLast? = some a) :
    ringPlaces G (a :: l) = ((a :: l).zip l).flatMap (fun e => edgePlaces G e.1 e.2) ++ [a] := by
  rw [ringPlaces_eq, zip_close a a l h, List.flatMap_append]
  simp [edgePlaces_self hG]

section

variable {G : Geod} {dist : ℝ × ℝ → ℝ × ℝ → ℝ}

theorem at_dist (hG : Shortest G dist) (p q : ℝ × ℝ) {t : ℝ} (h0 : 0 ≤ t) (h1 : t ≤ dist p q) :
    dist p (G.fwd p (G.inv p q).1 t) = t ∧ dist (G.fwd p (G.inv p q).1 t) q = dist p q - t := by
  have s := hG.start p q
  have f := hG.finish p q
  have a := hG.along p q 0 t le_rfl h0 h1
  have b := hG.along p q t (dist p q) h0 h1 le_rfl
  have t1 := hG.tri p (G.fwd p (G.inv p q).1 0) (G.fwd p (G.inv p q).1 t)
  have t2 := hG.tri (G.fwd p (G.inv p q).1 0) p (G.fwd p (G.inv p q).1 t)
  have t3 := hG.tri (G.fwd p (G.inv p q).1 t) (G.fwd p (G.inv p q).1 (dist p q)) q
  have t4 := hG.tri p (G.fwd p (G.inv p q).1 t) q
  rw [hG.symm (G.fwd p (G.inv p q).1 0) p] at t2
  constructor
  · linarith
  · linarith

/-- two places at distance zero have the same distances -/
theorem dist_congr (hG : Shortest G dist) {x y : ℝ × ℝ} (h : dist x y = 0) (z : ℝ × ℝ) : dist x z = dist y z := by
  have h1 := hG.tri x y z
  have h2 := hG.tri y x z
  rw [hG.symm y x] at h2
  linarith

theorem between_congr (hG : Shortest G dist) {p q x y : ℝ × ℝ} (h : dist x y = 0) (hb : OnEdge dist p x q) : OnEdge dist p y q := by
  unfold OnEdge at *
  rw [hG.symm p y, ← dist_congr hG h, ← dist_congr hG h, hG.symm x p]
  exact hb

theorem between_ends (hG : Shortest G dist) (p q : ℝ × ℝ) : OnEdge dist p p q ∧ OnEdge dist p q q := by
  unfold OnEdge
  rw [hG.self, hG.self]
  simp

/-- how far apart neighbouring places may be, on an edge of length `d` -/
noncomputable def stepOf (d : ℝ) : ℝ := max (2 * Real.pi / 1800) (d / 20)

/-- the places of one edge -/
theorem edgePlaces_spec (hG : Shortest G dist) (p q : ℝ × ℝ) : ∃ x l, edgePlaces G p q = x :: l ∧ dist p x = 0 ∧
    (∀ y ∈ x :: l, OnEdge dist p y q) ∧ (x :: l).IsChain (fun y z => dist y z ≤ stepOf (dist p q)) ∧
    ∀ y ∈ (x :: l).getLast?, dist y q ≤ stepOf (dist p q) := by
  unfold edgePlaces
  dsimp only
  rw [hG.length]
  split_ifs with h
  · set d := dist p q with hd
    have hd0 : 0 ≤ d := hG.nonneg p q
    set g : ℕ → ℝ × ℝ := fun j => G.fwd p (G.inv p q).1 (d * (j / 20)) with hg
    have hl : fractions.map (fun f => G.fwd p (G.inv p q).1 (d * f)) = (List.range 20).map g := by
      rw [fractions_eq, List.map_map]
      rfl
    have hle : ∀ j : ℕ, j ≤ 20 → 0 ≤ d * ((j : ℝ) / 20) ∧ d * ((j : ℝ) / 20) ≤ d := by
      intro j hj
      have : (j : ℝ) ≤ 20 := by exact_mod_cast hj
      constructor
      · positivity
      · have : d * ((j : ℝ) / 20) ≤ d * 1 := mul_le_mul_of_nonneg_left (by linarith) hd0
        linarith
    have hcons : (List.range 20).map g = g 0 :: (List.range 19).map (fun j => g (j + 1)) := by
      rw [List.range_succ_eq_map]
      simp [List.map_map, Function.comp_def]
    refine ⟨g 0, (List.range 19).map (fun j => g (j + 1)), by rw [hl, hcons], ?_, ?_, ?_, ?_⟩
    · have := hG.start p q
      simpa [hg] using this
    · rw [← hcons]
      intro y hy
      obtain ⟨j, hj, rfl⟩ := List.mem_map.1 hy
      rw [List.mem_range] at hj
      obtain ⟨h0, h1⟩ := hle j (by omega)
      obtain ⟨e1, e2⟩ := at_dist hG p q h0 h1
      unfold OnEdge
      rw [e1, e2]
      ring
    · rw [← hcons, List.isChain_map]
      rw [List.isChain_range]
      intro j hj
      obtain ⟨h0, _⟩ := hle j (by omega)
      obtain ⟨_, h1⟩ := hle (j + 1) (by omega)
      have := hG.along p q (d * ((j : ℝ) / 20)) (d * (((j + 1 : ℕ) : ℝ) / 20)) h0
        (mul_le_mul_of_nonneg_left (by push_cast; linarith) hd0) h1
      rw [this]
      refine le_trans ?_ (le_max_right _ _)
      push_cast
      linarith
    · rw [← hcons]
      intro y hy
      rw [List.getLast?_map, List.getLast?_range] at hy
      simp at hy
      subst hy
      obtain ⟨h0, h1⟩ := hle 19 (by omega)
      rw [(at_dist hG p q h0 h1).2]
      refine le_trans ?_ (le_max_right _ _)
      push_cast
      linarith
  · refine ⟨p, [], rfl, hG.self p, ?_, by simp, ?_⟩
    · intro y hy
      simp at hy
      subst hy
      exact (between_ends hG _ _).1
    · intro y hy
      simp at hy
      subst hy
      exact le_trans (not_lt.1 h) (le_max_left _ _)

/-- neighbouring places lie on one edge, not far apart -/
def Near (dist : ℝ × ℝ → ℝ × ℝ → ℝ) (E : List ((ℝ × ℝ) × (ℝ × ℝ))) (y z : ℝ × ℝ) : Prop :=
  ∃ e ∈ E, OnEdge dist e.1 y e.2 ∧ OnEdge dist e.1 z e.2 ∧ dist y z ≤ stepOf (dist e.1 e.2)

/-- the places of a line -/
theorem path_spec (hG : Shortest G dist) (E : List ((ℝ × ℝ) × (ℝ × ℝ))) : ∀ (l : Ring) (a z : ℝ × ℝ), (∀ e ∈ (a :: l).zip l, e ∈ E) →
    (a :: l).getLast? = some z → ∃ x m, ((a :: l).zip l).flatMap (fun e => edgePlaces G e.1 e.2) ++ [z] = x :: m ∧ dist a x = 0 ∧
      (x :: m).IsChain (Near dist E) ∧ (∃ s, s.Sublist (x :: m) ∧ List.Forall₂ (fun v y => dist v y = 0) (a :: l) s) ∧
      (l ≠ [] → ∀ y ∈ x :: m, ∃ e ∈ E, OnEdge dist e.1 y e.2) := by
  intro l
  induction l with
  | nil =>
    intro a z _ h
    simp at h
    subst h
    refine ⟨a, [], by simp, hG.self a, by simp, ⟨[a], List.Sublist.refl _, .cons (hG.self a) .nil⟩, fun h => absurd rfl h⟩
  | cons b l ih =>
    intro a z hE h
    rw [List.getLast?_cons_cons] at h
    rw [List.zip_cons_cons] at hE ⊢
    have hab : (a, b) ∈ E := hE _ List.mem_cons_self
    obtain ⟨x, m, e, h1, h2, ⟨s, hs, hv⟩, h3⟩ := ih b z (fun e he => hE e (List.mem_cons_of_mem _ he)) h
    obtain ⟨y, k, e', g1, g2, g3, g4⟩ := edgePlaces_spec hG a b
    have hx : OnEdge dist a x b := between_congr hG h1 (between_ends hG a b).2
    refine ⟨y, k ++ (x :: m), ?_, g1, ?_, ⟨y :: s, ?_, .cons g1 hv⟩, ?_⟩
    · rw [List.flatMap_cons, List.append_assoc, e, e', List.cons_append]
    · rw [← List.cons_append, List.isChain_append]
      refine ⟨?_, h2, ?_⟩
      · have : ∀ w : Ring, (∀ u ∈ w, OnEdge dist a u b) → w.IsChain (fun y z => dist y z ≤ stepOf (dist a b)) → w.IsChain (Near dist E) := by
          intro w
          induction w with
          | nil => intro _ _; simp
          | cons u w ihw =>
            intro hw hc
            cases w with
            | nil => simp
            | cons u' w =>
              rw [List.isChain_cons_cons] at hc ⊢
              exact ⟨⟨(a, b), hab, hw u (by simp), hw u' (by simp), hc.1⟩, ihw (fun t ht => hw t (List.mem_cons_of_mem _ ht)) hc.2⟩
        exact this _ g2 g3
      · intro u hu v hv'
        simp at hv'
        subst hv'
        refine ⟨(a, b), hab, g2 u (List.mem_of_getLast? hu), hx, ?_⟩
        have := g4 u hu
        rw [hG.symm, ← dist_congr hG h1, hG.symm]
        exact this
    · exact (hs.trans (List.sublist_append_right k _)).cons₂ y
    · intro _ u hu
      rw [← List.cons_append, List.mem_append] at hu
      rcases hu with hu | hu
      · exact ⟨(a, b), hab, g2 u hu⟩
      · by_cases hl : l = []
        · subst hl
          simp at e
          obtain ⟨e1, e2⟩ := e
          subst e1 e2
          simp at hu
          subst hu
          exact ⟨(a, b), hab, hx⟩
        · exact h3 hl u hu

/-- Specification: a closed line of at least one edge. -/
def ClosedRing (r : Ring) : Prop := 2 ≤ r.length ∧ r.head? = r.getLast?

/-- Specification: the places follow the closed line `r`: they begin and end where it does, pass all its corners in order, lie on its edges, and any two
next to each other lie on one edge, at most a twentieth of its length apart or π/900 (0.2 degrees). -/
structure Follows (dist : ℝ × ℝ → ℝ × ℝ → ℝ) (r places : Ring) : Prop where
  corners : ∃ s, s.Sublist places ∧ List.Forall₂ (fun v y => dist v y = 0) r s
  closed : ∃ x m, places = x :: m ∧ ∀ y ∈ places.getLast?, dist x y = 0
  onto : ∀ y ∈ places, OnRing dist r y
  near : places.IsChain (fun y z => ∃ e ∈ r.zip r.tail, OnEdge dist e.1 y e.2 ∧ OnEdge dist e.1 z e.2 ∧
    dist y z ≤ max (Real.pi / 900) (dist e.1 e.2 / 20))

theorem ringPlaces_follows (hG : Shortest G dist) {r : Ring} (hr : ClosedRing r) : Follows dist r (ringPlaces G r) := by
  obtain ⟨h2, hc⟩ := hr
  cases r with
  | nil => simp at h2
  | cons a l =>
    rw [List.head?_cons] at hc
    have hl : l ≠ [] := by
      rintro rfl
      simp at h2
    obtain ⟨x, m, e, h1, hn, hs, hb⟩ := path_spec hG ((a :: l).zip l) l a a (fun e he => he) hc.symm
    rw [ringPlaces_closed hG hc.symm]
    refine ⟨by rw [e]; exact hs, ⟨x, m, e, ?_⟩, ?_, ?_⟩
    · intro y hy
      rw [List.getLast?_append] at hy
      simp at hy
      subst hy
      rw [hG.symm]
      exact h1
    · rw [e]
      exact hb hl
    · rw [e]
      refine hn.imp ?_
      intro y z ⟨e, he, k1, k2, k3⟩
      refine ⟨e, he, k1, k2, k3.trans (le_of_eq ?_)⟩
      unfold stepOf
      congr 1
      ring

/-- **C136, outlines.**  The map shows one outline for each piece of each cell, in the order of the cells; the outline follows the outer boundary of
the piece.  Places far apart on the sphere are joined by many short steps. -/
theorem C136_outlines_partial (hG : Shortest G dist) (proj : ℝ × ℝ → Option (ℝ × ℝ)) (cells : List Cell)
    (hc : ∀ c ∈ cells, ∀ p ∈ c.parts, ClosedRing p.exterior) :
    List.Forall₂ (fun p outline => ∃ places, Follows dist p.exterior places ∧ outline = places.map proj) (cells.flatMap Cell.parts)
      (oplotVoronoi G proj cells) := by
  unfold oplotVoronoi
  rw [List.forall₂_map_right_iff, List.forall₂_same]
  intro p hp
  obtain ⟨c, hc', hp⟩ := List.mem_flatMap.1 hp
  exact ⟨_, ringPlaces_follows hG (hc c hc' p hp), rfl⟩

end

/-- shortest lines of the plane -/
noncomputable def flatGeod : Geod where
  inv p q := ((Complex.mk q.1 q.2 - Complex.mk p.1 p.2).arg, ‖Complex.mk q.1 q.2 - Complex.mk p.1 p.2‖)
  fwd p a t := (p.1 + t * Real.cos a, p.2 + t * Real.sin a)

noncomputable def flatDist (p q : ℝ × ℝ) : ℝ := ‖Complex.mk q.1 q.2 - Complex.mk p.1 p.2‖

theorem flat_shortest : Shortest flatGeod flatDist where
  nonneg p q := norm_nonneg _
  self p := by simp [flatDist]
  symm p q := norm_sub_rev _ _
  tri p q r := by
    unfold flatDist
    have := norm_add_le (Complex.mk q.1 q.2 - Complex.mk p.1 p.2) (Complex.mk r.1 r.2 - Complex.mk q.1 q.2)
    rw [sub_add_sub_cancel'] at this
    exact this
  length p q := rfl
  start p q := by simp [flatDist, flatGeod]
  finish p q := by
    have h1 := Complex.norm_mul_cos_arg (Complex.mk q.1 q.2 - Complex.mk p.1 p.2)
    have h2 := Complex.norm_mul_sin_arg (Complex.mk q.1 q.2 - Complex.mk p.1 p.2)
    unfold flatDist flatGeod
    simp only
    rw [h1, h2, norm_eq_zero]
    simp [Complex.ext_iff]
  along p q s t h0 h1 h2 := by
    unfold flatDist flatGeod
    simp only
    set a := (Complex.mk q.1 q.2 - Complex.mk p.1 p.2).arg
    have : Complex.mk (p.1 + t * Real.cos a) (p.2 + t * Real.sin a) - Complex.mk (p.1 + s * Real.cos a) (p.2 + s * Real.sin a)
        = ((t - s : ℝ) : ℂ) * Complex.mk (Real.cos a) (Real.sin a) := by
      rw [Complex.ext_iff]
      constructor <;> simp <;> ring
    rw [this, norm_mul, Complex.norm_real, Real.norm_of_nonneg (by linarith)]
    have : ‖Complex.mk (Real.cos a) (Real.sin a)‖ = 1 := by
      rw [Complex.norm_def, Complex.normSq_mk]
      have := Real.cos_sq_add_sin_sq a
      rw [show Real.cos a * Real.cos a + Real.sin a * Real.sin a = 1 by nlinarith]
      simp
    rw [this, mul_one]

/-- a square with a square hole -/
noncomputable def framePart : Part := ⟨[(0, 0), (4, 0), (4, 4), (0, 4), (0, 0)], [[(1, 1), (1, 2), (2, 2), (2, 1), (1, 1)]]⟩

theorem flatDist_eq (p q : ℝ × ℝ) : flatDist p q = Real.sqrt ((q.1 - p.1) ^ 2 + (q.2 - p.2) ^ 2) := by
  unfold flatDist
  rw [Complex.norm_def, Complex.normSq_apply]
  simp
  ring_nf

/-- the outline of a square, with 81 places -/
example : Follows flatDist framePart.exterior (ringPlaces flatGeod framePart.exterior) :=
  ringPlaces_follows flat_shortest ⟨by simp [framePart], by simp [framePart]⟩

/-- **C136, holes.**  The boundary of a hole in a cell (left by a hole in the counting area) is not outlined, although the code says that holes should
be: a corner of the hole is met by no outline. -/
theorem C136_holes_counterexample : ∃ G dist p, Shortest G dist ∧ ClosedRing p.exterior ∧ ∃ h ∈ p.interiors, ClosedRing h ∧ ∃ v ∈ h,
    ∀ outline ∈ oplotVoronoi G some [.polygon p], ∀ x ∈ outline, ∃ y, x = some y ∧ 0 < dist v y := by
  refine ⟨flatGeod, flatDist, framePart, flat_shortest, ⟨by simp [framePart], by simp [framePart]⟩, _, List.mem_cons_self, ⟨by simp, by simp⟩,
    (1, 1), List.mem_cons_self, ?_⟩
  intro outline ho x hx
  simp only [oplotVoronoi, List.flatMap_cons, Cell.parts, List.flatMap_nil, List.append_nil, List.map_cons, List.map_nil,
    List.mem_singleton] at ho
  subst ho
  obtain ⟨y, hy, rfl⟩ := List.mem_map.1 hx
  refine ⟨y, rfl, ?_⟩
  have hf := (ringPlaces_follows flat_shortest (r := framePart.exterior) ⟨by simp [framePart], by simp [framePart]⟩).onto y hy
  refine lt_of_le_of_ne (flat_shortest.nonneg _ _) ?_
  intro h0
  obtain ⟨e, he, hb⟩ := hf
  have hb := between_congr flat_shortest (x := y) (y := (1, 1)) (by rw [flat_shortest.symm]; exact h0.symm) hb
  have s2 : (1.4 : ℝ) < Real.sqrt 2 := Real.lt_sqrt_of_sq_lt (by norm_num)
  have s10 : (3.1 : ℝ) < Real.sqrt 10 := Real.lt_sqrt_of_sq_lt (by norm_num)
  have s18 : (4.2 : ℝ) < Real.sqrt 18 := Real.lt_sqrt_of_sq_lt (by norm_num)
  have s16 : Real.sqrt 16 = 4 := by
    rw [show (16 : ℝ) = 4 ^ 2 by norm_num]
    exact Real.sqrt_sq (by norm_num)
  unfold OnEdge at hb
  simp only [framePart, List.tail_cons, List.zip_cons_cons, List.zip_nil_right, List.mem_cons, List.not_mem_nil, or_false] at he
  rcases he with rfl | rfl | rfl | rfl <;>
    (rw [flatDist_eq, flatDist_eq, flatDist_eq] at hb; norm_num [s16] at hb; linarith)

section

variable {ι : Type} [DecidableEq ι]

/-- **C136, neighbours.**  For the craters of a bin of the count the map shows one line for each crater, in their order: from the crater to a crater
of the bin at the distance with index 2 (index 0 is the crater itself). -/
theorem C136_neighbours {S : Sphere (ℝ × ℝ) ι} (hcone : ∀ p q r, S.dist p q ≤ r → S.cell q ∈ S.cone p r) (hnd : ∀ p r, (S.cone p r).Nodup)
    (proj : ℝ × ℝ → Option (ℝ × ℝ)) (ρ : ℝ → ℚ) (hρ : ∀ x, |(ρ x : ℝ) - x| ≤ 1 / 100) (cs : List (Placed (ℝ × ℝ))) (hcs : cs ≠ [])
    (hd : ∀ c ∈ cs, (2 : ℝ) ^ (-98 : ℝ) ≤ c.diam ∧ c.diam ≤ (2 : ℝ) ^ (98 : ℝ)) :
    ∃ edges t, generateBins .root2 (cs.map Placed.diam) 0 true = .ok edges ∧ applyBinning .root2 0 (cs.map Placed.crater) = .ok t ∧
      ∀ x ∈ t, ∀ fuel lines, neighbourLines S proj ρ fuel edges cs (binKey ρ x.dMin) = some (.ok lines) →
        let l := cs.filter (fun c => decide (x.dMin ≤ c.diam ∧ c.diam < x.dMax))
        List.Forall₂ (fun c line => ∃ c' ∈ l, IsKth 2 (l.map (fun q => S.dist c.pos q.pos)) (S.dist c.pos c'.pos) ∧
          line = (proj c.pos, proj c'.pos)) l lines := by
  obtain ⟨edges, t, h1, h2, h3⟩ := C98_selection ρ hρ cs hcs hd
  refine ⟨edges, t, h1, h2, ?_⟩
  intro x hx fuel lines h
  obtain ⟨hs, -, hm⟩ := h3 x hx
  dsimp only
  set l := cs.filter (fun c => decide (x.dMin ≤ c.diam ∧ c.diam < x.dMax)) with hl
  have hm' : measuredBin ρ edges cs (binKey ρ x.dMin) = if l = [] then .error .value else .ok l := by
    unfold measuredBin
    rw [hs]
    rfl
  unfold neighbourLines at h
  rw [hm'] at h
  by_cases hne : l = []
  · rw [if_pos hne] at h
    cases h
  · rw [if_neg hne] at h
    dsimp only at h
    rw [Option.map_eq_some_iff] at h
    obtain ⟨r, hr, h⟩ := h
    cases r with
    | error e => cases h
    | ok y =>
      obtain ⟨m, nb⟩ := y
      rw [hs] at h
      injection h with h
      subst h
      obtain ⟨hperm, hkeys, hown⟩ := C52_filed S (l.map Placed.pos)
      obtain ⟨-, -, -, hnb⟩ := C52_exact hcone hnd hkeys hown (List.length_map _) hr
      rw [List.forall₂_map_left_iff] at hnb
      unfold oplotNeighbours
      clear_value l
      have key : ∀ (k : List (Placed (ℝ × ℝ))) (nb : List (ℝ × ℝ)), List.Forall₂ (fun c q =>
          q ∈ (fileCraters S (l.map Placed.pos)).flatMap Prod.snd ∧
          IsKth 2 (distances S c.pos ((fileCraters S (l.map Placed.pos)).flatMap Prod.snd)) (S.dist c.pos q)) k nb →
          List.Forall₂ (fun c line => ∃ c' ∈ l, IsKth 2 (l.map (fun q => S.dist c.pos q.pos)) (S.dist c.pos c'.pos) ∧
          line = (proj c.pos, proj c'.pos)) k (((k.map Placed.pos).zip nb).map (fun x => (proj x.1, proj x.2))) := by
        intro k nb hk
        induction hk with
        | nil => exact .nil
        | @cons c q k nb hq _ ih =>
          refine .cons ?_ ih
          obtain ⟨c', hc', rfl⟩ := List.mem_map.1 (hperm.mem_iff.1 hq.1)
          refine ⟨c', hc', ?_, rfl⟩
          have := isKth_perm (hperm.map (S.dist c.pos)) hq.2
          rw [List.map_map] at this
          exact this
      exact key l nb hnb

/-- **C136, other craters.**  The line leads to another place, unless three craters of the bin are at the place of the crater. -/
theorem C136_elsewhere {S : Sphere (ℝ × ℝ) ι} {l : List (Placed (ℝ × ℝ))} {c c' : Placed (ℝ × ℝ)}
    (hk : IsKth 2 (l.map (fun q => S.dist c.pos q.pos)) (S.dist c.pos c'.pos))
    (h3 : l.countP (fun q => decide (S.dist c.pos q.pos ≤ 0)) ≤ 2) : 0 < S.dist c.pos c'.pos := by
  by_contra hc
  have h := hk.above
  rw [List.countP_map] at h
  have : l.countP ((fun y => decide (y ≤ S.dist c.pos c'.pos)) ∘ fun q => S.dist c.pos q.pos) ≤
      l.countP (fun q => decide (S.dist c.pos q.pos ≤ 0)) :=
    List.countP_mono_left (fun q _ hq => by simp at hq ⊢; linarith)
  omega

/-- **C136, defined.**  With at least three craters in the bin, and a grid on which every cell can be reached, the lines are drawn. -/
theorem C136_defined {S : Sphere (ℝ × ℝ) ι} (hcone : ∀ p q r, S.dist p q ≤ r → S.cell q ∈ S.cone p r) (hnd : ∀ p r, (S.cone p r).Nodup)
    (proj : ℝ × ℝ → Option (ℝ × ℝ)) (ρ : ℝ → ℚ) (hρ : ∀ x, |(ρ x : ℝ) - x| ≤ 1 / 100) (cs : List (Placed (ℝ × ℝ))) (hcs : cs ≠ [])
    (hd : ∀ c ∈ cs, (2 : ℝ) ^ (-98 : ℝ) ≤ c.diam ∧ c.diam ≤ (2 : ℝ) ^ (98 : ℝ)) {adj : ι → ι → Prop}
    (hadj : ∀ l c, c ∈ S.neighbours l ↔ ∃ b ∈ l, adj b c) {J : ℕ} (hreach : ∀ c ∈ cs, ∀ c' ∈ cs, Within adj (S.cell c.pos) J (S.cell c'.pos)) :
    ∃ edges t, generateBins .root2 (cs.map Placed.diam) 0 true = .ok edges ∧ applyBinning .root2 0 (cs.map Placed.crater) = .ok t ∧
      ∀ x ∈ t, 3 ≤ x.nEvent → ∃ lines, neighbourLines S proj ρ (J + 1) edges cs (binKey ρ x.dMin) = some (.ok lines) := by
  obtain ⟨edges, t, h1, h2, h3⟩ := C98_selection ρ hρ cs hcs hd
  refine ⟨edges, t, h1, h2, ?_⟩
  intro x hx hn
  obtain ⟨hs, hlen, hm⟩ := h3 x hx
  have hm := hm (by linarith)
  set l := cs.filter (fun c => decide (x.dMin ≤ c.diam ∧ c.diam < x.dMax)) with hl
  have hlen3 : 3 ≤ l.length := by
    have : (3 : ℝ) ≤ l.length := by rw [hlen]; exact hn
    exact_mod_cast this
  have hsub : ∀ c ∈ l, c ∈ cs := fun c hc => (List.mem_filter.1 hc).1
  obtain ⟨hperm, hkeys, hown⟩ := C52_filed S (l.map Placed.pos)
  obtain ⟨m, nb, hk⟩ := C52_found hcone hnd hkeys hown (k := 2) hadj (J := J) (pts := l.map Placed.pos) (ids := (l.map Placed.pos).map S.cell)
    (by intro h; have := congrArg List.length h; simp at this; simp [this] at hlen3) (List.length_map _)
    (by
      intro id hid e he
      simp only [List.map_map, List.mem_map, Function.comp_apply] at hid
      obtain ⟨c, hc, rfl⟩ := hid
      obtain ⟨c', hc', rfl⟩ := List.mem_map.1 (hperm.mem_iff.1 he)
      exact hreach c (hsub c hc) c' (hsub c' hc'))
    (by rw [hperm.length_eq, List.length_map]; omega)
  unfold neighbourLines
  rw [hm]
  dsimp only
  rw [hk, hs]
  exact ⟨_, rfl⟩

/-- a grid of one cell -/
noncomputable def oneCell : Sphere (ℝ × ℝ) Unit where
  within _ := true
  dist := flatDist
  cell _ := ()
  cone _ _ := [()]
  neighbours l := l

/-- four craters of one bin -/
noncomputable def fourCraters : List (Placed (ℝ × ℝ)) := [⟨(0, 0), 1.1, 1⟩, ⟨(1, 0), 1.2, 1⟩, ⟨(3, 0), 1.1, 1⟩, ⟨(7, 0), 1.2, 1⟩]

example : ∃ edges t, generateBins .root2 (fourCraters.map Placed.diam) 0 true = .ok edges ∧
    applyBinning .root2 0 (fourCraters.map Placed.crater) = .ok t ∧ ∀ x ∈ t, 3 ≤ x.nEvent → ∃ lines,
      neighbourLines oneCell some (fun x => (round (x * 50) : ℚ) / 50) 1 edges fourCraters (binKey (fun x => (round (x * 50) : ℚ) / 50) x.dMin) =
        some (.ok lines) := by
  have hlo : (2 : ℝ) ^ (-98 : ℝ) ≤ 1 := Real.rpow_le_one_of_one_le_of_nonpos (by norm_num) (by norm_num)
  have hhi : (2 : ℝ) ≤ (2 : ℝ) ^ (98 : ℝ) := by
    rw [show (98 : ℝ) = ((98 : ℕ) : ℝ) by norm_num, Real.rpow_natCast]; norm_num
  refine C136_defined (S := oneCell) (adj := fun _ _ => True) (J := 0) ?_ ?_ some _ ?_ fourCraters (by simp [fourCraters]) ?_ ?_ ?_
  · intro p q r _; simp [oneCell]
  · intro p r; simp [oneCell]
  · intro x
    have h := abs_sub_round (x * 50)
    push_cast
    rw [abs_le] at h ⊢
    constructor <;> linarith [h.1, h.2]
  · intro c hc
    simp only [fourCraters, List.mem_cons, List.not_mem_nil, or_false] at hc
    rcases hc with rfl | rfl | rfl | rfl <;> constructor <;> norm_num <;> linarith
  · intro l c
    constructor
    · intro h; exact ⟨c, h, trivial⟩
    · rintro ⟨b, hb, -⟩; exact hb
  · intro c _ c' _
    exact Within.here 0

end

end Verif.Props
