import Verif.Model.IsochronPlot
import Verif.Props.EpochPlot
import Verif.Props.Fit
import Verif.Props.PlotData

/-! C123: isochrons on count plots and their labels. -/

namespace Verif.Props
open Verif.Py Verif.Cratercount Verif.Chronology Verif.Production Verif.Cli Verif.IsochronPlot Verif.Spec

noncomputable section

attribute [local irreducible] linspace

theorem mapM_logs {α : Type} {g : α → ℝ} {l : List α} {l' : List ℝ} (h : l.mapM (fun q => log10E (g q)) = .ok l') :
    (∀ q ∈ l, 0 < g q) ∧ l' = l.map (fun q => log10 (g q)) := by
  induction l generalizing l' with
  | nil =>
    rw [List.mapM_nil] at h
    injection h with h
    exact ⟨by simp, by rw [← h]; rfl⟩
  | cons a l ih =>
    rw [List.mapM_cons] at h
    obtain ⟨x, hx, h⟩ := except_bind_eq_ok h
    obtain ⟨xs, hxs, h⟩ := except_bind_eq_ok h
    injection h with h
    obtain ⟨i1, i2⟩ := ih hxs
    obtain ⟨hp, hx⟩ := log10E_ok.1 hx
    refine ⟨?_, by rw [← h, i2, hx]; rfl⟩
    intro q hq
    rcases List.mem_cons.1 hq with rfl | hq
    · exact hp
    · exact i1 q hq

theorem zip_maps {α : Type} (l : List α) (f : α → ℝ) (g : α → ℝ) : (l.map f).zip (l.map g) = l.map (fun q => (f q, g q)) := by
  induction l with
  | nil => rfl
  | cons a l ih => simp [ih]

theorem drawIsochron_ok {s : Frame} {i : Isochron ℝ} {d : Drawn} (h : drawIsochron s i = .ok d) :
    ∃ N iso xs, s.cf.N1 i.age = .ok N ∧ 0 < N ∧ s.pf.getisochron s.pr (log10 N) s.ef = .ok iso ∧ (∀ q ∈ iso, 0 < q.1 ∧ 0 < q.2) ∧
      labelPoints s (iso.map (fun q => (log10 q.1, log10 q.2))) = .ok xs ∧ labelOf s (log10 N) i xs = .ok d.label ∧
      d.curve = iso.map (fun q => (log10 q.1, q.2)) := by
  unfold drawIsochron at h
  obtain ⟨a0, ha, h⟩ := except_bind_eq_ok h
  obtain ⟨iso, hi, h⟩ := except_bind_eq_ok h
  obtain ⟨dd, hd, h⟩ := except_bind_eq_ok h
  obtain ⟨y, hy, h⟩ := except_bind_eq_ok h
  obtain ⟨xs, hx, h⟩ := except_bind_eq_ok h
  obtain ⟨lab, hl, h⟩ := except_bind_eq_ok h
  injection h with hdr
  unfold Chron.a0 at ha
  obtain ⟨N, hN, ha⟩ := except_bind_eq_ok ha
  by_cases hpos : 0 < N
  · rw [if_pos hpos] at ha
    injection ha with ha
    subst ha
    obtain ⟨d1, rfl⟩ := mapM_logs hd
    obtain ⟨y1, rfl⟩ := mapM_logs hy
    rw [zip_maps] at hx
    refine ⟨N, iso, xs, hN, hpos, hi, fun q hq => ⟨d1 q hq, y1 q hq⟩, hx, by rw [← hdr]; exact hl, ?_⟩
    rw [← hdr]
    exact zip_maps iso (fun q => log10 q.1) Prod.snd
  · rw [if_neg hpos] at ha
    cases ha

theorem unzip_fst_sublist {α β : Type} (l : List α) (m : List β) (p : α × β → Bool) : ((l.zip m).filter p).unzip.1.Sublist l := by
  induction l generalizing m with
  | nil => simp
  | cons a l ih =>
    cases m with
    | nil => simp
    | cons b m =>
      rw [List.zip_cons_cons]
      by_cases h : p (a, b) = true
      · rw [List.filter_cons_of_pos h]
        simp only [List.unzip_cons]
        exact (ih m).cons₂ a
      · rw [List.filter_cons_of_neg h]
        exact (ih m).cons a

theorem iso_points {f : PFn} (hr : f.range.1 ≤ f.range.2) {pr : Presentation} {a : ℝ} {ef : Option PFn} {iso : List (ℝ × ℝ)}
    (h : f.getisochron pr a ef = .ok iso) :
    (∀ q ∈ iso, f.evaluate pr q.1 (some a) = .ok q.2 ∧ f.range.1 ≤ q.1 ∧ q.1 ≤ f.range.2) ∧ iso.Pairwise (fun p q => p.1 ≤ q.1) := by
  have key : ∃ d y, f.getplotdata pr (some a) none = .ok (d, y) ∧ iso.Sublist (d.zip y) := by
    unfold PFn.getisochron at h
    obtain ⟨⟨d, y⟩, h1, h⟩ := except_bind_eq_ok h
    cases ef with
    | none =>
      injection h with h
      exact ⟨d, y, h1, by rw [← h]⟩
    | some e =>
      simp only at h
      obtain ⟨⟨ed, ey⟩, h2, h⟩ := except_bind_eq_ok h
      simp only at h
      obtain ⟨lim, h3, h⟩ := except_bind_eq_ok h
      injection h with h
      exact ⟨d, y, h1, by rw [← h]; exact unzip_fst_sublist _ _ _⟩
  obtain ⟨d, y, h1, hs⟩ := key
  obtain ⟨c1, c2, c3, _, c4, _, c5⟩ := C22_curve f hr pr a none d y h1
  have hsorted : (d.zip y).Pairwise (fun p q => p.1 ≤ q.1) := by
    have := (c4 rfl).1
    rw [← List.map_fst_zip (l₁ := d) (l₂ := y) (by omega)] at this
    exact List.pairwise_map.1 this
  refine ⟨?_, hsorted.sublist hs⟩
  intro q hq
  obtain ⟨i, hi⟩ := List.mem_iff_getElem?.1 (hs.subset hq)
  obtain ⟨g1, g2⟩ := List.getElem?_zip_eq_some.1 hi
  exact ⟨c5 i q.1 q.2 g1 g2, c3 q.1 (List.mem_of_getElem? g1)⟩

/-- **C123: the curves.**  Of every isochron asked for, in this order, the curve of the production function is drawn for the density which
the chronology function gives for the age. -/
theorem C123_curves (s : Frame) (hr : s.pf.range.1 ≤ s.pf.range.2) (l : List (Isochron ℝ)) (ds : List Drawn)
    (h : plotIsochrons s l = .ok ds) :
    ds.length = l.length ∧ ∀ (k : ℕ) i, l[k]? = some i → ∃ (d : Drawn) (N : ℝ) (iso : List (ℝ × ℝ)), ds[k]? = some d ∧
      s.cf.N1 i.age = .ok N ∧ 0 < N ∧ s.pf.getisochron s.pr (log10 N) s.ef = .ok iso ∧ d.curve.length = iso.length ∧
      ∀ (j : ℕ) p, iso[j]? = some p → s.pf.evaluate s.pr p.1 (some (log10 N)) = .ok p.2 ∧
        ∃ x, d.curve[j]? = some (x, p.2) ∧ (10 : ℝ) ^ x = p.1 := by
  obtain ⟨hl, hg⟩ := mapM_get h
  refine ⟨hl, ?_⟩
  intro k i hi
  obtain ⟨d, hd, hdi⟩ := hg k i hi
  obtain ⟨N, iso, xs, hN, hpos, hiso, hq, _, _, hc⟩ := drawIsochron_ok hdi
  refine ⟨d, N, iso, hd, hN, hpos, hiso, by rw [hc, List.length_map], ?_⟩
  intro j p hp
  have hm := List.mem_of_getElem? hp
  exact ⟨((iso_points hr hiso).1 p hm).1, log10 p.1, by rw [hc, List.getElem?_map, hp]; rfl, pow10_log10 (hq p hm).1⟩

/-! ### labels -/

theorem labelOf_some {s : Frame} {a0 : ℝ} {i : Isochron ℝ} {xs : List ℝ} {L : Label} (h : labelOf s a0 i xs = .ok (some L)) :
    xs ≠ [] ∧ i.hide = false ∧ L.age = i.age ∧ L.above = i.above ∧ L.small = i.small ∧ L.x = xs.sum / xs.length ∧
      (∃ v, 0 < v ∧ s.pf.evaluate s.pr ((10 : ℝ) ^ L.x) (some a0) = .ok v ∧ L.y + 0.05 = log10 v) ∧
      L.run = 0.3 * s.aspect ∧ ∃ v, 0 < v ∧ s.pf.evaluate s.pr ((10 : ℝ) ^ (L.x + 0.3)) (some a0) = .ok v ∧ L.y + L.rise = log10 v := by
  unfold labelOf at h
  cases xs with
  | nil => simp at h
  | cons x rest =>
    dsimp only at h
    by_cases hh : i.hide = true
    · rw [if_pos hh] at h
      simp at h
    · rw [if_neg hh] at h
      obtain ⟨v, hv, h⟩ := except_bind_eq_ok h
      obtain ⟨l, hl, h⟩ := except_bind_eq_ok h
      obtain ⟨v', hv', h⟩ := except_bind_eq_ok h
      obtain ⟨l', hl', h⟩ := except_bind_eq_ok h
      injection h with h
      injection h with h
      subst h
      obtain ⟨h1, h2⟩ := log10E_ok.1 hl
      obtain ⟨h3, h4⟩ := log10E_ok.1 hl'
      exact ⟨by simp, by simpa using hh, rfl, rfl, rfl, rfl, ⟨v, h1, hv, by dsimp only; rw [h2]; ring⟩, rfl, v', h3, hv', by
        dsimp only; rw [h4]; ring⟩

theorem average_between {xs : List ℝ} (h : xs ≠ []) : ∃ a ∈ xs, ∃ b ∈ xs, a ≤ xs.sum / xs.length ∧ xs.sum / xs.length ≤ b := by
  have hn : (0 : ℝ) < xs.length := by exact_mod_cast List.length_pos_iff.2 h
  have e : ∀ c : ℝ, (xs.map (fun _ => c)).sum = xs.length * c := by intro c; simp
  by_contra hcon
  push Not at hcon
  set m := xs.sum / xs.length with hm
  have hms : xs.sum = xs.length * m := by rw [hm]; field_simp
  by_cases hall : ∀ a ∈ xs, m < a
  · obtain ⟨a, ha⟩ := List.exists_mem_of_ne_nil xs h
    have : (xs.map (fun _ => m)).sum < (xs.map id).sum := by
      apply List.sum_lt_sum
      · intro i hi; exact (hall i hi).le
      · exact ⟨a, ha, hall a ha⟩
    rw [e, List.map_id] at this
    linarith
  · push Not at hall
    obtain ⟨a, ha, ham⟩ := hall
    obtain ⟨b, hb⟩ := List.exists_mem_of_ne_nil xs h
    have hlt : ∀ b ∈ xs, b < m := fun b hb => hcon a ha b hb ham
    have : (xs.map id).sum < (xs.map (fun _ => m)).sum := by
      apply List.sum_lt_sum
      · intro i hi; exact (hlt i hi).le
      · exact ⟨b, hb, hlt b hb⟩
    rw [e, List.map_id] at this
    linarith

/-- what the label points are -/
theorem labelPoints_ok {s : Frame} {pts : List (ℝ × ℝ)} (hs : pts.Pairwise (fun p q => p.1 ≤ q.1)) {xs : List ℝ}
    (h : labelPoints s pts = .ok xs) :
    pts ≠ [] ∧ ((∀ x ∈ xs, s.xr.1 ≤ x ∧ ∃ y, (x, y) ∈ pts ∧ |y - (s.yr.2 - 0.1 * s.aspect)| < 0.1) ∨
      ∃ p, pts.head? = some p ∧ ∀ x ∈ xs, |x - max (s.xr.1 + 0.15) p.1| < 0.1) := by
  have hleft : ∀ p, pts.head? = some p → xs = nearLeft s p.1 pts → ∀ x ∈ xs, |x - max (s.xr.1 + 0.15) p.1| < 0.1 := by
    rintro p _ rfl x hx
    unfold nearLeft at hx
    obtain ⟨q, hq, rfl⟩ := List.mem_map.1 hx
    simpa using (List.mem_filter.1 hq).2
  have htop : (nearTop s pts).Pairwise (· ≤ ·) ∧ ∀ x ∈ nearTop s pts, ∃ y, (x, y) ∈ pts ∧ |y - (s.yr.2 - 0.1 * s.aspect)| < 0.1 := by
    unfold nearTop
    refine ⟨List.pairwise_map.2 (hs.sublist List.filter_sublist), ?_⟩
    intro x hx
    obtain ⟨q, hq, rfl⟩ := List.mem_map.1 hx
    obtain ⟨h1, h2⟩ := List.mem_filter.1 hq
    exact ⟨q.2, h1, by simpa using h2⟩
  unfold labelPoints at h
  revert h htop
  cases hn : nearTop s pts with
  | nil =>
    intro h _
    cases pts with
    | nil => simp at h
    | cons p l =>
      injection h with h
      exact ⟨by simp, .inr ⟨p, rfl, hleft p rfl h.symm⟩⟩
  | cons x rest =>
    intro h htop
    dsimp only at h
    by_cases hx : x < s.xr.1
    · rw [if_pos hx] at h
      cases pts with
      | nil => simp at h
      | cons p l =>
        injection h with h
        exact ⟨by simp, .inr ⟨p, rfl, hleft p rfl h.symm⟩⟩
    · rw [if_neg hx] at h
      injection h with h
      subst h
      push Not at hx
      refine ⟨?_, .inl ?_⟩
      · rintro rfl
        simp [nearTop] at hn
      · intro z hz
        refine ⟨?_, htop.2 z hz⟩
        rcases List.mem_cons.1 hz with rfl | hz'
        · exact hx
        · exact hx.trans ((List.pairwise_cons.1 htop.1).1 z hz')

/-- **C123: labels.**  An isochron given with `h` has no label.  A label carries the age; it stands five hundredths of a decade below the
curve of its isochron, not left of the axis, and points to the place of the curve 0.3 decades to the right.  If the curve only falls or only
rises, the place of the curve is within a tenth of a decade of the line one tenth of the aspect below the upper end of the axis, or at the
left: within a tenth of a decade of 0.15 decades from the left end or, if the curve begins later, of its beginning. -/
theorem C123_label_partial (s : Frame) (hr : s.pf.range.1 ≤ s.pf.range.2) (l : List (Isochron ℝ)) (ds : List Drawn)
    (h : plotIsochrons s l = .ok ds) (k : ℕ) (i : Isochron ℝ) (hi : l[k]? = some i) (d : Drawn) (hd : ds[k]? = some d) :
    (i.hide = true → d.label = none) ∧
    ∀ L, d.label = some L → L.age = i.age ∧ L.above = i.above ∧ L.small = i.small ∧ s.xr.1 ≤ L.x ∧
      ∃ N, s.cf.N1 i.age = .ok N ∧ 0 < N ∧ s.pf.evaluate s.pr ((10 : ℝ) ^ L.x) (some (log10 N)) = .ok ((10 : ℝ) ^ (L.y + 0.05)) ∧
        (L.run = 0.3 * s.aspect ∧
          s.pf.evaluate s.pr ((10 : ℝ) ^ (L.x + 0.3)) (some (log10 N)) = .ok ((10 : ℝ) ^ (L.y + L.rise))) ∧
        ((∀ d d' v v', s.pf.range.1 ≤ d → d ≤ d' → d' ≤ s.pf.range.2 → s.pf.evaluate s.pr d (some (log10 N)) = .ok v →
            s.pf.evaluate s.pr d' (some (log10 N)) = .ok v' → v' ≤ v) ∨
          (∀ d d' v v', s.pf.range.1 ≤ d → d ≤ d' → d' ≤ s.pf.range.2 → s.pf.evaluate s.pr d (some (log10 N)) = .ok v →
            s.pf.evaluate s.pr d' (some (log10 N)) = .ok v' → v ≤ v') →
          |L.y + 0.05 - (s.yr.2 - 0.1 * s.aspect)| < 0.1 ∨
            ∃ x y, d.curve.head? = some (x, y) ∧ |L.x - max (s.xr.1 + 0.15) x| < 0.1) := by
  obtain ⟨_, hg⟩ := mapM_get h
  obtain ⟨d', hd', hdi⟩ := hg k i hi
  rw [hd] at hd'
  injection hd' with hd'
  subst hd'
  obtain ⟨N, iso, xs, hN, hpos, hiso, hq, hxs, hlab, hc⟩ := drawIsochron_ok hdi
  refine ⟨?_, ?_⟩
  · intro hh
    cases hL : d.label with
    | none => rfl
    | some L =>
      rw [hL] at hlab
      have := (labelOf_some hlab).2.1
      rw [hh] at this
      cases this
  · intro L hL
    rw [hL] at hlab
    obtain ⟨hne, _, e1, e2, e3, ex, ⟨v, hv, hev, ey⟩, erun, w, hw, hew, erise⟩ := labelOf_some hlab
    obtain ⟨hp, hsort⟩ := iso_points hr hiso
    have hsort' : (iso.map (fun q => (log10 q.1, log10 q.2))).Pairwise (fun p q => p.1 ≤ q.1) := by
      rw [List.pairwise_map]
      refine hsort.imp_of_mem ?_
      intro a b ha hb hab
      exact (log10_le (hq a ha).1 (hq b hb).1).2 hab
    obtain ⟨_, hcase⟩ := labelPoints_ok hsort' hxs
    obtain ⟨a, ha, b, hb, hab1, hab2⟩ := average_between hne
    rw [← ex] at hab1 hab2
    have hxr : s.xr.1 ≤ L.x := by
      rcases hcase with hc1 | ⟨p, _, hc2⟩
      · exact (hc1 a ha).1.trans hab1
      · have := (abs_lt.1 (hc2 a ha)).1
        have := le_max_left (s.xr.1 + 0.15) p.1
        norm_num at *
        linarith
    refine ⟨e1, e2, e3, hxr, N, hN, hpos, by rw [ey, pow10_log10 hv]; exact hev,
      ⟨erun, by rw [erise, pow10_log10 hw]; exact hew⟩, ?_⟩
    intro hmono
    rcases hcase with hc1 | ⟨p, hph, hc2⟩
    · left
      obtain ⟨_, ya, ha1, ha2⟩ := hc1 a ha
      obtain ⟨_, yb, hb1, hb2⟩ := hc1 b hb
      obtain ⟨qa, hqa, ea⟩ := List.mem_map.1 ha1
      obtain ⟨qb, hqb, eb⟩ := List.mem_map.1 hb1
      simp only [Prod.mk.injEq] at ea eb
      obtain ⟨rfl, rfl⟩ := ea
      obtain ⟨rfl, rfl⟩ := eb
      have k1 : qa.1 ≤ (10 : ℝ) ^ L.x := by rw [← pow10_log10 (hq qa hqa).1]; exact pow10_le.2 hab1
      have k2 : (10 : ℝ) ^ L.x ≤ qb.1 := by rw [← pow10_log10 (hq qb hqb).1]; exact pow10_le.2 hab2
      rw [ey]
      rw [abs_lt] at ha2 hb2 ⊢
      rcases hmono with hmono | hmono
      · have m1 := hmono qa.1 _ _ _ (hp qa hqa).2.1 k1 (k2.trans (hp qb hqb).2.2) (hp qa hqa).1 hev
        have m2 := hmono _ qb.1 _ _ ((hp qa hqa).2.1.trans k1) k2 (hp qb hqb).2.2 hev (hp qb hqb).1
        have n1 : log10 v ≤ log10 qa.2 := (log10_le hv (hq qa hqa).2).2 m1
        have n2 : log10 qb.2 ≤ log10 v := (log10_le (hq qb hqb).2 hv).2 m2
        constructor <;> linarith [ha2.1, ha2.2, hb2.1, hb2.2]
      · have m1 := hmono qa.1 _ _ _ (hp qa hqa).2.1 k1 (k2.trans (hp qb hqb).2.2) (hp qa hqa).1 hev
        have m2 := hmono _ qb.1 _ _ ((hp qa hqa).2.1.trans k1) k2 (hp qb hqb).2.2 hev (hp qb hqb).1
        have n1 : log10 qa.2 ≤ log10 v := (log10_le (hq qa hqa).2 hv).2 m1
        have n2 : log10 v ≤ log10 qb.2 := (log10_le hv (hq qb hqb).2).2 m2
        constructor <;> linarith [ha2.1, ha2.2, hb2.1, hb2.2]
    · right
      rw [List.head?_map] at hph
      obtain ⟨q0, hq0, rfl⟩ := Option.map_eq_some_iff.1 hph
      refine ⟨log10 q0.1, q0.2, by rw [hc, List.head?_map, hq0]; rfl, ?_⟩
      have u1 := abs_lt.1 (hc2 a ha)
      have u2 := abs_lt.1 (hc2 b hb)
      rw [abs_lt]
      constructor <;> linarith [u1.1, u1.2, u2.1, u2.2]

theorem labelOf_none {s : Frame} {a0 : ℝ} {i : Isochron ℝ} {xs : List ℝ} (h : labelOf s a0 i xs = .ok none) : xs = [] ∨ i.hide = true := by
  unfold labelOf at h
  cases xs with
  | nil => exact .inl rfl
  | cons x rest =>
    dsimp only at h
    by_cases hh : i.hide = true
    · exact .inr hh
    · rw [if_neg hh] at h
      obtain ⟨v, hv, h⟩ := except_bind_eq_ok h
      obtain ⟨l, hl, h⟩ := except_bind_eq_ok h
      obtain ⟨v', hv', h⟩ := except_bind_eq_ok h
      obtain ⟨l', hl', h⟩ := except_bind_eq_ok h
      injection h with h
      cases h

theorem linspace_near {a b t : ℝ} (hat : a ≤ t) (htb : t ≤ b) (hw : b - a ≤ 39) : ∃ x ∈ linspace a b 400, |x - t| < 0.1 := by
  rcases hat.eq_or_lt with rfl | hlt
  · refine ⟨a, ?_, by norm_num⟩
    have := linspace_zero a b (n := 400) (by norm_num)
    exact List.mem_of_getElem? (i := 0) (by rw [List.getElem?_eq_getElem (by simp)]; simpa using this)
  · have hba : 0 < b - a := by linarith
    set h : ℝ := (b - a) / 399 with hh
    have hpos : 0 < h := by positivity
    set i := ⌊(t - a) / h⌋₊ with hi
    have h1 : (i : ℝ) ≤ (t - a) / h := Nat.floor_le (div_nonneg (by linarith) hpos.le)
    have h2 : (t - a) / h < i + 1 := Nat.lt_floor_add_one _
    rw [le_div_iff₀ hpos] at h1
    rw [div_lt_iff₀ hpos] at h2
    have hi4 : i < 400 := by
      have : (i : ℝ) ≤ 399 := by
        by_contra hc
        push Not at hc
        have : 399 * h < i * h := by nlinarith
        have e : 399 * h = b - a := by rw [hh]; ring
        linarith
      have : i ≤ 399 := by exact_mod_cast this
      omega
    have hlen : i < (linspace a b 400).length := by simpa using hi4
    refine ⟨_, List.getElem_mem hlen, ?_⟩
    rw [linspace_getElem]
    have e : ((400 : ℕ) : ℝ) - 1 = 399 := by norm_num
    rw [e, ← hh]
    have hsm : h < 0.1 := by
      rw [hh, div_lt_iff₀ (by norm_num)]
      norm_num
      linarith
    rw [abs_lt]
    constructor <;> nlinarith

/-- **C123: labels are there.**  Without an equilibrium function every isochron not given with `h` has a label, if the production function
reaches 0.15 decades into the axis and extends over no more than 39 decades. -/
theorem C123_labelled (s : Frame) (hr : s.pf.range.1 ≤ s.pf.range.2) (hw : s.pf.range.2 ≤ 10 ^ (39 : ℝ) * s.pf.range.1) (he : s.ef = none)
    (hx : (10 : ℝ) ^ (s.xr.1 + 0.15) ≤ s.pf.range.2) (l : List (Isochron ℝ)) (ds : List Drawn) (h : plotIsochrons s l = .ok ds) (k : ℕ)
    (i : Isochron ℝ) (hi : l[k]? = some i) (hh : i.hide = false) : ∃ d L, ds[k]? = some d ∧ d.label = some L := by
  obtain ⟨_, hg⟩ := mapM_get h
  obtain ⟨d, hd, hdi⟩ := hg k i hi
  obtain ⟨N, iso, xs, hN, hpos, hiso, hq, hxs, hlab, hc⟩ := drawIsochron_ok hdi
  cases hL : d.label with
  | some L => exact ⟨d, L, hd, hL⟩
  | none =>
    exfalso
    rw [hL] at hlab
    rcases labelOf_none hlab with rfl | hh'
    swap
    · rw [hh] at hh'; cases hh'
    rw [he] at hiso
    obtain ⟨dd, y, g1, rfl⟩ := isochron_plain hiso
    obtain ⟨c1, c2, _, _, c4, _⟩ := C22_curve _ hr _ _ none dd y g1
    obtain ⟨k1, k2, k3, _⟩ := getplotdata_ok g1
    simp only [Option.getD_none] at k1 k2 k3
    rw [clipE_self le_rfl hr] at k1 k3
    rw [clipE_self hr le_rfl] at k2 k3
    have hhead : (dd.zip y)[0]? = some (s.pf.range.1, y[0]'(by omega)) := by
      rw [List.getElem?_zip_eq_some]
      exact ⟨(c4 rfl).2.1, List.getElem?_eq_getElem _⟩
    have hnl : nearLeft s (log10 s.pf.range.1) ((dd.zip y).map (fun q => (log10 q.1, log10 q.2))) ≠ [] := by
      have hb : log10 s.pf.range.2 - log10 s.pf.range.1 ≤ 39 := by
        have := (log10_le k2 (by positivity)).2 hw
        rw [log10_mul (by positivity) k1, log10_pow10] at this
        linarith
      have ht : max (s.xr.1 + 0.15) (log10 s.pf.range.1) ≤ log10 s.pf.range.2 := by
        refine max_le ?_ ((log10_le k1 k2).2 hr)
        have := (log10_le (by positivity) k2).2 hx
        rwa [log10_pow10] at this
      obtain ⟨x, hxm, hxd⟩ := linspace_near (le_max_right (s.xr.1 + 0.15) (log10 s.pf.range.1)) ht hb
      have hxd' : (10 : ℝ) ^ x ∈ dd := by rw [k3]; exact List.mem_map.2 ⟨x, hxm, rfl⟩
      obtain ⟨j, hj, hjx⟩ := List.getElem_of_mem hxd'
      have hm : ((10 : ℝ) ^ x, y[j]'(by omega)) ∈ dd.zip y := by
        apply List.mem_of_getElem? (i := j)
        rw [List.getElem?_zip_eq_some]
        exact ⟨by rw [List.getElem?_eq_getElem hj, hjx], List.getElem?_eq_getElem _⟩
      apply List.ne_nil_of_mem (a := x)
      unfold nearLeft
      refine List.mem_map.2 ⟨(x, log10 (y[j]'(by omega))), List.mem_filter.2 ⟨List.mem_map.2 ⟨_, hm, ?_⟩, by simpa using hxd⟩, rfl⟩
      rw [log10_pow10]
    cases hz : dd.zip y with
    | nil => rw [hz] at hhead; simp at hhead
    | cons q rest =>
      rw [hz] at hhead hxs hnl
      simp only [List.getElem?_cons_zero, Option.some.injEq] at hhead
      rw [List.map_cons] at hxs hnl
      have e : (log10 q.1) = log10 s.pf.range.1 := by rw [hhead]
      unfold labelPoints at hxs
      revert hxs
      cases hn : nearTop s ((log10 q.1, log10 q.2) :: rest.map (fun q => (log10 q.1, log10 q.2))) with
      | nil =>
        intro hxs
        injection hxs with hxs
        rw [e] at hxs hnl
        exact hnl hxs
      | cons x xs' =>
        intro hxs
        dsimp only at hxs
        by_cases hlt : x < s.xr.1
        · rw [if_pos hlt] at hxs
          injection hxs with hxs
          rw [e] at hxs hnl
          exact hnl hxs
        · rw [if_neg hlt] at hxs
          injection hxs with hxs
          cases hxs

/-- **C123: isochrons are drawn.**  On a cumulative plot without an equilibrium function all isochrons of positive ages are drawn, whatever
the polynomial of the production function, its range and the axes are. -/
theorem C123_defined (a : List ℝ) (ha : a ≠ []) (r : ℝ × ℝ) (hr0 : 0 < r.1) (hr : r.1 ≤ r.2) (p : List ℝ) (c : Chron)
    (hc : Chronology.init p = .ok c) (p0 p1 p3 : ℝ) (e0 : p[0]? = some p0) (e1 : p[1]? = some p1) (e3 : p[3]? = some p3) (h0 : 0 ≤ p0)
    (h1 : 0 ≤ p1) (h3 : 0 < p3) (xr yr : ℝ × ℝ) (aspect : ℝ) (l : List (Isochron ℝ)) (hl : ∀ i ∈ l, 0 < i.age) :
    ∃ ds, plotIsochrons ⟨initPoly a (some r), c, none, .cumulative, xr, yr, aspect⟩ l = .ok ds := by
  obtain ⟨N, _, hN, _, _, hN0, hmono, _⟩ := C14_increasing_and_rate p c hc p0 p1 p3 e0 e1 e3 h0 h1 h3
  apply mapM_succeeds
  intro i hi
  have hpos : 0 < N i.age := by rw [← hN0]; exact hmono (hl i hi)
  have hev : ∀ x, 0 < x → ∃ v, 0 < v ∧ (initPoly a (some r)).evaluate .cumulative x (some (log10 (N i.age))) = .ok v := by
    intro x hx
    obtain ⟨b, a', rfl⟩ := List.exists_cons_of_ne_nil ha
    simp only [PFn.evaluate, initPoly, PFn.C, polyC_eq hx, PFn.defaultA0]
    split
    · exact ⟨_, Real.rpow_pos_of_pos (by norm_num : (0 : ℝ) < 10) _, rfl⟩
    · exact ⟨_, Real.rpow_pos_of_pos (by norm_num : (0 : ℝ) < 10) _, rfl⟩
  have hlog : ∀ {v}, 0 < v → log10E v = .ok (log10 v) := fun hv => log10E_pos hv
  have hrr : (initPoly a (some r)).range.1 ≤ (initPoly a (some r)).range.2 := hr
  obtain ⟨d, y, g1⟩ := C22_curve_defined a r hr0 hr .cumulative (by simp) (log10 (N i.age)) (.inr ha) none
  have hiso : (initPoly a (some r)).getisochron .cumulative (log10 (N i.age)) none = .ok (d.zip y) := by
    unfold PFn.getisochron
    rw [g1]
    rfl
  obtain ⟨hp, _⟩ := iso_points hrr hiso
  have hq : ∀ q ∈ d.zip y, 0 < q.1 ∧ 0 < q.2 := by
    intro q hq
    have k := hp q hq
    have hd : 0 < q.1 := lt_of_lt_of_le hr0 k.2.1
    obtain ⟨v, hv, hve⟩ := hev _ hd
    rw [hve] at k
    have := k.1
    injection this with this
    exact ⟨hd, this ▸ hv⟩
  obtain ⟨c1, c2, _⟩ := C22_curve _ hrr .cumulative _ none d y g1
  have hlp : ∃ xs, labelPoints ⟨initPoly a (some r), c, none, .cumulative, xr, yr, aspect⟩
      ((d.zip y).map (fun q => (log10 q.1, log10 q.2))) = .ok xs := by
    cases hz : d.zip y with
    | nil =>
      have := congrArg List.length hz
      rw [List.length_zip, c1, c2] at this
      simp at this
    | cons q rest =>
      unfold labelPoints
      rw [List.map_cons]
      split
      · split
        · exact ⟨_, rfl⟩
        · exact ⟨_, rfl⟩
      · exact ⟨_, rfl⟩
  obtain ⟨xs, hxs⟩ := hlp
  have hlab : ∃ lab, labelOf ⟨initPoly a (some r), c, none, .cumulative, xr, yr, aspect⟩ (log10 (N i.age)) i xs = .ok lab := by
    unfold labelOf
    cases xs with
    | nil => exact ⟨_, rfl⟩
    | cons x xs' =>
      dsimp only
      split
      · exact ⟨_, rfl⟩
      · obtain ⟨v, hv, hve⟩ := hev ((10 : ℝ) ^ ((x :: xs').sum / (x :: xs').length)) (by positivity)
        obtain ⟨w, hw, hwe⟩ := hev ((10 : ℝ) ^ ((x :: xs').sum / (x :: xs').length + 0.3)) (by positivity)
        rw [hve, except_ok_bind, hlog hv, except_ok_bind, hwe, except_ok_bind, hlog hw, except_ok_bind]
        exact ⟨_, rfl⟩
  obtain ⟨lab, hlab⟩ := hlab
  have ha0 : c.a0 i.age = .ok (log10 (N i.age)) := by
    unfold Chron.a0
    rw [hN, except_ok_bind, if_pos hpos]
  unfold drawIsochron
  dsimp only
  rw [ha0, except_ok_bind, hiso, except_ok_bind, mapM_ok_of (g' := fun q => log10 q.1) (fun q h => hlog (hq q h).1), except_ok_bind,
    mapM_ok_of (g' := fun q => log10 q.2) (fun q h => hlog (hq q h).2), except_ok_bind, zip_maps, hxs, except_ok_bind, hlab]
  exact ⟨_, rfl⟩

/-- isochrons of 1 and 3.9 Ga, the second without a label -/
example : ∃ c d1 d2 L, Chronology.init [5.44e-14, 6.93, 0, 8.38e-4] = .ok c ∧
    plotIsochrons ⟨initPoly [-3.0768, -3.557528] (some (0.01, 1000)), c, none, .cumulative, (-2, 3), (-7, 0), 0.8⟩
      [⟨1, false, false, true⟩, ⟨3.9, true, false, false⟩] = .ok [d1, d2] ∧ d1.label = some L ∧ L.age = 1 ∧ L.small = true ∧
    d2.label = none := by
  obtain ⟨c, hc, _⟩ := (C14_construct [5.44e-14, 6.93, 0, 8.38e-4]).2 (by simp)
  obtain ⟨ds, h⟩ := C123_defined [-3.0768, -3.557528] (by simp) (0.01, 1000) (by norm_num) (by norm_num) _ c hc 5.44e-14 6.93 8.38e-4 rfl rfl rfl
    (by norm_num) (by norm_num) (by norm_num) (-2, 3) (-7, 0) 0.8 [⟨1, false, false, true⟩, ⟨3.9, true, false, false⟩] (by simp; norm_num)
  set s : Frame := ⟨initPoly [-3.0768, -3.557528] (some (0.01, 1000)), c, none, .cumulative, (-2, 3), (-7, 0), 0.8⟩ with hs
  have hr : s.pf.range.1 ≤ s.pf.range.2 := by
    simp only [hs, initPoly, PFn.range, Option.getD_some]; norm_num
  obtain ⟨hlen, _⟩ := C123_curves s hr _ ds h
  obtain ⟨d1, d2, rfl⟩ : ∃ d1 d2, ds = [d1, d2] := by
    match ds, hlen with
    | [d1, d2], _ => exact ⟨d1, d2, rfl⟩
  have hw : s.pf.range.2 ≤ 10 ^ (39 : ℝ) * s.pf.range.1 := by
    simp only [hs, initPoly, PFn.range, Option.getD_some]
    norm_num
  have hx : (10 : ℝ) ^ (s.xr.1 + 0.15) ≤ s.pf.range.2 := by
    have h1 : (10 : ℝ) ^ (s.xr.1 + 0.15) ≤ (10 : ℝ) ^ (0 : ℝ) := pow10_le.2 (by simp only [hs]; norm_num)
    rw [Real.rpow_zero] at h1
    refine h1.trans ?_
    simp only [hs, initPoly, PFn.range, Option.getD_some]
    norm_num
  obtain ⟨d, L, hd, hL⟩ := C123_labelled s hr hw rfl hx _ _ h 0 _ rfl rfl
  injection hd with hd
  subst hd
  obtain ⟨e1, _, e2, _⟩ := (C123_label_partial s hr _ _ h 0 _ rfl d1 rfl).2 L hL
  exact ⟨c, d1, d2, L, hc, h, hL, e1, e2, (C123_label_partial s hr _ _ h 1 _ rfl d2 rfl).1 rfl⟩

/-! ### what is false -/

theorem chron_N1 {c : Chron} (hc : c.p = [0, 0, 0, 10]) : c.N1 1 = .ok 10 := by
  unfold Chron.N1
  rw [hc]
  simp [coeffs, n1Coeff, except_ok_bind]

/-- **C123 is false above equilibrium.**  The isochron of density 10 against an equilibrium density of 1: all of it is cut away and the
program ends with an error, also if no label is wanted. -/
theorem C123_empty_counterexample (xr yr : ℝ × ℝ) (aspect : ℝ) (hide : Bool) : ∃ c, Chronology.init [0, 0, 0, 10] = .ok c ∧
    plotIsochrons ⟨initPoly [0] (some (0.01, 100)), c, some (initPoly [0] (some (0.01, 100))), .cumulative, xr, yr, aspect⟩
      [⟨1, hide, false, false⟩] = .error .index := by
  obtain ⟨c, hc, hcp⟩ := (C14_construct [0, 0, 0, 10]).2 (by simp)
  refine ⟨c, hc, ?_⟩
  obtain ⟨iso, h⟩ := C22_isochron_defined [0] [0] (by simp) (0.01, 100) (0.01, 100) (by norm_num) (by norm_num)
    (by norm_num) (by norm_num) .cumulative (by simp) (log10 10) (.inr (by simp))
  have hl10 : log10 (10 : ℝ) = 1 := by
    have := log10_pow10 1
    rwa [Real.rpow_one] at this
  have hr : (initPoly [0] (some (0.01, 100))).range.1 ≤ (initPoly [0] (some (0.01, 100))).range.2 := by
    simp only [initPoly, PFn.range, Option.getD_some]; norm_num
  have hp : 0 < (initPoly [0] (some (0.01, 100))).range.1 := by
    simp only [initPoly, PFn.range, Option.getD_some]; norm_num
  have hev : ∀ x : ℝ, 0 < x → (initPoly [0] (some (0.01, 100))).evaluate .cumulative x (some (log10 10)) = .ok 10 := by
    intro x hx
    simp [PFn.evaluate, initPoly, PFn.C, polyC_eq hx, except_ok_bind, poly_cons, poly_nil, hl10]
  have hee : ∀ x : ℝ, 0 < x → (initPoly [0] (some (0.01, 100))).evaluate .cumulative x (some 0) = .ok 1 := by
    intro x hx
    simp [PFn.evaluate, initPoly, PFn.C, polyC_eq hx, except_ok_bind, poly_cons, poly_nil, PFn.defaultA0]
  have hnil : iso = [] := by
    obtain ⟨d, y, ed, ey, h1, h2, hsub, keep, hk1, hk2, hk3⟩ := C22_isochron_partial _ _ hr .cumulative _ iso h
    have h2' : (initPoly [0] (some (0.01, 100))).getplotdata .cumulative (some 0) none = .ok (ed, ey) := by
      rw [← h2]
      simp [PFn.getplotdata, initPoly, PFn.defaultA0]
    obtain ⟨c1, c2, c3, _, c5, _, c7⟩ := C22_curve _ hr .cumulative 0 none ed ey h2'
    have hone : ∀ v ∈ ey, v = 1 := by
      intro v hv
      obtain ⟨j, hj, rfl⟩ := List.getElem_of_mem hv
      have hj' : j < ed.length := by omega
      have := c7 j _ _ (List.getElem?_eq_getElem hj') (List.getElem?_eq_getElem hj)
      rw [hee _ (lt_of_lt_of_le hp (c3 _ (List.getElem_mem hj')).1)] at this
      injection this with this
      exact this.symm
    by_contra hne
    obtain ⟨q, hq⟩ := List.exists_mem_of_ne_nil iso hne
    have hq10 : q.2 = 10 := by
      obtain ⟨e1, e2, _⟩ := (iso_points hr h).1 q hq
      rw [hev _ (lt_of_lt_of_le hp e2)] at e1
      injection e1 with e1
      exact e1.symm
    rw [hk2, List.mem_filterMap] at hq
    obtain ⟨z, hz, hzq⟩ := hq
    split at hzq
    · next hkeep =>
      injection hzq with hzq
      obtain ⟨j, hj⟩ := List.mem_iff_getElem?.1 hz
      obtain ⟨g1, g2⟩ := List.getElem?_zip_eq_some.1 hj
      obtain ⟨v, hv, hvk⟩ := hk3 j _ _ g1 g2
      have hlt := hvk.1 hkeep
      have hv1 : v = 1 := by
        rcases hv with ⟨j', e, _, _, _, hje⟩ | ⟨_, hlast⟩
        · exact hone v (List.mem_of_getElem? hje)
        · exact hone v (List.mem_of_mem_getLast? hlast)
      rw [hzq, hq10, hv1] at hlt
      norm_num at hlt
    · cases hzq
  have ha : c.a0 1 = .ok (log10 10) := by
    unfold Chron.a0
    rw [chron_N1 hcp, except_ok_bind, if_pos (by norm_num)]
  unfold plotIsochrons
  rw [List.mapM_cons]
  have : drawIsochron ⟨initPoly [0] (some (0.01, 100)), c, some (initPoly [0] (some (0.01, 100))), .cumulative, xr, yr, aspect⟩
      ⟨1, hide, false, false⟩ = .error .index := by
    unfold drawIsochron
    dsimp only
    rw [ha, except_ok_bind, h, except_ok_bind, hnil]
    rfl
  rw [this]
  rfl

theorem sum_symmetric {l : List ℝ} (h : l.reverse = l.map (fun x => -x)) (p : ℝ → Bool) (hp : ∀ x, p (-x) = p x) : (l.filter p).sum = 0 := by
  have e1 : (l.reverse.filter p).sum = (l.filter p).sum := by rw [List.filter_reverse, List.sum_reverse]
  have e2 : ((l.map (fun x => -x)).filter p).sum = -(l.filter p).sum := by
    rw [List.filter_map]
    have : (p ∘ fun x => -x) = p := by funext x; exact hp x
    rw [this]
    induction l.filter p with
    | nil => simp
    | cons a m ih => simp only [List.map_cons, List.sum_cons, ih]; ring
  rw [h] at e1
  linarith

theorem linspace_symmetric (a : ℝ) : (linspace (-a) a 400).reverse = (linspace (-a) a 400).map (fun x => -x) := by
  apply List.ext_getElem
  · simp
  · intro i h1 h2
    have hi : i < 400 := by simpa using h1
    rw [List.getElem_reverse, List.getElem_map, linspace_getElem, linspace_getElem]
    rw [linspace_length]
    have : ((400 - 1 - i : ℕ) : ℝ) = 399 - i := by
      rw [show (400 - 1 - i : ℕ) = 399 - i by omega, Nat.cast_sub (by omega)]
      norm_num
    rw [this]
    norm_num
    ring

/-- **C123 is false for curves that rise and fall.**  The curve `10 · 10^(-x²)` over diameters of 10^-2 to 10^2, the axes from 10^-3 and up
to 10^0.1: the curve crosses the line at both sides and the label is put between the two places, at the top of the curve, 0.9 decades above
the upper end of the axis. -/
theorem C123_turning_counterexample (x2 y1 : ℝ) : ∃ c d L, Chronology.init [0, 0, 0, 10] = .ok c ∧
    plotIsochrons ⟨initPoly [0, 0, -1] (some (0.01, 100)), c, none, .cumulative, (-3, x2), (y1, 0.1), 1⟩ [⟨1, false, false, false⟩] = .ok [d] ∧
    d.label = some L ∧ L.x = 0 ∧ L.y + 0.05 = 0.1 + 0.9 := by
  obtain ⟨c, hc, hcp⟩ := (C14_construct [0, 0, 0, 10]).2 (by simp)
  have hl10 : log10 (10 : ℝ) = 1 := by
    have := log10_pow10 1
    rwa [Real.rpow_one] at this
  have ha : c.a0 1 = .ok 1 := by
    unfold Chron.a0
    rw [chron_N1 hcp, except_ok_bind, if_pos (by norm_num), hl10]
  set f := initPoly [0, 0, -1] (some (0.01, 100)) with hf
  have hr : f.range.1 ≤ f.range.2 := by
    simp only [hf, initPoly, PFn.range, Option.getD_some]; norm_num
  have hev : ∀ x : ℝ, f.evaluate .cumulative ((10 : ℝ) ^ x) (some 1) = .ok ((10 : ℝ) ^ (1 - x * x)) := by
    intro x
    simp [hf, PFn.evaluate, initPoly, PFn.C, polyC_eq (show (0 : ℝ) < 10 ^ x by positivity), except_ok_bind, poly_cons, poly_nil, log10_pow10]
    ring_nf
  obtain ⟨dd, y, g1⟩ := C22_curve_defined [0, 0, -1] (0.01, 100) (by norm_num) (by norm_num) .cumulative (by simp) 1 (.inl one_ne_zero) none
  rw [← hf] at g1
  obtain ⟨k1, k2, k3, k4⟩ := getplotdata_ok g1
  obtain ⟨c1, c2, _, _, _, _, c7⟩ := C22_curve _ hr .cumulative 1 none dd y g1
  have e1 : log10 f.range.1 = -2 := by
    have := log10_pow10 (-2)
    rw [show ((10 : ℝ) ^ (-2 : ℝ)) = f.range.1 by simp only [hf, initPoly, PFn.range, Option.getD_some]; norm_num [Real.rpow_neg]] at this
    exact this
  have e2 : log10 f.range.2 = 2 := by
    have := log10_pow10 2
    rw [show ((10 : ℝ) ^ (2 : ℝ)) = f.range.2 by simp only [hf, initPoly, PFn.range, Option.getD_some]; norm_num] at this
    exact this
  simp only [Option.getD_none] at k3
  rw [clipE_self le_rfl hr, clipE_self hr le_rfl, e1, e2] at k3
  set G := linspace (-2 : ℝ) 2 400 with hG
  have hz : dd.zip y = G.map (fun x => ((10 : ℝ) ^ x, (10 : ℝ) ^ (1 - x * x))) := by
    apply List.ext_getElem?
    intro j
    by_cases hj : j < 400
    · have hjd : dd[j]? = some ((10 : ℝ) ^ (G[j]'(by simp [hG, hj]))) := by
        rw [k3, List.getElem?_map, List.getElem?_eq_getElem (by simp [hG, hj])]
        rfl
      have hjy : y[j]? = some (y[j]'(by omega)) := List.getElem?_eq_getElem _
      have := c7 j _ _ hjd hjy
      rw [hev] at this
      injection this with this
      rw [List.getElem?_map, List.getElem?_eq_getElem (show j < G.length by simp [hG, hj])]
      rw [List.getElem?_zip_eq_some (z := (_, _)).2 ⟨hjd, hjy⟩, ← this]
      rfl
    · rw [List.getElem?_eq_none (by rw [List.length_zip]; omega), List.getElem?_eq_none (by simp [hG]; omega)]
  set pts : List (ℝ × ℝ) := G.map (fun x => (x, 1 - x * x)) with hpts
  set P : ℝ → Bool := fun x => decide (|1 - x * x - (0.1 - 0.1 * 1)| < 0.1) with hP
  have hm1 : (dd.zip y).mapM (fun q => log10E q.1) = .ok G := by
    rw [hz, mapM_ok_of (g' := fun q => log10 q.1)]
    · rw [List.map_map]
      congr 1
      conv_rhs => rw [← List.map_id G]
      apply List.map_congr_left
      intro x _
      exact log10_pow10 x
    · intro q hq
      obtain ⟨x, _, rfl⟩ := List.mem_map.1 hq
      exact log10E_pos (by positivity)
  have hm2 : (dd.zip y).mapM (fun q => log10E q.2) = .ok (G.map (fun x => 1 - x * x)) := by
    rw [hz, mapM_ok_of (g' := fun q => log10 q.2)]
    · rw [List.map_map]
      congr 1
      apply List.map_congr_left
      intro x _
      exact log10_pow10 _
    · intro q hq
      obtain ⟨x, _, rfl⟩ := List.mem_map.1 hq
      exact log10E_pos (by positivity)
  have hzip : G.zip (G.map (fun x => 1 - x * x)) = pts := by
    have := zip_maps G id (fun x => 1 - x * x)
    rw [List.map_id] at this
    exact this
  have hnt : nearTop ⟨f, c, none, .cumulative, (-3, x2), (y1, 0.1), 1⟩ pts = G.filter P := by
    unfold nearTop
    rw [hpts, List.filter_map, List.map_map]
    exact List.map_id _
  have hsum : (G.filter P).sum = 0 := by
    apply sum_symmetric (linspace_symmetric 2)
    intro x
    simp only [hP]
    ring_nf
  have hmem : ∃ x rest, G.filter P = x :: rest ∧ -3 ≤ x := by
    have hin : -2 + ((100 : ℕ) : ℝ) * ((2 - -2) / (((400 : ℕ) : ℝ) - 1)) ∈ G.filter P := by
      rw [List.mem_filter]
      constructor
      · have hlen : 100 < (linspace (-2 : ℝ) 2 400).length := by simp
        have := List.getElem_mem hlen
        rw [linspace_getElem] at this
        exact this
      · simp only [hP]
        rw [decide_eq_true_iff, abs_lt]
        norm_num
    cases hF : G.filter P with
    | nil => rw [hF] at hin; simp at hin
    | cons x rest =>
      refine ⟨x, rest, rfl, ?_⟩
      have hx : x ∈ G := List.mem_of_mem_filter (p := P) (by rw [hF]; simp)
      have := (linspace_mem 400 (by norm_num) hx).1
      norm_num at this
      linarith
  obtain ⟨x, rest, hF, hx3⟩ := hmem
  refine ⟨c, ⟨G.zip ((dd.zip y).map Prod.snd), some ⟨1, 0, 1 - 0.05, (1 - 0.3 * 0.3) - (1 - 0.05), 0.3 * 1, false, false⟩⟩, _, hc, ?_, rfl, rfl, by norm_num⟩
  have hdraw : drawIsochron ⟨f, c, none, .cumulative, (-3, x2), (y1, 0.1), 1⟩ ⟨1, false, false, false⟩ =
      .ok ⟨G.zip ((dd.zip y).map Prod.snd), some ⟨1, 0, 1 - 0.05, (1 - 0.3 * 0.3) - (1 - 0.05), 0.3 * 1, false, false⟩⟩ := by
    have hiso : f.getisochron .cumulative 1 none = .ok (dd.zip y) := by
      unfold PFn.getisochron
      rw [g1]
      rfl
    have hlp : labelPoints ⟨f, c, none, .cumulative, (-3, x2), (y1, 0.1), 1⟩ pts = .ok (x :: rest) := by
      unfold labelPoints
      rw [hnt, hF]
      dsimp only
      rw [if_neg (by linarith)]
    have hlo : labelOf ⟨f, c, none, .cumulative, (-3, x2), (y1, 0.1), 1⟩ 1 ⟨1, false, false, false⟩ (x :: rest) =
        .ok (some ⟨1, 0, 1 - 0.05, (1 - 0.3 * 0.3) - (1 - 0.05), 0.3 * 1, false, false⟩) := by
      unfold labelOf
      dsimp only
      rw [← hF, hsum, zero_div, if_neg (by simp), hev, except_ok_bind, log10E_pos (by positivity), except_ok_bind, hev, except_ok_bind,
        log10E_pos (by positivity), except_ok_bind, log10_pow10, log10_pow10]
      norm_num
    unfold drawIsochron
    dsimp only
    rw [ha, except_ok_bind, hiso, except_ok_bind, hm1, except_ok_bind, hm2, except_ok_bind, hzip, hlp, except_ok_bind, hlo]
    rfl
  unfold plotIsochrons
  rw [List.mapM_cons, hdraw]
  rfl

end

end Verif.Props
