import Verif.Model.SigmaStrip
import Verif.Props.Plotting

/-!
C161: the strip of deviations in a plot of counts lies above the data and within the axes.
-/

namespace Verif.Props

open Verif.Plotting Verif.Py Verif.Cratercount Verif.Misc

noncomputable section

/-- Specification: the height in the figure of the ordinate `10^v`, on a logarithmic axis from `10^yr.1` to `10^yr.2` -/
def heightAt (axes : Box) (yr : ℝ × ℝ) (v : ℝ) : ℝ := axes.bottom + (v - yr.1) / (yr.2 - yr.1) * axes.height

/-- how far the squaring of the axes moves the ends of the y axis: the lower end at most one decade more than the upper -/
theorem squared_y (p : Pres) (bl bb : Bool) (a b c d : ℤ) : ∃ e0 e1 : ℝ, (squareUp p bl bb ((a : ℝ), (b : ℝ)) ((c : ℝ), (d : ℝ))).2 = ((c : ℝ) - e0, (d : ℝ) + e1) ∧
    0 ≤ e0 ∧ 0 ≤ e1 ∧ e0 ≤ e1 + 1 := by
  have half : ∀ n : ℤ, 0 ≤ n → ((0 : ℝ) ≤ ⌊(n : ℝ) / 2⌋ ∧ (2 : ℝ) * ⌊(n : ℝ) / 2⌋ ≤ n ∧ (n : ℝ) ≤ 2 * ⌊(n : ℝ) / 2⌋ + 1) := by
    intro n hn
    have h0 : (0 : ℝ) ≤ n := by exact_mod_cast hn
    have h1 := Int.floor_le ((n : ℝ) / 2)
    have h2 := Int.lt_floor_add_one ((n : ℝ) / 2)
    have h3 : (0 : ℤ) ≤ ⌊(n : ℝ) / 2⌋ := Int.floor_nonneg.2 (by linarith)
    have h4 : n < 2 * ⌊(n : ℝ) / 2⌋ + 2 := by
      have : (n : ℝ) < ((2 * ⌊(n : ℝ) / 2⌋ + 2 : ℤ) : ℝ) := by push_cast; linarith
      exact_mod_cast this
    refine ⟨by exact_mod_cast h3, by linarith, ?_⟩
    have : n ≤ 2 * ⌊(n : ℝ) / 2⌋ + 1 := by omega
    exact_mod_cast this
  by_cases hp : p = .differential
  · subst hp
    unfold squareUp
    dsimp only
    obtain ⟨f0, f1, hf, g0, g1, g2⟩ : ∃ f0 f1 : ℝ, (if ⌊(d : ℝ) - c⌋ % 2 = 1 then (if bb = true then ((c : ℝ), (d : ℝ) + 1) else ((c : ℝ) - 1, (d : ℝ))) else ((c : ℝ), (d : ℝ))) =
        ((c : ℝ) - f0, (d : ℝ) + f1) ∧ 0 ≤ f0 ∧ 0 ≤ f1 ∧ f0 ≤ f1 + 1 := by
      split_ifs
      · exact ⟨0, 1, by simp, by norm_num, by norm_num, by norm_num⟩
      · exact ⟨1, 0, by simp, by norm_num, by norm_num, by norm_num⟩
      · exact ⟨0, 0, by simp, by norm_num, by norm_num, by norm_num⟩
    rw [hf]
    dsimp only
    generalize ((d : ℝ) + f1 - (c - f0)) / 2 - (b - a) = D
    split_ifs
    · exact ⟨f0 + |D|, f1 + |D|, by ext <;> simp <;> ring, by positivity, by positivity, by linarith⟩
    · exact ⟨f0, f1, rfl, g0, g1, g2⟩
    · exact ⟨f0, f1, rfl, g0, g1, g2⟩
    · exact ⟨f0, f1, rfl, g0, g1, g2⟩
  · have hu : squareUp p bl bb ((a : ℝ), (b : ℝ)) ((c : ℝ), (d : ℝ)) =
        (let e := (d : ℝ) - c - (b - a)
         let d2a : ℝ := ⌊|e| / 2⌋
         let d2b := |e| - d2a
         if e < 0 then (((a : ℝ), (b : ℝ)), if bb then ((c : ℝ) - d2a, (d : ℝ) + d2b) else ((c : ℝ) - d2b, (d : ℝ) + d2a))
         else if 0 < e then ((if bl then ((a : ℝ) - d2b, (b : ℝ) + d2a) else ((a : ℝ) - d2a, (b : ℝ) + d2b)), ((c : ℝ), (d : ℝ))) else (((a : ℝ), (b : ℝ)), ((c : ℝ), (d : ℝ)))) := by
      cases p <;> first | rfl | exact absurd rfl hp
    rw [hu]
    dsimp only
    have hn : |(d : ℝ) - c - (b - a)| = ((|d - c - (b - a)| : ℤ) : ℝ) := by push_cast; rfl
    obtain ⟨h1, h2, h3⟩ := half |d - c - (b - a)| (abs_nonneg _)
    rw [← hn] at h1 h2 h3
    generalize |(d : ℝ) - c - (b - a)| = n at *
    split_ifs
    · exact ⟨_, _, rfl, h1, by linarith, by linarith⟩
    · exact ⟨_, _, rfl, by linarith, h1, by linarith⟩
    · exact ⟨0, 0, by simp, le_rfl, le_rfl, by norm_num⟩
    · exact ⟨0, 0, by simp, le_rfl, le_rfl, by norm_num⟩
    · exact ⟨0, 0, by simp, le_rfl, le_rfl, by norm_num⟩

/-- the room above the highest ordinate suffices for the strip, however the axes are squared -/
theorem strip_room (H my e0 e1 : ℝ) (c U D : ℤ) (hmy : 0.3 ≤ my) (hU : H + my ≤ U) (h1 : U ≤ D) (h2 : H + ((U : ℝ) - c) * 3 / 16 ≤ D) (g0 : 0 ≤ e0) (g1 : 0 ≤ e1) (g2 : e0 ≤ e1 + 1) :
    H + ((D : ℝ) + e1 - (c - e0)) / 8 ≤ D + e1 := by
  rcases eq_or_lt_of_le h1 with rfl | h1
  · by_cases hm : U - c ≤ 1
    · have : (U : ℝ) - c ≤ 1 := by exact_mod_cast hm
      linarith
    · have : (2 : ℝ) ≤ (U : ℝ) - c := by exact_mod_cast (by omega : 2 ≤ U - c)
      linarith
  · have : (U : ℝ) + 1 ≤ D := by exact_mod_cast h1
    linarith

/-- **C161.** In a plot of counts with the automatic y axis, the strip of deviations is as wide as the axes and a sixteenth of their height.  It lies above the highest point of all plots, error bars included,
by at least another sixteenth of the height, and does not reach beyond the axes.  A range of diameters given by the user changes nothing. -/
theorem C161_strip (p : Pres) (rs : List DataRange) (hrs : rs ≠ []) (hpos : ∀ r ∈ rs, 0 < r.x0 ∧ r.x0 ≤ r.x1 ∧ 0 < r.y0 ∧ r.y0 ≤ r.y1) (ux : Option (ℝ × ℝ)) (axes : Box) (hh : 0 < axes.height) :
    ∃ xr yr box, plotStrip p (rs.map some) true ux none axes 0 = .ok (xr, yr, some box) ∧ yr.1 < yr.2 ∧ box.left = axes.left ∧ box.width = axes.width ∧ box.height = axes.height / 16 ∧
      (∀ r ∈ rs, ∀ y, 0 < y → y ≤ r.y1 → heightAt axes yr (log10 y) + axes.height / 16 ≤ box.bottom) ∧
      (∃ r ∈ rs, box.bottom = heightAt axes yr (log10 r.y1) + axes.height / 16) ∧
      box.bottom + box.height ≤ axes.bottom + axes.height := by
  cases rs with
  | nil => exact absurd rfl hrs
  | cons r l =>
    obtain ⟨a1, qa, a2, a3⟩ := min_facts (·.x0) r l
    obtain ⟨b1, qb, b2, b3⟩ := max_facts (·.x1) r l
    obtain ⟨c1, qc, c2, c3⟩ := min_facts (·.y0) r l
    obtain ⟨d1, qd, d2, d3⟩ := max_facts (·.y1) r l
    have e1 : pyMin (some r.x0) (l.map (fun q => some q.x0)) = some (minOf r.x0 (l.map (·.x0))) := by
      rw [← pyMin_some, List.map_map]; rfl
    have e2 : pyMax (some r.x1) (l.map (fun q => some q.x1)) = some (maxOf r.x1 (l.map (·.x1))) := by
      rw [← pyMax_some, List.map_map]; rfl
    have e3 : pyMin (some r.y0) (l.map (fun q => some q.y0)) = some (minOf r.y0 (l.map (·.y0))) := by
      rw [← pyMin_some, List.map_map]; rfl
    have e4 : pyMax (some r.y1) (l.map (fun q => some q.y1)) = some (maxOf r.y1 (l.map (·.y1))) := by
      rw [← pyMax_some, List.map_map]; rfl
    generalize hX0 : minOf r.x0 (l.map (·.x0)) = X0 at *
    generalize hX1 : maxOf r.x1 (l.map (·.x1)) = X1 at *
    generalize hY0 : minOf r.y0 (l.map (·.y0)) = Y0 at *
    generalize hY1 : maxOf r.y1 (l.map (·.y1)) = Y1 at *
    have pX0 : 0 < X0 := by rw [a3]; exact (hpos _ a2).1
    have pX1 : 0 < X1 := by rw [b3]; exact (hpos _ b2).1.trans_le (hpos _ b2).2.1
    have pY0 : 0 < Y0 := by rw [c3]; exact (hpos _ c2).2.2.1
    have pY1 : 0 < Y1 := by rw [d3]; exact (hpos _ d2).2.2.1.trans_le (hpos _ d2).2.2.2
    have hY : Y0 ≤ Y1 := (c1 r List.mem_cons_self).trans (((hpos r List.mem_cons_self).2.2.2).trans (d1 r List.mem_cons_self))
    have hmy : 0.3 * (if p = Pres.differential then (2 : ℝ) else 1) = marginY p := by
      unfold marginY; split <;> norm_num
    have hmy0 : 0.3 ≤ marginY p := by unfold marginY; split <;> norm_num
    have hlY : log10 Y0 ≤ log10 Y1 := (log10_le pY0 pY1).2 hY
    obtain ⟨c, hc⟩ : ∃ c, c = ⌊log10 Y0 - marginY p⌋ := ⟨_, rfl⟩
    obtain ⟨U, hU⟩ : ∃ U, U = ⌈log10 Y1 + marginY p⌉ := ⟨_, rfl⟩
    obtain ⟨V, hV⟩ : ∃ V, V = ⌈log10 Y1 + ((U : ℝ) - (c : ℝ)) * 3 / 16⌉ := ⟨_, rfl⟩
    have hD : max (U : ℝ) (V : ℝ) = ((max U V : ℤ) : ℝ) := by rw [Int.cast_max]
    have hauto : ∃ bl bb, autoscale p ((r :: l).map some) true ux none =
        .ok (ux.getD (squareUp p bl bb (((⌊log10 X0 - 0.3⌋ : ℤ) : ℝ), ((⌈log10 X1 + 0.8⌉ : ℤ) : ℝ)) ((c : ℝ), ((max U V : ℤ) : ℝ))).1,
          (squareUp p bl bb (((⌊log10 X0 - 0.3⌋ : ℤ) : ℝ), ((⌈log10 X1 + 0.8⌉ : ℤ) : ℝ)) ((c : ℝ), ((max U V : ℤ) : ℝ))).2) := by
      have hif : (0 < X0 ∧ 0 < X1 ∧ 0 < Y0 ∧ 0 < Y1) = True := by simp [pX0, pX1, pY0, pY1]
      refine ⟨decide (log10 X0 - (⌊log10 X0 - 0.3⌋ : ℤ) + 0.3 > (⌈log10 X1 + 0.8⌉ : ℤ) - log10 X1 + 0.8),
        decide (log10 Y0 - (c : ℝ) > ((max U V : ℤ) : ℝ) - (log10 Y1 + (((max U V : ℤ) : ℝ) - (c : ℝ)) / 8)), ?_⟩
      simp only [autoscale, List.map_cons, Option.map_some, List.map_map, Function.comp_def, e1, e2, e3, e4, hif, if_true, hmy, ← hc, ← hU, ← hV, hD, Option.getD_none]
    obtain ⟨bl, bb, hauto⟩ := hauto
    obtain ⟨s0, s1, hsq, g0, g1, g2⟩ := squared_y p bl bb ⌊log10 X0 - 0.3⌋ ⌈log10 X1 + 0.8⌉ c (max U V)
    rw [hsq] at hauto
    obtain ⟨X, hX⟩ : ∃ X, X = ux.getD (squareUp p bl bb (((⌊log10 X0 - 0.3⌋ : ℤ) : ℝ), ((⌈log10 X1 + 0.8⌉ : ℤ) : ℝ)) ((c : ℝ), ((max U V : ℤ) : ℝ))).1 := ⟨_, rfl⟩
    rw [← hX] at hauto
    clear hX
    have hmax : highestY ((r :: l).map some) = some (log10 Y1) := by
      simp only [highestY, List.map_cons, Option.map_some, List.map_map, Function.comp_def, e4]
    have f1 : log10 Y1 + marginY p ≤ U := by rw [hU]; exact Int.le_ceil _
    have f2 : log10 Y1 + ((U : ℝ) - c) * 3 / 16 ≤ ((max U V : ℤ) : ℝ) := by
      have h1 : log10 Y1 + ((U : ℝ) - c) * 3 / 16 ≤ (V : ℝ) := by rw [hV]; exact Int.le_ceil _
      exact h1.trans (by exact_mod_cast le_max_right U V)
    have f3 : (c : ℝ) ≤ log10 Y0 - marginY p := by rw [hc]; exact Int.floor_le _
    have f4 : (U : ℝ) ≤ ((max U V : ℤ) : ℝ) := by exact_mod_cast le_max_left U V
    have room := strip_room (log10 Y1) (marginY p) s0 s1 c U (max U V) hmy0 f1 (le_max_left _ _) f2 g0 g1 g2
    generalize ((max U V : ℤ) : ℝ) = D at *
    have hlt : (c : ℝ) - s0 < D + s1 := by linarith
    have hlen : axisLength ((c : ℝ) - s0, D + s1) = D + s1 - (c - s0) := by
      unfold axisLength
      rw [max_eq_right hlt.le, min_eq_left hlt.le]
    obtain ⟨m, hm⟩ : ∃ m, m = D + s1 - (c - s0) := ⟨_, rfl⟩
    have hmpos : 0 < m := by linarith
    have hb : (stripBox axes ((c : ℝ) - s0, D + s1) (log10 Y1) 0).bottom = heightAt axes ((c : ℝ) - s0, D + s1) (log10 Y1) + axes.height / 16 := by
      simp only [stripBox, heightAt, hlen, ← hm]
      field_simp
      ring
    refine ⟨X, ((c : ℝ) - s0, D + s1), stripBox axes ((c : ℝ) - s0, D + s1) (log10 Y1) 0, ?_, hlt, rfl, rfl, rfl, ?_, ?_, ?_⟩
    · unfold plotStrip
      rw [hauto, hmax]
      rfl
    · intro q hq y hy hle
      rw [hb]
      have h1 : log10 y ≤ log10 Y1 := (log10_le hy pY1).2 (hle.trans (d1 q hq))
      have : (log10 y - (c - s0)) / (D + s1 - (c - s0)) ≤ (log10 Y1 - (c - s0)) / (D + s1 - (c - s0)) := by
        rw [← hm]
        gcongr
      simp only [heightAt]
      nlinarith
    · exact ⟨qd, d2, by rw [hb, ← d3]⟩
    · rw [hb]
      simp only [heightAt, stripBox, ← hm]
      have h1 : (log10 Y1 - (c - s0)) / m ≤ 7 / 8 := by
        rw [div_le_iff₀ hmpos]
        rw [← hm] at room
        linarith
      nlinarith

/-- **C161.** The setting `ra_offset` moves the strip by twentieths of a decade and changes nothing else. -/
theorem C161_offset (axes : Box) (yr : ℝ × ℝ) (h : yr.1 < yr.2) (m k : ℝ) : (stripBox axes yr m k).bottom = heightAt axes yr (m + k / 20) + axes.height / 16 ∧
    (stripBox axes yr m k).left = axes.left ∧ (stripBox axes yr m k).width = axes.width ∧ (stripBox axes yr m k).height = axes.height / 16 := by
  refine ⟨?_, rfl, rfl, rfl⟩
  have hlen : axisLength yr = yr.2 - yr.1 := by
    unfold axisLength
    rw [max_eq_right h.le, min_eq_left h.le]
  have : yr.2 - yr.1 ≠ 0 := by linarith
  simp only [stripBox, heightAt, hlen]
  field_simp
  ring

/-- **C161.** If the user gives a y range which ends below the data, the strip is not within the axes. -/
theorem C161_forced_counterexample : ∃ xr box, plotStrip .cumulative [some ⟨1, 10, 0.01, 1⟩] true none (some (-5, -2)) ⟨0.1, 0.1, 0.8, 0.8⟩ 0 = .ok (xr, (-5, -2), some box) ∧
    (0.1 : ℝ) + 0.8 < box.bottom := by
  obtain ⟨xr, yr, hauto, _⟩ := C46_autoscale_partial .cumulative [⟨1, 10, 0.01, 1⟩] (by simp) true
    (by intro r hr; rw [List.mem_singleton] at hr; subst hr; norm_num) none (some (-5, -2))
  rw [List.map_cons, List.map_nil] at hauto
  have hmax : highestY [some ⟨1, 10, 0.01, 1⟩] = some 0 := by
    simp [highestY, pyMax, pySelect, log10]
  refine ⟨xr, stripBox ⟨0.1, 0.1, 0.8, 0.8⟩ (-5, -2) 0 0, ?_, ?_⟩
  · unfold plotStrip
    rw [hauto, hmax]
    rfl
  · norm_num [stripBox, axisLength]

example : ∃ xr yr box, plotStrip .differential [some ⟨0.1, 3, 1e-5, 0.02⟩, some ⟨0.5, 70, 2e-6, 1⟩] true none none ⟨0.1, 0.1, 0.8, 0.8⟩ 0 = .ok (xr, yr, some box) ∧
    box.bottom + 0.8 / 16 ≤ 0.1 + 0.8 ∧ heightAt ⟨0.1, 0.1, 0.8, 0.8⟩ yr (log10 1) + 0.8 / 16 ≤ box.bottom := by
  obtain ⟨xr, yr, box, h1, _, _, _, h4, h5, _, h7⟩ := C161_strip .differential [⟨0.1, 3, 1e-5, 0.02⟩, ⟨0.5, 70, 2e-6, 1⟩] (by simp)
    (by intro r hr; simp only [List.mem_cons, List.not_mem_nil, or_false] at hr; rcases hr with rfl | rfl <;> norm_num) none ⟨0.1, 0.1, 0.8, 0.8⟩ (by norm_num)
  rw [h4] at h7
  exact ⟨xr, yr, box, h1, h7, h5 _ (by simp : (⟨0.5, 70, 2e-6, 1⟩ : DataRange) ∈ _) 1 one_pos le_rfl⟩

end

end Verif.Props
