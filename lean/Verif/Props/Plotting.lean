import Verif.Props.Ticks

/-! C46, C65, C66: axis scaling, panels, sequence rows. -/

namespace Verif.Props
open Verif.Cratercount Verif.Py Verif.Misc Verif.Plotting

noncomputable section

/-! ### C46 -/

theorem pyMin_some (a : ℝ) (l : List ℝ) : pyMin (some a) (l.map some) = some (minOf a l) := by
  unfold pyMin pySelect minOf
  induction l generalizing a with
  | nil => rfl
  | cons b l ih =>
    simp only [List.map_cons, List.foldl_cons]
    rcases lt_or_ge b a with h | h
    · simp only [h, decide_true, if_true, min_eq_right h.le]; exact ih b
    · simp only [not_lt.2 h, decide_false, Bool.false_eq_true, if_false, min_eq_left h]; exact ih a

theorem pyMax_some (a : ℝ) (l : List ℝ) : pyMax (some a) (l.map some) = some (maxOf a l) := by
  unfold pyMax pySelect maxOf
  induction l generalizing a with
  | nil => rfl
  | cons b l ih =>
    simp only [List.map_cons, List.foldl_cons]
    rcases lt_or_ge a b with h | h
    · simp only [h, decide_true, if_true, max_eq_right h.le]; exact ih b
    · simp only [not_lt.2 h, decide_false, Bool.false_eq_true, if_false, max_eq_left h]; exact ih a

theorem pySelect_none (b : ℝ → ℝ → Bool) (l : List (Option ℝ)) : pySelect b none l = none := by
  unfold pySelect
  induction l with
  | nil => rfl
  | cons a l ih => simpa only [List.foldl_cons] using ih

/-- smallest value of a list -/
theorem min_facts (f : DataRange → ℝ) (r : DataRange) (l : List DataRange) :
    (∀ q ∈ r :: l, minOf (f r) (l.map f) ≤ f q) ∧ ∃ q ∈ r :: l, minOf (f r) (l.map f) = f q := by
  obtain ⟨a1, a2, a3⟩ := foldl_min_le (f r) (l.map f)
  constructor
  · intro q hq
    rcases List.mem_cons.1 hq with rfl | hq
    · exact a1
    · exact a2 _ (List.mem_map_of_mem hq)
  · rcases a3 with h | h
    · exact ⟨r, List.mem_cons_self, h⟩
    · obtain ⟨q, hq, e⟩ := List.mem_map.1 h
      exact ⟨q, List.mem_cons_of_mem _ hq, e.symm⟩

theorem max_facts (f : DataRange → ℝ) (r : DataRange) (l : List DataRange) :
    (∀ q ∈ r :: l, f q ≤ maxOf (f r) (l.map f)) ∧ ∃ q ∈ r :: l, maxOf (f r) (l.map f) = f q := by
  obtain ⟨a1, a2, a3⟩ := foldl_max_ge (f r) (l.map f)
  constructor
  · intro q hq
    rcases List.mem_cons.1 hq with rfl | hq
    · exact a1
    · exact a2 _ (List.mem_map_of_mem hq)
  · rcases a3 with h | h
    · exact ⟨r, List.mem_cons_self, h⟩
    · obtain ⟨q, hq, e⟩ := List.mem_map.1 h
      exact ⟨q, List.mem_cons_of_mem _ hq, e.symm⟩

/-- limits which are whole decades -/
def Whole (r : ℝ × ℝ) : Prop := ∃ a b : ℤ, r = (↑a, ↑b)

/-- how many y decades go with one x decade -/
def Square (p : Pres) (xr yr : ℝ × ℝ) : Prop :=
  yr.2 - yr.1 = (if p = .differential then 2 else 1) * (xr.2 - xr.1)

theorem int_abs_half (d : ℤ) : ∃ h : ℤ, (⌊|(d : ℝ)| / 2⌋ : ℝ) = h ∧ 0 ≤ h ∧ h ≤ |d| := by
  refine ⟨⌊|(d : ℝ)| / 2⌋, rfl, Int.floor_nonneg.2 (by positivity), ?_⟩
  have : ((⌊|(d : ℝ)| / 2⌋ : ℤ) : ℝ) ≤ ((|d| : ℤ) : ℝ) := by
    have h1 := Int.floor_le (|(d : ℝ)| / 2)
    have h2 := abs_nonneg (d : ℝ)
    push_cast
    linarith
  exact_mod_cast this

theorem squareUp_spec (p : Pres) (bl bb : Bool) (a b c d : ℤ) (hcd : c ≤ d) :
    let r := squareUp p bl bb (↑a, ↑b) (↑c, ↑d)
    Whole r.1 ∧ Whole r.2 ∧ Square p r.1 r.2 ∧ r.1.1 ≤ a ∧ b ≤ r.1.2 ∧ r.2.1 ≤ c ∧ d ≤ r.2.2 ∧
    (p ≠ .differential → r.1 = (↑a, ↑b) ∨ r.2 = (↑c, ↑d)) := by
  have key : ∀ (e : ℤ), 0 ≤ e → |(e : ℝ)| = e := fun e he => abs_of_nonneg (by exact_mod_cast he)
  by_cases hp : p = .differential
  · subst hp
    -- the y range after the parity correction
    have hpar : ∃ c' d' : ℤ, c' ≤ c ∧ d ≤ d' ∧ (∃ k, d' - c' = 2 * k) ∧
        (if ⌊(d : ℝ) - c⌋ % 2 = 1 then (if bb then ((c : ℝ), (d : ℝ) + 1) else ((c : ℝ) - 1, (d : ℝ))) else ((c : ℝ), (d : ℝ))) = ((c' : ℝ), (d' : ℝ)) := by
      have e : ⌊(d : ℝ) - c⌋ = d - c := by
        rw [← Int.cast_sub, Int.floor_intCast]
      rw [e]
      by_cases h : (d - c) % 2 = 1
      · rw [if_pos h]
        cases bb
        · exact ⟨c - 1, d, by omega, le_rfl, ⟨(d - c + 1) / 2, by omega⟩, by simp⟩
        · exact ⟨c, d + 1, le_rfl, by omega, ⟨(d - c + 1) / 2, by omega⟩, by simp⟩
      · rw [if_neg h]
        exact ⟨c, d, le_rfl, le_rfl, ⟨(d - c) / 2, by omega⟩, rfl⟩
    obtain ⟨c', d', hc', hd', ⟨k, hk⟩, hyr⟩ := hpar
    simp only [squareUp]
    rw [hyr]
    simp only
    have hkr : ((d' : ℝ) - c') / 2 - ((b : ℝ) - a) = ((k - (b - a) : ℤ) : ℝ) := by
      have : (d' : ℝ) - c' = 2 * k := by exact_mod_cast hk
      push_cast; linarith
    rw [hkr]
    have hcr : (c' : ℝ) ≤ c := by exact_mod_cast hc'
    have hdr : (d : ℝ) ≤ d' := by exact_mod_cast hd'
    have hk2 : (d' : ℝ) - c' = 2 * k := by exact_mod_cast hk
    rcases lt_trichotomy (k - (b - a)) 0 with h | h | h
    · have hr : ((k - (b - a) : ℤ) : ℝ) < 0 := by exact_mod_cast h
      rw [if_pos hr]
      have ha : |((k - (b - a) : ℤ) : ℝ)| = ((b - a - k : ℤ) : ℝ) := by rw [abs_of_neg hr]; push_cast; ring
      rw [ha]
      have hq : (0 : ℝ) < ((b - a - k : ℤ) : ℝ) := by exact_mod_cast (by omega : 0 < b - a - k)
      refine ⟨⟨a, b, rfl⟩, ⟨c' - (b - a - k), d' + (b - a - k), by push_cast; rfl⟩, ?_, le_rfl, le_rfl, by simp only; linarith, by simp only; linarith, fun h => absurd rfl h⟩
      simp only [Square, if_true]
      push_cast
      push_cast at hk2
      linarith
    · have hr : ((k - (b - a) : ℤ) : ℝ) = 0 := by exact_mod_cast h
      rw [hr, if_neg (lt_irrefl _), if_neg (lt_irrefl _)]
      refine ⟨⟨a, b, rfl⟩, ⟨c', d', rfl⟩, ?_, le_rfl, le_rfl, hcr, hdr, fun h => absurd rfl h⟩
      simp only [Square, if_true]
      push_cast at hr
      linarith
    · have hr : (0 : ℝ) < ((k - (b - a) : ℤ) : ℝ) := by exact_mod_cast h
      rw [if_neg (not_lt.2 hr.le), if_pos hr]
      obtain ⟨g, g1, g2, g3⟩ := int_abs_half (k - (b - a))
      rw [g1, abs_of_pos hr]
      rw [abs_of_pos h] at g3
      have gr2 : (0 : ℝ) ≤ g := by exact_mod_cast g2
      have gr3 : (g : ℝ) ≤ ((k - (b - a) : ℤ) : ℝ) := by exact_mod_cast g3
      cases bl
      · refine ⟨⟨a - (k - (b - a) - g), b + g, by push_cast; rfl⟩, ⟨c', d', rfl⟩, ?_, by simp only; norm_num at gr3 ⊢; linarith, by simp only; norm_num at gr3 ⊢; linarith, hcr, hdr, fun h => absurd rfl h⟩
        simp only [Square, if_true]
        push_cast
        norm_num
        linarith
      · refine ⟨⟨a - g, b + (k - (b - a) - g), by push_cast; rfl⟩, ⟨c', d', rfl⟩, ?_, by simp only; norm_num at gr3 ⊢; linarith, by simp only; norm_num at gr3 ⊢; linarith, hcr, hdr, fun h => absurd rfl h⟩
        simp only [Square, if_true]
        push_cast
        norm_num
        linarith
  · have hform : squareUp p bl bb (↑a, ↑b) (↑c, ↑d) =
        if ((d - c - (b - a) : ℤ) : ℝ) < 0 then (((a : ℝ), (b : ℝ)), if bb then ((c : ℝ) - ⌊|((d - c - (b - a) : ℤ) : ℝ)| / 2⌋, (d : ℝ) + (|((d - c - (b - a) : ℤ) : ℝ)| - ⌊|((d - c - (b - a) : ℤ) : ℝ)| / 2⌋)) else ((c : ℝ) - (|((d - c - (b - a) : ℤ) : ℝ)| - ⌊|((d - c - (b - a) : ℤ) : ℝ)| / 2⌋), (d : ℝ) + ⌊|((d - c - (b - a) : ℤ) : ℝ)| / 2⌋))
        else if 0 < ((d - c - (b - a) : ℤ) : ℝ) then ((if bl then ((a : ℝ) - (|((d - c - (b - a) : ℤ) : ℝ)| - ⌊|((d - c - (b - a) : ℤ) : ℝ)| / 2⌋), (b : ℝ) + ⌊|((d - c - (b - a) : ℤ) : ℝ)| / 2⌋) else ((a : ℝ) - ⌊|((d - c - (b - a) : ℤ) : ℝ)| / 2⌋, (b : ℝ) + (|((d - c - (b - a) : ℤ) : ℝ)| - ⌊|((d - c - (b - a) : ℤ) : ℝ)| / 2⌋))), ((c : ℝ), (d : ℝ)))
        else (((a : ℝ), (b : ℝ)), ((c : ℝ), (d : ℝ))) := by
      have e : (d : ℝ) - c - ((b : ℝ) - a) = ((d - c - (b - a) : ℤ) : ℝ) := by push_cast; ring
      cases p with
      | differential => exact absurd rfl hp
      | cumulative => simp only [squareUp, e]
      | rplot => simp only [squareUp, e]
      | hartmann => simp only [squareUp, e]
    simp only [hform]
    obtain ⟨g, g1, g2, g3⟩ := int_abs_half (d - c - (b - a))
    rw [g1]
    have gr2 : (0 : ℝ) ≤ g := by exact_mod_cast g2
    rcases lt_trichotomy (d - c - (b - a)) 0 with h | h | h
    · have hr : ((d - c - (b - a) : ℤ) : ℝ) < 0 := by exact_mod_cast h
      rw [if_pos hr]
      have ha : |((d - c - (b - a) : ℤ) : ℝ)| = ((b - a - (d - c) : ℤ) : ℝ) := by rw [abs_of_neg hr]; push_cast; ring
      rw [ha]
      rw [abs_of_neg h] at g3
      have gr3 : (g : ℝ) ≤ ((b - a - (d - c) : ℤ) : ℝ) := by exact_mod_cast (by omega : g ≤ b - a - (d - c))
      cases bb
      · refine ⟨⟨a, b, rfl⟩, ⟨c - (b - a - (d - c) - g), d + g, by push_cast; rfl⟩, ?_, le_rfl, le_rfl, by simp only; norm_num at gr3 ⊢; linarith, by simp only; norm_num at gr3 ⊢; linarith, fun _ => Or.inl rfl⟩
        simp only [Square, hp, if_false]
        push_cast
        norm_num
        ring
      · refine ⟨⟨a, b, rfl⟩, ⟨c - g, d + (b - a - (d - c) - g), by push_cast; rfl⟩, ?_, le_rfl, le_rfl, by simp only; norm_num at gr3 ⊢; linarith, by simp only; norm_num at gr3 ⊢; linarith, fun _ => Or.inl rfl⟩
        simp only [Square, hp, if_false]
        push_cast
        norm_num
        ring
    · have hr : ((d - c - (b - a) : ℤ) : ℝ) = 0 := by exact_mod_cast h
      rw [hr, if_neg (lt_irrefl _), if_neg (lt_irrefl _)]
      refine ⟨⟨a, b, rfl⟩, ⟨c, d, rfl⟩, ?_, le_rfl, le_rfl, le_rfl, le_rfl, fun _ => Or.inl rfl⟩
      simp only [Square, hp, if_false]
      push_cast at hr
      linarith
    · have hr : (0 : ℝ) < ((d - c - (b - a) : ℤ) : ℝ) := by exact_mod_cast h
      rw [if_neg (not_lt.2 hr.le), if_pos hr, abs_of_pos hr]
      rw [abs_of_pos h] at g3
      have gr3 : (g : ℝ) ≤ ((d - c - (b - a) : ℤ) : ℝ) := by exact_mod_cast g3
      cases bl
      · refine ⟨⟨a - g, b + (d - c - (b - a) - g), by push_cast; rfl⟩, ⟨c, d, rfl⟩, ?_, by simp only; norm_num at gr3 ⊢; linarith, by simp only; norm_num at gr3 ⊢; linarith, le_rfl, le_rfl, fun _ => Or.inr rfl⟩
        simp only [Square, hp, if_false]
        push_cast
        norm_num
        ring
      · refine ⟨⟨a - (d - c - (b - a) - g), b + g, by push_cast; rfl⟩, ⟨c, d, rfl⟩, ?_, by simp only; norm_num at gr3 ⊢; linarith, by simp only; norm_num at gr3 ⊢; linarith, le_rfl, le_rfl, fun _ => Or.inr rfl⟩
        simp only [Square, hp, if_false]
        push_cast
        norm_num
        ring

/-- empty margin kept above and below the data, in decades -/
def marginY (p : Pres) : ℝ := if p = .differential then 0.6 else 0.3

/-- **C46 (partial: every plot has at least one data point).** The automatic axis limits are whole decades; the axes
contain the data of every plot with a margin of at least 0.3 decades on the left, 0.8 on the right, and 0.3 (0.6 in the
differential plot) below and above; one x decade is as long as one y decade (two for differential); without the n-sigma
panel and except in the differential plot one of the two axes is no longer than necessary.  A range given by the user
replaces the automatic one. -/
theorem C46_autoscale_partial (p : Pres) (rs : List DataRange) (hrs : rs ≠ []) (nSigma : Bool)
    (hpos : ∀ r ∈ rs, 0 < r.x0 ∧ r.x0 ≤ r.x1 ∧ 0 < r.y0 ∧ r.y0 ≤ r.y1) (ux uy : Option (ℝ × ℝ)) :
    ∃ xr yr, autoscale p (rs.map some) nSigma ux uy = .ok (ux.getD xr, uy.getD yr) ∧ Whole xr ∧ Whole yr ∧
      Square p xr yr ∧
      (∀ r ∈ rs, xr.1 ≤ log10 r.x0 - 0.3 ∧ log10 r.x1 + 0.8 ≤ xr.2 ∧ yr.1 ≤ log10 r.y0 - marginY p ∧
        log10 r.y1 + marginY p ≤ yr.2) ∧
      (p ≠ .differential → nSigma = false →
        ((∃ r ∈ rs, log10 r.x0 - 0.3 < xr.1 + 1) ∧ ∃ r ∈ rs, xr.2 - 1 < log10 r.x1 + 0.8) ∨
        ((∃ r ∈ rs, log10 r.y0 - marginY p < yr.1 + 1) ∧ ∃ r ∈ rs, yr.2 - 1 < log10 r.y1 + marginY p)) := by
  cases rs with
  | nil => exact absurd rfl hrs
  | cons r l =>
    obtain ⟨a1, qa, a2, a3⟩ := min_facts (·.x0) r l
    obtain ⟨b1, qb, b2, b3⟩ := max_facts (·.x1) r l
    obtain ⟨c1, qc, c2, c3⟩ := min_facts (·.y0) r l
    obtain ⟨d1, qd, d2, d3⟩ := max_facts (·.y1) r l
    have e1 : pyMin (some r.x0) (l.map (fun q => some q.x0)) = some (minOf r.x0 (l.map (·.x0))) := by
      rw [← pyMin_some, List.map_map]; rfl
    have e2 : pyMax (some r.x1) (l.map (fun q => some q.x1)) = some (maxOf r.x1 (l.map (·.x1))) := by
      rw [← pyMax_some, List.map_map]; rfl
    have e3 : pyMin (some r.y0) (l.map (fun q => some q.y0)) = some (minOf r.y0 (l.map (·.y0))) := by
      rw [← pyMin_some, List.map_map]; rfl
    have e4 : pyMax (some r.y1) (l.map (fun q => some q.y1)) = some (maxOf r.y1 (l.map (·.y1))) := by
      rw [← pyMax_some, List.map_map]; rfl
    generalize hX0 : minOf r.x0 (l.map (·.x0)) = X0 at *
    generalize hX1 : maxOf r.x1 (l.map (·.x1)) = X1 at *
    generalize hY0 : minOf r.y0 (l.map (·.y0)) = Y0 at *
    generalize hY1 : maxOf r.y1 (l.map (·.y1)) = Y1 at *
    have pX0 : 0 < X0 := by rw [a3]; exact (hpos _ a2).1
    have pX1 : 0 < X1 := by rw [b3]; exact (hpos _ b2).1.trans_le (hpos _ b2).2.1
    have pY0 : 0 < Y0 := by rw [c3]; exact (hpos _ c2).2.2.1
    have pY1 : 0 < Y1 := by rw [d3]; exact (hpos _ d2).2.2.1.trans_le (hpos _ d2).2.2.2
    have hY : Y0 ≤ Y1 := (c1 r List.mem_cons_self).trans (((hpos r List.mem_cons_self).2.2.2).trans (d1 r List.mem_cons_self))
    have hmy : 0.3 * (if p = Pres.differential then (2 : ℝ) else 1) = marginY p := by
      unfold marginY; split <;> norm_num
    have hmy0 : 0 < marginY p := by unfold marginY; split <;> norm_num
    have hlY : log10 Y0 ≤ log10 Y1 := (log10_le pY0 pY1).2 hY
    -- the y range before squaring
    obtain ⟨D, hD, hDge, hDeq⟩ : ∃ D : ℤ, (if nSigma then (((⌊log10 Y0 - marginY p⌋ : ℤ) : ℝ), max ((⌈log10 Y1 + marginY p⌉ : ℤ) : ℝ) (⌈log10 Y1 + (((⌈log10 Y1 + marginY p⌉ : ℤ) : ℝ) - ((⌊log10 Y0 - marginY p⌋ : ℤ) : ℝ)) * 3 / 16⌉ : ℤ)) else (((⌊log10 Y0 - marginY p⌋ : ℤ) : ℝ), ((⌈log10 Y1 + marginY p⌉ : ℤ) : ℝ))) = (((⌊log10 Y0 - marginY p⌋ : ℤ) : ℝ), (D : ℝ)) ∧ ⌈log10 Y1 + marginY p⌉ ≤ D ∧ (nSigma = false → D = ⌈log10 Y1 + marginY p⌉) := by
      cases nSigma
      · exact ⟨_, rfl, le_rfl, fun _ => rfl⟩
      · refine ⟨max ⌈log10 Y1 + marginY p⌉ ⌈log10 Y1 + (((⌈log10 Y1 + marginY p⌉ : ℤ) : ℝ) - ((⌊log10 Y0 - marginY p⌋ : ℤ) : ℝ)) * 3 / 16⌉, ?_, le_max_left _ _, by simp⟩
        rw [if_pos rfl, Int.cast_max]
    have hCD : ⌊log10 Y0 - marginY p⌋ ≤ D := by
      refine le_trans ?_ hDge
      have : ((⌊log10 Y0 - marginY p⌋ : ℤ) : ℝ) ≤ ⌈log10 Y1 + marginY p⌉ := by
        have := Int.floor_le (log10 Y0 - marginY p)
        have := Int.le_ceil (log10 Y1 + marginY p)
        linarith
      exact_mod_cast this
    have hauto : ∃ bl bb, autoscale p ((r :: l).map some) nSigma ux uy =
        .ok (ux.getD (squareUp p bl bb (((⌊log10 X0 - 0.3⌋ : ℤ) : ℝ), ((⌈log10 X1 + 0.8⌉ : ℤ) : ℝ)) (((⌊log10 Y0 - marginY p⌋ : ℤ) : ℝ), (D : ℝ))).1, uy.getD (squareUp p bl bb (((⌊log10 X0 - 0.3⌋ : ℤ) : ℝ), ((⌈log10 X1 + 0.8⌉ : ℤ) : ℝ)) (((⌊log10 Y0 - marginY p⌋ : ℤ) : ℝ), (D : ℝ))).2) := by
      have hif : (0 < X0 ∧ 0 < X1 ∧ 0 < Y0 ∧ 0 < Y1) = True := by simp [pX0, pX1, pY0, pY1]
      refine ⟨decide (log10 X0 - (⌊log10 X0 - 0.3⌋ : ℤ) + 0.3 > (⌈log10 X1 + 0.8⌉ : ℤ) - log10 X1 + 0.8),
        decide (log10 Y0 - (⌊log10 Y0 - marginY p⌋ : ℤ) > (D : ℝ) - (if nSigma then log10 Y1 + ((D : ℝ) - (⌊log10 Y0 - marginY p⌋ : ℤ)) / 8 else log10 Y1)), ?_⟩
      simp only [autoscale, List.map_cons, Option.map_some, List.map_map, Function.comp_def, e1, e2, e3, e4, hif, if_true, hmy, hD]
    obtain ⟨bl, bb, hauto⟩ := hauto
    obtain ⟨s1, s2, s3, s4, s5, s6, s7, s8⟩ := squareUp_spec p bl bb ⌊log10 X0 - 0.3⌋ ⌈log10 X1 + 0.8⌉ ⌊log10 Y0 - marginY p⌋ D hCD
    refine ⟨_, _, hauto, s1, s2, s3, ?_, ?_⟩
    · intro q hq
      obtain ⟨q1, q2, q3, q4⟩ := hpos q hq
      have f1 := Int.floor_le (log10 X0 - 0.3)
      have f2 := Int.le_ceil (log10 X1 + 0.8)
      have f3 := Int.floor_le (log10 Y0 - marginY p)
      have f4 := Int.le_ceil (log10 Y1 + marginY p)
      have f5 : ((⌈log10 Y1 + marginY p⌉ : ℤ) : ℝ) ≤ D := by exact_mod_cast hDge
      have g1 := (log10_le pX0 q1).2 (a1 q hq)
      have g2 := (log10_le (q1.trans_le q2) pX1).2 (b1 q hq)
      have g3 := (log10_le pY0 q3).2 (c1 q hq)
      have g4 := (log10_le (q3.trans_le q4) pY1).2 (d1 q hq)
      refine ⟨?_, ?_, ?_, ?_⟩ <;> linarith
    · intro hp hn
      rcases s8 hp with h | h
      · left
        rw [h]
        constructor
        · refine ⟨qa, a2, ?_⟩
          rw [← a3]; exact Int.lt_floor_add_one _
        · refine ⟨qb, b2, ?_⟩
          rw [← b3]
          have := Int.ceil_lt_add_one (log10 X1 + 0.8)
          simp only; linarith
      · right
        rw [h]
        constructor
        · refine ⟨qc, c2, ?_⟩
          rw [← c3]; exact Int.lt_floor_add_one _
        · refine ⟨qd, d2, ?_⟩
          rw [← d3, hDeq hn]
          have := Int.ceil_lt_add_one (log10 Y1 + marginY p)
          simp only; linarith

theorem minOf_perm {f : DataRange → ℝ} {r q : DataRange} {l m : List DataRange} (h : (r :: l).Perm (q :: m)) :
    minOf (f r) (l.map f) = minOf (f q) (m.map f) := by
  obtain ⟨a1, x, a2, a3⟩ := min_facts f r l
  obtain ⟨b1, y, b2, b3⟩ := min_facts f q m
  apply le_antisymm
  · rw [b3]; exact a1 y (h.mem_iff.2 b2)
  · rw [a3]; exact b1 x (h.mem_iff.1 a2)

theorem maxOf_perm {f : DataRange → ℝ} {r q : DataRange} {l m : List DataRange} (h : (r :: l).Perm (q :: m)) :
    maxOf (f r) (l.map f) = maxOf (f q) (m.map f) := by
  obtain ⟨a1, x, a2, a3⟩ := max_facts f r l
  obtain ⟨b1, y, b2, b3⟩ := max_facts f q m
  apply le_antisymm
  · rw [a3]; exact b1 x (h.mem_iff.1 a2)
  · rw [b3]; exact a1 y (h.mem_iff.2 b2)

/-- **C46.** The automatic limits do not depend on the order of the plots (each with at least one data point). -/
theorem C46_order_irrelevant_partial (p : Pres) (rs qs : List DataRange) (h : rs.Perm qs) (nSigma : Bool)
    (ux uy : Option (ℝ × ℝ)) : autoscale p (rs.map some) nSigma ux uy = autoscale p (qs.map some) nSigma ux uy := by
  cases rs with
  | nil => rw [List.nil_perm.1 h]
  | cons r l =>
    cases qs with
    | nil => exact absurd h (List.not_perm_cons_nil)
    | cons q m =>
      have s1 : ∀ (f : DataRange → ℝ) (r : DataRange) (l : List DataRange), pyMin (some (f r)) (l.map (fun q => some (f q))) = some (minOf (f r) (l.map f)) := by
        intro f r l; rw [← pyMin_some, List.map_map]; rfl
      have s2 : ∀ (f : DataRange → ℝ) (r : DataRange) (l : List DataRange), pyMax (some (f r)) (l.map (fun q => some (f q))) = some (maxOf (f r) (l.map f)) := by
        intro f r l; rw [← pyMax_some, List.map_map]; rfl
      have e1 := minOf_perm (f := (·.x0)) h
      have e2 := maxOf_perm (f := (·.x1)) h
      have e3 := minOf_perm (f := (·.y0)) h
      have e4 := maxOf_perm (f := (·.y1)) h
      simp only [autoscale, List.map_cons, Option.map_some, List.map_map, Function.comp_def, s1 (·.x0), s2 (·.x1), s1 (·.y0), s2 (·.y1)]
      simp only [e1, e2, e3, e4]

/-- **C46 is false of the code when a plot holds no data point and comes first**: the default axes are used although
another plot has data outside them; with the plots in the other order the axes contain the data. -/
theorem C46_empty_plot_counterexample (p : Pres) :
    ∃ r : DataRange, (0 < r.x0 ∧ r.x0 ≤ r.x1 ∧ 0 < r.y0 ∧ r.y0 ≤ r.y1) ∧
      autoscale p [none, some r] false none none = .ok (defaultX p, defaultY p) ∧ (defaultX p).2 < log10 r.x0 ∧
      autoscale p [some r, none] false none none = autoscale p [some r] false none none := by
  refine ⟨⟨10000, 20000, 1, 2⟩, by norm_num, ?_, ?_, ?_⟩
  · simp only [autoscale, Option.map_none, Option.map_some, List.map_cons, List.map_nil, pyMin, pyMax, pySelect_none, Option.getD_none]
  · have : log10 10000 = 4 := by
      rw [show (10000 : ℝ) = (10 : ℝ) ^ (4 : ℝ) by norm_num, log10_pow10]
    simp only [this]
    cases p <;> norm_num [defaultX]
  · rfl

/-- **C46 is false of the code when no plot delivers a data range** (for example incremental presentations with binning
'none', for which `get_data_range` raises): the call fails instead of using the default axes. -/
theorem C46_no_ranges_counterexample (p : Pres) (nSigma : Bool) (ux uy : Option (ℝ × ℝ)) :
    autoscale p [] nSigma ux uy = .error .type := rfl

example : ∃ xr yr, autoscale .cumulative [some ⟨0.1, 3, 1e-5, 0.02⟩, some ⟨0.5, 70, 2e-6, 1⟩] false none none = .ok (xr, yr) ∧
    Square .cumulative xr yr := by
  obtain ⟨xr, yr, h1, _, _, h2, _⟩ := C46_autoscale_partial .cumulative [⟨0.1, 3, 1e-5, 0.02⟩, ⟨0.5, 70, 2e-6, 1⟩] (by simp) false
    (by intro r hr; simp at hr; rcases hr with rfl | rfl <;> norm_num) none none
  exact ⟨xr, yr, h1, h2⟩

/-! ### C66 -/

/-- **C66.** Of `n` visible age measurements the first is at the top; the rows are equally spaced, strictly inside the axis
(0, 1) including their bars, the violins of neighbouring rows touch at most at their edges, and the distance of the
outermost rows from the ends of the axis is the row distance. -/
theorem C66_rows (n : ℕ) (i j : ℕ) (hij : i < j) (hj : j < n) :
    rowHeight n j < rowHeight n i ∧ rowHeight n i - rowHeight n (i + 1) = 1 / (n + 1) ∧
    0 < rowHeight n i - rowHalfWidth n ∧ rowHeight n i + rowHalfWidth n < 1 ∧
    0 < rowHeight n j - rowHalfWidth n ∧ rowHeight n j + rowHalfWidth n < 1 ∧
    rowHeight n j + rowHalfWidth n ≤ rowHeight n i - rowHalfWidth n ∧
    1 - rowHeight n 0 = 1 / (n + 1) ∧ rowHeight n (n - 1) = 1 / (n + 1) := by
  have hn : (0 : ℝ) < n + 1 := by positivity
  have hi1 : (i : ℝ) + 1 ≤ j := by exact_mod_cast hij
  have hj1 : (j : ℝ) + 1 ≤ n := by exact_mod_cast hj
  have hi0 : (0 : ℝ) ≤ i := Nat.cast_nonneg i
  have hn1 : ((n - 1 : ℕ) : ℝ) = n - 1 := by rw [Nat.cast_sub (by omega)]; simp
  unfold rowHeight rowHalfWidth
  refine ⟨by gcongr, by push_cast; field_simp; ring, ?_, ?_, ?_, ?_, ?_, by rw [Nat.cast_zero]; field_simp; ring, ?_⟩
  · rw [← sub_div]; apply div_pos _ hn; norm_num; linarith
  · rw [← add_div, div_lt_one hn]; norm_num; linarith
  · rw [← sub_div]; apply div_pos _ hn; norm_num; linarith
  · rw [← add_div, div_lt_one hn]; norm_num; linarith
  · rw [← add_div, ← sub_div]; gcongr; norm_num; linarith
  · rw [hn1]; congr 1; ring

example : rowHeight 3 2 < rowHeight 3 0 := (C66_rows 3 0 2 (by norm_num) (by norm_num)).1

/-! ### C65 -/

theorem panelDim_sq (n : ℕ) (b : Bool) : n + b.toNat ≤ panelDim n b ^ 2 := by
  unfold panelDim
  have h := Nat.le_ceil (Real.sqrt ((n + b.toNat : ℕ) : ℝ))
  have h0 : (0 : ℝ) ≤ ((n + b.toNat : ℕ) : ℝ) := Nat.cast_nonneg _
  have : ((n + b.toNat : ℕ) : ℝ) ≤ ((⌈Real.sqrt ((n + b.toNat : ℕ) : ℝ)⌉₊ ^ 2 : ℕ) : ℝ) := by
    rw [Nat.cast_pow]
    calc ((n + b.toNat : ℕ) : ℝ) = Real.sqrt ((n + b.toNat : ℕ) : ℝ) ^ 2 := (Real.sq_sqrt h0).symm
      _ ≤ _ := pow_le_pow_left₀ (Real.sqrt_nonneg _) h 2
  exact_mod_cast this

theorem panelCell_inj {dim i j : ℕ} (h : panelCell dim i = panelCell dim j) : i = j := by
  simp only [panelCell, Prod.mk.injEq] at h
  have h1 := h.1
  have h2 : (i : ℤ) / dim = (j : ℤ) / dim := by linarith [h.2]
  have e1 := Int.emod_add_mul_ediv (i : ℤ) dim
  have e2 := Int.emod_add_mul_ediv (j : ℤ) dim
  rw [h1, h2] at e1
  exact_mod_cast e1.symm.trans e2

theorem panelCell_mem {dim i : ℕ} (h : i < dim ^ 2) :
    0 ≤ (panelCell dim i).1 ∧ (panelCell dim i).1 < dim ∧ 0 ≤ (panelCell dim i).2 ∧ (panelCell dim i).2 < dim := by
  have hd : 0 < dim := by
    rcases Nat.eq_zero_or_pos dim with h0 | h0
    · subst h0; simp at h
    · exact h0
  have hd' : (0 : ℤ) < dim := by exact_mod_cast hd
  simp only [panelCell]
  have h1 : (i : ℤ) / dim < dim := by
    apply Int.ediv_lt_of_lt_mul hd'
    rw [← pow_two]
    exact_mod_cast h
  have h2 : 0 ≤ (i : ℤ) / dim := Int.ediv_nonneg (by positivity) hd'.le
  refine ⟨Int.emod_nonneg _ hd'.ne', Int.emod_lt_of_pos _ hd', by omega, by omega⟩

/-- **C65.** The panels shown (one per selected bin, and the n-sigma panel if asked for) lie in distinct cells of a square
grid; the shown bins are those whose number (from 1) is in the selection, out-of-range numbers being ignored; without
a selection all bins and the n-sigma panel are shown; the grid is as small as possible. -/
theorem C65_panels {β : Type} (bins : List β) (selection : Option (List ℤ)) :
    ∃ dim : ℕ, (panels bins selection).Nodup ∧
      (∀ c ∈ panels bins selection, 0 ≤ c.1 ∧ c.1 < dim ∧ 0 ≤ c.2 ∧ c.2 < dim) ∧
      (∀ d : ℕ, (panels bins selection).length ≤ d ^ 2 → dim ≤ d) ∧
      ((selection = none ∨ selection = some []) → (panels bins selection).length = bins.length + 1) ∧
      (∀ s, selection = some s → s ≠ [] → (panels bins selection).length =
        (s.filter (fun i => decide (1 ≤ i ∧ i ≤ (bins.length : ℤ)))).length + (if (0 : ℤ) ∈ s then 1 else 0)) := by
  obtain ⟨shown, nSigma, hs⟩ : ∃ a b, panelSelection bins selection = (a, b) := ⟨_, _, rfl⟩
  set dim := panelDim shown.length nSigma with hdim
  have hp : panels bins selection = (List.range shown.length).map (panelCell dim) ++ (if nSigma then [panelCell dim (dim ^ 2 - 1)] else []) := by
    simp only [panels, hs, hdim]
  have hsq := panelDim_sq shown.length nSigma
  rw [← hdim] at hsq
  have hlen : (panels bins selection).length = shown.length + nSigma.toNat := by
    rw [hp]; cases nSigma <;> simp
  refine ⟨dim, ?_, ?_, ?_, ?_, ?_⟩
  · rw [hp]
    have h1 : ((List.range shown.length).map (panelCell dim)).Nodup :=
      List.Nodup.map (fun i j h => panelCell_inj h) List.nodup_range
    cases nSigma
    · simpa using h1
    · simp only [if_true]
      rw [List.nodup_append]
      refine ⟨h1, by simp, ?_⟩
      intro a ha b hb hab
      rw [List.mem_singleton] at hb
      obtain ⟨i, hi, rfl⟩ := List.mem_map.1 ha
      rw [hb] at hab
      have := panelCell_inj hab
      have := List.mem_range.1 hi
      simp only [Bool.toNat_true] at hsq
      omega
  · intro c hc
    rw [hp, List.mem_append] at hc
    rcases hc with hc | hc
    · obtain ⟨i, hi, rfl⟩ := List.mem_map.1 hc
      exact panelCell_mem (by have := List.mem_range.1 hi; omega)
    · cases nSigma
      · simp at hc
      · simp only [if_true, List.mem_singleton] at hc
        rw [hc]
        simp only [Bool.toNat_true] at hsq
        exact panelCell_mem (by omega)
  · intro d hd
    rw [hlen] at hd
    rw [hdim]
    apply Nat.ceil_le.2
    rw [Real.sqrt_le_left (by positivity)]
    exact_mod_cast hd
  · intro h
    rw [hlen]
    rcases h with rfl | rfl <;> · simp only [panelSelection, Prod.mk.injEq] at hs; obtain ⟨rfl, rfl⟩ := hs; rfl
  · intro s hsel hne
    rw [hlen]
    subst hsel
    cases s with
    | nil => exact absurd rfl hne
    | cons z zs =>
      simp only [panelSelection, Prod.mk.injEq] at hs
      obtain ⟨rfl, rfl⟩ := hs
      congr 1
      · have hfm : ∀ l : List ℤ, (∀ i ∈ l, 1 ≤ i ∧ i ≤ (bins.length : ℤ)) → (l.filterMap (fun i : ℤ => bins[(i - 1).toNat]?)).length = l.length := by
          intro l
          induction l with
          | nil => intro _; rfl
          | cons i l ih =>
            intro h
            have hi := h i List.mem_cons_self
            have : bins[(i - 1).toNat]? = some (bins[(i - 1).toNat]'(by omega)) := List.getElem?_eq_getElem _
            rw [List.filterMap_cons, this]
            simp only [List.length_cons]
            rw [ih (fun j hj => h j (List.mem_cons_of_mem _ hj))]
        apply hfm
        intro i hi
        have := (List.mem_filter.1 hi).2
        simpa using this
      · by_cases h : (0 : ℤ) ∈ z :: zs
        · simp [h]
        · simp [h]

/-- **C65.** Which bins are shown: for an ascending selection, the bins with the selected numbers in bin order. -/
theorem C65_selected {β : Type} (bins : List β) (s : List ℤ) (hs : s ≠ []) (n : ℕ) (b : β) :
    (panelSelection bins (some s)).1[n]? = some b ↔
      ∃ i : ℤ, (s.filter (fun i => decide (1 ≤ i ∧ i ≤ (bins.length : ℤ))))[n]? = some i ∧ bins[(i - 1).toNat]? = some b := by
  cases s with
  | nil => exact absurd rfl hs
  | cons z zs =>
    simp only [panelSelection]
    have hfm : ∀ (l : List ℤ), (∀ i ∈ l, 1 ≤ i ∧ i ≤ (bins.length : ℤ)) → ∀ n : ℕ, (l.filterMap (fun i : ℤ => bins[(i - 1).toNat]?))[n]? = some b ↔
        ∃ i : ℤ, l[n]? = some i ∧ bins[(i - 1).toNat]? = some b := by
      intro l
      induction l with
      | nil => intro _ n; simp
      | cons i l ih =>
        intro h n
        have hi := h i List.mem_cons_self
        have e : bins[(i - 1).toNat]? = some (bins[(i - 1).toNat]'(by omega)) := List.getElem?_eq_getElem _
        rw [List.filterMap_cons, e]
        cases n with
        | zero =>
          simp only [List.getElem?_cons_zero, Option.some.injEq]
          constructor
          · intro h; exact ⟨i, rfl, by rw [e, h]⟩
          · rintro ⟨j, rfl, hj⟩; rw [e] at hj; injection hj
        | succ n =>
          simp only [List.getElem?_cons_succ]
          exact ih (fun j hj => h j (List.mem_cons_of_mem _ hj)) n
    apply hfm
    intro i hi
    have := (List.mem_filter.1 hi).2
    simpa using this

theorem panelCell_order {dim i j : ℕ} (hij : i < j) :
    (panelCell dim j).2 < (panelCell dim i).2 ∨ (panelCell dim j).2 = (panelCell dim i).2 ∧ (panelCell dim i).1 < (panelCell dim j).1 := by
  simp only [panelCell]
  rcases Nat.eq_zero_or_pos dim with rfl | hd
  · right
    simp
    exact_mod_cast hij
  have hd' : (0 : ℤ) < dim := by exact_mod_cast hd
  have hij' : (i : ℤ) < j := by exact_mod_cast hij
  have h := Int.ediv_le_ediv hd' hij'.le
  rcases h.lt_or_eq with h | h
  · left; omega
  · right
    refine ⟨by omega, ?_⟩
    have e1 := Int.emod_add_mul_ediv (i : ℤ) dim
    have e2 := Int.emod_add_mul_ediv (j : ℤ) dim
    rw [h] at e1
    linarith

/-- **C65.** The panels are in reading order: row by row from the top (rows are counted from the bottom), from left to right; the first bin at the
top left, the n-sigma panel, if there is one, at the bottom right of the grid. -/
theorem C65_reading_order {β : Type} (bins : List β) (selection : Option (List ℤ)) :
    ∃ dim : ℕ, (∀ d : ℕ, dim ≤ d ↔ (panels bins selection).length ≤ d ^ 2) ∧
      (panels bins selection).Pairwise (fun a b => b.2 < a.2 ∨ b.2 = a.2 ∧ a.1 < b.1) ∧
      (∀ c ∈ (panels bins selection).head?, 2 ≤ (panels bins selection).length → c = (0, (dim : ℤ) - 1)) ∧
      ((selection = none ∨ selection = some [] ∨ ∃ s, selection = some s ∧ (0 : ℤ) ∈ s) →
        (panels bins selection).getLast? = some ((dim : ℤ) - 1, 0)) := by
  obtain ⟨shown, nSigma, hs⟩ : ∃ a b, panelSelection bins selection = (a, b) := ⟨_, _, rfl⟩
  set dim := panelDim shown.length nSigma with hdim
  have hp : panels bins selection = (List.range shown.length).map (panelCell dim) ++ (if nSigma then [panelCell dim (dim ^ 2 - 1)] else []) := by
    simp only [panels, hs, hdim]
  have hsq := panelDim_sq shown.length nSigma
  rw [← hdim] at hsq
  have hlen : (panels bins selection).length = shown.length + nSigma.toNat := by
    rw [hp]; cases nSigma <;> simp
  refine ⟨dim, ?_, ?_, ?_, ?_⟩
  · intro d
    rw [hlen]
    constructor
    · intro h
      exact hsq.trans (Nat.pow_le_pow_left h 2)
    · intro h
      rw [hdim]
      apply Nat.ceil_le.2
      rw [Real.sqrt_le_left (by positivity)]
      exact_mod_cast h
  · rw [hp]
    have h1 : ((List.range shown.length).map (panelCell dim)).Pairwise (fun a b => b.2 < a.2 ∨ b.2 = a.2 ∧ a.1 < b.1) := by
      rw [List.pairwise_map]
      exact List.pairwise_lt_range.imp (fun h => panelCell_order h)
    cases nSigma
    · simpa using h1
    · simp only [if_true]
      rw [List.pairwise_append]
      refine ⟨h1, by simp, ?_⟩
      intro a ha b hb
      rw [List.mem_singleton] at hb
      obtain ⟨i, hi, rfl⟩ := List.mem_map.1 ha
      rw [hb]
      have := List.mem_range.1 hi
      simp only [Bool.toNat_true] at hsq
      exact panelCell_order (by omega)
  · intro c hc h2
    rw [hlen] at h2
    have hn : 0 < shown.length := by cases nSigma <;> simp at h2 <;> omega
    obtain ⟨m, hm⟩ : ∃ m, shown.length = m + 1 := ⟨_, (Nat.succ_pred_eq_of_pos hn).symm⟩
    rw [hp, hm, List.range_succ_eq_map] at hc
    simp only [List.map_cons, List.cons_append, List.head?_cons, Option.mem_def, Option.some.injEq] at hc
    rw [← hc]
    simp [panelCell]
  · intro h
    have hb : nSigma = true := by
      rcases h with rfl | rfl | ⟨z, rfl, hz⟩
      · simp only [panelSelection, Prod.mk.injEq] at hs; exact hs.2.symm
      · simp only [panelSelection, Prod.mk.injEq] at hs; exact hs.2.symm
      · cases z with
        | nil => simp at hz
        | cons z zs =>
          simp only [panelSelection, Prod.mk.injEq] at hs
          rw [← hs.2]
          simpa using hz
    rw [hp, hb, if_pos rfl, List.getLast?_concat]
    rw [hb] at hsq
    simp only [Bool.toNat_true] at hsq
    have hd : 0 < dim := by
      rcases Nat.eq_zero_or_pos dim with h0 | h0
      · rw [h0] at hsq; simp at hsq
      · exact h0
    obtain ⟨m, hm⟩ : ∃ m, dim = m + 1 := ⟨_, (Nat.succ_pred_eq_of_pos hd).symm⟩
    rw [hm]
    have hz : (0 : ℤ) < (m : ℤ) + 1 := by positivity
    have e : (((m + 1) ^ 2 - 1 : ℕ) : ℤ) = m + (m + 1) * m := by
      have : (m + 1) ^ 2 - 1 = m + (m + 1) * m := by
        rw [show (m + 1) ^ 2 = (m + (m + 1) * m) + 1 by ring]; rfl
      rw [this]; push_cast; ring
    have e1 : (m : ℤ) / (m + 1) = 0 := Int.ediv_eq_zero_of_lt (by positivity) (by omega)
    have e2 : (m : ℤ) % (m + 1) = m := Int.emod_eq_of_lt (by positivity) (by omega)
    simp only [panelCell, e]
    push_cast
    rw [Int.add_mul_emod_self_left, Int.add_mul_ediv_left _ _ hz.ne', e1, e2]
    simp

/-- four panels, the n-sigma panel last -/
example : (panels ["a", "b", "c"] none).length = 4 ∧ (panels ["a", "b", "c"] none).getLast? = some (1, 0) := by
  obtain ⟨_, _, _, _, h, _⟩ := C65_panels ["a", "b", "c"] none
  have h4 : (panels ["a", "b", "c"] none).length = 4 := h (.inl rfl)
  refine ⟨h4, ?_⟩
  obtain ⟨dim, h1, _, _, h3⟩ := C65_reading_order ["a", "b", "c"] none
  have a1 := (h1 2).2 (by rw [h4]; norm_num)
  have a2 : ¬ dim ≤ 1 := by rw [h1 1, h4]; norm_num
  obtain rfl : dim = 2 := by omega
  exact h3 (.inl rfl)

example : (panels ["a", "b", "c"] (some [0, 2, 9])).length = 2 := by
  obtain ⟨_, _, _, _, _, h⟩ := C65_panels ["a", "b", "c"] (some [0, 2, 9])
  rw [h _ rfl (by simp)]
  decide

end

end Verif.Props
