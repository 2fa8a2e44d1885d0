import Verif.Model.SequenceElement
import Verif.Props.Overplot
import Verif.Props.MiniPlot
import Verif.Props.StructureText

/-! C135: every visible age measurement with a count has its own row in a sequence plot. -/

namespace Verif.Props
open Verif.Py Verif.Cratercount Verif.Chronology Verif.Production Verif.Craterpdf Verif.Age Verif.Overplot Verif.MiniPlot Verif.Plotting
  Verif.Text Verif.SequenceElement Verif.Spec Verif.Misc

noncomputable section

/-! ### specification -/

/-- a plot which measures an age and is not hidden -/
def Measures (p : SeqPlot) : Prop := p.opts.kind ≠ .data ∧ p.opts.hide = false

open Classical in
/-- number of such plots -/
def measuring (l : List SeqPlot) : ℕ := l.countP (fun p => decide (Measures p))

/-- height of the row of the `k`-th plot: with `n` rows the distance of the rows, and of the first and the last one from the ends of the axis,
is `1/(n+1)` -/
def rowAt (plots : List SeqPlot) (k : ℕ) : ℝ := 1 - ((measuring (plots.take k) : ℝ) + 1) / (measuring plots + 1)

/-- the lines of a text in which line ends are written as `\n` -/
def LinesOf (text : List Char) (lines : List (List Char)) : Prop :=
  ['\\', 'n'].intercalate lines = text ∧ ∀ w ∈ lines, ¬ ['\\', 'n'] <:+: w

/-- the heights at which something of the bar is drawn -/
def Covers (b : Bar) (y : ℝ) : Prop :=
  match b with
  | .box _ _ top bottom _ => bottom ≤ y ∧ y ≤ top
  | .violin v => ∃ q ∈ v.whole ++ v.sigma ++ v.median, q.2.2 ≤ y ∧ y ≤ q.2.1

/-! ### names -/

theorem splitEscaped_ne : ∀ s, splitEscaped s ≠ [] := by
  intro s
  induction s using splitEscaped.induct with
  | case1 => simp [splitEscaped]
  | case2 l ih => simp [splitEscaped]
  | case3 c l h hn ih => exact absurd hn ih
  | case4 c l h w ws hn ih => rw [splitEscaped]; · rw [hn]; simp
                              · exact h

theorem splitEscaped_head {s w : List Char} {ws : List (List Char)} (h : splitEscaped s = w :: ws) {c : Char} {w' : List Char}
    (hw : w = c :: w') : ∃ s', s = c :: s' := by
  induction s using splitEscaped.induct with
  | case1 => simp only [splitEscaped, List.cons.injEq] at h; rw [← h.1] at hw; cases hw
  | case2 l ih => simp only [splitEscaped, List.cons.injEq] at h; rw [← h.1] at hw; cases hw
  | case3 d l hh hn ih => exact absurd hn (splitEscaped_ne l)
  | case4 d l hh v vs hn ih =>
    rw [splitEscaped] at h
    · rw [hn] at h
      simp only [List.cons.injEq] at h
      rw [← h.1] at hw
      injection hw with hw
      exact ⟨l, by rw [hw]⟩
    · exact hh

theorem lines_splitEscaped (s : List Char) : LinesOf s (splitEscaped s) := by
  induction s using splitEscaped.induct with
  | case1 => exact ⟨rfl, by intro w hw hi; simp [splitEscaped] at hw; subst hw; simp at hi⟩
  | case2 l ih =>
    rw [splitEscaped]
    obtain ⟨h1, h2⟩ := ih
    refine ⟨?_, ?_⟩
    · obtain ⟨w, ws, hw⟩ := List.exists_cons_of_ne_nil (splitEscaped_ne l)
      rw [hw] at h1 ⊢
      rw [List.intercalate_cons_cons, h1]
      rfl
    · intro w hw hi
      rcases List.mem_cons.1 hw with rfl | hw
      · simp at hi
      · exact h2 w hw hi
  | case3 c l h hn ih => exact absurd hn (splitEscaped_ne l)
  | case4 c l h w ws hn ih =>
    rw [splitEscaped]
    · rw [hn]
      rw [hn] at ih
      obtain ⟨h1, h2⟩ := ih
      dsimp only
      refine ⟨?_, ?_⟩
      · cases ws with
        | nil => simpa using h1
        | cons v vs =>
          rw [List.intercalate_cons_cons] at h1 ⊢
          rw [← h1]
          rfl
      · intro v hv hi
        rcases List.mem_cons.1 hv with rfl | hv
        · rcases List.infix_cons_iff.1 hi with hi | hi
          · obtain ⟨t, ht⟩ := hi
            simp only [List.cons_append, List.nil_append, List.cons.injEq] at ht
            obtain ⟨s', hs'⟩ := splitEscaped_head hn ht.2.symm
            exact h s' ht.1.symm hs'
          · exact h2 w (by simp) hi
        · exact h2 v (by simp [hv]) hi
    · exact h

/-! ### rows -/

theorem isMeasurement_iff (p : SeqPlot) : isMeasurement p = true ↔ Measures p := by
  unfold isMeasurement Measures
  cases p.opts.kind <;> simp

theorem measuring_eq (l : List SeqPlot) : measuring l = l.countP isMeasurement := by
  classical
  unfold measuring
  congr 1
  funext p
  rw [Bool.eq_iff_iff, decide_eq_true_eq, isMeasurement_iff]

theorem findIdx_zip (f : SeqPlot → Bool) (l : List SeqPlot) : ∀ (s j : ℕ) (p : SeqPlot), l[j]? = some p → f p = true →
    ((l.zipIdx s).filter (fun e => f e.1)).findIdx (fun e => e.2 == s + j) = (l.take j).countP f := by
  induction l with
  | nil => intro s j p h; simp at h
  | cons x l ih =>
    intro s j p h hp
    cases j with
    | zero =>
      simp only [List.getElem?_cons_zero, Option.some.injEq] at h
      subst h
      rw [List.zipIdx_cons, List.filter_cons_of_pos (by exact hp), List.findIdx_cons]
      simp
    | succ j =>
      rw [List.getElem?_cons_succ] at h
      have := ih (s + 1) j p h hp
      rw [show s + 1 + j = s + (j + 1) by ring] at this
      rw [List.zipIdx_cons, List.take_succ_cons, List.countP_cons]
      by_cases hx : f x = true
      · rw [List.filter_cons_of_pos (by exact hx), List.findIdx_cons, if_pos hx, this]
        have : ((s == s + (j + 1)) : Bool) = false := by simp
        rw [this]
        rfl
      · rw [List.filter_cons_of_neg (by exact hx), if_neg hx, this]
        rfl

theorem rowOf_eq {plots : List SeqPlot} {k : ℕ} {p : SeqPlot} (h : plots[k]? = some p) (hp : Measures p) :
    rowOf plots k = (measuring plots, measuring (plots.take k)) := by
  unfold rowOf
  dsimp only
  rw [measuring_eq, measuring_eq]
  congr 1
  · rw [← List.countP_eq_length_filter]
    have : plots.countP isMeasurement = (plots.zipIdx.map Prod.fst).countP isMeasurement := by rw [List.zipIdx_map_fst]
    rw [this, List.countP_map]
    rfl
  · have := findIdx_zip isMeasurement plots 0 k p h ((isMeasurement_iff p).2 hp)
    rw [Nat.zero_add] at this
    exact this

theorem measuring_take_lt {plots : List SeqPlot} {k : ℕ} {p : SeqPlot} (h : plots[k]? = some p) (hp : Measures p) :
    measuring (plots.take k) < measuring (plots.take (k + 1)) ∧ measuring (plots.take (k + 1)) ≤ measuring plots := by
  obtain ⟨hk, rfl⟩ := List.getElem?_eq_some_iff.1 h
  constructor
  · rw [measuring_eq, measuring_eq, List.take_succ_eq_append_getElem hk, List.countP_append]
    simp [(isMeasurement_iff _).2 hp]
  · rw [measuring_eq, measuring_eq]
    exact (List.take_sublist _ _).countP_le

theorem measuring_take_mono {plots : List SeqPlot} {j k : ℕ} (h : j ≤ k) : measuring (plots.take j) ≤ measuring (plots.take k) := by
  rw [measuring_eq, measuring_eq]
  exact (List.take_sublist_take_left h).countP_le

theorem rowHeight_eq (plots : List SeqPlot) (k : ℕ) : rowHeight (measuring plots) (measuring (plots.take k)) = rowAt plots k := by
  unfold rowHeight rowAt
  have : ((measuring plots : ℝ) + 1) ≠ 0 := by positivity
  field_simp
  ring

/-! ### the marks -/

theorem element_ok {cv : CurveFit} {simpson : Simpson} {s : Overplot.Set} {crossover : Bool} {plots : List SeqPlot} {k : ℕ} {p : SeqPlot}
    (hp : plots[k]? = some p) {m : SeqMark} (h : overplotSequence cv simpson s crossover plots k p = .ok (some m)) :
    ∃ o src o', p.count = some (o, src) ∧ p.opts.hide = false ∧ binCount o p.opts = .ok o' ∧ Measures p ∧
      barOf cv simpson s o' src p.opts (measuring plots) (measuring (plots.take k)) = .ok (some m.bar) ∧
      m.axes = (if crossover then [0, 1] else [0]) ∧ m.name = ((-0.007, rowAt plots k), splitEscaped (stripQuotes p.name)) ∧
      m.label = (if p.label = [] then none else some ((1.007, rowAt plots k), p.label)) := by
  unfold overplotSequence at h
  split at h
  · cases h
  · next o src hc =>
    split at h
    · cases h
    · next hh =>
      have hh' : p.opts.hide = false := by simpa using hh
      unfold element at h
      obtain ⟨o', ho, h⟩ := except_bind_eq_ok h
      dsimp only at h
      obtain ⟨bar, hb, h⟩ := except_bind_eq_ok h
      cases bar with
      | none => cases h
      | some bar =>
        dsimp only at h
        have hM : Measures p := by
          refine ⟨?_, hh'⟩
          intro hd
          unfold barOf at hb
          rw [hd] at hb
          cases hb
        rw [rowOf_eq hp hM] at h hb
        dsimp only at h hb
        rw [rowHeight_eq] at h
        simp only [Except.ok.injEq, Option.some.injEq] at h
        subst h
        exact ⟨o, src, o', hc, hh', ho, hM, hb, rfl, rfl, rfl⟩

theorem element_some {cv : CurveFit} {simpson : Simpson} {s : Overplot.Set} {crossover : Bool} {plots : List SeqPlot} {k : ℕ} {p : SeqPlot}
    (hM : Measures p) (hc : p.count ≠ none) {x : Option SeqMark} (h : overplotSequence cv simpson s crossover plots k p = .ok x) : x ≠ none := by
  rintro rfl
  unfold overplotSequence at h
  split at h
  · next hn => exact hc hn
  · next o src _ =>
    rw [if_neg (by simp [hM.2])] at h
    unfold element at h
    obtain ⟨o', ho, h⟩ := except_bind_eq_ok h
    dsimp only at h
    obtain ⟨bar, hb, h⟩ := except_bind_eq_ok h
    cases bar with
    | some bar => cases h
    | none =>
      unfold barOf at hb
      split at hb
      · next hk => exact hM.1 hk
      · obtain ⟨r, _, hb⟩ := except_bind_eq_ok hb
        obtain ⟨v, _, hb⟩ := except_bind_eq_ok hb
        cases hb
      · obtain ⟨r, _, hb⟩ := except_bind_eq_ok hb
        cases hb

theorem marks_rel {cv : CurveFit} {simpson : Simpson} {s : Overplot.Set} {crossover : Bool} {plots : List SeqPlot} {ms : List (ℕ × SeqMark)}
    (h : sequenceMarks cv simpson s crossover plots = .ok ms) :
    ∃ l : List (Option (ℕ × SeqMark)), ms = l.filterMap id ∧
      List.Forall₂ (fun (e : SeqPlot × ℕ) b => ∃ x, overplotSequence cv simpson s crossover plots e.2 e.1 = .ok x ∧
        b = x.map (fun m => (e.2, m))) plots.zipIdx.reverse l := by
  unfold sequenceMarks at h
  obtain ⟨l, hl, h⟩ := except_bind_eq_ok h
  injection h with h
  refine ⟨l, h.symm, (mapM_ok _ hl).imp ?_⟩
  intro e b hb
  obtain ⟨x, hx, hb⟩ := except_bind_eq_ok hb
  injection hb with hb
  exact ⟨x, hx, hb.symm⟩

theorem mem_marks {cv : CurveFit} {simpson : Simpson} {s : Overplot.Set} {crossover : Bool} {plots : List SeqPlot} {ms : List (ℕ × SeqMark)}
    (h : sequenceMarks cv simpson s crossover plots = .ok ms) :
    (∀ k m, (k, m) ∈ ms ↔ ∃ p, plots[k]? = some p ∧ overplotSequence cv simpson s crossover plots k p = .ok (some m)) ∧
    (∀ k p, plots[k]? = some p → ∃ x, overplotSequence cv simpson s crossover plots k p = .ok x) ∧
    (ms.map Prod.fst).Pairwise (· > ·) := by
  obtain ⟨l, rfl, hl⟩ := marks_rel h
  have hget : ∀ k p, plots[k]? = some p → (p, k) ∈ plots.zipIdx.reverse := by
    intro k p hk
    rw [List.mem_reverse, List.mk_mem_zipIdx_iff_getElem?]
    exact hk
  refine ⟨?_, ?_, ?_⟩
  · intro k m
    rw [List.mem_filterMap]
    constructor
    · rintro ⟨b, hb, rfl⟩
      obtain ⟨i, hi, e⟩ := List.getElem_of_mem hb
      have hr := (List.forall₂_iff_get.1 hl).2 i (by rw [hl.length_eq]; exact hi) hi
      simp only [List.get_eq_getElem, e] at hr
      obtain ⟨x, hx, he⟩ := hr
      have hmem : plots.zipIdx.reverse[i]'(by rw [hl.length_eq]; exact hi) ∈ plots.zipIdx.reverse := List.getElem_mem _
      generalize plots.zipIdx.reverse[i]'(by rw [hl.length_eq]; exact hi) = z at hx he hmem
      cases x with
      | none => cases he
      | some x =>
        simp only [Option.map_some, Option.some.injEq, Prod.mk.injEq] at he
        obtain ⟨rfl, rfl⟩ := he
        rw [List.mem_reverse, List.mem_zipIdx_iff_getElem?] at hmem
        exact ⟨z.1, hmem, hx⟩
    · rintro ⟨p, hk, ho⟩
      obtain ⟨i, hi, e⟩ := List.getElem_of_mem (hget k p hk)
      have hi' : i < l.length := by rw [← hl.length_eq]; exact hi
      have hr := (List.forall₂_iff_get.1 hl).2 i hi hi'
      simp only [List.get_eq_getElem, e] at hr
      obtain ⟨x, hx, he⟩ := hr
      rw [ho] at hx
      injection hx with hx
      subst hx
      exact ⟨_, List.getElem_mem hi', he⟩
  · intro k p hk
    obtain ⟨i, hi, e⟩ := List.getElem_of_mem (hget k p hk)
    have hr := (List.forall₂_iff_get.1 hl).2 i hi (by rw [← hl.length_eq]; exact hi)
    simp only [List.get_eq_getElem, e] at hr
    obtain ⟨x, hx, he⟩ := hr
    exact ⟨x, hx⟩
  · have hsub : ((l.filterMap id).map Prod.fst).Sublist (plots.zipIdx.reverse.map Prod.snd) := by
      clear h hget
      generalize plots.zipIdx.reverse = z at hl
      induction hl with
      | nil => simp
      | cons hx _ ih =>
        obtain ⟨x, _, rfl⟩ := hx
        cases x with
        | none => simpa using ih.cons _
        | some x => simpa using ih
    refine List.Pairwise.sublist hsub ?_
    rw [List.map_reverse, List.zipIdx_map_snd, List.pairwise_reverse]
    exact List.pairwise_lt_range'

theorem exists_unquoted (v : List Char) : ∃ t, Unquoted v t := by
  by_cases h : ∃ q t, v = q :: (t ++ [q]) ∧ (q = '"' ∨ q = '\'')
  · obtain ⟨q, t, rfl, hq⟩ := h
    exact ⟨t, .quoted q t hq⟩
  · refine ⟨v, .plain v ?_⟩
    intro q t hv
    constructor
    · intro hq; exact h ⟨q, t, hv, Or.inl hq⟩
    · intro hq; exact h ⟨q, t, hv, Or.inr hq⟩

/-! ### C135 -/

/-- **C135 (what holds): one row for every age.**  Exactly the plots with a count which measure an age and are not hidden are shown, each
once, the later ones first.  Their texts are on the heights of their rows, the name without quotation marks ending at the left margin, with
`\n` beginning a new line, and the label, if there is one, beginning at the right margin.  The age is drawn on both parts of the time axis
if it has two.  The rows are equally spaced and in the order of the plots.  Missing: a row is also kept for a plot without a count, see below. -/
theorem C135_rows_partial (cv : CurveFit) (simpson : Simpson) (s : Overplot.Set) (crossover : Bool) (plots : List SeqPlot)
    (ms : List (ℕ × SeqMark)) (h : sequenceMarks cv simpson s crossover plots = .ok ms) :
    (∀ k, (∃ m, (k, m) ∈ ms) ↔ ∃ p, plots[k]? = some p ∧ Measures p ∧ p.count ≠ none) ∧
    (ms.map Prod.fst).Pairwise (· > ·) ∧
    ∀ k m p, (k, m) ∈ ms → plots[k]? = some p →
      m.axes = (if crossover then [0, 1] else [0]) ∧
      (∃ t lines, Unquoted p.name t ∧ LinesOf t lines ∧ m.name = ((-0.007, rowAt plots k), lines)) ∧
      (p.label = [] → m.label = none) ∧ (p.label ≠ [] → m.label = some ((1.007, rowAt plots k), p.label)) := by
  obtain ⟨h1, h2, h3⟩ := mem_marks h
  refine ⟨?_, h3, ?_⟩
  · intro k
    constructor
    · rintro ⟨m, hm⟩
      obtain ⟨p, hp, ho⟩ := (h1 k m).1 hm
      obtain ⟨o, src, o', hc, _, _, hM, _⟩ := element_ok hp ho
      exact ⟨p, hp, hM, by rw [hc]; simp⟩
    · rintro ⟨p, hp, hM, hc⟩
      obtain ⟨x, hx⟩ := h2 k p hp
      cases x with
      | none => exact absurd rfl (element_some hM hc hx)
      | some m => exact ⟨m, (h1 k m).2 ⟨p, hp, hx⟩⟩
  · intro k m p hm hp
    obtain ⟨p', hp', ho⟩ := (h1 k m).1 hm
    rw [hp] at hp'
    injection hp' with hp'
    subst hp'
    obtain ⟨o, src, o', _, _, _, _, _, e1, e2, e3⟩ := element_ok hp ho
    obtain ⟨t, ht⟩ := exists_unquoted p.name
    refine ⟨e1, ⟨t, splitEscaped t, ht, lines_splitEscaped t, ?_⟩, ?_, ?_⟩
    · rw [e2, stripQuotes_of ht]
    · intro hl; rw [e3, if_pos hl]
    · intro hl; rw [e3, if_neg hl]

theorem violin_points {p : Pdf} {y w0 : ℝ} {v : Violin} (h : violin p y w0 = .ok v) (hp : Sampled p) (hw : 0 < w0) :
    ∃ w, 0 < w ∧ (∀ x ∈ p.pdf, w * x ≤ 0.9 * w0) ∧ ∀ q ∈ v.whole ++ v.sigma ++ v.median, ∃ (i : ℕ) (t x : ℝ), p.ts[i]? = some t ∧
      p.pdf[i]? = some x ∧ q = (t, y + w * x, y - w * x) := by
  obtain ⟨hl, _, hnn, ⟨x0, hx0, hx1⟩, _⟩ := hp
  unfold violin at h
  split at h
  · cases h
  · next a l he =>
    split at h
    · cases h
    · next hmax =>
      obtain ⟨m1, m2, m3⟩ := foldl_max_mini l a
      have hle : ∀ x ∈ p.pdf, x ≤ maxOf a l := by
        intro x hx
        rw [he] at hx
        rcases List.mem_cons.1 hx with rfl | hx
        · exact m1
        · exact m2 x hx
      have hpos : 0 < maxOf a l := lt_of_lt_of_le hx1 (hle x0 hx0)
      injection h with h
      subst h
      refine ⟨0.9 * w0 / maxOf a l, by positivity, ?_, ?_⟩
      · intro x hx
        rw [div_mul_eq_mul_div, div_le_iff₀ hpos]
        have := hle x hx
        nlinarith
      · intro q hq
        have hmem : q ∈ List.zipWith (fun t v => (t, y + 0.9 * w0 / maxOf a l * v, y - 0.9 * w0 / maxOf a l * v)) p.ts p.pdf := by
          rcases List.mem_append.1 hq with hq | hq
          · rcases List.mem_append.1 hq with hq | hq
            · exact List.mem_of_mem_take (List.mem_of_mem_drop hq)
            · exact List.mem_of_mem_take (List.mem_of_mem_drop hq)
          · exact List.mem_of_mem_take (List.mem_of_mem_drop hq)
        obtain ⟨i, hi, e⟩ := List.getElem_of_mem hmem
        rw [List.getElem_zipWith] at e
        rw [List.length_zipWith] at hi
        exact ⟨i, p.ts[i], p.pdf[i], List.getElem?_eq_getElem _, List.getElem?_eq_getElem _, e.symm⟩

theorem liftExc_ok {α : Type} {r : Except Exc α} {a : α} (h : liftExc r = .ok a) : r = .ok a := by
  cases r with
  | ok b => simpa [liftExc] using h
  | error e => cases h

theorem poisson_sampled {pf : PFn} {c : Chron} {simpson : Simpson} {cc : Source} {range : EReal × EReal} {b : Bool} {ref p0 p1 p3 : ℝ}
    (hc : GoodChron c p0 p1 p3) {r : PoissonAge} (h : poissonAge pf c simpson cc range b ref = .ok r) : Sampled r.pdf := by
  unfold poissonAge at h
  obtain ⟨pdf, h1, h⟩ := except_bind_eq_ok h
  dsimp only at h
  obtain ⟨a0, _, h⟩ := except_bind_eq_ok h
  obtain ⟨nd, _, h⟩ := except_bind_eq_ok h
  injection h with h
  subst h
  exact sampled_init pf c simpson cc _ _ none b 5000 p0 p1 p3 hc pdf h1

/-- **C135: Poisson ages.**  A Poisson age is a figure symmetric about its row whose width at the sampled ages is proportional to the likelihood
of the reported age and at most 0.9 of the distance of rows. -/
theorem C135_poisson (cv : CurveFit) (simpson : Simpson) (s : Overplot.Set) (crossover : Bool) (plots : List SeqPlot)
    (ms : List (ℕ × SeqMark)) (h : sequenceMarks cv simpson s crossover plots = .ok ms) (p0 p1 p3 : ℝ) (hc : GoodChron s.cf p0 p1 p3)
    (k : ℕ) (m : SeqMark) (hm : (k, m) ∈ ms) (p : SeqPlot) (hp : plots[k]? = some p) (b : Bool) (hk : p.opts.kind = .poisson b) :
    ∃ o src r v w, p.count = some (o, src) ∧ poissonAge s.pf s.cf simpson src p.opts.range b s.ref = .ok r ∧ m.bar = .violin v ∧ 0 < w ∧
      (∀ x ∈ r.pdf.pdf, 0 ≤ w * x ∧ 2 * (w * x) ≤ 0.9 / (measuring plots + 1)) ∧
      ∀ q ∈ v.whole ++ v.sigma ++ v.median, ∃ (i : ℕ) (t x : ℝ), r.pdf.ts[i]? = some t ∧ r.pdf.pdf[i]? = some x ∧
        q = (t, rowAt plots k + w * x, rowAt plots k - w * x) := by
  obtain ⟨p', hp', ho⟩ := ((mem_marks h).1 k m).1 hm
  rw [hp] at hp'
  injection hp' with hp'
  subst hp'
  obtain ⟨o, src, o', hcount, _, _, _, hb, _⟩ := element_ok hp ho
  unfold barOf at hb
  rw [hk] at hb
  dsimp only at hb
  obtain ⟨r, hr, hb⟩ := except_bind_eq_ok hb
  obtain ⟨v, hv, hb⟩ := except_bind_eq_ok hb
  simp only [Except.ok.injEq, Option.some.injEq] at hb
  have hs := poisson_sampled hc hr
  have hw : 0 < rowHalfWidth (measuring plots) := by unfold rowHalfWidth; positivity
  obtain ⟨w, w1, w2, w3⟩ := violin_points (liftExc_ok hv) hs hw
  rw [rowHeight_eq] at w3
  refine ⟨o, src, r, v, w, hcount, hr, hb.symm, w1, ?_, w3⟩
  intro x hx
  refine ⟨mul_nonneg w1.le (hs.nonneg x hx), ?_⟩
  have := w2 x hx
  have e : (0.9 : ℝ) / (measuring plots + 1) = 2 * (0.9 * rowHalfWidth (measuring plots)) := by unfold rowHalfWidth; ring
  rw [e]
  linarith

/-- **C135: fitted ages.**  A fitted age is a box from the lower to the upper bound of the reported age, symmetric about its row, 0.3 of the
distance of rows high, with a line at the reported age. -/
theorem C135_fit (cv : CurveFit) (simpson : Simpson) (s : Overplot.Set) (crossover : Bool) (plots : List SeqPlot)
    (ms : List (ℕ × SeqMark)) (h : sequenceMarks cv simpson s crossover plots = .ok ms) (k : ℕ) (m : SeqMark) (hm : (k, m) ∈ ms) (p : SeqPlot)
    (hp : plots[k]? = some p) (f : FitType) (hk : p.opts.kind = .fit f) :
    ∃ o src o' r, p.count = some (o, src) ∧ o'.craters = o.craters ∧ o'.area = o.area ∧ o'.prebinned = o.prebinned ∧
      (o.prebinned = true → o' = o) ∧
      fitAge s.pf s.cf cv s.pfc o' f p.opts.binning p.opts.range p.opts.resurf s.ref = .ok r ∧
      m.bar = .box r.tLower r.tUpper (rowAt plots k + 0.15 / (measuring plots + 1)) (rowAt plots k - 0.15 / (measuring plots + 1)) r.t := by
  obtain ⟨p', hp', ho⟩ := ((mem_marks h).1 k m).1 hm
  rw [hp] at hp'
  injection hp' with hp'
  subst hp'
  obtain ⟨o, src, o', hcount, _, hbin, _, hb, _⟩ := element_ok hp ho
  unfold barOf at hb
  rw [hk] at hb
  dsimp only at hb
  obtain ⟨r, hr, hb⟩ := except_bind_eq_ok hb
  simp only [Except.ok.injEq, Option.some.injEq] at hb
  have hbar := hb.symm
  unfold binCount at hbin
  obtain ⟨o1, ho1, hbin⟩ := except_bind_eq_ok hbin
  have ho' : o1 = o' := by
    cases hbn : o1.binning with
    | none => rw [hbn] at hbin; cases hbin
    | some bn =>
      rw [hbn] at hbin
      dsimp only at hbin
      obtain ⟨_, _, hbin⟩ := except_bind_eq_ok hbin
      injection hbin
  subst ho'
  have e : 0.3 * rowHalfWidth (measuring plots) = 0.15 / ((measuring plots : ℝ) + 1) := by unfold rowHalfWidth; ring
  refine ⟨o, src, o1, r, hcount, ?_, ?_, ?_, ?_, hr, ?_⟩
  · unfold Obj.ensure at ho1
    split_ifs at ho1
    · injection ho1 with ho1; rw [ho1]
    · injection ho1 with ho1; rw [ho1]
    · obtain ⟨t, _, ho1⟩ := except_bind_eq_ok ho1
      injection ho1 with ho1; rw [← ho1]
  · unfold Obj.ensure at ho1
    split_ifs at ho1
    · injection ho1 with ho1; rw [ho1]
    · injection ho1 with ho1; rw [ho1]
    · obtain ⟨t, _, ho1⟩ := except_bind_eq_ok ho1
      injection ho1 with ho1; rw [← ho1]
  · unfold Obj.ensure at ho1
    split_ifs at ho1
    · injection ho1 with ho1; rw [ho1]
    · injection ho1 with ho1; rw [ho1]
    · obtain ⟨t, _, ho1⟩ := except_bind_eq_ok ho1
      injection ho1 with ho1; rw [← ho1]
  · intro hpre
    unfold Obj.ensure at ho1
    rw [if_pos hpre] at ho1
    injection ho1 with ho1
    exact ho1.symm
  · rw [hbar, rowHeight_eq, e]

theorem covers_row {cv : CurveFit} {simpson : Simpson} {s : Overplot.Set} {crossover : Bool} {plots : List SeqPlot} {ms : List (ℕ × SeqMark)}
    (h : sequenceMarks cv simpson s crossover plots = .ok ms) {p0 p1 p3 : ℝ} (hc : GoodChron s.cf p0 p1 p3) {k : ℕ} {m : SeqMark}
    (hm : (k, m) ∈ ms) {y : ℝ} (hy : Covers m.bar y) : |y - rowAt plots k| ≤ 0.45 / (measuring plots + 1) := by
  obtain ⟨p, hp, ho⟩ := ((mem_marks h).1 k m).1 hm
  obtain ⟨_, _, _, _, _, _, hM, _⟩ := element_ok hp ho
  have hn : (0 : ℝ) < measuring plots + 1 := by positivity
  cases hk : p.opts.kind with
  | data => exact absurd hk hM.1
  | fit f =>
    obtain ⟨_, _, _, r, _, _, _, _, _, _, hb⟩ := C135_fit cv simpson s crossover plots ms h k m hm p hp f hk
    rw [hb] at hy
    obtain ⟨y1, y2⟩ := hy
    have : (0.15 : ℝ) / (measuring plots + 1) ≤ 0.45 / (measuring plots + 1) := by gcongr; norm_num
    rw [abs_le]
    constructor <;> linarith
  | poisson b =>
    obtain ⟨_, _, r, v, w, _, _, hb, w1, w2, w3⟩ := C135_poisson cv simpson s crossover plots ms h p0 p1 p3 hc k m hm p hp b hk
    rw [hb] at hy
    obtain ⟨q, hq, y1, y2⟩ := hy
    obtain ⟨i, t, x, _, hx, rfl⟩ := w3 q hq
    obtain ⟨g1, g2⟩ := w2 x (List.mem_of_getElem? hx)
    have e : (0.45 : ℝ) / (measuring plots + 1) = 0.9 / (measuring plots + 1) / 2 := by ring
    rw [abs_le, e]
    simp only at y1 y2
    constructor <;> linarith

/-- **C135: ages of different plots are apart.**  Everything drawn for one plot is inside the axis, and lower than everything drawn for an
earlier plot. -/
theorem C135_apart (cv : CurveFit) (simpson : Simpson) (s : Overplot.Set) (crossover : Bool) (plots : List SeqPlot)
    (ms : List (ℕ × SeqMark)) (h : sequenceMarks cv simpson s crossover plots = .ok ms) (p0 p1 p3 : ℝ) (hc : GoodChron s.cf p0 p1 p3)
    (k : ℕ) (m : SeqMark) (hm : (k, m) ∈ ms) (y : ℝ) (hy : Covers m.bar y) :
    0 < y ∧ y < 1 ∧ ∀ j m', (j, m') ∈ ms → k < j → ∀ y', Covers m'.bar y' → y' < y := by
  have hrow : ∀ {k m}, (k, m) ∈ ms → measuring (plots.take k) + 1 ≤ measuring (plots.take (k + 1)) ∧
      measuring (plots.take (k + 1)) ≤ measuring plots := by
    intro k m hm
    obtain ⟨p, hp, ho⟩ := ((mem_marks h).1 k m).1 hm
    obtain ⟨_, _, _, _, _, _, hM, _⟩ := element_ok hp ho
    exact measuring_take_lt hp hM
  have hn : (0 : ℝ) < measuring plots + 1 := by positivity
  obtain ⟨r1, r2⟩ := hrow hm
  have hb := abs_le.1 (covers_row h hc hm hy)
  have hnn : (0 : ℝ) ≤ measuring (plots.take k) := by positivity
  have r3 : (measuring (plots.take k) : ℝ) + 1 ≤ measuring plots := by exact_mod_cast r1.trans r2
  have e : rowAt plots k = ((measuring plots : ℝ) - measuring (plots.take k)) / (measuring plots + 1) := by
    unfold rowAt; field_simp; ring
  refine ⟨?_, ?_, ?_⟩
  · have : (0.45 : ℝ) / (measuring plots + 1) < rowAt plots k := by
      rw [e]; gcongr; linarith
    linarith
  · have : rowAt plots k + 0.45 / (measuring plots + 1) < 1 := by
      rw [e, ← add_div, div_lt_one hn]; linarith
    linarith
  · intro j m' hm' hkj y' hy'
    have hb' := abs_le.1 (covers_row h hc hm' hy')
    have r4 : (measuring (plots.take k) : ℝ) + 1 ≤ measuring (plots.take j) := by exact_mod_cast r1.trans (measuring_take_mono hkj)
    have e' : rowAt plots j = ((measuring plots : ℝ) - measuring (plots.take j)) / (measuring plots + 1) := by
      unfold rowAt; field_simp; ring
    have : rowAt plots j + 0.45 / (measuring plots + 1) < rowAt plots k - 0.45 / (measuring plots + 1) := by
      rw [e, e', ← add_div, ← sub_div]
      gcongr
      linarith
    linarith

/-- **C135 fails for plots without a count**: such a plot, if it is not of type data, keeps a row in which nothing is drawn: no mark is at its
height, although rows are kept above and below it. -/
theorem C135_blank_counterexample (cv : CurveFit) (simpson : Simpson) (s : Overplot.Set) (crossover : Bool) (plots : List SeqPlot)
    (ms : List (ℕ × SeqMark)) (h : sequenceMarks cv simpson s crossover plots = .ok ms) (p0 p1 p3 : ℝ) (hc : GoodChron s.cf p0 p1 p3)
    (k : ℕ) (p : SeqPlot) (hp : plots[k]? = some p) (hM : Measures p) (hn : p.count = none) :
    ∀ j m, (j, m) ∈ ms → m.name.1.2 ≠ rowAt plots k ∧ ∀ y, Covers m.bar y → 0.45 / (measuring plots + 1) < |y - rowAt plots k| := by
  intro j m hm
  obtain ⟨q, hq, ho⟩ := ((mem_marks h).1 j m).1 hm
  obtain ⟨o, src, _, hcount, _, _, hMq, _, _, e2, _⟩ := element_ok hq ho
  have hne : j ≠ k := by
    rintro rfl
    rw [hp] at hq
    injection hq with hq
    subst hq
    rw [hn] at hcount
    cases hcount
  have hpos : (0 : ℝ) < measuring plots + 1 := by positivity
  have hdist : 1 / ((measuring plots : ℝ) + 1) ≤ |rowAt plots j - rowAt plots k| := by
    have e : rowAt plots j - rowAt plots k = ((measuring (plots.take k) : ℝ) - measuring (plots.take j)) / (measuring plots + 1) := by
      unfold rowAt; field_simp; ring
    rw [e, abs_div, abs_of_pos hpos]
    gcongr
    rcases lt_or_gt_of_ne hne with hlt | hlt
    · have := (measuring_take_lt hq hMq).1.trans_le (measuring_take_mono (plots := plots) (show j + 1 ≤ k from hlt))
      have : (measuring (plots.take j) : ℝ) + 1 ≤ measuring (plots.take k) := by exact_mod_cast this
      rw [abs_of_nonneg (by linarith)]
      linarith
    · have := (measuring_take_lt hp hM).1.trans_le (measuring_take_mono (plots := plots) (show k + 1 ≤ j from hlt))
      have : (measuring (plots.take k) : ℝ) + 1 ≤ measuring (plots.take j) := by exact_mod_cast this
      rw [abs_of_nonpos (by linarith)]
      linarith
  have h1 : 0 < 1 / ((measuring plots : ℝ) + 1) := by positivity
  refine ⟨?_, ?_⟩
  · rw [e2]
    intro he
    simp only at he
    rw [he, sub_self, abs_zero] at hdist
    linarith
  · intro y hy
    have hy' := covers_row h hc hm hy
    have h3 : |rowAt plots j - rowAt plots k| ≤ |y - rowAt plots k| + |y - rowAt plots j| := by
      have := abs_sub_le (rowAt plots j) y (rowAt plots k)
      rw [abs_sub_comm (rowAt plots j) y] at this
      linarith
    have h4 : (0.45 : ℝ) / (measuring plots + 1) = 0.45 * (1 / (measuring plots + 1)) := by ring
    rw [h4] at hy' ⊢
    linarith

/-! ### hidden plots -/

/-- the loop over the plots -/
def collect {α β : Type} (G : α → Except Err (Option β)) (l : List α) : Except Err (List β) := do
  let r ← l.mapM G
  .ok (r.filterMap id)

theorem collect_nil {α β : Type} (G : α → Except Err (Option β)) : collect G [] = .ok [] := rfl

theorem collect_cons {α β : Type} (G : α → Except Err (Option β)) (x : α) (l : List α) :
    collect G (x :: l) = (G x >>= fun b => collect G l >>= fun r => .ok (b.toList ++ r)) := by
  unfold collect
  rw [List.mapM_cons]
  cases G x with
  | error e => rfl
  | ok b =>
    simp only [except_ok_bind]
    cases l.mapM G with
    | error e => rfl
    | ok r =>
      simp only [except_ok_bind, pure, Except.pure]
      cases b <;> simp

theorem collect_append {α β : Type} (G : α → Except Err (Option β)) (l l' : List α) :
    collect G (l ++ l') = (collect G l >>= fun r => collect G l' >>= fun r' => .ok (r ++ r')) := by
  induction l with
  | nil =>
    rw [List.nil_append, collect_nil, except_ok_bind]
    cases collect G l' <;> rfl
  | cons x l ih =>
    rw [List.cons_append, collect_cons, collect_cons, ih]
    cases G x with
    | error e => rfl
    | ok b =>
      simp only [except_ok_bind]
      cases collect G l with
      | error e => rfl
      | ok r =>
        simp only [except_ok_bind]
        cases collect G l' with
        | error e => rfl
        | ok r' => simp only [except_ok_bind, List.append_assoc]

theorem collect_map {α β γ : Type} (G : α → Except Err (Option β)) (h : γ → α) (l : List γ) : collect G (l.map h) = collect (fun x => G (h x)) l := by
  induction l with
  | nil => rfl
  | cons x l ih => rw [List.map_cons, collect_cons, collect_cons, ih]

theorem collect_values {α β γ : Type} (G G' : α → Except Err (Option β)) (g : β → γ) (l : List α)
    (h : ∀ x ∈ l, (G x).map (Option.map g) = (G' x).map (Option.map g)) : (collect G l).map (List.map g) = (collect G' l).map (List.map g) := by
  induction l with
  | nil => rfl
  | cons x l ih =>
    have hx := h x (by simp)
    have hl := ih (fun y hy => h y (by simp [hy]))
    rw [collect_cons, collect_cons]
    cases e : G x with
    | error e1 =>
      cases e' : G' x with
      | error e2 => rw [e, e'] at hx; injection hx with hx; rw [hx]; rfl
      | ok b => rw [e, e'] at hx; cases hx
    | ok b =>
      cases e' : G' x with
      | error e2 => rw [e, e'] at hx; cases hx
      | ok b' =>
        rw [e, e'] at hx
        injection hx with hx
        simp only [except_ok_bind]
        cases f : collect G l with
        | error e1 =>
          cases f' : collect G' l with
          | error e2 => rw [f, f'] at hl; injection hl with hl; rw [hl]; rfl
          | ok r => rw [f, f'] at hl; cases hl
        | ok r =>
          cases f' : collect G' l with
          | error e2 => rw [f, f'] at hl; cases hl
          | ok r' =>
            rw [f, f'] at hl
            injection hl with hl
            simp only [except_ok_bind, Except.map, List.map_append, hl]
            congr 2
            cases b <;> cases b' <;> simp at hx ⊢
            exact hx

/-- the place of a plot after another one has been inserted at place `n` -/
def shifted (n k : ℕ) : ℕ := if k < n then k else k + 1

theorem shifted_inj (n : ℕ) {i j : ℕ} : shifted n i = shifted n j ↔ i = j := by
  unfold shifted
  constructor
  · intro h; split_ifs at h <;> omega
  · rintro rfl; rfl

theorem zip_shifted (a b : List SeqPlot) :
    (a ++ b).zipIdx.map (fun e => (e.1, shifted a.length e.2)) = a.zipIdx ++ b.zipIdx (a.length + 1) := by
  rw [List.zipIdx_append, List.map_append]
  congr 1
  · refine (List.map_congr_left ?_).trans (List.map_id _)
    intro e he
    have := (List.mem_zipIdx he).2.1
    have hlt : e.2 < a.length := by omega
    simp [shifted, hlt]
  · rw [Nat.zero_add, List.zipIdx_succ]
    refine List.map_congr_left ?_
    intro e he
    have := (List.mem_zipIdx he).1
    have hlt : ¬ e.2 < a.length := by omega
    simp [shifted, hlt]

theorem rowOf_insert (a b : List SeqPlot) (p : SeqPlot) (hp : p.opts.hide = true) (k : ℕ) :
    rowOf (a ++ p :: b) (shifted a.length k) = rowOf (a ++ b) k := by
  have hm : isMeasurement p = false := by
    unfold isMeasurement
    cases p.opts.kind <;> simp [hp]
  have he : (a ++ p :: b).zipIdx.filter (fun e => isMeasurement e.1) =
      ((a ++ b).zipIdx.filter (fun e => isMeasurement e.1)).map (fun e => (e.1, shifted a.length e.2)) := by
    rw [show (fun e : SeqPlot × ℕ => isMeasurement e.1) = (fun e : SeqPlot × ℕ => isMeasurement e.1) ∘ (fun e => (e.1, shifted a.length e.2)) from rfl]
    rw [← List.filter_map, zip_shifted, List.zipIdx_append, List.zipIdx_cons, List.filter_append, List.filter_append,
      List.filter_cons_of_neg (by simp [hm]), Nat.zero_add]
    rfl
  unfold rowOf
  dsimp only
  rw [he, List.length_map, List.findIdx_map]
  congr 2
  funext e
  rw [Bool.eq_iff_iff]
  simp [shifted_inj]

/-- **C135: hidden plots change nothing.**  A hidden plot keeps no row: the plots draw the same with it and without it. -/
theorem C135_hidden (cv : CurveFit) (simpson : Simpson) (s : Overplot.Set) (crossover : Bool) (a b : List SeqPlot) (p : SeqPlot)
    (hp : p.opts.hide = true) :
    (sequenceMarks cv simpson s crossover (a ++ p :: b)).map (List.map Prod.snd) =
      (sequenceMarks cv simpson s crossover (a ++ b)).map (List.map Prod.snd) := by
  let G (plots : List SeqPlot) (e : SeqPlot × ℕ) : Except Err (Option (ℕ × SeqMark)) := do
    let m ← overplotSequence cv simpson s crossover plots e.2 e.1
    .ok (m.map (fun m => (e.2, m)))
  have hG : ∀ plots, sequenceMarks cv simpson s crossover plots = collect (G plots) plots.zipIdx.reverse := fun _ => rfl
  have hnone : ∀ plots k, G plots (p, k) = .ok none := by
    intro plots k
    have : overplotSequence cv simpson s crossover plots k p = .ok none := by
      unfold overplotSequence
      cases p.count with
      | none => rfl
      | some c => dsimp only; rw [if_pos hp]
    simp only [G, this, except_ok_bind, Option.map_none]
  have hsame : ∀ k q, overplotSequence cv simpson s crossover (a ++ p :: b) (shifted a.length k) q =
      overplotSequence cv simpson s crossover (a ++ b) k q := by
    intro k q
    unfold overplotSequence element
    rw [rowOf_insert a b p hp]
  have hlist : collect (G (a ++ p :: b)) (a ++ p :: b).zipIdx.reverse =
      collect (G (a ++ p :: b)) ((a ++ b).zipIdx.reverse.map (fun e => (e.1, shifted a.length e.2))) := by
    rw [List.map_reverse, zip_shifted, List.zipIdx_append, List.zipIdx_cons, List.reverse_append, List.reverse_append, List.reverse_cons,
      List.append_assoc, collect_append, collect_append, collect_append, collect_cons, hnone, collect_nil, Nat.zero_add]
    simp only [except_ok_bind]
    cases collect (G (a ++ p :: b)) a.zipIdx.reverse <;> rfl
  rw [hG, hG, hlist, collect_map]
  refine collect_values _ _ _ _ ?_
  intro e _
  simp only [G, hsame]
  cases overplotSequence cv simpson s crossover (a ++ b) e.2 e.1 with
  | error x => rfl
  | ok m => cases m <;> rfl

/-! ### when it can be drawn -/

theorem violin_defined {p : Pdf} (hp : Sampled p) (y w0 : ℝ) : ∃ v, violin p y w0 = .ok v := by
  obtain ⟨_, _, _, ⟨x0, hx0, hx1⟩, _⟩ := hp
  unfold violin
  cases he : p.pdf with
  | nil => rw [he] at hx0; cases hx0
  | cons a l =>
    dsimp only
    obtain ⟨m1, m2, m3⟩ := foldl_max_mini l a
    rw [if_neg]
    · exact ⟨_, rfl⟩
    · intro h0
      rw [he] at hx0
      have : x0 ≤ maxOf a l := by
        rcases List.mem_cons.1 hx0 with rfl | hx
        · exact m1
        · exact m2 x0 hx
      linarith

/-- **C135: it can be drawn.**  A sequence plot of Poisson ages is drawn whenever the counts which are shown can be binned, the bin range of
their diameter range exists and their age likelihoods can be computed. -/
theorem C135_defined (cv : CurveFit) (simpson : Simpson) (s : Overplot.Set) (crossover : Bool) (plots : List SeqPlot)
    (p0 p1 p3 : ℝ) (hc : GoodChron s.cf p0 p1 p3)
    (hall : ∀ p ∈ plots, ∀ o src, p.count = some (o, src) → p.opts.hide = false →
      (∃ o' bn r, o.ensure p.opts.binning = .ok o' ∧ o'.binning = some bn ∧ binRangeOf bn o'.binned p.opts.range false = .ok r) ∧
      (p.opts.kind ≠ .data → ∃ b a, p.opts.kind = .poisson b ∧ poissonAge s.pf s.cf simpson src p.opts.range b s.ref = .ok a)) :
    ∃ ms, sequenceMarks cv simpson s crossover plots = .ok ms := by
  have hone : ∀ e ∈ plots.zipIdx.reverse, ∃ y, (do
      let m ← overplotSequence cv simpson s crossover plots e.2 e.1
      .ok (m.map (fun m => (e.2, m))) : Except Err (Option (ℕ × SeqMark))) = .ok y := by
    intro e he
    have hmem : e.1 ∈ plots := by
      rw [List.mem_reverse] at he
      rw [(List.mem_zipIdx he).2.2]
      exact List.getElem_mem _
    suffices ∃ m, overplotSequence cv simpson s crossover plots e.2 e.1 = .ok m by
      obtain ⟨m, hm⟩ := this
      exact ⟨_, by rw [hm, except_ok_bind]⟩
    unfold overplotSequence
    cases hcount : e.1.count with
    | none => exact ⟨_, rfl⟩
    | some c =>
      obtain ⟨o, src⟩ := c
      dsimp only
      by_cases hh : e.1.opts.hide = true
      · rw [if_pos hh]; exact ⟨_, rfl⟩
      · rw [if_neg hh]
        obtain ⟨⟨o', bn, r, h1, h2, h3⟩, h4⟩ := hall e.1 hmem o src hcount (by simpa using hh)
        have hbin : binCount o e.1.opts = .ok o' := by
          unfold binCount
          rw [h1, except_ok_bind, h2]
          dsimp only
          rw [h3, except_ok_bind]
        unfold element
        rw [hbin, except_ok_bind]
        dsimp only
        suffices ∃ x, barOf cv simpson s o' src e.1.opts (rowOf plots e.2).1 (rowOf plots e.2).2 = .ok x by
          obtain ⟨x, hx⟩ := this
          rw [hx, except_ok_bind]
          cases x <;> exact ⟨_, rfl⟩
        unfold barOf
        cases hk : e.1.opts.kind with
        | data => exact ⟨_, rfl⟩
        | fit f =>
          obtain ⟨b, a, hb, _⟩ := h4 (by rw [hk]; simp)
          rw [hk] at hb
          cases hb
        | poisson b =>
          obtain ⟨b', a, hb, ha⟩ := h4 (by rw [hk]; simp)
          rw [hk] at hb
          injection hb with hb
          subst hb
          obtain ⟨v, hv⟩ := violin_defined (poisson_sampled hc ha) (rowHeight (rowOf plots e.2).1 (rowOf plots e.2).2)
            (rowHalfWidth (rowOf plots e.2).1)
          dsimp only
          rw [ha, except_ok_bind, hv]
          exact ⟨_, rfl⟩
  obtain ⟨l, hl⟩ := mapM_succeeds _ _ hone
  unfold sequenceMarks
  rw [hl, except_ok_bind]
  exact ⟨_, rfl⟩

/-- a sequence of two Poisson ages, the second without a count, with a hidden plot between: one age is drawn, on the row at 2/3 -/
example (cv : CurveFit) (simpson : Simpson) : ∃ s plots m, GoodChron s.cf 0 0 2 ∧ measuring plots = 2 ∧
    (∃ p, plots[2]? = some p ∧ Measures p ∧ p.count = none) ∧
    sequenceMarks cv simpson s true plots = .ok [(0, m)] ∧ m.name.1 = (-0.007, 2 / 3) := by
  obtain ⟨c, hg, hN, h⟩ := age_example simpson (some (1, 4))
  obtain ⟨q, hq⟩ := h 1 4 (by norm_num) (by norm_num) (by norm_num) (by norm_num)
  have e1 : clipE 0 1 4 = 1 := by
    unfold clipE
    rw [max_eq_right (by exact_mod_cast (zero_le_one : (0 : ℝ) ≤ 1)), min_eq_right (by exact_mod_cast (by norm_num : (1 : ℝ) ≤ 4))]
    exact EReal.toReal_coe _
  have e2 : clipE ⊤ 1 4 = 4 := by
    unfold clipE
    rw [max_eq_left le_top, min_eq_left le_top]
    exact EReal.toReal_coe _
  let s : Overplot.Set := ⟨initPoly [0, -1] (some (1, 4)), ⟨fun _ => 1, fun _ _ => 1, fun _ => 1⟩, c, none, 1, .cumulative, (-1, 2), (-3, 3)⟩
  let o : Obj := ⟨[], 10, true, some .none, [⟨1, 2, 1, 1.5, 4, 4, 4, 4⟩]⟩
  let p (hide : Bool) : Options := ⟨.poisson false, (0, ⊤), .none, hide, true, false, true, false, (1, 4), false, false⟩
  let src : Source := ⟨some [1, 1.5, 2, 3], [], 10, none⟩
  let plots : List SeqPlot := [⟨some (o, src), p false, "a".toList, []⟩, ⟨some (o, src), p true, "b".toList, []⟩, ⟨none, p false, "c".toList, []⟩]
  have hM : ∀ cnt n l, Measures ⟨cnt, p false, n, l⟩ := fun _ _ _ => ⟨by simp [p], rfl⟩
  have hN : ∀ cnt n l, ¬ Measures ⟨cnt, p true, n, l⟩ := by
    intro _ _ _ hh
    have := hh.2
    simp [p] at this
  have hcount : measuring plots = 2 := by
    rw [measuring_eq]
    rfl
  obtain ⟨w, hw, _⟩ := C82_defined s.pf s.cf simpson src (0, ⊤) false s.ref 0 0 2 hg one_pos ⟨0, rfl⟩ q (by
    have : s.pf.range = (1, 4) := rfl
    rw [this]
    simp only
    rw [e1, e2]
    exact hq)
  have hbr : binRangeOf .none o.binned (0, ⊤) false = .ok (((1 : ℝ) : EReal), ((2 : ℝ) : EReal)) := by
    simp [binRangeOf, o]
  obtain ⟨ms, hms⟩ := C135_defined cv simpson s true plots 0 0 2 hg (by
    intro z hz o1 src1 hc1 hh
    simp only [plots, List.mem_cons, List.not_mem_nil, or_false] at hz
    rcases hz with rfl | rfl | rfl
    · simp only [Option.some.injEq, Prod.mk.injEq] at hc1
      obtain ⟨rfl, rfl⟩ := hc1
      exact ⟨⟨o, .none, _, rfl, rfl, hbr⟩, fun _ => ⟨false, w, rfl, hw⟩⟩
    · cases hh
    · cases hc1)
  obtain ⟨r1, r2, r3⟩ := C135_rows_partial cv simpson s true plots ms hms
  have hk : ∀ z ∈ ms, z.1 = 0 := by
    rintro ⟨k, m⟩ hz
    obtain ⟨pp, hp1, hp2, hp3⟩ := (r1 k).1 ⟨m, hz⟩
    match k, hp1 with
    | 0, _ => rfl
    | 1, hp1 => simp only [plots, List.getElem?_cons_succ, List.getElem?_cons_zero, Option.some.injEq] at hp1; subst hp1; exact absurd hp2 (hN _ _ _)
    | 2, hp1 => simp only [plots, List.getElem?_cons_succ, List.getElem?_cons_zero, Option.some.injEq] at hp1; subst hp1; exact absurd rfl hp3
    | (k + 3), hp1 => simp [plots] at hp1
  obtain ⟨m, hm⟩ := (r1 0).2 ⟨_, rfl, hM _ _ _, by simp⟩
  have hlen : ms = [(0, m)] := by
    match ms, hm, hk, r2 with
    | [z], hm, _, _ => simp only [List.mem_singleton] at hm; rw [hm]
    | z :: z' :: l, _, hk, r2 =>
      have a1 := hk z (by simp)
      have a2 := hk z' (by simp)
      rw [List.map_cons, List.map_cons, List.pairwise_cons, a1, a2] at r2
      exact absurd (r2.1 0 (by simp)) (lt_irrefl 0)
  obtain ⟨_, ⟨t, lines, _, _, hname⟩, _⟩ := r3 0 m _ hm rfl
  refine ⟨s, plots, m, hg, hcount, ⟨_, rfl, hM _ _ _, rfl⟩, by rw [hms, hlen], ?_⟩
  rw [hname]
  unfold rowAt
  rw [hcount]
  norm_num [measuring]

end

end Verif.Props
