import Verif.Model.EpochPlot
import Verif.Props.Epochs
import Verif.Props.Isochron
import Verif.Props.Format

/-! # C112, C113: epochs on crater count plots and on chronology plots -/

namespace Verif.Props
open Verif.Py Verif.Text Verif.Cratercount Verif.Production Verif.Chronology Verif.Epochs Verif.EpochPlot Verif.Spec

noncomputable section

attribute [local irreducible] linspace

/-! ### isochrons of two ages -/

theorem evaluate_scale {f : PFn} (hf : Constructed f) {pr : Presentation} {d a b y : ℝ} (ha : a ≠ 0) (hb : b ≠ 0)
    (h : f.evaluate pr d (some a) = .ok y) : f.evaluate pr d (some b) = .ok ((10 : ℝ) ^ (b - a) * y) := by
  have hab : b = a + (b - a) := by ring
  obtain ⟨h1, h2, h3, h4⟩ := C16_scaling f hf d a (b - a) y
  rw [← hab] at h1 h2 h3 h4
  simp only [PFn.evaluate, if_neg ha, except_ok_bind] at h
  simp only [PFn.evaluate, if_neg hb, except_ok_bind]
  cases pr <;> first | exact h1 h | exact h2 h | exact h3 h | exact h4 h | (simp at h)

theorem isochron_plain {f : PFn} {pr : Presentation} {a : ℝ} {iso : List (ℝ × ℝ)} (h : f.getisochron pr a none = .ok iso) :
    ∃ d y, f.getplotdata pr (some a) none = .ok (d, y) ∧ iso = d.zip y := by
  unfold PFn.getisochron at h
  obtain ⟨⟨d, y⟩, h1, h2⟩ := except_bind_eq_ok h
  injection h2 with h2
  exact ⟨d, y, h1, h2.symm⟩

theorem isochron_scale {f : PFn} (hf : Constructed f) {pr : Presentation} {a b : ℝ} (ha : a ≠ 0) (hb : b ≠ 0)
    {A B : List (ℝ × ℝ)} (hA : f.getisochron pr a none = .ok A) (hB : f.getisochron pr b none = .ok B) :
    A.length = 400 ∧ B.length = 400 ∧ ∀ (i : ℕ) x v, A[i]? = some (x, v) → B[i]? = some (x, (10 : ℝ) ^ (b - a) * v) := by
  obtain ⟨d, y, g1, rfl⟩ := isochron_plain hA
  obtain ⟨d', y', g2, rfl⟩ := isochron_plain hB
  obtain ⟨_, _, k1, k2⟩ := getplotdata_ok g1
  obtain ⟨_, _, k3, k4⟩ := getplotdata_ok g2
  have hdd : d' = d := k3.trans k1.symm
  subst hdd
  obtain ⟨l1, m1⟩ := mapM_length k2
  obtain ⟨l2, m2⟩ := mapM_length k4
  have hl : d'.length = 400 := by rw [k1]; simp
  refine ⟨by simp [l1, hl], by simp [l2, hl], ?_⟩
  intro i x v h
  obtain ⟨hi, h⟩ := List.getElem?_eq_some_iff.1 h
  have hid : i < d'.length := by simp at hi; omega
  rw [List.getElem_zip, Prod.mk.injEq] at h
  have e1 := m1 i hid (by omega)
  have e2 := m2 i hid (by omega)
  rw [h.1, h.2] at e1
  rw [h.1, evaluate_scale hf ha hb e1] at e2
  injection e2 with e2
  rw [List.getElem?_eq_getElem (by simp; omega), List.getElem_zip, h.1, e2]

/-- densities of two ages -/
theorem a0_strict {p : List ℝ} {c : Chron} (hc : Chronology.init p = .ok c) {p0 p1 p3 : ℝ}
    (e0 : p[0]? = some p0) (e1 : p[1]? = some p1) (e3 : p[3]? = some p3) (h0 : 0 ≤ p0) (h1 : 0 ≤ p1) (h3 : 0 < p3)
    {s t a b : ℝ} (hst : s < t) (ha : c.a0 s = .ok a) (hb : c.a0 t = .ok b) : a < b := by
  obtain ⟨N, _, hN, _, _, _, hm, _⟩ := C14_increasing_and_rate p c hc p0 p1 p3 e0 e1 e3 h0 h1 h3
  simp only [Chron.a0, hN, except_ok_bind] at ha hb
  split at ha
  · next hs =>
    split at hb
    · next ht =>
      injection ha with ha
      injection hb with hb
      rw [← ha, ← hb, log10_lt hs ht]
      exact hm hst
    · cases hb
  · cases ha

theorem at?_ok {α : Type} {l : List α} {i : ℕ} {x : α} : at? l i = .ok x ↔ l[i]? = some x := by
  unfold at?
  cases l[i]? <;> simp

theorem lift_ok {α : Type} {e : Except Exc α} {x : α} : lift e = .ok x ↔ e = .ok x := by
  cases e with
  | ok y => simp [lift]
  | error e => cases e <;> simp [lift]

/-- what the decoding of the formatting codes yields -/
theorem formatting_ok {slant : List Char} {codes : List (List Char)} {z : ℤ} {colour : List ℕ} {offset boundary : List Bool}
    (h : decodeFormatting (slant :: codes) = .ok (z, colour, offset, boundary)) :
    codes.mapM colourOf = .ok colour ∧ offset = codes.map (fun e => e.contains 'r') ∧
    boundary = codes.map (fun e => e.contains 'b') := by
  unfold decodeFormatting at h
  dsimp only at h
  split at h
  · cases h
  · obtain ⟨cl, h1, h2⟩ := except_bind_eq_ok h
    simp only [Except.ok.injEq, Prod.mk.injEq] at h2
    obtain ⟨_, rfl, rfl, rfl⟩ := h2
    exact ⟨h1, rfl, rfl⟩

theorem mapM_get {α β ε : Type} {g : α → Except ε β} {l : List α} {l' : List β} (h : l.mapM g = .ok l') :
    l'.length = l.length ∧ ∀ (i : ℕ) x, l[i]? = some x → ∃ y, l'[i]? = some y ∧ g x = .ok y := by
  induction l generalizing l' with
  | nil =>
    rw [List.mapM_nil] at h
    injection h with h
    subst h
    exact ⟨rfl, by simp⟩
  | cons a l ih =>
    rw [List.mapM_cons] at h
    cases ha : g a with
    | error e => rw [ha] at h; cases h
    | ok b =>
      rw [ha] at h
      cases hl : l.mapM g with
      | error e => rw [show (Except.ok b >>= fun b => l.mapM g >>= fun bs => pure (b :: bs)) = (l.mapM g >>= fun bs => pure (b :: bs)) from rfl, hl] at h; cases h
      | ok bs =>
        rw [show (Except.ok b >>= fun b => l.mapM g >>= fun bs => pure (b :: bs)) = (l.mapM g >>= fun bs => pure (b :: bs)) from rfl, hl] at h
        injection h with h
        subst h
        obtain ⟨h1, h2⟩ := ih hl
        refine ⟨by simp [h1], ?_⟩
        intro i x hx
        cases i with
        | zero => simp only [List.getElem?_cons_zero, Option.some.injEq] at hx ⊢; subst hx; exact ⟨b, rfl, ha⟩
        | succ i => simpa using h2 i x (by simpa using hx)

theorem range_get {n i : ℕ} (h : i < n) : (List.range n)[i]? = some i := by
  rw [List.getElem?_eq_getElem (by simpa using h), List.getElem_range]

/-- Specification: the shade number `n` (0 to 3) is the first character of the formatting code of an epoch -/
def ShadeCode (code : List Char) (n : ℕ) : Prop := n < 4 ∧ code.head? = ['0', '1', '2', '3'][n]?

theorem colourOf_shade {code : List Char} {n : ℕ} (h : ShadeCode code n) : colourOf code = .ok n := by
  obtain ⟨hn, hc⟩ := h
  cases code with
  | nil => interval_cases n <;> simp at hc
  | cons c code =>
    interval_cases n <;> simp at hc <;> subst hc <;> rfl

theorem shade_ok {grey : List (List Char)} {n : ℕ} {g : List Char} (hn : n < 4) (h : shade grey n = .ok g) :
    grey[3 - n]? = some g := by
  unfold shade at h
  have e : pyIndex grey (3 - (n : ℤ)) = grey[3 - n]? := by
    unfold pyIndex
    rw [if_pos (by omega)]
    congr 1
    omega
  rw [e] at h
  cases hg : grey[3 - n]? with
  | none => rw [hg] at h; cases h
  | some v => rw [hg] at h; injection h with h; rw [h]

theorem a0_ne {c : Chron} {t a : ℝ} (hN : c.N1 t ≠ .ok 1) (ha : c.a0 t = .ok a) : a ≠ 0 := by
  intro h0
  subst h0
  cases hN1 : c.N1 t with
  | error e => rw [Chron.a0, hN1] at ha; cases ha
  | ok n =>
    rw [Chron.a0, hN1, except_ok_bind] at ha
    split at ha
    · next hn =>
      injection ha with ha
      apply hN
      rw [hN1, ← pow10_log10 hn, ha, Real.rpow_zero]
    · cases ha

/-- what a drawn region consists of -/
theorem countPlot_ok {grey : List (List Char)} {f : PFn} {c : Chron} {pr : Presentation} {ef : Option PFn} {time : List ℝ}
    {slant : List Char} {codes : List (List Char)} {marks : List (Region × Option (List (ℝ × ℝ)))}
    (h : countPlot grey f c pr ef time (slant :: codes) = .ok marks) :
    marks.length = time.length - 2 ∧
    ∀ (k : ℕ) s e, time[k + 1]? = some s → time[k + 2]? = some e → ∃ m a b A B code code' n,
      marks[k]? = some m ∧ c.a0 s = .ok a ∧ c.a0 e = .ok b ∧ f.getisochron pr a ef = .ok A ∧ f.getisochron pr b ef = .ok B ∧
      codes[k]? = some code ∧ codes[k + 1]? = some code' ∧ colourOf code' = .ok n ∧ shade grey n = .ok m.1.shade ∧
      m.1.outline = logX (A ++ B.reverse) ∧ m.2 = if code.contains 'b' then some (logX A) else none := by
  unfold countPlot at h
  obtain ⟨as, h1, h⟩ := except_bind_eq_ok h
  obtain ⟨iso, h2, h⟩ := except_bind_eq_ok h
  obtain ⟨⟨z, colour, offset, boundary⟩, h3, h⟩ := except_bind_eq_ok h
  dsimp only at h
  obtain ⟨c1, _, c3⟩ := formatting_ok (lift_ok.1 h3)
  obtain ⟨l1, g1⟩ := mapM_get h1
  obtain ⟨l2, g2⟩ := mapM_get h2
  obtain ⟨l3, g3⟩ := mapM_get h
  obtain ⟨l4, g4⟩ := mapM_get c1
  have hl : marks.length = time.length - 2 := by
    rw [l3, List.length_range, l2, l1, List.length_drop]; omega
  refine ⟨hl, ?_⟩
  intro k s e hs he
  have hk : k + 2 < time.length := (List.getElem?_eq_some_iff.1 he).1
  obtain ⟨a, ha, ha'⟩ := g1 k s (by rw [List.getElem?_drop, Nat.add_comm]; exact hs)
  obtain ⟨b, hb, hb'⟩ := g1 (k + 1) e (by rw [List.getElem?_drop, Nat.add_comm]; exact he)
  obtain ⟨A, hA, hA'⟩ := g2 k a ha
  obtain ⟨B, hB, hB'⟩ := g2 (k + 1) b hb
  obtain ⟨m, hm, hm'⟩ := g3 k k (range_get (by rw [l2, l1, List.length_drop]; omega))
  unfold countRegion at hm'
  rw [at?_ok.2 hA, except_ok_bind, at?_ok.2 hB, except_ok_bind] at hm'
  obtain ⟨n, hn, hm'⟩ := except_bind_eq_ok hm'
  obtain ⟨g, hg, hm'⟩ := except_bind_eq_ok hm'
  obtain ⟨bd, hbd, hm'⟩ := except_bind_eq_ok hm'
  injection hm' with hm'
  subst hm'
  have hn' := at?_ok.1 hn
  have hbd' := at?_ok.1 hbd
  have hcl : k + 1 < codes.length := by
    have := (List.getElem?_eq_some_iff.1 hn').1
    omega
  obtain ⟨n', hn1, hn2⟩ := g4 (k + 1) _ (List.getElem?_eq_getElem hcl)
  rw [hn'] at hn1
  injection hn1 with hn1
  subst hn1
  rw [c3, List.getElem?_map, List.getElem?_eq_getElem (show k < codes.length by omega), Option.map_some, Option.some.injEq] at hbd'
  refine ⟨_, a, b, A, B, codes[k], codes[k + 1], n, hm, ha', hb', hA', hB', List.getElem?_eq_getElem (by omega),
    List.getElem?_eq_getElem hcl, hn2, hg, rfl, ?_⟩
  rw [hbd']

/-- **C112, regions.** Epochs on a crater count plot without equilibrium function: there is one region for each pair of successive
boundaries after the first (present) one.  The region of the epoch from `s` to `e` has the shade of the code of this epoch (0 is
the lightest of four greys), and its outline follows at each of the 400 diameters of an isochron the isochrons of `s` and `e`: the
isochron of each age `t` of the epoch lies strictly between them.  The younger isochron is drawn as a line if the code of the
epoch before is marked with `b`.

Assumed: no boundary has the density of exactly one crater per km² (C18). -/
theorem C112_regions_partial (grey : List (List Char)) (f : PFn) (hf : Constructed f) (p : List ℝ) (c : Chron)
    (hc : Chronology.init p = .ok c) (p0 p1 p3 : ℝ) (e0 : p[0]? = some p0) (e1 : p[1]? = some p1) (e3 : p[3]? = some p3)
    (h0 : 0 ≤ p0) (h1 : 0 ≤ p1) (h3 : 0 < p3) (pr : Presentation) (time : List ℝ) (slant : List Char) (codes : List (List Char))
    (marks : List (Region × Option (List (ℝ × ℝ)))) (h : countPlot grey f c pr none time (slant :: codes) = .ok marks) :
    marks.length = time.length - 2 ∧
    ∀ (k : ℕ) s e, time[k + 1]? = some s → time[k + 2]? = some e → c.N1 s ≠ .ok 1 → c.N1 e ≠ .ok 1 →
      ∃ m, marks[k]? = some m ∧ m.1.outline.length = 800 ∧
        (∀ code n, codes[k + 1]? = some code → ShadeCode code n → grey[3 - n]? = some m.1.shade) ∧
        (∀ code, codes[k]? = some code → m.2 = if 'b' ∈ code then some (m.1.outline.take 400) else none) ∧
        ∀ t a iso, s < t → t < e → c.N1 t ≠ .ok 1 → c.a0 t = .ok a → f.getisochron pr a none = .ok iso →
          ∀ (i : ℕ) d v, iso[i]? = some (d, v) → ∃ lo hi, m.1.outline[i]? = some (log10 d, lo) ∧
            m.1.outline[799 - i]? = some (log10 d, hi) ∧ (0 < v → lo < v ∧ v < hi) := by
  obtain ⟨hl, hk⟩ := countPlot_ok h
  have hne : ∀ t a, c.N1 t ≠ .ok 1 → c.a0 t = .ok a → a ≠ 0 := fun _ _ => a0_ne
  refine ⟨hl, ?_⟩
  intro k s e hs he ns ne
  obtain ⟨m, a, b, A, B, code, code', n, hm, ha, hb, hA, hB, hcode, hcode', hn, hsh, hout, hline⟩ := hk k s e hs he
  have za := hne s a ns ha
  have zb := hne e b ne hb
  obtain ⟨lA, lB, _⟩ := isochron_scale hf za zb hA hB
  refine ⟨m, hm, by rw [hout, logX]; simp [lA, lB], ?_, ?_, ?_⟩
  · intro cd n' h1 h2
    rw [hcode'] at h1
    injection h1 with h1
    subst h1
    rw [colourOf_shade h2] at hn
    injection hn with hn
    subst hn
    exact shade_ok h2.1 hsh
  · intro cd h1
    rw [hcode] at h1
    injection h1 with h1
    subst h1
    rw [hline, hout]
    simp only [List.contains_iff_mem]
    congr 2
    rw [logX, logX, ← List.map_take, List.take_left' lA]
  · intro t x iso hst hte nt ht hiso i d v hv
    have zt := hne t x nt ht
    have lt1 := a0_strict hc e0 e1 e3 h0 h1 h3 hst ha ht
    have lt2 := a0_strict hc e0 e1 e3 h0 h1 h3 hte ht hb
    obtain ⟨lI, _, sA⟩ := isochron_scale hf zt za hiso hA
    obtain ⟨_, _, sB⟩ := isochron_scale hf zt zb hiso hB
    have hi : i < 400 := by rw [← lI]; exact (List.getElem?_eq_some_iff.1 hv).1
    refine ⟨(10 : ℝ) ^ (a - x) * v, (10 : ℝ) ^ (b - x) * v, ?_, ?_, ?_⟩
    · rw [hout, logX, List.getElem?_map, List.getElem?_append_left (by omega), sA i d v hv]; rfl
    · rw [hout, logX, List.getElem?_map, List.getElem?_append_right (by omega), List.getElem?_reverse (by omega),
        show B.length - 1 - (799 - i - A.length) = i by omega, sB i d v hv]; rfl
    · intro hv0
      constructor
      · have : (10 : ℝ) ^ (a - x) < 1 := by
          rw [← Real.rpow_zero 10, pow10_lt]; linarith
        nlinarith
      · have : 1 < (10 : ℝ) ^ (b - x) := by
          rw [← Real.rpow_zero 10, pow10_lt]; linarith
        nlinarith

/-- the plot exists if the isochrons do -/
theorem countPlot_defined (grey : List (List Char)) (hg : 4 ≤ grey.length) (f : PFn) (p : List ℝ) (c : Chron)
    (hc : Chronology.init p = .ok c) (p0 p1 p3 : ℝ) (e0 : p[0]? = some p0) (e1 : p[1]? = some p1) (e3 : p[3]? = some p3)
    (h0 : 0 ≤ p0) (h1 : 0 ≤ p1) (h3 : 0 < p3) (pr : Presentation) (ef : Option PFn)
    (hiso : ∀ x, ∃ iso, f.getisochron pr x ef = .ok iso) (time : List ℝ) (ht : ∀ t ∈ time.drop 1, 0 < t)
    (slant : List Char) (z : ℤ) (hz : intVal slant = some z) (codes : List (List Char)) (hcodes : ∀ x ∈ codes, ∃ n, ShadeCode x n)
    (hl : time.length ≤ codes.length) :
    ∃ marks, countPlot grey f c pr ef time (slant :: codes) = .ok marks := by
  obtain ⟨N, _, hN, _, _, hN0, hm, _⟩ := C14_increasing_and_rate p c hc p0 p1 p3 e0 e1 e3 h0 h1 h3
  have ha0 : ∀ t ∈ time.drop 1, c.a0 t = .ok (log10 (N t)) := by
    intro t hmem
    have : 0 < N t := by rw [← hN0]; exact hm (ht t hmem)
    simp only [Chron.a0, hN, except_ok_bind, if_pos this]
  choose iso hiso using hiso
  have hcol : ∀ x ∈ codes, ∃ n, colourOf x = .ok n ∧ n < 4 := by
    intro x hx
    obtain ⟨n, hn⟩ := hcodes x hx
    exact ⟨n, colourOf_shade hn, hn.1⟩
  obtain ⟨colour, hc1, hc2⟩ := mapM_ok_forall (P := fun _ n => n < 4) hcol
  have hfmt : decodeFormatting (slant :: codes) = .ok (z, colour, codes.map (fun e => e.contains 'r'), codes.map (fun e => e.contains 'b')) := by
    unfold decodeFormatting
    simp only [hz, hc1]
    rfl
  have hclen : colour.length = codes.length := hc2.length_eq.symm
  unfold countPlot
  rw [mapM_ok_of ha0, except_ok_bind, mapM_ok_of (fun x _ => hiso x), except_ok_bind, lift_ok.2 hfmt, except_ok_bind]
  dsimp only
  set L := ((time.drop 1).map (fun t => log10 (N t))).map iso with hL
  have hLl : L.length = time.length - 1 := by simp [hL]
  have hreg : ∀ i ∈ List.range (L.length - 1), ∃ m, countRegion grey L colour (codes.map (fun e => e.contains 'b')) i = .ok m ∧ True := by
    intro i hi
    have hi' := List.mem_range.1 hi
    have hn : colour[i + 1]'(by omega) < 4 := by
      have hP := List.forall₂_iff_get.1 hc2
      exact hP.2 (i + 1) (by omega) (by omega)
    have hs : shade grey (colour[i + 1]'(by omega)) = .ok (grey[3 - colour[i + 1]'(by omega)]'(by omega)) := by
      unfold shade pyIndex
      rw [if_pos (by omega), List.getElem?_eq_getElem (by omega)]
      simp only [Except.ok.injEq]
      congr 1
      omega
    unfold countRegion
    rw [at?_ok.2 (List.getElem?_eq_getElem (show i < L.length by omega)), except_ok_bind,
      at?_ok.2 (List.getElem?_eq_getElem (show i + 1 < L.length by omega)), except_ok_bind,
      at?_ok.2 (List.getElem?_eq_getElem (show i + 1 < colour.length by omega)), except_ok_bind, hs, except_ok_bind,
      at?_ok.2 (List.getElem?_eq_getElem (show i < (codes.map (fun e => e.contains 'b')).length by simp; omega)), except_ok_bind]
    exact ⟨_, rfl, trivial⟩
  obtain ⟨marks, hmarks, _⟩ := mapM_ok_forall hreg
  exact ⟨marks, hmarks⟩

/-- **C112, the plot exists.** For a polynomial production function, boundaries of positive age after the first, a formatting with
an integer slant and a code with shade number for each epoch, the regions are drawn. -/
theorem C112_defined (grey : List (List Char)) (hg : 4 ≤ grey.length) (a : List ℝ) (ha : a ≠ []) (r : ℝ × ℝ) (hr0 : 0 < r.1)
    (hr : r.1 ≤ r.2) (p : List ℝ) (c : Chron)
    (hc : Chronology.init p = .ok c) (p0 p1 p3 : ℝ) (e0 : p[0]? = some p0) (e1 : p[1]? = some p1) (e3 : p[3]? = some p3)
    (h0 : 0 ≤ p0) (h1 : 0 ≤ p1) (h3 : 0 < p3) (pr : Presentation)
    (hpr : pr ∈ [Presentation.cumulative, .differential, .rplot, .hartmann]) (time : List ℝ) (ht : ∀ t ∈ time.drop 1, 0 < t)
    (slant : List Char) (z : ℤ) (hz : intVal slant = some z) (codes : List (List Char)) (hcodes : ∀ x ∈ codes, ∃ n, ShadeCode x n)
    (hl : time.length ≤ codes.length) :
    ∃ marks, countPlot grey (initPoly a (some r)) c pr none time (slant :: codes) = .ok marks := by
  refine countPlot_defined grey hg _ p c hc p0 p1 p3 e0 e1 e3 h0 h1 h3 pr none ?_ time ht slant z hz codes hcodes hl
  intro x
  obtain ⟨d, y, h⟩ := C22_curve_defined a r hr0 hr pr hpr x (.inr ha) none
  exact ⟨d.zip y, by simp only [PFn.getisochron, h, except_ok_bind]⟩

/-- the epochs of the Moon (Wilhelms) with the chronology and a production function of the Moon -/
example : ∃ c marks, Chronology.init [5.44e-14, 6.93, 0, 8.38e-4] = .ok c ∧
    countPlot (["#aaaaaa", "#e0e0e0", "#ededed", "#f8f8f8", "#ffffff"].map String.toList) (initPoly [-3.0768, -3.557528] (some (0.01, 1000)))
      c .differential none [0, 1.1, 3.2, 3.8, 3.85, 3.92] (["60", "0b", "1b", "0", "2b", "1r", "2"].map String.toList) = .ok marks ∧
    marks.length = 4 := by
  obtain ⟨c, hc, _⟩ := (C14_construct [5.44e-14, 6.93, 0, 8.38e-4]).2 (by simp)
  obtain ⟨marks, hm⟩ := C112_defined (["#aaaaaa", "#e0e0e0", "#ededed", "#f8f8f8", "#ffffff"].map String.toList) (by simp)
    [-3.0768, -3.557528] (by simp) (0.01, 1000) (by norm_num) (by norm_num) _ c hc 5.44e-14 6.93 8.38e-4 rfl rfl rfl (by norm_num)
    (by norm_num) (by norm_num) .differential (by simp) [0, 1.1, 3.2, 3.8, 3.85, 3.92] (by simp; norm_num) "60".toList 60 (by decide +kernel)
    (["0b", "1b", "0", "2b", "1r", "2"].map String.toList) (by
      intro x hx
      simp only [List.map_cons, List.map_nil, List.mem_cons, List.not_mem_nil, or_false] at hx
      rcases hx with rfl | rfl | rfl | rfl | rfl | rfl
      · exact ⟨0, by norm_num, rfl⟩
      · exact ⟨1, by norm_num, rfl⟩
      · exact ⟨0, by norm_num, rfl⟩
      · exact ⟨2, by norm_num, rfl⟩
      · exact ⟨1, by norm_num, rfl⟩
      · exact ⟨2, by norm_num, rfl⟩) (by simp)
  exact ⟨c, marks, hc, hm, by rw [(countPlot_ok hm).1]; rfl⟩

/-- **C112 is false for the oldest boundary.** Whatever the formatting codes are, also if all are marked with `b`, no line is drawn
along the isochron of the oldest boundary: no line passes through any of its (positive) points. -/
theorem C112_oldest_counterexample (grey : List (List Char)) (f : PFn) (hf : Constructed f) (p : List ℝ) (c : Chron)
    (hc : Chronology.init p = .ok c) (p0 p1 p3 : ℝ) (e0 : p[0]? = some p0) (e1 : p[1]? = some p1) (e3 : p[3]? = some p3)
    (h0 : 0 ≤ p0) (h1 : 0 ≤ p1) (h3 : 0 < p3) (pr : Presentation) (time : List ℝ) (hs : time.Pairwise (· < ·)) (slant : List Char)
    (codes : List (List Char)) (marks : List (Region × Option (List (ℝ × ℝ))))
    (h : countPlot grey f c pr none time (slant :: codes) = .ok marks) (hN : ∀ t ∈ time, c.N1 t ≠ .ok 1)
    (T : ℝ) (hT : time.getLast? = some T) (a : ℝ) (ha : c.a0 T = .ok a) (iso : List (ℝ × ℝ)) (hiso : f.getisochron pr a none = .ok iso) :
    ∀ m ∈ marks, ∀ curve, m.2 = some curve → ∀ (i : ℕ) d v, iso[i]? = some (d, v) → 0 < v →
      ∃ w, curve[i]? = some (log10 d, w) ∧ w < v := by
  obtain ⟨hl, hk⟩ := countPlot_ok h
  intro m hm curve hline i d v hv hv0
  obtain ⟨k, hkm, rfl⟩ := List.mem_iff_getElem.1 hm
  have k1 : k + 2 < time.length := by omega
  obtain ⟨m', x, b, A, B, code, code', n, hm', hx, hb, hA, hB, _, _, _, _, hout, hl'⟩ :=
    hk k _ _ (List.getElem?_eq_getElem (show k + 1 < time.length by omega)) (List.getElem?_eq_getElem k1)
  rw [List.getElem?_eq_getElem hkm, Option.some.injEq] at hm'
  subst hm'
  rw [hl'] at hline
  split at hline
  · injection hline with hline
    have hTl : time[time.length - 1]? = some T := by
      rw [← List.getLast?_eq_getElem?]
      exact hT
    have hTm : T ∈ time := List.mem_of_mem_getLast? hT
    rw [List.getElem?_eq_getElem (by omega), Option.some.injEq] at hTl
    have hlt : time[k + 1]'(by omega) < T := by
      rw [← hTl]
      exact List.pairwise_iff_getElem.1 hs _ _ _ _ (by omega)
    have hne : ∀ t a, c.N1 t ≠ .ok 1 → c.a0 t = .ok a → a ≠ 0 := fun _ _ => a0_ne
    have lt1 := a0_strict hc e0 e1 e3 h0 h1 h3 hlt hx ha
    obtain ⟨_, _, sA⟩ := isochron_scale hf (hne _ _ (hN T hTm) ha) (hne _ _ (hN _ (List.getElem_mem _)) hx) hiso hA
    refine ⟨(10 : ℝ) ^ (x - a) * v, ?_, ?_⟩
    · rw [← hline, logX, List.getElem?_map, sA i d v hv]; rfl
    · have : (10 : ℝ) ^ (x - a) < 1 := by
        rw [← Real.rpow_zero 10, pow10_lt]; linarith
      nlinarith
  · cases hline

/-! ### regions with an equilibrium function -/

/-- Specification: the point lies below 80 % of the equilibrium curve with the samples `ed`, `ey` -/
def BelowEquilibrium (ed ey : List ℝ) (q : ℝ × ℝ) : Prop := ∃ v, IsoLimit ed ey q.1 v ∧ q.2 < 0.8 * v

theorem isoLimit_unique {ed ey : List ℝ} {x v w : ℝ} (h : IsoLimit ed ey x v) (h' : IsoLimit ed ey x w) : v = w := by
  rcases h with ⟨j, e, h1, h2, h3, h4⟩ | ⟨h1, h2⟩ <;> rcases h' with ⟨j', e', g1, g2, g3, g4⟩ | ⟨g1, g2⟩
  · rcases lt_trichotomy j j' with h | rfl | h
    · exact absurd (h3 j' e' h g1) (not_le.2 g2)
    · rw [h4] at g4; injection g4
    · exact absurd (g3 j e h h1) (not_le.2 h2)
  · exact absurd (g1 e (List.mem_of_getElem? h1)) (not_le.2 h2)
  · exact absurd (h1 e' (List.mem_of_getElem? g1)) (not_le.2 g2)
  · rw [h2] at g2; injection g2

/-- the points of a truncated isochron are those of the whole one below the equilibrium curve -/
theorem isochron_truncated {f e : PFn} (he : e.range.1 ≤ e.range.2) {pr : Presentation} {a : ℝ} {iso ed' : List (ℝ × ℝ)} {ed ey : List ℝ}
    (h : f.getisochron pr a (some e) = .ok iso) (hE : e.getplotdata pr none none = .ok (ed, ey)) (hW : f.getisochron pr a none = .ok ed') :
    iso.Sublist ed' ∧ ∀ q, q ∈ iso ↔ q ∈ ed' ∧ BelowEquilibrium ed ey q := by
  obtain ⟨d, y, ed1, ey1, h1, h2, hs, keep, hk, hi, hl⟩ := C22_isochron_partial f e he pr a iso h
  rw [hE] at h2
  injection h2 with h2
  injection h2 with h2 h2'
  subst h2 h2'
  obtain ⟨d', y', g1, rfl⟩ := isochron_plain hW
  rw [h1] at g1
  injection g1 with g1
  injection g1 with g1 g1'
  subst g1 g1'
  refine ⟨hs, ?_⟩
  intro q
  rw [hi, List.mem_filterMap]
  constructor
  · rintro ⟨⟨q', b⟩, hm, hb⟩
    dsimp only at hb
    split at hb
    · next hb' =>
      injection hb with hb
      subst hb
      obtain ⟨i, hi', e⟩ := List.getElem_of_mem hm
      rw [List.getElem_zip, Prod.mk.injEq] at e
      rw [List.length_zip] at hi'
      obtain ⟨v, hv, hv'⟩ := hl i q' b (by rw [List.getElem?_eq_getElem (by omega), e.1]) (by rw [List.getElem?_eq_getElem (by omega), e.2])
      exact ⟨e.1 ▸ List.getElem_mem _, v, hv, hv'.1 hb'⟩
    · cases hb
  · rintro ⟨hm, v, hv, hlt⟩
    obtain ⟨i, hi', e⟩ := List.getElem_of_mem hm
    have hik : i < keep.length := by omega
    obtain ⟨w, hw, hw'⟩ := hl i q keep[i] (by rw [List.getElem?_eq_getElem hi', e]) (List.getElem?_eq_getElem hik)
    rw [isoLimit_unique hv hw] at hlt
    refine ⟨(q, keep[i]), ?_, by rw [hw'.2 hlt]; rfl⟩
    have : ((d.zip y).zip keep)[i]'(by rw [List.length_zip]; omega) = (q, keep[i]) := by rw [List.getElem_zip, e]
    exact this ▸ List.getElem_mem _

/-- **C112, regions with an equilibrium function.** The region of the epoch from `s` to `e` runs along the isochrons of `s` and `e` as far as these lie
below 80 % of the equilibrium curve, and nowhere else; the isochron of each age of the epoch runs above the younger edge, which reaches at least as
far towards small diameters, and below the older isochron.  The younger edge is drawn as a line if the code of the epoch before is marked with
`b`. -/
theorem C112_equilibrium_partial (grey : List (List Char)) (f : PFn) (hf : Constructed f) (p : List ℝ) (c : Chron)
    (hc : Chronology.init p = .ok c) (p0 p1 p3 : ℝ) (e0 : p[0]? = some p0) (e1 : p[1]? = some p1) (e3 : p[3]? = some p3)
    (h0 : 0 ≤ p0) (h1 : 0 ≤ p1) (h3 : 0 < p3) (pr : Presentation) (ef : PFn) (hef : ef.range.1 ≤ ef.range.2) (ed ey : List ℝ)
    (hE : ef.getplotdata pr none none = .ok (ed, ey)) (time : List ℝ) (slant : List Char) (codes : List (List Char))
    (marks : List (Region × Option (List (ℝ × ℝ)))) (h : countPlot grey f c pr (some ef) time (slant :: codes) = .ok marks) :
    marks.length = time.length - 2 ∧
    ∀ (k : ℕ) s e, time[k + 1]? = some s → time[k + 2]? = some e → c.N1 s ≠ .ok 1 → c.N1 e ≠ .ok 1 →
      ∃ (m : Region × Option (List (ℝ × ℝ))) (a b : ℝ) (young old A B : List (ℝ × ℝ)), marks[k]? = some m ∧ c.a0 s = .ok a ∧ c.a0 e = .ok b ∧ f.getisochron pr a none = .ok young ∧
        f.getisochron pr b none = .ok old ∧ m.1.outline = (A ++ B.reverse).map (fun q => (log10 q.1, q.2)) ∧ A.Sublist young ∧ B.Sublist old ∧
        (∀ q, q ∈ A ↔ q ∈ young ∧ BelowEquilibrium ed ey q) ∧ (∀ q, q ∈ B ↔ q ∈ old ∧ BelowEquilibrium ed ey q) ∧
        (∀ code n, codes[k + 1]? = some code → ShadeCode code n → grey[3 - n]? = some m.1.shade) ∧
        (∀ code, codes[k]? = some code → m.2 = if 'b' ∈ code then some (A.map (fun q => (log10 q.1, q.2))) else none) ∧
        ∀ t x iso, s < t → t < e → c.N1 t ≠ .ok 1 → c.a0 t = .ok x → f.getisochron pr x (some ef) = .ok iso → ∀ d v, (d, v) ∈ iso → 0 < v →
          (∃ lo, (d, lo) ∈ A ∧ lo < v) ∧ ∃ hi, (d, hi) ∈ old ∧ v < hi := by
  obtain ⟨hl, hk⟩ := countPlot_ok h
  have hwhole : ∀ a iso, f.getisochron pr a (some ef) = .ok iso → ∃ w, f.getisochron pr a none = .ok w := by
    intro a iso hi
    unfold PFn.getisochron at hi ⊢
    obtain ⟨⟨d, y⟩, g, _⟩ := except_bind_eq_ok hi
    rw [g, except_ok_bind]
    exact ⟨_, rfl⟩
  refine ⟨hl, ?_⟩
  intro k s e hs he ns ne
  obtain ⟨m, a, b, A, B, code, code', n, hm, ha, hb, hA, hB, hcode, hcode', hn, hsh, hout, hline⟩ := hk k s e hs he
  obtain ⟨young, hyoung⟩ := hwhole _ _ hA
  obtain ⟨old, hold⟩ := hwhole _ _ hB
  obtain ⟨sA, mA⟩ := isochron_truncated hef hA hE hyoung
  obtain ⟨sB, mB⟩ := isochron_truncated hef hB hE hold
  refine ⟨m, a, b, young, old, A, B, hm, ha, hb, hyoung, hold, hout, sA, sB, mA, mB, ?_, ?_, ?_⟩
  · intro cd n' h1 h2
    rw [hcode'] at h1
    injection h1 with h1
    subst h1
    rw [colourOf_shade h2] at hn
    injection hn with hn
    subst hn
    exact shade_ok h2.1 hsh
  · intro cd h1
    rw [hcode] at h1
    injection h1 with h1
    subst h1
    rw [hline]
    simp only [List.contains_iff_mem]
    rfl
  · intro t x iso hst hte nt ht hiso d v hv hv0
    obtain ⟨w, hw⟩ := hwhole _ _ hiso
    obtain ⟨_, mI⟩ := isochron_truncated hef hiso hE hw
    obtain ⟨hvw, u, hu, hu'⟩ := (mI _).1 hv
    have za := a0_ne ns ha
    have zb := a0_ne ne hb
    have zt := a0_ne nt ht
    have lt1 := a0_strict hc e0 e1 e3 h0 h1 h3 hst ha ht
    have lt2 := a0_strict hc e0 e1 e3 h0 h1 h3 hte ht hb
    obtain ⟨_, _, tA⟩ := isochron_scale hf zt za hw hyoung
    obtain ⟨_, _, tB⟩ := isochron_scale hf zt zb hw hold
    obtain ⟨i, hi, e⟩ := List.getElem_of_mem hvw
    have hvi : w[i]? = some (d, v) := by rw [List.getElem?_eq_getElem hi, e]
    have l1 : (10 : ℝ) ^ (a - x) < 1 := by
      rw [← Real.rpow_zero 10, pow10_lt]; linarith
    have l2 : 1 < (10 : ℝ) ^ (b - x) := by
      rw [← Real.rpow_zero 10, pow10_lt]; linarith
    have l3 : (10 : ℝ) ^ (a - x) * v < v := by nlinarith
    refine ⟨⟨_, (mA _).2 ⟨List.mem_of_getElem? (tA i d v hvi), u, hu, l3.trans hu'⟩, l3⟩, _, List.mem_of_getElem? (tB i d v hvi), by nlinarith⟩

/-- **C112, the plot with an equilibrium function exists** under the same conditions, for polynomial functions -/
theorem C112_equilibrium_defined (grey : List (List Char)) (hg : 4 ≤ grey.length) (a b : List ℝ) (ha : a ≠ []) (hb : b ≠ []) (r q : ℝ × ℝ)
    (hr0 : 0 < r.1) (hr : r.1 ≤ r.2) (hq0 : 0 < q.1) (hq : q.1 ≤ q.2) (p : List ℝ) (c : Chron)
    (hc : Chronology.init p = .ok c) (p0 p1 p3 : ℝ) (e0 : p[0]? = some p0) (e1 : p[1]? = some p1) (e3 : p[3]? = some p3)
    (h0 : 0 ≤ p0) (h1 : 0 ≤ p1) (h3 : 0 < p3) (pr : Presentation)
    (hpr : pr ∈ [Presentation.cumulative, .differential, .rplot, .hartmann]) (time : List ℝ) (ht : ∀ t ∈ time.drop 1, 0 < t)
    (slant : List Char) (z : ℤ) (hz : intVal slant = some z) (codes : List (List Char)) (hcodes : ∀ x ∈ codes, ∃ n, ShadeCode x n)
    (hl : time.length ≤ codes.length) :
    ∃ marks ed ey, countPlot grey (initPoly a (some r)) c pr (some (initPoly b (some q))) time (slant :: codes) = .ok marks ∧
      (initPoly b (some q)).getplotdata pr none none = .ok (ed, ey) := by
  obtain ⟨marks, hm⟩ := countPlot_defined grey hg (initPoly a (some r)) p c hc p0 p1 p3 e0 e1 e3 h0 h1 h3 pr (some (initPoly b (some q)))
    (fun x => C22_isochron_defined a b hb r q hr0 hr hq0 hq pr hpr x (.inr ha)) time ht slant z hz codes hcodes hl
  obtain ⟨b0, b', rfl⟩ := List.exists_cons_of_ne_nil hb
  obtain ⟨ed, ey, h2⟩ := C22_curve_defined (b0 :: b') q hq0 hq pr hpr b0 (.inr hb) none
  exact ⟨marks, ed, ey, hm, by rw [← h2]; simp [PFn.getplotdata, initPoly, PFn.defaultA0]⟩

/-- the epochs of the Moon (Wilhelms) with a production and an equilibrium function of the Moon: the theorem speaks about four regions -/
example : ∃ c marks ed ey, Chronology.init [5.44e-14, 6.93, 0, 8.38e-4] = .ok c ∧ Constructed (initPoly [-3.0768, -3.557528] (some (0.01, 1000))) ∧
    (initPoly [-1.14, -1.83] (some (0.01, 1000))).getplotdata .differential none none = .ok (ed, ey) ∧
    countPlot (["#aaaaaa", "#e0e0e0", "#ededed", "#f8f8f8", "#ffffff"].map String.toList) (initPoly [-3.0768, -3.557528] (some (0.01, 1000)))
      c .differential (some (initPoly [-1.14, -1.83] (some (0.01, 1000)))) [0, 1.1, 3.2, 3.8, 3.85, 3.92]
      (["60", "0b", "1b", "0", "2b", "1r", "2"].map String.toList) = .ok marks ∧
    marks.length = 4 := by
  obtain ⟨c, hc, _⟩ := (C14_construct [5.44e-14, 6.93, 0, 8.38e-4]).2 (by simp)
  obtain ⟨marks, ed, ey, hm, hE⟩ := C112_equilibrium_defined (["#aaaaaa", "#e0e0e0", "#ededed", "#f8f8f8", "#ffffff"].map String.toList) (by simp)
    [-3.0768, -3.557528] [-1.14, -1.83] (by simp) (by simp) (0.01, 1000) (0.01, 1000) (by norm_num) (by norm_num) (by norm_num) (by norm_num)
    _ c hc 5.44e-14 6.93 8.38e-4 rfl rfl rfl (by norm_num)
    (by norm_num) (by norm_num) .differential (by simp) [0, 1.1, 3.2, 3.8, 3.85, 3.92] (by simp; norm_num) "60".toList 60 (by decide +kernel)
    (["0b", "1b", "0", "2b", "1r", "2"].map String.toList) (by
      intro x hx
      simp only [List.map_cons, List.map_nil, List.mem_cons, List.not_mem_nil, or_false] at hx
      rcases hx with rfl | rfl | rfl | rfl | rfl | rfl
      · exact ⟨0, by norm_num, rfl⟩
      · exact ⟨1, by norm_num, rfl⟩
      · exact ⟨0, by norm_num, rfl⟩
      · exact ⟨2, by norm_num, rfl⟩
      · exact ⟨1, by norm_num, rfl⟩
      · exact ⟨2, by norm_num, rfl⟩) (by simp)
  exact ⟨c, marks, ed, ey, hc, .inl ⟨_, _, rfl⟩, hE, hm, by rw [(countPlot_ok hm).1]; rfl⟩

/-! ### chronology plots -/

/-- Specification: the point lies on the polygonal line through the given points (increasing in the first coordinate) -/
def OnLine (t y : List ℝ) (q : ℝ × ℝ) : Prop :=
  ∃ (i : ℕ) (a b c d : ℝ), t[i]? = some a ∧ t[i + 1]? = some b ∧ y[i]? = some c ∧ y[i + 1]? = some d ∧ a ≤ q.1 ∧ q.1 ≤ b ∧
    (q.2 - c) * (b - a) = (q.1 - a) * (d - c)

theorem interp_onLine {xp fp : List ℝ} (hx : xp.Pairwise (· < ·)) (hlen : xp.length = fp.length) (hne : 2 ≤ xp.length) {x : ℝ}
    (h0 : xp[0] ≤ x) (h1 : x ≤ xp[xp.length - 1]) : OnLine xp fp (x, interp xp fp x) := by
  have hx' := hx.imp (fun {a b} (h : a < b) => h.le)
  rcases interp_cases xp fp x hx' hlen (by omega) with ⟨h, e⟩ | ⟨h, e⟩ | ⟨j, hj, hs, g1, g2, e⟩
  · exact absurd h0 (not_le.2 h)
  · have hxe : x = xp[xp.length - 1] := le_antisymm h1 h
    refine ⟨xp.length - 2, xp[xp.length - 2], xp[xp.length - 1], fp[xp.length - 2], fp[xp.length - 1],
      List.getElem?_eq_getElem _, ?_, List.getElem?_eq_getElem _, ?_, ?_, h1, ?_⟩
    · rw [show xp.length - 2 + 1 = xp.length - 1 by omega]; exact List.getElem?_eq_getElem _
    · rw [show xp.length - 2 + 1 = xp.length - 1 by omega]; exact List.getElem?_eq_getElem _
    · show xp[xp.length - 2] ≤ x
      rw [hxe]
      exact (List.pairwise_iff_getElem.1 hx _ _ (by omega) (by omega) (by omega)).le
    · show (interp xp fp x - _) * _ = (x - _) * _
      rw [e, hxe]
      ring_nf
  · refine ⟨j, xp[j], xp[j + 1], fp[j], fp[j + 1], List.getElem?_eq_getElem _, List.getElem?_eq_getElem _,
      List.getElem?_eq_getElem _, List.getElem?_eq_getElem _, g1, g2.le, ?_⟩
    show (interp xp fp x - _) * _ = (x - _) * _
    rw [e]
    have hd : xp[j + 1] - xp[j] ≠ 0 := by linarith
    field_simp
    ring

/-- **C113, regions and lines.** Epochs on a chronology or rate plot.  `pt`, `py` is the plotted curve (C69).  There is one region
for each pair of successive boundaries after the first one: with the shade of the code of its epoch, from the one boundary to the
other, and for ages up to 5 Ga its upper edge lies on the plotted curve.  There is one dividing line at the age of each boundary
after the first, ending on the plotted curve, and strong exactly if the code of the epoch before is marked with `b`. -/
theorem C113_regions (ρ : ℝ → ℚ) (grey : List (List Char)) (p : List ℝ) (c : Chron) (hc : Chronology.init p = .ok c) (phi : Bool)
    (left : ℝ) (time : List ℝ) (epoch : List (List Char)) (slant : List Char) (codes : List (List Char)) (m : ChronologyMarks)
    (h : chronologyPlot ρ grey c phi left time epoch (slant :: codes) = .ok m) :
    ∃ pt py, c.getplotdata phi true = .ok (pt, py) ∧
      m.regions.length = time.length - 2 ∧ m.lines.length = time.length - 1 ∧
      (∀ (k : ℕ) s e, time[k + 1]? = some s → time[k + 2]? = some e → ∃ r, m.regions[k]? = some r ∧
        (∀ code n, codes[k + 1]? = some code → ShadeCode code n → grey[3 - n]? = some r.2) ∧
        (∃ v w, r.1[0]? = some (s, v) ∧ r.1[99]? = some (e, w)) ∧ r.1.length = 100 ∧
        (s < e → (r.1.map Prod.fst).Pairwise (· < ·) ∧ (0 ≤ s → e ≤ 5 → ∀ q ∈ r.1, OnLine pt py q))) ∧
      ∀ (k : ℕ) s, time[k + 1]? = some s → ∃ v code, m.lines[k]? = some (s, v, decide ('b' ∈ code)) ∧ codes[k]? = some code ∧
        (0 ≤ s → s ≤ 5 → OnLine pt py (s, v)) := by
  obtain ⟨pt, py, hp, l1, l2, hsorted, hfirst, hlast, _⟩ := C69_plotted_chronology p c hc true phi
  have hline : ∀ x, 0 ≤ x → x ≤ 5 → OnLine pt py (x, interp pt py x) := by
    intro x hx0 hx5
    refine interp_onLine hsorted (by omega) (by omega) ?_ ?_
    · rw [if_pos rfl] at hfirst
      obtain ⟨_, hf⟩ := List.getElem?_eq_some_iff.1 hfirst
      rw [hf]; exact hx0
    · obtain ⟨_, hf⟩ := List.getElem?_eq_some_iff.1 hlast
      simp only [l1]
      norm_num
      rw [hf]; exact hx5
  refine ⟨pt, py, hp, ?_⟩
  unfold chronologyPlot at h
  rw [hp, except_ok_bind] at h
  dsimp only at h
  obtain ⟨⟨z, colour, offset, boundary⟩, h3, h⟩ := except_bind_eq_ok h
  dsimp only at h
  obtain ⟨c1, _, c3⟩ := formatting_ok (lift_ok.1 h3)
  obtain ⟨rs, hrs, h⟩ := except_bind_eq_ok h
  obtain ⟨ls, hls, h⟩ := except_bind_eq_ok h
  obtain ⟨ns, hns, h⟩ := except_bind_eq_ok h
  obtain ⟨t1, ht1, h⟩ := except_bind_eq_ok h
  obtain ⟨y, hy, h⟩ := except_bind_eq_ok h
  obtain ⟨ts, hts, h⟩ := except_bind_eq_ok h
  injection h with h
  subst h
  obtain ⟨k1, g1⟩ := mapM_get hrs
  obtain ⟨k2, g2⟩ := mapM_get hls
  obtain ⟨k3, g3⟩ := mapM_get c1
  rw [List.length_range] at k1 k2
  refine ⟨k1, k2, ?_, ?_⟩
  · intro k s e hs he
    have hk : k + 2 < time.length := (List.getElem?_eq_some_iff.1 he).1
    obtain ⟨r, hr, hr'⟩ := g1 k k (range_get (by omega))
    unfold chronRegion at hr'
    rw [at?_ok.2 hs, except_ok_bind, at?_ok.2 he, except_ok_bind] at hr'
    obtain ⟨n, hn, hr'⟩ := except_bind_eq_ok hr'
    obtain ⟨g, hg, hr'⟩ := except_bind_eq_ok hr'
    injection hr' with hr'
    subst hr'
    refine ⟨_, hr, ?_, ?_, by simp, ?_⟩
    · intro code n' hcode hsc
      obtain ⟨n'', e1, e2⟩ := g3 _ _ hcode
      rw [at?_ok.1 hn] at e1
      injection e1 with e1
      subst e1
      rw [colourOf_shade hsc] at e2
      injection e2 with e2
      subst e2
      exact shade_ok hsc.1 hg
    · refine ⟨interp pt py s, interp pt py e, ?_, ?_⟩
      · dsimp only
        rw [List.getElem?_eq_getElem (by simp), List.getElem_map, linspace_zero]
      · dsimp only
        rw [List.getElem?_eq_getElem (by simp), List.getElem_map]
        have := linspace_last s e 100 (by norm_num) (by simp)
        simp only [show (100 - 1 : ℕ) = 99 from rfl] at this
        rw [this]
    · intro hse
      constructor
      · rw [List.map_map, show (Prod.fst ∘ fun t => (t, interp pt py t)) = id from rfl, List.map_id]
        exact linspace_strictMono hse _
      · intro hs0 he5 q hq
        obtain ⟨t, ht, rfl⟩ := List.mem_map.1 hq
        have := linspace_mem 100 (by norm_num) ht
        rw [min_eq_left hse.le, max_eq_right hse.le] at this
        exact hline t (by linarith) (by linarith)
  · intro k s hs
    have hk : k + 1 < time.length := (List.getElem?_eq_some_iff.1 hs).1
    obtain ⟨r, hr, hr'⟩ := g2 k k (range_get (by omega))
    unfold chronLine at hr'
    rw [at?_ok.2 hs, except_ok_bind] at hr'
    obtain ⟨b, hb, hr'⟩ := except_bind_eq_ok hr'
    injection hr' with hr'
    subst hr'
    have hb' := at?_ok.1 hb
    rw [c3, List.getElem?_map] at hb'
    cases hcode : codes[k]? with
    | none => rw [hcode] at hb'; cases hb'
    | some code =>
      rw [hcode] at hb'
      injection hb' with hb'
      refine ⟨interp pt py s, code, ?_, rfl, hline s⟩
      dsimp only
      rw [hr, ← hb']
      simp

/-- **C113, names and ages.** Each epoch is named once, in order, at the middle between its boundaries (for the oldest epoch between
its boundary and the left end of the axis), 0.03 Ga to the right of it, at one and a half times the value of the function there.  The
age of each boundary, except a boundary at 0, is written in order, at the age, rounded to three digits; above the line if the code of
the epoch is marked with `r`. -/
theorem C113_texts (ρ : ℝ → ℚ) (grey : List (List Char)) (c : Chron) (phi : Bool)
    (left : ℝ) (time : List ℝ) (epoch : List (List Char)) (slant : List Char) (codes : List (List Char)) (m : ChronologyMarks)
    (h : chronologyPlot ρ grey c phi left time epoch (slant :: codes) = .ok m) :
    m.names.map (fun q => q.2.2) = epoch ∧
    (∀ (i : ℕ) x v name s e, m.names[i]? = some (x, v, name) → time[i]? = some s →
      (time[i + 1]? = some e ∨ time[i + 1]? = none ∧ e = left) →
      x = (s + e) / 2 - 3 / 100 ∧ (if phi then c.phi ((s + e) / 2) else c.N1 ((s + e) / 2)) = .ok (v * 2 / 3)) ∧
    m.times.map Prod.fst = time.filter (· ≠ 0) ∧
    ∀ q ∈ m.times, ∃ (i : ℕ) (s code : List Char), time[i]? = some q.1 ∧ q.2.2.1 = ' ' :: s ++ [' '] ∧ Denotes 3 (ρ q.1) s ∧
      codes[i]? = some code ∧ (q.2.2.2 = true ↔ 'r' ∈ code) := by
  unfold chronologyPlot at h
  obtain ⟨⟨pt, py⟩, hp, h⟩ := except_bind_eq_ok h
  dsimp only at h
  obtain ⟨⟨z, colour, offset, boundary⟩, h3, h⟩ := except_bind_eq_ok h
  dsimp only at h
  obtain ⟨_, c2, _⟩ := formatting_ok (lift_ok.1 h3)
  obtain ⟨rs, hrs, h⟩ := except_bind_eq_ok h
  obtain ⟨ls, hls, h⟩ := except_bind_eq_ok h
  obtain ⟨ns, hns, h⟩ := except_bind_eq_ok h
  obtain ⟨t1, ht1, h⟩ := except_bind_eq_ok h
  obtain ⟨y, hy, h⟩ := except_bind_eq_ok h
  obtain ⟨ts, hts, h⟩ := except_bind_eq_ok h
  injection h with h
  subst h
  obtain ⟨k1, g1⟩ := mapM_get hns
  rw [List.length_range] at k1
  have hname : ∀ (i : ℕ), i < epoch.length → ∃ q a b nm w, ns[i]? = some q ∧ (time ++ [left])[i]? = some a ∧
      (time ++ [left])[i + 1]? = some b ∧ epoch[i]? = some nm ∧ (if phi then c.phi ((a + b) / 2) else c.N1 ((a + b) / 2)) = .ok w ∧
      q = ((a + b) / 2 - 0.03, w * 1.5, nm) := by
    intro i hi
    obtain ⟨q, hq, hq'⟩ := g1 i i (range_get hi)
    unfold chronName at hq'
    obtain ⟨a, ha, hq'⟩ := except_bind_eq_ok hq'
    obtain ⟨b, hb, hq'⟩ := except_bind_eq_ok hq'
    obtain ⟨w, hw, hq'⟩ := except_bind_eq_ok hq'
    obtain ⟨nm, hnm, hq'⟩ := except_bind_eq_ok hq'
    injection hq' with hq'
    exact ⟨q, a, b, nm, w, hq, at?_ok.1 ha, at?_ok.1 hb, at?_ok.1 hnm, hw, hq'.symm⟩
  refine ⟨?_, ?_, ?_, ?_⟩
  · apply List.ext_getElem?
    intro i
    rw [List.getElem?_map]
    by_cases hi : i < epoch.length
    · obtain ⟨q, a, b, nm, w, h1, _, _, h4, _, rfl⟩ := hname i hi
      rw [h1, h4]; rfl
    · rw [List.getElem?_eq_none (show ns.length ≤ i by omega), List.getElem?_eq_none (by omega)]; rfl
  · intro i x v name s e hq hs he
    have hi : i < epoch.length := by rw [← k1]; exact (List.getElem?_eq_some_iff.1 hq).1
    obtain ⟨q, a, b, nm, w, h1, h2, h2', h4, h5, rfl⟩ := hname i hi
    have hti := (List.getElem?_eq_some_iff.1 hs).1
    rw [List.getElem?_append_left hti, hs] at h2
    injection h2 with h2
    subst h2
    have hb : b = e := by
      rcases he with he | ⟨he, rfl⟩
      · rw [List.getElem?_append_left (List.getElem?_eq_some_iff.1 he).1, he] at h2'
        injection h2' with h2'
        exact h2'.symm
      · have := List.getElem?_eq_none_iff.1 he
        rw [List.getElem?_append_right (by omega), show i + 1 - time.length = 0 by omega] at h2'
        injection h2' with h2'
        exact h2'.symm
    subst hb
    dsimp only at hq
    rw [h1] at hq
    simp only [Option.some.injEq, Prod.mk.injEq] at hq
    obtain ⟨rfl, rfl, rfl⟩ := hq
    refine ⟨by norm_num, ?_⟩
    rw [h5]
    congr 1
    norm_num
    ring
  · dsimp only
    have key : ∀ (l : List ℝ) (f : ℕ → ℕ) (ts : List (Option (ℝ × ℝ × List Char × Bool))), (∀ i, i < l.length → time[f i]? = l[i]?) →
        (List.range l.length).mapM (fun i => chronTime ρ (if phi = true then y * 0.7 else y / 2.5) offset time (f i)) = .ok ts →
        (ts.filterMap id).map Prod.fst = l.filter (· ≠ 0) := by
      intro l f ts hf hts
      obtain ⟨q1, q2⟩ := mapM_get hts
      rw [List.length_range] at q1
      clear hts
      induction l generalizing f ts with
      | nil => simp at q1; subst q1; rfl
      | cons a l ih =>
        cases ts with
        | nil => simp at q1
        | cons t ts =>
          obtain ⟨o, ho, ho'⟩ := q2 0 0 (range_get (by simp))
          rw [List.getElem?_cons_zero] at ho
          injection ho with ho
          subst ho
          have ih' := ih (fun i => f (i + 1)) ts (fun i hi => by simpa using hf (i + 1) (by simpa using hi)) (by simpa using q1) (by
            intro i x hx
            have hi : i < l.length := by simpa using (List.getElem?_eq_some_iff.1 hx).1
            rw [range_get hi] at hx
            injection hx with hx
            subst hx
            simpa using q2 (i + 1) (i + 1) (range_get (by simpa using hi)))
          have h0 : time[f 0]? = some a := by simpa using hf 0 (by simp)
          unfold chronTime at ho'
          rw [at?_ok.2 h0, except_ok_bind] at ho'
          by_cases ha : a = 0
          · rw [if_neg (by simpa using ha)] at ho'
            injection ho' with ho'
            subst ho'
            rw [List.filter_cons_of_neg (by simpa using ha), ← ih']
            rfl
          · rw [if_pos ha] at ho'
            obtain ⟨o, _, ho'⟩ := except_bind_eq_ok ho'
            injection ho' with ho'
            subst ho'
            rw [List.filter_cons_of_pos (by simpa using ha), ← ih']
            rfl
    exact key time id ts (fun _ _ => rfl) hts
  · intro q hq
    dsimp only at hq
    obtain ⟨o, ho, ho'⟩ := List.mem_filterMap.1 hq
    rw [id] at ho'
    subst ho'
    obtain ⟨i, hi, hget⟩ := List.mem_iff_getElem.1 ho
    obtain ⟨q1, q2⟩ := mapM_get hts
    rw [List.length_range] at q1
    obtain ⟨o, h1, h2⟩ := q2 i i (range_get (by omega))
    rw [List.getElem?_eq_getElem hi, hget] at h1
    injection h1 with h1
    subst h1
    unfold chronTime at h2
    obtain ⟨t, ht, h2⟩ := except_bind_eq_ok h2
    split at h2
    · obtain ⟨o, hof, h2⟩ := except_bind_eq_ok h2
      injection h2 with h2
      injection h2 with h2
      subst h2
      have ho' := at?_ok.1 hof
      rw [c2, List.getElem?_map] at ho'
      cases hcode : codes[i]? with
      | none => rw [hcode] at ho'; cases ho'
      | some code =>
        rw [hcode] at ho'
        injection ho' with ho'
        refine ⟨i, gStr 2 (ρ t), code, at?_ok.1 ht, rfl, ⟨_, decVal_gStr 2 _, isRounded_sci 2 _⟩, hcode, ?_⟩
        rw [← ho']
        simp
    · cases h2

/-- **C113, the plot exists.** For an epoch system with at least two boundaries and as many epochs, and a formatting with an integer
slant and a code with shade number for each epoch, everything is drawn. -/
theorem C113_defined (ρ : ℝ → ℚ) (grey : List (List Char)) (hg : 4 ≤ grey.length) (p : List ℝ) (c : Chron)
    (hc : Chronology.init p = .ok c) (phi : Bool) (left : ℝ) (time : List ℝ) (ht : 2 ≤ time.length) (epoch : List (List Char))
    (he : epoch.length = time.length) (slant : List Char) (z : ℤ) (hz : intVal slant = some z) (codes : List (List Char))
    (hcodes : ∀ x ∈ codes, ∃ n, ShadeCode x n) (hl : time.length ≤ codes.length) :
    ∃ m, chronologyPlot ρ grey c phi left time epoch (slant :: codes) = .ok m := by
  obtain ⟨pt, py, hp, _⟩ := C69_plotted_chronology p c hc true phi
  have h4 : 4 ≤ p.length := by
    by_contra h
    rw [(C14_construct p).1 (by omega)] at hc
    cases hc
  have e0 := List.getElem?_eq_getElem (l := p) (i := 0) (by omega)
  have e1 := List.getElem?_eq_getElem (l := p) (i := 1) (by omega)
  have e3 := List.getElem?_eq_getElem (l := p) (i := 3) (by omega)
  obtain ⟨hcp, _, _⟩ := init_tables hc e0 e1 e3
  have hco := coeffs_ok e0 e1 e3
  have hval : ∀ t, ∃ y, valueAt c phi t = .ok y := by
    intro t
    cases phi
    · simp only [valueAt, Bool.false_eq_true, if_false, Chron.N1, hcp, hco, except_ok_bind]
      exact ⟨_, rfl⟩
    · simp only [valueAt, if_true, Chron.phi, hcp, hco, except_ok_bind]
      exact ⟨_, rfl⟩
  have hcol : ∀ x ∈ codes, ∃ n, colourOf x = .ok n ∧ n < 4 := by
    intro x hx
    obtain ⟨n, hn⟩ := hcodes x hx
    exact ⟨n, colourOf_shade hn, hn.1⟩
  obtain ⟨colour, hc1, hc2⟩ := mapM_ok_forall (P := fun _ n => n < 4) hcol
  have hfmt : decodeFormatting (slant :: codes) = .ok (z, colour, codes.map (fun e => e.contains 'r'), codes.map (fun e => e.contains 'b')) := by
    unfold decodeFormatting
    simp only [hz, hc1]
    rfl
  have hclen : colour.length = codes.length := hc2.length_eq.symm
  have hin : ∀ {α : Type} (l : List α) (i : ℕ) (h : i < l.length), at? l i = .ok (l[i]) :=
    fun l i h => at?_ok.2 (List.getElem?_eq_getElem h)
  have h1 : ∀ i ∈ List.range (time.length - 2), ∃ m, chronRegion grey pt py time colour i = .ok m ∧ True := by
    intro i hi
    have hi' := List.mem_range.1 hi
    have hn : colour[i + 1]'(by omega) < 4 := (List.forall₂_iff_get.1 hc2).2 (i + 1) (by omega) (by omega)
    have hs : shade grey (colour[i + 1]'(by omega)) = .ok (grey[3 - colour[i + 1]'(by omega)]'(by omega)) := by
      unfold shade pyIndex
      rw [if_pos (by omega), List.getElem?_eq_getElem (by omega)]
      simp only [Except.ok.injEq]
      congr 1
      omega
    unfold chronRegion
    rw [hin time _ (by omega), except_ok_bind, hin time _ (by omega), except_ok_bind, hin colour _ (by omega), except_ok_bind,
      hs, except_ok_bind]
    exact ⟨_, rfl, trivial⟩
  have h2 : ∀ i ∈ List.range (time.length - 1), ∃ m, chronLine pt py time (codes.map (fun e => e.contains 'b')) i = .ok m ∧ True := by
    intro i hi
    have hi' := List.mem_range.1 hi
    unfold chronLine
    rw [hin time _ (by omega), except_ok_bind, hin _ _ (by simp; omega), except_ok_bind]
    exact ⟨_, rfl, trivial⟩
  have h3 : ∀ i ∈ List.range epoch.length, ∃ m, chronName c phi (time ++ [left]) epoch i = .ok m ∧ True := by
    intro i hi
    have hi' := List.mem_range.1 hi
    unfold chronName
    rw [hin (time ++ [left]) i (by simp; omega), except_ok_bind, hin (time ++ [left]) (i + 1) (by simp; omega), except_ok_bind]
    obtain ⟨y, hy⟩ := hval (((time ++ [left])[i]'(by simp; omega) + (time ++ [left])[i + 1]'(by simp; omega)) / 2)
    dsimp only
    rw [hy, except_ok_bind, hin epoch i hi', except_ok_bind]
    exact ⟨_, rfl, trivial⟩
  obtain ⟨y, hy⟩ := hval (time[1]'(by omega))
  have h5 : ∀ i ∈ List.range time.length, ∃ m, chronTime ρ (if phi = true then y * 0.7 else y / 2.5) (codes.map (fun e => e.contains 'r')) time i = .ok m ∧ True := by
    intro i hi
    have hi' := List.mem_range.1 hi
    unfold chronTime
    rw [hin time i hi', except_ok_bind]
    split
    · rw [hin _ _ (by simp; omega), except_ok_bind]
      exact ⟨_, rfl, trivial⟩
    · exact ⟨_, rfl, trivial⟩
  obtain ⟨m1, w1, _⟩ := mapM_ok_forall h1
  obtain ⟨m2, w2, _⟩ := mapM_ok_forall h2
  obtain ⟨m3, w3, _⟩ := mapM_ok_forall h3
  obtain ⟨m5, w5, _⟩ := mapM_ok_forall h5
  unfold chronologyPlot
  rw [hp, except_ok_bind]
  dsimp only
  rw [lift_ok.2 hfmt, except_ok_bind]
  dsimp only
  rw [w1, except_ok_bind, w2, except_ok_bind, w3, except_ok_bind, hin time 1 (by omega), except_ok_bind, hy, except_ok_bind, w5,
    except_ok_bind]
  exact ⟨_, rfl⟩

/-- the epochs of the Moon (Wilhelms) -/
example (ρ : ℝ → ℚ) : ∃ c m, Chronology.init [5.44e-14, 6.93, 0, 8.38e-4] = .ok c ∧
    chronologyPlot ρ (["#aaaaaa", "#e0e0e0", "#ededed", "#f8f8f8", "#ffffff"].map String.toList)
      c false 4.5 [0, 1.1, 3.2, 3.8, 3.85, 3.92]
      (["Copernican", "Eratosthenian", "Late Imbrian", "Early Imbrian", "Nectarian", "Pre-Nectarian"].map String.toList)
      (["60", "0b", "1b", "0", "2b", "1r", "2"].map String.toList) = .ok m ∧
    m.times.length = 5 := by
  obtain ⟨c, hc, _⟩ := (C14_construct [5.44e-14, 6.93, 0, 8.38e-4]).2 (by simp)
  obtain ⟨m, hm⟩ := C113_defined ρ (["#aaaaaa", "#e0e0e0", "#ededed", "#f8f8f8", "#ffffff"].map String.toList) (by simp) _ c hc false 4.5
    [0, 1.1, 3.2, 3.8, 3.85, 3.92] (by simp)
    (["Copernican", "Eratosthenian", "Late Imbrian", "Early Imbrian", "Nectarian", "Pre-Nectarian"].map String.toList) (by simp)
    "60".toList 60 (by decide +kernel) (["0b", "1b", "0", "2b", "1r", "2"].map String.toList) (by
      intro x hx
      simp only [List.map_cons, List.map_nil, List.mem_cons, List.not_mem_nil, or_false] at hx
      rcases hx with rfl | rfl | rfl | rfl | rfl | rfl
      · exact ⟨0, by norm_num, rfl⟩
      · exact ⟨1, by norm_num, rfl⟩
      · exact ⟨0, by norm_num, rfl⟩
      · exact ⟨2, by norm_num, rfl⟩
      · exact ⟨1, by norm_num, rfl⟩
      · exact ⟨2, by norm_num, rfl⟩) (by simp)
  refine ⟨c, m, hc, hm, ?_⟩
  have := congrArg List.length (C113_texts _ _ _ _ _ _ _ _ _ _ hm).2.2.1
  rw [List.length_map] at this
  rw [this]
  norm_num [List.filter_cons]

/-- **C113 is false for an oldest epoch beyond the axis.** If the time axis ends within 0.06 Ga before the oldest boundary `T`, so that
the oldest epoch is not on the plot, its name nevertheless begins on the plot, less than 0.03 Ga from the left end of the axis, where
the epoch before is shown. -/
theorem C113_oldest_name_counterexample (ρ : ℝ → ℚ) (grey : List (List Char)) (c : Chron) (phi : Bool) (left : ℝ) (time : List ℝ)
    (epoch : List (List Char)) (he : epoch.length = time.length) (slant : List Char) (codes : List (List Char)) (m : ChronologyMarks)
    (h : chronologyPlot ρ grey c phi left time epoch (slant :: codes) = .ok m) (T : ℝ) (hT : time.getLast? = some T)
    (h1 : left < T) (h2 : T < left + 6 / 100) :
    ∃ x y name, m.names.getLast? = some (x, y, name) ∧ epoch.getLast? = some name ∧ x < left ∧ left - 3 / 100 < x := by
  obtain ⟨g1, g2, _⟩ := C113_texts _ _ _ _ _ _ _ _ _ _ h
  have hne : time ≠ [] := by rintro rfl; cases hT
  have hl : m.names.length = epoch.length := by rw [← g1]; simp
  have hpos : 0 < time.length := List.length_pos_of_ne_nil hne
  obtain ⟨⟨x, y, name⟩, hq⟩ : ∃ q, m.names[time.length - 1]? = some q := ⟨_, List.getElem?_eq_getElem (by omega)⟩
  have hq' : m.names.getLast? = some (x, y, name) := by
    rw [List.getLast?_eq_getElem?, hl, he]
    exact hq
  have hT' : time[time.length - 1]? = some T := by
    rw [← List.getLast?_eq_getElem?]
    exact hT
  obtain ⟨hx, _⟩ := g2 (time.length - 1) x y name T left hq hT' (.inr ⟨List.getElem?_eq_none (by omega), rfl⟩)
  refine ⟨x, y, name, hq', ?_, ?_, ?_⟩
  · rw [← g1, List.getLast?_map, hq']; rfl
  · rw [hx]; linarith
  · rw [hx]; linarith

end

end Verif.Props
