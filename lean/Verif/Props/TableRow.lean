import Verif.Props.FileAge
import Verif.Props.Summary
import Verif.Props.Notation
import Verif.Props.EpochPlot
import Verif.Props.PlotObject
import Verif.Model.TableRow

/-!
C146: from the plots and their crater files to the rows of the summary table.
-/

namespace Verif.Props

open Verif.Py Verif.Text Verif.Rand Verif.Scc Verif.CountFile Verif.Cratercount Verif.Chronology Verif.Production Verif.Craterpdf Verif.Age
open Verif.FileAge Verif.TableRow Verif.PlotObject

noncomputable section

/-! ### texts without separators -/

/-- Specification: a text which fits into one field of the table -/
def OneField (s : List Char) : Prop := ',' ∉ s ∧ '\n' ∉ s

instance (s : List Char) : Decidable (OneField s) := by unfold OneField; infer_instance

theorem oneField_append {a b : List Char} (ha : OneField a) (hb : OneField b) : OneField (a ++ b) := by
  constructor
  · intro h
    exact (List.mem_append.1 h).elim ha.1 hb.1
  · intro h
    exact (List.mem_append.1 h).elim ha.2 hb.2

theorem oneField_plain {t : List Char} (h : Plain t) : OneField t := by
  constructor
  · intro hc
    have := (plainChars_spec _ (h.2 _ hc)).2.2.2
    simp at this
  · intro hc
    have := (plainChars_spec _ (h.2 _ hc)).2.2.2
    simp at this

theorem oneField_num {t : List Char} {q : ℚ} (h : decVal t = some q) : OneField t := oneField_plain (plain_num h)

theorem oneField_denotes {d : ℕ} {n : ℚ} {s : List Char} (h : Denotes d n s) : OneField s := by
  obtain ⟨r, hr, _⟩ := h
  exact oneField_num hr

theorem oneField_int {t : List Char} {z : ℤ} (h : intVal t = some z) : OneField t := by
  unfold intVal at h
  dsimp only at h
  split at h
  · rename_i hd
    have hs : ∀ c ∈ t, c = '-' ∨ c = '+' ∨ isDig c = true := by
      intro c hc
      have hall := List.all_eq_true.1 hd.2
      unfold takeSign at hall
      split at hall
      · rcases List.mem_cons.1 hc with e | hc
        · exact .inl e
        · exact .inr (.inr (hall c hc))
      · rcases List.mem_cons.1 hc with e | hc
        · exact .inr (.inl e)
        · exact .inr (.inr (hall c hc))
      · exact .inr (.inr (hall c hc))
    constructor
    · intro hc
      rcases hs _ hc with e | e | e <;> revert e <;> decide
    · intro hc
      rcases hs _ hc with e | e | e <;> revert e <;> decide
  · cases h

theorem decVal_natStr (n : ℕ) : decVal (natStr n) = some (n : ℚ) := by
  have h : ∀ c ∈ natStr n, isDig c = true := fun c hc => fixDigits_isDig _ _ c hc
  rw [decVal_digits (natStr n) h (natStr_ne_nil n), digitsNum_natStr]

/-- the exponential format denotes the rounded number -/
theorem decVal_sciStr (p : ℕ) (v : ℚ) : decVal (sciStr p v) = some (sciSigned p v) := by
  have hdig := fixDigits_isDig (p + 1) (sciRound p v).1
  have hlen := fixDigits_length (p + 1) (sciRound p v).1
  have hnum : digitsNum (fixDigits (p + 1) (sciRound p v).1) = (sciRound p v).1 := by
    rw [digitsNum_fixDigits, Nat.mod_eq_of_lt (sciRound_range p v).1]
  have hex := intVal_expStr (sciRound p v).2
  have key : decVal (mantStr (fixDigits (p + 1) (sciRound p v).1) ++ 'e' :: expStr (sciRound p v).2) = some (sciVal p v) ∧
      ∀ c ∈ (mantStr (fixDigits (p + 1) (sciRound p v).1) ++ 'e' :: expStr (sciRound p v).2).head?, isDig c = true ∨ c = '.' := by
    rw [sciVal]
    generalize fixDigits (p + 1) (sciRound p v).1 = ds at *
    generalize expStr (sciRound p v).2 = ex at *
    match ds, hlen with
    | [c], hlen =>
      have : p = 0 := by simpa using hlen.symm
      subst this
      refine ⟨?_, fun x hx => ?_⟩
      · rw [mantStr, decVal_exp_digits [c] ex _ hdig (by simp) hex, hnum]
        simp
      · simp [mantStr] at hx
        subst hx
        exact .inl (hdig _ (by simp))
    | c :: d :: l, hlen =>
      have hl : (d :: l).length = p := by simpa using hlen
      refine ⟨?_, fun x hx => ?_⟩
      · have h := decVal_exp_plain [c] (d :: l) ex _ (fun x hx => hdig x (by simp at hx; simp [hx])) (fun x hx => hdig x (List.mem_cons_of_mem _ hx))
          (by simp) hex
        rw [List.singleton_append, List.singleton_append, hnum, hl] at h
        show decVal (c :: '.' :: ((d :: l) ++ 'e' :: ex)) = _
        rw [h, zpow_sub₀ (by norm_num), zpow_natCast]
        congr 1
        field_simp
      · simp [mantStr] at hx
        subst hx
        exact .inl (hdig _ (by simp))
  rw [sciStr, sciSigned, List.append_assoc]
  split
  · rw [List.singleton_append, decVal_neg _ key.2, key.1]; rfl
  · rw [List.nil_append, key.1]

theorem denotes_g (P : ℕ) (v : ℚ) : Denotes (P + 1) v (gStr P v) := ⟨_, decVal_gStr P v, isRounded_sci P v⟩

theorem denotes_sci (P : ℕ) (v : ℚ) : Denotes (P + 1) v (sciStr P v) := ⟨_, decVal_sciStr P v, isRounded_sci P v⟩

theorem strAge_text (C : Classes) (age e1 e2 : ℚ) (mu m : Bool) : ∃ s, strAge C age e1 e2 3 none false false mu m = .ok s ∧ OneField s := by
  have hunit : ∀ {size name}, UnitUsed age none size name → OneField name := by
    intro size name h
    have : name ∈ ["Ga".toList, "Ma".toList, "ka".toList, "a".toList] := by
      rcases h with ⟨_, _, rfl⟩ | ⟨_, _, _, rfl⟩ | ⟨_, _, _, rfl⟩ | ⟨_, _, rfl⟩ <;> simp
    have key : ∀ n ∈ ["Ga".toList, "Ma".toList, "ka".toList, "a".toList], OneField n := by decide +kernel
    exact key name this
  have hmu : OneField (if mu then "𝜇".toList else []) ∧ OneField (if mu then "<mi>&#956;</mi>".toList else []) := by
    cases mu <;> decide +kernel
  have h1 : OneField "$ ".toList ∧ OneField "$".toList ∧ OneField "^{+".toList ∧ OneField "}_{-".toList ∧ OneField "}".toList ∧
      OneField "<math xmlns=\"http://www.w3.org/1998/Math/MathML\">".toList ∧ OneField "<mtext>&#8239;".toList ∧ OneField "</mtext></math>".toList ∧
      OneField "<msubsup><mtext>".toList ∧ OneField "</mtext><mtext>&#x2212;".toList ∧ OneField "</mtext><mtext>+".toList ∧
      OneField "</mtext></msubsup>".toList := by decide +kernel
  obtain ⟨a1, a2, a3, a4, a5, a6, a7, a8, a9, a10, a11, a12⟩ := h1
  by_cases he : 0 < e1
  · obtain ⟨size, name, s, s1, s2, hu, d0, d1, d2, h⟩ := C37_errors C age 3 (by norm_num) none (by simp) e1 e2 he
    obtain ⟨g1, g2⟩ := h mu
    have n := hunit hu
    have d0 := oneField_denotes d0
    have d1 := oneField_denotes d1
    have d2 := oneField_denotes d2
    cases m
    · exact ⟨_, g1, oneField_append (oneField_append (oneField_append (oneField_append (a := "$".toList) a2 hmu.1)
        (oneField_append (oneField_append (oneField_append (oneField_append (oneField_append d0 a3) d1) a4) d2) a5)) a1) n⟩
    · exact ⟨_, g2, oneField_append (oneField_append (oneField_append (oneField_append (oneField_append a6 hmu.2)
        (oneField_append (oneField_append (oneField_append (oneField_append (oneField_append (oneField_append a9 d0) a10) d2) a11) d1) a12)) a7) n) a8⟩
  · obtain ⟨size, name, hu, ⟨s, d0, h⟩, _⟩ := C37_age C age 3 (by norm_num) none (by simp) e1 e2 false (.inl (not_lt.1 he))
    obtain ⟨g1, g2⟩ := h mu
    have n := hunit hu
    have d0 := oneField_denotes d0
    cases m
    · exact ⟨_, g1, oneField_append (oneField_append (oneField_append (oneField_append (a := "$".toList) a2 hmu.1) d0) a1) n⟩
    · exact ⟨_, g2, oneField_append (oneField_append (oneField_append (oneField_append (oneField_append a6 hmu.2) d0) a7) n) a8⟩

theorem notation_text (C : Classes) (v e1 e2 : ℚ) (m : Bool) :
    ∃ s, scientificNotation C v (some e1) e2 3 false m (some "km-2".toList) = .ok s ∧ OneField s := by
  obtain ⟨s, s1, s2, k, p, u, h, ⟨r, hr, _⟩, hp, hu, ⟨r1, hr1, _⟩, ⟨r2, hr2, _⟩⟩ := C89_limits C v e1 e2 3 (by norm_num) false m
    (some "km-2".toList) (.inr (.inr rfl))
  have h1 : OneField "$".toList ∧ OneField "^{+".toList ∧ OneField "}_{-".toList ∧ OneField "}".toList ∧
      OneField "<math xmlns=\"http://www.w3.org/1998/Math/MathML\">".toList ∧ OneField "</math>".toList ∧ OneField "</mtext></msup>".toList ∧
      OneField "<msubsup><mtext>".toList ∧ OneField "</mtext><mtext>&#x2212;".toList ∧ OneField "</mtext><mtext>+".toList ∧
      OneField "</mtext></msubsup>".toList ∧ OneField "<mo>&#183;</mo><msup><mtext>10</mtext><mtext>".toList ∧ OneField "\\cdot10^{".toList := by
    decide +kernel
  obtain ⟨a1, a2, a3, a4, a5, a6, a7, a8, a9, a10, a11, a12, a13⟩ := h1
  have d0 := oneField_num hr
  have d1 := oneField_num hr1
  have d2 := oneField_num hr2
  have hp' : OneField p := by
    unfold powerText at hp
    split at hp
    · rw [hp]; decide
    · obtain ⟨kt, hk, rfl⟩ := hp
      have := oneField_int hk
      cases m
      · exact oneField_append (oneField_append a13 this) a4
      · exact oneField_append (oneField_append a12 this) a7
  have hu' : OneField u := by
    rcases hu with ⟨hu, _⟩ | ⟨_, rfl⟩ | ⟨_, rfl⟩
    · cases hu
    · cases m <;> decide +kernel
    · cases m <;> decide +kernel
  refine ⟨_, h, ?_⟩
  cases m
  · exact oneField_append (oneField_append (oneField_append (oneField_append a1 (oneField_append d0
      (oneField_append (oneField_append (oneField_append (oneField_append a2 d1) a3) d2) a4))) hp') hu') a1
  · exact oneField_append (oneField_append (oneField_append (oneField_append a5
      (oneField_append (oneField_append (oneField_append (oneField_append (oneField_append (oneField_append a8 d0) a9) d2) a10) d1) a11)) hp') hu') a6

theorem range_text (C : Classes) (d0 : ℚ) (d1 : Option ℚ) : ∃ s, diameterRange C d0 d1 2 = .ok s ∧ OneField s := by
  obtain ⟨h0, h⟩ := C38_diameter_range C d0 2 (by norm_num)
  cases d1 with
  | none => exact ⟨_, h0, by decide +kernel⟩
  | some d1 =>
    obtain ⟨s0, s1, h, k0, k1⟩ := h d1
    refine ⟨_, h, ?_⟩
    have e : s0 ++ '–' :: s1 = s0 ++ ("–".toList ++ s1) := rfl
    rw [e]
    refine oneField_append (oneField_append (oneField_denotes k0) (oneField_append (by decide +kernel) (oneField_denotes k1))) ?_
    split <;> decide +kernel

theorem limit_text (E : TableRow.Env) (x : EReal) : OneField (limitText E x) := by
  unfold limitText
  split
  · decide +kernel
  · split
    · decide +kernel
    · exact oneField_denotes (denotes_g 1 _)

theorem rangeTexts_text (E : TableRow.Env) {r : EReal × EReal} {t} (h : rangeTexts E r = .ok t) :
    t.1 = limitText E r.1 ∧ t.2.1 = limitText E r.2 ∧ OneField t.2.2 := by
  unfold rangeTexts at h
  obtain ⟨s, hs, h⟩ := except_bind_eq_ok h
  injection h with h
  subst h
  refine ⟨rfl, rfl, ?_⟩
  unfold rangeLabel at hs
  split at hs
  · obtain ⟨s', e, hs'⟩ := range_text E.classes 0 none
    rw [e] at hs
    injection hs with hs
    exact hs ▸ hs'
  · split at hs
    · cases hs
    · obtain ⟨s', e, hs'⟩ := range_text E.classes (E.ρ r.1.toReal) (some (E.ρ r.2.toReal))
      rw [e] at hs
      injection hs with hs
      exact hs ▸ hs'

theorem formatted_text (E : TableRow.Env) (a : Ages) (m : Bool) : ∃ s, formatted E a m = .ok s ∧ OneField s.1 ∧ OneField s.2 := by
  obtain ⟨s, h, hs⟩ := strAge_text E.classes (E.ρ a.t.1) (E.ρ (a.t.2.2 - a.t.1)) (E.ρ (a.t.1 - a.t.2.1)) E.mu m
  obtain ⟨s', h', hs'⟩ := notation_text E.classes (E.ρ ((10 : ℝ) ^ a.a0.1)) (E.ρ ((10 : ℝ) ^ a.a0.2.2)) (E.ρ ((10 : ℝ) ^ a.a0.2.1)) m
  refine ⟨(s, s'), ?_, hs, hs'⟩
  rw [formatted, h, ok_bind, h', ok_bind]

/-! ### the rows of Poisson ages -/

/-- Specification: what is set for a plot of a Poisson age: its name, the text naming its source, its binning, the resurfacing setting, the
crater count and the diameter range -/
structure PoissonPlot where
  name : List Char
  source : List Char
  binning : List Char
  resurf : ℤ
  count : Opened
  range : EReal × EReal

/-- Specification: the attributes of this plot -/
def IsPoisson (x : Attrs Opened × (EReal × EReal)) (p : PoissonPlot) : Prop :=
  dictGet x.1 "type".toList = some (.str "poisson".toList) ∧ dictGet x.1 "name".toList = some (.str p.name) ∧
  dictGet x.1 "source".toList = some (.str p.source) ∧ dictGet x.1 "binning".toList = some (.str p.binning) ∧
  dictGet x.1 "resurf".toList = some (.num p.resurf) ∧ dictGet x.1 "cratercount".toList = some (.count p.count) ∧ x.2 = p.range

/-- Specification: plots of data and of Poisson ages, and the latter in their order -/
inductive AgesAmong : List (Attrs Opened × (EReal × EReal)) → List PoissonPlot → Prop
  | nil : AgesAmong [] []
  | data {x xs ps} : dictGet x.1 "type".toList = some (.str "data".toList) → AgesAmong xs ps → AgesAmong (x :: xs) ps
  | poisson {x p xs ps} : IsPoisson x p → AgesAmong xs ps → AgesAmong (x :: xs) (p :: ps)

/-- Specification: names which fit into the table -/
def Nameable (p : PoissonPlot) : Prop := p.name ≠ [] ∧ OneField p.name ∧ OneField p.source ∧ OneField p.binning

/-- Specification: the text of a limit of diameters to two digits -/
def LimitShown (ρ : ℝ → ℚ) (x : EReal) (s : List Char) : Prop :=
  x = ⊤ ∧ s = "inf".toList ∨ x = ⊥ ∧ s = "-inf".toList ∨ ∃ v : ℝ, x = v ∧ Denotes 2 (ρ v) s

/-- Specification: field number `i` exists and is as stated -/
def Field (f : List (List Char)) (i : ℕ) (P : List Char → Prop) : Prop := ∃ s, f[i]? = some s ∧ P s

/-- Specification: the fields of the row of a Poisson age: name, area (5 digits), binning, limits of diameter (2 digits), method, resurfacing,
number of craters (twice), rank, age with lower and upper limit (3 digits), the logarithms of the densities (4 digits), the densities (3 digits), source -/
def RowShows (ρ : ℝ → ℚ) (p : PoissonPlot) (area : ℝ) (n : ℕ) (t a : ℝ × ℝ × ℝ) (rank : ℕ) (f : List (List Char)) : Prop :=
  f.length = 27 ∧ f[0]? = some p.name ∧ Field f 1 (Denotes 5 (ρ area)) ∧ f[2]? = some p.binning ∧ Field f 3 (LimitShown ρ p.range.1) ∧
  Field f 4 (LimitShown ρ p.range.2) ∧ f[5]? = some "poisson".toList ∧ Field f 6 (fun s => intVal s = some p.resurf) ∧
  Field f 7 (fun s => decVal s = some (n : ℚ)) ∧ Field f 8 (fun s => decVal s = some (n : ℚ)) ∧ Field f 9 (fun s => decVal s = some (rank : ℚ)) ∧
  Field f 10 (Denotes 3 (ρ t.1)) ∧ Field f 11 (Denotes 3 (ρ t.2.1)) ∧ Field f 12 (Denotes 3 (ρ t.2.2)) ∧
  Field f 13 (Denotes 4 (ρ a.1)) ∧ Field f 14 (Denotes 4 (ρ a.2.1)) ∧ Field f 15 (Denotes 4 (ρ a.2.2)) ∧
  Field f 16 (Denotes 3 (ρ ((10 : ℝ) ^ a.1))) ∧ Field f 17 (Denotes 3 (ρ ((10 : ℝ) ^ a.2.1))) ∧ Field f 18 (Denotes 3 (ρ ((10 : ℝ) ^ a.2.2))) ∧
  f[19]? = some p.source

/-- the ages of a plot -/
def HasAge (E : TableRow.Env) (p : PoissonPlot) (r : PoissonAge) (t a : ℝ × ℝ × ℝ) : Prop :=
  ageOf E.pf E.chron E.simpson p.count p.range false E.ref = .ok r ∧ r.t = [t.1, t.2.1, t.2.2] ∧ r.a0 = [a.1, a.2.1, a.2.2]

theorem lifted_ok {α : Type} {x : Except Err α} {y : α} (h : lift x = .ok y) : x = .ok y := by
  cases x with
  | error e => cases h
  | ok z => injection h with h; rw [h]

theorem triple_ok {l : List ℝ} {x : ℝ × ℝ × ℝ} (h : triple l = .ok x) : l = [x.1, x.2.1, x.2.2] := by
  unfold triple at h
  split at h
  · injection h with h
    subst h
    rfl
  · cases h

/-- what is known of the row of a Poisson age -/
structure RowOk (E : TableRow.Env) (p : PoissonPlot) (r : PoissonAge) (t a : ℝ × ℝ × ℝ) (d : Summary.Plot) : Prop where
  age : HasAge E p r t a
  data : d.data = false
  fit : d.fit = false
  type : d.type = "poisson".toList
  name : d.name = p.name
  source : d.source = p.source
  binning : d.binning = p.binning
  area : d.area = gStr 4 (E.ρ (areaOf p.count))
  resurf : d.resurf = intStr p.resurf
  n : d.n = countText E p.count r.n
  nEvent : d.nEvent = countText E p.count r.nEvent
  key : d.age = E.ρ t.1
  ageText : d.ageText = texts (fun x => gStr 2 (E.ρ x)) t
  a0Text : d.a0Text = texts (fun x => gStr 3 (E.ρ x)) a
  densityText : d.densityText = texts (fun x => sciStr 2 (E.ρ ((10 : ℝ) ^ x))) a
  low : d.range.1 = limitText E p.range.1
  high : d.range.2.1 = limitText E p.range.2
  rangeField : OneField d.range.2.2
  binRange : d.binRange = none
  base : p.name ≠ [] → d.sourceName = []
  formattedFields : OneField d.mathML.1 ∧ OneField d.mathML.2 ∧ OneField d.latex.1 ∧ OneField d.latex.2

theorem row_data {E : TableRow.Env} {x : Attrs Opened × (EReal × EReal)} (h : dictGet x.1 "type".toList = some (.str "data".toList)) :
    rowOf E x = .ok noRow := by
  have e : strAttr x.1 "type" = .ok "data".toList := by rw [strAttr, attr, h]; rfl
  rw [rowOf, e, ok_bind, if_neg (by decide +kernel)]

theorem row_poisson_eq {E : TableRow.Env} {x : Attrs Opened × (EReal × EReal)} {p : PoissonPlot} (h : IsPoisson x p) :
    rowOf E x = (poissonAges E p.count p.range false >>= fun a =>
      rowTexts E "poisson".toList p.name p.source p.binning p.resurf p.count p.range a) := by
  obtain ⟨h1, h2, h3, h4, h5, h6, h7⟩ := h
  have e1 : strAttr x.1 "type" = .ok "poisson".toList := by rw [strAttr, attr, h1]; rfl
  have e2 : strAttr x.1 "name" = .ok p.name := by rw [strAttr, attr, h2]; rfl
  have e3 : strAttr x.1 "source" = .ok p.source := by rw [strAttr, attr, h3]; rfl
  have e4 : strAttr x.1 "binning" = .ok p.binning := by rw [strAttr, attr, h4]; rfl
  have e5 : intAttr x.1 "resurf" = .ok p.resurf := by rw [intAttr, attr, h5]; rfl
  have e6 : countAttr x.1 = .ok p.count := by rw [countAttr, attr, h6]; rfl
  rw [rowOf, e1, ok_bind, if_pos (by decide +kernel), e6, ok_bind, e2, ok_bind, e3, ok_bind, e4, ok_bind, e5, ok_bind, h7, calculate, if_pos rfl]

theorem row_poisson {E : TableRow.Env} {x : Attrs Opened × (EReal × EReal)} {p : PoissonPlot} (h : IsPoisson x p) {d : Summary.Plot}
    (hd : rowOf E x = .ok d) : ∃ r t a, RowOk E p r t a d := by
  rw [row_poisson_eq h] at hd
  obtain ⟨a, ha, hd⟩ := except_bind_eq_ok hd
  unfold poissonAges at ha
  obtain ⟨r, hr, ha⟩ := except_bind_eq_ok ha
  obtain ⟨t, ht, ha⟩ := except_bind_eq_ok ha
  obtain ⟨a0, ha0, ha⟩ := except_bind_eq_ok ha
  injection ha with ha
  subst ha
  unfold rowTexts at hd
  obtain ⟨base, hb, hd⟩ := except_bind_eq_ok hd
  obtain ⟨rt, hrt, hd⟩ := except_bind_eq_ok hd
  rw [rangeTexts?, ok_bind] at hd
  obtain ⟨m, hm, hd⟩ := except_bind_eq_ok hd
  obtain ⟨l, hl, hd⟩ := except_bind_eq_ok hd
  injection hd with hd
  obtain ⟨g1, g2, g3⟩ := rangeTexts_text E hrt
  obtain ⟨m', em, k1, k2⟩ := formatted_text E ⟨t, a0, countText E p.count r.n, countText E p.count r.nEvent, none⟩ true
  obtain ⟨l', el, k3, k4⟩ := formatted_text E ⟨t, a0, countText E p.count r.n, countText E p.count r.nEvent, none⟩ false
  rw [em] at hm
  rw [el] at hl
  injection hm with hm
  injection hl with hl
  subst hm hl
  refine ⟨r, t, a0, ?_⟩
  subst hd
  exact ⟨⟨lifted_ok hr, triple_ok ht, triple_ok ha0⟩, rfl, by
    show (decide ("poisson".toList = "c-fit".toList) || decide ("poisson".toList = "d-fit".toList)) = false
    decide +kernel, rfl, rfl, rfl, rfl, rfl, rfl, rfl, rfl, rfl, rfl, rfl, rfl, g1, g2, g3, rfl,
    fun hne => by
      rw [baseName, if_neg hne] at hb
      injection hb with hb
      exact hb.symm, k1, k2, k3, k4⟩

theorem table_rows {E : TableRow.Env} {xs : List (Attrs Opened × (EReal × EReal))} {ps : List PoissonPlot} (h : AgesAmong xs ps)
    {rows : List Summary.Plot} (hr : xs.mapM (rowOf E) = .ok rows) :
    ∃ qs : List (PoissonAge × (ℝ × ℝ × ℝ) × (ℝ × ℝ × ℝ)), qs.length = ps.length ∧ (rows.filter (fun d => d.data = false)).length = ps.length ∧
      (rows.filter (fun d => d.data = false)).map Summary.Plot.age = qs.map (fun q => E.ρ q.2.1.1) ∧
      ∀ (i : ℕ) p, ps[i]? = some p → ∃ q d, qs[i]? = some q ∧ (rows.filter (fun d => d.data = false))[i]? = some d ∧ RowOk E p q.1 q.2.1 q.2.2 d := by
  induction h generalizing rows with
  | nil =>
    rw [List.mapM_nil] at hr
    injection hr with hr
    subst hr
    exact ⟨[], rfl, rfl, rfl, fun i p h => by simp at h⟩
  | data hx _ ih =>
    rw [List.mapM_cons, row_data hx, ok_bind] at hr
    obtain ⟨rows', hr', hr⟩ := except_bind_eq_ok hr
    injection hr with hr
    subst hr
    rw [List.filter_cons_of_neg (by simp [noRow])]
    exact ih hr'
  | poisson hx _ ih =>
    rw [List.mapM_cons] at hr
    obtain ⟨d, hd, hr⟩ := except_bind_eq_ok hr
    obtain ⟨rows', hr', hr⟩ := except_bind_eq_ok hr
    injection hr with hr
    subst hr
    obtain ⟨r, t, a, ok⟩ := row_poisson hx hd
    obtain ⟨qs, h1, h2, h3, h4⟩ := ih hr'
    rw [List.filter_cons_of_pos (by simp [ok.data])]
    refine ⟨(r, t, a) :: qs, by rw [List.length_cons, List.length_cons, h1], by rw [List.length_cons, List.length_cons, h2],
      by rw [List.map_cons, List.map_cons, h3, ok.key], ?_⟩
    intro i p hp
    cases i with
    | zero =>
      simp only [List.getElem?_cons_zero, Option.some.injEq] at hp
      subst hp
      exact ⟨_, d, rfl, rfl, ok⟩
    | succ i =>
      simp only [List.getElem?_cons_succ] at hp ⊢
      exact h4 i p hp

theorem label_field (E : TableRow.Env) : OneField (densityLabel E) :=
  oneField_append (oneField_append (by decide +kernel) (oneField_denotes (denotes_g 5 _))) (by decide +kernel)

theorem limit_shown (E : TableRow.Env) (x : EReal) : LimitShown E.ρ x (limitText E x) := by
  unfold limitText
  by_cases h1 : x = ⊤
  · exact .inl ⟨h1, if_pos h1⟩
  · rw [if_neg h1]
    by_cases h2 : x = ⊥
    · exact .inr (.inl ⟨h2, if_pos h2⟩)
    · rw [if_neg h2]
      exact .inr (.inr ⟨x.toReal, (EReal.coe_toReal h1 h2).symm, denotes_g 1 _⟩)

theorem row_plain {E : TableRow.Env} {p : PoissonPlot} {r t a d} (h : RowOk E p r t a d) (hf : Nameable p)
    (hn : OneField (countText E p.count r.n)) (hn' : OneField (countText E p.count r.nEvent)) : plainRow d := by
  obtain ⟨f0, f1, f2, f3⟩ := hf
  unfold plainRow
  simp only [List.forall_mem_cons]
  rw [h.name, h.base f0, h.area, h.binning, h.type, h.resurf, h.n, h.nEvent, h.ageText, h.a0Text, h.densityText, h.source, h.low, h.high, h.binRange]
  have e : OneField [] := by decide
  have g : ∀ P v, OneField (gStr P v) := fun P v => oneField_denotes (denotes_g P v)
  have s : ∀ P v, OneField (sciStr P v) := fun P v => oneField_denotes (denotes_sci P v)
  exact ⟨f1, e, g _ _, f3, by decide +kernel, oneField_int (intVal_intStr _), hn, hn', g _ _, g _ _, g _ _, g _ _, g _ _, g _ _, s _ _, s _ _, s _ _, f2,
    limit_text E _, limit_text E _, h.rangeField, e, e, e, h.formattedFields.1, h.formattedFields.2.1, h.formattedFields.2.2.1, h.formattedFields.2.2.2,
    by simp⟩

/-- Specification: a count of craters with at least one crater -/
def Counted (o : Opened) : Prop := ∃ c, o = .craters c ∧ c.craters ≠ []

/-- Specification: the area of a count of craters -/
def areaFrom : Opened → ℝ
  | .craters c => c.area
  | .table a _ => a

theorem count_natural {E : TableRow.Env} {p : PoissonPlot} {r : PoissonAge} (hc : Counted p.count)
    (h : ageOf E.pf E.chron E.simpson p.count p.range false E.ref = .ok r) : ∃ n : ℕ, r.n = n ∧ r.nEvent = n ∧
      countText E p.count r.n = natStr n ∧ countText E p.count r.nEvent = natStr n := by
  obtain ⟨c, e, hne⟩ := hc
  unfold ageOf Verif.Age.poissonAge at h
  obtain ⟨pdf, e1, h⟩ := except_bind_eq_ok h
  dsimp only at h
  obtain ⟨a0, _, h⟩ := except_bind_eq_ok h
  obtain ⟨nd, _, h⟩ := except_bind_eq_ok h
  injection h with h
  subst h
  obtain ⟨_, _, _, _, _, b⟩ := built e1
  have hk : ∃ n : ℕ, pdf.k = n := by
    rw [b.k_eq, e, source, countK]
    cases hcs : c.craters with
    | nil => exact absurd hcs hne
    | cons x l => exact ⟨_, rfl⟩
  obtain ⟨n, hn⟩ := hk
  refine ⟨n, hn, hn, ?_, ?_⟩
  · show countText E p.count pdf.k = _
    rw [e, countText, hn, Nat.floor_natCast]
  · show countText E p.count pdf.k = _
    rw [e, countText, hn, Nat.floor_natCast]

/-- **C146, rows.** Among plots of data and Poisson ages of crater counts, named without commas and line breaks, the table - if no age calculation
fails - has one row for each Poisson age, in the order of the plots, with the name and source of the plot, the area of its count, the diameter range
requested for it, the number of craters, the age with its limits and the densities calculated for it, and as rank the number of older ages. -/
theorem C146_rows_partial (E : TableRow.Env) (xs : List (Attrs Opened × (EReal × EReal))) (ps : List PoissonPlot) (h : AgesAmong xs ps)
    (hf : ∀ p ∈ ps, Nameable p ∧ Counted p.count) (out : Option (List Char)) (ht : table E xs = .ok out) :
    (ps = [] → out = none) ∧ (ps ≠ [] → ∃ st, out = some st ∧ (split '\n' st).length = 3 + ps.length ∧
      ∃ qs : List (PoissonAge × (ℝ × ℝ × ℝ) × (ℝ × ℝ × ℝ)), qs.length = ps.length ∧ ∀ (i : ℕ) p, ps[i]? = some p →
        ∃ r t a n row, qs[i]? = some (r, t, a) ∧ HasAge E p r t a ∧ r.n = (n : ℕ) ∧ (split '\n' st)[3 + i]? = some row ∧
          RowShows E.ρ p (areaFrom p.count) n t a (rankOf (qs.map (fun q => E.ρ q.2.1.1)) i) (split ',' row)) := by
  unfold table at ht
  obtain ⟨rows, hr, ht⟩ := except_bind_eq_ok ht
  obtain ⟨qs, q1, q2, q3, q4⟩ := table_rows h hr
  obtain ⟨ages, hages⟩ : ∃ ages, ages = rows.filter (fun d => d.data = false) := ⟨_, rfl⟩
  rw [← hages] at q2 q3 q4
  obtain ⟨g0, g1⟩ := C48_table_partial (densityLabel E) (label_field E) rows ages hages
  constructor
  · rintro rfl
    rw [g0 (List.eq_nil_of_length_eq_zero q2)] at ht
    injection ht with ht
    exact ht.symm
  · intro hne
    have hlen : ages ≠ [] := by
      intro e
      rw [e] at q2
      exact hne (List.eq_nil_of_length_eq_zero q2.symm)
    have hall : ∀ d ∈ ages, ∃ p, ∃ q : PoissonAge × (ℝ × ℝ × ℝ) × (ℝ × ℝ × ℝ), p ∈ ps ∧ RowOk E p q.1 q.2.1 q.2.2 d := by
      intro d hd
      obtain ⟨i, hi, e⟩ := List.getElem_of_mem hd
      obtain ⟨q, d', _, hd', ok⟩ := q4 i ps[i] (List.getElem?_eq_getElem (by omega))
      have : d' = d := by
        rw [List.getElem?_eq_getElem hi, e] at hd'
        injection hd' with hd'
        exact hd'.symm
      exact ⟨_, q, List.getElem_mem _, this ▸ ok⟩
    have hlr : ∀ last ∈ ages, ∀ d, listedRange last d = some d.range := by
      intro last hl d
      obtain ⟨p, q, _, ok⟩ := hall last hl
      rw [listedRange, ok.fit]
      rfl
    have hpl : ∀ d ∈ ages, plainRow d := by
      intro d hd
      obtain ⟨p, q, hp, ok⟩ := hall d hd
      obtain ⟨n, _, _, k1, k2⟩ := count_natural (hf p hp).2 ok.age.1
      exact row_plain ok (hf p hp).1 (by rw [k1]; exact oneField_plain (plain_nat n)) (by rw [k2]; exact oneField_plain (plain_nat n))
    have hlast := List.getLast?_eq_some_getLast hlen
    obtain ⟨_, g1⟩ := g1 _ hlast
    obtain ⟨st, e1, e2, _, e4⟩ := g1 (fun d _ => by rw [hlr _ (List.getLast_mem hlen)]; rfl) hpl
    rw [e1] at ht
    injection ht with ht
    refine ⟨st, ht.symm, by rw [e2, q2], qs, q1, ?_⟩
    intro i p hp
    obtain ⟨⟨r, t, a⟩, d, hq, hd, ok⟩ := q4 i p hp
    dsimp only at ok
    have hpm : p ∈ ps := List.mem_of_getElem? hp
    have hi : i < ps.length := (List.getElem?_eq_some_iff.1 hp).1
    obtain ⟨row, hrow⟩ : ∃ row, (split '\n' st)[3 + i]? = some row := ⟨_, List.getElem?_eq_getElem (by omega)⟩
    obtain ⟨n, n1, _, k1, k2⟩ := count_natural (hf p hpm).2 ok.age.1
    refine ⟨r, t, a, n, row, hq, ok.age, n1, hrow, ?_⟩
    obtain ⟨rg, hrg, hs⟩ := e4 i d row hd hrow
    rw [hlr _ (List.getLast_mem hlen)] at hrg
    injection hrg with hrg
    rw [hs, ← hrg, q3, rowFields, if_neg (by rw [ok.name]; exact (hf p hpm).1.1), ok.name, ok.area, ok.binning, ok.type, ok.resurf, ok.n, ok.nEvent,
      ok.ageText, ok.a0Text, ok.densityText, ok.source, ok.low, ok.high, k1, k2]
    have harea : areaOf p.count = areaFrom p.count := by cases p.count <;> rfl
    rw [harea]
    exact ⟨rfl, rfl, ⟨_, rfl, denotes_g 4 _⟩, rfl, ⟨_, rfl, limit_shown E _⟩, ⟨_, rfl, limit_shown E _⟩, rfl, ⟨_, rfl, intVal_intStr _⟩,
      ⟨_, rfl, decVal_natStr n⟩, ⟨_, rfl, decVal_natStr n⟩, ⟨_, rfl, decVal_natStr _⟩, ⟨_, rfl, denotes_g 2 _⟩, ⟨_, rfl, denotes_g 2 _⟩, ⟨_, rfl, denotes_g 2 _⟩,
      ⟨_, rfl, denotes_g 3 _⟩, ⟨_, rfl, denotes_g 3 _⟩, ⟨_, rfl, denotes_g 3 _⟩, ⟨_, rfl, denotes_sci 2 _⟩, ⟨_, rfl, denotes_sci 2 _⟩,
      ⟨_, rfl, denotes_sci 2 _⟩, rfl⟩

theorem age_triples {E : TableRow.Env} {p : PoissonPlot} {r : PoissonAge} (h : ageOf E.pf E.chron E.simpson p.count p.range false E.ref = .ok r) :
    ∃ t a, HasAge E p r t a := by
  have h' := h
  unfold ageOf Verif.Age.poissonAge at h'
  obtain ⟨pdf, e1, h'⟩ := except_bind_eq_ok h'
  dsimp only at h'
  obtain ⟨a0, ha, h'⟩ := except_bind_eq_ok h'
  obtain ⟨nd, _, h'⟩ := except_bind_eq_ok h'
  injection h' with h'
  have ht : ∃ x y z, pdf.median1sigma = [x, y, z] := ⟨_, _, _, rfl⟩
  obtain ⟨x, y, z, ht⟩ := ht
  have hl := (mapM_get ha).1
  rw [ht] at hl
  obtain ⟨a, b, c, hl⟩ := List.length_eq_three.1 hl
  refine ⟨(x, y, z), (a, b, c), h, ?_, ?_⟩
  · rw [← h']; exact ht
  · rw [← h']; exact hl

/-- **C146, written.** The table is made whenever the ages can be calculated and every diameter range is either without upper limit or a pair of numbers. -/
theorem C146_written (E : TableRow.Env) (xs : List (Attrs Opened × (EReal × EReal))) (ps : List PoissonPlot) (h : AgesAmong xs ps)
    (hf : ∀ p ∈ ps, Nameable p ∧ Counted p.count) (hr : ∀ p ∈ ps, p.range.2 = ⊤ ∨ ∃ lo hi : ℝ, p.range = ((lo : EReal), (hi : EReal)))
    (ha : ∀ p ∈ ps, ∃ r, ageOf E.pf E.chron E.simpson p.count p.range false E.ref = .ok r) : ∃ out, table E xs = .ok out := by
  have key : ∃ rows, xs.mapM (rowOf E) = .ok rows := by
    induction h with
    | nil => exact ⟨[], rfl⟩
    | data hx _ ih =>
      obtain ⟨rows, e⟩ := ih hf hr ha
      exact ⟨_, by rw [List.mapM_cons, row_data hx, ok_bind, e]; rfl⟩
    | @poisson x p xs ps hx _ ih =>
      obtain ⟨rows, e⟩ := ih (fun p hp => hf p (List.mem_cons_of_mem _ hp)) (fun p hp => hr p (List.mem_cons_of_mem _ hp))
        (fun p hp => ha p (List.mem_cons_of_mem _ hp))
      obtain ⟨r, hage⟩ := ha p (by simp)
      obtain ⟨t, a, _, g1, g2⟩ := age_triples hage
      have e1 : poissonAges E p.count p.range false = .ok ⟨t, a, countText E p.count r.n, countText E p.count r.nEvent, none⟩ := by
        rw [poissonAges, hage, lift, ok_bind, g1, triple, ok_bind, g2, triple, ok_bind]
      have e2 : ∃ rt, rangeTexts E p.range = .ok rt := by
        have : ∃ s, rangeLabel E p.range = .ok s := by
          unfold rangeLabel
          rcases hr p (by simp) with hu | ⟨lo, hi, hu⟩
          · rw [if_pos (.inl hu)]
            obtain ⟨s, hs, _⟩ := range_text E.classes 0 none
            exact ⟨s, hs⟩
          · rw [hu, if_neg (by simp), if_neg (by simp)]
            obtain ⟨s, hs, _⟩ := range_text E.classes (E.ρ (lo : EReal).toReal) (some (E.ρ (hi : EReal).toReal))
            exact ⟨s, hs⟩
        obtain ⟨s, hs⟩ := this
        exact ⟨_, by rw [rangeTexts, hs, ok_bind]⟩
      obtain ⟨rt, e2⟩ := e2
      obtain ⟨m, e3, _⟩ := formatted_text E ⟨t, a, countText E p.count r.n, countText E p.count r.nEvent, none⟩ true
      obtain ⟨l, e4, _⟩ := formatted_text E ⟨t, a, countText E p.count r.n, countText E p.count r.nEvent, none⟩ false
      have e5 : ∃ d, rowOf E x = .ok d := by
        rw [row_poisson_eq hx, e1, ok_bind, rowTexts, baseName, if_neg (hf p (by simp)).1.1, ok_bind, e2, ok_bind, rangeTexts?, ok_bind, e3, ok_bind,
          e4, ok_bind]
        exact ⟨_, rfl⟩
      obtain ⟨d, e5⟩ := e5
      exact ⟨_, by rw [List.mapM_cons, e5, ok_bind, e]; rfl⟩
  obtain ⟨rows, hrows⟩ := key
  obtain ⟨qs, q1, q2, q3, q4⟩ := table_rows h hrows
  obtain ⟨ages, hages⟩ : ∃ ages, ages = rows.filter (fun d => d.data = false) := ⟨_, rfl⟩
  rw [← hages] at q2 q4
  obtain ⟨g0, g1⟩ := C48_table_partial (densityLabel E) (label_field E) rows ages hages
  rw [table, hrows, ok_bind]
  have hall : ∀ d ∈ ages, ∃ p, ∃ q : PoissonAge × (ℝ × ℝ × ℝ) × (ℝ × ℝ × ℝ), p ∈ ps ∧ RowOk E p q.1 q.2.1 q.2.2 d := by
    intro d hd
    obtain ⟨i, hi, e⟩ := List.getElem_of_mem hd
    obtain ⟨q, d', _, hd', ok⟩ := q4 i ps[i] (List.getElem?_eq_getElem (by omega))
    have : d' = d := by
      rw [List.getElem?_eq_getElem hi, e] at hd'
      injection hd' with hd'
      exact hd'.symm
    exact ⟨_, q, List.getElem_mem _, this ▸ ok⟩
  by_cases he : ages = []
  · exact ⟨_, g0 he⟩
  · obtain ⟨_, g1⟩ := g1 _ (List.getLast?_eq_some_getLast he)
    obtain ⟨p, q, _, ok⟩ := hall _ (List.getLast_mem he)
    obtain ⟨st, e, _⟩ := g1 (fun d _ => by rw [listedRange, ok.fit]; rfl) (by
      intro d hd
      obtain ⟨p, q, hp, ok⟩ := hall d hd
      obtain ⟨n, _, _, k1, k2⟩ := count_natural (hf p hp).2 ok.age.1
      exact row_plain ok (hf p hp).1 (by rw [k1]; exact oneField_plain (plain_nat n)) (by rw [k2]; exact oneField_plain (plain_nat n)))
    exact ⟨_, e⟩

/-- **C146, files.** In the row of a plot whose count was opened from a .diam file the area is that written in the file, the number of craters is that
of the listed craters within the diameter range and the range of the production function, and the age and its limits are the median and the quantiles of one
standard deviation of the likelihood of that number, the expected number being the density between those limits on the isochron times the area. -/
theorem C146_file_partial (E : TableRow.Env) (hpf : Constructed E.pf) (p0 p1 p3 : ℝ) (hc : GoodChron E.chron p0 p1 p3) (N1 : ℝ)
    (hN : E.chron.N1 1 = .ok N1) (h1 : N1 ≠ 1) (xs : List (Attrs Opened × (EReal × EReal))) (ps : List PoissonPlot) (h : AgesAmong xs ps)
    (hf : ∀ p ∈ ps, Nameable p ∧ Counted p.count) (out : Option (List Char)) (ht : table E xs = .ok out)
    (i : ℕ) (p : PoissonPlot) (hp : ps[i]? = some p) (shp : Except Exc Reading.Count) (file : List Char) (diam frac : List ℚ) (a : ℚ)
    (hl : ListsCraters E.classes file diam frac a) (ho : openCount E.classes shp ".diam".toList file = .ok p.count) :
    ∃ st row pdf lo hi, out = some st ∧ (split '\n' st)[3 + i]? = some row ∧
      lo = clipE p.range.1 E.pf.range.1 E.pf.range.2 ∧ hi = clipE p.range.2 E.pf.range.1 E.pf.range.2 ∧
      Field (split ',' row) 1 (Denotes 5 (E.ρ (a : ℝ))) ∧
      Field (split ',' row) 7 (fun s => decVal s = some (diam.countP (fun d : ℚ => decide (lo ≤ (d : ℝ) ∧ (d : ℝ) < hi)) : ℚ)) ∧
      Field (split ',' row) 10 (Denotes 3 (E.ρ (Pdf.t pdf 0.5))) ∧
      Field (split ',' row) 11 (Denotes 3 (E.ρ (Pdf.t pdf ((1 - erf (1 / Real.sqrt 2)) / 2)))) ∧
      Field (split ',' row) 12 (Denotes 3 (E.ρ (Pdf.t pdf ((1 + erf (1 / Real.sqrt 2)) / 2)))) ∧
      pdf.k = (diam.countP (fun d : ℚ => decide (lo ≤ (d : ℝ) ∧ (d : ℝ) < hi)) : ℝ) ∧
      ∀ j < 5000, ∃ Nlo Nhi, E.pf.C lo (log10 (sampleDensity N1 5000 j)) = .ok Nlo ∧ E.pf.C hi (log10 (sampleDensity N1 5000 j)) = .ok Nhi ∧
        pdf.lam[j]? = some ((Nlo - Nhi) * (a : ℝ)) := by
  have hne : ps ≠ [] := by rintro rfl; simp at hp
  obtain ⟨st, e0, _, qs, _, hq⟩ := (C146_rows_partial E xs ps h hf out ht).2 hne
  obtain ⟨r, t, b, n, row, _, ⟨hage, ht3, _⟩, hn, hrow, hs⟩ := hq i p hp
  obtain ⟨o, ho', hage'⟩ := C144_age_partial E.classes shp file diam frac a hl E.pf hpf E.chron E.simpson p.range E.ref p0 p1 p3 hc N1 hN h1
  rw [ho] at ho'
  injection ho' with ho'
  subst ho'
  obtain ⟨lo, hi, hlo, hhi, hcount, hlam⟩ := hage' r hage
  have harea : areaFrom p.count = (a : ℝ) := by
    obtain ⟨c, ho2, _, hca, _⟩ := open_lists shp hl
    rw [ho] at ho2
    injection ho2 with ho2
    rw [ho2]
    exact hca
  have hk : r.pdf.k = r.n ∧ r.t = r.pdf.median1sigma ∧ ∃ cc lo hi, Craterpdf.init E.pf E.chron E.simpson cc lo hi none none false 5000 = .ok r.pdf := by
    unfold ageOf Verif.Age.poissonAge at hage
    obtain ⟨pdf, e1, hg⟩ := except_bind_eq_ok hage
    dsimp only at hg
    obtain ⟨a0, _, hg⟩ := except_bind_eq_ok hg
    obtain ⟨nd, _, hg⟩ := except_bind_eq_ok hg
    injection hg with hg
    subst hg
    exact ⟨rfl, rfl, _, _, _, e1⟩
  obtain ⟨hk, htm, cc, lo', hi', hinit⟩ := hk
  obtain ⟨med, low, up, e, m1, m2, m3, _⟩ := C24_reported_age E.pf E.chron E.simpson cc lo' hi' none false 5000 p0 p1 p3 hc r.pdf hinit
  rw [htm, e] at ht3
  obtain ⟨e1, e2, e3⟩ : med = t.1 ∧ low = t.2.1 ∧ up = t.2.2 := by simpa using ht3
  obtain ⟨_, _, s1, _, _, _, _, _, s7, _, _, s10, s11, s12, _⟩ := hs
  have hnn : n = diam.countP (fun d : ℚ => decide (lo ≤ (d : ℝ) ∧ (d : ℝ) < hi)) := by
    rw [hn] at hcount
    exact_mod_cast hcount
  refine ⟨st, row, r.pdf, lo, hi, e0, hrow, hlo, hhi, by rw [← harea]; exact s1, by rw [← hnn]; exact s7, by rw [← m1, e1]; exact s10,
    by rw [← m2, e2]; exact s11, by rw [← m3, e3]; exact s12, by rw [hk, hcount], ?_⟩
  intro j hj
  obtain ⟨Nlo, Nhi, t', g1, g2, g3, _⟩ := hlam j hj
  exact ⟨Nlo, Nhi, g1, g2, g3⟩

theorem integer_unique {v : Val Opened} {y z : ℤ} (hy : IntegerOf v y) (hz : IntegerOf v z) : y = z := by
  cases hy with
  | num => cases hz; rfl
  | text s _ h => cases hz with | text _ _ h' => exact Option.some.inj (h.symm.trans h')
  | up q _ h h0 h1 =>
    cases hz with
    | up _ _ _ h0' h1' =>
      have a : (y : ℚ) < (z : ℚ) + 1 := lt_of_le_of_lt h0 h1'
      have b : (z : ℚ) < (y : ℚ) + 1 := lt_of_le_of_lt h0' h1
      have a : y < z + 1 := by exact_mod_cast a
      have b : z < y + 1 := by exact_mod_cast b
      omega
    | down _ _ h' => exact absurd h (not_le.2 h')
  | down q _ h h0 h1 =>
    cases hz with
    | up _ _ h' => exact absurd h' (not_le.2 h)
    | down _ _ _ h0' h1' =>
      have a : (y : ℚ) - 1 < z := lt_of_lt_of_le h1 h0'
      have b : (z : ℚ) - 1 < y := lt_of_lt_of_le h1' h0
      have a : y - 1 < z := by exact_mod_cast a
      have b : z - 1 < y := by exact_mod_cast b
      omega

/-- **C146, plots as given.** A plot created with these settings as the last given of their kind, of type poisson and without a count, is one of the plots of the
theorems above: its count is that opened from its source, its range the one decoded for this count. -/
theorem C146_created (P : PlotObject.Env Opened (EReal × EReal)) (args : List (Attrs Opened)) (kwargs o : Attrs Opened) (r : EReal × EReal)
    (ha : ∀ d ∈ args, IsDict d) (hk : IsDict kwargs) (h : create P args kwargs = .ok (o, r)) (n s b : List Char) (v : Val Opened) (z : ℤ)
    (htype : GivenLast (plotStart :: args ++ [kwargs]) "type".toList (.str "poisson".toList))
    (hcount : GivenLast (plotStart :: args ++ [kwargs]) "cratercount".toList .none)
    (hname : GivenLast (plotStart :: args ++ [kwargs]) "name".toList (.str n)) (hn : n ≠ [])
    (hsource : GivenLast (plotStart :: args ++ [kwargs]) "source".toList (.str s)) (hs : s ≠ [])
    (hbin : GivenLast (plotStart :: args ++ [kwargs]) "binning".toList (.str b))
    (hres : GivenLast (plotStart :: args ++ [kwargs]) "resurf".toList v) (hz : IntegerOf v z) :
    ∃ c, P.open_ s = .ok c ∧ IsPoisson (o, r) ⟨n, s, b, z, c, r⟩ := by
  have hd := dicts_ok ha hk
  obtain ⟨s', c, hs', _, hopen, hc⟩ := (C115_count P args kwargs o r ha hk h _ hcount).2 rfl
  have es : s' = s := by
    have h1 := ((merged_get _ hd _ _).2 hs').symm.trans ((merged_get _ hd _ _).2 hsource)
    injection h1 with h1
    injection h1
  subst es
  have p1 := special_plain "type".toList (by decide +kernel)
  have p2 := special_plain "binning".toList (by decide +kernel)
  have e1 := (C115_settings P args kwargs o r ha hk h _ _ htype).2.2 p1.1 p1.2 (by decide +kernel)
  have e2 := (C115_settings P args kwargs o r ha hk h _ _ hbin).2.2 p2.1 p2.2 (by decide +kernel)
  obtain ⟨z', hz', e3⟩ := (C115_settings P args kwargs o r ha hk h _ _ hres).1 (by decide +kernel)
  have ez : z' = z := integer_unique hz' hz
  subst ez
  have e4 := (C115_source P args kwargs o r ha hk h _ hsource).1 hs
  have e5 := (C115_name P args kwargs o r ha hk h _ hname _ hsource hs).1 hn
  exact ⟨c, hopen, e1, e5, e4, e2, e3, hc, rfl⟩

/-- the attributes of a plot of a Poisson age -/
def samplePlot (o : Opened) : Attrs Opened × (EReal × EReal) :=
  ([("cratercount".toList, .count o), ("source".toList, .str "mare.diam".toList), ("name".toList, .str "Mare".toList),
    ("type".toList, .str "poisson".toList), ("binning".toList, .str "pseudo-log".toList), ("resurf".toList, .num 0)], (0, ⊤))

/-- the attributes of a plot of data -/
def sampleDataPlot (o : Opened) : Attrs Opened × (EReal × EReal) := ([("cratercount".toList, .count o), ("type".toList, .str "data".toList)], (0, ⊤))

theorem sample_among (o : Opened) : AgesAmong [sampleDataPlot o, samplePlot o]
    [⟨"Mare".toList, "mare.diam".toList, "pseudo-log".toList, 0, o, (0, ⊤)⟩] :=
  .data rfl (.poisson ⟨rfl, rfl, rfl, rfl, rfl, rfl, rfl⟩ .nil)

/-- a file of four craters, for which an age is calculated with a production function given between 1 and 2.5 km -/
theorem sample_file (C : Classes) (shp : Except Exc Reading.Count) (simpson : Simpson) : ∃ file c o r, GoodChron c 0 0 2 ∧ c.N1 1 = .ok 2 ∧
    ListsCraters C file [1, 3, 3 / 2, 2] [1, 1, 1 / 2, 1] 10 ∧ openCount C shp ".diam".toList file = .ok o ∧ Counted o ∧
    ageOf (initPoly [0, -1] (some (1, 2.5))) c simpson o (0, ⊤) false 1 = .ok r := by
  have hl : ListsCraters C (writeTextfile ['\n'] false (sampleLines "10".toList "fraction".toList [(1, 1), (3, 1), (3 / 2, 1 / 2), (2, 1)]))
      [1, 3, 3 / 2, 2] [1, 1, 1 / 2, 1] 10 :=
    ⟨_, _, "10".toList, sample_text C "10".toList "fraction".toList ⟨by decide, by decide +kernel⟩ ⟨by decide, by decide +kernel⟩ (by decide +kernel) _,
    ⟨_, rfl, .cons (by decide +kernel) (.cons (by decide +kernel) (.cons (by decide +kernel) (.cons (by decide +kernel) .nil)))⟩, by simp, rfl,
    .inl ⟨⟨_, rfl, .cons (by decide +kernel) (.cons (by decide +kernel) (.cons (by decide +kernel) (.cons (by decide +kernel) .nil)))⟩, rfl⟩, rfl,
    by decide +kernel⟩
  obtain ⟨k, ho, hp, ha, hper, _⟩ := open_lists shp hl
  obtain ⟨c, hg, hN, h⟩ := age_example simpson (some (1, 2.5))
  obtain ⟨p, hp'⟩ := h 1 2.5 (by norm_num) (by norm_num) (by norm_num) (by norm_num)
  have e1 : clipE 0 1 2.5 = 1 := by
    unfold clipE
    rw [max_eq_right (by exact_mod_cast (zero_le_one : (0 : ℝ) ≤ 1)), min_eq_right (by exact_mod_cast (by norm_num : (1 : ℝ) ≤ 2.5))]
    exact EReal.toReal_coe _
  have e2 : clipE ⊤ 1 2.5 = 2.5 := by
    unfold clipE
    rw [max_eq_left le_top, min_eq_left le_top]
    exact EReal.toReal_coe _
  obtain ⟨r, hr, _⟩ := C82_defined (initPoly [0, -1] (some (1, 2.5))) c simpson ⟨some [1, 1.5, 2, 3], [], 10, none⟩ (0, ⊤) false 1
    0 0 2 hg one_pos ⟨0, rfl⟩ p (by
      have : (initPoly [0, -1] (some (1, 2.5))).range = (1, 2.5) := rfl
      rw [this, e1, e2]
      exact hp')
  refine ⟨_, c, _, r, hg, hN, hl, ho, ⟨k, rfl, ?_⟩, ?_⟩
  · intro hk
    rw [hk] at hp
    have := hp.length_eq
    simp at this
  · rw [← hr, ageOf, source, ha, hper]
    have e := hp.map Prod.fst
    rw [zip_firsts (diam := [1, 3, 3 / 2, 2]) (w := [1, 1, 1 / 2, 1]) (fun q => (q : ℝ)) rfl] at e
    have e3 : (reals [1, 3, 3 / 2, 2]).Perm [1, 1.5, 2, 3] := by
      have : reals [1, 3, 3 / 2, 2] = [1, 3, 1.5, 2] := by norm_num [reals]
      rw [this]
      exact .cons _ ((List.Perm.swap _ _ _).trans (.cons _ (List.Perm.swap _ _ _)))
    have := age_perm (e.trans e3) 10 none (initPoly [0, -1] (some (1, 2.5))) c simpson (0, ⊤) false 1
    norm_num at this ⊢
    exact this

theorem sample_fits (o : Opened) (ho : Counted o) : ∀ p ∈ [(⟨"Mare".toList, "mare.diam".toList, "pseudo-log".toList, 0, o, (0, ⊤)⟩ : PoissonPlot)],
    Nameable p ∧ Counted p.count := by
  intro p hp
  rw [List.mem_singleton] at hp
  subst hp
  have h : "Mare".toList ≠ [] ∧ OneField "Mare".toList ∧ OneField "mare.diam".toList ∧ OneField "pseudo-log".toList := by decide +kernel
  exact ⟨h, ho⟩

/-- settings of a plot of a Poisson age, as from the command line -/
def sampleGiven : Attrs Opened := [("source".toList, .str "mare.diam".toList), ("name".toList, .str "Mare".toList),
  ("type".toList, .str "poisson".toList), ("resurf".toList, .str "0".toList)]

/-- the plot of these settings is created, whatever is in its file, and its hypotheses in the theorem above are met -/
example (C : Classes) (k : Opened) : ∃ o r, create ⟨C, fun _ => .ok k, fun _ => [], fun _ _ _ _ => .ok (0, ⊤)⟩ [sampleGiven] [] = .ok (o, r) ∧
    ∃ c, IsPoisson (o, r) ⟨"Mare".toList, "mare.diam".toList, "pseudo-log".toList, 0, c, r⟩ := by
  have hd : ∀ d ∈ [sampleGiven], IsDict d := by
    intro d hd
    rw [List.mem_singleton] at hd
    subst hd
    show (["source", "name", "type", "resurf"].map String.toList).Nodup
    decide +kernel
  have hk : IsDict ([] : Attrs Opened) := List.nodup_nil
  have first : ∀ k v, (k, v) ∈ sampleGiven → GivenLast (plotStart :: [sampleGiven] ++ [[]]) k v := fun k v h =>
    ⟨[plotStart], sampleGiven, [[]], rfl, h, by simp⟩
  have rest : ∀ k v, (k, v) ∈ plotStart → k ∉ ["source", "name", "type", "resurf"].map String.toList →
      GivenLast (plotStart :: [sampleGiven] ++ [[]]) k v := fun k v h hk =>
    ⟨[], plotStart, [sampleGiven, []], rfl, h, by
      intro e he
      rcases List.mem_cons.1 he with rfl | he
      · exact hk
      · rw [List.mem_singleton] at he; subst he; simp⟩
  have only : ∀ k v, GivenLast (plotStart :: [sampleGiven] ++ [[]]) k v → (k, v) ∈ sampleGiven ∨ (k, v) ∈ (plotStart : Attrs Opened) := by
    rintro k v ⟨pre, d, post, h, hm, _⟩
    have : d ∈ plotStart :: [sampleGiven] ++ [[]] := by rw [h]; simp
    simp only [List.cons_append, List.nil_append, List.mem_cons, List.not_mem_nil, or_false] at this
    rcases this with rfl | rfl | rfl
    · exact .inr hm
    · exact .inl hm
    · cases hm
  have h1 : GivenLast (plotStart :: [sampleGiven] ++ [[]]) "type".toList (.str "poisson".toList) := first _ _ (by simp [sampleGiven])
  have h2 : GivenLast (plotStart :: [sampleGiven] ++ [[]]) "source".toList (.str "mare.diam".toList) := first _ _ (by simp [sampleGiven])
  have h3 : GivenLast (plotStart :: [sampleGiven] ++ [[]]) "name".toList (.str "Mare".toList) := first _ _ (by simp [sampleGiven])
  have h4 : GivenLast (plotStart :: [sampleGiven] ++ [[]]) "resurf".toList (.str "0".toList) := first _ _ (by simp [sampleGiven])
  have h5 : GivenLast (plotStart :: [sampleGiven] ++ [[]]) "cratercount".toList (.none : Val Opened) :=
    rest _ _ (List.mem_cons_self) (by decide +kernel)
  have h6 : GivenLast (plotStart :: [sampleGiven] ++ [[]]) "binning".toList (.str "pseudo-log".toList) :=
    rest _ _ (by unfold plotStart; simp only [List.mem_cons, true_or, or_true]) (by decide +kernel)
  have f1 : ∀ k ∈ switches.map String.toList, ∀ v, GivenLast (plotStart :: [sampleGiven] ++ [[]]) k v → ∃ z, IntegerOf v z := by
    have all : ∀ x ∈ sampleGiven ++ plotStart, x.1 ∈ switches.map String.toList → ∃ z, IntegerOf x.2 z := by
      rw [sampleGiven, plotStart]
      simp only [List.cons_append, List.nil_append, List.forall_mem_cons]
      refine ⟨?_, ?_, ?_, ?_, ?_, ?_, ?_, ?_, ?_, ?_, ?_, ?_, ?_, ?_, ?_, ?_, ?_, ?_, ?_, ?_, ?_, fun x hx => by cases hx⟩ <;>
        first
          | exact fun _ => ⟨_, .num _⟩
          | exact fun _ => ⟨0, .text _ _ (by decide +kernel)⟩
          | exact fun h => absurd h (by decide +kernel)
    intro j hj v hv
    rcases only j v hv with hv | hv
    · exact all (j, v) (List.mem_append_left _ hv) hj
    · exact all (j, v) (List.mem_append_right _ hv) hj
  have f2 : ∀ k v, k <:+: "offset_age".toList → GivenLast (plotStart :: [sampleGiven] ++ [[]]) k v → ∃ l, NumbersOf v l := by
    have all : ∀ x ∈ sampleGiven ++ plotStart, x.1 <:+: "offset_age".toList → ∃ l, NumbersOf x.2 l := by
      rw [sampleGiven, plotStart]
      simp only [List.cons_append, List.nil_append, List.forall_mem_cons]
      refine ⟨?_, ?_, ?_, ?_, ?_, ?_, ?_, ?_, ?_, ?_, ?_, ?_, ?_, ?_, ?_, ?_, ?_, ?_, ?_, ?_, ?_, fun x hx => by cases hx⟩ <;>
        first
          | exact fun _ => ⟨_, .reals _⟩
          | exact fun h => absurd h (by decide +kernel)
    intro j v hj hv
    rcases only j v hv with hv | hv
    · exact all (j, v) (List.mem_append_left _ hv) hj
    · exact all (j, v) (List.mem_append_right _ hv) hj
  obtain ⟨o, r, h⟩ := C115_created (R := EReal × EReal) ⟨C, fun _ => .ok k, fun _ => [], fun _ _ _ _ => .ok (0, ⊤)⟩ [sampleGiven] [] hd hk f1 f2 h5
    "mare.diam".toList "Mare".toList k h2 (by decide) rfl h3 (.inl (by decide)) (fun _ _ _ _ _ _ _ _ => ⟨_, rfl⟩)
  obtain ⟨c, _, hc⟩ := C146_created _ [sampleGiven] [] o r hd hk h _ _ _ _ 0 h1 h5 h3 (by decide) h2 (by decide) h6 h4 (.text _ _ (by decide +kernel))
  exact ⟨o, r, h, c, hc⟩

/-- a table of a plot of data and one of an age of a file: the hypotheses of the theorems are met -/
example (E : TableRow.Env) (shp : Except Exc Reading.Count) : ∃ file c o out, GoodChron c 0 0 2 ∧ c.N1 1 = .ok 2 ∧
    ListsCraters E.classes file [1, 3, 3 / 2, 2] [1, 1, 1 / 2, 1] 10 ∧ openCount E.classes shp ".diam".toList file = .ok o ∧
    table { E with pf := initPoly [0, -1] (some (1, 2.5)), chron := c, ref := 1 } [sampleDataPlot o, samplePlot o] = .ok out := by
  obtain ⟨file, c, o, r, hg, hN, hl, ho, hcount, hr⟩ := sample_file E.classes shp E.simpson
  obtain ⟨out, h⟩ := C146_written { E with pf := initPoly [0, -1] (some (1, 2.5)), chron := c, ref := 1 } _ _ (sample_among o) (sample_fits o hcount)
    (by intro p hp; rw [List.mem_singleton] at hp; subst hp; exact .inl rfl) (by intro p hp; rw [List.mem_singleton] at hp; subst hp; exact ⟨r, hr⟩)
  exact ⟨file, c, o, out, hg, hN, hl, ho, h⟩

/-- **C146, the range listed is not that of the craters counted.** The file lists four craters, all of them in the range shown in the table, which is
unlimited; the number of craters shown beside it is 3, as the production function ends at 2.5 km. -/
theorem C146_range_counterexample (E : TableRow.Env) (shp : Except Exc Reading.Count) : ∃ file c o st row, ListsCraters E.classes file
      [1, 3, 3 / 2, 2] [1, 1, 1 / 2, 1] 10 ∧ openCount E.classes shp ".diam".toList file = .ok o ∧
    table { E with pf := initPoly [0, -1] (some (1, 2.5)), chron := c, ref := 1 } [sampleDataPlot o, samplePlot o] = .ok (some st) ∧
    (split '\n' st)[3]? = some row ∧ (split ',' row)[4]? = some "inf".toList ∧ Field (split ',' row) 3 (LimitShown E.ρ 0) ∧
    Field (split ',' row) 7 (fun s => decVal s = some 3) := by
  obtain ⟨file, c, o, r, hg, hN, hl, ho, hcount, hr⟩ := sample_file E.classes shp E.simpson
  obtain ⟨E', hE⟩ : ∃ E' : TableRow.Env, E' = { E with pf := initPoly [0, -1] (some (1, 2.5)), chron := c, ref := 1 } := ⟨_, rfl⟩
  obtain ⟨out, h⟩ := C146_written E' _ _ (sample_among o) (sample_fits o hcount)
    (by intro p hp; rw [List.mem_singleton] at hp; subst hp; exact .inl rfl)
    (by intro p hp; rw [List.mem_singleton] at hp; subst hp; subst hE; exact ⟨r, hr⟩)
  obtain ⟨st, row, pdf, lo, hi, e0, hrow, hlo, hhi, _, h7, _⟩ := C146_file_partial E' (by subst hE; exact .inl ⟨_, _, rfl⟩) 0 0 2 (by subst hE; exact hg) 2
    (by subst hE; exact hN) (by norm_num) _ _ (sample_among o) (sample_fits o hcount) out h 0 _ rfl shp file _ _ 10 (by subst hE; exact hl)
    (by subst hE; exact ho)
  obtain ⟨st', e1, _, qs, _, hq⟩ := (C146_rows_partial E' _ _ (sample_among o) (sample_fits o hcount) out h).2 (by simp)
  rw [e0] at e1
  injection e1 with e1
  subst e1
  obtain ⟨_, _, _, _, row', _, _, _, hrow', _, _, _, _, h3, h4, _⟩ := hq 0 _ rfl
  rw [hrow] at hrow'
  injection hrow' with hrow'
  subst hrow'
  have l1 : lo = 1 := by
    rw [hlo, hE]
    show clipE 0 1 2.5 = 1
    unfold clipE
    rw [max_eq_right (by exact_mod_cast (zero_le_one : (0 : ℝ) ≤ 1)), min_eq_right (by exact_mod_cast (by norm_num : (1 : ℝ) ≤ 2.5))]
    exact EReal.toReal_coe _
  have l2 : hi = 2.5 := by
    rw [hhi, hE]
    show clipE ⊤ 1 2.5 = 2.5
    unfold clipE
    rw [max_eq_left le_top, min_eq_left le_top]
    exact EReal.toReal_coe _
  have hρ : E'.ρ = E.ρ := by rw [hE]
  rw [hρ] at h3
  refine ⟨file, c, o, st, row, hl, ho, by rw [← hE, h, e0], hrow, ?_, h3, ?_⟩
  · obtain ⟨s, hs, h⟩ := h4
    rcases h with ⟨_, rfl⟩ | ⟨h, _⟩ | ⟨v, h, _⟩
    · exact hs
    · exact absurd h (by simp)
    · exact absurd h.symm (EReal.coe_ne_top v)
  · obtain ⟨s, hs, h⟩ := h7
    refine ⟨s, hs, ?_⟩
    show decVal s = some 3
    rw [h, l1, l2]
    norm_num [List.countP_cons]

end

end Verif.Props
