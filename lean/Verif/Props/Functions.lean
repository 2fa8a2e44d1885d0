import Verif.Model.Functions
import Verif.Props.UserFunctions
import Verif.Props.Epochs
import Verif.Props.Tabular
import Verif.Props.RandomnessFile

/-! Property C132: functions have the numbers of their definitions. -/

namespace Verif.Props
open Verif.Py Verif.Text Verif.Rand Verif.Cli Verif.Production Verif.Chronology
open Verif.Cratercount (log10 pow10_log10)

/-- Specification: among the definitions `l`, the first one with the name `id` is that with the entries `ids`. -/
def FirstNamed (l : List TVal) (id : List Char) (ids : List (List Char × TVal)) : Prop :=
  ∃ before after, l = before ++ .dict (dictOf ids) :: after ∧ occurrences ids "name".toList = [.str id] ∧
    ∀ e ∈ before, ∃ ids' n, e = .dict (dictOf ids') ∧ occurrences ids' "name".toList = [.str n] ∧ n ≠ id

/-- Specification: the entry `k` of a definition is a list of numerals of the numbers `qs`. -/
def NumberEntry (ids : List (List Char × TVal)) (k : String) (qs : List ℚ) : Prop :=
  ∃ ts : List (List Char), occurrences ids k.toList = [.list (ts.map .str)] ∧ List.Forall₂ (fun s q => decVal s = some q) ts qs

/-- Specification: a definition has no entry `k`. -/
def NoEntry (ids : List (List Char × TVal)) (k : String) : Prop := occurrences ids k.toList = []

theorem nameOf_dictOf {ids : List (List Char × TVal)} {n : List Char} (h : occurrences ids "name".toList = [.str n]) :
    nameOf (.dict (dictOf ids)) = some n := by
  unfold nameOf
  simp only [dictOf_get, h, combined]

theorem scanDefs_first {before after : List TVal} {ids : List (List Char × TVal)} {id : List Char}
    (hn : occurrences ids "name".toList = [.str id])
    (hb : ∀ e ∈ before, ∃ ids' n, e = .dict (dictOf ids') ∧ occurrences ids' "name".toList = [.str n] ∧ n ≠ id) :
    scanDefs nameOf id (before ++ .dict (dictOf ids) :: after) = .ok (some (.dict (dictOf ids))) := by
  induction before with
  | nil => rw [List.nil_append, scanDefs, nameOf_dictOf hn]; simp
  | cons x l ih =>
    obtain ⟨ids', n, rfl, h1, h2⟩ := hb x List.mem_cons_self
    rw [List.cons_append, scanDefs, nameOf_dictOf h1]
    simp only [if_neg h2]
    exact ih (fun e he => hb e (List.mem_cons_of_mem _ he))

theorem lookupDef_first {l : List TVal} {id : List Char} {ids : List (List Char × TVal)} (h : FirstNamed l id ids) :
    lookupDef nameOf (.many l) id = .ok (.dict (dictOf ids)) := by
  obtain ⟨b, a, rfl, hn, hb⟩ := h
  rw [lookupDef, scanDefs_first hn hb]
  rfl

theorem sectionOf_many {v : List (List Char × TVal)} {kind : List Char} {l : List TVal} (h : dictGet v kind = combined l)
    (hl : 2 ≤ l.length) : sectionOf (.dict v) kind = .many l := by
  rw [sectionOf, h]
  match l with
  | [] => simp at hl
  | [_] => simp at hl
  | _ :: _ :: _ => rfl

theorem has_dictOf (ids : List (List Char × TVal)) (k : List Char) :
    CountFile.has (.dict (dictOf ids)) k = (combined (occurrences ids k)).isSome := by
  rw [CountFile.has, dictOf_get]

theorem tget_dictOf {ids : List (List Char × TVal)} {k : List Char} {v : TVal} (h : occurrences ids k = [v]) :
    tget (.dict (dictOf ids)) k = .ok v := by
  rw [tget, dictOf_get, h]; rfl

theorem floats_entry {ids : List (List Char × TVal)} {k : String} {qs : List ℚ} (h : NumberEntry ids k qs) :
    Scc.floats (.dict (dictOf ids)) k.toList = .ok qs := by
  obtain ⟨ts, h1, h2⟩ := h
  rw [Scc.floats, tget_dictOf h1, ok_bind, telems, ok_bind]
  exact mapM_texts (h2.imp (fun _ _ h => by rw [tfloat, h]))

theorem has_entry {ids : List (List Char × TVal)} {k : String} {qs : List ℚ} (h : NumberEntry ids k qs) :
    CountFile.has (.dict (dictOf ids)) k.toList = true := by
  obtain ⟨ts, h1, _⟩ := h
  rw [has_dictOf, h1]; rfl

theorem has_noEntry {ids : List (List Char × TVal)} {k : String} (h : NoEntry ids k) :
    CountFile.has (.dict (dictOf ids)) k.toList = false := by
  rw [has_dictOf, h]; rfl

/-- Specification: the source consists of the definitions `ds`: it is a list of functions which was read (that of the program, or that of the program
followed by that of the user, whose path stands in the configuration file), a file, or a text (which is to be followed by a line end). -/
inductive SourceOf (C : Classes) : FunctionSource → List (List Char × TVal) → Prop
  | program (config : Option (List Char)) (d : Disk) (v : TVal) (ds : List (List Char × TVal)) (hc : ∀ c, config = some c → d.file c = none)
      (h : FunctionList C d.builtin ds) (hne : ds ≠ []) (hv : loadFunctions C config d = .ok v) : SourceOf C (.dict v) ds
  | extended (c content path user : List Char) (rest : List (List Char)) (d : Disk) (v : TVal) (ds es : List (List Char × TVal))
      (hc : d.file c = some content) (hp : readTextfile C none false true false content = path :: rest) (hp0 : path ≠ []) (hu : d.file path = some user)
      (h : FunctionList C d.builtin ds) (hne : ds ≠ []) (h' : TextOf C (functionText C user) es) (ha : ∀ x ∈ es, ∀ l, x.2 ≠ .list l)
      (hv : loadFunctions C (some c) d = .ok v) : SourceOf C (.dict v) (ds ++ es)
  | file (content : List Char) (ds : List (List Char × TVal)) (h : TextOf C (join ['\n'] (readTextfile C none false true false content)) ds)
      (ha : ∀ d ∈ ds, ∀ l, d.2 ≠ .list l) (hne : ds ≠ []) : SourceOf C (.file content) ds
  | text (s : List Char) (ds : List (List Char × TVal)) (h : TextOf C (s ++ ['\n']) ds)
      (ha : ∀ d ∈ ds, ∀ l, d.2 ≠ .list l) (hb : ∀ d ∈ ds, ∀ t, d.2 ≠ .str ('\n' :: t)) : SourceOf C (.text s) ds

/-- Specification: how many definitions of a kind there have to be: several, but one in a text. -/
def enough : FunctionSource → ℕ
  | .text _ => 1
  | _ => 2

/-- Specification: the entry without meaning which is added to a text -/
def nullEntry : TVal := .dict (dictOf [("name".toList, .str "null".toList)])

theorem null_text (C : Classes) {kind : List Char} (hk : kind ≠ [] ∧ ∀ c ∈ kind, c.toNat < 128 ∧ (c.isAlphanum || c == '_') = true) :
    TextOf C (kind ++ "={\n name=\"null\"\n}".toList) [(kind, nullEntry)] := by
  have hsp : ∀ c : Char, c.toNat < 128 → asciiSpace c = true → C.space c = true := fun c h1 h2 => by rw [C.space_ascii c h1]; exact h2
  have hin : TextOf C "name=\"null\"\n".toList [("name".toList, .str "null".toList)] := by
    refine TextOf.simple (asciiHead C "name".toList [] [] ⟨by decide, by decide⟩ (by simp) (by simp)) "\"null\"".toList _ [] [] ?_
      (.plain _ _ (by decide) (.text _ _ (by decide) (.quoted '"' "null".toList (Or.inl rfl)))) (.nil [] (by simp))
    refine ⟨by decide, ?_, ?_, ?_, ?_⟩
    · intro c hc
      have : c = '"' := by simpa using hc.symm
      subst this; exact not_space (by decide) (by decide)
    · intro c hc
      have : c = '"' := by simpa using hc.symm
      subst this; exact not_space (by decide) (by decide)
    · intro c hc _
      have : c = '"' := by simpa using hc.symm
      subst this
      exact ⟨'n', "ull\"".toList, by decide, not_space (by decide) (by decide)⟩
    · intro a b e
      exfalso
      have : '\n' ∈ "\"null\"".toList := by rw [e]; simp
      revert this
      decide
  have hN : NoLastArray [("name".toList, TVal.str "null".toList)] := by
    refine noLastArray_of ?_
    intro d hd l
    rw [List.mem_singleton] at hd
    subst hd
    simp
  have := TextOf.structLast (asciiHead C kind [] [] hk (by simp) (by simp)) "\n ".toList "name=\"null\"\n".toList [] [] 'n'
    "ame=\"null\"\n".toList "name=\"null".toList '"' _ (by decide) (by
      intro c hc
      have : c = '\n' ∨ c = ' ' := by simpa using hc
      rcases this with rfl | rfl
      · exact hsp _ (by decide) (by decide)
      · exact hsp _ (by decide) (by decide)) (by decide) (not_space (by decide) (by decide)) (by decide)
    (not_space (by decide) (by decide)) (inside_noBraces _ (by decide)) hin (by simp) hN (by simp) (by simp)
  have hd : definedName kind = kind := by
    rw [definedName, if_neg]
    intro e
    have := (hk.2 _ (List.mem_of_getLast? e)).2
    exact absurd this (by decide)
  simp only [asciiHead] at this
  rw [hd] at this
  exact this

/-- the definitions of each kind in a list of functions which was read -/
theorem source_sections {C : Classes} {v : TVal} {ds : List (List Char × TVal)} (h : SourceOf C (.dict v) ds) :
    ∃ v', v = .dict v' ∧ ∀ kind, dictGet v' kind = combined (occurrences ds kind) := by
  cases h with
  | program config d v ds hc h hne hv =>
    obtain ⟨v', h1, h2⟩ := C109_builtin C config d hc ds h hne
    rw [hv] at h1
    cases h1
    exact ⟨v', rfl, h2⟩
  | extended c content path user rest d v ds es hc hp hp0 hu h hne h' ha hv =>
    obtain ⟨v', h1, h2⟩ := C109_functions C c content path user rest d ds es h hne hc hp hp0 hu h' ha
    rw [hv] at h1
    cases h1
    exact ⟨v', rfl, fun kind => by rw [h2, occurrences_append]⟩

/-- the definition with the given name is found -/
theorem definition_found {C : Classes} {src : FunctionSource} {ds : List (List Char × TVal)} (h : SourceOf C src ds) {kind : List Char}
    (hk : kind ≠ [] ∧ ∀ c ∈ kind, c.toNat < 128 ∧ (c.isAlphanum || c == '_') = true) (hl : enough src ≤ (occurrences ds kind).length)
    {id : List Char} {ids : List (List Char × TVal)} (hf : FirstNamed (occurrences ds kind) id ids) :
    definitionOf C kind src id = .ok (.dict (dictOf ids)) := by
  rw [definitionOf]
  have hdict : ∀ {v : TVal}, SourceOf C (.dict v) ds → 2 ≤ (occurrences ds kind).length →
      (sourceStructure C kind (.dict v) >>= fun v => lookupDef nameOf (sectionOf v kind) id) = .ok (.dict (dictOf ids)) := by
    intro v h hl
    obtain ⟨v', rfl, h2⟩ := source_sections h
    rw [sourceStructure, ok_bind, sectionOf_many (h2 kind) hl]
    exact lookupDef_first hf
  cases h with
  | program config d v ds hc h hne hv => exact hdict (.program config d v ds hc h hne hv) hl
  | extended c content path user rest d v ds es hc hp hp0 hu h hne h' ha hv =>
    exact hdict (.extended c content path user rest d v ds es hc hp hp0 hu h hne h' ha hv) hl
  | file content ds h ha hne =>
    obtain ⟨h1, h2⟩ := C33_read_partial C _ _ h hne (noLastArray_of ha)
    rw [sourceStructure, h1, ok_bind, sectionOf_many (h2 kind) hl]
    exact lookupDef_first hf
  | text s ds h ha hb =>
    have ht := textOf_append h (null_text C hk) (Or.inr (by simp)) hb
    have ha' : ∀ d ∈ ds ++ [(kind, nullEntry)], ∀ l, d.2 ≠ .list l := by
      intro d hd l
      rcases List.mem_append.1 hd with hd | hd
      · exact ha d hd l
      · rw [List.mem_singleton] at hd
        subst hd
        simp [nullEntry]
    obtain ⟨h1, h2⟩ := C33_read_partial C _ _ ht (by simp) (noLastArray_of ha')
    rw [List.append_assoc] at h1
    have ho : occurrences (ds ++ [(kind, nullEntry)]) kind = occurrences ds kind ++ [nullEntry] := by
      rw [occurrences_append]
      simp [occurrences]
    have hl' : 2 ≤ (occurrences (ds ++ [(kind, nullEntry)]) kind).length := by
      rw [ho, List.length_append]
      exact Nat.add_le_add_right hl 1
    have e : sourceStructure C kind (.text s) = .ok (.dict (dictOf (ds ++ [(kind, nullEntry)]))) := h1
    rw [e, ok_bind, sectionOf_many (h2 kind) hl', ho]
    obtain ⟨b, a, e1, hn, hb⟩ := hf
    exact lookupDef_first ⟨b, a ++ [nullEntry], by rw [e1]; simp, hn, hb⟩

theorem chronology_word : "chronology".toList ≠ [] ∧ ∀ c ∈ "chronology".toList, c.toNat < 128 ∧ (c.isAlphanum || c == '_') = true :=
  ⟨by decide, by decide⟩

theorem production_word (eq : Bool) : productionKind eq ≠ [] ∧ ∀ c ∈ productionKind eq, c.toNat < 128 ∧ (c.isAlphanum || c == '_') = true := by
  cases eq
  · exact ⟨by decide, by decide⟩
  · exact ⟨by decide, by decide⟩

noncomputable section

/-- **C132, chronologies.** From a list of functions, a file or a text, a chronology is made with the numbers of the first definition with
its name: for coefficients p0, p1, p2, p3, … the density at 1 km of a surface of age t is p0 (exp(p1 t) − 1) + p3 t, and the rate its
derivative. -/
theorem C132_chronology (C : Classes) (src : FunctionSource) (ds : List (List Char × TVal)) (h : SourceOf C src ds)
    (hl : enough src ≤ (occurrences ds "chronology".toList).length) (id : List Char) (ids : List (List Char × TVal))
    (hf : FirstNamed (occurrences ds "chronology".toList) id ids) (p0 p1 p2 p3 : ℚ) (more : List ℚ)
    (hp : NumberEntry ids "coefficients" (p0 :: p1 :: p2 :: p3 :: more)) :
    ∃ c, makeChronology C src id = .ok c ∧ ∀ t : ℝ, c.N1 t = .ok ((p0 : ℝ) * (Real.exp ((p1 : ℝ) * t) - 1) + (p3 : ℝ) * t) ∧
      c.phi t = .ok ((p1 : ℝ) * (p0 : ℝ) * Real.exp ((p1 : ℝ) * t) + (p3 : ℝ)) := by
  refine ⟨⟨(p0 :: p1 :: p2 :: p3 :: more).map (fun q : ℚ => (q : ℝ)), linspace 0 5 1000, (linspace 0 5 1000).map (n1Coeff p0 p1 p3)⟩, ?_, ?_⟩
  · rw [makeChronology, definition_found h chronology_word hl hf, ok_bind, if_pos (has_entry hp), floats_entry hp, ok_bind]
    rfl
  · exact fun t => ⟨rfl, rfl⟩

theorem pairField_none {ids : List (List Char × TVal)} {k : String} (h : NoEntry ids k) :
    pairField (.dict (dictOf ids)) k.toList = .ok none := by
  rw [pairField, if_neg (by rw [has_noEntry h]; simp)]

theorem pairField_some {ids : List (List Char × TVal)} {k : String} {a b : ℚ} (h : NumberEntry ids k [a, b]) :
    pairField (.dict (dictOf ids)) k.toList = .ok (some ((a : ℝ), (b : ℝ))) := by
  rw [pairField, if_pos (has_entry h), floats_entry h]
  rfl

/-- Specification: the limits of validity: those given by `range`, by default 0.1 m and 2000 km. -/
def RangeEntry (ids : List (List Char × TVal)) (r : ℝ × ℝ) : Prop :=
  (NoEntry ids "range" ∧ r = (1 / 10000, 2000)) ∨ ∃ a b : ℚ, NumberEntry ids "range" [a, b] ∧ r = ((a : ℝ), (b : ℝ))

/-- Specification: the limits of the axis are two numbers, if given. -/
def AxisEntry (ids : List (List Char × TVal)) : Prop := NoEntry ids "yrange" ∨ ∃ a b : ℚ, NumberEntry ids "yrange" [a, b]

theorem poly_sum (l : List ℝ) (x : ℝ) (k : ℕ) :
    (l.zipIdx k).foldr (fun c s => c.1 * x ^ c.2 + s) 0 = x ^ k * poly l x := by
  induction l generalizing k with
  | nil => simp [poly_nil]
  | cons c l ih => rw [List.zipIdx_cons, List.foldr_cons, ih, poly_cons]; ring

/-- **C132, production functions given by a polynomial.** The cumulative curve is 10 to the power of the polynomial in the decimal logarithm
of the diameter, with the coefficients of the definition, the first one replaced by a0 where that is given; it is valid in the range of the
definition. -/
theorem C132_polynomial (C : Classes) (src : FunctionSource) (ds : List (List Char × TVal)) (h : SourceOf C src ds) (equilibrium : Bool)
    (kind : List Char) (hkind : kind = if equilibrium then "equilibrium".toList else "production".toList)
    (hl : enough src ≤ (occurrences ds kind).length) (id : List Char) (ids : List (List Char × TVal))
    (hf : FirstNamed (occurrences ds kind) id ids)
    (ht : NoEntry ids "type" ∨ occurrences ids "type".toList = [.str "polynomial".toList]) (q : ℚ) (qs : List ℚ)
    (hp : NumberEntry ids "coefficients" (q :: qs)) (r : ℝ × ℝ) (hr : RangeEntry ids r) (hy : AxisEntry ids) :
    ∃ f, makeProduction C src id equilibrium = .ok (some f) ∧ f.range = r ∧
      (∀ d a0 : ℝ, 0 < d → f.C d a0 =
        .ok (10 ^ (((a0 :: qs.map (fun q : ℚ => (q : ℝ))).zipIdx).foldr (fun c s => c.1 * Real.logb 10 d ^ c.2 + s) 0))) ∧
      ∀ d : ℝ, 0 < d → f.evaluate .cumulative d none =
        .ok (10 ^ ((((q : ℝ) :: qs.map (fun q : ℚ => (q : ℝ))).zipIdx).foldr (fun c s => c.1 * Real.logb 10 d ^ c.2 + s) 0)) := by
  have hty : typeField (.dict (dictOf ids)) = .ok (.str "polynomial".toList) := by
    rw [typeField]
    rcases ht with ht | ht
    · rw [if_neg (by rw [has_noEntry ht]; simp)]
    · rw [if_pos (by rw [has_dictOf, ht]; rfl), tget_dictOf ht]
  obtain ⟨r', hr1, hr2⟩ : ∃ r', pairField (.dict (dictOf ids)) "range".toList = .ok r' ∧ r'.getD (0.0001, 2000) = r := by
    rcases hr with ⟨h1, rfl⟩ | ⟨a, b, h1, rfl⟩
    · refine ⟨none, pairField_none h1, ?_⟩
      rw [Option.getD_none]
      norm_num
    · exact ⟨some (a, b), pairField_some h1, rfl⟩
  obtain ⟨y', hy1⟩ : ∃ y', pairField (.dict (dictOf ids)) "yrange".toList = .ok y' := by
    rcases hy with h1 | ⟨a, b, h1⟩
    · exact ⟨_, pairField_none h1⟩
    · exact ⟨_, pairField_some h1⟩
  have hC : ∀ d a0 : ℝ, 0 < d → (PFn.poly ((q :: qs).map (fun q : ℚ => (q : ℝ))) r).C d a0 =
      .ok (10 ^ (((a0 :: qs.map (fun q : ℚ => (q : ℝ))).zipIdx).foldr (fun c s => c.1 * Real.logb 10 d ^ c.2 + s) 0)) := by
    intro d a0 hd
    rw [poly_sum, pow_zero, one_mul]
    exact polyC_eq hd
  refine ⟨.poly ((q :: qs).map (fun q : ℚ => (q : ℝ))) r, ?_, rfl, hC, fun d hd => hC d _ hd⟩
  have hk : kind = productionKind equilibrium := by rw [hkind, productionKind]
  subst hk
  rw [makeProduction, definition_found h (production_word _) hl hf, ok_bind, hty, ok_bind, hr1, ok_bind, hy1, ok_bind, makeByType,
    if_pos rfl, floats_entry hp, ok_bind, initPoly, hr2]

/-- Specification: the cumulative curve of a table of increments, that of the bin from 1 km on having the number `idx`, relative to its value at 1 km: at the lower limit of a bin
the sum of the increments of this and all larger bins, between the limits a straight line in logarithms, and constant beyond -/
def TableCurve (qs : List ℚ) (idx : ℕ) (d y : ℝ) : Prop :=
  ∃ S : ℕ → ℝ, (∀ i, S i = (((qs.drop i).sum : ℚ) : ℝ)) ∧
    ((∃ (i : ℕ) (t : ℝ), i + 1 < qs.length ∧ 0 ≤ t ∧ t < 1 ∧ d = 2 ^ (((i : ℝ) + t - (idx : ℝ)) / 2) ∧ y = S i ^ (1 - t) * S (i + 1) ^ t / S idx) ∨
      (2 ^ (((qs.length : ℝ) - 1 - (idx : ℝ)) / 2) ≤ d ∧ y = S (qs.length - 1) / S idx) ∨
      (d < 2 ^ ((0 - (idx : ℝ)) / 2) ∧ y = S 0 / S idx))

theorem tabEdge_log (idx i : ℕ) : log10 (tabEdge idx i) = ((i : ℝ) - idx) / 2 * log10 2 := by
  unfold tabEdge log10
  rw [Real.logb_rpow_eq_mul_logb_of_pos (by norm_num)]

theorem log_two_positive : 0 < log10 2 := Real.logb_pos (by norm_num) (by norm_num)

/-- the curve of a table, read off the interpolation -/
theorem tab_curve {qs : List ℚ} {idx : ℕ} {f : PFn} (hidx : idx < qs.length) (hpos : ∀ x ∈ qs, 0 < x)
    (hf : initTab (qs.map (fun q : ℚ => (q : ℝ))) idx = .ok f) (d : ℝ) (hd : 0 < d) :
    ∃ y, TableCurve qs idx d y ∧ ∀ a0 : ℝ, f.C d a0 = .ok (10 ^ a0 * y) := by
  have hlen : (qs.map (fun q : ℚ => (q : ℝ))).length = qs.length := by simp
  have hsum : ∀ n, ((qs.map (fun q : ℚ => (q : ℝ))).drop n).sum = (((qs.drop n).sum : ℚ) : ℝ) := by
    intro n
    rw [← List.map_drop]
    induction qs.drop n with
    | nil => simp
    | cons a l ih => rw [List.map_cons, List.sum_cons, List.sum_cons, ih, Rat.cast_add]
  have hpos' : ∀ x ∈ qs.map (fun q : ℚ => (q : ℝ)), 0 < x := by
    intro x hx
    obtain ⟨q, hq, rfl⟩ := List.mem_map.1 hx
    exact_mod_cast hpos q hq
  obtain ⟨S, hS⟩ : ∃ S : ℕ → ℝ, ∀ i, S i = (((qs.drop i).sum : ℚ) : ℝ) := ⟨_, fun _ => rfl⟩
  have hSp : ∀ i, i < qs.length → 0 < S i := by
    intro i hi
    rw [hS, ← hsum]
    exact drop_sum_pos hpos' (by rwa [hlen])
  obtain ⟨xp, hxp⟩ : ∃ xp, xp = (List.range qs.length).map (fun i => log10 (tabEdge idx i)) := ⟨_, rfl⟩
  obtain ⟨fp, hfp⟩ : ∃ fp, fp = (List.range qs.length).map (fun i => log10 (S i) - log10 (S idx)) := ⟨_, rfl⟩
  have hx : xp.Pairwise (· < ·) := by rw [hxp]; exact tabEdge10_sorted _ _
  have l1 : xp.length = qs.length := by rw [hxp]; simp
  have l2 : fp.length = qs.length := by rw [hfp]; simp
  have hC : ∀ a0, f.C d a0 = .ok (10 ^ a0 * 10 ^ interp xp fp (log10 d)) := by
    intro a0
    rw [tabC_eq (by rwa [hlen]) hf a0 d hd, hlen]
    have e : (List.range qs.length).map (fun i => log10 ((qs.map (fun q : ℚ => (q : ℝ))).drop i).sum -
        log10 ((qs.map (fun q : ℚ => (q : ℝ))).drop idx).sum + a0) = fp.map (fun y => y + a0) := by
      rw [hfp, List.map_map]
      apply List.map_congr_left
      intro i _
      simp only [Function.comp, hsum, hS]
    rw [e, ← hxp, interp_shift xp fp (by rw [l1, l2]) (by omega), pow10_add, mul_comm]
  refine ⟨_, ⟨S, hS, ?_⟩, hC⟩
  have hratio : ∀ i, i < qs.length → (10 : ℝ) ^ (log10 (S i) - log10 (S idx)) = S i / S idx := by
    intro i hi
    have := pow10_ratio (a0 := 0) (hSp i hi) (hSp idx hidx)
    simpa using this
  have gx : ∀ i (hi : i < xp.length), xp[i] = log10 (tabEdge idx i) := by
    intro i hi
    simp [hxp]
  have gf : ∀ i (hi : i < fp.length), fp[i] = log10 (S i) - log10 (S idx) := by
    intro i hi
    simp [hfp]
  rcases interp_cases xp fp (log10 d) (hx.imp le_of_lt) (by rw [l1, l2]) (by omega) with ⟨c1, c2⟩ | ⟨c1, c2⟩ | ⟨j, hj, _, c1, c2, c3⟩
  · refine .inr (.inr ⟨?_, ?_⟩)
    · rw [gx] at c1
      have := (Real.logb_lt_logb_iff (b := 10) (by norm_num) hd (tabEdge_pos idx 0)).1 c1
      simpa [tabEdge] using this
    · rw [c2, gf, hratio 0 (by omega)]
  · refine .inr (.inl ⟨?_, ?_⟩)
    · rw [gx] at c1
      have := (Real.logb_le_logb (b := 10) (by norm_num) (tabEdge_pos idx _) hd).1 c1
      rw [tabEdge, l1, Nat.cast_sub (by omega)] at this
      simpa using this
    · rw [c2, gf, hratio _ (by omega), l1]
  · left
    rw [gx, tabEdge_log] at c1 c2
    have hL := log_two_positive
    obtain ⟨t, ht⟩ : ∃ t : ℝ, t = (log10 d - ((j : ℝ) - idx) / 2 * log10 2) / (1 / 2 * log10 2) := ⟨_, rfl⟩
    have ht' : log10 d = ((j : ℝ) + t - idx) / 2 * log10 2 := by
      rw [ht]; field_simp; ring
    refine ⟨j, t, by omega, ?_, ?_, ?_, ?_⟩
    · rw [ht]; exact div_nonneg (by linarith) (by positivity)
    · rw [ht, div_lt_one (by positivity)]
      push_cast at c2
      nlinarith
    · have : log10 d = log10 ((2 : ℝ) ^ (((j : ℝ) + t - (idx : ℝ)) / 2)) := by
        rw [ht']
        unfold log10
        rw [Real.logb_rpow_eq_mul_logb_of_pos (by norm_num)]
      exact Real.logb_injOn_pos (b := 10) (by norm_num) hd (by positivity : (0 : ℝ) < 2 ^ (((j : ℝ) + t - (idx : ℝ)) / 2)) this
    · rw [c3, gf, gf, gx, gx, tabEdge_log, tabEdge_log, ht']
      have h1 := hSp j (by omega)
      have h2 := hSp (j + 1) (by omega)
      have h3 := hSp idx hidx
      have e : ((log10 (S (j + 1)) - log10 (S idx)) - (log10 (S j) - log10 (S idx))) / ((((j + 1 : ℕ) : ℝ) - idx) / 2 * log10 2 - ((j : ℝ) - idx) / 2 * log10 2) *
          (((j : ℝ) + t - idx) / 2 * log10 2 - ((j : ℝ) - idx) / 2 * log10 2) + (log10 (S j) - log10 (S idx)) =
          (1 - t) * log10 (S j) + t * log10 (S (j + 1)) - log10 (S idx) := by
        push_cast
        field_simp
        ring
      rw [e, Real.rpow_sub (by norm_num), Real.rpow_add (by norm_num), mul_comm (1 - t), Real.rpow_mul (by norm_num), mul_comm t, Real.rpow_mul (by norm_num),
        pow10_log10 h1, pow10_log10 h2, pow10_log10 h3]

theorem tab_range {qs : List ℚ} {idx : ℕ} {f : PFn} (hidx : idx < qs.length)
    (hf : initTab (qs.map (fun q : ℚ => (q : ℝ))) idx = .ok f) :
    f.range = (2 ^ ((1 / 2 - (idx : ℝ)) / 2), 2 ^ (((qs.length : ℝ) - 1 / 2 - (idx : ℝ)) / 2)) := by
  unfold initTab at hf
  obtain ⟨hC, h1, hf⟩ := except_bind_eq_ok hf
  obtain ⟨h2, rfl⟩ := mapM_log10E.1 h1
  simp only at hf
  have hl : qs.length ≠ 0 := by omega
  split at hf
  · next v' hv' =>
    simp only [except_ok_bind] at hf
    split at hf
    · next r0 r1 e0 e1 =>
      injection hf with hf
      subst hf
      rw [List.length_map] at e0 e1
      rw [List.head?_eq_getElem?] at e0
      rw [List.getLast?_eq_getElem?] at e1
      simp only [List.getElem?_map, Option.map_map, Option.map_eq_some_iff, List.length_map, List.length_range, Function.comp, Int.cast_natCast] at e0 e1
      obtain ⟨a, ha, rfl⟩ := e0
      obtain ⟨b, hb, rfl⟩ := e1
      rw [List.getElem?_range (by omega)] at ha hb
      injection ha with ha
      injection hb with hb
      subst ha hb
      have h2 : (0 : ℝ) < 2 := by norm_num
      show (_, _) = _
      rw [← Real.rpow_add h2, ← Real.rpow_add h2, Nat.cast_sub (by omega)]
      congr 2 <;> push_cast <;> ring
    · cases hf
  · simp only [except_error_bind] at hf; cases hf
/-- **C132, production functions given by a table.** With the increments H of the definition, of which that of the bin from 1 km on has the
number index_1km, the cumulative curve has at the lower limit of each bin the ratio of the sum of the increments of this and all larger bins
to that at 1 km, and is straight in logarithms between them.  It is valid from the middle of the first bin to that of the last one, whatever range is given. -/
theorem C132_table (C : Classes) (src : FunctionSource) (ds : List (List Char × TVal)) (h : SourceOf C src ds) (equilibrium : Bool)
    (kind : List Char) (hkind : kind = if equilibrium then "equilibrium".toList else "production".toList)
    (hl : enough src ≤ (occurrences ds kind).length) (id : List Char) (ids : List (List Char × TVal))
    (hf : FirstNamed (occurrences ds kind) id ids) (ht : occurrences ids "type".toList = [.str "tabular incremental root-2".toList])
    (qs : List ℚ) (hp : NumberEntry ids "H" qs) (hpos : ∀ x ∈ qs, 0 < x) (it : List Char) (idx : ℕ) (hi : idx < qs.length)
    (hit : occurrences ids "index_1km".toList = [.str it]) (hiv : intVal it = some (idx : ℤ)) (r : ℝ × ℝ) (hr : RangeEntry ids r)
    (hy : AxisEntry ids) :
    ∃ f, makeProduction C src id equilibrium = .ok (some f) ∧ (∀ a0 : ℝ, ∀ i : ℕ, i < qs.length →
      f.C ((2 : ℝ) ^ (((i : ℝ) - (idx : ℝ)) / 2)) a0 = .ok (10 ^ a0 * ((((qs.drop i).sum : ℚ) : ℝ) / (((qs.drop idx).sum : ℚ) : ℝ)))) ∧
      (∀ d : ℝ, 0 < d → ∃ y, TableCurve qs idx d y ∧ ∀ a0 : ℝ, f.C d a0 = .ok (10 ^ a0 * y)) ∧
      f.range = (2 ^ ((1 / 2 - (idx : ℝ)) / 2), 2 ^ (((qs.length : ℝ) - 1 / 2 - (idx : ℝ)) / 2)) := by
  have hty : typeField (.dict (dictOf ids)) = .ok (.str "tabular incremental root-2".toList) := by
    rw [typeField, if_pos (by rw [has_dictOf, ht]; rfl), tget_dictOf ht]
  obtain ⟨r', hr1⟩ : ∃ r', pairField (.dict (dictOf ids)) "range".toList = .ok r' := by
    rcases hr with ⟨h1, rfl⟩ | ⟨a, b, h1, rfl⟩
    · exact ⟨none, pairField_none h1⟩
    · exact ⟨some (a, b), pairField_some h1⟩
  obtain ⟨y', hy1⟩ : ∃ y', pairField (.dict (dictOf ids)) "yrange".toList = .ok y' := by
    rcases hy with h1 | ⟨a, b, h1⟩
    · exact ⟨_, pairField_none h1⟩
    · exact ⟨_, pairField_some h1⟩
  have hi' : idx < (qs.map (fun q : ℚ => (q : ℝ))).length := by simpa using hi
  have hpos' : ∀ x ∈ qs.map (fun q : ℚ => (q : ℝ)), 0 < x := by
    intro x hx
    obtain ⟨q, hq, rfl⟩ := List.mem_map.1 hx
    exact_mod_cast hpos q hq
  have hsum : ∀ n, ((qs.map (fun q : ℚ => (q : ℝ))).drop n).sum = (((qs.drop n).sum : ℚ) : ℝ) := by
    intro n
    rw [← List.map_drop]
    induction qs.drop n with
    | nil => simp
    | cons a l ih => rw [List.map_cons, List.sum_cons, List.sum_cons, ih, Rat.cast_add]
  obtain ⟨f, hf1, _⟩ := C19_tabular_cumulative _ idx hi' hpos' 0
  refine ⟨f, ?_, ?_, fun d hd => tab_curve hi hpos hf1 d hd, tab_range hi hf1⟩
  · have hk : kind = productionKind equilibrium := by rw [hkind, productionKind]
    subst hk
    rw [makeProduction, definition_found h (production_word _) hl hf, ok_bind, hty, ok_bind, hr1, ok_bind, hy1, ok_bind, makeByType,
      if_neg (by rw [TVal.str.injEq]; decide), if_pos rfl, floats_entry hp, ok_bind, tget_dictOf hit, ok_bind, tint, hiv]
    dsimp only
    rw [ok_bind, hf1]
  · intro a0 i hlt
    obtain ⟨f', hf2, Cc, g1, _, g3, _⟩ := C19_tabular_cumulative _ idx hi' hpos' a0
    rw [hf1] at hf2
    cases hf2
    have hpd : (0 : ℝ) < (2 : ℝ) ^ (((i : ℝ) - (idx : ℝ)) / 2) := by positivity
    rw [g1 _ hpd]
    have := g3 i (by simpa using hlt)
    rw [hsum, hsum] at this
    rw [← this]
    rfl

/-- **C132**: a chronology defined by code (`n1_code`), as the list of functions which comes with the program has one for Vesta, cannot be made:
every chronology without coefficients ends with an AttributeError. -/
theorem C132_code_counterexample (C : Classes) (src : FunctionSource) (ds : List (List Char × TVal)) (h : SourceOf C src ds)
    (hl : enough src ≤ (occurrences ds "chronology".toList).length) (id : List Char) (ids : List (List Char × TVal))
    (hf : FirstNamed (occurrences ds "chronology".toList) id ids) (hp : NoEntry ids "coefficients") :
    makeChronology C src id = .error .attribute := by
  rw [makeChronology, definition_found h chronology_word hl hf, ok_bind, if_neg (by rw [has_noEntry hp]; simp)]

/-- lines of the list of functions which comes with the program (functions.txt:402-407, 417-419, 436-439; the code is left out) -/
def vestaText : List Char :=
  ("chronology_system={\n  body='Vesta'\n  name=\"Vesta, Marchi & O'Brien (2014)\"\n  cf=\"Vesta, O'Brien et al. (2014)\"\"\n" ++
    "  pf='Vesta, Marchi et al (2013) [inferred, NS]'\n}\n\nchronology={\n    name=\"Vesta, O'Brien et al. (2014)\"\n" ++
    "    n1_code=\"\n        n1=n_mlt if t<t_lhb else n_mgt\n        \"\n    reference=\"O'Brien et al., P&SS 103, 2014\"\n}\n").toList

/-- **C132**: the chronology named by a system of the program is not found, because of a second quotation mark after its name; nor could it be
made if it were. -/
theorem C132_vesta_counterexample :
    ∃ v sys cf, readStructure .ascii (vestaText ++ "chronology={\n name=B\n}\nchronology_system={\n name=C\n}\n".toList) = .ok v ∧
      lookupDef nameOf (sectionOf v "chronology_system".toList) "Vesta, Marchi & O'Brien (2014)".toList = .ok sys ∧
      tget sys "cf".toList = .ok (.str cf) ∧ cf = "Vesta, O'Brien et al. (2014)\"".toList ∧
      makeChronology .ascii (.dict v) cf = .error .value ∧
      makeChronology .ascii (.dict v) "Vesta, O'Brien et al. (2014)".toList = .error .attribute := by
  obtain ⟨v, h1, sys, h2, h3, h4, h5⟩ : ∃ v, readStructure .ascii (vestaText ++ "chronology={\n name=B\n}\nchronology_system={\n name=C\n}\n".toList) = .ok v ∧
      ∃ sys, lookupDef nameOf (sectionOf v "chronology_system".toList) "Vesta, Marchi & O'Brien (2014)".toList = .ok sys ∧
      tget sys "cf".toList = .ok (.str "Vesta, O'Brien et al. (2014)\"".toList) ∧
      lookupDef nameOf (sectionOf v "chronology".toList) "Vesta, O'Brien et al. (2014)\"".toList = .error .value ∧
      (lookupDef nameOf (sectionOf v "chronology".toList) "Vesta, O'Brien et al. (2014)".toList).map
        (fun e => CountFile.has e "coefficients".toList) = .ok false :=
    ⟨.dict [("chronology_system".toList, .list [.dict [("pf".toList, .str "Vesta, Marchi et al (2013) [inferred, NS]".toList),
          ("cf".toList, .str "Vesta, O'Brien et al. (2014)\"".toList), ("name".toList, .str "Vesta, Marchi & O'Brien (2014)".toList),
          ("body".toList, .str "Vesta".toList)], .dict [("name".toList, .str "C".toList)]]),
        ("chronology".toList, .list [.dict [("reference".toList, .str "O'Brien et al., P&SS 103, 2014".toList),
          ("n1_code".toList, .str "\n        n1=n_mlt if t<t_lhb else n_mgt\n".toList),
          ("name".toList, .str "Vesta, O'Brien et al. (2014)".toList)], .dict [("name".toList, .str "B".toList)]])], by decide +kernel,
      .dict [("pf".toList, .str "Vesta, Marchi et al (2013) [inferred, NS]".toList),
          ("cf".toList, .str "Vesta, O'Brien et al. (2014)\"".toList), ("name".toList, .str "Vesta, Marchi & O'Brien (2014)".toList),
          ("body".toList, .str "Vesta".toList)], by decide +kernel, by decide +kernel, by decide +kernel, by decide +kernel⟩
  refine ⟨v, sys, _, h1, h2, h3, rfl, ?_, ?_⟩
  · rw [makeChronology, definitionOf, sourceStructure, ok_bind, h4]
    rfl
  · rw [makeChronology, definitionOf, sourceStructure, ok_bind]
    cases h : lookupDef nameOf (sectionOf v "chronology".toList) "Vesta, O'Brien et al. (2014)".toList with
    | error e => rw [h] at h5; cases h5
    | ok e =>
      rw [h] at h5
      have : CountFile.has e "coefficients".toList = false := Except.ok.inj h5
      rw [ok_bind, if_neg (by rw [this]; simp)]

/-! an example: the functions of a text with one chronology and one production function -/

theorem item_plain (x : String) (h : ∀ c ∈ x.toList, c ≠ ' ' ∧ c ≠ '\n' ∧ c ≠ ',' ∧ c ≠ '[' ∧ c ≠ ']' ∧ c ≠ '(' ∧ c ≠ ')' ∧ c ≠ '"' ∧ c ≠ '\'')
    (b : List Char) (hb : ∀ c ∈ b, c = ' ' ∨ c = '\n') : (⟨b, x.toList, [], x.toList⟩ : Item).Ok := by
  refine ⟨hb, by simp, fun c hc => ?_, fun c hc => ?_, fun c hc => ?_, .plain _ ?_⟩
  · have := h c (List.mem_of_mem_head? hc); exact ⟨this.1, this.2.1⟩
  · have := h c (List.mem_of_getLast? hc); exact ⟨this.1, this.2.1⟩
  · have := h c hc; exact ⟨this.2.2.1, this.2.2.2.1, this.2.2.2.2.1, this.2.2.2.2.2.1, this.2.2.2.2.2.2.1⟩
  · intro q t e
    have := h q (by simp only at e; rw [e]; simp)
    exact this.2.2.2.2.2.2.2

theorem noLastArray_nodup {ids : List (List Char × TVal)} (hn : (ids.map Prod.fst).Nodup) : NoLastArray ids := by
  intro k l h
  exfalso
  have h2 : ((ids.map Prod.fst).filter (fun x => decide (x = k))).length ≤ 1 := by
    rw [← List.countP_eq_length_filter]
    exact (List.nodup_iff_count_le_one.1 hn k).trans' (by rw [List.count]; exact le_of_eq (by congr; funext x; exact (beq_eq_decide x k).symm))
  rw [occurrences, List.length_map] at h
  rw [List.filter_map, List.length_map] at h2
  exact absurd (h.trans h2) (by decide)

theorem example_source {kind : String} (hk : kind.toList ≠ [] ∧ ∀ c ∈ kind.toList, c.toNat < 128 ∧ (c.isAlphanum || c == '_') = true)
    (inner : List Char) (ids : List (List Char × TVal)) (h : TextOf .ascii inner ids) (hne : ids ≠ []) (hn : (ids.map Prod.fst).Nodup)
    (c1 : Char) (w1 w2 : List Char) (c2 : Char) (e1 : inner = c1 :: w1) (s1 : asciiSpace c1 = false) (e2 : inner = w2 ++ [c2, '\n'])
    (s2 : asciiSpace c2 = false) (hb : ∀ c ∈ inner, c ≠ '{' ∧ c ≠ '}') :
    SourceOf .ascii (.text (kind.toList ++ ("={\n ".toList ++ (inner ++ ['}'])))) [(kind.toList, .dict (dictOf ids))] := by
  refine .text _ _ ?_ (by simp) (by simp)
  have := TextOf.struct (asciiHead .ascii kind.toList [] [] hk (by simp) (by simp)) "\n ".toList inner [] [] [] c1 w1 w2 c2 ids []
    (by decide) (by decide) e1 s1 e2 s2 (inside_noBraces _ hb) h hne (noLastArray_nodup hn) (by simp) (by simp) (.nil [] (by simp))
  have hd : definedName kind.toList = kind.toList := by
    rw [definedName, if_neg]
    intro e
    have := (hk.2 _ (List.mem_of_getLast? e)).2
    exact absurd this (by decide)
  simp only [asciiHead] at this
  rw [hd] at this
  have e : kind.toList ++ ("={\n ".toList ++ (inner ++ ['}'])) ++ ['\n'] =
      [] ++ (kind.toList ++ ([] ++ '=' :: ([] ++ ('{' :: ("\n ".toList ++ (inner ++ ([] ++ '}' :: ([] ++ '\n' :: [])))))))) := by simp
  rw [e]
  exact this

theorem numbers_text (x y : String) (hx : ∀ c ∈ x.toList, c ≠ ' ' ∧ c ≠ '\n' ∧ c ≠ ',' ∧ c ≠ '[' ∧ c ≠ ']' ∧ c ≠ '(' ∧ c ≠ ')' ∧ c ≠ '"' ∧ c ≠ '\'')
    (hy : ∀ c ∈ y.toList, c ≠ ' ' ∧ c ≠ '\n' ∧ c ≠ ',' ∧ c ≠ '[' ∧ c ≠ ']' ∧ c ≠ '(' ∧ c ≠ ')' ∧ c ≠ '"' ∧ c ≠ '\'') :
    ValueOf .ascii ('[' :: (join [','] [x.toList, ' ' :: y.toList] ++ [']'])) (.list [.str x.toList, .str y.toList]) := by
  have := PlainOf.array (C := .ascii) '[' ']' [⟨[], x.toList, [], x.toList⟩, ⟨[' '], y.toList, [], y.toList⟩] (Or.inl ⟨rfl, rfl⟩) (by simp) (by
    intro i hi
    simp only [List.mem_cons, List.not_mem_nil, or_false] at hi
    rcases hi with rfl | rfl
    · exact item_plain x hx [] (by simp)
    · exact item_plain y hy [' '] (by simp))
  refine .plain _ _ (by simp) ?_
  simpa [Item.all] using this

theorem occurrences_one (k : List Char) (v : TVal) : occurrences [(k, v)] k = [v] := by simp [occurrences]

def exampleChronology : List (List Char × TVal) :=
  [("name".toList, .str "N".toList), ("coefficients".toList, .list [.str "5e-14".toList, .str "7".toList, .str "0".toList, .str "8e-4".toList])]

theorem exampleChronology_text : TextOf .ascii "name=N\n coefficients=[5e-14, 7,0,8e-4]\n".toList exampleChronology :=
  .simple (headingOf "" "name" "" "" (by decide) (keyText_ascii (by decide) (by decide)) (by decide) (by decide))
    "N".toList _ _ _ (valueText_line _ (by decide) (by decide) (by decide) (by decide)) (plain_text "N" (by decide))
    (.simple (headingOf " " "coefficients" "" "" (by decide) (keyText_ascii (by decide) (by decide)) (by decide) (by decide))
      "[5e-14, 7,0,8e-4]".toList _ [] [] (valueText_line _ (by decide) (by decide) (by decide) (by decide))
      (.plain _ _ (by decide) (PlainOf.array '[' ']' [⟨[], "5e-14".toList, [], "5e-14".toList⟩, ⟨[' '], "7".toList, [], "7".toList⟩,
        ⟨[], "0".toList, [], "0".toList⟩, ⟨[], "8e-4".toList, [], "8e-4".toList⟩] (Or.inl ⟨rfl, rfl⟩) (by simp) (by
          intro i hi
          simp only [List.mem_cons, List.not_mem_nil, or_false] at hi
          rcases hi with rfl | rfl | rfl | rfl
          · exact item_plain "5e-14" (by decide) [] (by simp)
          · exact item_plain "7" (by decide) [' '] (by simp)
          · exact item_plain "0" (by decide) [] (by simp)
          · exact item_plain "8e-4" (by decide) [] (by simp)))) (.nil [] (by simp)))

theorem exampleChronology_source (kind : String) (hk : kind.toList ≠ [] ∧ ∀ c ∈ kind.toList, c.toNat < 128 ∧ (c.isAlphanum || c == '_') = true) :
    SourceOf .ascii (.text (kind.toList ++ "={\n name=N\n coefficients=[5e-14, 7,0,8e-4]\n}".toList))
      [(kind.toList, .dict (dictOf exampleChronology))] := by
  have := example_source hk _ _ exampleChronology_text (by simp [exampleChronology]) (by decide +kernel) 'n'
    "ame=N\n coefficients=[5e-14, 7,0,8e-4]\n".toList "name=N\n coefficients=[5e-14, 7,0,8e-4".toList ']' (by decide) (by decide) (by decide)
    (by decide) (by decide)
  exact this

theorem exampleNumbers : NumberEntry exampleChronology "coefficients" [5e-14, 7, 0, 8e-4] :=
  ⟨["5e-14".toList, "7".toList, "0".toList, "8e-4".toList], by decide +kernel, .cons (by decide +kernel) (.cons (by decide +kernel)
    (.cons (by decide +kernel) (.cons (by decide +kernel) .nil)))⟩

example : ∃ c, makeChronology .ascii (.text "chronology={\n name=N\n coefficients=[5e-14, 7,0,8e-4]\n}".toList) "N".toList = .ok c ∧
    c.N1 1 = .ok (5e-14 * (Real.exp 7 - 1) + 8e-4) := by
  obtain ⟨c, h1, h2⟩ := C132_chronology .ascii _ _ (exampleChronology_source "chronology" chronology_word)
    (by rw [occurrences_one]; decide) "N".toList exampleChronology
    (by rw [occurrences_one]; exact ⟨[], [], rfl, by decide +kernel, by simp⟩) 5e-14 7 0 8e-4 [] exampleNumbers
  refine ⟨c, h1, ?_⟩
  rw [(h2 1).1]
  push_cast
  norm_num

example : ∃ f, makeProduction .ascii (.text "production={\n name=N\n coefficients=[5e-14, 7,0,8e-4]\n}".toList) "N".toList false = .ok (some f) ∧
    f.range = (1 / 10000, 2000) ∧ f.C 10 2 = .ok (10 ^ (2 + 7 + 8e-4 : ℝ)) := by
  obtain ⟨f, h1, h2, h3, _⟩ := C132_polynomial .ascii _ _ (exampleChronology_source "production" (production_word false)) false
    "production".toList rfl (by rw [occurrences_one]; decide) "N".toList exampleChronology
    (by rw [occurrences_one]; exact ⟨[], [], rfl, by decide +kernel, by simp⟩) (Or.inl (by unfold NoEntry; decide +kernel)) 5e-14 [7, 0, 8e-4]
    exampleNumbers _ (Or.inl ⟨by unfold NoEntry; decide +kernel, rfl⟩) (Or.inl (by unfold NoEntry; decide +kernel))
  refine ⟨f, h1, h2, ?_⟩
  rw [h3 10 2 (by norm_num), Real.logb_self_eq_one (by norm_num)]
  congr 2
  simp [List.zipIdx]
  norm_num

def exampleTable : List (List Char × TVal) :=
  [("name".toList, .str "T".toList), ("type".toList, .str "tabular incremental root-2".toList),
    ("H".toList, .list [.str "3".toList, .str "1".toList]), ("index_1km".toList, .str "0".toList)]

example : ∃ f, makeProduction .ascii (.text
      "equilibrium={\n name=T\ntype='tabular incremental root-2'\nH=[3, 1]\nindex_1km=0\n}".toList) "T".toList true = .ok (some f) ∧
    (∀ a0 : ℝ, f.C ((2 : ℝ) ^ ((1 : ℝ) / 2)) a0 = .ok (10 ^ a0 * (1 / 4))) ∧ f.range = (2 ^ ((1 : ℝ) / 4), 2 ^ ((3 : ℝ) / 4)) := by
  have hi : TextOf .ascii "name=T\ntype='tabular incremental root-2'\nH=[3, 1]\nindex_1km=0\n".toList exampleTable :=
    .simple (headingOf "" "name" "" "" (by decide) (keyText_ascii (by decide) (by decide)) (by decide) (by decide))
      "T".toList _ _ _ (valueText_line _ (by decide) (by decide) (by decide) (by decide)) (plain_text "T" (by decide))
      (.simple (headingOf "" "type" "" "" (by decide) (keyText_ascii (by decide) (by decide)) (by decide) (by decide))
        "'tabular incremental root-2'".toList _ _ _ (valueText_line _ (by decide) (by decide) (by decide) (by decide))
        (.plain _ _ (by decide) (.text _ _ (by decide) (.quoted '\'' "tabular incremental root-2".toList (Or.inr rfl))))
        (.simple (headingOf "" "H" "" "" (by decide) (keyText_ascii (by decide) (by decide)) (by decide) (by decide))
          "[3, 1]".toList _ _ _ (valueText_line _ (by decide) (by decide) (by decide) (by decide)) (numbers_text "3" "1" (by decide) (by decide))
          (.simple (headingOf "" "index_1km" "" "" (by decide) (keyText_ascii (by decide) (by decide)) (by decide) (by decide))
            "0".toList _ [] [] (valueText_line _ (by decide) (by decide) (by decide) (by decide)) (plain_text "0" (by decide))
            (.nil [] (by simp)))))
  have hs : SourceOf .ascii (.text "equilibrium={\n name=T\ntype='tabular incremental root-2'\nH=[3, 1]\nindex_1km=0\n}".toList)
      [("equilibrium".toList, .dict (dictOf exampleTable))] :=
    example_source (kind := "equilibrium") (production_word true) _ _ hi (by simp [exampleTable]) (by decide +kernel) 'n'
      "ame=T\ntype='tabular incremental root-2'\nH=[3, 1]\nindex_1km=0\n".toList
      "name=T\ntype='tabular incremental root-2'\nH=[3, 1]\nindex_1km=".toList '0' (by decide +kernel) (by decide) (by decide +kernel)
      (by decide) (by decide +kernel)
  obtain ⟨f, h1, h2, h3, h4⟩ := C132_table .ascii _ _ hs true "equilibrium".toList rfl (by rw [occurrences_one]; decide) "T".toList exampleTable
    (by rw [occurrences_one]; exact ⟨[], [], rfl, by decide +kernel, by simp⟩) (by decide +kernel) [3, 1]
    ⟨["3".toList, "1".toList], by decide +kernel, .cons (by decide +kernel) (.cons (by decide +kernel) .nil)⟩ (by simp) "0".toList 0 (by simp)
    (by decide +kernel) (by decide +kernel) _ (Or.inl ⟨by unfold NoEntry; decide +kernel, rfl⟩) (Or.inl (by unfold NoEntry; decide +kernel))
  refine ⟨f, h1, fun a0 => ?_, by rw [h4]; norm_num⟩
  have := h2 a0 1 (by simp)
  norm_num at this ⊢
  exact this

end

end Verif.Props
