import Verif.Model.FunctionRun
import Verif.Props.RunAges
import Verif.Props.RunFiles
import Verif.Props.Functions

/-!
C153: the ages in the table of a command are those of the chronology system asked for, as defined in the list of functions.
-/

namespace Verif.Props

open Verif.Py Verif.Text Verif.Rand Verif.Cli Verif.PlotObject
open Verif.CountFile Verif.Cratercount Verif.Chronology Verif.Production Verif.Craterpdf Verif.Age Verif.FileAge Verif.TableRow Verif.RunAges Verif.FunctionRun

noncomputable section

/-- Specification: a definition of a chronology system: it has a name, a planetary body, and names its two functions -/
def SystemEntry (e : TVal) (s : System) : Prop :=
  ∃ ids, e = .dict (dictOf ids) ∧ occurrences ids "name".toList = [.str s.name] ∧ occurrences ids "cf".toList = [.str s.cf] ∧
    occurrences ids "pf".toList = [.str s.pf] ∧ occurrences ids "body".toList = [.str s.body]

theorem mapM_given {α β : Type} {f : α → Except Exc β} {as : List α} {bs : List β} (h : List.Forall₂ (fun a b => f a = .ok b) as bs) : as.mapM f = .ok bs := by
  induction h with
  | nil => rfl
  | cons h _ ih => rw [List.mapM_cons, h, ok_bind, ih]; rfl

/-- **C153, systems.** The chronology systems to choose from are those defined in the list of functions, in this order. -/
theorem C153_list (C : Classes) (v : TVal) (ds : List (List Char × TVal)) (h : SourceOf C (.dict v) ds) (systems : List System)
    (hs : List.Forall₂ SystemEntry (occurrences ds "chronology_system".toList) systems) (h2 : 2 ≤ systems.length) : systemsOf v = .ok systems := by
  obtain ⟨v', rfl, h3⟩ := source_sections h
  rw [systemsOf, sectionOf_many (h3 _) (by rw [hs.length_eq]; exact h2)]
  dsimp only
  apply mapM_given
  refine hs.imp ?_
  rintro e s ⟨ids, rfl, e1, e2, e3, e4⟩
  rw [systemOf, textField, textField, textField, textField, tget_dictOf e1, tget_dictOf e2, tget_dictOf e3, tget_dictOf e4]
  rfl

/-- Specification: the name of a chronology system is the one asked for with `-cs` (the first of the shortest names with the characters given in this order), the
default is that of the Moon of 1983 -/
def SystemAsked (lower : Char → Char) (names : List (List Char)) (flat : List Given) (name : List Char) : Prop :=
  ((∀ g ∈ flat, g.dest ≠ "chronology_system".toList) ∧ name = "Moon, Neukum (1983)".toList) ∨
    ∃ t k, OptionLast flat "chronology_system" [t] ∧ ChosenBy lower names t k ∧ names[k]? = some name

/-- Specification: the number asked for with an option, or the default -/
def NumberAsked (flat : List Given) (k : String) (default x : ℝ) : Prop :=
  ((∀ g ∈ flat, g.dest ≠ k.toList) ∧ x = default) ∨ ∃ t q, OptionLast flat k [t] ∧ decVal t = some q ∧ x = (q : ℝ)

/-- Specification: whether a switch is on: it is so by default, and `-name 0` turns it off -/
def SwitchAsked (flat : List Given) (k : String) (on : Bool) : Prop :=
  on = false ↔ ∃ t, OptionLast flat k [t] ∧ intVal t = some 0

theorem standard_ref {p : List Char} {w : Val Opened} (h : ("ref_diameter", w) ∈ standardOf p) : w = .real 1 := by
  simp only [standardOf, List.mem_cons, Prod.mk.injEq, List.not_mem_nil, or_false, String.reduceEq, false_and, false_or, true_and] at h
  exact h

theorem standard_mu {p : List Char} {w : Val Opened} (h : ("mu", w) ∈ standardOf p) : w = .num 1 := by
  simp only [standardOf, List.mem_cons, Prod.mk.injEq, List.not_mem_nil, or_false, String.reduceEq, false_and, false_or, true_and] at h
  exact h

theorem shown_ref {values : List (List Char)} {w : Val Opened} (h : Shown "ref_diameter" values w) : ∃ t q, values = [t] ∧ decVal t = some q ∧ w = .real q := by
  rcases h with ⟨hk, _⟩ | ⟨_, h⟩ | ⟨hk, _⟩ | ⟨hk, _⟩ | ⟨hk, _⟩ | ⟨hk, _⟩ | ⟨hk, _⟩ | ⟨hk, _⟩ | ⟨hk, _⟩
  · exact absurd hk (by decide)
  · exact h
  · exact absurd hk (by decide)
  · exact absurd hk (by decide)
  · exact absurd hk (by decide)
  · exact absurd hk (by decide)
  · exact absurd hk (by decide)
  · exact absurd hk (by decide)
  · exact absurd hk (by decide)

theorem shown_mu {values : List (List Char)} {w : Val Opened} (h : Shown "mu" values w) :
    values = [] ∧ w = .num 1 ∨ ∃ t z, values = [t] ∧ intVal t = some z ∧ (z = 0 ∨ z = 1) ∧ w = .num z := by
  rcases h with ⟨hk, _⟩ | ⟨hk, _⟩ | ⟨_, h⟩ | ⟨hk, _⟩ | ⟨hk, _⟩ | ⟨hk, _⟩ | ⟨hk, _⟩ | ⟨hk, _⟩ | ⟨hk, _⟩
  · exact absurd hk (by decide)
  · exact absurd hk (by decide)
  · exact h
  · exact absurd hk (by decide)
  · exact absurd hk (by decide)
  · exact absurd hk (by decide)
  · exact absurd hk (by decide)
  · exact absurd hk (by decide)
  · exact absurd hk (by decide)

theorem number_real {o : Attrs Opened} {k : String} {q : ℚ} {x : ℝ} (h : dictGet o k.toList = some (.real q)) (hx : numberAttr o k = .ok x) : x = (q : ℝ) := by
  unfold numberAttr at hx
  rw [h] at hx
  injection hx with hx
  exact hx.symm

theorem number_num {o : Attrs Opened} {k : String} {z : ℤ} {x : ℝ} (h : dictGet o k.toList = some (.num z)) (hx : numberAttr o k = .ok x) : x = (z : ℝ) := by
  unfold numberAttr at hx
  rw [h] at hx
  injection hx with hx
  exact hx.symm

theorem ref_asked {P : Attrs Opened} {p : List Char} {flat : List Given} {ref : ℝ} (href : numberAttr P "ref_diameter" = .ok ref)
    (hg : (∀ g ∈ flat, g.dest ≠ "ref_diameter".toList) ∨ ∃ values, OptionLast flat "ref_diameter" values)
    (d1 : ∀ values, OptionLast flat "ref_diameter" values → ∃ w, Shown "ref_diameter" values w ∧ dictGet P "ref_diameter".toList = some w)
    (d2 : (∀ g ∈ flat, g.dest ≠ "ref_diameter".toList) → ∃ w, ("ref_diameter", w) ∈ standardOf p ∧ dictGet P "ref_diameter".toList = some w) :
    NumberAsked flat "ref_diameter" 1 ref := by
  rcases hg with hn | ⟨values, hl⟩
  · obtain ⟨w, w1, w2⟩ := d2 hn
    obtain rfl := standard_ref w1
    exact .inl ⟨hn, by rw [number_real w2 href]; norm_num⟩
  · obtain ⟨w, w1, w2⟩ := d1 values hl
    obtain ⟨t, q, rfl, e, rfl⟩ := shown_ref w1
    exact .inr ⟨t, q, hl, e, number_real w2 href⟩

theorem mu_asked {P : Attrs Opened} {p : List Char} {flat : List Given} {mu : ℝ} (hmu : numberAttr P "mu" = .ok mu)
    (hg : (∀ g ∈ flat, g.dest ≠ "mu".toList) ∨ ∃ values, OptionLast flat "mu" values)
    (d1 : ∀ values, OptionLast flat "mu" values → ∃ w, Shown "mu" values w ∧ dictGet P "mu".toList = some w)
    (d2 : (∀ g ∈ flat, g.dest ≠ "mu".toList) → ∃ w, ("mu", w) ∈ standardOf p ∧ dictGet P "mu".toList = some w) :
    SwitchAsked flat "mu" (decide (mu ≠ 0)) := by
  rw [SwitchAsked]
  rcases hg with hn | ⟨values, hl⟩
  · obtain ⟨w, w1, w2⟩ := d2 hn
    obtain rfl := standard_mu w1
    rw [number_num w2 hmu]
    constructor
    · intro h
      norm_num at h
    · rintro ⟨t, ⟨pre, post, e, _⟩, _⟩
      exact absurd rfl (hn ⟨"mu".toList, [t]⟩ (by rw [e]; exact List.mem_append_right _ List.mem_cons_self))
  · obtain ⟨w, w1, w2⟩ := d1 values hl
    rcases shown_mu w1 with ⟨rfl, rfl⟩ | ⟨t, z, rfl, e, hz, rfl⟩
    · rw [number_num w2 hmu]
      constructor
      · intro h
        norm_num at h
      · rintro ⟨t, ht, _⟩
        exact absurd (option_unique hl ht) (by simp)
    · rw [number_num w2 hmu]
      constructor
      · intro h
        exact ⟨t, hl, by rw [e]; simpa using h⟩
      · rintro ⟨t', ht, h0⟩
        have := option_unique hl ht
        injection this with this
        subst this
        rw [e] at h0
        injection h0 with h0
        simpa using h0

/-- **C153, choice.** The table of ages is made with the chronology and the production function of the first chronology system which has the name asked for, with the reference diameter
asked for and, unless turned off, with the function for uncertainties in ages. -/
theorem C153_system (C : Classes) (isNeg : List Char → Bool) (F : FileSys) (cwd : List Char) (words : List (List Char))
    (l flat : List Given) (cwd' : List Char) (n : ℕ) (hw : CommandOf isNeg words l) (h : Expands C isNeg F cwd l flat cwd' n)
    (depth : ℕ) (hd : n ≤ depth) (E : List Char → RunEnv Opened (EReal × EReal)) (hE : ∀ d, (E d).set.classes = C)
    (v : TVal) (systems : List System) (hv : systemsOf v = .ok systems) (hset : (E cwd').set.systems = systems)
    (hnl : ∀ s ∈ systems, '\n' ∉ s.name) (T : TableRow.Env) (plotPF : PFn → PF) :
    ∃ st, runCommand C isNeg F depth cwd words = .ok st ∧ ∀ P out, prepareRun E st = .ok P → runTable C v T plotPF P = .ok out →
      ∃ i s c f ref mu, systems[i]? = some s ∧ (∀ (j : ℕ) s', j < i → systems[j]? = some s' → s'.name ≠ s.name) ∧
        SystemAsked (E cwd').set.lower (systems.map System.name) flat s.name ∧ NumberAsked flat "ref_diameter" 1 ref ∧ SwitchAsked flat "mu" mu ∧
        makeChronology C (.dict v) s.cf = .ok c ∧ makeProduction C (.dict v) s.pf false = .ok (some f) ∧
        table { T with classes := C, chron := c, pf := f, plotPF := plotPF f, ref := ref, mu := mu } P.plots = .ok out := by
  obtain ⟨st, h1, hcwd, hs⟩ := C133_in_place_partial C isNeg F cwd words l flat cwd' n hw h depth hd
  refine ⟨st, h1, fun P out hP hout => ?_⟩
  obtain ⟨st', h1', hdisp⟩ := C141_display_partial C isNeg F cwd words l flat cwd' n hw h depth hd E hE
  obtain rfl : st' = st := by rw [h1] at h1'; cases h1'; rfl
  obtain ⟨p, hpp, hpa, hinv⟩ := hdisp P hP
  have hf := flat_arity h (command_arity hw)
  obtain ⟨c0, p0, specs, ds, c1, ratio, dark, r1, r2, r3, r4, r5, r6, r7, r8⟩ := run_ok hP
  rw [hcwd] at r1 r5
  have hC := hE cwd'
  have n0 := settings_nodup r1
  obtain ⟨n1, e1⟩ := defaultName_keys r5 n0
  obtain ⟨n2, e2⟩ := legend_keys r6 n1
  obtain ⟨name, i, s, q1, q2, q3, q4, _, _, q5, q6⟩ := C60_system (E cwd').set (by rw [hset]; exact hnl) _ _ r1
  have hg : getStr P.settings "chronology_system" = .ok name := by
    rw [getStr, e2 _ (by decide), e1 _ (by decide), q1]
  have hask : SystemAsked (E cwd').set.lower (systems.map System.name) flat name := by
    rcases given_or hs "chronology_system" (by decide) with hn | ⟨values, hl⟩
    · exact .inl ⟨hn, q5 (by rw [hC]; exact (args_last hs "chronology_system" (by decide)).2 hn)⟩
    · obtain ⟨ha, w, hw', hw''⟩ := last_value hs hf (by decide +kernel) hl
      obtain ⟨t, e⟩ := one_value ha (ks := ["chronology_system"]) ⟨_, List.mem_cons_self, rfl⟩ (by decide +kernel)
      change values = [t] at e
      have := ((kind_values hw').2.2.2.2.2.2.2 (by decide +kernel)).1 t e
      subst this e
      obtain ⟨k, k1, k2⟩ := q6 t (by rw [hC]; exact hw'')
      rw [hset] at k1 k2
      exact .inr ⟨t, k, hl, k1, k2⟩
  subst q3
  rw [hset] at q2 q4
  rw [runTable, hg, ok_bind] at hout
  obtain ⟨cf, hfun, hout⟩ := bind_ok hout
  obtain ⟨ref, href, hout⟩ := bind_ok hout
  obtain ⟨mu, hmu, hout⟩ := bind_ok hout
  have hfind : systems.find? (fun s' => s'.name = s.name) = some s := by
    rw [List.find?_eq_some_iff_getElem]
    obtain ⟨hi, e⟩ := List.getElem?_eq_some_iff.1 q2
    refine ⟨by simp, i, hi, e, fun j hj => ?_⟩
    simpa using q4 j _ hj (List.getElem?_eq_getElem (by omega))
  rw [systemFunctions, hv, ok_bind, hfind] at hfun
  dsimp only at hfun
  obtain ⟨c, hc, hfun⟩ := bind_ok hfun
  obtain ⟨f', hf', hfun⟩ := bind_ok hfun
  cases f' with
  | none => cases hfun
  | some f =>
    injection hfun with hfun
    subst hfun
    refine ⟨i, s, c, f, ref, decide (mu ≠ 0), q2, q4, hask, ?_, ?_, hc, hf', hout⟩
    · obtain ⟨d1, d2⟩ := hinv "ref_diameter" (by decide) (fun _ => by decide)
      exact ref_asked href (given_or hs "ref_diameter" (by decide)) (fun values hl => d1 values hl (fun e => absurd e (by decide))) d2
    · obtain ⟨d1, d2⟩ := hinv "mu" (by decide) (fun _ => by decide)
      exact mu_asked hmu (given_or hs "mu" (by decide)) (fun values hl => d1 values hl (fun e => absurd e (by decide))) d2

theorem made_constructed {C : Classes} {src : FunctionSource} {id : List Char} {eq : Bool} {f : PFn} (h : makeProduction C src id eq = .ok (some f)) :
    Constructed f := by
  rw [makeProduction] at h
  obtain ⟨e, _, h⟩ := bind_ok h
  obtain ⟨ty, _, h⟩ := bind_ok h
  obtain ⟨r, _, h⟩ := bind_ok h
  obtain ⟨_, _, h⟩ := bind_ok h
  rw [makeByType] at h
  by_cases h1 : ty = .str "polynomial".toList
  · rw [if_pos h1] at h
    obtain ⟨a, _, h⟩ := bind_ok h
    injection h with h
    injection h with h
    exact .inl ⟨_, _, h.symm⟩
  · rw [if_neg h1] at h
    by_cases h2 : ty = .str "tabular incremental root-2".toList
    · rw [if_pos h2] at h
      obtain ⟨hh, _, h⟩ := bind_ok h
      obtain ⟨i, _, h⟩ := bind_ok h
      obtain ⟨i', _, h⟩ := bind_ok h
      cases hi : initTab (hh.map (fun q : ℚ => (q : ℝ))) i' with
      | ok f' =>
        rw [hi] at h
        injection h with h
        injection h with h
        subst h
        exact .inr ⟨_, _, hi⟩
      | error e => rw [hi] at h; cases e <;> cases h
    · rw [if_neg h2] at h
      cases h

theorem made_chron {C : Classes} {src : FunctionSource} {ds : List (List Char × TVal)} (h : SourceOf C src ds)
    (hl : enough src ≤ (occurrences ds "chronology".toList).length) {id : List Char} {ids : List (List Char × TVal)}
    (hf : FirstNamed (occurrences ds "chronology".toList) id ids) {p0 p1 p2 p3 : ℚ} {more : List ℚ}
    (hp : NumberEntry ids "coefficients" (p0 :: p1 :: p2 :: p3 :: more)) (h0 : 0 ≤ p0) (h1 : 0 ≤ p1) (h3 : 0 < p3) {c : Chron}
    (hc : makeChronology C src id = .ok c) : GoodChron c p0 p1 p3 := by
  refine ⟨(p0 :: p1 :: p2 :: p3 :: more).map (fun q : ℚ => (q : ℝ)), ?_, rfl, rfl, rfl, by exact_mod_cast h0, by exact_mod_cast h1, by exact_mod_cast h3⟩
  rw [makeChronology, definition_found h chronology_word hl hf, ok_bind, if_pos (has_entry hp), floats_entry hp, ok_bind] at hc
  cases hi : Chronology.init ((p0 :: p1 :: p2 :: p3 :: more).map (fun q : ℚ => (q : ℝ))) with
  | ok c' =>
    rw [hi] at hc
    injection hc with hc
    rw [hc]
  | error e =>
    rw [hi] at hc
    cases hc

/-- Specification: the numbers of the chronology which a chronology system names -/
def ChronologyDefined (ds : List (List Char × TVal)) (s : System) (p : List ℚ) : Prop :=
  ∃ ids, FirstNamed (occurrences ds "chronology".toList) s.cf ids ∧ NumberEntry ids "coefficients" p

/-- Specification: the functions which a chronology system names, as defined in the list: the numbers `p` of the chronology, the numbers `q` of the polynomial of
the production function, and the range of diameters in which it is valid -/
def FunctionsDefined (ds : List (List Char × TVal)) (s : System) (p q : List ℚ) (r : ℝ × ℝ) : Prop :=
  ChronologyDefined ds s p ∧
  ∃ ids, FirstNamed (occurrences ds "production".toList) s.pf ids ∧ (NoEntry ids "type" ∨ occurrences ids "type".toList = [.str "polynomial".toList]) ∧
    NumberEntry ids "coefficients" q ∧ RangeEntry ids r ∧ AxisEntry ids

/-- Specification: the number of craters of at least diameter `d` per area for the polynomial with first number `a0` and further numbers `qs`: its logarithm is the
value of the polynomial at the logarithm of `d` -/
def curveAt (a0 : ℝ) (qs : List ℚ) (d : ℝ) : ℝ :=
  10 ^ (((a0 :: qs.map (fun q : ℚ => (q : ℝ))).zipIdx).foldr (fun c s => c.1 * Real.logb 10 d ^ c.2 + s) 0)

/-- the rows of Poisson ages for the production function which is made of the definition in the list -/
theorem system_rows (C : Classes) (isNeg : List Char → Bool) (F : FileSys) (cwd : List Char) (words : List (List Char))
    (l flat : List Given) (cwd' : List Char) (n : ℕ) (hw : CommandOf isNeg words l) (h : Expands C isNeg F cwd l flat cwd' n)
    (depth : ℕ) (hd : n ≤ depth) (E : List Char → RunEnv Opened (EReal × EReal)) (hE : ∀ d, (E d).set.classes = C)
    (hdec : (E cwd').decode = decodeOf) (hload : ∀ c, (E cwd').load [] ≠ .ok c)
    (v : TVal) (ds : List (List Char × TVal)) (hv : SourceOf C (.dict v) ds) (systems : List System)
    (hsys : List.Forall₂ SystemEntry (occurrences ds "chronology_system".toList) systems) (h2 : 2 ≤ systems.length)
    (hcn : 2 ≤ (occurrences ds "chronology".toList).length)
    (hset : (E cwd').set.systems = systems) (hnl : ∀ s ∈ systems, '\n' ∉ s.name)
    (T : TableRow.Env) (hT : ∀ x, OneField (T.floatStr x)) (plotPF : PFn → PF) :
    ∃ st, runCommand C isNeg F depth cwd words = .ok st ∧ ∀ P out, prepareRun E st = .ok P → runTable C v T plotPF P = .ok out →
      ∃ i s, systems[i]? = some s ∧ (∀ (j : ℕ) s', j < i → systems[j]? = some s' → s'.name ≠ s.name) ∧
        SystemAsked (E cwd').set.lower (systems.map System.name) flat s.name ∧
        ∀ (p0 p1 p2 p3 : ℚ) more, ChronologyDefined ds s (p0 :: p1 :: p2 :: p3 :: more) → 0 ≤ p0 → 0 ≤ p1 → 0 < p3 →
          ∀ f, makeProduction C (.dict v) s.pf false = .ok (some f) → ∀ N1 : ℝ, N1 = p0 * (Real.exp p1 - 1) + p3 → N1 ≠ 1 →
        ∃ p input items, PresentedAs (E cwd').set.lower flat p ∧ InputOf flat input ∧
        List.Forall₂ (ItemsOf C) ((flat.filter (fun g => g.dest = "plot".toList)).map (fun g => g.values)) items ∧
        ∀ env : PlotEnv Opened, env = ⟨C, (E cwd').set.lower, (E cwd').path, (E cwd').isabs, input, p == "sequence".toList, (E cwd').load⟩ →
          PlainInput env → ∀ asks, AskedPlots env items asks → (∀ y ∈ agesAsked asks, FitsTable y.2) →
          ∀ (j : ℕ) q shp file diam frac a, (agesAsked asks)[j]? = some (.poisson, q) → ListsCraters C file diam frac a →
            (E cwd').load q.source = openCount C shp ".diam".toList file →
            ∃ t row c r pdf lo hi, out = some t ∧ (split '\n' t)[3 + j]? = some row ∧ openCount C shp ".diam".toList file = .ok c ∧ RangeAsked c q r ∧
              lo = clipE r.1 f.range.1 f.range.2 ∧ hi = clipE r.2 f.range.1 f.range.2 ∧
              (split ',' row)[0]? = some q.name ∧ Field (split ',' row) 1 (Denotes 5 (T.ρ (a : ℝ))) ∧
              Field (split ',' row) 7 (fun s => decVal s = some (diam.countP (fun d : ℚ => decide (lo ≤ (d : ℝ) ∧ (d : ℝ) < hi)) : ℚ)) ∧
              Field (split ',' row) 10 (Denotes 3 (T.ρ (Pdf.t pdf 0.5))) ∧
              Field (split ',' row) 11 (Denotes 3 (T.ρ (Pdf.t pdf ((1 - erf (1 / Real.sqrt 2)) / 2)))) ∧
              Field (split ',' row) 12 (Denotes 3 (T.ρ (Pdf.t pdf ((1 + erf (1 / Real.sqrt 2)) / 2)))) ∧
              pdf.k = (diam.countP (fun d : ℚ => decide (lo ≤ (d : ℝ) ∧ (d : ℝ) < hi)) : ℝ) ∧
              ∀ i < 5000, ∃ Nlo Nhi, f.C lo (log10 (sampleDensity N1 5000 i)) = .ok Nlo ∧ f.C hi (log10 (sampleDensity N1 5000 i)) = .ok Nhi ∧
                pdf.lam[i]? = some ((Nlo - Nhi) * (a : ℝ)) := by
  have hlist := C153_list C v ds hv systems hsys h2
  obtain ⟨st, h1, hchoice⟩ := C153_system C isNeg F cwd words l flat cwd' n hw h depth hd E hE v systems hlist hset hnl T plotPF
  refine ⟨st, h1, fun P out hP hout => ?_⟩
  obtain ⟨i, s, c, f, ref, mu, q2, q4, hask, _, _, hc, hf, htab⟩ := hchoice P out hP hout
  refine ⟨i, s, q2, q4, hask, ?_⟩
  rintro p0 p1 p2 p3 more ⟨idc, f1, f2⟩ h0 h1' h3 f' hf' N1 hN1 hne
  rw [hf] at hf'
  injection hf' with hf'
  injection hf' with hf'
  subst hf'
  have hgood := made_chron hv (by exact hcn) f1 f2 h0 h1' h3 hc
  have hN : c.N1 1 = .ok N1 := by
    obtain ⟨c', e1, e2⟩ := C132_chronology C _ ds hv (by exact hcn) _ _ f1 p0 p1 p2 p3 more f2
    rw [hc] at e1
    injection e1 with e1
    subst e1
    rw [(e2 1).1, hN1, mul_one, mul_one]
  obtain ⟨st', h1'', hfile⟩ := C152_file_partial C isNeg F cwd words l flat cwd' n hw h depth hd E hE hdec hload
    { T with classes := C, chron := c, pf := f, plotPF := plotPF f, ref := ref, mu := mu } hT (made_constructed hf) p0 p1 p3 hgood N1 hN hne
  rw [h1] at h1''
  injection h1'' with h1''
  subst h1''
  exact hfile P out hP htab

/-- **C153, Poisson ages.** If the file given for a plot of a Poisson age lists craters with their area, its row shows this area, the number of craters whose diameters
lie in the range given and the range of the production function of the chronology system asked for, and the median and the limits of the likelihood of this number.  The
likelihood is that of the numbers of craters expected on this area according to the curve of the production function in the list of functions, for 5000 densities which are
scaled with the density after one billion years of its chronology. -/
theorem C153_file_partial (C : Classes) (isNeg : List Char → Bool) (F : FileSys) (cwd : List Char) (words : List (List Char))
    (l flat : List Given) (cwd' : List Char) (n : ℕ) (hw : CommandOf isNeg words l) (h : Expands C isNeg F cwd l flat cwd' n)
    (depth : ℕ) (hd : n ≤ depth) (E : List Char → RunEnv Opened (EReal × EReal)) (hE : ∀ d, (E d).set.classes = C)
    (hdec : (E cwd').decode = decodeOf) (hload : ∀ c, (E cwd').load [] ≠ .ok c)
    (v : TVal) (ds : List (List Char × TVal)) (hv : SourceOf C (.dict v) ds) (systems : List System)
    (hsys : List.Forall₂ SystemEntry (occurrences ds "chronology_system".toList) systems) (h2 : 2 ≤ systems.length)
    (hcn : 2 ≤ (occurrences ds "chronology".toList).length) (hpn : 2 ≤ (occurrences ds "production".toList).length)
    (hset : (E cwd').set.systems = systems) (hnl : ∀ s ∈ systems, '\n' ∉ s.name)
    (T : TableRow.Env) (hT : ∀ x, OneField (T.floatStr x)) (plotPF : PFn → PF) :
    ∃ st, runCommand C isNeg F depth cwd words = .ok st ∧ ∀ P out, prepareRun E st = .ok P → runTable C v T plotPF P = .ok out →
      ∃ i s, systems[i]? = some s ∧ (∀ (j : ℕ) s', j < i → systems[j]? = some s' → s'.name ≠ s.name) ∧
        SystemAsked (E cwd').set.lower (systems.map System.name) flat s.name ∧
        ∀ (p0 p1 p2 p3 : ℚ) more q0 qs dr, FunctionsDefined ds s (p0 :: p1 :: p2 :: p3 :: more) (q0 :: qs) dr → 0 ≤ p0 → 0 ≤ p1 → 0 < p3 →
          0 < dr.1 → dr.1 ≤ dr.2 → ∀ N1 : ℝ, N1 = p0 * (Real.exp p1 - 1) + p3 → N1 ≠ 1 →
        ∃ p input items, PresentedAs (E cwd').set.lower flat p ∧ InputOf flat input ∧
        List.Forall₂ (ItemsOf C) ((flat.filter (fun g => g.dest = "plot".toList)).map (fun g => g.values)) items ∧
        ∀ env : PlotEnv Opened, env = ⟨C, (E cwd').set.lower, (E cwd').path, (E cwd').isabs, input, p == "sequence".toList, (E cwd').load⟩ →
          PlainInput env → ∀ asks, AskedPlots env items asks → (∀ y ∈ agesAsked asks, FitsTable y.2) →
          ∀ (j : ℕ) q shp file diam frac a, (agesAsked asks)[j]? = some (.poisson, q) → ListsCraters C file diam frac a →
            (E cwd').load q.source = openCount C shp ".diam".toList file →
            ∃ t row c r pdf lo hi, out = some t ∧ (split '\n' t)[3 + j]? = some row ∧ openCount C shp ".diam".toList file = .ok c ∧ RangeAsked c q r ∧
              lo = clipE r.1 dr.1 dr.2 ∧ hi = clipE r.2 dr.1 dr.2 ∧
              (split ',' row)[0]? = some q.name ∧ Field (split ',' row) 1 (Denotes 5 (T.ρ (a : ℝ))) ∧
              Field (split ',' row) 7 (fun s => decVal s = some (diam.countP (fun d : ℚ => decide (lo ≤ (d : ℝ) ∧ (d : ℝ) < hi)) : ℚ)) ∧
              Field (split ',' row) 10 (Denotes 3 (T.ρ (Pdf.t pdf 0.5))) ∧
              Field (split ',' row) 11 (Denotes 3 (T.ρ (Pdf.t pdf ((1 - erf (1 / Real.sqrt 2)) / 2)))) ∧
              Field (split ',' row) 12 (Denotes 3 (T.ρ (Pdf.t pdf ((1 + erf (1 / Real.sqrt 2)) / 2)))) ∧
              pdf.k = (diam.countP (fun d : ℚ => decide (lo ≤ (d : ℝ) ∧ (d : ℝ) < hi)) : ℝ) ∧
              ∀ i < 5000, pdf.lam[i]? = some ((curveAt (Real.logb 10 (sampleDensity N1 5000 i)) qs lo -
                curveAt (Real.logb 10 (sampleDensity N1 5000 i)) qs hi) * (a : ℝ)) := by
  obtain ⟨st, h1, hrows⟩ := system_rows C isNeg F cwd words l flat cwd' n hw h depth hd E hE hdec hload v ds hv systems hsys h2 hcn hset hnl T hT plotPF
  refine ⟨st, h1, fun P out hP hout => ?_⟩
  obtain ⟨i, s, q2, q4, hask, hrow⟩ := hrows P out hP hout
  refine ⟨i, s, q2, q4, hask, ?_⟩
  rintro p0 p1 p2 p3 more q0 qs dr ⟨hcd, idp, f3, f4, f5, f6, f7⟩ h0 h1' h3 hdr0 hdr1 N1 hN1 hne
  obtain ⟨f, hf, hrange, hcurve, _⟩ := C132_polynomial C _ ds hv false "production".toList rfl (by exact hpn) _ _ f3 f4 q0 qs f5 dr f6 f7
  have hpos : ∀ x : EReal, 0 < clipE x dr.1 dr.2 := fun x => lt_of_lt_of_le hdr0 (clipE_mem (x := x) hdr1).1
  obtain ⟨p, input, items, g1, g2, g3, g4⟩ := hrow p0 p1 p2 p3 more hcd h0 h1' h3 f hf N1 hN1 hne
  refine ⟨p, input, items, g1, g2, g3, ?_⟩
  intro env henv hplain asks hasks hfit j q shp file diam frac a hj hlist' hopen
  obtain ⟨t, row, cc, r, pdf, lo, hi, k1, k2, k3, k4, k5, k6, k7, k8, k9, k10, k11, k12, k13, k14⟩ := g4 env henv hplain asks hasks hfit j q shp file diam frac a hj hlist' hopen
  have k5' : lo = clipE r.1 dr.1 dr.2 := by rw [k5, hrange]
  have k6' : hi = clipE r.2 dr.1 dr.2 := by rw [k6, hrange]
  refine ⟨t, row, cc, r, pdf, lo, hi, k1, k2, k3, k4, k5', k6', k7, k8, k9, k10, k11, k12, k13, ?_⟩
  intro i hi'
  obtain ⟨Nlo, Nhi, m1, m2, m3⟩ := k14 i hi'
  have c1 := hcurve lo (log10 (sampleDensity N1 5000 i)) (by rw [k5']; exact hpos _)
  have c2 := hcurve hi (log10 (sampleDensity N1 5000 i)) (by rw [k6']; exact hpos _)
  have d1 := c1.symm.trans m1
  have d2 := c2.symm.trans m2
  injection d1 with d1
  injection d2 with d2
  rw [m3, ← d1, ← d2]
  rfl

/-- Specification: the numbers of a table of increments as the production function of a chronology system, the increment of the bin from 1 km on having the number `idx` -/
def TableDefined (ds : List (List Char × TVal)) (s : System) (p qs : List ℚ) (idx : ℕ) : Prop :=
  ChronologyDefined ds s p ∧
  ∃ ids, FirstNamed (occurrences ds "production".toList) s.pf ids ∧ occurrences ids "type".toList = [.str "tabular incremental root-2".toList] ∧
    NumberEntry ids "H" qs ∧ (∀ x ∈ qs, 0 < x) ∧ ∃ it, idx < qs.length ∧ occurrences ids "index_1km".toList = [.str it] ∧ intVal it = some (idx : ℤ) ∧
    (∃ r, RangeEntry ids r) ∧ AxisEntry ids

/-- **C153, Poisson ages with tables.** The same if the production function is given by a table: the range is limited to the middles of the first and of the last bin, and the expected numbers
follow the curve of the table, which is straight in logarithms between the lower limits of its bins. -/
theorem C153_table_partial (C : Classes) (isNeg : List Char → Bool) (F : FileSys) (cwd : List Char) (words : List (List Char))
    (l flat : List Given) (cwd' : List Char) (n : ℕ) (hw : CommandOf isNeg words l) (h : Expands C isNeg F cwd l flat cwd' n)
    (depth : ℕ) (hd : n ≤ depth) (E : List Char → RunEnv Opened (EReal × EReal)) (hE : ∀ d, (E d).set.classes = C)
    (hdec : (E cwd').decode = decodeOf) (hload : ∀ c, (E cwd').load [] ≠ .ok c)
    (v : TVal) (ds : List (List Char × TVal)) (hv : SourceOf C (.dict v) ds) (systems : List System)
    (hsys : List.Forall₂ SystemEntry (occurrences ds "chronology_system".toList) systems) (h2 : 2 ≤ systems.length)
    (hcn : 2 ≤ (occurrences ds "chronology".toList).length) (hpn : 2 ≤ (occurrences ds "production".toList).length)
    (hset : (E cwd').set.systems = systems) (hnl : ∀ s ∈ systems, '\n' ∉ s.name)
    (T : TableRow.Env) (hT : ∀ x, OneField (T.floatStr x)) (plotPF : PFn → PF) :
    ∃ st, runCommand C isNeg F depth cwd words = .ok st ∧ ∀ P out, prepareRun E st = .ok P → runTable C v T plotPF P = .ok out →
      ∃ i s, systems[i]? = some s ∧ (∀ (j : ℕ) s', j < i → systems[j]? = some s' → s'.name ≠ s.name) ∧
        SystemAsked (E cwd').set.lower (systems.map System.name) flat s.name ∧
        ∀ (p0 p1 p2 p3 : ℚ) more qs idx, TableDefined ds s (p0 :: p1 :: p2 :: p3 :: more) qs idx → 0 ≤ p0 → 0 ≤ p1 → 0 < p3 →
          ∀ N1 : ℝ, N1 = p0 * (Real.exp p1 - 1) + p3 → N1 ≠ 1 →
        ∃ p input items, PresentedAs (E cwd').set.lower flat p ∧ InputOf flat input ∧
        List.Forall₂ (ItemsOf C) ((flat.filter (fun g => g.dest = "plot".toList)).map (fun g => g.values)) items ∧
        ∀ env : PlotEnv Opened, env = ⟨C, (E cwd').set.lower, (E cwd').path, (E cwd').isabs, input, p == "sequence".toList, (E cwd').load⟩ →
          PlainInput env → ∀ asks, AskedPlots env items asks → (∀ y ∈ agesAsked asks, FitsTable y.2) →
          ∀ (j : ℕ) q shp file diam frac a, (agesAsked asks)[j]? = some (.poisson, q) → ListsCraters C file diam frac a →
            (E cwd').load q.source = openCount C shp ".diam".toList file →
            ∃ t row c r pdf lo hi, out = some t ∧ (split '\n' t)[3 + j]? = some row ∧ openCount C shp ".diam".toList file = .ok c ∧ RangeAsked c q r ∧
              lo = clipE r.1 (2 ^ ((1 / 2 - (idx : ℝ)) / 2)) (2 ^ (((qs.length : ℝ) - 1 / 2 - (idx : ℝ)) / 2)) ∧
              hi = clipE r.2 (2 ^ ((1 / 2 - (idx : ℝ)) / 2)) (2 ^ (((qs.length : ℝ) - 1 / 2 - (idx : ℝ)) / 2)) ∧
              (split ',' row)[0]? = some q.name ∧ Field (split ',' row) 1 (Denotes 5 (T.ρ (a : ℝ))) ∧
              Field (split ',' row) 7 (fun s => decVal s = some (diam.countP (fun d : ℚ => decide (lo ≤ (d : ℝ) ∧ (d : ℝ) < hi)) : ℚ)) ∧
              Field (split ',' row) 10 (Denotes 3 (T.ρ (Pdf.t pdf 0.5))) ∧
              Field (split ',' row) 11 (Denotes 3 (T.ρ (Pdf.t pdf ((1 - erf (1 / Real.sqrt 2)) / 2)))) ∧
              Field (split ',' row) 12 (Denotes 3 (T.ρ (Pdf.t pdf ((1 + erf (1 / Real.sqrt 2)) / 2)))) ∧
              pdf.k = (diam.countP (fun d : ℚ => decide (lo ≤ (d : ℝ) ∧ (d : ℝ) < hi)) : ℝ) ∧
              ∃ ylo yhi, TableCurve qs idx lo ylo ∧ TableCurve qs idx hi yhi ∧
                ∀ i < 5000, pdf.lam[i]? = some (sampleDensity N1 5000 i * (ylo - yhi) * (a : ℝ)) := by
  obtain ⟨st, h1, hrows⟩ := system_rows C isNeg F cwd words l flat cwd' n hw h depth hd E hE hdec hload v ds hv systems hsys h2 hcn hset hnl T hT plotPF
  refine ⟨st, h1, fun P out hP hout => ?_⟩
  obtain ⟨i, s, q2, q4, hask, hrow⟩ := hrows P out hP hout
  refine ⟨i, s, q2, q4, hask, ?_⟩
  rintro p0 p1 p2 p3 more qs idx ⟨hcd, idp, f3, f4, f5, f6, it, hidx, f7, f8, f9, f10⟩ h0 h1' h3 N1 hN1 hne
  obtain ⟨dr, f9⟩ := f9
  obtain ⟨f, hf, _, hcurve, hrange⟩ := C132_table C _ ds hv false "production".toList rfl (by exact hpn) _ _ f3 f4 qs f5 f6 it idx hidx f7 f8 dr f9 f10
  have hN : 0 < N1 := by
    rw [hN1]
    have e1 : (1 : ℝ) ≤ Real.exp p1 := Real.one_le_exp (by exact_mod_cast h1')
    have e2 : (0 : ℝ) ≤ p0 := by exact_mod_cast h0
    have e3 : (0 : ℝ) < p3 := by exact_mod_cast h3
    have := mul_nonneg e2 (sub_nonneg.2 e1)
    linarith
  have h12 : (2 : ℝ) ^ ((1 / 2 - (idx : ℝ)) / 2) ≤ 2 ^ (((qs.length : ℝ) - 1 / 2 - (idx : ℝ)) / 2) := by
    apply Real.rpow_le_rpow_of_exponent_le (by norm_num)
    have : (1 : ℝ) ≤ qs.length := by exact_mod_cast (by omega : 1 ≤ qs.length)
    linarith
  have hpos : ∀ x : EReal, 0 < clipE x ((2 : ℝ) ^ ((1 / 2 - (idx : ℝ)) / 2)) (2 ^ (((qs.length : ℝ) - 1 / 2 - (idx : ℝ)) / 2)) := fun x =>
    lt_of_lt_of_le (by positivity) (clipE_mem (x := x) h12).1
  obtain ⟨p, input, items, g1, g2, g3, g4⟩ := hrow p0 p1 p2 p3 more hcd h0 h1' h3 f hf N1 hN1 hne
  refine ⟨p, input, items, g1, g2, g3, ?_⟩
  intro env henv hplain asks hasks hfit j q shp file diam frac a hj hlist' hopen
  obtain ⟨t, row, cc, r, pdf, lo, hi, k1, k2, k3, k4, k5, k6, k7, k8, k9, k10, k11, k12, k13, k14⟩ := g4 env henv hplain asks hasks hfit j q shp file diam frac a hj hlist' hopen
  rw [hrange] at k5 k6
  obtain ⟨ylo, y1, y2⟩ := hcurve lo (by rw [k5]; exact hpos _)
  obtain ⟨yhi, y3, y4⟩ := hcurve hi (by rw [k6]; exact hpos _)
  refine ⟨t, row, cc, r, pdf, lo, hi, k1, k2, k3, k4, k5, k6, k7, k8, k9, k10, k11, k12, k13, ylo, yhi, y1, y3, ?_⟩
  intro i hi'
  obtain ⟨Nlo, Nhi, m1, m2, m3⟩ := k14 i hi'
  have d1 := (y2 _).symm.trans m1
  have d2 := (y4 _).symm.trans m2
  injection d1 with d1
  injection d2 with d2
  rw [m3, ← d1, ← d2, pow10_log10 (sample_log hN 5000 i).1, mul_sub]

/-! ### an example -/

/-- chronologies with the same numbers give the same ages -/
theorem age_of_chron {p p' : List ℝ} {c c' : Chron} (h : Chronology.init p = .ok c) (h' : Chronology.init p' = .ok c') (e : coeffs p = coeffs p')
    (pf : PFn) (simpson : Simpson) (o : Opened) (r : EReal × EReal) (b : Bool) (ref : ℝ) : ageOf pf c simpson o r b ref = ageOf pf c' simpson o r b ref := by
  rw [Chronology.init] at h h'
  obtain ⟨x, hx, h⟩ := except_bind_eq_ok h
  obtain ⟨x', hx', h'⟩ := except_bind_eq_ok h'
  rw [e, hx'] at hx
  injection hx with hx
  subst hx
  injection h with h
  injection h' with h'
  subst h h'
  have e1 : ∀ t, Chron.a0 ⟨p, linspace 0 5 1000, (linspace 0 5 1000).map (n1Coeff x'.1 x'.2.1 x'.2.2)⟩ t =
      Chron.a0 ⟨p', linspace 0 5 1000, (linspace 0 5 1000).map (n1Coeff x'.1 x'.2.1 x'.2.2)⟩ t := by
    intro t
    simp only [Chron.a0, Chron.N1, e]
  have e2 : ∀ t, Chron.phi ⟨p, linspace 0 5 1000, (linspace 0 5 1000).map (n1Coeff x'.1 x'.2.1 x'.2.2)⟩ t =
      Chron.phi ⟨p', linspace 0 5 1000, (linspace 0 5 1000).map (n1Coeff x'.1 x'.2.1 x'.2.2)⟩ t := by
    intro t
    simp only [Chron.phi, e]
  have e1' := funext e1
  have e2' := funext e2
  unfold ageOf Verif.Age.poissonAge Craterpdf.init Craterpdf.finish
  rw [e1', e2']
  rfl

/-- a line with a plain value -/
theorem line_text (k w : String) (x : TVal) (hk : k.toList ≠ [] ∧ (∀ c ∈ k.toList, (c.isAlphanum || c == '_') = true)) (hd : definedName k.toList = k.toList)
    (hv : ValueText .ascii w.toList) (hx : ValueOf .ascii w.toList x) {rest : List Char} {ids : List (List Char × TVal)} (hr : TextOf .ascii rest ids) :
    TextOf .ascii (k.toList ++ '=' :: (w.toList ++ '\n' :: rest)) ((k.toList, x) :: ids) := by
  have := TextOf.simple (headingOf "" k "" "" (by decide) (keyText_ascii hk.1 hk.2) (by decide) (by decide)) w.toList x rest ids hv hx hr
  simp only [headingOf, hd] at this
  exact this

/-- a list of numbers -/
theorem list_value (xs : List String) (h0 : xs ≠ []) (h : ∀ x ∈ xs, ∀ c ∈ x.toList,
    c ≠ ' ' ∧ c ≠ '\n' ∧ c ≠ ',' ∧ c ≠ '[' ∧ c ≠ ']' ∧ c ≠ '(' ∧ c ≠ ')' ∧ c ≠ '"' ∧ c ≠ '\'') :
    ValueOf .ascii ('[' :: (join [','] (xs.map String.toList) ++ [']'])) (.list (xs.map (fun x => .str x.toList))) := by
  have := PlainOf.array (C := .ascii) '[' ']' (xs.map (fun x => (⟨[], x.toList, [], x.toList⟩ : Item))) (Or.inl ⟨rfl, rfl⟩) (by simpa using h0) (by
    intro i hi
    rw [List.mem_map] at hi
    obtain ⟨x, hx, rfl⟩ := hi
    exact item_plain x (h x hx) [] (by simp))
  refine .plain _ _ (by simp) ?_
  simpa [Item.all, List.map_map, Function.comp_def] using this

/-- a definition -/
theorem definition_text {kind : String} (hk : kind.toList ≠ [] ∧ ∀ c ∈ kind.toList, c.toNat < 128 ∧ (c.isAlphanum || c == '_') = true)
    (inner : List Char) (ids : List (List Char × TVal)) (h : TextOf .ascii inner ids) (hne : ids ≠ []) (hn : (ids.map Prod.fst).Nodup)
    (c1 : Char) (w1 w2 : List Char) (c2 : Char) (e1 : inner = c1 :: w1) (s1 : asciiSpace c1 = false) (e2 : inner = w2 ++ [c2, '\n'])
    (s2 : asciiSpace c2 = false) (hb : ∀ c ∈ inner, c ≠ '{' ∧ c ≠ '}') :
    TextOf .ascii (kind.toList ++ ("={\n ".toList ++ (inner ++ ['}'])) ++ ['\n']) [(kind.toList, .dict (dictOf ids))] := by
  have := example_source hk inner ids h hne hn c1 w1 w2 c2 e1 s1 e2 s2 hb
  cases this with
  | text s ds h ha hb => exact h

def systemIds (n c p b : String) : List (List Char × TVal) :=
  [("name".toList, .str n.toList), ("cf".toList, .str c.toList), ("pf".toList, .str p.toList), ("body".toList, .str b.toList)]

def functionIds (n : String) (xs : List String) : List (List Char × TVal) :=
  [("name".toList, .str n.toList), ("coefficients".toList, .list (xs.map (fun x => .str x.toList)))]

def rangedIds (n : String) (xs ys : List String) : List (List Char × TVal) :=
  [("name".toList, .str n.toList), ("coefficients".toList, .list (xs.map (fun x => .str x.toList))), ("range".toList, .list (ys.map (fun x => .str x.toList)))]

/-- a list of functions with two chronology systems -/
def smallList : List Char :=
   "chronology_system={\n name=Moon, Neukum (1983)\ncf=c\npf=p\nbody=Moon\n}\n".toList ++
   ("chronology_system={\n name=Mars, Hartmann (2005)\ncf=c2\npf=h\nbody=Mars\n}\n".toList ++
   ("chronology={\n name=c\ncoefficients=[0,0,0,2]\n}\n".toList ++
   ("chronology={\n name=c2\ncoefficients=[5e-14,7,0,8e-4]\n}\n".toList ++
   ("production={\n name=p\ncoefficients=[0,-1]\nrange=[1,2.5]\n}\n".toList ++
   "production={\n name=h\ncoefficients=[0,-2]\n}\n".toList))))

def smallDefinitions : List (List Char × TVal) :=
  [("chronology_system".toList, .dict (dictOf (systemIds "Moon, Neukum (1983)" "c" "p" "Moon"))),
   ("chronology_system".toList, .dict (dictOf (systemIds "Mars, Hartmann (2005)" "c2" "h" "Mars"))),
   ("chronology".toList, .dict (dictOf (functionIds "c" ["0", "0", "0", "2"]))),
   ("chronology".toList, .dict (dictOf (functionIds "c2" ["5e-14", "7", "0", "8e-4"]))),
   ("production".toList, .dict (dictOf (rangedIds "p" ["0", "-1"] ["1", "2.5"]))),
   ("production".toList, .dict (dictOf (functionIds "h" ["0", "-2"])))]

theorem name_line (k w : String) (hk : k.toList ≠ [] ∧ (∀ c ∈ k.toList, (c.isAlphanum || c == '_') = true)) (hd : definedName k.toList = k.toList)
    (h0 : w.toList ≠ []) (h1 : ∀ c ∈ w.toList, c ≠ '\n' ∧ c ≠ '{' ∧ c ≠ '"')
    (h2 : ∀ c ∈ w.toList.head?, asciiSpace c = false) (h3 : ∀ c ∈ w.toList.getLast?, asciiSpace c = false)
    (h4 : ∀ c ∈ w.toList.head?, c ≠ '[' ∧ c ≠ '(' ∧ c ≠ '{' ∧ c ≠ '*' ∧ c ≠ '"' ∧ c ≠ '\'')
    {rest : List Char} {ids : List (List Char × TVal)} (hr : TextOf .ascii rest ids) :
    TextOf .ascii (k.toList ++ '=' :: (w.toList ++ '\n' :: rest)) ((k.toList, .str w.toList) :: ids) :=
  line_text k w _ hk hd (valueText_line w h0 h1 h2 h3) (plain_text w h4) hr

theorem nil_text : TextOf .ascii [] [] := .nil [] (by simp)

theorem small_system1 : TextOf .ascii "chronology_system={\n name=Moon, Neukum (1983)\ncf=c\npf=p\nbody=Moon\n}\n".toList
    [("chronology_system".toList, .dict (dictOf (systemIds "Moon, Neukum (1983)" "c" "p" "Moon")))] := by
  have := definition_text (kind := "chronology_system") ⟨by decide, by decide⟩ _ _
    (name_line "name" "Moon, Neukum (1983)" ⟨by decide, by decide⟩ (by decide) (by decide) (by decide) (by decide) (by decide) (by decide)
    (name_line "cf" "c" ⟨by decide, by decide⟩ (by decide) (by decide) (by decide) (by decide) (by decide) (by decide)
    (name_line "pf" "p" ⟨by decide, by decide⟩ (by decide) (by decide) (by decide) (by decide) (by decide) (by decide)
    (name_line "body" "Moon" ⟨by decide, by decide⟩ (by decide) (by decide) (by decide) (by decide) (by decide) (by decide) nil_text))))
    (by simp) (by decide) 'n' "ame=Moon, Neukum (1983)\ncf=c\npf=p\nbody=Moon\n".toList "name=Moon, Neukum (1983)\ncf=c\npf=p\nbody=Moo".toList 'n'
    (by decide +kernel) (by decide) (by decide +kernel) (by decide) (by decide +kernel)
  exact this

theorem small_system2 : TextOf .ascii "chronology_system={\n name=Mars, Hartmann (2005)\ncf=c2\npf=h\nbody=Mars\n}\n".toList
    [("chronology_system".toList, .dict (dictOf (systemIds "Mars, Hartmann (2005)" "c2" "h" "Mars")))] := by
  have := definition_text (kind := "chronology_system") ⟨by decide, by decide⟩ _ _
    (name_line "name" "Mars, Hartmann (2005)" ⟨by decide, by decide⟩ (by decide) (by decide) (by decide) (by decide) (by decide) (by decide)
    (name_line "cf" "c2" ⟨by decide, by decide⟩ (by decide) (by decide) (by decide) (by decide) (by decide) (by decide)
    (name_line "pf" "h" ⟨by decide, by decide⟩ (by decide) (by decide) (by decide) (by decide) (by decide) (by decide)
    (name_line "body" "Mars" ⟨by decide, by decide⟩ (by decide) (by decide) (by decide) (by decide) (by decide) (by decide) nil_text))))
    (by simp) (by decide) 'n' "ame=Mars, Hartmann (2005)\ncf=c2\npf=h\nbody=Mars\n".toList "name=Mars, Hartmann (2005)\ncf=c2\npf=h\nbody=Mar".toList 's'
    (by decide +kernel) (by decide) (by decide +kernel) (by decide) (by decide +kernel)
  exact this

theorem small_chron1 : TextOf .ascii "chronology={\n name=c\ncoefficients=[0,0,0,2]\n}\n".toList [("chronology".toList, .dict (dictOf (functionIds "c" ["0", "0", "0", "2"])))] := by
  have := definition_text (kind := "chronology") ⟨by decide, by decide⟩ _ _
    (name_line "name" "c" ⟨by decide, by decide⟩ (by decide) (by decide) (by decide) (by decide) (by decide) (by decide)
    (line_text "coefficients" "[0,0,0,2]" _ ⟨by decide, by decide⟩ (by decide) (valueText_line _ (by decide) (by decide) (by decide) (by decide))
      (list_value ["0", "0", "0", "2"] (by simp) (by decide)) nil_text))
    (by simp) (by decide) 'n' "ame=c\ncoefficients=[0,0,0,2]\n".toList "name=c\ncoefficients=[0,0,0,2".toList ']'
    (by decide +kernel) (by decide) (by decide +kernel) (by decide) (by decide +kernel)
  exact this

theorem small_chron2 : TextOf .ascii "chronology={\n name=c2\ncoefficients=[5e-14,7,0,8e-4]\n}\n".toList [("chronology".toList, .dict (dictOf (functionIds "c2" ["5e-14", "7", "0", "8e-4"])))] := by
  have := definition_text (kind := "chronology") ⟨by decide, by decide⟩ _ _
    (name_line "name" "c2" ⟨by decide, by decide⟩ (by decide) (by decide) (by decide) (by decide) (by decide) (by decide)
    (line_text "coefficients" "[5e-14,7,0,8e-4]" _ ⟨by decide, by decide⟩ (by decide) (valueText_line _ (by decide) (by decide) (by decide) (by decide))
      (list_value ["5e-14", "7", "0", "8e-4"] (by simp) (by decide)) nil_text))
    (by simp) (by decide) 'n' "ame=c2\ncoefficients=[5e-14,7,0,8e-4]\n".toList "name=c2\ncoefficients=[5e-14,7,0,8e-4".toList ']'
    (by decide +kernel) (by decide) (by decide +kernel) (by decide) (by decide +kernel)
  exact this

theorem small_prod1 : TextOf .ascii "production={\n name=p\ncoefficients=[0,-1]\nrange=[1,2.5]\n}\n".toList [("production".toList, .dict (dictOf (rangedIds "p" ["0", "-1"] ["1", "2.5"])))] := by
  have := definition_text (kind := "production") ⟨by decide, by decide⟩ _ _
    (name_line "name" "p" ⟨by decide, by decide⟩ (by decide) (by decide) (by decide) (by decide) (by decide) (by decide)
    (line_text "coefficients" "[0,-1]" _ ⟨by decide, by decide⟩ (by decide) (valueText_line _ (by decide) (by decide) (by decide) (by decide))
      (list_value ["0", "-1"] (by simp) (by decide)) (line_text "range" "[1,2.5]" _ ⟨by decide, by decide⟩ (by decide) (valueText_line _ (by decide) (by decide) (by decide) (by decide))
      (list_value ["1", "2.5"] (by simp) (by decide)) nil_text)))
    (by simp) (by decide) 'n' "ame=p\ncoefficients=[0,-1]\nrange=[1,2.5]\n".toList "name=p\ncoefficients=[0,-1]\nrange=[1,2.5".toList ']'
    (by decide +kernel) (by decide) (by decide +kernel) (by decide) (by decide +kernel)
  exact this

theorem small_prod2 : TextOf .ascii "production={\n name=h\ncoefficients=[0,-2]\n}\n".toList [("production".toList, .dict (dictOf (functionIds "h" ["0", "-2"])))] := by
  have := definition_text (kind := "production") ⟨by decide, by decide⟩ _ _
    (name_line "name" "h" ⟨by decide, by decide⟩ (by decide) (by decide) (by decide) (by decide) (by decide) (by decide)
    (line_text "coefficients" "[0,-2]" _ ⟨by decide, by decide⟩ (by decide) (valueText_line _ (by decide) (by decide) (by decide) (by decide))
      (list_value ["0", "-2"] (by simp) (by decide)) nil_text))
    (by simp) (by decide) 'n' "ame=h\ncoefficients=[0,-2]\n".toList "name=h\ncoefficients=[0,-2".toList ']'
    (by decide +kernel) (by decide) (by decide +kernel) (by decide) (by decide +kernel)
  exact this

theorem small_text : TextOf .ascii smallList smallDefinitions := by
  have ends : ∀ s : String, s.toList.getLast? = some '\n' → s.toList = [] ∨ s.toList.getLast? = some '\n' := fun _ h => .inr h
  have q : ∀ (k : String) (ids : List (List Char × TVal)), ∀ d ∈ [(k.toList, TVal.dict (dictOf ids))], ∀ t, d.2 ≠ .str ('\n' :: t) := by
    intro k ids d hd t
    rw [List.mem_singleton] at hd
    subst hd
    exact nofun
  have := textOf_append small_system1 (textOf_append small_system2 (textOf_append small_chron1 (textOf_append small_chron2
    (textOf_append small_prod1 small_prod2 (ends _ (by decide +kernel)) (q _ _)) (ends _ (by decide +kernel)) (q _ _)) (ends _ (by decide +kernel)) (q _ _))
    (ends _ (by decide +kernel)) (q _ _)) (ends _ (by decide +kernel)) (q _ _)
  exact this

theorem small_list : FunctionList .ascii smallList smallDefinitions := by
  have ht : functionText .ascii smallList = smallList := by decide +kernel
  refine ⟨by rw [ht]; exact small_text, by rw [ht]; decide +kernel, ?_, ?_⟩
  · intro d hd l
    simp only [smallDefinitions, List.mem_cons, List.not_mem_nil, or_false] at hd
    rcases hd with rfl | rfl | rfl | rfl | rfl | rfl <;> exact nofun
  · intro d hd l
    simp only [smallDefinitions, List.mem_cons, List.not_mem_nil, or_false] at hd
    rcases hd with rfl | rfl | rfl | rfl | rfl | rfl <;> exact nofun

def smallDisk : Disk := ⟨smallList, fun _ => none⟩

theorem small_source : ∃ v, loadFunctions .ascii none smallDisk = .ok v ∧ SourceOf .ascii (.dict v) smallDefinitions := by
  obtain ⟨v, h1, _⟩ := C109_builtin .ascii none smallDisk (nofun) smallDefinitions small_list (List.cons_ne_nil _ _)
  exact ⟨_, h1, .program none smallDisk _ _ (nofun) small_list (List.cons_ne_nil _ _) h1⟩

theorem small_systems : List.Forall₂ SystemEntry (occurrences smallDefinitions "chronology_system".toList) exEnv.systems := by
  have e : occurrences smallDefinitions "chronology_system".toList = [.dict (dictOf (systemIds "Moon, Neukum (1983)" "c" "p" "Moon")),
      .dict (dictOf (systemIds "Mars, Hartmann (2005)" "c2" "h" "Mars"))] := by decide +kernel
  rw [e]
  exact .cons ⟨_, rfl, by decide +kernel, by decide +kernel, by decide +kernel, by decide +kernel⟩
    (.cons ⟨_, rfl, by decide +kernel, by decide +kernel, by decide +kernel, by decide +kernel⟩ .nil)

theorem small_functions : FunctionsDefined smallDefinitions ⟨"Moon, Neukum (1983)".toList, "c".toList, "p".toList, "Moon".toList⟩ [0, 0, 0, 2] [0, -1] (1, 2.5) := by
  have e1 : occurrences smallDefinitions "chronology".toList = [.dict (dictOf (functionIds "c" ["0", "0", "0", "2"])),
      .dict (dictOf (functionIds "c2" ["5e-14", "7", "0", "8e-4"]))] := by decide +kernel
  have e2 : occurrences smallDefinitions "production".toList = [.dict (dictOf (rangedIds "p" ["0", "-1"] ["1", "2.5"])),
      .dict (dictOf (functionIds "h" ["0", "-2"]))] := by decide +kernel
  refine ⟨⟨_, ⟨[], _, e1, by decide +kernel, by simp⟩, ["0".toList, "0".toList, "0".toList, "2".toList], by decide +kernel,
    .cons (by decide +kernel) (.cons (by decide +kernel) (.cons (by decide +kernel) (.cons (by decide +kernel) .nil)))⟩,
    _, ⟨[], _, e2, by decide +kernel, by simp⟩, .inl (by unfold NoEntry; decide +kernel), ⟨["0".toList, "-1".toList], by decide +kernel,
      .cons (by decide +kernel) (.cons (by decide +kernel) .nil)⟩, .inr ⟨1, 5 / 2, ⟨["1".toList, "2.5".toList], by decide +kernel,
      .cons (by decide +kernel) (.cons (by decide +kernel) .nil)⟩, by norm_num⟩, .inl (by unfold NoEntry; decide +kernel)⟩

theorem sample_system {lower : Char → Char} {names : List (List Char)} {name : List Char} (h : SystemAsked lower names ageGiven name) :
    name = "Moon, Neukum (1983)".toList := by
  rcases h with ⟨_, h⟩ | ⟨t, k, ⟨pre, post, e, _⟩, _⟩
  · exact h
  · exact absurd rfl (sample_no "chronology_system" (by decide) ⟨"chronology_system".toList, [t]⟩
      (by rw [e]; exact List.mem_append_right _ List.mem_cons_self))

/-- the settings of the sample -/
theorem sample_settings {st : CmdState} {P : Prepared Opened (EReal × EReal)} (hst : runCommand .ascii (fun _ => false) ageFiles 1 "/u/".toList ageWords = .ok st)
    (hP : prepareRun ageEnv st = .ok P) : numberAttr P.set "ref_diameter" = .ok 1 ∧ numberAttr P.set "mu" = .ok 1 := by
  obtain ⟨st', h1, hdisp⟩ := C141_display_partial .ascii (fun _ => false) ageFiles "/u/".toList ageWords ageGiven ageGiven "/u/".toList 0 sample_words
    sample_expands 1 (by omega) ageEnv (fun _ => rfl)
  rw [hst] at h1
  injection h1 with h1
  subst h1
  obtain ⟨p, _, _, hd⟩ := hdisp P hP
  obtain ⟨w, w1, w2⟩ := (hd "ref_diameter" (by decide) (fun _ => by decide)).2 (sample_no _ (by decide))
  obtain ⟨u, u1, u2⟩ := (hd "mu" (by decide) (fun _ => by decide)).2 (sample_no _ (by decide))
  obtain rfl := standard_ref w1
  obtain rfl := standard_mu u1
  constructor
  · unfold numberAttr
    rw [w2]
    dsimp only
    norm_num
  · unfold numberAttr
    rw [u2]
    dsimp only
    norm_num

theorem sample_named {st : CmdState} {P : Prepared Opened (EReal × EReal)} (hst : runCommand .ascii (fun _ => false) ageFiles 1 "/u/".toList ageWords = .ok st)
    (hP : prepareRun ageEnv st = .ok P) : getStr P.settings "chronology_system" = .ok "Moon, Neukum (1983)".toList := by
  obtain ⟨st', h1, hcwd, hs⟩ := C133_in_place_partial .ascii (fun _ => false) ageFiles "/u/".toList ageWords ageGiven ageGiven "/u/".toList 0 sample_words
    sample_expands 1 (by omega)
  rw [hst] at h1
  injection h1 with h1
  subst h1
  obtain ⟨c0, p0, specs, ds, c1, ratio, dark, r1, r2, r3, r4, r5, r6, r7, r8⟩ := run_ok hP
  rw [hcwd] at r1 r5
  have n0 := settings_nodup r1
  obtain ⟨n1, e1⟩ := defaultName_keys r5 n0
  obtain ⟨n2, e2⟩ := legend_keys r6 n1
  have hnl : ∀ s ∈ (ageEnv "/u/".toList).set.systems, '\n' ∉ s.name := by
    show ∀ s ∈ exEnv.systems, '\n' ∉ s.name
    decide +kernel
  obtain ⟨name, i, s, q1, q2, q3, q4, _, _, q5, q6⟩ := C60_system (ageEnv "/u/".toList).set hnl _ _ r1
  have hn := q5 ((args_last hs "chronology_system" (by decide)).2 (sample_no _ (by decide)))
  rw [getStr, e2 _ (by decide), e1 _ (by decide), q1, hn]

theorem small_production {v : TVal} (h : SourceOf .ascii (.dict v) smallDefinitions) :
    makeProduction .ascii (.dict v) "p".toList false = .ok (some (initPoly [0, -1] (some (1, 2.5)))) := by
  have hpn : 2 ≤ (occurrences smallDefinitions "production".toList).length := by decide +kernel
  have e2 : occurrences smallDefinitions "production".toList = [.dict (dictOf (rangedIds "p" ["0", "-1"] ["1", "2.5"])),
      .dict (dictOf (functionIds "h" ["0", "-2"]))] := by decide +kernel
  have f3 : FirstNamed (occurrences smallDefinitions "production".toList) "p".toList (rangedIds "p" ["0", "-1"] ["1", "2.5"]) :=
    ⟨[], _, e2, by decide +kernel, by simp⟩
  have f4 : NoEntry (rangedIds "p" ["0", "-1"] ["1", "2.5"]) "type" := by unfold NoEntry; decide +kernel
  have f5 : NumberEntry (rangedIds "p" ["0", "-1"] ["1", "2.5"]) "coefficients" [0, -1] :=
    ⟨["0".toList, "-1".toList], by decide +kernel, .cons (by decide +kernel) (.cons (by decide +kernel) .nil)⟩
  have f6 : NumberEntry (rangedIds "p" ["0", "-1"] ["1", "2.5"]) "range" [1, 5 / 2] :=
    ⟨["1".toList, "2.5".toList], by decide +kernel, .cons (by decide +kernel) (.cons (by decide +kernel) .nil)⟩
  have f7 : NoEntry (rangedIds "p" ["0", "-1"] ["1", "2.5"]) "yrange" := by unfold NoEntry; decide +kernel
  have hk : definitionOf .ascii (productionKind false) (.dict v) "p".toList = .ok (.dict (dictOf (rangedIds "p" ["0", "-1"] ["1", "2.5"]))) :=
    definition_found h (production_word false) hpn f3
  have ht : typeField (.dict (dictOf (rangedIds "p" ["0", "-1"] ["1", "2.5"]))) = .ok (.str "polynomial".toList) := by
    rw [typeField, if_neg (by rw [has_noEntry f4]; simp)]
  rw [makeProduction, hk, ok_bind, ht, ok_bind, pairField_some f6, ok_bind, pairField_none f7, ok_bind, makeByType, if_pos rfl, floats_entry f5, ok_bind]
  norm_num

theorem small_chronology {v : TVal} (h : SourceOf .ascii (.dict v) smallDefinitions) : ∃ c, makeChronology .ascii (.dict v) "c".toList = .ok c ∧
    Chronology.init [0, 0, 0, 2] = .ok c := by
  have hcn : 2 ≤ (occurrences smallDefinitions "chronology".toList).length := by decide +kernel
  obtain ⟨⟨idc, f1, f2⟩, _⟩ := small_functions
  obtain ⟨c, hc, _⟩ := C132_chronology .ascii _ _ h hcn _ _ f1 0 0 0 2 [] f2
  refine ⟨c, hc, ?_⟩
  rw [makeChronology, definition_found h chronology_word hcn f1, ok_bind, if_pos (has_entry f2), floats_entry f2, ok_bind] at hc
  have e : ([0, 0, 0, 2] : List ℚ).map (fun q : ℚ => (q : ℝ)) = [0, 0, 0, 2] := by norm_num
  rw [e] at hc
  cases hi : Chronology.init [0, 0, 0, 2] with
  | ok c' =>
    rw [hi] at hc
    injection hc with hc
    rw [hc]
  | error e =>
    rw [hi] at hc
    cases hc

/-- the command of the sample with the functions of the small list: of the four craters of the file three are in the range of the production function -/
example (T : TableRow.Env) (hT : ∀ x, OneField (T.floatStr x)) (plotPF : PFn → PF) : ∃ v st P t row,
    loadFunctions .ascii none smallDisk = .ok v ∧
    runCommand .ascii (fun _ => false) ageFiles 1 "/u/".toList ageWords = .ok st ∧ prepareRun ageEnv st = .ok P ∧
    runTable .ascii v { T with simpson := fun _ _ => 0 } plotPF P = .ok (some t) ∧
    (split '\n' t)[3]? = some row ∧ (split ',' row)[0]? = some "m".toList ∧ Field (split ',' row) 7 (fun s => decVal s = some 3) := by
  obtain ⟨v, hv, hsrc⟩ := small_source
  obtain ⟨st, P, hst, hP⟩ := sample_runs
  obtain ⟨T', hT'⟩ : ∃ T' : TableRow.Env, T' = { T with simpson := fun _ _ => 0 } := ⟨_, rfl⟩
  have hfl : ∀ x, OneField (T'.floatStr x) := by subst hT'; exact hT
  have hlist := C153_list .ascii v _ hsrc _ small_systems (by decide)
  have hcn : 2 ≤ (occurrences smallDefinitions "chronology".toList).length := by decide +kernel
  have hpn : 2 ≤ (occurrences smallDefinitions "production".toList).length := by decide +kernel
  obtain ⟨c, hc, hinit⟩ := small_chronology hsrc
  have hgood : GoodChron c 0 0 2 := ⟨_, hinit, rfl, rfl, rfl, le_rfl, le_rfl, two_pos⟩
  obtain ⟨hl, ho, c', res, hg, hN, hres⟩ := sample_count.choose_spec.choose_spec
  obtain ⟨p', hp', e0, e1, e3, _⟩ := hg
  have hco : coeffs p' = coeffs [0, 0, 0, 2] := by
    unfold coeffs
    rw [e0, e1, e3]
    rfl
  have hres' : ageOf (initPoly [0, -1] (some (1, 2.5))) c (fun _ _ => 0) sampleOpened (0, ⊤) false 1 = .ok res := by
    rw [← age_of_chron hp' hinit hco]
    exact hres
  obtain ⟨t1, t2⟩ := sample_settings hst hP
  have hfun : systemFunctions .ascii v "Moon, Neukum (1983)".toList = .ok (c, initPoly [0, -1] (some (1, 2.5))) := by
    have hfind : exEnv.systems.find? (fun s => s.name = "Moon, Neukum (1983)".toList) =
        some ⟨"Moon, Neukum (1983)".toList, "c".toList, "p".toList, "Moon".toList⟩ := by decide +kernel
    unfold systemFunctions
    rw [hlist, ok_bind, hfind]
    dsimp only
    rw [hc, ok_bind, small_production hsrc, ok_bind]
  obtain ⟨out, hout⟩ : ∃ out, runTable .ascii v T' plotPF P = .ok out := by
    unfold runTable
    rw [sample_named hst hP, ok_bind, hfun, ok_bind, t1, ok_bind, t2, ok_bind]
    have := sample_written ⟨.ascii, T'.ρ, T'.floatStr, initPoly [0, -1] (some (1, 2.5)), plotPF (initPoly [0, -1] (some (1, 2.5))), c, T'.simpson, T'.curveFit,
      1, decide ((1 : ℝ) ≠ 0)⟩ hfl res hgood (by subst hT'; exact hres') st P hst hP
    exact this
  obtain ⟨st', hst', hfile⟩ := C153_file_partial .ascii (fun _ => false) ageFiles "/u/".toList ageWords ageGiven ageGiven "/u/".toList 0 sample_words sample_expands 1
    (by omega) ageEnv (fun _ => rfl) rfl sample_noload v smallDefinitions hsrc exEnv.systems small_systems (by decide) hcn hpn rfl (by decide +kernel) T' hfl plotPF
  rw [hst] at hst'
  injection hst' with hst'
  subst hst'
  obtain ⟨i, s, s1, _, s2, s3⟩ := hfile P out hP hout
  have hs : s = ⟨"Moon, Neukum (1983)".toList, "c".toList, "p".toList, "Moon".toList⟩ := by
    have hn := sample_system s2
    have : ∀ s ∈ exEnv.systems, s.name = "Moon, Neukum (1983)".toList → s = ⟨"Moon, Neukum (1983)".toList, "c".toList, "p".toList, "Moon".toList⟩ := by
      decide +kernel
    exact this s (List.mem_of_getElem? s1) hn
  subst hs
  obtain ⟨p, input, items, g1, g2, g3, g4⟩ := s3 0 0 0 2 [] 0 [-1] (1, 2.5) small_functions le_rfl le_rfl (by norm_num) (by norm_num) (by norm_num) 2
    (by norm_num) (by norm_num)
  obtain rfl := sample_presented g1
  obtain rfl := sample_input g2
  obtain rfl := sample_items g3
  obtain ⟨t, row, c', r, pdf, lo, hi, k1, k2, k3, k4, k5, k6, k7, _, k9, _⟩ := g4 agePlotEnv rfl sample_plain [askData, askAge] sample_asked sample_fitting 0 askAge
    (.error .system) sampleFile [1, 3, 3 / 2, 2] [1, 1, 1 / 2, 1] 10 (by rw [sample_ages]; rfl) hl (sample_load.trans ho.symm)
  have ho' : openCount .ascii (.error .system) ".diam".toList sampleFile = .ok sampleOpened := ho
  rw [ho'] at k3
  injection k3 with k3
  subst k3
  obtain rfl := sample_range r k4
  refine ⟨v, st, P, t, row, hv, hst, hP, ?_, k2, k7, ?_⟩
  · rw [← hT', hout, k1]
  · have l1 : lo = 1 := by
      rw [k5]
      show clipE 0 1 2.5 = 1
      unfold clipE
      rw [max_eq_right (by exact_mod_cast (zero_le_one : (0 : ℝ) ≤ 1)), min_eq_right (by exact_mod_cast (by norm_num : (1 : ℝ) ≤ 2.5))]
      exact EReal.toReal_coe _
    have l2 : hi = 2.5 := by
      rw [k6]
      show clipE ⊤ 1 2.5 = 2.5
      unfold clipE
      rw [max_eq_left le_top, min_eq_left le_top]
      exact EReal.toReal_coe _
    obtain ⟨s, hs, h⟩ := k9
    refine ⟨s, hs, ?_⟩
    show decVal s = some 3
    rw [h, l1, l2]
    norm_num [List.countP_cons]

/-! a list of the user, with a further chronology system whose production function is a table -/

def userList : List Char :=
  "chronology_system={\n name=Moon, mine\ncf=c\npf=T\nbody=Moon\n}\n".toList ++
  "production={\n name=T\ntype='tabular incremental root-2'\nH=[3,1]\nindex_1km=0\n}\n".toList

def tableIds : List (List Char × TVal) :=
  [("name".toList, .str "T".toList), ("type".toList, .str "tabular incremental root-2".toList), ("H".toList, .list [.str "3".toList, .str "1".toList]),
   ("index_1km".toList, .str "0".toList)]

def userDefinitions : List (List Char × TVal) :=
  [("chronology_system".toList, .dict (dictOf (systemIds "Moon, mine" "c" "T" "Moon"))), ("production".toList, .dict (dictOf tableIds))]

theorem user_system : TextOf .ascii "chronology_system={\n name=Moon, mine\ncf=c\npf=T\nbody=Moon\n}\n".toList
    [("chronology_system".toList, .dict (dictOf (systemIds "Moon, mine" "c" "T" "Moon")))] := by
  have := definition_text (kind := "chronology_system") ⟨by decide, by decide⟩ _ _
    (name_line "name" "Moon, mine" ⟨by decide, by decide⟩ (by decide) (by decide) (by decide) (by decide) (by decide) (by decide)
    (name_line "cf" "c" ⟨by decide, by decide⟩ (by decide) (by decide) (by decide) (by decide) (by decide) (by decide)
    (name_line "pf" "T" ⟨by decide, by decide⟩ (by decide) (by decide) (by decide) (by decide) (by decide) (by decide)
    (name_line "body" "Moon" ⟨by decide, by decide⟩ (by decide) (by decide) (by decide) (by decide) (by decide) (by decide) nil_text))))
    (by simp) (by decide) 'n' "ame=Moon, mine\ncf=c\npf=T\nbody=Moon\n".toList "name=Moon, mine\ncf=c\npf=T\nbody=Moo".toList 'n'
    (by decide +kernel) (by decide) (by decide +kernel) (by decide) (by decide +kernel)
  exact this

theorem user_production : TextOf .ascii "production={\n name=T\ntype='tabular incremental root-2'\nH=[3,1]\nindex_1km=0\n}\n".toList
    [("production".toList, .dict (dictOf tableIds))] := by
  have := definition_text (kind := "production") ⟨by decide, by decide⟩ _ _
    (name_line "name" "T" ⟨by decide, by decide⟩ (by decide) (by decide) (by decide) (by decide) (by decide) (by decide)
    (line_text "type" "'tabular incremental root-2'" _ ⟨by decide, by decide⟩ (by decide) (valueText_line _ (by decide) (by decide) (by decide) (by decide))
      (.plain _ _ (by decide) (.text _ _ (by decide) (.quoted '\'' "tabular incremental root-2".toList (Or.inr rfl))))
    (line_text "H" "[3,1]" _ ⟨by decide, by decide⟩ (by decide) (valueText_line _ (by decide) (by decide) (by decide) (by decide))
      (list_value ["3", "1"] (by simp) (by decide))
    (name_line "index_1km" "0" ⟨by decide, by decide⟩ (by decide) (by decide) (by decide) (by decide) (by decide) (by decide) nil_text))))
    (by simp) (by decide) 'n' "ame=T\ntype='tabular incremental root-2'\nH=[3,1]\nindex_1km=0\n".toList
    "name=T\ntype='tabular incremental root-2'\nH=[3,1]\nindex_1km=".toList '0'
    (by decide +kernel) (by decide) (by decide +kernel) (by decide) (by decide +kernel)
  exact this

def userDisk : Disk := ⟨smallList, fun f => if f = "cfg".toList then some "#path to functions_user.txt\nmine.txt".toList else
  if f = "mine.txt".toList then some userList else none⟩

/-- with this list of the user there are three chronology systems, and the numbers of the third one are those of its chronology, in the list of the program, and of its table -/
example : ∃ v, loadFunctions .ascii (some "cfg".toList) userDisk = .ok v ∧ SourceOf .ascii (.dict v) (smallDefinitions ++ userDefinitions) ∧
    systemsOf v = .ok (exEnv.systems ++ [⟨"Moon, mine".toList, "c".toList, "T".toList, "Moon".toList⟩]) ∧
    TableDefined (smallDefinitions ++ userDefinitions) ⟨"Moon, mine".toList, "c".toList, "T".toList, "Moon".toList⟩ [0, 0, 0, 2] [3, 1] 0 := by
  have ht : functionText .ascii userList = userList := by decide +kernel
  have htext : TextOf .ascii (functionText .ascii userList) userDefinitions := by
    rw [ht]
    refine textOf_append user_system user_production (.inr (by decide +kernel)) ?_
    intro d hd t
    rw [List.mem_singleton] at hd
    subst hd
    exact nofun
  have ha : ∀ x ∈ userDefinitions, ∀ l, x.2 ≠ .list l := by
    intro d hd l
    simp only [userDefinitions, List.mem_cons, List.not_mem_nil, or_false] at hd
    rcases hd with rfl | rfl <;> exact nofun
  have hp : readTextfile .ascii none false true false "#path to functions_user.txt\nmine.txt".toList = ["mine.txt".toList] := by decide +kernel
  obtain ⟨v, h1, _⟩ := C109_functions .ascii "cfg".toList _ "mine.txt".toList userList [] userDisk smallDefinitions userDefinitions small_list
    (List.cons_ne_nil _ _) rfl hp (by decide) (by decide +kernel) htext ha
  have hsrc : SourceOf .ascii (.dict (.dict v)) (smallDefinitions ++ userDefinitions) :=
    .extended "cfg".toList _ "mine.txt".toList userList [] userDisk _ smallDefinitions userDefinitions rfl hp (by decide) (by decide +kernel) small_list
      (List.cons_ne_nil _ _) htext ha h1
  refine ⟨_, h1, hsrc, C153_list .ascii _ _ hsrc _ ?_ (by decide), ?_⟩
  · rw [occurrences_append]
    refine List.rel_append small_systems ?_
    have e : occurrences userDefinitions "chronology_system".toList = [.dict (dictOf (systemIds "Moon, mine" "c" "T" "Moon"))] := by decide +kernel
    rw [e]
    exact .cons ⟨_, rfl, by decide +kernel, by decide +kernel, by decide +kernel, by decide +kernel⟩ .nil
  · have e1 : occurrences (smallDefinitions ++ userDefinitions) "chronology".toList = [.dict (dictOf (functionIds "c" ["0", "0", "0", "2"])),
        .dict (dictOf (functionIds "c2" ["5e-14", "7", "0", "8e-4"]))] := by decide +kernel
    have e2 : occurrences (smallDefinitions ++ userDefinitions) "production".toList = [.dict (dictOf (rangedIds "p" ["0", "-1"] ["1", "2.5"])),
        .dict (dictOf (functionIds "h" ["0", "-2"]))] ++ .dict (dictOf tableIds) :: [] := by decide +kernel
    refine ⟨⟨_, ⟨[], _, e1, by decide +kernel, by simp⟩, ["0".toList, "0".toList, "0".toList, "2".toList], by decide +kernel,
      .cons (by decide +kernel) (.cons (by decide +kernel) (.cons (by decide +kernel) (.cons (by decide +kernel) .nil)))⟩,
      tableIds, ⟨_, _, e2, by decide +kernel, ?_⟩, by decide +kernel, ⟨["3".toList, "1".toList], by decide +kernel,
      .cons (by decide +kernel) (.cons (by decide +kernel) .nil)⟩, by simp, "0".toList, by simp, by decide +kernel, by decide +kernel,
      ⟨_, .inl ⟨by unfold NoEntry; decide +kernel, rfl⟩⟩, .inl (by unfold NoEntry; decide +kernel)⟩
    intro e he
    rcases List.mem_cons.1 he with rfl | he
    · exact ⟨_, "p".toList, rfl, by decide +kernel, by decide⟩
    · rw [List.mem_singleton] at he
      subst he
      exact ⟨_, "h".toList, rfl, by decide +kernel, by decide⟩

end

end Verif.Props
