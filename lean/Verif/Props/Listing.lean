import Verif.Model.Listing
import Verif.Props.FunctionRun

/-!
C154: the lists printed on the screen name what can be chosen.
-/

namespace Verif.Props

open Verif.Py Verif.Text Verif.Rand Verif.Cli Verif.PlotObject
open Verif.CountFile Verif.Cratercount Verif.Chronology Verif.Production Verif.Craterpdf Verif.Age Verif.FileAge Verif.TableRow Verif.RunAges Verif.FunctionRun

noncomputable section

/-- Specification: a definition has a name -/
def NameEntry (e : TVal) (name : List Char) : Prop := ∃ ids, e = .dict (dictOf ids) ∧ occurrences ids "name".toList = [.str name]

theorem printAll_cons (t : List Char) (l : List (List Char)) : printAll (t :: l) = t ++ '\n' :: printAll l := by
  rw [printAll, List.map_cons, List.flatten_cons, List.append_assoc]
  rfl

theorem split_printed {l : List (List Char)} (h : ∀ t ∈ l, '\n' ∉ t) (s : List Char) : split '\n' (printAll l ++ s) = l ++ split '\n' s := by
  induction l with
  | nil => rfl
  | cons t l ih =>
    rw [printAll_cons, List.append_assoc, List.cons_append, split_append (h t List.mem_cons_self), ih (fun x hx => h x (List.mem_cons_of_mem _ hx))]
    rfl

theorem split_joined {l : List (List Char)} (h : ∀ t ∈ l, '\n' ∉ t) (h0 : l ≠ []) (s : List Char) :
    split '\n' (join ['\n'] l ++ '\n' :: s) = l ++ split '\n' s := by
  induction l with
  | nil => exact absurd rfl h0
  | cons t l ih =>
    cases l with
    | nil => exact split_append (h t List.mem_cons_self) s
    | cons u l =>
      have e : join ['\n'] (t :: u :: l) ++ '\n' :: s = t ++ '\n' :: (join ['\n'] (u :: l) ++ '\n' :: s) := by
        simp [join]
      rw [e, split_append (h t List.mem_cons_self), ih (fun x hx => h x (List.mem_cons_of_mem _ hx)) (List.cons_ne_nil _ _)]
      rfl

theorem names_listed {C : Classes} {v : TVal} {ds : List (List Char × TVal)} (h : SourceOf C (.dict v) ds) {kind : String} {names : List (List Char)}
    (hn : List.Forall₂ NameEntry (occurrences ds kind.toList) names) (h2 : 2 ≤ names.length) : namesIn v kind = .ok names := by
  obtain ⟨v', rfl, h3⟩ := source_sections h
  rw [namesIn, sectionOf_many (h3 _) (by rw [hn.length_eq]; exact h2)]
  dsimp only
  apply mapM_given
  refine hn.imp ?_
  rintro e s ⟨ids, rfl, e1⟩
  rw [textField, tget_dictOf e1]
  rfl

/-- a heading and the lines under it -/
theorem split_section {heading : List Char} (hh : '\n' ∉ heading) {l : List (List Char)} (h : ∀ t ∈ l, '\n' ∉ t) (h0 : l ≠ []) (s : List Char) :
    split '\n' (bright ('\n' :: heading) ++ '\n' :: (join ['\n'] l ++ '\n' :: s)) =
      "\x1b[1m".toList :: (heading ++ "\x1b[0m".toList) :: (l ++ split '\n' s) := by
  have e : bright ('\n' :: heading) ++ '\n' :: (join ['\n'] l ++ '\n' :: s) =
      "\x1b[1m".toList ++ '\n' :: ((heading ++ "\x1b[0m".toList) ++ '\n' :: (join ['\n'] l ++ '\n' :: s)) := by
    rw [bright]
    simp only [List.append_assoc, List.cons_append]
  have h1 : '\n' ∉ "\x1b[1m".toList := by decide
  have h2 : '\n' ∉ heading ++ "\x1b[0m".toList := by
    rw [List.mem_append]
    rintro (h | h)
    · exact hh h
    · exact absurd h (by decide)
  rw [e, split_append h1, split_append h2, split_joined h h0]

/-- **C154, functions.** The lines printed are a heading and the names of the chronology systems, then of the equilibrium functions, then of the systems of epochs, each in the order
of the list of functions. -/
theorem C154_functions (C : Classes) (v : TVal) (ds : List (List Char × TVal)) (h : SourceOf C (.dict v) ds) (systems equilibria epochs : List (List Char))
    (h1 : List.Forall₂ NameEntry (occurrences ds "chronology_system".toList) systems) (h2 : List.Forall₂ NameEntry (occurrences ds "equilibrium".toList) equilibria)
    (h3 : List.Forall₂ NameEntry (occurrences ds "epochs".toList) epochs) (l1 : 2 ≤ systems.length) (l2 : 2 ≤ equilibria.length) (l3 : 2 ≤ epochs.length)
    (hn : ∀ t ∈ systems ++ equilibria ++ epochs, '\n' ∉ t) :
    ∃ out, printFunctions v = .ok out ∧ split '\n' out =
      "\x1b[1m".toList :: "Chronology systems:\x1b[0m".toList :: (systems ++
      "\x1b[1m".toList :: "Equilibrium functions:\x1b[0m".toList :: (equilibria ++
      "\x1b[1m".toList :: "Epoch systems:\x1b[0m".toList :: (epochs ++ [[]]))) := by
  have ne : ∀ {l : List (List Char)}, 2 ≤ l.length → l ≠ [] := by
    rintro l hl rfl
    simp at hl
  refine ⟨_, by rw [printFunctions, names_listed h h1 l1, ok_bind, names_listed h h2 l2, ok_bind, names_listed h h3 l3, ok_bind], ?_⟩
  rw [printAll_cons, printAll_cons, printAll_cons, printAll_cons, printAll_cons, printAll_cons]
  have e1 := split_section (heading := "Chronology systems:".toList) (by decide) (l := systems) (fun t ht => hn t (by simp [ht])) (ne l1)
  have e2 := split_section (heading := "Equilibrium functions:".toList) (by decide) (l := equilibria) (fun t ht => hn t (by simp [ht])) (ne l2)
  have e3 := split_section (heading := "Epoch systems:".toList) (by decide) (l := epochs) (fun t ht => hn t (by simp [ht])) (ne l3)
  have c1 : "\nChronology systems:".toList = '\n' :: "Chronology systems:".toList := by decide +kernel
  have c2 : "\nEquilibrium functions:".toList = '\n' :: "Equilibrium functions:".toList := by decide +kernel
  have c3 : "\nEpoch systems:".toList = '\n' :: "Epoch systems:".toList := by decide +kernel
  have d1 : "Chronology systems:\x1b[0m".toList = "Chronology systems:".toList ++ "\x1b[0m".toList := by decide +kernel
  have d2 : "Equilibrium functions:\x1b[0m".toList = "Equilibrium functions:".toList ++ "\x1b[0m".toList := by decide +kernel
  have d3 : "Epoch systems:\x1b[0m".toList = "Epoch systems:".toList ++ "\x1b[0m".toList := by decide +kernel
  rw [c1, c2, c3, e1, e2, e3, d1, d2, d3]
  rfl

/-- **C154, selection.** A line printed under the first heading, given after `-cs` in full, selects the chronology system of this name for the table of ages, if it has no star, its brackets are closed, and
there is no other name, at most as long, with the same characters (brackets apart) in this order. -/
theorem C154_typed_partial (C : Classes) (isNeg : List Char → Bool) (F : FileSys) (cwd : List Char) (words : List (List Char))
    (l flat : List Given) (cwd' : List Char) (n : ℕ) (hw : CommandOf isNeg words l) (h : Expands C isNeg F cwd l flat cwd' n)
    (depth : ℕ) (hd : n ≤ depth) (E : List Char → RunEnv Opened (EReal × EReal)) (hE : ∀ d, (E d).set.classes = C)
    (v : TVal) (ds : List (List Char × TVal)) (hv : SourceOf C (.dict v) ds) (systems : List System)
    (hsys : List.Forall₂ SystemEntry (occurrences ds "chronology_system".toList) systems) (h2 : 2 ≤ systems.length)
    (hset : (E cwd').set.systems = systems) (hnl : ∀ s ∈ systems, '\n' ∉ s.name) (T : TableRow.Env) (plotPF : PFn → PF)
    (out : List Char) (hout : printFunctions v = .ok out) (i : ℕ) (hi : i < systems.length) (t : List Char) (ht : (split '\n' out)[2 + i]? = some t)
    (hl : OptionLast flat "chronology_system" [t]) (hwf : WellFormed t)
    (hother : ∀ s ∈ systems, s.name ≠ t → s.name.length ≤ t.length → ¬ Abbreviates (E cwd').set.lower t s.name) :
    ∃ st, runCommand C isNeg F depth cwd words = .ok st ∧ ∀ P tab, prepareRun E st = .ok P → runTable C v T plotPF P = .ok tab →
      ∃ j s c f ref mu, systems[j]? = some s ∧ s.name = t ∧ (∀ (k : ℕ) s', k < j → systems[k]? = some s' → s'.name ≠ t) ∧ j ≤ i ∧
        makeChronology C (.dict v) s.cf = .ok c ∧ makeProduction C (.dict v) s.pf false = .ok (some f) ∧
        table { T with classes := C, chron := c, pf := f, plotPF := plotPF f, ref := ref, mu := mu } P.plots = .ok tab := by
  have hnames : List.Forall₂ NameEntry (occurrences ds "chronology_system".toList) (systems.map System.name) := by
    rw [List.forall₂_map_right_iff]
    exact hsys.imp (fun e s ⟨ids, e1, e2, _⟩ => ⟨ids, e1, e2⟩)
  have hti : systems[i]?.map System.name = some t := by
    have hne : systems.map System.name ≠ [] := by
      intro e
      rw [List.map_eq_nil_iff] at e
      rw [e] at hi
      simp at hi
    rw [printFunctions, names_listed hv hnames (by simpa using h2), ok_bind] at hout
    obtain ⟨eq, _, hout⟩ := bind_ok hout
    obtain ⟨ep, _, hout⟩ := bind_ok hout
    injection hout with hout
    subst hout
    have c1 : "\nChronology systems:".toList = '\n' :: "Chronology systems:".toList := by decide +kernel
    rw [printAll_cons, printAll_cons, c1, split_section (by decide) (fun t ht => by
      obtain ⟨s, hs, rfl⟩ := List.mem_map.1 ht
      exact hnl s hs) hne, Nat.add_comm 2 i] at ht
    rw [List.getElem?_cons_succ, List.getElem?_cons_succ, List.getElem?_append_left (by simpa using hi), List.getElem?_map] at ht
    exact ht
  obtain ⟨st, e1, hs⟩ := C153_system C isNeg F cwd words l flat cwd' n hw h depth hd E hE v systems (C153_list C v ds hv systems hsys h2) hset hnl T plotPF
  refine ⟨st, e1, fun P tab hP htab => ?_⟩
  obtain ⟨j, s, c, f, ref, mu, q1, q2, q3, _, _, q4, q5, q6⟩ := hs P tab hP htab
  obtain ⟨s0, hs0, rfl⟩ : ∃ s0, systems[i]? = some s0 ∧ s0.name = t := by
    cases e : systems[i]? with
    | none => rw [e] at hti; cases hti
    | some s0 => rw [e] at hti; exact ⟨s0, rfl, by injection hti⟩
  have hname : s.name = s0.name := by
    rcases q3 with ⟨hno, _⟩ | ⟨t', k, k1, ⟨_, e, k2, k3, k4⟩, k5⟩
    · obtain ⟨pre, post, e, _⟩ := hl
      exact absurd rfl (hno ⟨"chronology_system".toList, [s0.name]⟩ (by rw [e]; exact List.mem_append_right _ List.mem_cons_self))
    · have := option_unique hl k1
      injection this with this
      subst this
      rw [k2] at k5
      injection k5 with k5
      subst k5
      by_contra hne
      refine hother s (List.mem_of_getElem? q1) hne ?_ k3
      rcases k4 i s0.name (by rw [List.getElem?_map, hs0]; rfl) (abbreviates_self _ _ _ rfl) with h | ⟨h, _⟩ <;> omega
  refine ⟨j, s, c, f, ref, mu, q1, hname, fun k s' hk hs' => by rw [← hname]; exact q2 k s' hk hs', ?_, q4, q5, q6⟩
  by_contra hji
  exact q2 i s0 (by omega) hs0 hname.symm

/-- **C154, symbols and colours.** The second and the fourth line printed list the symbols, each with its name and in brackets its code, and the colours.  The code or the name of a symbol, and the
name of a colour, in small or capital letters, select what they stand for. -/
theorem C154_symbols : ∃ symbols colours,
    split '\n' printSymbols = ["\x1b[1m".toList, "Plot symbols:\x1b[0m".toList, symbols, "\x1b[1m".toList, "Colours:\x1b[0m".toList, colours, []] ∧
    (∀ (i : ℕ) (t : List Char), (split ',' symbols)[i]? = some t → ∃ name code, t.dropWhile (· = ' ') = name ++ " (".toList ++ code ++ [')'] ∧
      psymValue Char.toLower code = .ok (.num i) ∧ ∀ w : List Char, w.map Char.toLower = name.map Char.toLower → psymValue Char.toLower w = .ok (.num i)) ∧
    ∀ (i : ℕ) (t : List Char), (split ',' colours)[i]? = some t → ∀ w : List Char, w.map Char.toLower = (t.dropWhile (· = ' ')).map Char.toLower →
      colourValue Char.toLower w = .ok (.num i) := by
  refine ⟨join ", ".toList (markers.map (fun e => e.2 ++ (" (".toList ++ (e.1 ++ [')'])))), join ", ".toList paletteNames, by decide +kernel, ?_, ?_⟩
  · intro i t ht
    have e : split ',' (join ", ".toList (markers.map (fun e => e.2 ++ (" (".toList ++ (e.1 ++ [')']))))) =
        (markers.zipIdx).map (fun x => (if x.2 = 0 then [] else [' ']) ++ (x.1.2 ++ (" (".toList ++ (x.1.1 ++ [')'])))) := by decide +kernel
    rw [e, List.getElem?_map, Option.map_eq_some_iff] at ht
    obtain ⟨⟨e, k⟩, ht, rfl⟩ := ht
    rw [List.getElem?_zipIdx, Option.map_eq_some_iff] at ht
    obtain ⟨e', he, h⟩ := ht
    injection h with h1 h2
    subst h1 h2
    have hall : ∀ x ∈ markers, x.2.head?.any (fun c => c != ' ') = true ∧ ∀ y ∈ markers, x.2.map Char.toLower ≠ y.1.map Char.toLower := by decide +kernel
    obtain ⟨a1, a2⟩ := hall e' (List.mem_of_getElem? he)
    refine ⟨e'.2, e'.1, ?_, (C73_names e'.1).2.1 i e' he rfl, ?_⟩
    · obtain ⟨c, n, hc⟩ : ∃ c n, e'.2 = c :: n := by
        cases h : e'.2 with
        | nil => rw [h] at a1; cases a1
        | cons c n => exact ⟨c, n, rfl⟩
      rw [hc] at a1 ⊢
      have hne : c ≠ ' ' := by simpa using a1
      split <;> simp [List.dropWhile_cons, hne]
    · intro w hw
      refine (C73_names w).2.2 i e' he hw ?_
      intro hm
      obtain ⟨y, hy, rfl⟩ := List.mem_map.1 hm
      exact a2 y hy hw.symm
  · intro i t ht w hw
    have e : split ',' (join ", ".toList paletteNames) = (paletteNames.zipIdx).map (fun x => (if x.2 = 0 then [] else [' ']) ++ x.1) := by decide +kernel
    rw [e, List.getElem?_map, Option.map_eq_some_iff] at ht
    obtain ⟨⟨e, k⟩, ht, rfl⟩ := ht
    rw [List.getElem?_zipIdx, Option.map_eq_some_iff] at ht
    obtain ⟨e', he, h⟩ := ht
    injection h with h1 h2
    subst h1 h2
    have hall : ∀ x ∈ paletteNames, x.head?.any (fun c => c != ' ' && c.toLower != '#') = true := by decide +kernel
    have a1 := hall e' (List.mem_of_getElem? he)
    obtain ⟨c, n, rfl⟩ : ∃ c n, e' = c :: n := by
      cases h : e' with
      | nil => rw [h] at a1; cases a1
      | cons c n => exact ⟨c, n, rfl⟩
    have hne : c ≠ ' ' ∧ c.toLower ≠ '#' := by simpa using a1
    have ed : ((if i = 0 then [] else [' ']) ++ c :: n).dropWhile (· = ' ') = c :: n := by
      split <;> simp [List.dropWhile_cons, hne.1]
    simp only [Nat.zero_add] at hw
    rw [ed] at hw
    refine (C73_names w).1 i (c :: n) he hw ?_
    intro hh
    cases w with
    | nil => cases hh
    | cons d w =>
      injection hh with hh
      subst hh
      rw [List.map_cons, List.map_cons] at hw
      injection hw with hw _
      exact hne.2 (by rw [← hw]; decide)

theorem request_event {flat : List Given} {k : String} {ev : Event} (h : RequestDone flat k ev) : (k = "lcs" → ev = .listSystems) ∧ (k = "lpc" → ev = .listColours) ∧
    (k = "about" → ev = .about) ∧ (k = "version" → ev = .version) := by
  cases h <;> refine ⟨?_, ?_, ?_, ?_⟩ <;> intro h <;> first | rfl | exact absurd h (by decide)

/-- **C154, requests.** A command which asks for the list of functions, the list of symbols and colours, the description of the program or its version, and for nothing of higher precedence, prints it,
and does nothing else.  The description is printed line by line, its lines with a star in front shown bright without it; the version is the beginning of the description. -/
theorem C154_printed (C : Classes) (isNeg : List Char → Bool) (isdigit : Char → Bool) (F : FileSys)
    (prepare : CmdState → Except Exc (List Char)) (cwd : List Char) (argv words : List (List Char)) (args0 : Option (List (List Char)))
    (hargs : args0 = some words ∨ args0 = none ∧ argv = words) (l flat : List Given) (cwd' : List Char) (n : ℕ)
    (hw : CommandOf isNeg words l) (h : Expands C isNeg F cwd l flat cwd' n) (depth : ℕ) (hd : n ≤ depth)
    (pre post : List String) (k : String) (hreq : requests = pre ++ k :: post) (hk : AskedFor flat k) (hpre : ∀ j ∈ pre, ¬ AskedFor flat j)
    (v : TVal) (about : List (List Char)) (hab : ∀ t ∈ about, '\n' ∉ t) :
    ∃ ev, mainEvents C isNeg isdigit F prepare depth cwd argv args0 = .ok [ev] ∧
      (k = "lcs" → requestOutput v about ev = printFunctions v) ∧ (k = "lpc" → requestOutput v about ev = .ok printSymbols) ∧
      (k = "about" → ∃ out, requestOutput v about ev = .ok out ∧ List.Forall₂ (fun line shown =>
        (∃ t, line = '*' :: t ∧ shown = "\x1b[1m".toList ++ t ++ "\x1b[0m".toList) ∨ line.head? ≠ some '*' ∧ shown = line) about ((split '\n' out).dropLast)) ∧
      (k = "version" → ∃ out out', requestOutput v about ev = .ok out ∧ requestOutput v about .about = .ok out' ∧ out <+: out' ∧
        (split '\n' out).length = min 5 about.length + 1) := by
  obtain ⟨ev, h1, h2⟩ := C134_request C isNeg isdigit F prepare cwd argv words args0 hargs l flat cwd' n hw h depth hd pre post k hreq hk hpre
  obtain ⟨r1, r2, r3, r4⟩ := request_event h2
  have hlines : ∀ ls : List (List Char), (∀ t ∈ ls, '\n' ∉ t) → split '\n' (printHighlights ls) = ls.map (fun line => match line with
      | '*' :: t => bright t
      | line => line) ++ [[]] := by
    intro ls hls
    have := split_printed (l := ls.map (fun line => match line with
      | '*' :: t => bright t
      | line => line)) (by
      intro t ht
      obtain ⟨line, hline, rfl⟩ := List.mem_map.1 ht
      have := hls line hline
      split
      · rw [bright, List.mem_append, List.mem_append]
        rintro (hm | hm | hm)
        · exact absurd hm (by decide)
        · exact this (List.mem_cons_of_mem _ hm)
        · exact absurd hm (by decide)
      · exact this) []
    rw [List.append_nil] at this
    exact this
  refine ⟨ev, h1, ?_, ?_, ?_, ?_⟩
  · intro hk
    rw [r1 hk]
    rfl
  · intro hk
    rw [r2 hk]
    rfl
  · intro hk
    rw [r3 hk]
    refine ⟨_, rfl, ?_⟩
    rw [hlines about hab, List.dropLast_concat, List.forall₂_map_right_iff, List.forall₂_same]
    intro line _
    split
    · exact .inl ⟨_, rfl, by rw [bright, List.append_assoc]⟩
    · rename_i hne
      refine .inr ⟨?_, rfl⟩
      intro hh
      cases line with
      | nil => cases hh
      | cons c t =>
        injection hh with hh
        exact hne t (by rw [hh])
  · intro hk
    rw [r4 hk]
    refine ⟨_, _, rfl, rfl, ?_, ?_⟩
    · refine ⟨printHighlights (about.drop 5), ?_⟩
      unfold printHighlights printAll
      rw [← List.flatten_append, ← List.map_append, ← List.map_append, List.take_append_drop]
    · rw [hlines _ (fun t ht => hab t (List.mem_of_mem_take ht))]
      simp

/-- **C154, one definition.** If there is only one equilibrium function (or only one chronology system, or one system of epochs), the list cannot be printed. -/
theorem C154_single_counterexample (C : Classes) (v : TVal) (ds : List (List Char × TVal)) (h : SourceOf C (.dict v) ds) (kind : String)
    (hk : kind ∈ ["chronology_system", "equilibrium", "epochs"]) (d : List (List Char × TVal)) (h1 : occurrences ds kind.toList = [.dict d]) :
    ∀ out, printFunctions v ≠ .ok out := by
  obtain ⟨v', rfl, h3⟩ := source_sections h
  have hs : namesIn (.dict v') kind = .error .type := by
    rw [namesIn, sectionOf, h3, h1]
    rfl
  intro out hout
  obtain ⟨a, ha, hout⟩ := bind_ok hout
  obtain ⟨b, hb, hout⟩ := bind_ok hout
  obtain ⟨c, hc, hout⟩ := bind_ok hout
  simp only [List.mem_cons, List.not_mem_nil, or_false] at hk
  rcases hk with rfl | rfl | rfl
  · rw [hs] at ha; cases ha
  · rw [hs] at hb; cases hb
  · rw [hs] at hc; cases hc

/-! an example: a list with two entries of each kind -/

def nameIds (n m : String) : List (List Char × TVal) := [("name".toList, .str n.toList), ("note".toList, .str m.toList)]

def listedText : List Char :=
  "chronology_system={\n name=Moon, Neukum (1983)\ncf=c\npf=p\nbody=Moon\n}\n".toList ++
  ("chronology_system={\n name=Mars, Hartmann (2005)\ncf=c2\npf=h\nbody=Mars\n}\n".toList ++
  ("equilibrium={\n name=Standard lunar\nnote=a\n}\n".toList ++
  ("equilibrium={\n name=Hartmann\nnote=b\n}\n".toList ++
  ("epochs={\n name=Moon\nnote=c\n}\n".toList ++
  "epochs={\n name=Mars\nnote=d\n}\n".toList))))

def listedDefinitions : List (List Char × TVal) :=
  [("chronology_system".toList, .dict (dictOf (systemIds "Moon, Neukum (1983)" "c" "p" "Moon"))),
   ("chronology_system".toList, .dict (dictOf (systemIds "Mars, Hartmann (2005)" "c2" "h" "Mars"))),
   ("equilibrium".toList, .dict (dictOf (nameIds "Standard lunar" "a"))), ("equilibrium".toList, .dict (dictOf (nameIds "Hartmann" "b"))),
   ("epochs".toList, .dict (dictOf (nameIds "Moon" "c"))), ("epochs".toList, .dict (dictOf (nameIds "Mars" "d")))]

theorem listed_eq1 : TextOf .ascii "equilibrium={\n name=Standard lunar\nnote=a\n}\n".toList [("equilibrium".toList, .dict (dictOf (nameIds "Standard lunar" "a")))] := by
  have := definition_text (kind := "equilibrium") ⟨by decide, by decide⟩ _ _
    (name_line "name" "Standard lunar" ⟨by decide, by decide⟩ (by decide) (by decide) (by decide) (by decide) (by decide) (by decide)
    (name_line "note" "a" ⟨by decide, by decide⟩ (by decide) (by decide) (by decide) (by decide) (by decide) (by decide) nil_text))
    (by simp) (by decide) 'n' "ame=Standard lunar\nnote=a\n".toList "name=Standard lunar\nnote=".toList 'a'
    (by decide +kernel) (by decide) (by decide +kernel) (by decide) (by decide +kernel)
  exact this

theorem listed_eq2 : TextOf .ascii "equilibrium={\n name=Hartmann\nnote=b\n}\n".toList [("equilibrium".toList, .dict (dictOf (nameIds "Hartmann" "b")))] := by
  have := definition_text (kind := "equilibrium") ⟨by decide, by decide⟩ _ _
    (name_line "name" "Hartmann" ⟨by decide, by decide⟩ (by decide) (by decide) (by decide) (by decide) (by decide) (by decide)
    (name_line "note" "b" ⟨by decide, by decide⟩ (by decide) (by decide) (by decide) (by decide) (by decide) (by decide) nil_text))
    (by simp) (by decide) 'n' "ame=Hartmann\nnote=b\n".toList "name=Hartmann\nnote=".toList 'b'
    (by decide +kernel) (by decide) (by decide +kernel) (by decide) (by decide +kernel)
  exact this

theorem listed_ep1 : TextOf .ascii "epochs={\n name=Moon\nnote=c\n}\n".toList [("epochs".toList, .dict (dictOf (nameIds "Moon" "c")))] := by
  have := definition_text (kind := "epochs") ⟨by decide, by decide⟩ _ _
    (name_line "name" "Moon" ⟨by decide, by decide⟩ (by decide) (by decide) (by decide) (by decide) (by decide) (by decide)
    (name_line "note" "c" ⟨by decide, by decide⟩ (by decide) (by decide) (by decide) (by decide) (by decide) (by decide) nil_text))
    (by simp) (by decide) 'n' "ame=Moon\nnote=c\n".toList "name=Moon\nnote=".toList 'c'
    (by decide +kernel) (by decide) (by decide +kernel) (by decide) (by decide +kernel)
  exact this

theorem listed_ep2 : TextOf .ascii "epochs={\n name=Mars\nnote=d\n}\n".toList [("epochs".toList, .dict (dictOf (nameIds "Mars" "d")))] := by
  have := definition_text (kind := "epochs") ⟨by decide, by decide⟩ _ _
    (name_line "name" "Mars" ⟨by decide, by decide⟩ (by decide) (by decide) (by decide) (by decide) (by decide) (by decide)
    (name_line "note" "d" ⟨by decide, by decide⟩ (by decide) (by decide) (by decide) (by decide) (by decide) (by decide) nil_text))
    (by simp) (by decide) 'n' "ame=Mars\nnote=d\n".toList "name=Mars\nnote=".toList 'd'
    (by decide +kernel) (by decide) (by decide +kernel) (by decide) (by decide +kernel)
  exact this

theorem listed_source : ∃ v, loadFunctions .ascii none ⟨listedText, fun _ => none⟩ = .ok v ∧ SourceOf .ascii (.dict v) listedDefinitions := by
  have ends : ∀ s : String, s.toList.getLast? = some '\n' → s.toList = [] ∨ s.toList.getLast? = some '\n' := fun _ h => .inr h
  have q : ∀ (k : String) (ids : List (List Char × TVal)), ∀ d ∈ [(k.toList, TVal.dict (dictOf ids))], ∀ t, d.2 ≠ .str ('\n' :: t) := by
    intro k ids d hd t
    rw [List.mem_singleton] at hd
    subst hd
    exact nofun
  have htext : TextOf .ascii listedText listedDefinitions := textOf_append small_system1 (textOf_append small_system2 (textOf_append listed_eq1 (textOf_append listed_eq2
    (textOf_append listed_ep1 listed_ep2 (ends _ (by decide +kernel)) (q _ _)) (ends _ (by decide +kernel)) (q _ _)) (ends _ (by decide +kernel)) (q _ _))
    (ends _ (by decide +kernel)) (q _ _)) (ends _ (by decide +kernel)) (q _ _)
  have ht : functionText .ascii listedText = listedText := by decide +kernel
  have hlist : FunctionList .ascii listedText listedDefinitions := by
    refine ⟨by rw [ht]; exact htext, by rw [ht]; decide +kernel, ?_, ?_⟩
    · intro d hd l
      simp only [listedDefinitions, List.mem_cons, List.not_mem_nil, or_false] at hd
      rcases hd with rfl | rfl | rfl | rfl | rfl | rfl <;> exact nofun
    · intro d hd l
      simp only [listedDefinitions, List.mem_cons, List.not_mem_nil, or_false] at hd
      rcases hd with rfl | rfl | rfl | rfl | rfl | rfl <;> exact nofun
  obtain ⟨v, h1, _⟩ := C109_builtin .ascii none ⟨listedText, fun _ => none⟩ (nofun) listedDefinitions hlist (List.cons_ne_nil _ _)
  exact ⟨_, h1, .program none ⟨listedText, fun _ => none⟩ _ _ (nofun) hlist (List.cons_ne_nil _ _) h1⟩

theorem listed_names : List.Forall₂ NameEntry (occurrences listedDefinitions "equilibrium".toList) ["Standard lunar".toList, "Hartmann".toList] ∧
    List.Forall₂ NameEntry (occurrences listedDefinitions "epochs".toList) ["Moon".toList, "Mars".toList] := by
  have e1 : occurrences listedDefinitions "equilibrium".toList = [.dict (dictOf (nameIds "Standard lunar" "a")), .dict (dictOf (nameIds "Hartmann" "b"))] := by decide +kernel
  have e2 : occurrences listedDefinitions "epochs".toList = [.dict (dictOf (nameIds "Moon" "c")), .dict (dictOf (nameIds "Mars" "d"))] := by decide +kernel
  rw [e1, e2]
  exact ⟨.cons ⟨_, rfl, by decide +kernel⟩ (.cons ⟨_, rfl, by decide +kernel⟩ .nil), .cons ⟨_, rfl, by decide +kernel⟩ (.cons ⟨_, rfl, by decide +kernel⟩ .nil)⟩

theorem listed_systems : List.Forall₂ SystemEntry (occurrences listedDefinitions "chronology_system".toList) exEnv.systems := by
  have e : occurrences listedDefinitions "chronology_system".toList = [.dict (dictOf (systemIds "Moon, Neukum (1983)" "c" "p" "Moon")),
      .dict (dictOf (systemIds "Mars, Hartmann (2005)" "c2" "h" "Mars"))] := by decide +kernel
  rw [e]
  exact .cons ⟨_, rfl, by decide +kernel, by decide +kernel, by decide +kernel, by decide +kernel⟩
    (.cons ⟨_, rfl, by decide +kernel, by decide +kernel, by decide +kernel, by decide +kernel⟩ .nil)

/-- the list is printed, and its first name is accepted -/
example : ∃ v out, loadFunctions .ascii none ⟨listedText, fun _ => none⟩ = .ok v ∧ SourceOf .ascii (.dict v) listedDefinitions ∧ printFunctions v = .ok out ∧
    (split '\n' out)[2 + 0]? = some "Moon, Neukum (1983)".toList ∧ (split '\n' out)[10]? = some "Moon".toList ∧ WellFormed "Moon, Neukum (1983)".toList ∧
    (∀ s ∈ exEnv.systems, s.name ≠ "Moon, Neukum (1983)".toList → s.name.length ≤ "Moon, Neukum (1983)".toList.length →
      ¬ Abbreviates Char.toLower "Moon, Neukum (1983)".toList s.name) := by
  obtain ⟨v, h1, h2⟩ := listed_source
  have hs : List.Forall₂ NameEntry (occurrences listedDefinitions "chronology_system".toList) ["Moon, Neukum (1983)".toList, "Mars, Hartmann (2005)".toList] := by
    have := listed_systems.imp (fun e s ⟨ids, e1, e2, _⟩ => (⟨ids, e1, e2⟩ : NameEntry e s.name))
    have e : ["Moon, Neukum (1983)".toList, "Mars, Hartmann (2005)".toList] = exEnv.systems.map System.name := by decide +kernel
    rw [e, List.forall₂_map_right_iff]
    exact this
  obtain ⟨out, h3, h4⟩ := C154_functions .ascii v _ h2 _ _ _ hs listed_names.1 listed_names.2 (by simp) (by simp) (by simp) (by decide +kernel)
  refine ⟨v, out, h1, h2, h3, by rw [h4]; rfl, by rw [h4]; rfl, ⟨by decide +kernel, ?_, by decide +kernel⟩, ?_⟩
  · have : ∀ a ∈ "Moon, Neukum (1983)".toList.inits, a.count ')' ≤ a.count '(' := by decide +kernel
    exact fun a ha => this a ((List.mem_inits _ _).2 ha)
  · have : ∀ s ∈ exEnv.systems, s.name ≠ "Moon, Neukum (1983)".toList → ¬ s.name.length ≤ "Moon, Neukum (1983)".toList.length := by decide +kernel
    exact fun s hs h1 h2 => absurd h2 (this s hs h1)

/-- a command with this name -/
example : ∃ flat, CommandOf (fun _ => false) (["-cs", "Moon, Neukum (1983)"].map String.toList) flat ∧
    Expands .ascii (fun _ => false) ageFiles "/u/".toList flat flat "/u/".toList 0 ∧ OptionLast flat "chronology_system" ["Moon, Neukum (1983)".toList] := by
  refine ⟨[⟨"chronology_system".toList, ["Moon, Neukum (1983)".toList]⟩], (C133_grammar _ _ _).1 (by decide +kernel), ?_, ⟨[], [], rfl, by simp⟩⟩
  exact .option _ _ _ _ _ _ (by unfold Loads; decide +kernel) (admissible_ok (by decide +kernel)) (.nil _ _)

/-- a list with one equilibrium function only -/
example : ∃ v, SourceOf .ascii (.dict v) [("equilibrium".toList, .dict (dictOf (nameIds "Hartmann" "b")))] ∧
    occurrences [("equilibrium".toList, TVal.dict (dictOf (nameIds "Hartmann" "b")))] "equilibrium".toList = [.dict (dictOf (nameIds "Hartmann" "b"))] := by
  have ht : functionText .ascii "equilibrium={\n name=Hartmann\nnote=b\n}\n".toList = "equilibrium={\n name=Hartmann\nnote=b\n}\n".toList := by decide +kernel
  have hlist : FunctionList .ascii "equilibrium={\n name=Hartmann\nnote=b\n}\n".toList [("equilibrium".toList, .dict (dictOf (nameIds "Hartmann" "b")))] := by
    refine ⟨by rw [ht]; exact listed_eq2, by rw [ht]; decide +kernel, ?_, ?_⟩ <;>
    · intro d hd l
      rw [List.mem_singleton] at hd
      subst hd
      exact nofun
  obtain ⟨v, h1, _⟩ := C109_builtin .ascii none ⟨_, fun _ => none⟩ (nofun) _ hlist (List.cons_ne_nil _ _)
  exact ⟨_, .program none ⟨_, fun _ => none⟩ _ _ (nofun) hlist (List.cons_ne_nil _ _) h1, by decide +kernel⟩

/-- a line with a star is shown bright -/
example : printHighlights ["*Craterstats".toList, "".toList, "text".toList] = "\x1b[1mCraterstats\x1b[0m\n\ntext\n".toList := by decide +kernel

/-- a request -/
example : AskedFor [⟨"lcs".toList, []⟩] "lcs" ∧ requests = ["create_desktop_icon", "functions_user"] ++ "lcs" :: ["lpc", "about", "version", "merge", "demo"] := by
  exact ⟨⟨[], ⟨[], [], rfl, by simp⟩, by simp⟩, by decide⟩

end

end Verif.Props
