import Verif.Model.CommandLine
import Verif.Props.CommandFile
import Verif.Props.Filename
import Verif.Props.PlotSpec
import Verif.Py.Num

/-!
C133: the options in a command file act as if they stood in the command in its place.
-/

namespace Verif.Props

open Verif.Py Verif.Text Verif.Cli

/-- the words of a command are options, each followed by the right number of values -/
inductive CommandOf (isNeg : List Char → Bool) : List (List Char) → List Given → Prop
  | nil : CommandOf isNeg [] []
  | option (flag : List Char) (o : Opt) (values rest : List (List Char)) (l : List Given) (ho : o ∈ cliOptions) (hf : flag ∈ o.flags)
      (hv : ∀ v ∈ values, (∀ o ∈ cliOptions, v ∉ o.flags) ∧ ((∀ t, v ≠ '-' :: t) ∨ isNeg v = true))
      (hn : match o.arity with
        | .none => values = []
        | .one => ∃ a, values = [a]
        | .two => ∃ a b, values = [a, b]
        | .some => values ≠ []
        | .opt => values = [] ∨ ∃ a, values = [a])
      (h : CommandOf isNeg rest l) : CommandOf isNeg (flag :: values ++ rest) (⟨o.dest, values⟩ :: l)

/-- options which are on (1) or off (0) -/
def onOff : List (List Char) := ["mu", "invert", "text_halo", "transparent", "tight", "ra_show"].map String.toList
/-- options with a whole number -/
def counted : List (List Char) := ["n_samples", "trials", "ra_offset"].map String.toList
/-- options with a number -/
def measured : List (List Char) := ["pt_size", "ref_diameter", "min_diameter"].map String.toList

/-- the values of an option are of the right kind: switches 0 or 1, numbers where numbers are expected, choices among those offered,
specifications of plots made of `key=value` items -/
def Admissible (C : Classes) (dest : List Char) (values : List (List Char)) : Prop :=
  (dest ∈ onOff → values = [] ∨ ∃ w, values = [w] ∧ (intVal w = some 0 ∨ intVal w = some 1)) ∧
  (dest = "sig_figs".toList → ∃ w, values = [w] ∧ (intVal w = some 2 ∨ intVal w = some 3)) ∧
  (dest ∈ counted → ∃ w z, values = [w] ∧ intVal w = some z) ∧
  (dest ∈ measured → ∃ w q, values = [w] ∧ decVal w = some q) ∧
  (dest = "style".toList → values = ["natural".toList] ∨ values = ["root-2".toList]) ∧
  (dest = "format".toList → ∀ w ∈ values, w ∈ ["png", "tif", "pdf", "svg", "csv"].map String.toList) ∧
  (dest = "plot".toList → ∃ ps, IsPieces C ps ∧ join [','] ps = join [' '] values ∧ ∀ p ∈ ps, p.count '=' = 1)

/-- the option reads a file -/
def Loads (g : Given) : Prop := g.dest = "input".toList ∨ g.dest = "include".toList

/-- what is noted when a file has been read: its name, and that the option was given -/
def noted (dest f : List Char) : List Given := [⟨"input_filename".toList, [f]⟩, ⟨dest, ["True".toList]⟩]

/-- `Expands cwd l flat cwd' n`: a program in the directory `cwd` with the options `l` behaves as if it had the options `flat`, where each
option which reads a file is replaced by the options in the file, followed by the note of it, and ends in the directory `cwd'`; files are nested to the depth `n` at most.  A file named after `-inc` is looked for in
the current directory unless its path is absolute; a file named after `-i` either has no directory, or its path is absolute and then its
directory becomes the current one. -/
inductive Expands (C : Classes) (isNeg : List Char → Bool) (F : FileSys) :
    List Char → List Given → List Given → List Char → ℕ → Prop
  | nil (cwd : List Char) (n : ℕ) : Expands C isNeg F cwd [] [] cwd n
  | option (cwd cwd' : List Char) (g : Given) (l flat : List Given) (n : ℕ) (hg : ¬ Loads g) (ha : Admissible C g.dest g.values)
      (h : Expands C isNeg F cwd l flat cwd' n) : Expands C isNeg F cwd (g :: l) (g :: flat) cwd' n
  | included (cwd cwd1 cwd2 f path text : List Char) (words : List (List Char)) (l l1 flat flat1 : List Given) (n : ℕ)
      (hp : (∃ t, f = '/' :: t ∧ path = f) ∨ (∀ t, f ≠ '/' :: t) ∧ path = cwd ++ f)
      (ht : F.content path = some text) (hw : loadArgs C text = .ok words) (hc : CommandOf isNeg words l1)
      (h1 : Expands C isNeg F cwd l1 flat1 cwd1 n) (h : Expands C isNeg F cwd1 l flat cwd2 (n + 1)) :
      Expands C isNeg F cwd (⟨"include".toList, [f]⟩ :: l) (flat1 ++ noted "include".toList f ++ flat) cwd2 (n + 1)
  | input (cwd cwd0 cwd1 cwd2 d b text : List Char) (words : List (List Char)) (l l1 flat flat1 : List Given) (n : ℕ)
      (hb : ∀ c ∈ b, nameCh C c = true) (hd : d = [] ∧ cwd0 = cwd ∨
        (∃ t, d = '/' :: t) ∧ d.getLast? = some '/' ∧ '\n' ∉ d ∧ F.isdir d = true ∧ cwd0 = d)
      (ht : F.content (cwd0 ++ b) = some text) (hw : loadArgs C text = .ok words) (hc : CommandOf isNeg words l1)
      (h1 : Expands C isNeg F cwd0 l1 flat1 cwd1 n) (h : Expands C isNeg F cwd1 l flat cwd2 (n + 1)) :
      Expands C isNeg F cwd (⟨"input".toList, [d ++ b]⟩ :: l) (flat1 ++ noted "input".toList (d ++ b) ++ flat) cwd2 (n + 1)

/-- the settings which come from a list of options: the last value of each, and for `-p` all of them in their order -/
def SettingsOf (ns : List (List Char × List (List (List Char)))) (flat : List Given) : Prop :=
  (∀ k, k ≠ "plot".toList →
    dictGet ns k = ((flat.filter (fun g => g.dest = k)).getLast?).map (fun g => [g.values])) ∧
  (dictGet ns "plot".toList).getD [] = (flat.filter (fun g => g.dest = "plot".toList)).map (fun g => g.values)

/-- the spellings of options are distinct -/
theorem flag_unique : ∀ o ∈ cliOptions, ∀ o' ∈ cliOptions, ∀ w ∈ o.flags, w ∈ o'.flags → o' = o := by
  decide +kernel

theorem find_flag {o : Opt} (ho : o ∈ cliOptions) {flag : List Char} (hf : flag ∈ o.flags) :
    cliOptions.find? (fun o => flag ∈ o.flags) = some o := by
  cases h : cliOptions.find? (fun o => flag ∈ o.flags) with
  | none =>
    rw [List.find?_eq_none] at h
    exact absurd (by simpa using hf) (h o ho)
  | some o' =>
    have h1 := List.mem_of_find?_eq_some h
    have h2 := List.find?_some h
    rw [flag_unique o ho o' h1 flag hf (by simpa using h2)]

theorem isFlag_iff (w : List Char) : isFlag w = true ↔ ∃ o ∈ cliOptions, w ∈ o.flags := by
  simp [isFlag]

theorem isValue_iff (isNeg : List Char → Bool) (v : List Char) : isValue isNeg v = true ↔
    (∀ o ∈ cliOptions, v ∉ o.flags) ∧ ((∀ t, v ≠ '-' :: t) ∨ isNeg v = true) := by
  have h1 : (!isFlag v) = true ↔ ∀ o ∈ cliOptions, v ∉ o.flags := by
    rw [Bool.not_eq_true', ← Bool.not_eq_true, isFlag_iff]
    push Not
    rfl
  have h2 : (v.head? != some '-') = true ↔ ∀ t, v ≠ '-' :: t := by
    cases v <;> simp
  rw [isValue, Bool.and_eq_true, Bool.or_eq_true, h1, h2]

theorem arityOk_iff (a : Arity) (values : List (List Char)) : arityOk a values.length = true ↔
    (match a with
        | .none => values = []
        | .one => ∃ a, values = [a]
        | .two => ∃ a b, values = [a, b]
        | .some => values ≠ []
        | .opt => values = [] ∨ ∃ a, values = [a]) := by
  cases a <;> rcases values with _ | ⟨a, _ | ⟨b, _ | ⟨c, t⟩⟩⟩ <;> simp [arityOk]

theorem command_head {isNeg : List Char → Bool} {ws : List (List Char)} {l : List Given} (h : CommandOf isNeg ws l) :
    ∀ w ∈ ws.head?, isValue isNeg w = false := by
  cases h with
  | nil => simp
  | option flag o values rest l ho hf hv hn h =>
    intro w hw
    have : w = flag := by simpa using hw.symm
    subst this
    have := (isFlag_iff w).2 ⟨o, ho, hf⟩
    simp [isValue, this]

theorem takeWhile_values {p : List Char → Bool} (values rest : List (List Char)) (hv : ∀ v ∈ values, p v = true)
    (hr : ∀ w ∈ rest.head?, p w = false) :
    (values ++ rest).takeWhile p = values ∧ (values ++ rest).dropWhile p = rest := by
  induction values with
  | nil =>
    cases rest with
    | nil => simp
    | cons a t =>
      have := hr a (by simp)
      simp [this]
  | cons a t ih =>
    have h1 := hv a (by simp)
    have h2 := ih (fun v h => hv v (by simp [h]))
    simp [h1, h2.1, h2.2]

/-- **C133.** A command is accepted exactly if it is a list of options with the right numbers of values, and then they are read as such. -/
theorem C133_grammar (isNeg : List Char → Bool) (ws : List (List Char)) (l : List Given) :
    parseWords isNeg ws = .ok l ↔ CommandOf isNeg ws l := by
  constructor
  · intro h
    induction ws using parseWords.induct isNeg generalizing l with
    | case1 =>
      rw [parseWords] at h
      cases h
      exact .nil
    | case2 w rest hfind =>
      rw [parseWords, hfind] at h
      simp at h
    | case3 w rest o hfind hok ih =>
      rw [parseWords, hfind] at h
      simp only [hok, if_true] at h
      obtain ⟨l', h1, h2⟩ := except_bind_eq_ok h
      cases h2
      have hm := List.find?_some hfind
      have := CommandOf.option (isNeg := isNeg) w o (rest.takeWhile (isValue isNeg)) (rest.dropWhile (isValue isNeg)) l'
        (List.mem_of_find?_eq_some hfind) (by simpa using hm)
        (fun v hv => (isValue_iff isNeg v).1 (List.mem_takeWhile_imp hv)) ((arityOk_iff _ _).1 hok) (ih _ h1)
      rw [List.cons_append, List.takeWhile_append_dropWhile] at this
      exact this
    | case4 w rest o hfind hok =>
      rw [parseWords, hfind] at h
      simp [hok] at h
  · intro h
    induction h with
    | nil => rw [parseWords]
    | option flag o values rest l ho hf hv hn h ih =>
      have ht := takeWhile_values (p := isValue isNeg) values rest (fun v h => (isValue_iff isNeg v).2 (hv v h)) (command_head h)
      rw [List.cons_append, parseWords, find_flag ho hf]
      simp only [ht.1, ht.2, (arityOk_iff _ _).2 hn, if_true, ih]
      rfl

theorem kind_mem (d : List Char) : optionKind d = .word ∨ (d, optionKind d) ∈ cliKinds := by
  rw [optionKind]
  cases hd : cliKinds.find? (fun x => x.1 = d) with
  | none => left; rw [dictGet, hd]; rfl
  | some x =>
    right
    have h1 := List.mem_of_find?_eq_some hd
    have h2 : x.1 = d := by simpa using List.find?_some hd
    rw [dictGet, hd]
    rw [← h2]
    exact h1

theorem kind_iff {k : Kind} (hk : k ≠ .word) (l : List (List Char)) (h1 : ∀ x ∈ cliKinds, x.2 = k → x.1 ∈ l)
    (h2 : ∀ d ∈ l, optionKind d = k) (d : List Char) : d ∈ l ↔ optionKind d = k := by
  refine ⟨h2 d, fun h => ?_⟩
  rcases kind_mem d with e | e
  · exact absurd (h.symm.trans e) hk
  · exact h1 _ e h

theorem kind_onOff (d : List Char) : d ∈ onOff ↔ optionKind d = .switch :=
  kind_iff (by decide) _ (by decide +kernel) (by decide +kernel) d
theorem kind_counted (d : List Char) : d ∈ counted ↔ optionKind d = .int none :=
  kind_iff (by decide) _ (by decide +kernel) (by decide +kernel) d
theorem kind_measured (d : List Char) : d ∈ measured ↔ optionKind d = .float :=
  kind_iff (by decide) _ (by decide +kernel) (by decide +kernel) d
theorem kind_figs (d : List Char) : d = "sig_figs".toList ↔ optionKind d = .int (some [2, 3]) := by
  rw [← List.mem_singleton]
  exact kind_iff (by decide) _ (by decide +kernel) (by decide +kernel) d
theorem kind_style (d : List Char) : d = "style".toList ↔ optionKind d = .choice (["natural", "root-2"].map String.toList) := by
  rw [← List.mem_singleton]
  exact kind_iff (by simp) _ (by decide +kernel) (by decide +kernel) d
theorem kind_format (d : List Char) : d = "format".toList ↔
    optionKind d = .choices (["png", "tif", "pdf", "svg", "csv"].map String.toList) := by
  rw [← List.mem_singleton]
  exact kind_iff (by simp) _ (by decide +kernel) (by decide +kernel) d
theorem kind_plot (d : List Char) : d = "plot".toList ↔ optionKind d = .plot := by
  rw [← List.mem_singleton]
  exact kind_iff (by decide) _ (by decide +kernel) (by decide +kernel) d

theorem kind_known (d : List Char) : optionKind d ∈ [Kind.word, .spaced, .flag, .switch, .int none, .int (some [2, 3]), .float, .plot,
    .choice (["natural", "root-2"].map String.toList), .choices (["png", "tif", "pdf", "svg", "csv"].map String.toList)] := by
  rcases kind_mem d with e | e
  · rw [e]; exact List.mem_cons_self
  · have : ∀ x ∈ cliKinds, x.2 ∈ [Kind.word, .spaced, .flag, .switch, .int none, .int (some [2, 3]), .float, .plot,
      .choice (["natural", "root-2"].map String.toList), .choices (["png", "tif", "pdf", "svg", "csv"].map String.toList)] := by decide +kernel
    exact this _ e

theorem intOption_some (l : List ℤ) (w : List Char) (v : SVal) : intOption (some l) w = .ok v ↔ ∃ z ∈ l, intVal w = some z ∧ v = .num z := by
  unfold intOption
  cases intVal w with
  | none => simp
  | some z =>
    dsimp only
    by_cases h : z ∈ l
    · rw [if_pos h]
      constructor
      · intro e; exact ⟨z, h, rfl, (Except.ok.inj e).symm⟩
      · rintro ⟨z', _, e, rfl⟩; cases e; rfl
    · rw [if_neg h]
      constructor
      · intro e; cases e
      · rintro ⟨z', hz, e, _⟩; cases e; exact absurd hz h

theorem intOption_none (w : List Char) (v : SVal) : intOption none w = .ok v ↔ ∃ z, intVal w = some z ∧ v = .num z := by
  unfold intOption
  cases intVal w with
  | none => simp
  | some z =>
    dsimp only
    constructor
    · intro e; exact ⟨z, rfl, (Except.ok.inj e).symm⟩
    · rintro ⟨z', e, rfl⟩; cases e; rfl

theorem intOption_error (l : Option (List ℤ)) (w : List Char) (e : Exc) (h : intOption l w = .error e) : e = .system := by
  unfold intOption at h
  cases hw : intVal w with
  | none => rw [hw] at h; cases h; rfl
  | some z =>
    rw [hw] at h
    cases l with
    | none => cases h
    | some l =>
      dsimp only at h
      split at h <;> cases h
      rfl

theorem parsePlot_pieces (C : Classes) (values : List (List Char)) :
    (∃ d, parsePlot C values = .ok d) ↔ ∃ ps, IsPieces C ps ∧ join [','] ps = join [' '] values ∧ ∀ p ∈ ps, p.count '=' = 1 := by
  obtain ⟨ps, h1, h2, h3, h4⟩ := C40_items C values
  constructor
  · rintro ⟨d, h⟩
    rw [h4] at h
    split at h
    · next hc => exact ⟨ps, h1, h2, hc⟩
    · cases h
  · rintro ⟨qs, g1, g2, g3⟩
    obtain rfl := h3 qs g1 g2
    exact ⟨_, by rw [h4, if_pos g3]⟩

/-- the kinds of options, by the names of the options -/
theorem option_admissible (C : Classes) (dest : List Char) (values : List (List Char)) :
    (∃ v, optionValue C dest values = .ok v) ↔ Admissible C dest values := by
  unfold Admissible
  rw [kind_onOff, kind_counted, kind_measured, kind_figs, kind_style, kind_format, kind_plot, ← parsePlot_pieces]
  unfold optionValue
  have hk := kind_known dest
  simp only [List.mem_cons, List.not_mem_nil, or_false] at hk
  rcases hk with h | h | h | h | h | h | h | h | h | h <;> rw [h]
  · refine iff_of_true ?_ (by simp)
    split <;> first | exact ⟨_, rfl⟩ | simp_all
  · exact iff_of_true ⟨_, rfl⟩ (by simp)
  · exact iff_of_true ⟨_, rfl⟩ (by simp)
  · rcases values with _ | ⟨w, _ | ⟨w2, t⟩⟩
    · exact iff_of_true ⟨_, rfl⟩ (by simp)
    · simp only [intOption_some, exists_comm (α := SVal)]
      simp
    · simp
  · rcases values with _ | ⟨w, _ | ⟨w2, t⟩⟩
    · simp
    · simp only [intOption_none, exists_comm (α := SVal)]
      simp
    · simp
  · rcases values with _ | ⟨w, _ | ⟨w2, t⟩⟩
    · simp
    · simp only [intOption_some, exists_comm (α := SVal)]
      simp
    · simp
  · rcases values with _ | ⟨w, _ | ⟨w2, t⟩⟩
    · simp
    · cases hw : decVal w <;> simp [hw]
    · simp
  · cases hp : parsePlot C values with
    | error e =>
      dsimp only
      rw [hp, except_error_bind]
      simp
    | ok d =>
      dsimp only
      rw [hp, except_ok_bind]
      simp
  · rcases values with _ | ⟨w, _ | ⟨w2, t⟩⟩
    · simp
    · dsimp only
      by_cases hw : w ∈ ["natural", "root-2"].map String.toList
      · rw [if_pos hw]
        simpa using hw
      · rw [if_neg hw]
        simpa using hw
    · simp
  · dsimp only
    by_cases hw : ∀ w ∈ values, w ∈ ["png", "tif", "pdf", "svg", "csv"].map String.toList
    · rw [if_pos (by simpa only [List.all_eq_true, decide_eq_true_eq] using hw)]
      refine iff_of_true ⟨_, rfl⟩ ⟨by simp, by simp, by simp, by simp, by simp, fun _ => hw, by simp⟩
    · rw [if_neg (by simpa only [List.all_eq_true, decide_eq_true_eq] using hw)]
      refine iff_of_false (by simp) fun h => hw (h.2.2.2.2.2.1 rfl)

theorem option_error (C : Classes) (dest : List Char) (values : List (List Char)) (h : ¬ Admissible C dest values) :
    optionValue C dest values = .error .system := by
  rw [← option_admissible] at h
  cases hv : optionValue C dest values with
  | ok v => exact absurd ⟨v, hv⟩ h
  | error e =>
    congr 1
    unfold optionValue at hv
    split at hv
    all_goals first | (cases hv; rfl) | (cases hv; done) | skip
    · split at hv <;> cases hv
      rfl
    · split at hv <;> cases hv
      rfl
    · exact intOption_error _ _ _ hv
    · exact intOption_error _ _ _ hv
    · split at hv <;> cases hv
      rfl
    · generalize hp : parsePlot C _ = r at hv
      cases r with
      | ok d => cases hv
      | error e' =>
        cases hv
        obtain ⟨ps, _, _, _, h4⟩ := C40_items C _
        rw [h4] at hp
        split at hp <;> cases hp
        rfl

theorem admissible_ok {C : Classes} {dest : List Char} {values : List (List Char)}
    (h : (match optionValue C dest values with | .ok _ => true | .error _ => false) = true) : Admissible C dest values := by
  rw [← option_admissible]
  cases hv : optionValue C dest values with
  | ok v => exact ⟨v, rfl⟩
  | error e => rw [hv] at h; cases h

theorem settings_nil : SettingsOf [] [] := ⟨fun _ _ => rfl, rfl⟩

theorem settings_set {ns : List (List Char × List (List (List Char)))} {flat : List Given} (h : SettingsOf ns flat) (g : Given) :
    SettingsOf (setOption ns g) (flat ++ [g]) := by
  obtain ⟨h1, h2⟩ := h
  rw [setOption]
  by_cases hp : g.dest = "plot".toList
  · rw [if_pos hp]
    refine ⟨fun k hk => ?_, ?_⟩
    · rw [dictGet_set, if_neg (by rw [hp]; exact hk), h1 k hk, List.filter_append, List.filter_cons,
        if_neg (by rw [decide_eq_true_eq, hp]; exact fun e => hk e.symm), List.filter_nil, List.append_nil]
    · rw [hp, dictGet_set, if_pos rfl, List.filter_append, List.filter_cons, if_pos (by rw [decide_eq_true_eq]; exact hp),
        List.filter_nil, List.map_append, ← h2]
      rfl
  · rw [if_neg hp]
    refine ⟨fun k hk => ?_, ?_⟩
    · rw [dictGet_set, List.filter_append, List.filter_cons]
      by_cases e : k = g.dest
      · rw [if_pos e, if_pos (by rw [decide_eq_true_eq]; exact e.symm), List.filter_nil, List.getLast?_append]
        rfl
      · rw [if_neg e, h1 k hk, if_neg (by rw [decide_eq_true_eq]; exact fun x => e x.symm), List.filter_nil, List.append_nil]
    · rw [dictGet_set, if_neg (fun e => hp e.symm), h2, List.filter_append, List.filter_cons,
        if_neg (by rw [decide_eq_true_eq]; exact hp), List.filter_nil, List.append_nil]

theorem settings_noted {ns : List (List Char × List (List (List Char)))} {flat : List Given} (h : SettingsOf ns flat) (dest f : List Char)
    (hd : dest = "input".toList ∨ dest = "include".toList) :
    SettingsOf (dictSet (dictSet ns "input_filename".toList [[f]]) dest [["True".toList]]) (flat ++ noted dest f) := by
  have e1 : setOption ns ⟨"input_filename".toList, [f]⟩ = dictSet ns "input_filename".toList [[f]] :=
    if_neg (show ¬ "input_filename".toList = "plot".toList by decide +kernel)
  have hne : dest ≠ "plot".toList := by
    rcases hd with rfl | rfl <;> decide +kernel
  have e2 : ∀ ns', setOption ns' ⟨dest, ["True".toList]⟩ = dictSet ns' dest [["True".toList]] := fun ns' => if_neg hne
  have h1 := settings_set (settings_set h ⟨"input_filename".toList, [f]⟩) ⟨dest, ["True".toList]⟩
  rw [e1, e2, List.append_assoc] at h1
  exact h1

/-- reading a file, once it is found -/
theorem apply_load (C : Classes) (isNeg : List Char → Bool) (F : FileSys) (n : ℕ) (st : CmdState) (dest f cwd0 text : List Char)
    (hdest : dest = "input".toList ∨ dest = "include".toList)
    (words : List (List Char)) (l : List Given) (st' : CmdState)
    (hd : changeDir C F dest f st.cwd = .ok cwd0) (ht : F.content (absPath cwd0 f) = some text) (hw : loadArgs C text = .ok words)
    (hc : parseWords isNeg words = .ok l) (hf : l.foldlM (applyOption C isNeg F n) ⟨st.ns, cwd0⟩ = .ok st') :
    applyOption C isNeg F (n + 1) st ⟨dest, [f]⟩ =
      .ok ⟨dictSet (dictSet st'.ns "input_filename".toList [[f]]) dest [["True".toList]], st'.cwd⟩ := by
  unfold applyOption
  rw [if_pos hdest]
  dsimp only
  rw [hd, except_ok_bind, ht]
  dsimp only
  rw [hw, except_ok_bind, hc, except_ok_bind, hf, except_ok_bind]

theorem abs_path_of {cwd f path : List Char} (hp : (∃ t, f = '/' :: t ∧ path = f) ∨ (∀ t, f ≠ '/' :: t) ∧ path = cwd ++ f) :
    absPath cwd f = path := by
  rcases hp with ⟨t, rfl, rfl⟩ | ⟨hne, rfl⟩
  · rfl
  · rw [absPath, if_neg]
    cases f with
    | nil => simp
    | cons a t =>
      intro e
      have : a = '/' := by simpa using e
      exact hne t (by rw [this])

theorem expands_run (C : Classes) (isNeg : List Char → Bool) (F : FileSys) (cwd : List Char) (l flat : List Given) (cwd' : List Char)
    (n : ℕ) (h : Expands C isNeg F cwd l flat cwd' n) : ∀ depth, n ≤ depth → ∀ ns flat0, SettingsOf ns flat0 →
    ∃ ns', l.foldlM (applyOption C isNeg F depth) ⟨ns, cwd⟩ = .ok ⟨ns', cwd'⟩ ∧ SettingsOf ns' (flat0 ++ flat) := by
  induction h with
  | nil cwd n =>
    intro depth _ ns flat0 hs
    exact ⟨ns, rfl, by rwa [List.append_nil]⟩
  | option cwd cwd' g l flat n hg ha h ih =>
    intro depth hn ns flat0 hs
    obtain ⟨ns', h1, h2⟩ := ih depth hn _ _ (settings_set hs g)
    refine ⟨ns', ?_, by rw [List.append_assoc] at h2; exact h2⟩
    have : applyOption C isNeg F depth ⟨ns, cwd⟩ g = .ok ⟨setOption ns g, cwd⟩ := by
      obtain ⟨v, hv⟩ := (option_admissible C g.dest g.values).2 ha
      unfold applyOption
      rw [if_neg (show ¬ (g.dest = "input".toList ∨ g.dest = "include".toList) from hg), hv]
      rfl
    rw [List.foldlM_cons, this, except_ok_bind, h1]
  | included cwd cwd1 cwd2 f path text words l l1 flat flat1 n hp ht hw hc h1 h ih1 ih =>
    intro depth hn ns flat0 hs
    obtain ⟨d, rfl⟩ : ∃ d, depth = d + 1 := ⟨depth - 1, by omega⟩
    obtain ⟨ns1, e1, s1⟩ := ih1 d (by omega) ns flat0 hs
    have hpath : absPath cwd f = path := abs_path_of hp
    have := apply_load C isNeg F d ⟨ns, cwd⟩ "include".toList f cwd text (Or.inr rfl) words l1 ⟨ns1, cwd1⟩
      (by rw [changeDir, if_neg (by decide +kernel)]) (by rw [hpath]; exact ht) hw ((C133_grammar _ _ _).2 hc) e1
    obtain ⟨ns', e2, s2⟩ := ih (d + 1) hn _ _ (settings_noted s1 "include".toList f (Or.inr rfl))
    exact ⟨ns', by rw [List.foldlM_cons, this, except_ok_bind, e2], by simpa only [List.append_assoc] using s2⟩
  | input cwd cwd0 cwd1 cwd2 d b text words l l1 flat flat1 n hb hd ht hw hc h1 h ih1 ih =>
    intro depth hn ns flat0 hs
    obtain ⟨dp, rfl⟩ : ∃ d, depth = d + 1 := ⟨depth - 1, by omega⟩
    obtain ⟨ns1, e1, s1⟩ := ih1 dp (by omega) ns flat0 hs
    have hbn : '\n' ∉ b := by
      intro hm
      have := hb _ hm
      have hw : C.word '\n' = false := by rw [C.word_ascii _ (by decide)]; decide
      simp [nameCh, hw] at this
    have hbs : ∀ t, b ≠ '/' :: t := by
      rintro t rfl
      have := hb '/' (by simp)
      have hw : C.word '/' = false := by rw [C.word_ascii _ (by decide)]; decide
      simp [nameCh, hw] at this
    have hch : changeDir C F "input".toList (d ++ b) cwd = .ok cwd0 ∧ absPath cwd0 (d ++ b) = cwd0 ++ b := by
      rcases hd with ⟨rfl, rfl⟩ | ⟨⟨t, hdt⟩, hlast, hnl, hdir, rfl⟩
      · have := (C72_base_name_partial C 4 (by norm_num) [] b (by simpa using hbn) (Or.inl rfl) hb).1
        refine ⟨?_, ?_⟩
        · rw [changeDir, if_pos rfl, this, except_ok_bind, if_neg (by simp)]
        · rw [List.nil_append, absPath, if_neg]
          cases b with
          | nil => simp
          | cons a t =>
            intro e
            have : a = '/' := by simpa using e
            exact hbs t (by rw [this])
      · have := (C72_base_name_partial C 4 (by norm_num) cwd0 b (by simp [hnl, hbn]) (Or.inr ⟨'/', hlast, rfl⟩) hb).1
        have ha : absPath cwd cwd0 = cwd0 := by rw [absPath, if_pos (by rw [hdt]; rfl)]
        refine ⟨?_, ?_⟩
        · rw [changeDir, if_pos rfl, this, except_ok_bind, ha, if_pos ⟨by rw [hdt]; simp, hdir⟩]
        · rw [absPath, if_pos (by rw [hdt]; rfl)]
    have := apply_load C isNeg F dp ⟨ns, cwd⟩ "input".toList (d ++ b) cwd0 text (Or.inl rfl) words l1 ⟨ns1, cwd1⟩
      hch.1 (by rw [hch.2]; exact ht) hw ((C133_grammar _ _ _).2 hc) e1
    obtain ⟨ns', e2, s2⟩ := ih (dp + 1) hn _ _ (settings_noted s1 "input".toList (d ++ b) (Or.inl rfl))
    exact ⟨ns', by rw [List.foldlM_cons, this, except_ok_bind, e2], by simpa only [List.append_assoc] using s2⟩

/-- **C133.** The options in a file named after `-i` or `-inc` act as if they stood in the command in its place, to any depth of files which
Python's stack allows: each setting has the value given last, whether in the command or in a file, and the overplots come in the order in
which they are met.  Noted are the name of the file read last, and which of the two options were given.  Files are looked for in the directory which the last `-i` with an absolute path made the current one.  Missing: `-i`
with a relative path holding a directory (see the counterexample). -/
theorem C133_in_place_partial (C : Classes) (isNeg : List Char → Bool) (F : FileSys) (cwd : List Char) (words : List (List Char))
    (l flat : List Given) (cwd' : List Char) (n : ℕ) (hw : CommandOf isNeg words l) (h : Expands C isNeg F cwd l flat cwd' n)
    (depth : ℕ) (hd : n ≤ depth) :
    ∃ st, runCommand C isNeg F depth cwd words = .ok st ∧ st.cwd = cwd' ∧ SettingsOf st.ns flat := by
  obtain ⟨ns', h1, h2⟩ := expands_run C isNeg F cwd l flat cwd' n h depth hd [] [] settings_nil
  exact ⟨⟨ns', cwd'⟩, by rw [runCommand, (C133_grammar _ _ _).2 hw, except_ok_bind, h1], rfl, h2⟩

/-- **C133, with C39.** The file which a command leaves behind, named after `-i` in the same directory, gives the settings of the command. -/
theorem C133_replay (C : Classes) (isNeg : List Char → Bool) (F : FileSys) (isdigit : Char → Bool) (hsp : isdigit ' ' = false)
    (cwd : List Char) (words : List (List Char)) (l flat : List Given) (cwd' : List Char) (n : ℕ) (hw : CommandOf isNeg words l)
    (h : Expands C isNeg F cwd l flat cwd' n) (hs : ∀ e ∈ words, Savable isdigit e) (saved b : List Char)
    (hcs : csContent isdigit words = .ok saved) (hb : ∀ c ∈ b, nameCh C c = true) (hneg : b.head? ≠ some '-')
    (hfile : F.content (cwd ++ b) = some saved) (depth : ℕ) (hd : n + 1 ≤ depth) :
    ∃ st st', runCommand C isNeg F depth cwd words = .ok st ∧ runCommand C isNeg F depth cwd ["-i".toList, b] = .ok st' ∧
      st.cwd = st'.cwd ∧ SettingsOf st.ns flat ∧ SettingsOf st'.ns (flat ++ [⟨"input_filename".toList, [b]⟩, ⟨"input".toList, ["True".toList]⟩]) := by
  obtain ⟨st, h1, h2, h3⟩ := C133_in_place_partial C isNeg F cwd words l flat cwd' n hw h depth (by omega)
  obtain ⟨s, e1, e2⟩ := C39_replay_partial C isdigit hsp words hs
  rw [hcs] at e1
  cases e1
  have hcmd : CommandOf isNeg (["-i".toList, b]) [⟨"input".toList, [b]⟩] := by
    have hbv : (∀ o ∈ cliOptions, b ∉ o.flags) ∧ ((∀ t, b ≠ '-' :: t) ∨ isNeg b = true) := by
      have hbt : ∀ t, b ≠ '-' :: t := by
        rintro t rfl
        exact hneg rfl
      refine ⟨fun o ho hf => ?_, Or.inl hbt⟩
      have : ∀ o ∈ cliOptions, ∀ w ∈ o.flags, w.head? = some '-' := by decide +kernel
      exact hneg (this o ho b hf)
    exact CommandOf.option "-i".toList (mkOpt ["-i", "--input"] "input" .one) [b] [] [] (by rw [cliOptions]; exact List.mem_cons_self)
      (List.mem_cons_self) (by intro v hv; rw [List.mem_singleton] at hv; rw [hv]; exact hbv) ⟨b, rfl⟩ .nil
  have hexp : Expands C isNeg F cwd [⟨"input".toList, [b]⟩] (flat ++ noted "input".toList b) cwd' (n + 1) := by
    have := Expands.input cwd cwd cwd' cwd' [] b saved words [] l [] flat n hb (Or.inl ⟨rfl, rfl⟩) hfile e2 hw h (.nil _ _)
    rwa [List.append_nil, List.nil_append] at this
  obtain ⟨st', g1, g2, g3⟩ := C133_in_place_partial C isNeg F cwd _ _ _ cwd' (n + 1) hcmd hexp depth hd
  exact ⟨st, st', h1, g1, by rw [h2, g2], h3, g3⟩

/-- **C133.** A command with a file which is not there, cannot be split into words, or is no list of options, is rejected. -/
theorem C133_rejected (C : Classes) (isNeg : List Char → Bool) (F : FileSys) (cwd : List Char) (words : List (List Char))
    (l1 l2 flat : List Given) (f cwd' path : List Char) (n : ℕ) (hw : CommandOf isNeg words (l1 ++ ⟨"include".toList, [f]⟩ :: l2))
    (h : Expands C isNeg F cwd l1 flat cwd' n) (depth : ℕ) (hd : n ≤ depth)
    (hp : (∃ t, f = '/' :: t ∧ path = f) ∨ (∀ t, f ≠ '/' :: t) ∧ path = cwd' ++ f)
    (hbad : ∀ text ws l, F.content path = some text → loadArgs C text = .ok ws → ¬ CommandOf isNeg ws l) :
    ∃ e, runCommand C isNeg F depth cwd words = .error e := by
  obtain ⟨ns', h1, h2⟩ := expands_run C isNeg F cwd l1 flat cwd' n h depth hd [] [] settings_nil
  rw [runCommand, (C133_grammar _ _ _).2 hw, except_ok_bind, List.foldlM_append, h1, except_ok_bind, List.foldlM_cons]
  have hpath : absPath cwd' f = path := abs_path_of hp
  unfold applyOption
  rw [if_pos (Or.inr rfl)]
  cases depth with
  | zero => exact ⟨_, rfl⟩
  | succ m =>
    dsimp only
    rw [changeDir, if_neg (by decide +kernel), except_ok_bind, hpath]
    cases ht : F.content path with
    | none => exact ⟨_, rfl⟩
    | some text =>
      dsimp only
      cases hl : loadArgs C text with
      | error e => exact ⟨_, rfl⟩
      | ok ws =>
        rw [except_ok_bind]
        cases hg : parseWords isNeg ws with
        | error e => exact ⟨_, rfl⟩
        | ok l => exact absurd ((C133_grammar _ _ _).1 hg) (hbad text ws l ht hl)

/-- **C133.** A value of the wrong kind (a word instead of a number, a number or word which is not among the choices, a specification of a
plot without `=`), in the command or in a file, is rejected: nothing is done, even if the option is given again later. -/
theorem C133_wrong_value (C : Classes) (isNeg : List Char → Bool) (F : FileSys) (cwd : List Char) (words : List (List Char))
    (l1 l2 flat : List Given) (g : Given) (cwd' : List Char) (n : ℕ) (hw : CommandOf isNeg words (l1 ++ g :: l2))
    (h : Expands C isNeg F cwd l1 flat cwd' n) (depth : ℕ) (hd : n ≤ depth) (hg : ¬ Loads g) (hbad : ¬ Admissible C g.dest g.values) :
    runCommand C isNeg F depth cwd words = .error .system := by
  obtain ⟨ns', h1, h2⟩ := expands_run C isNeg F cwd l1 flat cwd' n h depth hd [] [] settings_nil
  rw [runCommand, (C133_grammar _ _ _).2 hw, except_ok_bind, List.foldlM_append, h1, except_ok_bind, List.foldlM_cons]
  unfold applyOption
  rw [if_neg (show ¬ (g.dest = "input".toList ∨ g.dest = "include".toList) from hg), option_error C _ _ hbad]
  rfl

/-- `-mu 5 -mu 1` is rejected, `-mu 1 -mu` is not -/
example : runCommand .ascii (fun _ => false) ⟨fun _ => none, fun _ => false⟩ 5 "/u/".toList (["-mu", "5", "-mu", "1"].map String.toList) =
    .error .system :=
  C133_wrong_value .ascii (fun _ => false) _ _ _ [] [⟨"mu".toList, ["1".toList]⟩] [] ⟨"mu".toList, ["5".toList]⟩ "/u/".toList 0
    ((C133_grammar _ _ _).1 (by decide +kernel)) (.nil _ _) 5 (by omega) (by unfold Loads; decide +kernel) (fun h => by
      rcases h.1 (by decide +kernel) with h | ⟨w, hw, h⟩
      · exact absurd h (by decide)
      · obtain rfl : "5".toList = w := by simpa using hw
        exact absurd h (by decide +kernel))

/-- **C133, counterexample.** With `-i` and a relative path the program goes to the directory of the file and looks for the path from there:
the file is not found although it exists. -/
theorem C133_relative_counterexample (C : Classes) (isNeg : List Char → Bool) (F : FileSys) (cwd d b : List Char) (hd : d ≠ [])
    (hrel : d.head? ≠ some '/') (hneg : d.head? ≠ some '-') (hlast : d.getLast? = some '/') (hnl : '\n' ∉ d)
    (hb : ∀ c ∈ b, nameCh C c = true) (hdir : F.isdir (cwd ++ d) = true) (text : List Char)
    (_hfile : F.content (cwd ++ (d ++ b)) = some text) (hno : F.content (cwd ++ d ++ (d ++ b)) = none) (depth : ℕ) :
    runCommand C isNeg F depth cwd ["-i".toList, d ++ b] = .error .system := by
  have hbn : '\n' ∉ b := by
    intro hm
    have := hb _ hm
    have hw : C.word '\n' = false := by rw [C.word_ascii _ (by decide)]; decide
    simp [nameCh, hw] at this
  obtain ⟨a, t, rfl⟩ := List.exists_cons_of_ne_nil hd
  have hcmd : CommandOf isNeg (["-i".toList, (a :: t) ++ b]) [⟨"input".toList, [(a :: t) ++ b]⟩] := by
    have hbv : (∀ o ∈ cliOptions, (a :: t) ++ b ∉ o.flags) ∧ ((∀ t', (a :: t) ++ b ≠ '-' :: t') ∨ isNeg ((a :: t) ++ b) = true) := by
      refine ⟨fun o ho hf => ?_, Or.inl fun t' e => ?_⟩
      · have : ∀ o ∈ cliOptions, ∀ w ∈ o.flags, w.head? = some '-' := by decide +kernel
        have h0 := this o ho _ hf
        rw [List.cons_append, List.head?_cons] at h0
        exact hneg (by rw [List.head?_cons]; exact h0)
      · rw [List.cons_append, List.cons.injEq] at e
        exact hneg (by rw [e.1]; rfl)
    exact CommandOf.option "-i".toList (mkOpt ["-i", "--input"] "input" .one) [(a :: t) ++ b] [] []
      (by rw [cliOptions]; exact List.mem_cons_self) (List.mem_cons_self)
      (by intro v hv; rw [List.mem_singleton] at hv; rw [hv]; exact hbv) ⟨_, rfl⟩ .nil
  have hp := (C72_base_name_partial C 4 (by norm_num) (a :: t) b
    (by rw [List.mem_append, not_or]; exact ⟨hnl, hbn⟩) (Or.inr ⟨'/', hlast, rfl⟩) hb).1
  have ha : absPath cwd (a :: t) = cwd ++ (a :: t) := by rw [absPath, if_neg hrel]
  have ha2 : absPath (cwd ++ (a :: t)) ((a :: t) ++ b) = cwd ++ (a :: t) ++ ((a :: t) ++ b) := by
    rw [absPath, if_neg]
    exact hrel
  rw [runCommand, (C133_grammar _ _ _).2 hcmd, except_ok_bind, List.foldlM_cons]
  unfold applyOption
  rw [if_pos (Or.inl rfl)]
  cases depth with
  | zero => rfl
  | succ n =>
    dsimp only
    rw [changeDir, if_pos rfl, hp, except_ok_bind, ha, if_pos ⟨hd, hdir⟩, except_ok_bind, ha2, hno]
    rfl

theorem flags_minus : ∀ o ∈ cliOptions, ∀ w ∈ o.flags, w.head? = some '-' := by decide +kernel

/-- the command with `-i` and a name -/
theorem command_input {isNeg : List Char → Bool} {rest : List (List Char)} {l : List Given} (h : CommandOf isNeg rest l) (f : List Char)
    (hf : f.head? ≠ some '-') : CommandOf isNeg ("-i".toList :: f :: rest) (⟨"input".toList, [f]⟩ :: l) := by
  refine CommandOf.option "-i".toList (mkOpt ["-i", "--input"] "input" .one) [f] rest l (by rw [cliOptions]; exact List.mem_cons_self)
    List.mem_cons_self (fun v hv => ?_) ⟨f, rfl⟩ h
  rw [List.mem_singleton] at hv
  rw [hv]
  exact ⟨fun o ho hm => hf (flags_minus o ho f hm), Or.inl fun t e => hf (by rw [e]; rfl)⟩

/-- the command with `-inc` and a name -/
theorem command_include {isNeg : List Char → Bool} {rest : List (List Char)} {l : List Given} (h : CommandOf isNeg rest l) (f : List Char)
    (hf : f.head? ≠ some '-') : CommandOf isNeg ("-inc".toList :: f :: rest) (⟨"include".toList, [f]⟩ :: l) := by
  refine CommandOf.option "-inc".toList (mkOpt ["-inc", "--include"] "include" .one) [f] rest l
    (by rw [cliOptions]; exact List.mem_cons_of_mem _ List.mem_cons_self) List.mem_cons_self (fun v hv => ?_) ⟨f, rfl⟩ h
  rw [List.mem_singleton] at hv
  rw [hv]
  exact ⟨fun o ho hm => hf (flags_minus o ho f hm), Or.inl fun t e => hf (by rw [e]; rfl)⟩

theorem last_noted (flat : List Given) (dest f : List Char) (hd : dest ≠ "input_filename".toList) :
    ((flat ++ noted dest f).filter (fun g => g.dest = "input_filename".toList)).getLast? = some ⟨"input_filename".toList, [f]⟩ := by
  rw [List.filter_append, noted, List.filter_cons, if_pos (by rw [decide_eq_true_eq]), List.filter_cons,
    if_neg (by rw [decide_eq_true_eq]; exact hd), List.filter_nil, List.getLast?_append]
  rfl

theorem input_true {C : Classes} {isNeg : List Char → Bool} {F : FileSys} {cwd cwd' : List Char} {l flat : List Given} {n : ℕ}
    (h : Expands C isNeg F cwd l flat cwd' n) : ∀ g ∈ flat, g.dest = "input".toList → g.values = ["True".toList] := by
  have hnote : ∀ dest f, ∀ g ∈ noted dest f, g.dest = "input".toList → g.values = ["True".toList] := by
    intro dest f g hg hd
    rw [noted, List.mem_cons, List.mem_singleton] at hg
    rcases hg with rfl | rfl
    · exact absurd hd (show ¬ "input_filename".toList = "input".toList by decide +kernel)
    · rfl
  induction h with
  | nil => intro g hg; exact absurd hg List.not_mem_nil
  | option cwd cwd' g l flat n hg ha h ih =>
    intro x hx hd
    rcases List.mem_cons.1 hx with rfl | hx
    · exact absurd (Or.inl hd) hg
    · exact ih x hx hd
  | included cwd cwd1 cwd2 f path text words l l1 flat flat1 n hp ht hw hc h1 h ih1 ih =>
    intro x hx hd
    rcases List.mem_append.1 hx with hx | hx
    · rcases List.mem_append.1 hx with hx | hx
      · exact ih1 x hx hd
      · exact hnote _ _ x hx hd
    · exact ih x hx hd
  | input cwd cwd0 cwd1 cwd2 d b text words l l1 flat flat1 n hb hd' ht hw hc h1 h ih1 ih =>
    intro x hx hd
    rcases List.mem_append.1 hx with hx | hx
    · rcases List.mem_append.1 hx with hx | hx
      · exact ih1 x hx hd
      · exact hnote _ _ x hx hd
    · exact ih x hx hd

theorem input_noted {C : Classes} {isNeg : List Char → Bool} {F : FileSys} {cwd cwd' : List Char} {l flat : List Given} {n : ℕ}
    (h : Expands C isNeg F cwd l flat cwd' n) (hm : ∃ g ∈ flat, g.dest = "input".toList) :
    ((flat.filter (fun g => g.dest = "input".toList)).getLast?).map (fun g => [g.values]) = some [["True".toList]] := by
  obtain ⟨g, hg, hd⟩ := hm
  cases hl : (flat.filter (fun g => g.dest = "input".toList)).getLast? with
  | none =>
    rw [List.getLast?_eq_none_iff] at hl
    have : g ∈ flat.filter (fun g => g.dest = "input".toList) := List.mem_filter.2 ⟨hg, by rw [decide_eq_true_eq]; exact hd⟩
    rw [hl] at this
    exact absurd this List.not_mem_nil
  | some x =>
    have := List.mem_filter.1 (List.mem_of_getLast? hl)
    rw [Option.map_some, input_true h x this.1 (by simpa using this.2)]

/-- **C133, counterexample.** The output of `-i a.cs` is named after the file of the command (C58), but with settings included afterwards,
`-i a.cs -inc s.txt`, it is named after these: the name noted is the one of the file read last. -/
theorem C133_name_counterexample (C : Classes) (isNeg : List Char → Bool) (F : FileSys) (cwd a b ta tb : List Char)
    (wa wb : List (List Char)) (la lb fa fb : List Given) (n : ℕ) (ha : ∀ c ∈ a, nameCh C c = true) (ham : a.head? ≠ some '-')
    (hbm : b.head? ≠ some '-') (hbs : b.head? ≠ some '/') (hta : F.content (cwd ++ a) = some ta) (htb : F.content (cwd ++ b) = some tb)
    (hwa : loadArgs C ta = .ok wa) (hwb : loadArgs C tb = .ok wb) (hca : CommandOf isNeg wa la) (hcb : CommandOf isNeg wb lb)
    (hea : Expands C isNeg F cwd la fa cwd n) (heb : Expands C isNeg F cwd lb fb cwd n) (depth : ℕ) (hd : n + 1 ≤ depth) :
    ∃ st, runCommand C isNeg F depth cwd ["-i".toList, a, "-inc".toList, b] = .ok st ∧
      dictGet st.ns "input".toList = some [["True".toList]] ∧ dictGet st.ns "input_filename".toList = some [[b]] := by
  have hcmd := command_input (isNeg := isNeg) (command_include (.nil) b hbm) a ham
  have he : Expands C isNeg F cwd [⟨"input".toList, [a]⟩, ⟨"include".toList, [b]⟩]
      ((fa ++ noted "input".toList a ++ (fb ++ noted "include".toList b ++ []))) cwd (n + 1) :=
    Expands.input cwd cwd cwd cwd [] a ta wa _ la _ fa n ha (Or.inl ⟨rfl, rfl⟩) hta hwa hca hea
      (Expands.included cwd cwd cwd b (cwd ++ b) tb wb [] lb [] fb n
        (Or.inr ⟨fun t e => hbs (by rw [e]; rfl), rfl⟩) htb hwb hcb heb (.nil _ _))
  obtain ⟨st, h1, _, h2, _⟩ := C133_in_place_partial C isNeg F cwd _ _ _ cwd (n + 1) hcmd he depth hd
  refine ⟨st, h1, ?_, ?_⟩
  · rw [h2 _ (by decide +kernel)]
    exact input_noted he ⟨_, List.mem_append_left _ (List.mem_append_right _ (List.mem_cons_of_mem _ List.mem_cons_self)), rfl⟩
  · rw [h2 _ (by decide +kernel), List.append_nil, ← List.append_assoc, last_noted _ _ _ (by decide +kernel)]
    rfl

/-- a file in the directory `/w`, which includes another one -/
def exampleFiles : FileSys where
  content p := if p = "/w/a.cs".toList then some "-cs 2\n# chosen settings\n-inc s.txt\n-p source=x.scc".toList
    else if p = "/w/s.txt".toList then some "-title 'My plot' -cs 3".toList
    else if p = "/u/sub/b.cs".toList then some "-cs 4".toList else none
  isdir p := p ∈ ["/w/".toList, "/u/".toList, "/u/sub/".toList]

/-- the command `-p source=y.scc -i /w/a.cs -mu` -/
def exampleCommand : List (List Char) := ["-p".toList, "source=y.scc".toList, "-i".toList, "/w/a.cs".toList, "-mu".toList]

example : CommandOf (fun _ => false) exampleCommand
    [⟨"plot".toList, ["source=y.scc".toList]⟩, ⟨"input".toList, ["/w/a.cs".toList]⟩, ⟨"mu".toList, []⟩] :=
  (C133_grammar _ _ _).1 (by decide +kernel)

example : Expands .ascii (fun _ => false) exampleFiles "/u/".toList
    [⟨"plot".toList, ["source=y.scc".toList]⟩, ⟨"input".toList, ["/w/".toList ++ "a.cs".toList]⟩, ⟨"mu".toList, []⟩]
    [⟨"plot".toList, ["source=y.scc".toList]⟩, ⟨"chronology_system".toList, ["2".toList]⟩, ⟨"title".toList, ["My plot".toList]⟩,
      ⟨"chronology_system".toList, ["3".toList]⟩, ⟨"input_filename".toList, ["s.txt".toList]⟩, ⟨"include".toList, ["True".toList]⟩,
      ⟨"plot".toList, ["source=x.scc".toList]⟩, ⟨"input_filename".toList, ["/w/a.cs".toList]⟩, ⟨"input".toList, ["True".toList]⟩,
      ⟨"mu".toList, []⟩] "/w/".toList 2 := by
  refine .option _ _ _ _ _ _ (by unfold Loads; decide +kernel) (admissible_ok (by decide +kernel)) ?_
  refine .input "/u/".toList "/w/".toList "/w/".toList "/w/".toList "/w/".toList "a.cs".toList
    "-cs 2\n# chosen settings\n-inc s.txt\n-p source=x.scc".toList
    ["-cs".toList, "2".toList, "-inc".toList, "s.txt".toList, "-p".toList, "source=x.scc".toList] _
    [⟨"chronology_system".toList, ["2".toList]⟩, ⟨"include".toList, ["s.txt".toList]⟩, ⟨"plot".toList, ["source=x.scc".toList]⟩]
    [⟨"mu".toList, []⟩] [⟨"chronology_system".toList, ["2".toList]⟩, ⟨"title".toList, ["My plot".toList]⟩,
      ⟨"chronology_system".toList, ["3".toList]⟩, ⟨"input_filename".toList, ["s.txt".toList]⟩, ⟨"include".toList, ["True".toList]⟩,
      ⟨"plot".toList, ["source=x.scc".toList]⟩] 1 (by decide +kernel)
    (Or.inr ⟨⟨_, rfl⟩, by decide +kernel, by decide +kernel, by decide +kernel, rfl⟩) (by decide +kernel) (by decide +kernel)
    ((C133_grammar _ _ _).1 (by decide +kernel)) ?_ ?_
  · refine .option _ _ _ _ _ _ (by unfold Loads; decide +kernel) (admissible_ok (by decide +kernel)) ?_
    refine .included _ "/w/".toList _ _ "/w/s.txt".toList "-title 'My plot' -cs 3".toList
      ["-title".toList, "My plot".toList, "-cs".toList, "3".toList] _
      [⟨"title".toList, ["My plot".toList]⟩, ⟨"chronology_system".toList, ["3".toList]⟩] [⟨"plot".toList, ["source=x.scc".toList]⟩]
      [⟨"title".toList, ["My plot".toList]⟩, ⟨"chronology_system".toList, ["3".toList]⟩] 0
      (Or.inr ⟨by simp, by decide +kernel⟩) (by decide +kernel) (by decide +kernel) ((C133_grammar _ _ _).1 (by decide +kernel)) ?_ ?_
    · exact .option _ _ _ _ _ _ (by unfold Loads; decide +kernel) (admissible_ok (by decide +kernel)) (.option _ _ _ _ _ _ (by unfold Loads; decide +kernel)
        (admissible_ok (by decide +kernel)) (.nil _ _))
    · exact .option _ _ _ _ _ _ (by unfold Loads; decide +kernel) (admissible_ok (by decide +kernel)) (.nil _ _)
  · exact .option _ _ _ _ _ _ (by unfold Loads; decide +kernel) (admissible_ok (by decide +kernel)) (.nil _ _)

/-- the file of the example is replaced by the command given later: chronology system 3, two overplots in their order -/
example : (runCommand .ascii (fun _ => false) exampleFiles 5 "/u/".toList exampleCommand).map (fun st =>
      (st.cwd, dictGet st.ns "chronology_system".toList, dictGet st.ns "plot".toList)) =
    .ok ("/w/".toList, some [["3".toList]], some [["source=y.scc".toList], ["source=x.scc".toList]]) := by decide +kernel

/-- the name of the settings which are included is noted -/
example : (runCommand .ascii (fun _ => false) exampleFiles 5 "/w/".toList (["-i", "a.cs", "-inc", "s.txt"].map String.toList)).map (fun st =>
    dictGet st.ns "input_filename".toList) = .ok (some [["s.txt".toList]]) := by decide +kernel

/-- the hypotheses of the counterexample are met -/
example : runCommand .ascii (fun _ => false) exampleFiles 5 "/u/".toList ["-i".toList, "sub/b.cs".toList] = .error .system :=
  C133_relative_counterexample .ascii _ exampleFiles "/u/".toList "sub/".toList "b.cs".toList (by decide +kernel) (by decide +kernel)
    (by decide +kernel) (by decide +kernel) (by decide +kernel) (by decide +kernel) (by decide +kernel) "-cs 4".toList (by decide +kernel)
    (by decide +kernel) 5

end Verif.Props
