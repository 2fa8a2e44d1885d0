import Verif.Model.Main
import Verif.Props.CommandLine

/-!
C134: what a command does, and the file it leaves behind.
-/

namespace Verif.Props

open Verif.Py Verif.Text Verif.Cli

/-- the values with which an option is given the last time -/
def OptionLast (flat : List Given) (k : String) (values : List (List Char)) : Prop :=
  ∃ pre post, flat = pre ++ ⟨k.toList, values⟩ :: post ∧ ∀ g ∈ post, g.dest ≠ k.toList

/-- the option is given, the last time not with an empty text -/
def AskedFor (flat : List Given) (k : String) : Prop := ∃ values, OptionLast flat k values ∧ values ≠ [[]]

/-- the options which ask for something else than plots, in the order of their precedence -/
def requests : List String := ["create_desktop_icon", "functions_user", "lcs", "lpc", "about", "version", "merge", "demo"]

/-- what is done for such an option -/
inductive RequestDone (flat : List Given) : String → Event → Prop
  | icon : RequestDone flat "create_desktop_icon" .icon
  | user (values : List (List Char)) (h : OptionLast flat "functions_user" values) :
      RequestDone flat "functions_user" (.userFunctions (values.intersperse [' ']).flatten)
  | systems : RequestDone flat "lcs" .listSystems
  | colours : RequestDone flat "lpc" .listColours
  | about : RequestDone flat "about" .about
  | version : RequestDone flat "version" .version
  | merge (values : List (List Char)) (h : OptionLast flat "merge" values) :
      RequestDone flat "merge" (.merge (values.intersperse [' ']).flatten)
  | demo : RequestDone flat "demo" .demo

theorem lastGiven_iff (flat : List Given) (k : String) (values : List (List Char)) : OptionLast flat k values ↔
    ((flat.filter (fun g => g.dest = k.toList)).getLast?).map (fun g => [g.values]) = some [values] := by
  constructor
  · rintro ⟨pre, post, rfl, h⟩
    have hpost : post.filter (fun g => g.dest = k.toList) = [] := by
      rw [List.filter_eq_nil_iff]
      intro g hg
      rw [decide_eq_true_eq]
      exact h g hg
    rw [List.filter_append, List.filter_cons, if_pos (by rw [decide_eq_true_eq]), hpost, List.getLast?_append]
    rfl
  · induction flat with
    | nil => intro h; exact absurd h (by simp)
    | cons g t ih =>
      intro h
      rw [List.filter_cons] at h
      by_cases hne : t.filter (fun g => g.dest = k.toList) = []
      · rw [hne] at h
        by_cases hg : g.dest = k.toList
        · rw [if_pos (by rw [decide_eq_true_eq]; exact hg)] at h
          have hv : g.values = values := by simpa using h
          refine ⟨[], t, by rw [← hg, ← hv]; rfl, fun x hx e => ?_⟩
          rw [List.filter_eq_nil_iff] at hne
          exact hne x hx (by rw [decide_eq_true_eq]; exact e)
        · rw [if_neg (by rw [decide_eq_true_eq]; exact hg)] at h
          exact absurd h (by simp)
      · have : OptionLast t k values := by
          apply ih
          rw [← h]
          by_cases hg : g.dest = k.toList
          · rw [if_pos (by rw [decide_eq_true_eq]; exact hg), List.getLast?_cons]
            cases hl : (t.filter (fun g => g.dest = k.toList)).getLast? with
            | none => exact absurd (List.getLast?_eq_none_iff.1 hl) hne
            | some x => rfl
          · rw [if_neg (by rw [decide_eq_true_eq]; exact hg)]
        obtain ⟨pre, post, rfl, h2⟩ := this
        exact ⟨g :: pre, post, rfl, h2⟩

theorem dictGet_single {ns : List (List Char × List (List (List Char)))} {flat : List Given} (h : SettingsOf ns flat) (k : String)
    (hk : k.toList ≠ "plot".toList) : (∀ values, dictGet ns k.toList = some [values] ↔ OptionLast flat k values) ∧
    (dictGet ns k.toList = none ∨ ∃ values, dictGet ns k.toList = some [values]) := by
  rw [h.1 k.toList hk]
  refine ⟨fun values => (lastGiven_iff flat k values).symm, ?_⟩
  cases (flat.filter (fun g => g.dest = k.toList)).getLast? with
  | none => exact Or.inl rfl
  | some g => exact Or.inr ⟨g.values, rfl⟩

theorem isSet_iff {ns : List (List Char × List (List (List Char)))} {flat : List Given} (h : SettingsOf ns flat) (k : String)
    (hk : k.toList ≠ "plot".toList) : isSet ns k = true ↔ AskedFor flat k := by
  obtain ⟨h1, h2⟩ := dictGet_single h k hk
  constructor
  · intro hs
    rcases h2 with h2 | ⟨values, h2⟩
    · rw [isSet, h2] at hs; exact absurd hs (by simp)
    · refine ⟨values, (h1 values).1 h2, ?_⟩
      rintro rfl
      rw [isSet, h2] at hs
      exact absurd hs (by simp)
  · rintro ⟨values, hl, hne⟩
    rw [isSet, (h1 values).2 hl]
    simp [hne]

theorem join_eq_intersperse (sep : List Char) (l : List (List Char)) : join sep l = (l.intersperse sep).flatten := by
  induction l with
  | nil => rfl
  | cons a t ih =>
    cases t with
    | nil => simp [join]
    | cons b t =>
      rw [join, ih, List.intersperse_cons₂, List.flatten_cons, List.flatten_cons, List.append_assoc]

theorem spaced_eq {ns : List (List Char × List (List (List Char)))} {flat : List Given} (h : SettingsOf ns flat) (k : String)
    (hk : k.toList ≠ "plot".toList) (values : List (List Char)) (hl : OptionLast flat k values) :
    spaced ns k = (values.intersperse [' ']).flatten := by
  rw [spaced, ((dictGet_single h k hk).1 values).2 hl]
  exact join_eq_intersperse _ _

theorem request_names : ∀ k ∈ requests, k.toList ≠ "plot".toList := by decide +kernel

theorem choose_request (isdigit : Char → Bool) (prepare : CmdState → Except Exc (List Char)) (st : CmdState) (words : List (List Char))
    (flat : List Given) (hs : SettingsOf st.ns flat) (pre post : List String) (k : String) (hreq : requests = pre ++ k :: post)
    (hk : AskedFor flat k) (hpre : ∀ j ∈ pre, ¬ AskedFor flat j) :
    ∃ ev, chooseEvents isdigit prepare st words = .ok [ev] ∧ RequestDone flat k ev := by
  have hset : ∀ j ∈ requests, (isSet st.ns j = true ↔ AskedFor flat j) := fun j hj => isSet_iff hs j (request_names j hj)
  have hkm : isSet st.ns k = true := (hset k (by rw [hreq]; simp)).2 hk
  have hprem : ∀ j ∈ pre, isSet st.ns j = false := by
    intro j hj
    rw [← Bool.not_eq_true, hset j (by rw [hreq]; simp [hj])]
    exact hpre j hj
  obtain ⟨values, hlast, -⟩ := hk
  rw [requests] at hreq
  unfold chooseEvents
  rcases pre with _ | ⟨p1, pre⟩
  · obtain ⟨rfl, -⟩ := List.cons.inj hreq
    rw [if_pos hkm]
    exact ⟨_, rfl, .icon⟩
  obtain ⟨rfl, hreq1⟩ := List.cons.inj hreq
  rw [if_neg (by rw [hprem _ (by simp)]; simp)]
  rcases pre with _ | ⟨p2, pre⟩
  · obtain ⟨rfl, -⟩ := List.cons.inj hreq1
    rw [if_pos hkm, spaced_eq hs _ (by decide +kernel) values hlast]
    exact ⟨_, rfl, .user values hlast⟩
  obtain ⟨rfl, hreq2⟩ := List.cons.inj hreq1
  rw [if_neg (by rw [hprem _ (by simp)]; simp)]
  rcases pre with _ | ⟨p3, pre⟩
  · obtain ⟨rfl, -⟩ := List.cons.inj hreq2
    rw [if_pos hkm]
    exact ⟨_, rfl, .systems⟩
  obtain ⟨rfl, hreq3⟩ := List.cons.inj hreq2
  rw [if_neg (by rw [hprem _ (by simp)]; simp)]
  rcases pre with _ | ⟨p4, pre⟩
  · obtain ⟨rfl, -⟩ := List.cons.inj hreq3
    rw [if_pos hkm]
    exact ⟨_, rfl, .colours⟩
  obtain ⟨rfl, hreq4⟩ := List.cons.inj hreq3
  rw [if_neg (by rw [hprem _ (by simp)]; simp)]
  rcases pre with _ | ⟨p5, pre⟩
  · obtain ⟨rfl, -⟩ := List.cons.inj hreq4
    rw [if_pos hkm]
    exact ⟨_, rfl, .about⟩
  obtain ⟨rfl, hreq5⟩ := List.cons.inj hreq4
  rw [if_neg (by rw [hprem _ (by simp)]; simp)]
  rcases pre with _ | ⟨p6, pre⟩
  · obtain ⟨rfl, -⟩ := List.cons.inj hreq5
    rw [if_pos hkm]
    exact ⟨_, rfl, .version⟩
  obtain ⟨rfl, hreq6⟩ := List.cons.inj hreq5
  rw [if_neg (by rw [hprem _ (by simp)]; simp)]
  rcases pre with _ | ⟨p7, pre⟩
  · obtain ⟨rfl, -⟩ := List.cons.inj hreq6
    rw [if_pos hkm, spaced_eq hs _ (by decide +kernel) values hlast]
    exact ⟨_, rfl, .merge values hlast⟩
  obtain ⟨rfl, hreq7⟩ := List.cons.inj hreq6
  rw [if_neg (by rw [hprem _ (by simp)]; simp)]
  rcases pre with _ | ⟨p8, pre⟩
  · obtain ⟨rfl, -⟩ := List.cons.inj hreq7
    rw [if_pos hkm]
    exact ⟨_, rfl, .demo⟩
  obtain ⟨rfl, hreq8⟩ := List.cons.inj hreq7
  exact absurd hreq8 (by simp)

theorem choose_plots (isdigit : Char → Bool) (prepare : CmdState → Except Exc (List Char)) (st : CmdState) (words : List (List Char))
    (flat : List Given) (hs : SettingsOf st.ns flat) (hno : ∀ j ∈ requests, ¬ AskedFor flat j) :
    chooseEvents isdigit prepare st words = plotEvents isdigit prepare st words := by
  have hset : ∀ j ∈ requests, isSet st.ns j = false := by
    intro j hj
    rw [← Bool.not_eq_true, isSet_iff hs j (request_names j hj)]
    exact hno j hj
  unfold chooseEvents
  rw [requests] at hset
  iterate 8 rw [if_neg (by rw [hset _ (by simp)]; simp)]

/-- **C134.** An option asking for something else than plots (list of functions, version, merging of counts, …) is met, alone: no plot is
made and no command file is written, wherever else the options stand, in files or in the command.  If there are several, the first in the
order of `requests` is met. -/
theorem C134_request (C : Classes) (isNeg : List Char → Bool) (isdigit : Char → Bool) (F : FileSys)
    (prepare : CmdState → Except Exc (List Char)) (cwd : List Char) (argv words : List (List Char)) (args0 : Option (List (List Char)))
    (hargs : args0 = some words ∨ args0 = none ∧ argv = words) (l flat : List Given) (cwd' : List Char) (n : ℕ)
    (hw : CommandOf isNeg words l) (h : Expands C isNeg F cwd l flat cwd' n) (depth : ℕ) (hd : n ≤ depth)
    (pre post : List String) (k : String) (hreq : requests = pre ++ k :: post) (hk : AskedFor flat k) (hpre : ∀ j ∈ pre, ¬ AskedFor flat j) :
    ∃ ev, mainEvents C isNeg isdigit F prepare depth cwd argv args0 = .ok [ev] ∧ RequestDone flat k ev := by
  obtain ⟨st, h1, -, h2⟩ := C133_in_place_partial C isNeg F cwd words l flat cwd' n hw h depth hd
  have he : args0.getD argv = words := by
    rcases hargs with rfl | ⟨rfl, rfl⟩ <;> rfl
  rw [mainEvents, he, h1, except_ok_bind]
  exact choose_request isdigit prepare st _ flat h2 pre post k hreq hk hpre

/-- **C134.** Otherwise plots are made (or a conversion), and then the command is saved beside them in a file from which it can be read back,
unless it came itself from a file named after `-i`. -/
theorem C134_plots (C : Classes) (isNeg : List Char → Bool) (isdigit : Char → Bool) (hsp : isdigit ' ' = false) (F : FileSys)
    (prepare : CmdState → Except Exc (List Char)) (cwd : List Char) (argv words : List (List Char)) (args0 : Option (List (List Char)))
    (hargs : args0 = some words ∧ words ≠ [] ∨ args0 = none ∧ argv = words) (l flat : List Given) (cwd' : List Char) (n : ℕ)
    (hw : CommandOf isNeg words l) (h : Expands C isNeg F cwd l flat cwd' n) (depth : ℕ) (hd : n ≤ depth)
    (hno : ∀ j ∈ requests, ¬ AskedFor flat j) (hs : ∀ e ∈ words, Savable isdigit e) :
    ∃ st, runCommand C isNeg F depth cwd words = .ok st ∧ SettingsOf st.ns flat ∧
      (∀ e, prepare st = .error e → mainEvents C isNeg isdigit F prepare depth cwd argv args0 = .error e) ∧
      ∀ out, prepare st = .ok out →
        (∀ a b, OptionLast flat "convert" [a, b] →
          mainEvents C isNeg isdigit F prepare depth cwd argv args0 = .ok [.convert a b]) ∧
        ((∀ g ∈ flat, g.dest ≠ "convert".toList) → (∃ g ∈ flat, g.dest = "input".toList) →
          mainEvents C isNeg isdigit F prepare depth cwd argv args0 = .ok [.figures out]) ∧
        ((∀ g ∈ flat, g.dest ≠ "convert".toList) → (∀ g ∈ flat, g.dest ≠ "input".toList) → ∃ s, loadArgs C s = .ok words ∧
          mainEvents C isNeg isdigit F prepare depth cwd argv args0 = .ok [.figures out, .saved (out ++ ".cs".toList) s]) := by
  obtain ⟨st, h1, -, h2⟩ := C133_in_place_partial C isNeg F cwd words l flat cwd' n hw h depth hd
  have he : args0.getD argv = words := by
    rcases hargs with ⟨rfl, -⟩ | ⟨rfl, rfl⟩ <;> rfl
  have hsw : savedWords argv args0 = words := by
    rcases hargs with ⟨rfl, hne⟩ | ⟨rfl, rfl⟩
    · obtain ⟨w, t, rfl⟩ := List.exists_cons_of_ne_nil hne
      rfl
    · rfl
  have hm : mainEvents C isNeg isdigit F prepare depth cwd argv args0 = plotEvents isdigit prepare st words := by
    rw [mainEvents, he, h1, except_ok_bind, hsw, choose_plots isdigit prepare st words flat h2 hno]
  obtain ⟨s, c1, c2⟩ := C39_replay_partial C isdigit hsp words hs
  have hgiven : ∀ k : String, k.toList ≠ "plot".toList → (∀ g ∈ flat, g.dest ≠ k.toList) → isSet st.ns k = false := by
    intro k hk hg
    rw [← Bool.not_eq_true, isSet_iff h2 k hk]
    rintro ⟨v, ⟨pre, post, rfl, -⟩, -⟩
    exact hg ⟨k.toList, v⟩ (by simp) rfl
  have hcv : "convert".toList ≠ "plot".toList := by decide +kernel
  have hin : "input".toList ≠ "plot".toList := by decide +kernel
  refine ⟨st, h1, h2, fun e hp => ?_, fun out hp => ⟨fun a b hlast => ?_, fun hc hi => ?_, fun hc hi => ⟨s, c2, ?_⟩⟩⟩
  · rw [hm, plotEvents, hp]
    rfl
  · have e1 := ((dictGet_single h2 "convert" hcv).1 [a, b]).2 hlast
    rw [hm, plotEvents, hp, except_ok_bind, c1, except_ok_bind,
      if_pos ((isSet_iff h2 "convert" hcv).2 ⟨[a, b], hlast, by simp⟩), convertEvent, e1]
  · have e1 := input_noted h hi
    have e2 : OptionLast flat "input" ["True".toList] := (lastGiven_iff flat "input" _).2 e1
    rw [hm, plotEvents, hp, except_ok_bind, c1, except_ok_bind, hgiven "convert" hcv hc, if_neg (by simp),
      if_pos ((isSet_iff h2 "input" hin).2 ⟨_, e2, by decide +kernel⟩)]
  · rw [hm, plotEvents, hp, except_ok_bind, c1, except_ok_bind, hgiven "convert" hcv hc, hgiven "input" hin hi, if_neg (by simp),
      if_neg (by simp)]

/-- **C134, counterexample.** `main([])`, called from a program, makes the plots of the empty command, but the command saved is the one with
which the program was started. -/
theorem C134_empty_counterexample (C : Classes) (isNeg : List Char → Bool) (isdigit : Char → Bool) (hsp : isdigit ' ' = false) (F : FileSys)
    (prepare : CmdState → Except Exc (List Char)) (depth : ℕ) (cwd out : List Char) (hp : prepare ⟨[], cwd⟩ = .ok out)
    (argv : List (List Char)) (hs : ∀ e ∈ argv, Savable isdigit e) :
    ∃ s, loadArgs C s = .ok argv ∧ mainEvents C isNeg isdigit F prepare depth cwd argv (some []) =
      .ok [.figures out, .saved (out ++ ".cs".toList) s] := by
  obtain ⟨s, c1, c2⟩ := C39_replay_partial C isdigit hsp argv hs
  refine ⟨s, c2, ?_⟩
  have h1 : runCommand C isNeg F depth cwd [] = .ok ⟨[], cwd⟩ := by
    rw [runCommand, (C133_grammar _ _ _).2 .nil]
    rfl
  rw [mainEvents, Option.getD_some, h1, except_ok_bind, choose_plots isdigit prepare _ _ [] settings_nil]
  · rw [plotEvents, hp, except_ok_bind, savedWords, c1]
    · rfl
    · simp
  · rintro j - ⟨v, ⟨pre, post, h, -⟩, -⟩
    simp at h

/-- words found before do not influence the lexer -/
theorem lex_prefix (pre : List (List Char)) (st : LexSt) (c : Char) :
    lexStep ⟨st.mode, st.token, st.quoted, pre ++ st.out⟩ c =
      ⟨(lexStep st c).mode, (lexStep st c).token, (lexStep st c).quoted, pre ++ (lexStep st c).out⟩ := by
  have hemit : ∀ st : LexSt, LexSt.emit ⟨st.mode, st.token, st.quoted, pre ++ st.out⟩ =
      ⟨st.emit.mode, st.emit.token, st.emit.quoted, pre ++ st.emit.out⟩ := by
    intro st
    unfold LexSt.emit
    split <;> simp_all
  obtain ⟨mode, token, quoted, out⟩ := st
  cases mode with
  | space =>
    simp only [lexStep]
    split_ifs <;> first | rfl | exact hemit ⟨.space, token, quoted, out⟩
  | word =>
    simp only [lexStep]
    split_ifs <;> first | rfl | exact hemit ⟨.word, token, quoted, out⟩
  | quote q =>
    simp only [lexStep]
    split_ifs <;> rfl
  | escape b => rfl

theorem lex_fold_prefix (pre : List (List Char)) (s : List Char) (st : LexSt) :
    s.foldl lexStep ⟨st.mode, st.token, st.quoted, pre ++ st.out⟩ =
      ⟨(s.foldl lexStep st).mode, (s.foldl lexStep st).token, (s.foldl lexStep st).quoted, pre ++ (s.foldl lexStep st).out⟩ := by
  induction s generalizing st with
  | nil => rfl
  | cons c s ih => rw [List.foldl_cons, List.foldl_cons, lex_prefix, ih]

/-- a word and a blank before a text -/
theorem split_word (w s : List Char) (hw : w ≠ []) (hs : ∀ c ∈ w, lexSpecial c = false) (ws : List (List Char))
    (h : shlexSplit s = .ok ws) : shlexSplit (w ++ ' ' :: s) = .ok (w :: ws) := by
  have h0 : lexStep ⟨.word, w, false, []⟩ ' ' = ⟨.space, [], false, [w]⟩ := by
    simp [lexStep, lexSpace, LexSt.emit, hw]
  have hf : (w ++ ' ' :: s).foldl lexStep ⟨.space, [], false, []⟩ =
      ⟨(s.foldl lexStep ⟨.space, [], false, []⟩).mode, (s.foldl lexStep ⟨.space, [], false, []⟩).token,
        (s.foldl lexStep ⟨.space, [], false, []⟩).quoted, [w] ++ (s.foldl lexStep ⟨.space, [], false, []⟩).out⟩ := by
    rw [List.foldl_append, lex_plain w hw hs, List.foldl_cons, h0]
    exact lex_fold_prefix [w] s ⟨.space, [], false, []⟩
  have hemit : ∀ st : LexSt, (LexSt.emit ⟨st.mode, st.token, st.quoted, [w] ++ st.out⟩).out = w :: st.emit.out := by
    intro st
    unfold LexSt.emit
    split <;> simp_all
  rw [shlexSplit] at h ⊢
  rw [hf]
  dsimp only at h ⊢
  cases hm : (s.foldl lexStep ⟨.space, [], false, []⟩).mode with
  | space =>
    rw [hm] at h
    have := hemit (s.foldl lexStep ⟨.space, [], false, []⟩)
    rw [hm] at this
    dsimp only at h ⊢
    rw [this]
    cases h
    rfl
  | word =>
    rw [hm] at h
    have := hemit (s.foldl lexStep ⟨.space, [], false, []⟩)
    rw [hm] at this
    dsimp only at h ⊢
    rw [this]
    cases h
    rfl
  | quote q => rw [hm] at h; cases h
  | escape b => rw [hm] at h; cases h

theorem pad2_digits (i : ℕ) : (∀ c ∈ pad2 i, isDig c = true) ∧ digitsNum (pad2 i) = i ∧ 2 ≤ (pad2 i).length := by
  have h : ∀ c ∈ natStr i, isDig c = true := fixDigits_isDig _ _
  have hlen : (natStr i).length = Nat.log 10 i + 1 := fixDigits_length _ _
  rw [pad2]
  by_cases hi : i < 10
  · rw [if_pos hi]
    refine ⟨fun c hc => ?_, ?_, ?_⟩
    · rcases List.mem_cons.1 hc with rfl | hc
      · decide
      · exact h c hc
    · exact digitsNum_natStr i
    · rw [List.length_cons, hlen]; omega
  · rw [if_neg hi]
    refine ⟨h, digitsNum_natStr i, ?_⟩
    rw [hlen]
    have : 1 ≤ Nat.log 10 i := Nat.le_log_of_pow_le (by norm_num) (by omega)
    omega

/-- the name of the output of a demonstration: the number with two digits or more -/
def DemoName (i : ℕ) (name : List Char) : Prop :=
  ∃ ds : List Char, name = "demo/".toList ++ ds ++ "-demo".toList ∧ (∀ c ∈ ds, isDig c = true) ∧ 2 ≤ ds.length ∧ digitsNum ds = i

/-- **C134.** Each demonstration is the command on its line of the file, with an output name of its own: names of different lines
differ, and an output name in the command itself is preferred. -/
theorem C134_demo (C : Classes) (isNeg : List Char → Bool) (F : FileSys) (i : ℕ) (c : List Char) (ws : List (List Char))
    (hc : shlexSplit c = .ok ws) (l flat : List Given) (cwd cwd' : List Char) (n : ℕ) (hw : CommandOf isNeg ws l)
    (h : Expands C isNeg F cwd l flat cwd' n) (depth : ℕ) (hd : n ≤ depth) :
    ∃ name st, DemoName i name ∧ demoWords i c = .ok ("-o".toList :: name :: ws) ∧
      runCommand C isNeg F depth cwd ("-o".toList :: name :: ws) = .ok st ∧
      SettingsOf st.ns (⟨"out".toList, [name]⟩ :: flat) ∧ (∀ j name', DemoName j name' → name' = name → j = i) := by
  obtain ⟨hdig, hnum, hlen⟩ := pad2_digits i
  have hname : DemoName i ("demo/".toList ++ pad2 i ++ "-demo".toList) := ⟨pad2 i, rfl, hdig, hlen, hnum⟩
  have hsafe : ∀ c ∈ "demo/".toList ++ pad2 i ++ "-demo".toList, lexSpecial c = false := by
    intro c hc
    rw [List.mem_append, List.mem_append] at hc
    rcases hc with (hc | hc) | hc
    · exact (by decide +kernel : ∀ c ∈ "demo/".toList, lexSpecial c = false) c hc
    · have := hdig c hc
      apply safe_not_special
      have : c.isDigit = true := by
        simp only [isDig, Bool.and_eq_true, decide_eq_true_eq] at this
        simp only [Char.isDigit, Bool.and_eq_true, decide_eq_true_eq]
        exact this
      simp [shellSafe, Char.isAlphanum, this]
    · exact (by decide +kernel : ∀ c ∈ "-demo".toList, lexSpecial c = false) c hc
  have hwords : demoWords i c = .ok ("-o".toList :: ("demo/".toList ++ pad2 i ++ "-demo".toList) :: ws) := by
    have h1 := split_word ("demo/".toList ++ pad2 i ++ "-demo".toList) c
      (by intro e; have := congrArg List.length e; simp at this) hsafe ws hc
    have h2 := split_word "-o".toList _ (by decide +kernel) (by decide +kernel) _ h1
    rw [demoWords, ← h2]
    congr 1
    rw [show "-o demo/".toList = "-o".toList ++ ' ' :: "demo/".toList from by decide +kernel,
      show "-demo ".toList = "-demo".toList ++ [' '] from by decide +kernel]
    simp
  have hcmd : CommandOf isNeg ("-o".toList :: ("demo/".toList ++ pad2 i ++ "-demo".toList) :: ws)
      (⟨"out".toList, ["demo/".toList ++ pad2 i ++ "-demo".toList]⟩ :: l) := by
    refine CommandOf.option "-o".toList (mkOpt ["-o", "--out"] "out" .some) ["demo/".toList ++ pad2 i ++ "-demo".toList] ws l
      (by decide +kernel) (by decide +kernel) (fun v hv => ?_) (by simp [mkOpt]) hw
    rw [List.mem_singleton] at hv
    have hh : v.head? = some 'd' := by rw [hv]; rfl
    refine ⟨fun o ho hm => ?_, Or.inl fun t e => ?_⟩
    · have := flags_minus o ho v hm
      rw [hh] at this
      exact absurd this (by decide)
    · rw [e] at hh
      exact absurd hh (by simp)
  have hexp : Expands C isNeg F cwd (⟨"out".toList, ["demo/".toList ++ pad2 i ++ "-demo".toList]⟩ :: l)
      (⟨"out".toList, ["demo/".toList ++ pad2 i ++ "-demo".toList]⟩ :: flat) cwd' n := by
    refine .option _ _ _ _ _ _ ?_ ?_ h
    rotate_left
    · rw [← option_admissible]
      exact ⟨.str ("demo/".toList ++ pad2 i ++ "-demo".toList), rfl⟩
    rintro (e | e)
    · exact absurd e (show ¬ "out".toList = "input".toList by decide +kernel)
    · exact absurd e (show ¬ "out".toList = "include".toList by decide +kernel)
  obtain ⟨st, h1, -, h2⟩ := C133_in_place_partial C isNeg F cwd _ _ _ cwd' n hcmd hexp depth hd
  refine ⟨_, st, hname, hwords, h1, h2, ?_⟩
  rintro j name' ⟨ds, rfl, -, -, hj⟩ e
  rw [List.append_assoc, List.append_assoc, List.append_cancel_left_eq, List.append_cancel_right_eq] at e
  rw [← hj, e, hnum]

theorem expands_plain (C : Classes) (isNeg : List Char → Bool) (F : FileSys) (cwd : List Char) (n : ℕ) (l : List Given)
    (h : ∀ g ∈ l, ¬ Loads g ∧ Admissible C g.dest g.values) : Expands C isNeg F cwd l l cwd n := by
  induction l with
  | nil => exact .nil _ _
  | cons g t ih => exact .option _ _ _ _ _ _ (h g (by simp)).1 (h g (by simp)).2 (ih fun x hx => h x (by simp [hx]))

/-- **C134, counterexample.** A command file saved in another directory (`-o /d/plot`) has the settings of the command, but does not repeat
it: given to `-i` it is carried out in that directory, so that a relative name of a count is that of another file. -/
theorem C134_moved_counterexample (C : Classes) (isNeg : List Char → Bool) (F : FileSys) (isdigit : Char → Bool) (hsp : isdigit ' ' = false)
    (cwd : List Char) (words : List (List Char)) (l : List Given) (hw : CommandOf isNeg words l)
    (hl : ∀ g ∈ l, ¬ Loads g ∧ Admissible C g.dest g.values)
    (hs : ∀ e ∈ words, Savable isdigit e) (d t b saved : List Char) (hdt : d = '/' :: t) (hlast : d.getLast? = some '/') (hnl : '\n' ∉ d)
    (hdir : F.isdir d = true) (hcwd : cwd ≠ d) (hb : ∀ c ∈ b, nameCh C c = true) (hcs : csContent isdigit words = .ok saved)
    (hfile : F.content (d ++ b) = some saved) (depth : ℕ) (hdep : 1 ≤ depth) :
    ∃ st st', runCommand C isNeg F depth cwd words = .ok st ∧ runCommand C isNeg F depth cwd ["-i".toList, d ++ b] = .ok st' ∧
      SettingsOf st.ns l ∧ SettingsOf st'.ns (l ++ [⟨"input_filename".toList, [d ++ b]⟩, ⟨"input".toList, ["True".toList]⟩]) ∧
      ∀ source : List Char, source.head? ≠ some '/' → absPath st.cwd source = cwd ++ source ∧ absPath st'.cwd source = d ++ source ∧
        absPath st.cwd source ≠ absPath st'.cwd source := by
  obtain ⟨st, h1, h2, h3⟩ := C133_in_place_partial C isNeg F cwd words l l cwd 0 hw (expands_plain C isNeg F cwd 0 l hl) depth (by omega)
  obtain ⟨s, e1, e2⟩ := C39_replay_partial C isdigit hsp words hs
  rw [hcs] at e1
  cases e1
  have hcmd := command_input (isNeg := isNeg) .nil (d ++ b) (by rw [hdt]; simp)
  have hexp : Expands C isNeg F cwd [⟨"input".toList, [d ++ b]⟩] (l ++ noted "input".toList (d ++ b) ++ []) d 1 :=
    Expands.input cwd d d d d b saved words [] l [] l 0 hb (Or.inr ⟨⟨t, hdt⟩, hlast, hnl, hdir, rfl⟩) hfile e2 hw
      (expands_plain C isNeg F d 0 l hl) (.nil _ _)
  rw [List.append_nil] at hexp
  obtain ⟨st', g1, g2, g3⟩ := C133_in_place_partial C isNeg F cwd _ _ _ d 1 hcmd hexp depth hdep
  refine ⟨st, st', h1, g1, h3, g3, fun source hsrc => ?_⟩
  have a1 : absPath st.cwd source = cwd ++ source := by rw [h2, absPath, if_neg hsrc]
  have a2 : absPath st'.cwd source = d ++ source := by rw [g2, absPath, if_neg hsrc]
  refine ⟨a1, a2, ?_⟩
  rw [a1, a2]
  intro e
  exact hcwd (List.append_cancel_right e)

/-! Examples -/

/-- asking for the version in a file which is included wins over the plot -/
example : mainEvents .ascii (fun _ => false) Char.isDigit
      ⟨fun p => if p = "/u/a.txt".toList then some "-v".toList else none, fun _ => false⟩ (fun _ => .ok "x".toList) 3 "/u/".toList
      (["-p", "source=y.scc", "-inc", "a.txt", "-demo"].map String.toList) none = .ok [.version] := by decide +kernel

/-- a command from a file named after `-i` is not saved again, one with included settings is -/
example : mainEvents .ascii (fun _ => false) Char.isDigit exampleFiles (fun _ => .ok "y".toList) 3 "/w/".toList
        (["-i", "a.cs"].map String.toList) none = .ok [.figures "y".toList] ∧
    mainEvents .ascii (fun _ => false) Char.isDigit exampleFiles (fun _ => .ok "y".toList) 3 "/w/".toList
        (["-inc", "s.txt", "-o", "my plot"].map String.toList) none =
      .ok [.figures "y".toList, .saved "y.cs".toList "-inc s.txt\n-o 'my plot'".toList] := by decide +kernel

example : demoWords 7 "-title \"Two words\" -mu 0".toList =
    .ok (["-o", "demo/07-demo", "-title", "Two words", "-mu", "0"].map String.toList) := by decide +kernel

end Verif.Props
