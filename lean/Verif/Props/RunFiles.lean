import Verif.Model.RunFiles
import Verif.Props.Output
import Verif.Props.Randomness
import Verif.Props.Run
import Verif.Props.Selection

/-!
C142: the files a command leaves, and the analysis it asks for.
-/

namespace Verif.Props

open Verif.Py Verif.Cli Verif.Output Verif.Text Verif.Rand

variable {α R D : Type}

/-! ### specification -/

/-- Specification: a format asked for: one of those given last after `-f`; without `-f` png, csv, and the extension of the output name. -/
def FormatAsked (C : Classes) (isdir : List Char → Bool) (flat : List Given) (f : List Char) : Prop :=
  (∃ values, OptionLast flat "format" values ∧ f ∈ values) ∨
  (∀ g ∈ flat, g.dest ≠ "format".toList) ∧ (f = "png".toList ∨ f = "csv".toList ∨
    ∃ values dir base, OptionLast flat "out" values ∧ isdir (values.intersperse [' ']).flatten = false ∧
      FileParts C (values.intersperse [' ']).flatten dir base ('.' :: f))

/-- Specification: the output name: the one given last after `-o` without its extension, or else, for a command read from a file, that
of the file. -/
def NamedAfter (C : Classes) (isdir : List Char → Bool) (flat : List Given) (out : List Char) : Prop :=
  (∀ values dir base e, OptionLast flat "out" values → isdir (values.intersperse [' ']).flatten = false →
    FileParts C (values.intersperse [' ']).flatten dir base e → out = dir ++ base) ∧
  ((∀ g ∈ flat, g.dest ≠ "out".toList) → ∀ f dir base e, InputOf flat (some f) → (∃ values, OptionLast flat "input_filename" values) →
    FileParts C f dir base e → out = dir ++ base)

/-- Specification: the formats of images. -/
def images : List (List Char) := ["png".toList, "pdf".toList, "svg".toList, "tif".toList]

/-- Specification: a measure asked for: one of those given last after `-measure`, separated by commas, or else both. -/
def MeasureAsked (flat : List Given) (m : List Char) : Prop :=
  (∃ t parts, OptionLast flat "measure" [t] ∧ parts ≠ [] ∧ (∀ x ∈ parts, ',' ∉ x) ∧ t = (parts.intersperse [',']).flatten ∧ m ∈ parts) ∨
  (∀ g ∈ flat, g.dest ≠ "measure".toList) ∧ (m = "m2cnd".toList ∨ m = "sdaa".toList)

/-- Specification: the number of trials asked for. -/
def TrialsAsked (flat : List Given) (t : ℕ) : Prop :=
  (∃ w, OptionLast flat "trials" [w] ∧ intVal w = some (t : ℤ)) ∨ (∀ g ∈ flat, g.dest ≠ "trials".toList) ∧ t = 1000

/-- Specification: whether the overview of all bins is asked for: 0 is the only number among the fields given last after `-select`. -/
def OverviewAsked (C : Classes) (flat : List Given) (b : Bool) : Prop :=
  (∃ s, OptionLast flat "select" [s] ∧ (b = true ↔ (split ',' s).filterMap (fieldVal C) = [0])) ∨
  (∀ g ∈ flat, g.dest ≠ "select".toList) ∧ b = false

/-! ### the settings -/

theorem choices_value {C : Classes} {d : List Char} {values c : List (List Char)} {v : SVal} (hk : optionKind d = .choices c)
    (h : optionValue C d values = .ok v) : v = .strs values := by
  unfold optionValue at h
  rw [hk] at h
  dsimp only at h
  split at h
  · cases h; rfl
  · cases h

theorem option_unique {flat : List Given} {k : String} {v w : List (List Char)} (h1 : OptionLast flat k v) (h2 : OptionLast flat k w) : v = w := by
  have h := (lastGiven_iff flat k v).1 h1
  rw [(lastGiven_iff flat k w).1 h2] at h
  simpa using h.symm

theorem option_absurd {flat : List Given} {k : String} {v : List (List Char)} (h1 : OptionLast flat k v) (h2 : ∀ g ∈ flat, g.dest ≠ k.toList) :
    False := by
  obtain ⟨pre, post, rfl, _⟩ := h1
  exact h2 _ (List.mem_append_right _ List.mem_cons_self) rfl

/-- what the options `-trials` and `-measure` do to the settings -/
theorem measure_trials {env : SetEnv} {args : Args} {c : SDict} (h : constructSettings env args = .ok c) :
    dictGet c "trials".toList = some (.num 1000) ∧
    (args "measure".toList = none → dictGet c "measure".toList = some (.strs ["m2cnd".toList, "sdaa".toList])) ∧
    (∀ s, args "measure".toList = some (.str s) → dictGet c "measure".toList = some (.strs (split ',' s).dedup)) := by
  obtain ⟨p, c1, c2, c3, range0, range, hp, h1, h2, h3, h4, rfl, -⟩ := settings_ok h
  have key : ∀ (l : List (List Char)) c c', l.foldlM (settingStep env args) c = .ok c' → 
      dictGet c' "trials".toList = dictGet c "trials".toList := by
    intro l
    induction l with
    | nil => intro c c' h; cases h; rfl
    | cons j l ih =>
      intro c c' h
      rw [List.foldlM_cons] at h
      obtain ⟨d, hd, h⟩ := bind_ok h
      rw [ih _ _ h]
      by_cases hj : j = "trials".toList
      · subst hj
        rw [settingStep] at hd
        split at hd
        · cases hd; rfl
        rw [if_neg (by decide), if_neg (by decide), if_neg (by decide), if_neg (by decide), if_neg (by decide)] at hd
        cases hd; rfl
      · exact settingStep_frame hd _ (Ne.symm hj) (fun _ => by decide)
  have e1 : ∀ k, k ≠ "text_halo".toList → k ≠ "xrange".toList → k ≠ "yrange".toList → k ≠ "global_area".toList →
      dictGet (finish p range c3) k = dictGet c2 k := by
    intro k a1 a2 a3 a4
    rw [finish_get _ _ _ _ (fun _ => ⟨a2, a3⟩) a1, h4 _ a4]
  have e2 : ∀ k, k ≠ "xrange".toList → k ≠ "yrange".toList → k ≠ "legend".toList → k ≠ "presentation".toList →
      dictGet (presentationDefaults p c1) k = dictGet settingDefaults k := by
    intro k a1 a2 a3 a4
    rw [presentationDefaults_get _ _ _ a1 a2 a3, h1, if_neg a4]
  have d1 : dictGet settingDefaults "trials".toList = some (.num 1000) := by decide +kernel
  have d2 : dictGet settingDefaults "measure".toList = some (.strs ["m2cnd".toList, "sdaa".toList]) := by decide +kernel
  refine ⟨?_, ?_⟩
  · rw [e1 _ (by decide) (by decide) (by decide) (by decide), key _ _ _ h2, e2 _ (by decide) (by decide) (by decide) (by decide), d1]
  · obtain ⟨ka, kb, hk, ha, hb⟩ : ∃ ka kb, parserKeys = ka ++ "measure".toList :: kb ∧ "measure".toList ∉ ka ∧ "measure".toList ∉ kb := by
      refine ⟨parserKeys.takeWhile (· ≠ "measure".toList), (parserKeys.dropWhile (· ≠ "measure".toList)).tail, ?_, ?_, ?_⟩ <;> decide +kernel
    rw [hk, List.foldlM_append] at h2
    obtain ⟨ca, ha', h2⟩ := bind_ok h2
    rw [List.foldlM_cons] at h2
    obtain ⟨cb, hb', h2⟩ := bind_ok h2
    have f1 := settingSteps_frame _ ha' "measure".toList ha (fun _ => by decide)
    have f2 := settingSteps_frame _ h2 "measure".toList hb (fun _ => by decide)
    rw [e1 _ (by decide) (by decide) (by decide) (by decide), f2]
    rw [e2 _ (by decide) (by decide) (by decide) (by decide), d2] at f1
    constructor
    · intro hn
      rw [settingStep, hn] at hb'
      cases hb'
      exact f1
    · intro s hv
      rw [settingStep, hv] at hb'
      dsimp only at hb'
      rw [if_neg (by decide), if_neg (by decide), if_neg (by decide), if_neg (by decide), if_pos rfl] at hb'
      cases hb'
      rw [dictGet_set, if_pos rfl]

/-- the settings from which the files are named -/
theorem run_settings {C : Classes} {flat : List Given} {cwd' : List Char} {E : List Char → RunEnv α R} (hC : (E cwd').set.classes = C) {st : CmdState}
    (hcwd : st.cwd = cwd') (hs : SettingsOf st.ns flat)
    (hf : ∀ g ∈ flat, HasArity g ∧ Admissible C g.dest g.values ∨ g.dest ∈ ["input_filename", "input", "include"].map String.toList)
    {P : Prepared α R} (hP : prepareRun E st = .ok P) :
    (∃ out, dictGet P.settings "out".toList = some (.str out) ∧ NamedAfter C (E cwd').set.isdir flat out) ∧
    ((∀ values, OptionLast flat "out" values → '\n' ∉ (values.intersperse [' ']).flatten) →
      ∃ fs, dictGet P.settings "format".toList = some (.strs fs) ∧ fs.Nodup ∧ ∀ f, f ∈ fs ↔ FormatAsked C (E cwd').set.isdir flat f) ∧
    (∃ ms, dictGet P.settings "measure".toList = some (.strs ms) ∧ ∀ m, m ∈ ms ↔ MeasureAsked flat m) ∧
    dictGet P.settings "trials".toList = some (.num 1000) ∧
    ∃ p, PresentedAs (E cwd').set.lower flat p ∧ dictGet P.settings "presentation".toList = some (.str p) := by
  obtain ⟨c0, p0, specs, ds, c1, ratio, dark, r1, r2, r3, r4, r5, r6, r7, r8⟩ := run_ok hP
  rw [hcwd] at r1 r5
  have n0 := settings_nodup r1
  obtain ⟨n1, e1⟩ := defaultName_keys r5 n0
  obtain ⟨n2, e2⟩ := legend_keys r6 n1
  obtain ⟨p, hpp, hpc, -⟩ := C59_settings_partial _ _ _ r1
  obtain ⟨o1, o2, o3, o4⟩ := C58_options_partial _ _ _ r1
  obtain ⟨t1, t2, t3⟩ := measure_trials r1
  obtain ⟨w1, w2⟩ := C58_name _ _ _ _ _ _ r5
  rw [hC] at o1 o2 o3 o4 t2 t3
  have hout : ∀ values, OptionLast flat "out" values → argsOf C st.ns "out".toList = some (.str (values.intersperse [' ']).flatten) := by
    intro values hl
    obtain ⟨_, v, hv, hv'⟩ := last_value hs hf (by decide +kernel) hl
    rw [hv', (kind_values hv).2.2.2.2.1 (by decide +kernel)]
  have hno : ∀ k : String, k.toList ≠ "plot".toList → (∀ g ∈ flat, g.dest ≠ k.toList) → argsOf C st.ns k.toList = none :=
    fun k hk hn => (args_last hs k hk).2 hn
  refine ⟨?_, ?_, ?_, ?_, p, presented hs (by rw [hC]; exact hf) hpp, ?_⟩
  · -- the name
    have hout' : ∃ out, dictGet c1 "out".toList = some (.str out) := by
      rw [setDefaultName] at r5
      obtain ⟨_, _, r5⟩ := bind_ok r5
      obtain ⟨_, _, r5⟩ := bind_ok r5
      obtain ⟨d, _, r5⟩ := bind_ok r5
      split at r5
      · cases r5
        exact ⟨_, by rw [dictGet_set, if_pos rfl]⟩
      · rename_i o ho
        split at r5
        · cases r5
        · cases r5; exact ⟨_, ho⟩
      · cases r5
    obtain ⟨out, ho⟩ := hout'
    refine ⟨out, by rw [e2 _ (by decide), ho], ?_, ?_⟩
    · intro values dir base e hl hdir hp
      have := o2 _ dir base e (hout values hl) hdir hp
      have hc := w1 _ this
      rw [hc, this] at ho
      cases ho; rfl
    · intro hn f dir base e hin hlast hp
      obtain ⟨p', sys, d, _, _, hd, hd', _⟩ := w2 (o1 (hno "out" (by decide) hn))
      have hi := input_of hs
      have hif : inputFile st.ns = some f := by
        obtain ⟨values, hv⟩ := hlast
        rcases hin with ⟨_, h⟩ | ⟨ha, h⟩
        · cases h
        · rcases hi with ⟨ha', _⟩ | ⟨_, h'⟩
          · exact absurd ha ha'
          · rw [h' _ hv, h _ hv]
      rw [hif, defaultName, hC, (filename_parts hp).1] at hd
      cases hd
      rw [hd'] at ho
      cases ho; rfl
  · -- the formats
    intro hnl
    obtain ⟨fs, q1, q2, q3, q4⟩ := o4 (by
      intro v hv
      rcases given_or hs "out" (by decide) with hn | ⟨values, hl⟩
      · rw [hno "out" (by decide) hn] at hv; cases hv
      · rw [hout values hl] at hv
        cases hv
        exact hnl values hl)
    refine ⟨fs, by rw [e2 _ (by decide), e1 _ (by decide), q1], q2, ?_⟩
    intro f
    rcases given_or hs "format" (by decide) with hn | ⟨values, hl⟩
    · rw [q4 (hno "format" (by decide) hn)]
      constructor
      · intro h
        refine Or.inr ⟨hn, h.imp_right (Or.imp_right ?_)⟩
        rintro ⟨v, dir, base, hv, hdir, hp⟩
        rcases given_or hs "out" (by decide) with hn' | ⟨values, hl⟩
        · rw [hno "out" (by decide) hn'] at hv; cases hv
        · rw [hout values hl] at hv
          cases hv
          exact ⟨values, dir, base, hl, hdir, hp⟩
      · rintro (⟨values, hl, _⟩ | ⟨_, h⟩)
        · exact (option_absurd hl hn).elim
        · refine h.imp_right (Or.imp_right ?_)
          rintro ⟨values, dir, base, hl, hdir, hp⟩
          exact ⟨_, dir, base, hout values hl, hdir, hp⟩
    · obtain ⟨_, v, hv, hv'⟩ := last_value hs hf (by decide +kernel) hl
      rw [choices_value (c := ["png", "tif", "pdf", "svg", "csv"].map String.toList) (by decide +kernel) hv] at hv'
      rw [q3 _ hv']
      constructor
      · exact fun h => Or.inl ⟨values, hl, h⟩
      · rintro (⟨values', hl', h⟩ | ⟨hn, _⟩)
        · rw [option_unique hl hl']; exact h
        · exact (option_absurd hl hn).elim
  · -- the measures
    rcases given_or hs "measure" (by decide) with hn | ⟨values, hl⟩
    · refine ⟨_, by rw [e2 _ (by decide), e1 _ (by decide), t2 (hno "measure" (by decide) hn)], ?_⟩
      intro m
      constructor
      · intro h
        simp only [List.mem_cons, List.not_mem_nil, or_false] at h
        exact Or.inr ⟨hn, h⟩
      · rintro (⟨t, parts, hl, _⟩ | ⟨_, h⟩)
        · exact (option_absurd hl hn).elim
        · simp only [List.mem_cons, List.not_mem_nil, or_false]
          exact h
    · obtain ⟨ha, v, hv, hv'⟩ := last_value hs hf (by decide +kernel) hl
      obtain ⟨t, e⟩ := one_value ha (ks := ["measure"]) ⟨_, List.mem_cons_self, rfl⟩ (by decide +kernel)
      change values = [t] at e
      have := ((kind_values hv).2.2.2.2.2.2.2 (by decide +kernel)).1 t e
      subst this e
      refine ⟨_, by rw [e2 _ (by decide), e1 _ (by decide), t3 _ hv'], ?_⟩
      intro m
      rw [List.mem_dedup]
      constructor
      · intro h
        refine Or.inl ⟨t, split ',' t, hl, split_ne_nil _ _, split_not_mem _ _, ?_, h⟩
        rw [← join_eq_intersperse, join_split]
      · rintro (⟨t', parts, hl', h1, h2, h3, h4⟩ | ⟨hn, _⟩)
        · have : [t] = [t'] := option_unique hl hl'
          injection this with this
          rw [this, h3, ← join_eq_intersperse, split_join h1 h2]
          exact h4
        · exact (option_absurd hl hn).elim
  · rw [e2 _ (by decide), e1 _ (by decide), t1]
  · rw [e2 _ (by decide), e1 _ (by decide), hpc]

/-- the job of a run -/
theorem write_ok {E : List Char → RunEnv α R} {O : OutEnv α R D} {st : CmdState} {P : Prepared α R} {out p : List Char} {fs ms : List (List Char)}
    (h1 : dictGet P.settings "out".toList = some (.str out)) (h2 : dictGet P.settings "format".toList = some (.strs fs))
    (h3 : dictGet P.settings "measure".toList = some (.strs ms)) (h4 : dictGet P.settings "presentation".toList = some (.str p)) :
    writeRun E O st P = (do
      let t ← if isSet st.ns "randomness_analysis" && fs.any (fun f => f ∈ Output.imageFormats)
        then raPrepare (argsOf (E st.cwd).set.classes st.ns) P.settings else .ok 0
      output (E st.cwd).set.classes (fun k found => (session (O.compute k) t (O.order ms) (found.getD [])).1) O.found
        ⟨out, O.order fs, if isSet st.ns "randomness_analysis" then
            some (O.raName (csSource (E st.cwd).path (spaced st.ns "randomness_analysis")),
              O.raBeside (csSource (E st.cwd).path (spaced st.ns "randomness_analysis"))) else none,
          overviewOf (E st.cwd).set.classes (argsOf (E st.cwd).set.classes st.ns), O.order ms,
          p == "uncertainty".toList, O.hasAges P, isSet st.ns "input"⟩) := by
  have g1 : getStr P.settings "out" = .ok out := by rw [getStr, h1]
  have g2 : getSet P.settings "format" = .ok fs := by rw [getSet, h2]
  have g3 : getSet P.settings "measure" = .ok ms := by rw [getSet, h3]
  have g4 : getStr P.settings "presentation" = .ok p := by rw [getStr, h4]
  rw [writeRun]
  simp only [g1, g2, g3, g4, except_ok_bind]

/-- **C142, plots.** A command without a randomness analysis, not for uncertainty plots, writes under the name given (or that of the
file it is read from): the plot in each image format asked for, the table of ages if csv is asked for and there are ages, and the command
itself unless it was read from a file; nothing else. -/
theorem C142_plots (C : Classes) (isNeg : List Char → Bool) (F : FileSys) (cwd : List Char) (words : List (List Char))
    (l flat : List Given) (cwd' : List Char) (n : ℕ) (hw : CommandOf isNeg words l) (h : Expands C isNeg F cwd l flat cwd' n)
    (depth : ℕ) (hd : n ≤ depth) (E : List Char → RunEnv α R) (hE : ∀ d, (E d).set.classes = C) (O : OutEnv α R D)
    (hO : ∀ l, (O.order l).Perm l) (hra : ¬ AskedFor flat "randomness_analysis")
    (hnl : ∀ values, OptionLast flat "out" values → '\n' ∉ (values.intersperse [' ']).flatten) :
    ∃ st, runCommand C isNeg F depth cwd words = .ok st ∧ ∀ P, prepareRun E st = .ok P →
      ∃ out p, NamedAfter C (E cwd').set.isdir flat out ∧ PresentedAs (E cwd').set.lower flat p ∧ (p ≠ "uncertainty".toList →
        ∃ s, writeRun E O st P = .ok s ∧ ∀ name c, (name, c) ∈ s.files ↔
          (∃ f, FormatAsked C (E cwd').set.isdir flat f ∧ f ∈ images ∧ name = out ++ '.' :: f ∧ c = .plot) ∨
          (FormatAsked C (E cwd').set.isdir flat "csv".toList ∧ O.hasAges P = true ∧ name = out ++ ".csv".toList ∧ c = .table) ∨
          (¬ AskedFor flat "input" ∧ name = out ++ ".cs".toList ∧ c = .commands)) := by
  obtain ⟨st, h1, hcwd, hs⟩ := C133_in_place_partial C isNeg F cwd words l flat cwd' n hw h depth hd
  refine ⟨st, h1, fun P hP => ?_⟩
  obtain ⟨⟨out, s1, hname⟩, s2, ⟨ms, s3, hms⟩, s4, p, hp, s5⟩ :=
    run_settings (hE cwd') hcwd hs (flat_arity h (command_arity hw)) hP
  obtain ⟨fs, s2, hnd, hfs⟩ := s2 hnl
  refine ⟨out, p, hname, hp, fun hu => ?_⟩
  have hset : isSet st.ns "randomness_analysis" = false := by
    rw [Bool.eq_false_iff]
    exact fun h => hra ((isSet_iff hs _ (by decide)).1 h)
  have hin : isSet st.ns "input" = false ↔ ¬ AskedFor flat "input" := by
    rw [← isSet_iff hs _ (by decide), Bool.not_eq_true]
  rw [write_ok s1 s2 s3 s5]
  simp only [hset, Bool.false_and, Bool.false_eq_true, if_false, except_ok_bind]
  obtain ⟨s, hs1, hs2⟩ := C111_plots (E st.cwd).set.classes (fun k found => (session (O.compute k) 0 (O.order ms) (found.getD [])).1) O.found
    ⟨out, O.order fs, none, overviewOf (E st.cwd).set.classes (argsOf (E st.cwd).set.classes st.ns), O.order ms,
      p == "uncertainty".toList, O.hasAges P, isSet st.ns "input"⟩ rfl (by simpa using hu)
  refine ⟨s, hs1, fun name c => ?_⟩
  rw [hs2]
  refine or_congr ?_ (or_congr ?_ ?_)
  · apply exists_congr
    intro f
    rw [(hO fs).mem_iff, hfs]
    rfl
  · rw [(hO fs).mem_iff, hfs]
  · rw [hin]

/-! ### analyses -/

theorem session_get (compute : List Char → ℕ → D) (t : ℕ) (ms : List (List Char)) (m : List Char) : ∀ mem : Results (List Char) D,
    dictGet (session compute t ms mem).1 m = if m ∈ ms ∧ needs mem t m = true then some (t, compute m t) else dictGet mem m := by
  induction ms with
  | nil => intro mem; simp [session]
  | cons k ms ih =>
    intro mem
    have hstep : ∀ j, dictGet (measureStep compute t mem k) j = if j = k ∧ needs mem t k = true then some (t, compute k t) else dictGet mem j := by
      intro j
      rw [measureStep]
      by_cases hk : needs mem t k = true
      · rw [if_pos hk, dictGet_set]
        by_cases hj : j = k
        · rw [if_pos hj, if_pos ⟨hj, hk⟩]
        · rw [if_neg hj, if_neg (fun h => hj h.1)]
      · rw [if_neg hk, if_neg (fun h => hk h.2)]
    rw [session]
    dsimp only
    rw [ih]
    by_cases hmk : m = k
    · subst hmk
      have h0 : needs (measureStep compute t mem m) t m = false := (needs_iff _ _ _).2 (step_has compute t mem m)
      rw [h0, if_neg (by simp), hstep]
      simp
    · have h0 : needs (measureStep compute t mem k) t m = needs mem t m := by
        rw [needs, needs, hstep, if_neg (fun h => hmk h.1)]
      have h1 : dictGet (measureStep compute t mem k) m = dictGet mem m := by rw [hstep, if_neg (fun h => hmk h.1)]
      rw [h0, h1]
      simp only [List.mem_cons, hmk, false_or]

theorem overview_eq {C : Classes} {ns : List (List Char × List (List (List Char)))} {flat : List Given} (hs : SettingsOf ns flat)
    (hf : ∀ g ∈ flat, HasArity g ∧ Admissible C g.dest g.values ∨ g.dest ∈ ["input_filename", "input", "include"].map String.toList)
    {b : Bool} (hb : OverviewAsked C flat b) : overviewOf C (argsOf C ns) = b := by
  rcases hb with ⟨s, hl, hb⟩ | ⟨hn, rfl⟩
  · obtain ⟨_, v, hv, hv'⟩ := last_value hs hf (by decide +kernel) hl
    have := ((kind_values hv).2.2.2.2.2.2.2 (by decide +kernel)).1 _ rfl
    subst this
    rw [overviewOf, hv']
    dsimp only
    rw [Bool.eq_iff_iff, hb, beq_iff_eq]
    obtain ⟨-, n1, n2⟩ := C43_selection C
    by_cases h0 : s = []
    · subst h0
      rw [n1]
      simp only [reduceCtorEq, false_iff]
      intro h
      have : fieldVal C [] = none := by
        have hst : strip C.space [] = [] := rfl
        rw [fieldVal]
        simp [hst]
      rw [split, List.filterMap_cons, this] at h
      simp at h
    · obtain ⟨l, e, _, hp⟩ := n2 s h0
      rw [e, Option.some.injEq]
      constructor
      · rintro rfl
        exact List.perm_singleton.1 hp.symm
      · intro h
        rw [h] at hp
        exact List.perm_singleton.1 hp
  · rw [overviewOf, (args_last hs "select" (by decide)).2 hn]

theorem check_ok {C : Classes} {ns : List (List Char × List (List (List Char)))} {flat : List Given} (hs : SettingsOf ns flat)
    (hf : ∀ g ∈ flat, HasArity g ∧ Admissible C g.dest g.values ∨ g.dest ∈ ["input_filename", "input", "include"].map String.toList)
    (hk : ∀ m, MeasureAsked flat m → m = "m2cnd".toList ∨ m = "sdaa".toList) : raCheck (argsOf C ns) = .ok () := by
  rcases given_or hs "measure" (by decide) with hn | ⟨values, hl⟩
  · rw [raCheck, (args_last hs "measure" (by decide)).2 hn]
  · obtain ⟨ha, v, hv, hv'⟩ := last_value hs hf (by decide +kernel) hl
    obtain ⟨w, e⟩ := one_value ha (ks := ["measure"]) ⟨_, List.mem_cons_self, rfl⟩ (by decide +kernel)
    change values = [w] at e
    have := ((kind_values hv).2.2.2.2.2.2.2 (by decide +kernel)).1 w e
    subst this e
    rw [raCheck, hv']
    dsimp only
    have hall : (split ',' w).all (fun m => m ∈ ["m2cnd".toList, "sdaa".toList]) = true := by
      rw [List.all_eq_true]
      intro m hmem
      have := hk m (Or.inl ⟨w, split ',' w, hl, split_ne_nil _ _, split_not_mem _ _, by rw [← join_eq_intersperse, join_split], hmem⟩)
      rw [decide_eq_true_eq, List.mem_cons, List.mem_singleton]
      exact this
    rw [if_pos hall]
    split <;> rfl

/-- known measures are accepted -/
theorem prepare_ok {C : Classes} {ns : List (List Char × List (List (List Char)))} {flat : List Given} (hs : SettingsOf ns flat)
    (hf : ∀ g ∈ flat, HasArity g ∧ Admissible C g.dest g.values ∨ g.dest ∈ ["input_filename", "input", "include"].map String.toList)
    {c : SDict} {ms : List (List Char)} (hc : dictGet c "trials".toList = some (.num 1000)) (hm : dictGet c "measure".toList = some (.strs ms))
    (hms : ∀ m, m ∈ ms ↔ MeasureAsked flat m) (hk : ∀ m, MeasureAsked flat m → m = "m2cnd".toList ∨ m = "sdaa".toList)
    {t : ℕ} (ht : TrialsAsked flat t) (h0 : t ≠ 0) : raPrepare (argsOf C ns) c = .ok t := by
  have h1 : raTrials (argsOf C ns) c = .ok (t : ℤ) := by
    rcases ht with ⟨w, hl, hz⟩ | ⟨hn, rfl⟩
    · obtain ⟨_, v, hv, hv'⟩ := last_value hs hf (by decide +kernel) hl
      obtain ⟨w', z, e, hz', rfl⟩ := (kind_values hv).2.2.1 (by decide +kernel)
      cases e
      rw [hz] at hz'
      cases hz'
      rw [raTrials, hv']
      dsimp only
      rw [if_neg (by exact_mod_cast h0)]
      rfl
    · rw [raTrials, (args_last hs "trials" (by decide)).2 hn, hc]
      rfl
  have h2 := check_ok hs hf hk
  have h3 : getSet c "measure" = .ok ms := by rw [getSet, hm]
  have h4 : [] ∉ ms := fun h => by rcases hk _ ((hms _).1 h) with e | e <;> exact absurd e (by decide)
  rw [raPrepare, h1, ok_bind, h2, ok_bind, h3, ok_bind, if_neg h4, if_neg (by omega), Int.toNat_natCast]

theorem analysis_files (C : Classes) (isNeg : List Char → Bool) (F : FileSys) (cwd : List Char) (words : List (List Char))
    (l flat : List Given) (cwd' : List Char) (n : ℕ) (hw : CommandOf isNeg words l) (h : Expands C isNeg F cwd l flat cwd' n)
    (depth : ℕ) (hd : n ≤ depth) (E : List Char → RunEnv α R) (hE : ∀ d, (E d).set.classes = C) (O : OutEnv α R D)
    (hO : ∀ l, (O.order l).Perm l) (values : List (List Char)) (hra : OptionLast flat "randomness_analysis" values) (hv0 : values ≠ [[]])
    (src : List Char) (hsrc : src = csSource (E cwd').path (values.intersperse [' ']).flatten)
    (hnl : ∀ values, OptionLast flat "out" values → '\n' ∉ (values.intersperse [' ']).flatten)
    (t : ℕ) (hprep : ∀ ns c ms, SettingsOf ns flat → dictGet c "trials".toList = some (.num 1000) → dictGet c "measure".toList = some (.strs ms) →
      (∀ m, m ∈ ms ↔ MeasureAsked flat m) → raPrepare (argsOf C ns) c = .ok t)
    (f : List Char) (hfi : f ∈ images) (hff : ∀ g, FormatAsked C (E cwd').set.isdir flat g ∧ g ∈ images ↔ g = f)
    (b : Bool) (hb : OverviewAsked C flat b) :
    ∃ st, runCommand C isNeg F depth cwd words = .ok st ∧ ∀ P, prepareRun E st = .ok P → O.hasAges P = false →
      ∃ out, NamedAfter C (E cwd').set.isdir flat out ∧ ∀ dir base, PathOf C dir base →
        (if out = "out".toList then O.raName src = dir ++ base else out = dir ++ base ∧ NoExt C base ∧ dir ++ base ≠ []) →
        ∃ s results, writeRun E O st P = .ok s ∧ s.runs = 1 ∧
          (∀ name c, (name, c) ∈ s.files ↔
            name = dir ++ base ++ "_ra.txt".toList ∧ c = .results results ∨
            (∃ m, MeasureAsked flat m ∧ (b = true ∧ name = dir ++ base ++ "_ra-".toList ++ m ++ "-n_sigma.".toList ++ f ∧ c = .sigma m results ∨
              b = false ∧ name = dir ++ base ++ "_ra-".toList ++ m ++ '.' :: f ∧ c = .bins m results)) ∨
            ¬ AskedFor flat "input" ∧ name = dir ++ base ++ "_ra.cs".toList ∧ c = .commands) ∧
          ∀ m, MeasureAsked flat m → ∃ k d, dictGet results m = some (k, d) ∧ t ≤ k ∧
            ∀ earlier, earlier = ((O.found (dir ++ base ++ "_ra.txt".toList) <|> O.found (O.raBeside src)).getD []) →
              (dictGet earlier m = some (k, d) ∨ (∀ k' d', dictGet earlier m = some (k', d') → k' < t) ∧ k = t ∧ d = O.compute 0 m t) := by
  obtain ⟨st, h1, hcwd, hs⟩ := C133_in_place_partial C isNeg F cwd words l flat cwd' n hw h depth hd
  have hf := flat_arity h (command_arity hw)
  refine ⟨st, h1, fun P hP hages => ?_⟩
  obtain ⟨⟨out, s1, hname⟩, s2, ⟨ms, s3, hms⟩, s4, p, hp, s5⟩ := run_settings (hE cwd') hcwd hs hf hP
  obtain ⟨fs, s2, hnd, hfs⟩ := s2 hnl
  refine ⟨out, hname, fun dir base hpath hout => ?_⟩
  have hset : isSet st.ns "randomness_analysis" = true := (isSet_iff hs _ (by decide)).2 ⟨values, hra, hv0⟩
  have hin : isSet st.ns "input" = false ↔ ¬ AskedFor flat "input" := by
    rw [← isSet_iff hs _ (by decide), Bool.not_eq_true]
  have hmem : f ∈ O.order fs := by rw [(hO fs).mem_iff, hfs]; exact ((hff f).2 rfl).1
  have hany : fs.any (fun f => f ∈ Output.imageFormats) = true := by
    rw [List.any_eq_true]
    exact ⟨f, (hO fs).mem_iff.1 hmem, by rw [decide_eq_true_eq]; exact hfi⟩
  obtain ⟨pre, post, hsplit⟩ := List.append_of_mem hmem
  have hother : ∀ g ∈ pre ++ post, g ∉ images := by
    intro g hg hi
    have hg' : g ∈ O.order fs := by
      rw [hsplit]
      rcases List.mem_append.1 hg with h | h
      · exact List.mem_append_left _ h
      · exact List.mem_append_right _ (List.mem_cons_of_mem _ h)
    have hgf := (hff g).1 ⟨(hfs g).1 ((hO fs).mem_iff.1 hg'), hi⟩
    subst hgf
    have hn' := (hO fs).nodup_iff.2 hnd
    rw [hsplit, List.nodup_middle, List.nodup_cons] at hn'
    exact hn'.1 hg
  rw [write_ok s1 s2 s3 s5]
  have hprep := hprep _ _ _ hs s4 s3 hms
  rw [hcwd, hE cwd']
  simp only [hset, hany, Bool.true_and, if_true, hprep, except_ok_bind, overview_eq hs hf hb, spaced_eq hs _ (by decide) values hra, ← hsrc]
  obtain ⟨s, q1, q2, q3⟩ := C111_randomness_partial (C := C) (fun k found => (session (O.compute k) t (O.order ms) (found.getD [])).1) O.found
    (j := ⟨out, O.order fs, some (O.raName src, O.raBeside src), b, O.order ms, p == "uncertainty".toList, O.hasAges P, isSet st.ns "input"⟩)
    (dir := dir) (base := base) (name := O.raName src) (beside := O.raBeside src) ⟨rfl, hpath, hout, hages⟩ pre post f hsplit hfi hother
  refine ⟨s, (session (O.compute 0) t (O.order ms) ((O.found (dir ++ base ++ "_ra.txt".toList) <|> O.found (O.raBeside src)).getD [])).1,
    q1, q2, fun name c => ?_, fun m hm => ?_⟩
  · rw [q3]
    have e1 : dir ++ base ++ "_ra".toList ++ ".txt".toList = dir ++ base ++ "_ra.txt".toList := by simp
    have e2 : dir ++ base ++ "_ra".toList ++ ".cs".toList = dir ++ base ++ "_ra.cs".toList := by simp
    have e3 : ∀ (m x : List Char), dir ++ base ++ "_ra".toList ++ '-' :: m ++ x = dir ++ base ++ "_ra-".toList ++ m ++ x := by intro m x; simp
    rw [e1, e2, hin]
    refine or_congr Iff.rfl (or_congr ?_ Iff.rfl)
    apply exists_congr
    intro m
    rw [(hO ms).mem_iff, hms, raImage]
    apply and_congr Iff.rfl
    cases b with
    | true => 
      simp only [if_true, true_and, Bool.true_eq_false, false_and, or_false]
      rw [← e3]
    | false => 
      simp only [if_false, true_and, Bool.false_eq_true, false_and, false_or]
      rw [← e3]
  · rw [session_get]
    have hm' : m ∈ O.order ms := by rw [(hO ms).mem_iff, hms]; exact hm
    by_cases hn : needs ((O.found (dir ++ base ++ "_ra.txt".toList) <|> O.found (O.raBeside src)).getD []) t m = true
    · rw [if_pos ⟨hm', hn⟩]
      refine ⟨_, _, rfl, le_rfl, ?_⟩
      rintro earlier rfl
      refine Or.inr ⟨fun k' d' hk' => ?_, rfl, rfl⟩
      by_contra hlt
      rw [(needs_iff _ _ _).2 ⟨k', d', hk', not_lt.1 hlt⟩] at hn
      cases hn
    · rw [if_neg (fun h => hn h.2)]
      obtain ⟨k, d, e, hle⟩ := (needs_iff _ _ _).1 (Bool.eq_false_iff.2 hn)
      exact ⟨k, d, e, hle, fun earlier he => Or.inl (he ▸ e)⟩

/-- **C142, analyses (partial).** A command with a randomness analysis and one image format, in which the measures and a number of trials
are named, writes under the name of the analysis the results, with at least this number of trials for each measure asked for, and an
image of each measure.  Earlier results with enough trials are used as they are; otherwise exactly the trials asked for are made.
Missing: several image formats and other selections (C111), `-trials 0` (see `C142_trials_counterexample`), names which end in something
like an extension. -/
theorem C142_analysis_partial (C : Classes) (isNeg : List Char → Bool) (F : FileSys) (cwd : List Char) (words : List (List Char))
    (l flat : List Given) (cwd' : List Char) (n : ℕ) (hw : CommandOf isNeg words l) (h : Expands C isNeg F cwd l flat cwd' n)
    (depth : ℕ) (hd : n ≤ depth) (E : List Char → RunEnv α R) (hE : ∀ d, (E d).set.classes = C) (O : OutEnv α R D)
    (hO : ∀ l, (O.order l).Perm l) (values : List (List Char)) (hra : OptionLast flat "randomness_analysis" values) (hv0 : values ≠ [[]])
    (src : List Char) (hsrc : src = csSource (E cwd').path (values.intersperse [' ']).flatten)
    (hnl : ∀ values, OptionLast flat "out" values → '\n' ∉ (values.intersperse [' ']).flatten)
    (hk : ∀ m, MeasureAsked flat m → m = "m2cnd".toList ∨ m = "sdaa".toList) (t : ℕ) (ht : TrialsAsked flat t) (h0 : t ≠ 0)
    (f : List Char) (hfi : f ∈ images) (hff : ∀ g, FormatAsked C (E cwd').set.isdir flat g ∧ g ∈ images ↔ g = f)
    (b : Bool) (hb : OverviewAsked C flat b) :
    ∃ st, runCommand C isNeg F depth cwd words = .ok st ∧ ∀ P, prepareRun E st = .ok P → O.hasAges P = false →
      ∃ out, NamedAfter C (E cwd').set.isdir flat out ∧ ∀ dir base, PathOf C dir base →
        (if out = "out".toList then O.raName src = dir ++ base else out = dir ++ base ∧ NoExt C base ∧ dir ++ base ≠ []) →
        ∃ s results, writeRun E O st P = .ok s ∧ s.runs = 1 ∧
          (∀ name c, (name, c) ∈ s.files ↔
            name = dir ++ base ++ "_ra.txt".toList ∧ c = .results results ∨
            (∃ m, MeasureAsked flat m ∧ (b = true ∧ name = dir ++ base ++ "_ra-".toList ++ m ++ "-n_sigma.".toList ++ f ∧ c = .sigma m results ∨
              b = false ∧ name = dir ++ base ++ "_ra-".toList ++ m ++ '.' :: f ∧ c = .bins m results)) ∨
            ¬ AskedFor flat "input" ∧ name = dir ++ base ++ "_ra.cs".toList ∧ c = .commands) ∧
          ∀ m, MeasureAsked flat m → ∃ k d, dictGet results m = some (k, d) ∧ t ≤ k ∧
            ∀ earlier, earlier = ((O.found (dir ++ base ++ "_ra.txt".toList) <|> O.found (O.raBeside src)).getD []) →
              (dictGet earlier m = some (k, d) ∨ (∀ k' d', dictGet earlier m = some (k', d') → k' < t) ∧ k = t ∧ d = O.compute 0 m t) := by
  exact analysis_files C isNeg F cwd words l flat cwd' n hw h depth hd E hE O hO values hra hv0 src hsrc hnl t (fun ns c ms hs h1 h2 h3 => prepare_ok hs (flat_arity h (command_arity hw)) h1 h2 h3 hk ht h0) f hfi hff b hb

/-- **C142 fails for `-trials 0`**: 1000 trials are made instead of none. -/
theorem C142_trials_counterexample (C : Classes) (isNeg : List Char → Bool) (F : FileSys) (cwd : List Char) (words : List (List Char))
    (l flat : List Given) (cwd' : List Char) (n : ℕ) (hw : CommandOf isNeg words l) (h : Expands C isNeg F cwd l flat cwd' n)
    (depth : ℕ) (hd : n ≤ depth) (E : List Char → RunEnv α R) (hE : ∀ d, (E d).set.classes = C) (O : OutEnv α R D)
    (hO : ∀ l, (O.order l).Perm l) (values : List (List Char)) (hra : OptionLast flat "randomness_analysis" values) (hv0 : values ≠ [[]])
    (hnl : ∀ values, OptionLast flat "out" values → '\n' ∉ (values.intersperse [' ']).flatten)
    (hk : ∀ m, MeasureAsked flat m → m = "m2cnd".toList ∨ m = "sdaa".toList)
    (w : List Char) (ht : OptionLast flat "trials" [w]) (hw0 : intVal w = some 0)
    (f : List Char) (hfi : f ∈ images) (hff : ∀ g, FormatAsked C (E cwd').set.isdir flat g ∧ g ∈ images ↔ g = f)
    (b : Bool) (hb : OverviewAsked C flat b) (hnew : ∀ g, O.found g = none) :
    ∃ st, runCommand C isNeg F depth cwd words = .ok st ∧ ∀ P, prepareRun E st = .ok P → O.hasAges P = false →
      ∃ out, NamedAfter C (E cwd').set.isdir flat out ∧ ∀ dir base, PathOf C dir base → out ≠ "out".toList →
        out = dir ++ base → NoExt C base → dir ++ base ≠ [] →
        ∃ s results, writeRun E O st P = .ok s ∧ (dir ++ base ++ "_ra.txt".toList, .results results) ∈ s.files ∧
          ∀ m, MeasureAsked flat m → ∃ d, dictGet results m = some (1000, d) := by
  obtain ⟨st, h1, h2⟩ := analysis_files C isNeg F cwd words l flat cwd' n hw h depth hd E hE O hO values hra hv0 _ rfl hnl 1000
    (fun ns c ms hs c1 c2 c3 => by
      obtain ⟨_, v, hv, hv'⟩ := last_value hs (flat_arity h (command_arity hw)) (by decide +kernel) ht
      obtain ⟨w', z, e, hz', rfl⟩ := (kind_values hv).2.2.1 (by decide +kernel)
      cases e
      rw [hw0] at hz'
      cases hz'
      have e1 : raTrials (argsOf C ns) c = .ok 1000 := by
        rw [raTrials, hv', c1]
        dsimp only
        rw [if_pos (by norm_num)]
        rfl
      have e2 := check_ok hs (flat_arity h (command_arity hw)) hk
      have e3 : getSet c "measure" = .ok ms := by rw [getSet, c2]
      have e4 : [] ∉ ms := fun h => by rcases hk _ ((c3 _).1 h) with e | e <;> exact absurd e (by decide)
      rw [raPrepare, e1, ok_bind, e2, ok_bind, e3, ok_bind, if_neg e4, if_neg (by omega)]
      rfl) f hfi hff b hb
  refine ⟨st, h1, fun P hP hA => ?_⟩
  obtain ⟨out, ho, h3⟩ := h2 P hP hA
  refine ⟨out, ho, fun dir base hpath hne heq hext hnil => ?_⟩
  obtain ⟨s, results, q1, _, q2, q3⟩ := h3 dir base hpath (by rw [if_neg hne]; exact ⟨heq, hext, hnil⟩)
  refine ⟨s, results, q1, (q2 _ _).2 (Or.inl ⟨rfl, rfl⟩), fun m hm => ?_⟩
  obtain ⟨k, d, e, _, hq⟩ := q3 m hm
  rcases hq _ rfl with hq | ⟨_, rfl, _⟩
  · rw [hnew, hnew] at hq
    cases hq
  · exact ⟨d, e⟩

/-- **C142, measures.** A measure which is not known stops the command before anything is analysed. -/
theorem C142_measure (C : Classes) (isNeg : List Char → Bool) (F : FileSys) (cwd : List Char) (words : List (List Char))
    (l flat : List Given) (cwd' : List Char) (n : ℕ) (hw : CommandOf isNeg words l) (h : Expands C isNeg F cwd l flat cwd' n)
    (depth : ℕ) (hd : n ≤ depth) (E : List Char → RunEnv α R) (hE : ∀ d, (E d).set.classes = C) (O : OutEnv α R D)
    (hra : AskedFor flat "randomness_analysis")
    (hnl : ∀ values, OptionLast flat "out" values → '\n' ∉ (values.intersperse [' ']).flatten)
    (w : List Char) (hm : OptionLast flat "measure" [w]) (hne : w ≠ []) (m : List Char) (hma : MeasureAsked flat m)
    (hun : m ≠ "m2cnd".toList ∧ m ≠ "sdaa".toList)
    (f : List Char) (hfi : f ∈ images) (hff : FormatAsked C (E cwd').set.isdir flat f) :
    ∃ st, runCommand C isNeg F depth cwd words = .ok st ∧ ∀ P, prepareRun E st = .ok P → writeRun E O st P = .error .system := by
  obtain ⟨st, h1, hcwd, hs⟩ := C133_in_place_partial C isNeg F cwd words l flat cwd' n hw h depth hd
  have hf := flat_arity h (command_arity hw)
  refine ⟨st, h1, fun P hP => ?_⟩
  obtain ⟨⟨out, s1, hname⟩, s2, ⟨ms, s3, hms⟩, s4, p, hp, s5⟩ := run_settings (hE cwd') hcwd hs hf hP
  obtain ⟨fs, s2, hnd, hfs⟩ := s2 hnl
  have hset : isSet st.ns "randomness_analysis" = true := (isSet_iff hs _ (by decide)).2 hra
  have hany : fs.any (fun f => f ∈ Output.imageFormats) = true := by
    rw [List.any_eq_true]
    exact ⟨f, (hfs f).2 hff, by rw [decide_eq_true_eq]; exact hfi⟩
  have hargs : ∃ q, raTrials (argsOf C st.ns) P.settings = .ok q := by
    rcases given_or hs "trials" (by decide) with hn | ⟨values, hl⟩
    · rw [raTrials, (args_last hs "trials" (by decide)).2 hn, s4]
      exact ⟨_, rfl⟩
    · obtain ⟨_, v, hv, hv'⟩ := last_value hs hf (by decide +kernel) hl
      obtain ⟨w', z, e, hz', rfl⟩ := (kind_values hv).2.2.1 (by decide +kernel)
      rw [raTrials, hv', s4]
      dsimp only
      split <;> exact ⟨_, rfl⟩
  have hcheck : raCheck (argsOf C st.ns) = .error .system := by
    obtain ⟨_, v, hv, hv'⟩ := last_value hs hf (by decide +kernel) hm
    have := ((kind_values hv).2.2.2.2.2.2.2 (by decide +kernel)).1 _ rfl
    subst this
    rw [raCheck, hv']
    dsimp only
    rw [if_neg hne, if_neg]
    intro hall
    rw [List.all_eq_true] at hall
    rcases hma with ⟨t, parts, hl, p1, p2, p3, p4⟩ | ⟨hn, _⟩
    · have e := option_unique hm hl
      injection e with e
      have := hall m (by rw [e, p3, ← join_eq_intersperse, split_join p1 p2]; exact p4)
      rw [decide_eq_true_eq, List.mem_cons, List.mem_singleton] at this
      exact this.elim hun.1 hun.2
    · exact option_absurd hm hn
  obtain ⟨q, hq⟩ := hargs
  rw [write_ok s1 s2 s3 s5, hset, hany, hcwd, hE cwd', if_pos rfl, raPrepare, hq, ok_bind, hcheck]
  rfl

/-- **C142 fails without image formats**: with only csv, no analysis is made although it is asked for. -/
theorem C142_table_counterexample (C : Classes) (isNeg : List Char → Bool) (F : FileSys) (cwd : List Char) (words : List (List Char))
    (l flat : List Given) (cwd' : List Char) (n : ℕ) (hw : CommandOf isNeg words l) (h : Expands C isNeg F cwd l flat cwd' n)
    (depth : ℕ) (hd : n ≤ depth) (E : List Char → RunEnv α R) (hE : ∀ d, (E d).set.classes = C) (O : OutEnv α R D)
    (hO : ∀ l, (O.order l).Perm l) (_hra : AskedFor flat "randomness_analysis") (hf1 : OptionLast flat "format" ["csv".toList])
    (hnl : ∀ values, OptionLast flat "out" values → '\n' ∉ (values.intersperse [' ']).flatten) :
    ∃ st, runCommand C isNeg F depth cwd words = .ok st ∧ ∀ P, prepareRun E st = .ok P → O.hasAges P = false →
      ∃ s, writeRun E O st P = .ok s ∧ s.runs = 0 ∧ ∀ name c, (name, c) ∈ s.files → c = .commands := by
  obtain ⟨st, h1, hcwd, hs⟩ := C133_in_place_partial C isNeg F cwd words l flat cwd' n hw h depth hd
  have hf := flat_arity h (command_arity hw)
  refine ⟨st, h1, fun P hP hA => ?_⟩
  obtain ⟨⟨out, s1, hname⟩, s2, ⟨ms, s3, hms⟩, s4, p, hp, s5⟩ := run_settings (hE cwd') hcwd hs hf hP
  obtain ⟨fs, s2, hnd, hfs⟩ := s2 hnl
  have hcsv : ∀ f ∈ fs, f = "csv".toList := by
    intro f hf'
    rcases (hfs f).1 hf' with ⟨values, hl, hm⟩ | ⟨hn, _⟩
    · rw [option_unique hl hf1] at hm
      exact List.mem_singleton.1 hm
    · exact (option_absurd hf1 hn).elim
  have hnot : ∀ f ∈ fs, f ∉ Output.imageFormats := fun f hf' => by rw [hcsv f hf']; decide
  have hany : fs.any (fun f => f ∈ Output.imageFormats) = false := by
    rw [List.any_eq_false]
    intro f hf'
    rw [decide_eq_true_eq]
    exact hnot f hf'
  rw [write_ok s1 s2 s3 s5, hany, Bool.and_false, if_neg (by decide), except_ok_bind]
  refine ⟨_, by dsimp only; rw [output, ra_skip _ _ _ hA _ (fun f hf' => hnot f ((hO fs).mem_iff.1 hf')), ok_bind], ?_, ?_⟩
  · cases isSet st.ns "input" <;> rfl
  · intro name c hm
    cases hin : isSet st.ns "input" with
    | true =>
      simp only [hin, if_true] at hm
      exact absurd hm List.not_mem_nil
    | false =>
      simp only [hin, Bool.false_eq_true, if_false, List.nil_append, List.mem_singleton, Prod.mk.injEq] at hm
      exact hm.2

/-! ### examples -/

/-- sets in the order given, ages for the table if there are plots, no earlier results; the results of trials are their number -/
def fileEnv : OutEnv (List Char) Unit ℕ := ⟨id, fun P => P.plots ≠ [], fun s => s.drop 3, fun s => s ++ "_ra.txt".toList, fun _ _ t => t, fun _ => none⟩

instance : DecidableEq (Content (Results (List Char) ℕ)) := inferInstance

/-- the files written by a command -/
def filesOf (words : List String) : Option (Exc ⊕ List (String × Content (Results (List Char) ℕ))) :=
  ((runCommand .ascii (fun w => w = "-1".toList) runFiles 3 "/u/".toList (words.map String.toList)).toOption.bind fun st =>
    (prepareRun runEnv st).toOption.map fun P => match writeRun runEnv fileEnv st P with
      | .ok s => .inr (s.files.map fun x => (String.ofList x.1, x.2))
      | .error e => .inl e)

/-- plots in two formats -/
example : filesOf ["-p", "source=x.scc", "-o", "res", "-f", "svg", "csv"] =
    some (.inr [("res.svg", .plot), ("res.csv", .table), ("res.cs", .commands)]) := by decide +kernel

/-- the extension of the name adds a format -/
example : filesOf ["-p", "source=x.scc", "-o", "res.pdf"] =
    some (.inr [("res.png", .plot), ("res.csv", .table), ("res.pdf", .plot), ("res.cs", .commands)]) := by decide +kernel

/-- an analysis with 300 trials of one measure -/
example : filesOf ["-ra", "d/site.scc", "-o", "res", "-trials", "300", "-measure", "sdaa", "-select", "0"] =
    some (.inr [("res_ra.txt", .results [("sdaa".toList, (300, 300))]), ("res_ra-sdaa-n_sigma.png", .sigma "sdaa".toList [("sdaa".toList, (300, 300))]),
      ("res_ra.cs", .commands)]) := by decide +kernel

/-- the options of this command -/
def raFlat : List Given := [⟨"randomness_analysis", ["d/site.scc"]⟩, ⟨"out", ["res"]⟩, ⟨"trials", ["300"]⟩, ⟨"measure", ["sdaa"]⟩,
  ⟨"select", ["0"]⟩].map fun x : String × List String => ⟨x.1.toList, x.2.map String.toList⟩

/-- the hypotheses on them -/
example : TrialsAsked raFlat 300 ∧ MeasureAsked raFlat "sdaa".toList ∧ OverviewAsked .ascii raFlat true ∧ AskedFor raFlat "randomness_analysis" ∧
      FormatAsked .ascii (fun _ => false) raFlat "png".toList :=
  ⟨Or.inl ⟨"300".toList, ⟨raFlat.take 2, raFlat.drop 3, by decide +kernel, by decide +kernel⟩, by decide +kernel⟩,
    Or.inl ⟨"sdaa".toList, ["sdaa".toList], ⟨raFlat.take 3, raFlat.drop 4, by decide +kernel, by decide +kernel⟩, by simp, by decide +kernel,
      by decide +kernel, by simp⟩,
    Or.inl ⟨"0".toList, ⟨raFlat.take 4, [], by decide +kernel, by simp⟩, by decide +kernel⟩,
    ⟨["d/site.scc".toList], ⟨[], raFlat.drop 1, by decide +kernel, by decide +kernel⟩, by decide +kernel⟩,
    Or.inr ⟨by decide +kernel, Or.inl rfl⟩⟩

/-- no trials asked for, an unknown measure, and no images -/
example : filesOf ["-ra", "d/site.scc", "-o", "res", "-trials", "0", "-measure", "sdaa"] =
      some (.inr [("res_ra.txt", .results [("sdaa".toList, (1000, 1000))]), ("res_ra-sdaa.png", .bins "sdaa".toList [("sdaa".toList, (1000, 1000))]),
        ("res_ra.cs", .commands)]) ∧
    filesOf ["-ra", "d/site.scc", "-o", "res", "-measure", "sdaa,m3"] = some (.inl .system) ∧
    filesOf ["-ra", "d/site.scc", "-o", "res", "-f", "csv"] = some (.inr [("res.cs", .commands)]) := by decide +kernel

end Verif.Props
