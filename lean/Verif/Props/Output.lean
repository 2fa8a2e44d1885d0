import Verif.Model.Output
import Verif.Props.Convert

/-! # C111: files of a run -/

namespace Verif.Props

open Verif.Py Verif.Text Verif.Output

/-! ### plots -/

/-- the files of one format of a plot -/
def plotFiles {A : Type} (j : Job) (f : List Char) : List (List Char × Content A) :=
  (if f ∈ imageFormats then [(j.out ++ '.' :: f, .plot)] else []) ++
    if f = "csv".toList ∧ j.uncertainty = false ∧ j.fits = true then [(j.out ++ ".csv".toList, .table)] else []

theorem plot_round {A : Type} (C : Classes) (analyse : ℕ → Option A → A) (j : Job) (hra : j.ra = none) (hu : j.uncertainty = false) (s : St A)
    (hs : s.out = j.out) (f : List Char) : formatRound C analyse j s f = .ok { s with files := s.files ++ plotFiles j f } := by
  rw [formatRound, plotFiles]
  by_cases hi : f ∈ imageFormats
  · rw [if_pos hi, if_pos hi, imageRound, hra]
    simp only [hu, Bool.false_and, Bool.false_eq_true, if_false]
    rw [ok_bind, hs]
    split <;> simp [List.append_assoc]
  · rw [if_neg hi, if_neg hi, ok_bind, hs]
    split
    · simp [hs]
    · simp only [List.append_nil]
      rw [← hs]

theorem plot_rounds {A : Type} (C : Classes) (analyse : ℕ → Option A → A) (j : Job) (hra : j.ra = none) (hu : j.uncertainty = false)
    (l : List (List Char)) (s : St A) (hs : s.out = j.out) :
    l.foldlM (formatRound C analyse j) s = .ok { s with files := s.files ++ l.flatMap (plotFiles j) } := by
  induction l generalizing s with
  | nil => simp; rfl
  | cons k l ih =>
    rw [List.foldlM_cons, plot_round C analyse j hra hu s hs, ok_bind, ih ⟨s.out, s.areaDone, s.runs, s.raFiles, s.files ++ plotFiles j k⟩ hs]
    simp [List.append_assoc]

/-- **C111, plots.** A run with plots writes, whatever the order of the formats, under the output name: the plot in every image format asked for, the
table of ages if asked for and if there are ages, the command line unless it came from a file, and nothing else. -/
theorem C111_plots {A : Type} (C : Classes) (analyse : ℕ → Option A → A) (raFiles : List Char → Option A) (j : Job) (hra : j.ra = none)
    (hu : j.uncertainty = false) : ∃ s, output C analyse raFiles j = .ok s ∧ ∀ name c, (name, c) ∈ s.files ↔
      (∃ f ∈ j.formats, f ∈ ["png".toList, "pdf".toList, "svg".toList, "tif".toList] ∧ name = j.out ++ '.' :: f ∧ c = .plot) ∨
      ("csv".toList ∈ j.formats ∧ j.fits = true ∧ name = j.out ++ ".csv".toList ∧ c = .table) ∨
      (j.input = false ∧ name = j.out ++ ".cs".toList ∧ c = .commands) := by
  refine ⟨_, by rw [output, plot_rounds C analyse j hra hu _ _ rfl, ok_bind], ?_⟩
  intro name c
  have key : ∀ name c, (name, c) ∈ j.formats.flatMap (plotFiles (A := A) j) ↔
      (∃ f ∈ j.formats, f ∈ imageFormats ∧ name = j.out ++ '.' :: f ∧ c = .plot) ∨
      ("csv".toList ∈ j.formats ∧ j.fits = true ∧ name = j.out ++ ".csv".toList ∧ c = .table) := by
    intro name c
    rw [List.mem_flatMap]
    constructor
    · rintro ⟨f, hf, h⟩
      rw [plotFiles, List.mem_append] at h
      rcases h with h | h
      · split at h
        · rename_i hi
          simp only [List.mem_singleton, Prod.mk.injEq] at h
          exact Or.inl ⟨f, hf, hi, h.1, h.2⟩
        · simp at h
      · split at h
        · rename_i hc
          simp only [List.mem_singleton, Prod.mk.injEq] at h
          exact Or.inr ⟨hc.1 ▸ hf, hc.2.2, h.1, h.2⟩
        · simp at h
    · rintro (⟨f, hf, hi, rfl, rfl⟩ | ⟨hf, hfit, rfl, rfl⟩)
      · exact ⟨f, hf, by rw [plotFiles, if_pos hi]; simp⟩
      · exact ⟨_, hf, by
          have hc : "csv".toList = "csv".toList ∧ j.uncertainty = false ∧ j.fits = true := ⟨rfl, hu, hfit⟩
          rw [plotFiles, if_pos hc]; simp⟩
  have hi : imageFormats = ["png".toList, "pdf".toList, "svg".toList, "tif".toList] := rfl
  rw [← hi]
  cases hin : j.input with
  | true =>
    simp only [if_true, List.nil_append, key]
    simp
  | false =>
    simp only [Bool.false_eq_true, if_false, List.nil_append, List.mem_append, key, List.mem_singleton, Prod.mk.injEq, true_and]
    rw [or_assoc]

/-! ### uncertainty plots -/

theorem area_round {A : Type} (C : Classes) (analyse : ℕ → Option A → A) (j : Job) (hra : j.ra = none) (hu : j.uncertainty = true) (s : St A)
    (f : List Char) : formatRound C analyse j s f = .ok (if f ∈ imageFormats then
      if s.areaDone then { s with files := s.files ++ [(s.out ++ '.' :: f, .plot)] }
      else { s with areaDone := true, files := s.files ++ ["k".toList, "err".toList, "age".toList].map (fun k =>
        (s.out ++ '_' :: k ++ '.' :: f, .ageArea k)) } else s) := by
  rw [formatRound]
  have h2 : ¬ (f = "csv".toList ∧ j.uncertainty = false ∧ j.fits = true) := by rw [hu]; simp
  simp only [if_neg h2]
  by_cases hi : f ∈ imageFormats
  · rw [if_pos hi, if_pos hi, imageRound, hra]
    cases hd : s.areaDone with
    | true => simp [hu]; rfl
    | false => simp [hu]; rfl
  · rw [if_neg hi, if_neg hi]; rfl

theorem area_skip {A : Type} (C : Classes) (analyse : ℕ → Option A → A) (j : Job) (hra : j.ra = none) (hu : j.uncertainty = true)
    (l : List (List Char)) (hl : ∀ f ∈ l, f ∉ imageFormats) (s : St A) : l.foldlM (formatRound C analyse j) s = .ok s := by
  induction l generalizing s with
  | nil => rfl
  | cons k l ih =>
    rw [List.foldlM_cons, area_round C analyse j hra hu, if_neg (hl k (by simp)), ok_bind, ih (fun f hf => hl f (by simp [hf]))]

/-- **C111 (partial), uncertainty plots.** With one image format, a run for uncertainty plots writes the three diagrams in this format, the command
line unless it came from a file, and nothing else.  Missing: more than one image format (see `C111_uncertainty_counterexample`). -/
theorem C111_uncertainty_partial {A : Type} (C : Classes) (analyse : ℕ → Option A → A) (raFiles : List Char → Option A) (j : Job)
    (hra : j.ra = none) (hu : j.uncertainty = true) (pre post : List (List Char)) (f : List Char) (hf : j.formats = pre ++ f :: post)
    (hi : f ∈ ["png".toList, "pdf".toList, "svg".toList, "tif".toList])
    (hn : ∀ g ∈ pre ++ post, g ∉ ["png".toList, "pdf".toList, "svg".toList, "tif".toList]) :
    ∃ s, output C analyse raFiles j = .ok s ∧ ∀ name c, (name, c) ∈ s.files ↔
      (∃ k ∈ ["k".toList, "err".toList, "age".toList], name = j.out ++ '_' :: k ++ '.' :: f ∧ c = .ageArea k) ∨
      (j.input = false ∧ name = j.out ++ ".cs".toList ∧ c = .commands) := by
  refine ⟨_, by rw [output, hf, List.foldlM_append, area_skip C analyse j hra hu _ (fun g hg => hn g (by simp [hg])), ok_bind, List.foldlM_cons,
    area_round C analyse j hra hu, if_pos (show f ∈ imageFormats from hi), ok_bind, area_skip C analyse j hra hu _ (fun g hg => hn g (by simp [hg])), ok_bind], ?_⟩
  intro name c
  cases hin : j.input with
  | true => simp
  | false => simp; tauto

/-- **C111 fails for uncertainty plots in two image formats**: the second format, whichever it is, has none of the three diagrams but a single
file with the empty plot. -/
theorem C111_uncertainty_counterexample {A : Type} (C : Classes) (analyse : ℕ → Option A → A) (raFiles : List Char → Option A) (j : Job)
    (hra : j.ra = none) (hu : j.uncertainty = true) (pre mid post : List (List Char)) (f g : List Char)
    (hf : j.formats = pre ++ f :: mid ++ g :: post) (hi : f ∈ ["png".toList, "pdf".toList, "svg".toList, "tif".toList])
    (hg : g ∈ ["png".toList, "pdf".toList, "svg".toList, "tif".toList])
    (hn : ∀ k ∈ pre ++ mid ++ post, k ∉ ["png".toList, "pdf".toList, "svg".toList, "tif".toList]) :
    ∃ s, output C analyse raFiles j = .ok s ∧ ∀ name c, (name, c) ∈ s.files ↔
      (∃ k ∈ ["k".toList, "err".toList, "age".toList], name = j.out ++ '_' :: k ++ '.' :: f ∧ c = .ageArea k) ∨
      (name = j.out ++ '.' :: g ∧ c = .plot) ∨ (j.input = false ∧ name = j.out ++ ".cs".toList ∧ c = .commands) := by
  refine ⟨_, by rw [output, hf, List.append_assoc, List.cons_append, List.foldlM_append,
    area_skip C analyse j hra hu _ (fun g hg => hn g (by simp [hg])), ok_bind, List.foldlM_cons,
    area_round C analyse j hra hu, if_pos (show f ∈ imageFormats from hi), ok_bind, List.foldlM_append, area_skip C analyse j hra hu _ (fun g hg => hn g (by simp [hg])),
    ok_bind, List.foldlM_cons, area_round C analyse j hra hu, if_pos (show g ∈ imageFormats from hg), ok_bind,
    area_skip C analyse j hra hu _ (fun g hg => hn g (by simp [hg])), ok_bind], ?_⟩
  intro name c
  cases hin : j.input with
  | true => simp; tauto
  | false => simp; tauto

/-! ### randomness analyses -/

theorem ra_chars (C : Classes) : ∀ c ∈ "_ra".toList, nameCh C c = true := by
  intro c hc
  have h1 : ∀ c ∈ "_ra".toList, c.toNat < 128 ∧ (c.isAlphanum || c == '_') = true := by decide
  obtain ⟨a, b⟩ := h1 c hc
  have : C.word c = true := by rw [C.word_ascii _ a]; exact b
  simp [nameCh, this]

/-- the output name after an analysis -/
theorem ra_name {C : Classes} {dir base : List Char} (h : PathOf C dir base) :
    filename C (dir ++ base ++ "_ra.txt".toList) "pn".toList none none 4 = .ok (dir ++ base ++ "_ra".toList) := by
  have hp : PathOf C dir (base ++ "_ra".toList) := h.append (ra_chars C) (by decide)
  have he : IsExt C 4 ('.' :: "txt".toList) := isExt_ascii C (by decide) (by decide) (by decide)
  have := filename_ext (by omega) hp he "pn".toList none none
  have e : dir ++ base ++ "_ra.txt".toList = dir ++ (base ++ "_ra".toList) ++ '.' :: "txt".toList := by
    simp
  rw [e, this]
  show (Except.ok _ : Except Exc _) = _
  simp

theorem plain_name {C : Classes} {dir base : List Char} (h : PathOf C dir base) (he : NoExt C base) :
    filename C (dir ++ base) "pn".toList none none 4 = .ok (dir ++ base) := by
  rw [filename_noExt h he]
  show (Except.ok _ : Except Exc _) = _
  simp

theorem ra_noExt {C : Classes} {base : List Char} (h : NoExt C base) (hb : ∀ a v, a ++ '.' :: v = base → 2 ≤ v.length) :
    NoExt C (base ++ "_ra".toList) := by
  intro a b hab hb'
  obtain ⟨v, rfl, h1, h2, hw⟩ := hb'
  have hd : '.' ∉ v := by
    intro hc
    have := hw _ hc
    rw [word_dot] at this; cases this
  rcases List.append_eq_append_iff.1 hab with ⟨c, rfl, hc⟩ | ⟨c, rfl, hc⟩
  · cases c with
    | nil =>
      rw [List.nil_append] at hc
      exact absurd hc (by intro h; injection h with h; exact absurd h (by decide))
    | cons x c =>
      rw [List.cons_append] at hc
      injection hc with h1' h2'
      subst h1'
      have h3 := hb a c rfl
      subst h2'
      refine h a ('.' :: c) rfl ⟨c, rfl, by omega, ?_, fun x hx => hw x (by simp [hx])⟩
      rw [List.length_append] at h2
      omega
  · cases c with
    | nil => exact absurd hc (by intro h; injection h with h; exact absurd h (by decide))
    | cons x c =>
      have : '.' ∈ "_ra".toList := by
        rw [hc]; simp
      exact absurd this (by decide)

theorem ra_round {A : Type} {C : Classes} (analyse : ℕ → Option A → A) {dir base : List Char} (h : PathOf C dir base) (name beside : List Char)
    (s : St A) (ho : if s.out = "out".toList then name = dir ++ base else s.out = dir ++ base ∧ NoExt C base ∧ dir ++ base ≠ []) :
    randomness C analyse name beside s = .ok (⟨dir ++ base ++ "_ra".toList, s.areaDone, s.runs + 1,
      fun f => if f = dir ++ base ++ "_ra.txt".toList then some (analyse s.runs (s.raFiles (dir ++ base ++ "_ra.txt".toList) <|> s.raFiles beside))
        else s.raFiles f,
      s.files ++ [(dir ++ base ++ "_ra.txt".toList, .results (analyse s.runs (s.raFiles (dir ++ base ++ "_ra.txt".toList) <|> s.raFiles beside)))]⟩,
      analyse s.runs (s.raFiles (dir ++ base ++ "_ra.txt".toList) <|> s.raFiles beside)) := by
  rw [randomness]
  split at ho
  · rename_i h1
    rw [if_pos h1, ok_bind]
    dsimp only
    rw [if_pos rfl, ho, ra_name h, ok_bind]
  · rename_i h1
    obtain ⟨h2, h3, h4⟩ := ho
    rw [if_neg h1, h2, plain_name h h3, ok_bind]
    dsimp only
    rw [if_neg h4, ra_name h, ok_bind]

/-- Specification: a randomness analysis of which the files are named `<dir><base>`: after the output name, or after the count if the
name is the default. -/
structure RaJob (C : Classes) (j : Job) (dir base name beside : List Char) : Prop where
  ra : j.ra = some (name, beside)
  path : PathOf C dir base
  out : if j.out = "out".toList then name = dir ++ base else j.out = dir ++ base ∧ NoExt C base ∧ dir ++ base ≠ []
  /-- no plots with ages -/
  fits : j.fits = false

/-- Specification: the image of a measure -/
def raImage {A : Type} (j : Job) (stem m f : List Char) (a : A) (name : List Char) (c : Content A) : Prop :=
  if j.overview then name = stem ++ '-' :: m ++ "-n_sigma.".toList ++ f ∧ c = .sigma m a else name = stem ++ '-' :: m ++ '.' :: f ∧ c = .bins m a

theorem ra_skip {A : Type} (C : Classes) (analyse : ℕ → Option A → A) (j : Job) (hfit : j.fits = false) (l : List (List Char))
    (hl : ∀ f ∈ l, f ∉ imageFormats) (s : St A) : l.foldlM (formatRound C analyse j) s = .ok s := by
  induction l generalizing s with
  | nil => rfl
  | cons k l ih =>
    rw [List.foldlM_cons]
    have : formatRound C analyse j s k = .ok s := by
      have h0 : ¬ (k = "csv".toList ∧ j.uncertainty = false ∧ j.fits = true) := by rw [hfit]; simp
      rw [formatRound, if_neg (hl k (by simp)), ok_bind]
      dsimp only
      rw [if_neg h0]
    rw [this, ok_bind, ih (fun f hf => hl f (by simp [hf]))]

/-- the files of an analysis in one format -/
def raFilesOf {A : Type} (j : Job) (stem f : List Char) (a : A) : List (List Char × Content A) :=
  (stem ++ ".txt".toList, .results a) :: j.measures.map (fun m =>
    if j.overview then (stem ++ '-' :: m ++ "-n_sigma.".toList ++ f, .sigma m a) else (stem ++ '-' :: m ++ '.' :: f, .bins m a))

theorem mem_raFilesOf {A : Type} (j : Job) (stem f : List Char) (a : A) (name : List Char) (c : Content A) :
    (name, c) ∈ raFilesOf j stem f a ↔ (name = stem ++ ".txt".toList ∧ c = .results a) ∨ ∃ m ∈ j.measures, raImage j stem m f a name c := by
  rw [raFilesOf, List.mem_cons, List.mem_map, Prod.mk.injEq]
  apply or_congr Iff.rfl
  apply exists_congr
  intro m
  apply and_congr Iff.rfl
  rw [raImage]
  split <;> rw [Prod.mk.injEq] <;> constructor <;> rintro ⟨h1, h2⟩ <;> exact ⟨h1.symm, h2.symm⟩

theorem ra_image_round {A : Type} {C : Classes} (analyse : ℕ → Option A → A) {j : Job} {dir base name beside : List Char} (hra : j.ra = some (name, beside))
    (h : PathOf C dir base) (hfit : j.fits = false) (s : St A)
    (ho : if s.out = "out".toList then name = dir ++ base else s.out = dir ++ base ∧ NoExt C base ∧ dir ++ base ≠ []) (f : List Char)
    (hi : f ∈ imageFormats) (a : A) (ha : a = analyse s.runs (s.raFiles (dir ++ base ++ "_ra.txt".toList) <|> s.raFiles beside)) :
    formatRound C analyse j s f = .ok ⟨dir ++ base ++ "_ra".toList, s.areaDone, s.runs + 1,
      fun g => if g = dir ++ base ++ "_ra.txt".toList then some a else s.raFiles g,
      s.files ++ raFilesOf j (dir ++ base ++ "_ra".toList) f a⟩ := by
  rw [formatRound, if_pos hi, imageRound, hra]
  simp only
  have h0 : ¬ (f = "csv".toList ∧ j.uncertainty = false ∧ j.fits = true) := by rw [hfit]; simp
  rw [ra_round analyse h name beside s ho, ok_bind, ok_bind]
  dsimp only
  rw [if_neg h0, raFilesOf, ← ha]
  simp

/-- **C111 (partial), randomness analyses.** With one image format a randomness analysis writes its results and an image of each measure with these
results, all under the same name, the command line unless it came from a file, and nothing else; the analysis continues with earlier
results of the same name or else beside the count.  Missing: more than one image format (see `C111_randomness_counterexample`), names
which end in something like an extension or consist of other characters than those of names. -/
theorem C111_randomness_partial {A : Type} {C : Classes} (analyse : ℕ → Option A → A) (raFiles : List Char → Option A) {j : Job}
    {dir base name beside : List Char} (h : RaJob C j dir base name beside) (pre post : List (List Char)) (f : List Char)
    (hf : j.formats = pre ++ f :: post) (hi : f ∈ ["png".toList, "pdf".toList, "svg".toList, "tif".toList])
    (hn : ∀ g ∈ pre ++ post, g ∉ ["png".toList, "pdf".toList, "svg".toList, "tif".toList]) :
    let stem := dir ++ base ++ "_ra".toList
    let a := analyse 0 (raFiles (stem ++ ".txt".toList) <|> raFiles beside)
    ∃ s, output C analyse raFiles j = .ok s ∧ s.runs = 1 ∧ ∀ n c, (n, c) ∈ s.files ↔
      (n = stem ++ ".txt".toList ∧ c = .results a) ∨ (∃ m ∈ j.measures, raImage j stem m f a n c) ∨
      (j.input = false ∧ n = stem ++ ".cs".toList ∧ c = .commands) := by
  intro stem a
  have e : stem ++ ".txt".toList = dir ++ base ++ "_ra.txt".toList := by simp [stem]
  refine ⟨_, by rw [output, hf, List.foldlM_append, ra_skip C analyse j h.fits _ (fun g hg => hn g (by simp [hg])), ok_bind, List.foldlM_cons,
    ra_image_round analyse h.ra h.path h.fits _ h.out f hi a (by simp only [a]; rw [e]), ok_bind,
    ra_skip C analyse j h.fits _ (fun g hg => hn g (by simp [hg])), ok_bind], ?_, ?_⟩
  · split <;> rfl
  · intro n c
    cases hin : j.input with
    | true =>
      simp only [if_true, List.nil_append, mem_raFilesOf, Bool.true_eq_false, false_and, or_false]
      exact Iff.rfl
    | false =>
      simp only [Bool.false_eq_true, if_false, List.nil_append, List.mem_append, mem_raFilesOf, List.mem_singleton, Prod.mk.injEq, true_and]
      rw [or_assoc]

/-- **C111 fails for a randomness analysis in two image formats**: the analysis is run a second time, under another name, and the
second format shows these other results, which do not continue those of the first analysis (unless the first wrote them to the place
beside the count). -/
theorem C111_randomness_counterexample {A : Type} {C : Classes} (analyse : ℕ → Option A → A) (raFiles : List Char → Option A) {j : Job}
    {dir base name beside : List Char} (h : RaJob C j dir base name beside) (hd : ∀ a v, a ++ '.' :: v = base → 2 ≤ v.length)
    (hbase : NoExt C base) (hout : dir ++ base ++ "_ra".toList ≠ "out".toList)
    (pre mid post : List (List Char)) (f g : List Char)
    (hf : j.formats = pre ++ f :: mid ++ g :: post) (hi : f ∈ ["png".toList, "pdf".toList, "svg".toList, "tif".toList])
    (hg : g ∈ ["png".toList, "pdf".toList, "svg".toList, "tif".toList])
    (hn : ∀ k ∈ pre ++ mid ++ post, k ∉ ["png".toList, "pdf".toList, "svg".toList, "tif".toList])
    (hb : beside ≠ dir ++ base ++ "_ra.txt".toList) :
    let stem := dir ++ base ++ "_ra".toList
    let a := analyse 0 (raFiles (stem ++ ".txt".toList) <|> raFiles beside)
    let b := analyse 1 (raFiles (stem ++ "_ra.txt".toList) <|> raFiles beside)
    ∃ s, output C analyse raFiles j = .ok s ∧ s.runs = 2 ∧ ∀ n c, (n, c) ∈ s.files ↔
      (n = stem ++ ".txt".toList ∧ c = .results a) ∨ (∃ m ∈ j.measures, raImage j stem m f a n c) ∨
      (n = stem ++ "_ra.txt".toList ∧ c = .results b) ∨ (∃ m ∈ j.measures, raImage j (stem ++ "_ra".toList) m g b n c) ∨
      (j.input = false ∧ n = stem ++ "_ra.cs".toList ∧ c = .commands) := by
  intro stem a b
  have e : stem ++ ".txt".toList = dir ++ base ++ "_ra.txt".toList := by simp [stem]
  have hp : PathOf C dir (base ++ "_ra".toList) := h.path.append (ra_chars C) (by decide)
  have he := ra_noExt hbase hd
  refine ⟨_, by rw [output, hf, List.append_assoc, List.cons_append, List.foldlM_append,
    ra_skip C analyse j h.fits _ (fun g hg => hn g (by simp [hg])), ok_bind, List.foldlM_cons,
    ra_image_round analyse h.ra h.path h.fits _ h.out f hi a (by simp only [a]; rw [e]), ok_bind, List.foldlM_append,
    ra_skip C analyse j h.fits _ (fun g hg => hn g (by simp [hg])), ok_bind, List.foldlM_cons,
    ra_image_round analyse h.ra hp h.fits _ (by
      simp only
      rw [if_neg hout]
      exact ⟨by simp, he, by simp⟩) g hg b (by
      simp only [b]
      rw [if_neg hb, if_neg (by
        intro h'
        have := congrArg List.length h'
        simp at this)]
      simp [stem]), ok_bind,
    ra_skip C analyse j h.fits _ (fun g hg => hn g (by simp [hg])), ok_bind], ?_, ?_⟩
  · split <;> rfl
  · intro n c
    have e2 : dir ++ (base ++ "_ra".toList) ++ "_ra".toList = stem ++ "_ra".toList := by simp [stem]
    have e3 : stem ++ "_ra".toList ++ ".txt".toList = stem ++ "_ra.txt".toList := by simp
    have e4 : stem ++ "_ra".toList ++ ".cs".toList = stem ++ "_ra.cs".toList := by simp
    rw [e2]
    cases hin : j.input with
    | true =>
      simp only [if_true, List.nil_append, List.mem_append, mem_raFilesOf, Bool.true_eq_false, false_and, or_false, e3]
      rw [or_assoc]
    | false =>
      simp only [Bool.false_eq_true, if_false, List.nil_append, List.mem_append, mem_raFilesOf, List.mem_singleton, Prod.mk.injEq, true_and,
        e3, e4, or_assoc]
      exact Iff.rfl

/-- **C111 depends on the order of a set**: with ages in the table and the default formats, the same command puts the table under the
output name or under the name of the analysis, depending on the order in which the set of formats is traversed. -/
theorem C111_order_counterexample :
    let job := fun formats => (⟨"site".toList, formats, some ("site".toList, "data/site_ra.txt".toList), true, ["m2cnd".toList], false, true, true⟩ : Job)
    let files := fun formats => (output (A := Unit) .ascii (fun _ _ => ()) (fun _ => none) (job formats)).map St.files
    files ["csv".toList, "png".toList] = .ok [("site.csv".toList, .table), ("site_ra.txt".toList, .results ()),
      ("site_ra-m2cnd-n_sigma.png".toList, .sigma "m2cnd".toList ())] ∧
    files ["png".toList, "csv".toList] = .ok [("site_ra.txt".toList, .results ()),
      ("site_ra-m2cnd-n_sigma.png".toList, .sigma "m2cnd".toList ()), ("site_ra.csv".toList, .table)] := by
  decide +kernel

/-! ### examples -/

/-- a plot in two image formats and the table -/
example : (⟨"res/site".toList, ["png".toList, "csv".toList, "pdf".toList], none, false, [], false, true, false⟩ : Job).ra = none ∧
    (⟨"res/site".toList, ["png".toList, "csv".toList, "pdf".toList], none, false, [], false, true, false⟩ : Job).uncertainty = false := ⟨rfl, rfl⟩

/-- formats of the theorems on uncertainty plots and analyses -/
example : ["csv".toList, "png".toList] = ["csv".toList] ++ "png".toList :: [] ∧ "png".toList ∈ ["png".toList, "pdf".toList, "svg".toList, "tif".toList] ∧
    ∀ g ∈ ["csv".toList] ++ [], g ∉ ["png".toList, "pdf".toList, "svg".toList, "tif".toList] := by decide

theorem site_noExt : NoExt .ascii "site".toList := by
  intro a b hab hb
  obtain ⟨v, rfl, _⟩ := hb
  have : '.' ∈ "site".toList := by rw [← hab]; simp
  exact absurd this (by decide)

/-- an analysis with the output name `res/site` -/
example : RaJob .ascii ⟨"res/site".toList, ["png".toList, "pdf".toList], some ("a".toList, "data/a_ra.txt".toList), false, ["sdaa".toList], false, false, false⟩
    "res/".toList "site".toList "a".toList "data/a_ra.txt".toList :=
  ⟨rfl, ⟨by decide, Or.inr ⟨'/', by decide, by decide⟩, by decide⟩, by rw [if_neg (by decide)]; exact ⟨rfl, site_noExt, by decide⟩, rfl⟩

/-- an analysis named after the count -/
example : RaJob .ascii ⟨"out".toList, ["png".toList, "pdf".toList], some ("site".toList, "data/site_ra.txt".toList), false, ["sdaa".toList], false, false, false⟩
    [] "site".toList "site".toList "data/site_ra.txt".toList :=
  ⟨rfl, ⟨by decide, Or.inl rfl, by decide⟩, by rw [if_pos rfl]; rfl, rfl⟩

end Verif.Props
