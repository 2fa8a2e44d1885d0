import Verif.Model.Settings
import Verif.Model.Lookup
import Verif.Props.Filename
import Verif.Props.PlotDicts
import Mathlib.Data.Char

/-! Properties C58, C59, C60 and C74: settings, output names, function lookup, files written. -/

namespace Verif.Props

open Verif.Py Verif.Cli

/-! ### dictionaries after each part of the construction -/

theorem hartmann_get (p : List Char) (range : Option (SVal × SVal)) (c : SDict) (k : List Char)
    (h : p = "Hartmann".toList → k ≠ "xrange".toList ∧ k ≠ "yrange".toList) : dictGet (hartmannRange p range c) k = dictGet c k := by
  rw [hartmannRange]
  split
  · rename_i hp
    rw [dictGet_set, if_neg (h hp).2, dictGet_set, if_neg (h hp).1]
  · rfl

theorem finish_get (p : List Char) (range : Option (SVal × SVal)) (c : SDict) (k : List Char)
    (h : p = "Hartmann".toList → k ≠ "xrange".toList ∧ k ≠ "yrange".toList) (h3 : k ≠ "text_halo".toList) :
    dictGet (finish p range c) k = dictGet c k := by
  rw [finish, haloStep]
  split
  · rw [dictGet_set, if_neg h3, hartmann_get p range c k h]
  · exact hartmann_get p range c k h

theorem presentationDefaults_get (p : List Char) (c : SDict) (k : List Char) (h1 : k ≠ "xrange".toList)
    (h2 : k ≠ "yrange".toList) (h3 : k ≠ "legend".toList) : dictGet (presentationDefaults p c) k = dictGet c k := by
  rw [presentationDefaults]
  split
  · rw [dictGet_set, if_neg h3]
    split
    · rw [dictGet_set, if_neg h2, dictGet_set, if_neg h1]
    · rfl
  · split
    · rw [dictGet_set, if_neg h2, dictGet_set, if_neg h1]
    · rfl

/-- the presentations offered -/
def presentationNames : List (List Char) :=
  ["cumulative", "differential", "R-plot", "Hartmann", "chronology", "rate", "sequence", "uncertainty", "map", "sdaa", "m2cnd"].map String.toList

/-- the presentation: the only one which the text given abbreviates, or differential -/
def Presents (env : SetEnv) (args : Args) (p : List Char) : Prop :=
  args "presentation".toList = none ∧ p = "differential".toList ∨
  ∃ v, args "presentation".toList = some (.str v) ∧ WellFormed v ∧ p ∈ presentationNames ∧ Abbreviates env.lower v p ∧
    ∀ q ∈ presentationNames, Abbreviates env.lower v q → q = p

/-- an abbreviation accepted without ambiguity -/
theorem decode_unique {lower : Char → Char} {s : List (List Char)} (hs : ∀ e ∈ s, '\n' ∉ e) (hn : s ≠ []) {v p : List Char} {z : ℤ}
    (h : decodeAbbreviation lower s v false false = .ok z) (hp : s[z.toNat]? = some p) :
    WellFormed v ∧ Abbreviates lower v p ∧ ∀ q ∈ s, Abbreviates lower v q → q = p := by
  by_cases hw : WellFormed v
  swap
  · rw [C140_malformed lower s hn v hw] at h; cases h
  obtain ⟨h1, h2, h3⟩ := C41_abbreviation lower s hs v hw false false
  have hex : ∃ e ∈ s, Abbreviates lower v e := by
    by_contra hc
    push Not at hc
    rw [h1 hc] at h; cases h
  have huniq : ∀ (i j : ℕ) (ei ej : List Char), s[i]? = some ei → s[j]? = some ej → Abbreviates lower v ei → Abbreviates lower v ej → i = j := by
    intro i j ei ej a b c d
    by_contra hne
    rw [h2 ⟨i, j, ei, ej, hne, a, b, c, d⟩ rfl] at h
    cases h
  obtain ⟨i, e, e1, e2, e3, _⟩ := h3 hex (Or.inr huniq)
  rw [e1] at h
  cases h
  rw [Int.toNat_natCast, e2] at hp
  cases hp
  refine ⟨hw, e3, fun q hq ha => ?_⟩
  obtain ⟨j, hj⟩ := List.mem_iff_getElem?.1 hq
  have := huniq i j _ _ e2 hj e3 ha
  subst this
  rw [e2] at hj
  exact (Option.some.inj hj).symm

theorem pick_ok {β : Type} {l : List β} {i : ℤ} {x : β} (h : pick l i = .ok x) : l[i.toNat]? = some x := by
  rw [pick] at h
  split at h
  · rename_i y hy; cases h; exact hy
  · cases h

/-- the parts of a successful construction -/
theorem settings_ok {env : SetEnv} {args : Args} {c : SDict} (h : constructSettings env args = .ok c) :
    ∃ p c1 c2 c3 range0 range, Presents env args p ∧
      (∀ k, dictGet c1 k = if k = "presentation".toList then some (.str p) else dictGet settingDefaults k) ∧
      parserKeys.foldlM (settingStep env args) (presentationDefaults p c1) = .ok c2 ∧
      applySystem env c2 = .ok (c3, range0) ∧ (∀ k, k ≠ "global_area".toList → dictGet c3 k = dictGet c2 k) ∧
      c = finish p range c3 ∧ ownRange p range0 = .ok range := by
  obtain ⟨c1, h1, h⟩ := bind_ok h
  obtain ⟨p, h2, h⟩ := bind_ok h
  obtain ⟨c2, h3, h⟩ := bind_ok h
  obtain ⟨⟨c3, range0⟩, h4, h⟩ := bind_ok h
  obtain ⟨_, h5, h⟩ := bind_ok h
  obtain ⟨_, h6, h⟩ := bind_ok h
  obtain ⟨range, h7, h⟩ := bind_ok h
  have hc1 : Presents env args p ∧
      (∀ k, dictGet c1 k = if k = "presentation".toList then some (.str p) else dictGet settingDefaults k) := by
    rw [choosePresentation] at h1
    split at h1
    · rename_i hn
      cases h1
      have hp : p = "differential".toList := by
        have h2' : getStr settingDefaults "presentation" = .ok "differential".toList := by decide +kernel
        rw [h2'] at h2; cases h2; rfl
      subst hp
      refine ⟨Or.inl ⟨hn, rfl⟩, ?_⟩
      intro k
      split
      · rename_i hk; subst hk; decide +kernel
      · rfl
    · rename_i v hv
      obtain ⟨i, hi, h1⟩ := bind_ok h1
      obtain ⟨q, hq, h1⟩ := bind_ok h1
      cases h1
      have hp : p = q := by
        rw [getStr, dictGet_set, if_pos rfl] at h2
        cases h2; rfl
      subst hp
      have hpk := pick_ok hq
      obtain ⟨w1, w2, w3⟩ := decode_unique (by decide +kernel) (by decide) hi hpk
      refine ⟨Or.inr ⟨v, hv, w1, List.mem_of_getElem? hpk, w2, w3⟩, ?_⟩
      intro k
      rw [dictGet_set]
    · cases h1
  refine ⟨p, c1, c2, c3, range0, range, hc1.1, hc1.2, h3, h4, ?_, (Except.ok.inj h).symm, h7⟩
  intro k hk
  obtain ⟨name, _, h4⟩ := bind_ok h4
  split at h4
  · cases h4
  · obtain ⟨_, _, h4⟩ := bind_ok h4
    obtain ⟨r, _, h4⟩ := bind_ok h4
    obtain ⟨i, _, h4⟩ := bind_ok h4
    split at h4
    · cases h4; rfl
    · obtain ⟨a, _, h4⟩ := bind_ok h4
      cases h4
      rw [dictGet_set, if_neg hk]

/-- an option changes only its own key, and `out` also the formats -/
theorem settingStep_frame {env : SetEnv} {args : Args} {c c' : SDict} {j : List Char} (h : settingStep env args c j = .ok c')
    (k : List Char) (hk : k ≠ j) (hf : j = "out".toList → k ≠ "format".toList) : dictGet c' k = dictGet c k := by
  rw [settingStep] at h
  split at h
  · cases h; rfl
  split at h
  · cases h; rw [dictGet_set, if_neg hk]
  split at h
  · split at h
    · obtain ⟨i, _, h⟩ := bind_ok h
      obtain ⟨x, _, h⟩ := bind_ok h
      cases h
      rw [dictGet_set, if_neg hk]
    · cases h
  split at h
  · rename_i hj
    have hko : k ≠ "out".toList := by rw [← hj]; exact hk
    split at h
    · rw [applyOut] at h
      split at h
      · cases h
        rw [dictGet_set, if_neg hko]
      · obtain ⟨o, _, h⟩ := bind_ok h
        obtain ⟨e, _, h⟩ := bind_ok h
        simp only at h
        split at h
        · cases h
          rw [dictGet_set, if_neg hko]
        · split at h
          · cases h
            rw [dictGet_set, if_neg (hf hj), dictGet_set, if_neg hko]
          · cases h
    · cases h
  split at h
  · split at h
    · cases h
      rw [dictGet_set, if_neg hk]
    · cases h
  split at h
  · split at h
    · cases h
      rw [dictGet_set, if_neg hk]
    · cases h
  · cases h; rfl

theorem settingSteps_frame {env : SetEnv} {args : Args} (l : List (List Char)) : ∀ {c c' : SDict},
    l.foldlM (settingStep env args) c = .ok c' → ∀ k, k ∉ l → ("out".toList ∈ l → k ≠ "format".toList) →
      dictGet c' k = dictGet c k := by
  induction l with
  | nil => intro c c' h k _ _; cases h; rfl
  | cons j l ih =>
    intro c c' h k hk hf
    rw [List.foldlM_cons] at h
    obtain ⟨d, hd, h⟩ := bind_ok h
    rw [List.mem_cons, not_or] at hk
    rw [ih h k hk.2 (fun ho => hf (List.mem_cons_of_mem _ ho)),
      settingStep_frame hd k hk.1 (fun ho => hf (ho ▸ List.mem_cons_self))]

/-- one option, seen from a key which is taken over as it is -/
theorem settingStep_copied {env : SetEnv} {args : Args} {c c' : SDict} {j : List Char} (h : settingStep env args c j = .ok c')
    (k : List Char) (hk : k ∈ copiedKeys) : dictGet c' k = if j = k then (args k).or (dictGet c k) else dictGet c k := by
  by_cases hjk : j = k
  · subst hjk
    rw [if_pos rfl]
    rw [settingStep] at h
    split at h
    · rename_i hn
      cases h
      rw [hn]; rfl
    rename_i v hv
    rw [if_pos hk] at h
    cases h
    rw [dictGet_set, if_pos rfl, hv]; rfl
  · rw [if_neg hjk]
    apply settingStep_frame h k (Ne.symm hjk)
    rintro _ rfl
    revert hk; decide

theorem settingSteps_copied {env : SetEnv} {args : Args} (l : List (List Char)) : ∀ {c c' : SDict},
    l.foldlM (settingStep env args) c = .ok c' → ∀ k ∈ copiedKeys,
      dictGet c' k = if k ∈ l then (args k).or (dictGet c k) else dictGet c k := by
  induction l with
  | nil => intro c c' h k _; cases h; rfl
  | cons j l ih =>
    intro c c' h k hk
    rw [List.foldlM_cons] at h
    obtain ⟨d, hd, h⟩ := bind_ok h
    rw [ih h k hk, settingStep_copied hd k hk]
    by_cases hjk : j = k
    · subst hjk
      simp only [if_true, List.mem_cons, true_or]
      split
      · cases args j <;> rfl
      · rfl
    · simp only [if_neg hjk, List.mem_cons, Ne.symm hjk, false_or]

theorem settingSteps_presentation {env : SetEnv} {args : Args} (l : List (List Char)) : ∀ {c c' : SDict},
    l.foldlM (settingStep env args) c = .ok c' → dictGet c' "presentation".toList = dictGet c "presentation".toList := by
  induction l with
  | nil => intro c c' h; cases h; rfl
  | cons j l ih =>
    intro c c' h
    rw [List.foldlM_cons] at h
    obtain ⟨d, hd, h⟩ := bind_ok h
    rw [ih h]
    by_cases hj : j = "presentation".toList
    · -- the presentation is not among the options taken over
      subst hj
      rw [settingStep] at hd
      split at hd
      · cases hd; rfl
      rw [if_neg (by decide), if_neg (by decide), if_neg (by decide), if_neg (by decide), if_neg (by decide)] at hd
      cases hd; rfl
    · exact settingStep_frame hd _ (Ne.symm hj) (fun _ => by decide)

/-! ### C59 -/

/-- the display options -/
def displayKeys : List (List Char) :=
  ["title", "isochrons", "legend", "print_dimensions", "pt_size", "font", "ref_diameter", "sig_figs", "mu", "invert",
   "transparent", "style", "min_diameter", "n_samples", "bins", "ra_offset", "ra_show", "xrange", "yrange",
   "text_halo"].map String.toList

/-- Specification: the documented defaults; `none` for an axis range means that it is fitted to the data. -/
def settingDefault (p k : List Char) : Option SVal :=
  if k = "legend".toList then some (.str (if p = "sequence".toList then "A".toList else "fnacr".toList))
  else if k = "xrange".toList then
    if p = "chronology".toList ∨ p = "rate".toList then some (.pair (9/2) 0)
    else if p = "sequence".toList then some (.pair (42/10) (1/100))
    else if p = "uncertainty".toList then some (.pair (42/10) (1/100000))
    else none
  else if k = "yrange".toList then
    if p = "chronology".toList then some (.pair (-6) 2) else if p = "rate".toList then some (.pair (-6) 3)
    else if p = "sequence".toList then some (.pair 0 0)
    else if p = "uncertainty".toList then some (.pair (-2) 8)
    else none
  else if k = "text_halo".toList then
    some (.num (if p = "chronology".toList ∨ p = "rate".toList ∨ p = "sequence".toList ∨ p = "uncertainty".toList then 0 else 1))
  else if k = "mu".toList ∨ k = "ref_diameter".toList ∨ k = "ra_show".toList then some (.num 1)
  else if k = "invert".toList ∨ k = "transparent".toList ∨ k = "ra_offset".toList ∨ k = "bins".toList then some (.num 0)
  else if k = "title".toList ∨ k = "isochrons".toList then some (.str [])
  else if k = "print_dimensions".toList then some (.str "7.5x7.5".toList)
  else if k = "pt_size".toList then some (.str "9.0".toList)
  else if k = "font".toList then some (.str "Open Sans".toList)
  else if k = "sig_figs".toList then some (.num 3)
  else if k = "style".toList then some (.str "natural".toList)
  else if k = "min_diameter".toList then some (.num (15/100))
  else if k = "n_samples".toList then some (.num 200)
  else none

theorem presents_mem {env : SetEnv} {args : Args} {p : List Char} (h : Presents env args p) : p ∈ presentations := by
  rcases h with ⟨_, rfl⟩ | ⟨v, _, _, h, _⟩
  · decide
  · exact h

theorem finish_halo (p : List Char) (range : Option (SVal × SVal)) (c : SDict) :
    dictGet (finish p range c) "text_halo".toList =
      if dictGet c "text_halo".toList = some .none ∨ dictGet c "text_halo".toList = some (.num 0) then
        some (.num (if p ∈ ["uncertainty", "sequence", "chronology", "rate"].map String.toList then 0 else 1))
      else dictGet c "text_halo".toList := by
  have h := hartmann_get p range c "text_halo".toList (fun _ => by decide)
  rw [finish, haloStep, h]
  split
  · rw [dictGet_set, if_pos rfl]
  · exact h

theorem presentationDefaults_value (p : List Char) (hp : p ∈ presentations) (c : SDict) (hx : dictGet c "xrange".toList = none)
    (hy : dictGet c "yrange".toList = none) (hl : dictGet c "legend".toList = some (.str "fnacr".toList)) (k : List Char)
    (hk : k = "xrange".toList ∨ k = "yrange".toList ∨ k = "legend".toList) :
    dictGet (presentationDefaults p c) k = settingDefault p k := by
  have hX : ∀ q ∈ ["chronology", "rate", "sequence", "uncertainty"].map String.toList,
      some ((dictGet defaultX q).getD .none) = settingDefault q "xrange".toList ∧
      some ((dictGet defaultY q).getD .none) = settingDefault q "yrange".toList := by decide +kernel
  have hN : ∀ q ∈ presentations, q ∉ ["chronology", "rate", "sequence", "uncertainty"].map String.toList →
      settingDefault q "xrange".toList = none ∧ settingDefault q "yrange".toList = none := by decide +kernel
  rw [presentationDefaults]
  rcases hk with rfl | rfl | rfl
  · have e : ∀ c' : SDict, dictGet (if p = "sequence".toList then dictSet c' "legend".toList (.str "A".toList) else c') "xrange".toList =
        dictGet c' "xrange".toList := by
      intro c'; split
      · rw [dictGet_set, if_neg (by decide)]
      · rfl
    rw [e]
    split
    · rename_i h
      rw [dictGet_set, if_neg (by decide), dictGet_set, if_pos rfl, (hX p h).1]
    · rename_i h
      rw [hx, (hN p hp h).1]
  · have e : ∀ c' : SDict, dictGet (if p = "sequence".toList then dictSet c' "legend".toList (.str "A".toList) else c') "yrange".toList =
        dictGet c' "yrange".toList := by
      intro c'; split
      · rw [dictGet_set, if_neg (by decide)]
      · rfl
    rw [e]
    split
    · rename_i h
      rw [dictGet_set, if_pos rfl, (hX p h).2]
    · rename_i h
      rw [hy, (hN p hp h).2]
  · by_cases hs : p = "sequence".toList
    · subst hs
      rw [if_pos rfl, dictGet_set, if_pos rfl]
      decide +kernel
    · rw [if_neg hs]
      have hd : settingDefault p "legend".toList = some (.str "fnacr".toList) := by
        rw [settingDefault, if_pos rfl, if_neg hs]
      rw [hd]
      split
      · rw [dictGet_set, if_neg (by decide), dictGet_set, if_neg (by decide), hl]
      · exact hl

/-- **C59.** The presentation is the one chosen; every display option given is used unchanged, and every one not given has
the documented default for the presentation; not covered are the axis ranges of a Hartmann plot and a text halo of 0. -/
theorem C59_settings_partial (env : SetEnv) (args : Args) (c : SDict) (h : constructSettings env args = .ok c) :
    ∃ p, Presents env args p ∧ dictGet c "presentation".toList = some (.str p) ∧
      ∀ k ∈ displayKeys,
        (p = "Hartmann".toList → k ≠ "xrange".toList ∧ k ≠ "yrange".toList) →
        (∀ v, args k = some v → (k = "text_halo".toList → v ≠ .num 0 ∧ v ≠ .none) → dictGet c k = some v) ∧
        (args k = none → dictGet c k = settingDefault p k) := by
  obtain ⟨p, c1, c2, c3, range0, range, hp, h1, h2, h3, h4, rfl, -⟩ := settings_ok h
  have hpm := presents_mem hp
  refine ⟨p, hp, ?_, ?_⟩
  · rw [finish_get _ _ _ _ (fun _ => by decide) (by decide), h4 _ (by decide)]
    have : dictGet c2 "presentation".toList = dictGet (presentationDefaults p c1) "presentation".toList :=
      settingSteps_presentation _ h2
    rw [this, presentationDefaults_get _ _ _ (by decide) (by decide) (by decide), h1, if_pos rfl]
  intro k hk hH
  have hkc : k ∈ copiedKeys ∧ k ∈ parserKeys ∧ k ≠ "global_area".toList ∧ k ≠ "presentation".toList := by
    revert hk; clear hH; revert k; decide
  have h2' := settingSteps_copied _ h2 k hkc.1
  rw [if_pos hkc.2.1] at h2'
  have h3' : dictGet c3 k = (args k).or (dictGet (presentationDefaults p c1) k) := by rw [h4 k hkc.2.2.1, h2']
  by_cases hth : k = "text_halo".toList
  · subst hth
    rw [finish_halo, h3']
    have h0 : dictGet (presentationDefaults p c1) "text_halo".toList = some .none := by
      rw [presentationDefaults_get _ _ _ (by decide) (by decide) (by decide), h1, if_neg (by decide)]
      decide +kernel
    constructor
    · intro v hv hne
      obtain ⟨n1, n2⟩ := hne rfl
      rw [hv]
      simp [n1, n2]
    · intro hn
      rw [hn, h0]
      simp only [Option.none_or, true_or, if_true]
      have : ∀ q ∈ presentations, some (SVal.num (if q ∈ ["uncertainty", "sequence", "chronology", "rate"].map String.toList then 0 else 1)) =
          settingDefault q "text_halo".toList := by decide +kernel
      exact this p hpm
  · have hfin : dictGet (finish p range c3) k = dictGet c3 k := finish_get _ _ _ _ hH hth
    rw [hfin, h3']
    constructor
    · intro v hv _
      rw [hv]; rfl
    · intro hn
      rw [hn, Option.none_or]
      by_cases hx : k = "xrange".toList ∨ k = "yrange".toList ∨ k = "legend".toList
      · exact presentationDefaults_value p hpm c1 (by rw [h1, if_neg (by decide)]; decide +kernel) (by rw [h1, if_neg (by decide)]; decide +kernel)
          (by rw [h1, if_neg (by decide)]; decide +kernel) k hx
      · push Not at hx
        rw [presentationDefaults_get _ _ _ hx.1 hx.2.1 hx.2.2, h1, if_neg hkc.2.2.2]
        have key : ∀ k ∈ displayKeys, k ≠ "text_halo".toList → k ≠ "xrange".toList → k ≠ "yrange".toList → k ≠ "legend".toList →
            dictGet settingDefaults k = settingDefault "differential".toList k := by decide +kernel
        rw [key k hk hth hx.1 hx.2.1 hx.2.2]
        rw [settingDefault, if_neg hx.2.2, if_neg hx.1, if_neg hx.2.1, if_neg hth, settingDefault, if_neg hx.2.2, if_neg hx.1,
          if_neg hx.2.1, if_neg hth]

/-- full presentation names select themselves (with the usual case folding) -/
theorem C59_presentation (env : SetEnv) (hl : env.lower = Char.toLower) (args : Args) (p : List Char) (hp : p ∈ presentationNames)
    (ha : args "presentation".toList = some (.str p)) : ∀ q, Presents env args q ↔ q = p := by
  have key : ∀ q ∈ presentationNames, Plain41 q ∧ ∀ r ∈ presentationNames, (q.map Char.toLower).Sublist (r.map Char.toLower) → r = q := by
    decide +kernel
  obtain ⟨hpl, hu⟩ := key p hp
  intro q
  constructor
  · rintro (⟨h, _⟩ | ⟨v, hv, _, _, _, h⟩)
    · rw [ha] at h; cases h
    · rw [ha] at hv
      cases hv
      exact (h p hp (abbreviates_self _ _ _ rfl)).symm
  · rintro rfl
    refine Or.inr ⟨q, ha, hpl.wellFormed, hp, abbreviates_self _ _ _ rfl, fun r hr h => ?_⟩
    rw [hl, abbreviates_plain hpl] at h
    exact hu r hr h

/-- surroundings for examples: one chronology system, one directory `plots` -/
def exEnv : SetEnv :=
  { classes := .ascii, lower := Char.toLower, isdir := fun s => s = "plots".toList, normpath := fun s => s.dropLast,
    systems := [⟨"Moon, Neukum (1983)".toList, "c".toList, "p".toList, "Moon".toList⟩,
      ⟨"Mars, Hartmann (2005)".toList, "c2".toList, "h".toList, "Mars".toList⟩],
    equilNames := [], epochNames := [], chron := fun _ => .ok (), equil := fun _ => .ok (), epoch := fun _ => .ok (),
    prod := fun p => .ok (if p = "h".toList then some (.pair (-2) 3, some (.pair (-7) 4)) else none) }

/-- options given as a list -/
def exArgs (l : List (String × SVal)) : Args := fun k => dictGet (l.map (fun x => (x.1.toList, x.2))) k

/-- a result, and what it holds for some keys -/
def getAll (r : Except Exc SDict) (ks : List String) : Except Exc (List (Option SVal)) :=
  r.map (fun c => ks.map (fun k => dictGet c k.toList))

/-- a sequence plot with its own x range; legend and y range are the defaults of the presentation -/
example : getAll (constructSettings exEnv (exArgs [("presentation", .str "seq".toList), ("xrange", .strs ["3".toList, "1".toList])]))
    ["presentation", "xrange", "yrange", "legend", "text_halo"] =
    .ok [some (.str "sequence".toList), some (.strs ["3".toList, "1".toList]), some (.pair 0 0), some (.str "A".toList), some (.num 0)] := by
  decide +kernel

/-- **C59** fails for the text halo: `-text_halo 0` on a differential plot gives 1. -/
theorem C59_halo_counterexample : ∃ (env : SetEnv) (args : Args) (c : SDict), args "text_halo".toList = some (.num 0) ∧
    constructSettings env args = .ok c ∧ dictGet c "text_halo".toList = some (.num 1) := by
  have h : getAll (constructSettings exEnv (exArgs [("text_halo", .num 0)])) ["text_halo"] = .ok [some (.num 1)] := by decide +kernel
  cases hc : constructSettings exEnv (exArgs [("text_halo", .num 0)]) with
  | error e => rw [hc] at h; cases h
  | ok c =>
    rw [hc] at h
    refine ⟨exEnv, _, c, by decide +kernel, hc, ?_⟩
    simpa [getAll, Except.map] using h

/-- **C59** fails for the axis ranges of a Hartmann plot: they are replaced by those of the production function. -/
theorem C59_hartmann_counterexample : ∃ (env : SetEnv) (args : Args) (c : SDict),
    args "xrange".toList = some (.strs ["-1".toList, "2".toList]) ∧
    constructSettings env args = .ok c ∧ dictGet c "xrange".toList = some (.pair (-2) 3) := by
  have h : getAll (constructSettings exEnv (exArgs [("xrange", .strs ["-1".toList, "2".toList]), ("presentation", .str "Hart".toList),
    ("chronology_system", .str "Mars".toList)])) ["xrange"] = .ok [some (.pair (-2) 3)] := by decide +kernel
  cases hc : constructSettings exEnv (exArgs [("xrange", .strs ["-1".toList, "2".toList]), ("presentation", .str "Hart".toList),
    ("chronology_system", .str "Mars".toList)]) with
  | error e => rw [hc] at h; cases h
  | ok c =>
    rw [hc] at h
    refine ⟨exEnv, _, c, by decide +kernel, hc, ?_⟩
    simpa [getAll, Except.map] using h

/-- **C59, axis ranges of a Hartmann plot**: those of the production function if it has ranges for both axes, otherwise -3.15 to 2.56 and -8 to 5;
with a range for the x axis only there is no plot. -/
theorem C59_hartmann (env : SetEnv) (args : Args) (c : SDict) (h : constructSettings env args = .ok c)
    (hp : dictGet c "presentation".toList = some (.str "Hartmann".toList)) :
    ∃ name cs, dictGet c "chronology_system".toList = some (.str name) ∧ env.systems.find? (fun e => e.name = name) = some cs ∧
      ((∃ x y, env.prod cs.pf = .ok (some (x, some y)) ∧ dictGet c "xrange".toList = some x ∧ dictGet c "yrange".toList = some y) ∨
        env.prod cs.pf = .ok none ∧ dictGet c "xrange".toList = some (.pair (-3.15) 2.56) ∧ dictGet c "yrange".toList = some (.pair (-8) 5)) := by
  obtain ⟨q, hq, hq', -⟩ := C59_settings_partial env args c h
  obtain rfl : q = "Hartmann".toList := by
    rw [hp] at hq'
    injection hq' with e
    injection e with e
    exact e.symm
  obtain ⟨p, c1, c2, c3, range0, range, hp', h1, h2, h3, h4, rfl, h5⟩ := settings_ok h
  have hpp : p = "Hartmann".toList := by
    have e : dictGet (finish p range c3) "presentation".toList = some (.str p) := by
      rw [finish_get _ _ _ _ (fun _ => by decide) (by decide), h4 _ (by decide)]
      have : dictGet c2 "presentation".toList = dictGet (presentationDefaults p c1) "presentation".toList :=
        settingSteps_presentation _ h2
      rw [this, presentationDefaults_get _ _ _ (by decide) (by decide) (by decide), h1, if_pos rfl]
    rw [hp] at e
    injection e with e
    injection e with e
    exact e.symm
  subst hpp
  have hr : dictGet (finish "Hartmann".toList range c3) "xrange".toList =
        some (range.getD (.pair (-3.15) 2.56, .pair (-8) 5)).1 ∧
      dictGet (finish "Hartmann".toList range c3) "yrange".toList = some (range.getD (.pair (-3.15) 2.56, .pair (-8) 5)).2 := by
    have hd : ((dictGet defaultX "Hartmann".toList).getD .none, (dictGet defaultY "Hartmann".toList).getD .none) =
        (SVal.pair (-3.15) 2.56, SVal.pair (-8) 5) := by decide +kernel
    unfold finish haloStep hartmannRange
    rw [if_pos rfl, hd]
    constructor
    · split
      · rw [dictGet_set, if_neg (by decide), dictGet_set, if_neg (by decide), dictGet_set, if_pos rfl]
      · rw [dictGet_set, if_neg (by decide), dictGet_set, if_pos rfl]
    · split
      · rw [dictGet_set, if_neg (by decide), dictGet_set, if_pos rfl]
      · rw [dictGet_set, if_pos rfl]
  obtain ⟨name, hn, h3⟩ := bind_ok h3
  have hname : dictGet c2 "chronology_system".toList = some (.str name) := by
    unfold getStr at hn
    split at hn
    · rename_i s hs; cases hn; exact hs
    all_goals cases hn
  have hname' : dictGet (finish "Hartmann".toList range c3) "chronology_system".toList = some (.str name) := by
    rw [finish_get _ _ _ _ (fun _ => by decide) (by decide), h4 _ (by decide), hname]
  split at h3
  · cases h3
  · rename_i cs hcs
    refine ⟨name, cs, hname', hcs, ?_⟩
    obtain ⟨_, _, h3⟩ := bind_ok h3
    obtain ⟨r, hr0, h3⟩ := bind_ok h3
    obtain ⟨i, _, h3⟩ := bind_ok h3
    have hrr : r = range0 := by
      split at h3
      · cases h3; rfl
      · obtain ⟨a, _, h3⟩ := bind_ok h3
        cases h3; rfl
    subst hrr
    unfold ownRange at h5
    rw [hr.1, hr.2]
    split at h5
    · right
      cases h5
      exact ⟨hr0, rfl, rfl⟩
    · left
      cases h5
      exact ⟨_, _, hr0, rfl, rfl⟩
    · rw [if_pos rfl] at h5
      cases h5

/-- a production function with ranges for both axes -/
example : getAll (constructSettings exEnv (exArgs [("presentation", .str "Hart".toList), ("chronology_system", .str "Mars".toList)]))
    ["presentation", "xrange", "yrange"] = .ok [some (.str "Hartmann".toList), some (.pair (-2) 3), some (.pair (-7) 4)] := by decide +kernel

/-- **C59**, legend: the legend codes reach the plot as given, except that with a buffered fit a legend showing the area
also shows the perimeter. -/
theorem C59_legend (c : SDict) (types : List (List Char)) (l : List Char) (hl : dictGet c "legend".toList = some (.str l)) :
    ∃ c' l', legendStep c types = .ok c' ∧ dictGet c' "legend".toList = some (.str l') ∧
      (∀ x, x ∈ l' ↔ x ∈ l ∨ x = 'p' ∧ 'a' ∈ l ∧ "b-poisson".toList ∈ types) ∧
      ∀ k, k ≠ "legend".toList → dictGet c' k = dictGet c k := by
  have hg : getStr c "legend" = .ok l := by rw [getStr, hl]
  by_cases h : 'a' ∈ l ∧ "b-poisson".toList ∈ types
  · refine ⟨dictSet c "legend".toList (.str (l ++ ['p'])), l ++ ['p'], ?_, by rw [dictGet_set, if_pos rfl], ?_, ?_⟩
    · rw [legendStep, hg]
      show (if _ then _ else _) = _
      rw [if_pos h]
    · intro x
      rw [List.mem_append, List.mem_singleton]
      exact or_congr_right ⟨fun hx => ⟨hx, h⟩, fun hx => hx.1⟩
    · intro k hk; rw [dictGet_set, if_neg hk]
  · refine ⟨c, l, ?_, hl, ?_, fun k _ => rfl⟩
    · rw [legendStep, hg]
      show (if _ then _ else _) = _
      rw [if_neg h]
    · intro x
      exact ⟨Or.inl, fun hx => hx.resolve_right (fun hx => h hx.2)⟩

/-! ### C58: output name and formats -/

/-- Specification: path, name and extension of a file name. -/
def FileParts (C : Classes) (f p n e : List Char) : Prop :=
  p ++ n ++ e = f ∧ '\n' ∉ f ∧ (p = [] ∨ ∃ c, p.getLast? = some c ∧ Text.nameCh C c ≠ true) ∧ (∀ c ∈ n, Text.nameCh C c = true) ∧
    (e = [] ∨ IsExt C 4 e) ∧ (e = [] → ∀ k ≤ n.length, ¬ IsExt C 4 (n.drop k))

theorem filename_parts {C : Classes} {f p n e : List Char} (h : FileParts C f p n e) :
    Text.filename C f "pn".toList none none 4 = .ok (p ++ n) ∧ Text.filename C f ['e'] none none 4 = .ok e ∧
      Text.filename C f ['n'] none none 4 = .ok n := by
  obtain ⟨rfl, hf, hp, hn, he, hmax⟩ := h
  obtain ⟨t, ht, h1, h2, h3⟩ := reName_search C 4 (by omega) p n e hf hp hn he hmax
  refine ⟨?_, ?_, ?_⟩
  · simp only [Text.filename, ht, h1, h2, h3, Option.getD_some]
    show Except.ok (p ++ (n ++ [])) = _
    rw [List.append_nil]
  · simp only [Text.filename, ht, h1, h2, h3, Option.getD_some]
    show Except.ok (e ++ []) = _
    rw [List.append_nil]
  · simp only [Text.filename, ht, h1, h2, h3, Option.getD_some]
    show Except.ok (n ++ []) = _
    rw [List.append_nil]

theorem fileParts_exist (C : Classes) (f : List Char) (hf : '\n' ∉ f) : ∃ p n e, FileParts C f p n e := by
  obtain ⟨p, n, e, rfl, hp, hn, he, hmax⟩ := exists_parts C 4 f
  exact ⟨p, n, e, rfl, hf, hp, hn, he, hmax⟩

/-- the options before `out`, between `out` and `format`, and behind -/
def keys1 : List (List Char) :=
  ["input", "include", "lcs", "lpc", "about", "version", "demo", "bins", "convert"].map String.toList
def keys2 : List (List Char) := ["functions_user", "create_desktop_icon", "merge"].map String.toList
def keys3 : List (List Char) :=
  ["chronology_system", "equilibrium", "epochs", "title", "presentation", "xrange",
   "yrange", "isochrons", "legend", "style", "mu", "invert", "text_halo", "transparent", "tight", "print_dimensions",
   "pt_size", "ref_diameter", "sig_figs", "font", "sequence_table", "min_diameter", "n_samples", "plot",
   "randomness_analysis", "trials", "measure", "ra_offset", "select", "ra_show"].map String.toList

/-- what the options `-o` and `-f` do -/
theorem out_format {env : SetEnv} {args : Args} {c : SDict} (h : constructSettings env args = .ok c) :
    ∃ ca cb cd, dictGet ca "out".toList = some .none ∧ dictGet ca "format".toList = some (.strs ["png".toList, "csv".toList]) ∧
      settingStep env args ca "out".toList = .ok cb ∧
      (∃ cc, dictGet cc "format".toList = dictGet cb "format".toList ∧ settingStep env args cc "format".toList = .ok cd) ∧
      dictGet c "out".toList = dictGet cb "out".toList ∧ dictGet c "format".toList = dictGet cd "format".toList := by
  obtain ⟨p, c1, c2, c3, range0, range, hp, h1, h2, h3, h4, rfl, -⟩ := settings_ok h
  have hk : parserKeys = keys1 ++ "out".toList :: (keys2 ++ "format".toList :: keys3) := by decide
  rw [hk, List.foldlM_append] at h2
  obtain ⟨ca, ha, h2⟩ := bind_ok h2
  rw [List.foldlM_cons] at h2
  obtain ⟨cb, hb, h2⟩ := bind_ok h2
  rw [List.foldlM_append] at h2
  obtain ⟨cc, hc, h2⟩ := bind_ok h2
  rw [List.foldlM_cons] at h2
  obtain ⟨cd, hd, h2⟩ := bind_ok h2
  refine ⟨ca, cb, cd, ?_, ?_, hb, ⟨cc, ?_, hd⟩, ?_, ?_⟩
  · rw [settingSteps_frame _ ha _ (by decide) (fun _ => by decide), presentationDefaults_get _ _ _ (by decide) (by decide) (by decide),
      h1, if_neg (by decide)]
    decide +kernel
  · rw [settingSteps_frame _ ha _ (by decide) (fun h => absurd h (by decide)),
      presentationDefaults_get _ _ _ (by decide) (by decide) (by decide), h1, if_neg (by decide)]
    decide +kernel
  · exact settingSteps_frame _ hc _ (by decide) (fun h => absurd h (by decide))
  · rw [finish_get _ _ _ _ (fun _ => by decide) (by decide), h4 _ (by decide),
      settingSteps_frame _ h2 _ (by decide) (fun h => absurd h (by decide)),
      settingStep_frame hd _ (by decide) (fun h => absurd h (by decide)),
      settingSteps_frame _ hc _ (by decide) (fun h => absurd h (by decide))]
  · rw [finish_get _ _ _ _ (fun _ => by decide) (by decide), h4 _ (by decide),
      settingSteps_frame _ h2 _ (by decide) (fun h => absurd h (by decide))]

theorem dropWhile_ext {C : Classes} {e : List Char} (he : e = [] ∨ IsExt C 4 e) (x : List Char) :
    e.dropWhile (· == '.') = x ∧ x ≠ [] ↔ e = '.' :: x := by
  rcases he with rfl | ⟨v, rfl, h1, _, hw⟩
  · constructor
    · rintro ⟨rfl, h⟩; simp at h
    · rintro h; simp at h
  · cases v with
    | nil => simp at h1
    | cons d v =>
      have hd : d ≠ '.' := by rintro rfl; have := hw '.' (by simp); rw [word_dot] at this; cases this
      rw [List.dropWhile_cons_of_pos (by simp), List.dropWhile_cons_of_neg (by simpa using hd)]
      constructor
      · rintro ⟨rfl, _⟩; rfl
      · intro h; cases h; exact ⟨rfl, by simp⟩

theorem applyOut_file {env : SetEnv} {c : SDict} {v p n e : List Char} {l : List (List Char)} (hd : env.isdir v = false)
    (hf : dictGet c "format".toList = some (.strs l)) (hp : FileParts env.classes v p n e) :
    ∃ c', applyOut env c v = .ok c' ∧ dictGet c' "out".toList = some (.str (p ++ n)) ∧
      dictGet c' "format".toList = some (.strs (if e.dropWhile (· == '.') = [] then l else setAdd l (e.dropWhile (· == '.')))) := by
  obtain ⟨h1, h2, _⟩ := filename_parts hp
  have hf' : ∀ o, dictGet (dictSet c "out".toList (.str o)) "format".toList = some (.strs l) := by
    intro o; rw [dictGet_set, if_neg (by decide), hf]
  by_cases hx : e.dropWhile (· == '.') = []
  · refine ⟨dictSet c "out".toList (.str (p ++ n)), ?_, by rw [dictGet_set, if_pos rfl], by rw [hf', if_pos hx]⟩
    rw [applyOut, if_neg (by simp [hd]), h1]
    show ((Text.filename env.classes v ['e'] none none 4) >>= _) = _
    rw [h2]
    show (if _ then _ else _) = _
    rw [if_pos hx]
  · refine ⟨dictSet (dictSet c "out".toList (.str (p ++ n))) "format".toList (.strs (setAdd l (e.dropWhile (· == '.')))), ?_, ?_, ?_⟩
    · rw [applyOut, if_neg (by simp [hd]), h1]
      show ((Text.filename env.classes v ['e'] none none 4) >>= _) = _
      rw [h2]
      show (if _ then _ else _) = _
      rw [if_neg hx, hf']
    · rw [dictGet_set, if_neg (by decide), dictGet_set, if_pos rfl]
    · rw [dictGet_set, if_pos rfl, if_neg hx]

theorem step_out {env : SetEnv} {args : Args} (c : SDict) : settingStep env args c "out".toList =
    match args "out".toList with
    | none => .ok c
    | some (.str s) => applyOut env c s
    | some _ => .error .type := by
  rw [settingStep]
  cases args "out".toList with
  | none => rfl
  | some v =>
    simp only
    rw [if_neg (by decide), if_neg (by decide), if_pos trivial]
    cases v <;> rfl

theorem step_format {env : SetEnv} {args : Args} (c : SDict) : settingStep env args c "format".toList =
    match args "format".toList with
    | none => .ok c
    | some (.strs l) => .ok (dictSet c "format".toList (.strs l.dedup))
    | some _ => .error .type := by
  rw [settingStep]
  cases args "format".toList with
  | none => rfl
  | some v =>
    simp only
    rw [if_neg (by decide), if_neg (by decide), if_neg (by decide), if_pos trivial]
    cases v <;> rfl

theorem setAdd_spec (l : List (List Char)) (hl : l.Nodup) (e : List Char) : (setAdd l e).Nodup ∧ ∀ x, x ∈ setAdd l e ↔ x ∈ l ∨ x = e := by
  rw [setAdd]
  split
  · rename_i h
    exact ⟨hl, fun x => ⟨Or.inl, fun hx => hx.elim id (fun hx => hx ▸ h)⟩⟩
  · rename_i h
    refine ⟨?_, fun x => by simp⟩
    rw [List.nodup_append]
    exact ⟨hl, by simp, by intro a ha b hb; rw [List.mem_singleton] at hb; subst hb; rintro rfl; exact h ha⟩

/-- **C58, options.** After the options are read: without `-o` no name is set; a file name is kept without its extension;
a directory is kept.  The formats are those given with `-f`; without `-f` they are png, csv and the extension of `-o`.
(Missing: with `-f` the extension of `-o` is lost.) -/
theorem C58_options_partial (env : SetEnv) (args : Args) (c : SDict) (h : constructSettings env args = .ok c) :
    (args "out".toList = none → dictGet c "out".toList = some .none) ∧
    (∀ v p n e, args "out".toList = some (.str v) → env.isdir v = false → FileParts env.classes v p n e →
      dictGet c "out".toList = some (.str (p ++ n))) ∧
    (∀ v, args "out".toList = some (.str v) → env.isdir v = true → dictGet c "out".toList = some (.str (env.normpath (v ++ ['/'])))) ∧
    ((∀ v, args "out".toList = some (.str v) → '\n' ∉ v) → ∃ l, dictGet c "format".toList = some (.strs l) ∧ l.Nodup ∧
      (∀ fs, args "format".toList = some (.strs fs) → ∀ x, x ∈ l ↔ x ∈ fs) ∧
      (args "format".toList = none → ∀ x, x ∈ l ↔ x = "png".toList ∨ x = "csv".toList ∨
        ∃ v p n, args "out".toList = some (.str v) ∧ env.isdir v = false ∧ FileParts env.classes v p n ('.' :: x))) := by
  obtain ⟨ca, cb, cd, ha, hfa, hb, ⟨cc, hcc, hd⟩, ho, hf⟩ := out_format h
  rw [step_out] at hb
  rw [step_format] at hd
  have hdn : ["png".toList, "csv".toList].Nodup := by decide
  refine ⟨?_, ?_, ?_, ?_⟩
  · intro hn
    rw [hn] at hb
    cases hb
    rw [ho, ha]
  · intro v p n e hv hdir hp
    rw [hv] at hb
    obtain ⟨c', h1, h2, _⟩ := applyOut_file hdir hfa hp
    simp only [h1, Except.ok.injEq] at hb
    subst hb
    rw [ho, h2]
  · intro v hv hdir
    rw [hv] at hb
    simp only [applyOut, if_pos hdir, Except.ok.injEq] at hb
    subst hb
    rw [ho, dictGet_set, if_pos rfl]
  · intro hnl
    -- the formats after `-o`
    have key : ∃ l, dictGet cb "format".toList = some (.strs l) ∧ l.Nodup ∧ ∀ x, x ∈ l ↔ x = "png".toList ∨ x = "csv".toList ∨
        ∃ v p n, args "out".toList = some (.str v) ∧ env.isdir v = false ∧ FileParts env.classes v p n ('.' :: x) := by
      split at hb
      · rename_i hn
        cases hb
        refine ⟨_, hfa, hdn, ?_⟩
        intro x
        constructor
        · intro hx; simp only [List.mem_cons, List.not_mem_nil, or_false] at hx; tauto
        · rintro (hx | hx | ⟨v', p, n, h1, _⟩)
          · simp [hx]
          · simp [hx]
          · rw [hn] at h1; cases h1
      · rename_i v hv
        by_cases hdir : env.isdir v = true
        · simp only [applyOut, if_pos hdir, Except.ok.injEq] at hb
          subst hb
          refine ⟨["png".toList, "csv".toList], by rw [dictGet_set, if_neg (by decide), hfa], hdn, ?_⟩
          intro x
          constructor
          · intro hx; simp only [List.mem_cons, List.not_mem_nil, or_false] at hx; tauto
          · rintro (hx | hx | ⟨v', p, n, h1, h2, _⟩)
            · simp [hx]
            · simp [hx]
            · rw [hv] at h1; cases h1; rw [hdir] at h2; cases h2
        · rw [Bool.not_eq_true] at hdir
          obtain ⟨p, n, e, hp⟩ := fileParts_exist env.classes v (hnl v hv)
          obtain ⟨c', h1, _, h3⟩ := applyOut_file hdir hfa hp
          simp only [h1, Except.ok.injEq] at hb
          subst hb
          refine ⟨_, h3, ?_, ?_⟩
          · split
            · exact hdn
            · exact (setAdd_spec _ hdn _).1
          · intro x
            have hiff : (∃ v p n, args "out".toList = some (.str v) ∧ env.isdir v = false ∧ FileParts env.classes v p n ('.' :: x)) ↔
                e = '.' :: x := by
              constructor
              · rintro ⟨v', p', n', h1, _, h2⟩
                rw [hv] at h1; cases h1
                have e1 := (filename_parts hp).2.1
                rw [(filename_parts h2).2.1] at e1
                cases e1; rfl
              · rintro rfl; exact ⟨v, p, n, hv, hdir, hp⟩
            rw [hiff, ← dropWhile_ext hp.2.2.2.2.1]
            split
            · rename_i hx
              rw [hx]
              constructor
              · intro hx; simp only [List.mem_cons, List.not_mem_nil, or_false] at hx; tauto
              · rintro (hx | hx | ⟨h1, h2⟩)
                · simp [hx]
                · simp [hx]
                · exact absurd h1.symm h2
            · rename_i hx
              rw [(setAdd_spec _ hdn _).2]
              simp only [List.mem_cons, List.not_mem_nil, or_false]
              constructor
              · rintro ((h1 | h1) | rfl)
                · exact Or.inl h1
                · exact Or.inr (Or.inl h1)
                · exact Or.inr (Or.inr ⟨rfl, hx⟩)
              · rintro (h1 | h1 | ⟨h1, _⟩)
                · exact Or.inl (Or.inl h1)
                · exact Or.inl (Or.inr h1)
                · exact Or.inr h1.symm
      · cases hb
    obtain ⟨l, h1, h2, h3⟩ := key
    split at hd
    · rename_i hn
      cases hd
      refine ⟨l, by rw [hf, hcc, h1], h2, ?_, fun _ => h3⟩
      intro fs hfs; rw [hn] at hfs; cases hfs
    · rename_i fs hfs
      cases hd
      refine ⟨fs.dedup, by rw [hf, dictGet_set, if_pos rfl], List.nodup_dedup _, ?_, ?_⟩
      · intro fs' hfs' x
        rw [hfs] at hfs'; cases hfs'
        exact List.mem_dedup
      · intro hn; rw [hfs] at hn; cases hn
    · cases hd

/-- `-o out/fig.v2.pdf` -/
example : getAll (constructSettings exEnv (exArgs [("out", .str "out/fig.v2.pdf".toList)])) ["out", "format"] =
    .ok [some (.str "out/fig.v2".toList), some (.strs ["png".toList, "csv".toList, "pdf".toList])] := by decide +kernel

/-- **C58** fails for `-o x.pdf -f png`: no pdf is written. -/
theorem C58_format_counterexample : ∃ (env : SetEnv) (args : Args) (c : SDict), args "out".toList = some (.str "x.pdf".toList) ∧
    args "format".toList = some (.strs ["png".toList]) ∧
    constructSettings env args = .ok c ∧ dictGet c "format".toList = some (.strs ["png".toList]) := by
  have h : getAll (constructSettings exEnv (exArgs [("out", .str "x.pdf".toList), ("format", .strs ["png".toList])])) ["format"] =
    .ok [some (.strs ["png".toList])] := by decide +kernel
  cases hc : constructSettings exEnv (exArgs [("out", .str "x.pdf".toList), ("format", .strs ["png".toList])]) with
  | error e => rw [hc] at h; cases h
  | ok c =>
    rw [hc] at h
    refine ⟨exEnv, _, c, by decide +kernel, by decide +kernel, hc, ?_⟩
    simpa [getAll, Except.map] using h

/-- **C58** fails for directories: with `-o` naming an existing directory no output name is ever set. -/
theorem C58_directory_counterexample (env : SetEnv) (args : Args) (c : SDict) (h : constructSettings env args = .ok c)
    (v : List Char) (hv : args "out".toList = some (.str v)) (h1 : env.isdir v = true)
    (h2 : env.isdir (env.normpath (v ++ ['/'])) = true) (input : Option (List Char)) (minD : List Char)
    (sources : List (List Char)) (c' : SDict) : setDefaultName env input minD sources c ≠ .ok c' := by
  intro hc
  obtain ⟨p, _, hc⟩ := bind_ok hc
  obtain ⟨s, _, hc⟩ := bind_ok hc
  obtain ⟨d, _, hc⟩ := bind_ok hc
  rw [(C58_options_partial env args c h).2.2.1 v hv h1] at hc
  simp only [h2, if_true] at hc
  cases hc

example : (constructSettings exEnv (exArgs [("out", .str "plots".toList)]) >>= setDefaultName exEnv none [] []) = .error .name := by
  decide +kernel

/-! ### default output names -/

theorem strLe_total (a b : List Char) : strLe a b = true ∨ strLe b a = true := by
  induction a generalizing b with
  | nil => left; rfl
  | cons c s ih =>
    cases b with
    | nil => right; rfl
    | cons d t =>
      rw [strLe, strLe]
      rcases lt_trichotomy c d with h | rfl | h
      · left; rw [if_pos h]
      · simpa using ih t
      · right; rw [if_pos h]

theorem strLe_trans {a b c : List Char} (h1 : strLe a b = true) (h2 : strLe b c = true) : strLe a c = true := by
  induction a generalizing b c with
  | nil => rfl
  | cons x s ih =>
    cases b with
    | nil => cases h1
    | cons y t =>
      cases c with
      | nil => cases h2
      | cons z u =>
        rw [strLe] at h1 h2 ⊢
        rcases lt_trichotomy x y with hxy | rfl | hxy
        · rcases lt_trichotomy y z with hyz | rfl | hyz
          · rw [if_pos (hxy.trans hyz)]
          · rw [if_pos hxy]
          · rw [if_neg (not_lt.2 hyz.le), if_pos hyz] at h2; cases h2
        · rcases lt_trichotomy x z with hyz | rfl | hyz
          · rw [if_pos hyz]
          · rw [if_neg (lt_irrefl _), if_neg (lt_irrefl _)] at h1 h2 ⊢
            exact ih h1 h2
          · rw [if_neg (not_lt.2 hyz.le), if_pos hyz] at h2; cases h2
        · rw [if_neg (not_lt.2 hxy.le), if_pos hxy] at h1; cases h1

theorem strLe_antisymm {a b : List Char} (h1 : strLe a b = true) (h2 : strLe b a = true) : a = b := by
  induction a generalizing b with
  | nil =>
    cases b with
    | nil => rfl
    | cons => cases h2
  | cons x s ih =>
    cases b with
    | nil => cases h1
    | cons y t =>
      rw [strLe] at h1 h2
      rcases lt_trichotomy x y with hxy | rfl | hxy
      · rw [if_neg (not_lt.2 hxy.le), if_pos hxy] at h2; cases h2
      · rw [if_neg (lt_irrefl _), if_neg (lt_irrefl _)] at h1 h2
        rw [ih h1 h2]
      · rw [if_neg (not_lt.2 hxy.le), if_pos hxy] at h1; cases h1

/-- nothing is removed where the word does not occur -/
theorem removeCrater_none (n : ℕ) : ∀ s : List Char, ¬ "CRATER".toList <:+: s → removeCrater n s = s := by
  induction n with
  | zero => intro s _; rfl
  | succ n ih =>
    intro s h
    have hd : dropCrater s = none := by
      rw [dropCrater]
      have h1 : ¬ "_CRATER".toList <+: s := fun hp => h ((List.infix_cons (a := '_') (List.infix_refl "CRATER".toList)).trans hp.isInfix)
      have h2 : ¬ "CRATER".toList <+: s := fun hp => h hp.isInfix
      rw [if_neg h1, if_neg h2]
      rfl
    cases s with
    | nil => simp only [removeCrater, hd]
    | cons c t =>
      simp only [removeCrater, hd]
      rw [ih t (fun hi => h (List.infix_cons hi))]

/-- Specification: letters, digits and underscores only. -/
def lettersDigits (s : List Char) : List Char := s.filter (fun c => c.isAlphanum || c == '_')

theorem plainName_eq (s : List Char) : plainName s = lettersDigits s := by
  rw [plainName, lettersDigits]
  congr 1
  funext c
  simp only [Char.isAlphanum, Char.isAlpha, Char.isUpper, Char.isLower, Char.isDigit, Char.le_def]
  rw [Bool.or_comm (_ && _) (_ && _)]
  simp only [Bool.decide_and, ge_iff_le]

theorem names_ok (C : Classes) (l : List (List Char)) (h : ∀ s ∈ l, '\n' ∉ s) :
    ∃ ns, l.mapM (fun s => Text.filename C s ['n'] none none 4) = .ok ns ∧
      ∀ x, x ∈ ns ↔ ∃ s ∈ l, ∃ p n e, FileParts C s p n e ∧ x = n := by
  induction l with
  | nil => exact ⟨[], rfl, by simp⟩
  | cons s l ih =>
    obtain ⟨ns, h1, h2⟩ := ih (fun t ht => h t (by simp [ht]))
    obtain ⟨p, n, e, hp⟩ := fileParts_exist C s (h s (by simp))
    refine ⟨n :: ns, ?_, ?_⟩
    · rw [List.mapM_cons, (filename_parts hp).2.2, h1]
      rfl
    · intro x
      rw [List.mem_cons, h2]
      constructor
      · rintro (rfl | ⟨t, ht, hx⟩)
        · exact ⟨s, by simp, p, x, e, hp, rfl⟩
        · exact ⟨t, by simp [ht], hx⟩
      · rintro ⟨t, ht, p', n', e', hp', rfl⟩
        rcases List.mem_cons.1 ht with rfl | ht
        · left
          have e1 := (filename_parts hp).2.2
          rw [(filename_parts hp').2.2] at e1
          cases e1; rfl
        · exact Or.inr ⟨t, ht, p', x, e', hp', rfl⟩

/-- **C58, default name.** Without `-o` the name is that of the `-i` file without extension; otherwise for chronology, rate and
uncertainty plots it is built from letters and digits of the chronology system, and for other plots from the names of the
sources: each once, in alphabetical order, joined by underscores (where the word CRATER does not occur), or `out` without
sources; the kind of plot is added except for size-frequency and sequence plots. -/
theorem C58_default (env : SetEnv) (p system minD : List Char) (sources : List (List Char)) (hnl : ∀ s ∈ sources, '\n' ∉ s) :
    (∀ f p' n e, FileParts env.classes f p' n e → defaultName env (some f) p system minD sources = .ok (p' ++ n)) ∧
    ∃ base, defaultName env none p system minD sources =
        .ok (base ++ if p ∈ ["chronology", "rate", "uncertainty", "map", "m2cnd", "sdaa"].map String.toList then '_' :: p else []) ∧
      (p = "chronology".toList ∨ p = "rate".toList → base = lettersDigits system) ∧
      (p = "uncertainty".toList → base = lettersDigits system ++ '_' :: minD) ∧
      (p ∉ ["chronology", "rate", "uncertainty"].map String.toList → sources = [] → base = "out".toList) ∧
      (p ∉ ["chronology", "rate", "uncertainty"].map String.toList → sources ≠ [] → ∃ ns : List (List Char),
        ns.Nodup ∧ ns.Pairwise (fun a b => strLe a b = true) ∧
        (∀ x, x ∈ ns ↔ ∃ s ∈ sources, ∃ p n e, FileParts env.classes s p n e ∧ x = n) ∧
        (¬ "CRATER".toList <:+: (ns.intersperse ['_']).flatten → base = (ns.intersperse ['_']).flatten)) := by
  refine ⟨fun f p' n e hp => (filename_parts hp).1, ?_⟩
  obtain ⟨ns, h1, h2⟩ := names_ok env.classes sources hnl
  by_cases hc : p ∈ ["chronology", "rate", "uncertainty"].map String.toList
  · refine ⟨plainName system ++ if p = "uncertainty".toList then '_' :: minD else [], ?_, ?_, ?_, fun h => absurd hc h, fun h => absurd hc h⟩
    · rw [defaultName, if_pos hc]
      rfl
    · rintro (rfl | rfl)
      · rw [if_neg (by decide), List.append_nil, plainName_eq]
      · rw [if_neg (by decide), List.append_nil, plainName_eq]
    · rintro rfl
      rw [if_pos rfl, plainName_eq]
  · have hun : p ≠ "chronology".toList ∧ p ≠ "rate".toList ∧ p ≠ "uncertainty".toList := by
      refine ⟨?_, ?_, ?_⟩ <;> (rintro rfl; exact hc (by decide))
    let j := if sources = [] then "out".toList else joinWith ['_'] (ns.dedup.insertionSort (fun a b => strLe a b))
    refine ⟨removeCrater (j.length + 1) j, ?_, ?_, ?_, ?_, ?_⟩
    · rw [defaultName, if_neg hc, h1]
      rfl
    · rintro (h | h)
      · exact absurd h hun.1
      · exact absurd h hun.2.1
    · intro h; exact absurd h hun.2.2
    · intro _ h
      have : j = "out".toList := if_pos h
      rw [this]
      decide
    · intro _ h
      have hj : j = joinWith ['_'] (ns.dedup.insertionSort (fun a b => strLe a b)) := if_neg h
      have hperm := List.perm_insertionSort (fun a b : List Char => strLe a b) ns.dedup
      have : Std.Total (fun a b : List Char => strLe a b = true) := ⟨strLe_total⟩
      have : IsTrans (List Char) (fun a b => strLe a b = true) := ⟨fun _ _ _ => strLe_trans⟩
      refine ⟨ns.dedup.insertionSort (fun a b => strLe a b), hperm.nodup_iff.2 (List.nodup_dedup _),
        List.pairwise_insertionSort _ _, ?_, ?_⟩
      · intro x
        rw [hperm.mem_iff, List.mem_dedup, h2]
      · intro hcr
        rw [hj]
        exact removeCrater_none _ _ hcr

example : defaultName exEnv none "differential".toList [] [] ["a/Pickering.scc".toList, "b/Alba.diam".toList, "Pickering.stat".toList] =
    .ok "Alba_Pickering".toList ∧
    defaultName exEnv none "map".toList [] [] ["gis/CRATER_Mare.shp".toList] = .ok "Mare_map".toList ∧
    defaultName exEnv none "rate".toList "Moon, Neukum (1983)".toList [] [] = .ok "MoonNeukum1983_rate".toList := by decide +kernel

/-- **C58.** The default name depends only on which sources are plotted, not on their order or number. -/
theorem C58_order (env : SetEnv) (p system minD : List Char) (l l' : List (List Char)) (hnl : ∀ s ∈ l, '\n' ∉ s)
    (h : ∀ s, s ∈ l ↔ s ∈ l') : defaultName env none p system minD l = defaultName env none p system minD l' := by
  obtain ⟨ns, h1, h2⟩ := names_ok env.classes l hnl
  obtain ⟨ns', h1', h2'⟩ := names_ok env.classes l' (fun s hs => hnl s ((h s).2 hs))
  have hsort : ns.dedup.insertionSort (fun a b => strLe a b) = ns'.dedup.insertionSort (fun a b => strLe a b) := by
    have p1 := List.perm_insertionSort (fun a b : List Char => strLe a b) ns.dedup
    have p2 := List.perm_insertionSort (fun a b : List Char => strLe a b) ns'.dedup
    have p3 : ns.dedup.Perm ns'.dedup := by
      rw [List.perm_ext_iff_of_nodup (List.nodup_dedup _) (List.nodup_dedup _)]
      intro x
      rw [List.mem_dedup, List.mem_dedup, h2, h2']
      constructor
      · rintro ⟨s, hs, hx⟩; exact ⟨s, (h s).1 hs, hx⟩
      · rintro ⟨s, hs, hx⟩; exact ⟨s, (h s).2 hs, hx⟩
    have : Std.Total (fun a b : List Char => strLe a b = true) := ⟨strLe_total⟩
    have : IsTrans (List Char) (fun a b => strLe a b = true) := ⟨fun _ _ _ => strLe_trans⟩
    exact List.Perm.eq_of_pairwise (le := fun a b => strLe a b = true) (fun a b _ _ => strLe_antisymm)
      (List.pairwise_insertionSort _ _) (List.pairwise_insertionSort _ _) (p1.trans (p3.trans p2.symm))
  have hnil : l = [] ↔ l' = [] := by
    simp only [List.eq_nil_iff_forall_not_mem, h]
  simp only [defaultName, h1, h1', bind, Except.bind, hsort, hnil]

/-- the name used: a given file name is not replaced, a missing one is -/
theorem C58_name (env : SetEnv) (input : Option (List Char)) (minD : List Char) (sources : List (List Char)) (c c' : SDict)
    (h : setDefaultName env input minD sources c = .ok c') :
    (∀ o, dictGet c "out".toList = some (.str o) → c' = c) ∧
    (dictGet c "out".toList = some .none → ∃ p system d, dictGet c "presentation".toList = some (.str p) ∧
      dictGet c "chronology_system".toList = some (.str system) ∧ defaultName env input p system minD sources = .ok d ∧
      dictGet c' "out".toList = some (.str d) ∧ ∀ k, k ≠ "out".toList → dictGet c' k = dictGet c k) := by
  have hg : ∀ {k : String} {s : List Char}, getStr c k = .ok s → dictGet c k.toList = some (.str s) := by
    intro k s hk
    rw [getStr] at hk
    split at hk
    · rename_i h; cases hk; exact h
    · cases hk
    · cases hk
  obtain ⟨p, hp, h⟩ := bind_ok h
  obtain ⟨s, hs, h⟩ := bind_ok h
  obtain ⟨d, hd, h⟩ := bind_ok h
  constructor
  · intro o ho
    rw [ho] at h
    simp only at h
    split at h
    · cases h
    · cases h; rfl
  · intro ho
    rw [ho] at h
    cases h
    exact ⟨p, s, d, hg hp, hg hs, hd, by rw [dictGet_set, if_pos rfl], fun k hk => by rw [dictGet_set, if_neg hk]⟩

/-! ### C60: function lookup -/

/-- **C60, definitions.** Among several definitions the first one with exactly the given name is used; a name which does not
occur is an error. -/
theorem C60_lookup_partial {δ : Type} (name : δ → Option (List Char)) (l : List δ) (hl : ∀ e ∈ l, (name e).isSome) (id : List Char) :
    (∀ (i : ℕ) (e : δ), l[i]? = some e → name e = some id → (∀ (j : ℕ) (e' : δ), j < i → l[j]? = some e' → name e' ≠ some id) →
      lookupDef name (.many l) id = .ok e) ∧
    ((∀ e ∈ l, name e ≠ some id) → lookupDef name (.many l) id = .error .value) := by
  have key : ∀ l : List δ, (∀ e ∈ l, (name e).isSome) →
      scanDefs name id l = .ok (l.find? (fun e => name e = some id)) := by
    intro l
    induction l with
    | nil => intro _; rfl
    | cons e l ih =>
      intro hl
      obtain ⟨n, hn⟩ := Option.isSome_iff_exists.1 (hl e (by simp))
      rw [scanDefs, hn]
      simp only
      by_cases h : n = id
      · rw [if_pos h, List.find?_cons_of_pos (by simp [hn, h])]
      · rw [if_neg h, List.find?_cons_of_neg (by simp [hn, h]), ih (fun e he => hl e (by simp [he]))]
  constructor
  · intro i e hi hn hfirst
    have : l.find? (fun e => name e = some id) = some e := by
      rw [List.find?_eq_some_iff_getElem]
      refine ⟨by simpa using hn, i, (List.getElem?_eq_some_iff.1 hi).1, (List.getElem?_eq_some_iff.1 hi).2, ?_⟩
      intro j hj
      simpa using hfirst j _ hj (List.getElem?_eq_getElem _)
    rw [lookupDef, key l hl, this]
    rfl
  · intro h
    have : l.find? (fun e => name e = some id) = none := by
      rw [List.find?_eq_none]
      intro e he
      simpa using h e he
    rw [lookupDef, key l hl, this]
    rfl

example : lookupDef (fun e : List Char × ℕ => some e.1) (.many [("a".toList, 1), ("b".toList, 2), ("b".toList, 3)]) "b".toList =
    .ok ("b".toList, 2) := by decide +kernel

/-- **C60** fails for a source with a single definition: it is not found under its own name. -/
theorem C60_single_counterexample {δ : Type} (name : δ → Option (List Char)) (d : δ) (id : List Char) (_ : name d = some id) :
    lookupDef name (.single d) id = .error .type := rfl

/-- **C60, system.** The chronology and production functions used are those of the first chronology system with the chosen
name; the name is the one whose abbreviation was given with `-cs`, or the default. -/
theorem C60_system (env : SetEnv) (hnl : ∀ s ∈ env.systems, '\n' ∉ s.name) (args : Args) (c : SDict) (h : constructSettings env args = .ok c) :
    ∃ (name : List Char) (i : ℕ) (s : System), dictGet c "chronology_system".toList = some (.str name) ∧
      env.systems[i]? = some s ∧ s.name = name ∧ (∀ (j : ℕ) (s' : System), j < i → env.systems[j]? = some s' → s'.name ≠ name) ∧
      env.chron s.cf = .ok () ∧ (∃ r, env.prod s.pf = .ok r) ∧
      (args "chronology_system".toList = none → name = "Moon, Neukum (1983)".toList) ∧
      (∀ v, args "chronology_system".toList = some (.str v) → ∃ k : ℕ,
        ChosenBy env.lower (env.systems.map System.name) v k ∧ (env.systems.map System.name)[k]? = some name) := by
  obtain ⟨p, c1, c2, c3, range0, range, hp, h1, h2, h3, h4, rfl, -⟩ := settings_ok h
  rw [finish_get _ _ _ _ (fun _ => by decide) (by decide), h4 _ (by decide)]
  obtain ⟨name, hname, h3⟩ := bind_ok h3
  have hg : dictGet c2 "chronology_system".toList = some (.str name) := by
    rw [getStr] at hname
    split at hname
    · rename_i h; cases hname; exact h
    · cases hname
    · cases hname
  split at h3
  · cases h3
  rename_i s hs
  obtain ⟨_, hch, h3⟩ := bind_ok h3
  obtain ⟨r, hpr, h3⟩ := bind_ok h3
  obtain ⟨e1, i, hi, e2, e3⟩ := List.find?_eq_some_iff_getElem.1 hs
  refine ⟨name, i, s, hg, by rw [List.getElem?_eq_getElem hi, e2], by simpa using e1, ?_, hch, ⟨r, hpr⟩, ?_⟩
  · intro j s' hj hs'
    have := e3 j hj
    rw [List.getElem?_eq_getElem (by omega)] at hs'
    cases hs'
    simpa using this
  -- the option
  have hk : parserKeys = (keys1 ++ "out".toList :: keys2 ++ ["format".toList]) ++ "chronology_system".toList :: keys3.drop 1 := by decide
  rw [hk, List.foldlM_append] at h2
  obtain ⟨ca, ha, h2⟩ := bind_ok h2
  rw [List.foldlM_cons] at h2
  obtain ⟨cb, hb, h2⟩ := bind_ok h2
  have g1 : dictGet ca "chronology_system".toList = some (.str "Moon, Neukum (1983)".toList) := by
    rw [settingSteps_frame _ ha _ (by decide) (fun _ => by decide), presentationDefaults_get _ _ _ (by decide) (by decide) (by decide),
      h1, if_neg (by decide)]
    decide +kernel
  have g2 : dictGet cb "chronology_system".toList = some (.str name) := by
    rw [← settingSteps_frame _ h2 _ (by decide) (fun h => absurd h (by decide)), hg]
  constructor
  · intro hn
    rw [settingStep, hn] at hb
    cases hb
    rw [g1] at g2
    cases g2; rfl
  · intro v hv
    rw [settingStep, hv] at hb
    simp only at hb
    rw [if_neg (by decide), if_pos (Or.inl trivial)] at hb
    obtain ⟨k, hk1, hb⟩ := bind_ok hb
    obtain ⟨x, hx, hb⟩ := bind_ok hb
    cases hb
    rw [dictGet_set, if_pos rfl] at g2
    cases g2
    have e : functionNames env "chronology_system".toList = env.systems.map System.name := by
      rw [functionNames, if_pos rfl]
    rw [e] at hk1 hx
    obtain ⟨i, rfl, hi⟩ := (decode_iff env.lower (by
      intro e he
      obtain ⟨s, hs, rfl⟩ := List.mem_map.1 he
      exact hnl s hs) v k).1 hk1
    exact ⟨i, hi, by simpa using pick_ok hx⟩

/-- **C60, body.** The surface area used is that of the body of the chosen system, for the Moon, Mars and Mercury; for a body
whose name is not an abbreviation of one of these it is the default of 10¹² km². -/
theorem C60_body (env : SetEnv) (hl : env.lower = Char.toLower) (args : Args) (c : SDict)
    (h : constructSettings env args = .ok c) :
    ∃ s ∈ env.systems, dictGet c "chronology_system".toList = some (.str s.name) ∧
      (s.body = "Moon".toList → dictGet c "global_area".toList = some (.num 37900000)) ∧
      (s.body = "Mars".toList → dictGet c "global_area".toList = some (.num 144000000)) ∧
      (s.body = "Mercury".toList → dictGet c "global_area".toList = some (.num 74800000)) ∧
      (Plain41 s.body → (∀ e ∈ ["Moon".toList, "Mars".toList, "Mercury".toList], ¬ (s.body.map Char.toLower).Sublist (e.map Char.toLower)) →
        dictGet c "global_area".toList = some (.num 1000000000000)) := by
  obtain ⟨p, c1, c2, c3, range0, range, hp, h1, h2, h3, h4, rfl, -⟩ := settings_ok h
  rw [finish_get _ _ _ _ (fun _ => by decide) (by decide), finish_get _ _ _ _ (fun _ => by decide) (by decide), h4 _ (by decide)]
  have g0 : dictGet c2 "global_area".toList = some (.num 1000000000000) := by
    rw [settingSteps_frame _ h2 _ (by decide) (fun _ => by decide), presentationDefaults_get _ _ _ (by decide) (by decide) (by decide),
      h1, if_neg (by decide)]
    decide +kernel
  obtain ⟨name, hname, h3⟩ := bind_ok h3
  have hg : dictGet c2 "chronology_system".toList = some (.str name) := by
    rw [getStr] at hname
    split at hname
    · rename_i h; cases hname; exact h
    · cases hname
    · cases hname
  split at h3
  · cases h3
  rename_i s hs
  obtain ⟨_, hch, h3⟩ := bind_ok h3
  obtain ⟨r, hpr, h3⟩ := bind_ok h3
  obtain ⟨i, hi, h3⟩ := bind_ok h3
  have hn := List.find?_some hs
  simp only [decide_eq_true_eq] at hn
  refine ⟨s, List.mem_of_find?_eq_some hs, by rw [hg, hn], ?_⟩
  rw [hl] at hi
  have key : ∀ (b : List Char) (k : ℤ) (a : ℚ), k ≠ -1 → decodeAbbreviation Char.toLower planets b false true = .ok k →
      pick surfaceAreas k = .ok a → s.body = b → dictGet c3 "global_area".toList = some (.num a) := by
    intro b k a hk hd hpk hb
    rw [hb, hd] at hi
    cases hi
    rw [if_neg hk, hpk] at h3
    obtain ⟨a', ha', h3⟩ := bind_ok h3
    cases ha'
    cases h3
    rw [dictGet_set, if_pos rfl]
  refine ⟨key _ 0 _ (by decide) (by decide +kernel) rfl, key _ 1 _ (by decide) (by decide +kernel) rfl,
    key _ 2 _ (by decide) (by decide +kernel) rfl, ?_⟩
  intro hpl hno
  have : i = -1 := by
    have hd := (C41_abbreviation Char.toLower planets (by decide) s.body hpl.wellFormed false true).1 (by
      intro e he
      rw [abbreviates_plain hpl]
      exact hno e he)
    rw [hd, if_pos rfl] at hi
    exact (Except.ok.inj hi).symm
  rw [if_pos this] at h3
  cases h3
  exact g0

/-- Vesta is none of the three bodies -/
example : ∀ e ∈ ["Moon".toList, "Mars".toList, "Mercury".toList], ¬ ("Vesta".toList.map Char.toLower).Sublist (e.map Char.toLower) := by
  decide

/-- an unknown system ends the program -/
example : getAll (constructSettings exEnv (exArgs [("chronology_system", .str "Venus".toList)])) [] = .error .system ∧
    getAll (constructSettings exEnv (exArgs [("chronology_system", .str "hart".toList)])) ["chronology_system", "global_area"] =
      .ok [some (.str "Mars, Hartmann (2005)".toList), some (.num 144000000)] := by decide +kernel

/-! ### C74: the files written -/

/-- the files of one requested format: a figure, or with a randomness analysis one figure for each measure, or the table -/
def filesFor (w : WriteJob) (f : List Char) : List (List Char) :=
  if f = "csv".toList then [w.out ++ ".csv".toList]
  else match w.randomness with
    | none => [w.out ++ '.' :: f]
    | some (ms, nSigma) => ms.map (fun m => w.out ++ "-".toList ++ m ++ (if nSigma then "-n_sigma".toList else []) ++ '.' :: f)

/-- **C74.** Except for uncertainty plots, and except for tables of plot sets without ages, exactly the files for the
requested formats are written: for csv the table, for each image format a figure with the output name, or with a randomness
analysis one figure for each measure. -/
theorem C74_files_partial (w : WriteJob) (formats : List (List Char)) (hp : w.presentation ≠ "uncertainty".toList)
    (hf : ∀ f ∈ formats, f ∈ ["png", "tif", "pdf", "svg", "csv"].map String.toList)
    (ha : "csv".toList ∈ formats → w.ages = true) :
    writtenFiles w formats = formats.flatMap (filesFor w) := by
  have key : ∀ (l : List (List Char)) (acc : List (List Char)), (∀ f ∈ l, f ∈ ["png", "tif", "pdf", "svg", "csv"].map String.toList) →
      ("csv".toList ∈ l → w.ages = true) →
      l.foldl (writeStep w) (acc, false) = (acc ++ l.flatMap (filesFor w), false) := by
    intro l
    induction l with
    | nil => intro acc _ _; simp
    | cons f l ih =>
      intro acc hl hl2
      have h1 : writeStep w (acc, false) f = (acc ++ filesFor w f, false) := by
        have hcase := hl f (by simp)
        rw [writeStep, filesFor]
        by_cases him : f ∈ imageFormats
        · have hcsv : f ≠ "csv".toList := by rintro rfl; revert him; decide
          simp only [if_pos him, hp, hcsv, false_and, if_false, computedAfter, Bool.false_or, decide_false, Bool.and_false,
            imageFiles]
          cases w.randomness with
          | none => rfl
          | some x =>
            obtain ⟨ms, ns⟩ := x
            have e : "-".toList = ['-'] := by decide
            simp only [e, List.append_assoc, List.cons_append, List.nil_append]
        · have hcsv : f = "csv".toList := by
            revert him hcase; clear hl hl2; revert f; decide
          subst hcsv
          simp only [if_neg him, hp, ne_eq, not_false_eq_true, hl2 (by simp), and_self, if_true]
          rfl
      rw [List.foldl_cons, h1, ih _ (fun g hg => hl g (List.mem_cons_of_mem _ hg)) (fun h => hl2 (List.mem_cons_of_mem _ h)), List.flatMap_cons,
        List.append_assoc]
  rw [writtenFiles, key formats [] hf ha]
  rfl

example : writtenFiles ⟨"differential".toList, "x".toList, none, true⟩ ["png".toList, "csv".toList] = ["x.png".toList, "x.csv".toList] ∧
    writtenFiles ⟨"differential".toList, "x".toList, some (["m2cnd".toList, "sdaa".toList], true), false⟩ ["png".toList] =
      ["x-m2cnd-n_sigma.png".toList, "x-sdaa-n_sigma.png".toList] := by decide +kernel

/-- **C74** fails for uncertainty plots in two image formats: the second one gets a single file with another name. -/
theorem C74_uncertainty_counterexample : writtenFiles ⟨"uncertainty".toList, "x".toList, none, false⟩ ["png".toList, "pdf".toList] =
    ["x_k.png".toList, "x_err.png".toList, "x_age.png".toList, "x.pdf".toList] := by decide +kernel

/-- **C74** fails for tables: nothing is written if csv is requested for an uncertainty plot, or for plots without ages. -/
theorem C74_table_counterexample (w : WriteJob) (h : w.presentation = "uncertainty".toList ∨ w.ages = false) :
    writtenFiles w ["csv".toList] = [] := by
  have him : "csv".toList ∉ imageFormats := by decide
  simp only [writtenFiles, List.foldl_cons, List.foldl_nil, writeStep, if_neg him]
  rcases h with h | h <;> simp [h]

example : (⟨"uncertainty".toList, "x".toList, none, false⟩ : WriteJob).presentation = "uncertainty".toList := rfl

end Verif.Props
