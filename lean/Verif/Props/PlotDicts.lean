import Verif.Model.PlotDicts
import Verif.Props.Abbrev

/-! C42: carrying over of plot properties; C73: colours and symbols by name. -/

namespace Verif.Props

open Verif.Py Verif.Cli

variable {α : Type}

/-! Specification. -/

/-- entry `i` of the list is the one meant by `v` (without stars and unmatched brackets): of the entries with the characters of `v` in this
order it is the first of the shortest -/
def ChosenBy (lower : Char → Char) (l : List (List Char)) (v : List Char) (i : ℕ) : Prop :=
  WellFormed v ∧ ∃ e, l[i]? = some e ∧ Abbreviates lower v e ∧
    ∀ (j : ℕ) (e' : List Char), l[j]? = some e' → Abbreviates lower v e' → e.length < e'.length ∨ e.length = e'.length ∧ i ≤ j

/-- the properties of a plot -/
def plotKeys : List (List Char) :=
  ["source", "name", "range", "snap", "type", "error_bars", "hide", "colour", "psym", "binning", "age_left", "show_age", "resurf",
   "resurf_showall", "isochron", "offset_age"].map String.toList

/-- the written key `k0` stands for property `k` -/
def Resolves (env : PlotEnv α) (k0 k : List Char) : Prop := ∃ i, ChosenBy env.lower plotKeys k0 i ∧ plotKeys[i]? = some k

/-- `t` is `s` with every `pat` replaced by `rep`, from the left -/
inductive Replaced (pat rep : List Char) : List Char → List Char → Prop
  | none (s : List Char) : ¬ pat <:+: s → Replaced pat rep s s
  | first (a s t : List Char) : ¬ pat <:+: a ++ pat.dropLast → Replaced pat rep s t → Replaced pat rep (a ++ pat ++ s) (a ++ rep ++ t)

/-- `m` is `s` without the characters of `p` at both ends -/
def Trimmed (p : Char → Prop) (s m : List Char) : Prop :=
  ∃ a b, s = a ++ m ++ b ∧ (∀ c ∈ a, p c) ∧ (∀ c ∈ b, p c) ∧ (∀ c ∈ m.head?, ¬ p c) ∧ ∀ c ∈ m.getLast?, ¬ p c

/-- the texts between commas -/
def CommaParts (s : List Char) (parts : List (List Char)) : Prop := parts ≠ [] ∧ (∀ q ∈ parts, ',' ∉ q) ∧ s = join [','] parts

/-- a number sign and six hexadecimal digits (a line feed may follow) -/
def HexColour (v : List Char) : Prop :=
  ∃ h, h.length = 6 ∧ (∀ c ∈ h, c ∈ "0123456789ABCDEFabcdef".toList) ∧ (v = '#' :: h ∨ v = '#' :: h ++ ['\n'])

/-- the properties whose value is kept as it is written -/
def textKeys : List (List Char) :=
  ["name", "snap", "error_bars", "hide", "age_left", "show_age", "resurf", "resurf_showall", "isochron"].map String.toList

/-- the ways of binning -/
def binningNames : List (List Char) := ["pseudo-log", "20/decade", "10/decade", "x2", "root-2", "4th root-2", "none"].map String.toList

/-- the value of property `k` written as `v` -/
def ValueFor (env : PlotEnv α) (k v : List Char) (x : PVal) : Prop :=
  (k ∈ textKeys ∧ x = .str v) ∨
  ((k = "range".toList ∨ k = "offset_age".toList) ∧ ∃ m parts, Trimmed (fun c => c = '[' ∨ c = ']') v m ∧ CommaParts m parts ∧ x = .strs parts) ∨
  (k = "source".toList ∧ ∃ t s, Replaced "%sample%/".toList (env.path ++ "sample/".toList) v t ∧ Trimmed (· = '"') t s ∧ x = .str s) ∨
  (k = "type".toList ∧ ∃ i t, ChosenBy env.lower (["data", "differential-fit", "cumulative-fit", "poisson", "buffered-poisson"].map String.toList) v i ∧
    (["data", "d-fit", "c-fit", "poisson", "b-poisson"].map String.toList)[i]? = some t ∧ x = .str t) ∨
  (k = "binning".toList ∧ ∃ i t, ChosenBy env.lower binningNames v i ∧ binningNames[i]? = some t ∧ x = .str t) ∨
  (k = "colour".toList ∧ (HexColour v ∧ x = .str v ∨ v ≠ [] ∧ v.head? ≠ some '#' ∧ ∃ i, ChosenBy env.lower paletteNames v i ∧ x = .num (i : ℕ))) ∨
  (k = "psym".toList ∧ ((∃ (i : ℕ) (e : List Char × List Char), markers[i]? = some e ∧ e.1 = v ∧ x = .num (i : ℕ)) ∨
    (∀ e ∈ markers, e.1 ≠ v) ∧ ∃ i, ChosenBy env.lower (markers.map Prod.snd) v i ∧ x = .num (i : ℕ)))

/-- `k` is not among the items -/
def NotGiven (env : PlotEnv α) (items : List (List Char × List Char)) (k : List Char) : Prop :=
  ∀ y ∈ items, ¬ Resolves env y.1 k

/-- the last item for `k` has the value `x` -/
def LastGiven (env : PlotEnv α) (items : List (List Char × List Char)) (k : List Char) (x : PVal) : Prop :=
  ∃ a k0 v b, items = a ++ (k0, v) :: b ∧ Resolves env k0 k ∧ ValueFor env k v x ∧ NotGiven env b k

/-- the last value given, or else the default -/
def LastOr (env : PlotEnv α) (dflt : Option PVal) (items : List (List Char × List Char)) (k : List Char) (x : PVal) : Prop :=
  LastGiven env items k x ∨ NotGiven env items k ∧ dflt = some x

/-- the documented defaults -/
def documented : List (List Char × PVal) :=
  [("name".toList, .str []), ("range".toList, .strs ["0".toList, "inf".toList]), ("snap".toList, .num 1), ("error_bars".toList, .num 1),
   ("hide".toList, .num 0), ("colour".toList, .num 0), ("psym".toList, .num 1), ("binning".toList, .str "pseudo-log".toList),
   ("age_left".toList, .num 0), ("show_age".toList, .num 1), ("resurf".toList, .num 0), ("resurf_showall".toList, .num 0),
   ("isochron".toList, .num 0), ("offset_age".toList, .strs ["0".toList, "0".toList]), ("source".toList, .none)]

/-- the documented defaults; the type depends on the presentation -/
def plotDefault (env : PlotEnv α) (k : List Char) : Option PVal :=
  if k = "type".toList then some (.str (if env.sequence then "poisson".toList else "data".toList))
  else (documented.find? (fun y => y.1 == k)).map Prod.snd

/-- the properties which stay the same from plot to plot -/
def carriedKeys : List (List Char) := ["type", "psym", "snap", "isochron", "error_bars", "colour", "binning"].map String.toList

/-- the properties which concern one plot only -/
def ownKeys : List (List Char) :=
  ["name", "range", "hide", "age_left", "show_age", "resurf", "resurf_showall", "offset_age"].map String.toList


theorem bind_ok {ε β γ : Type} {m : Except ε β} {f : β → Except ε γ} {y : γ} (h : (m >>= f) = .ok y) :
    ∃ a, m = .ok a ∧ f a = .ok y := by
  cases m with
  | error e => cases h
  | ok a => exact ⟨a, rfl, h⟩

theorem chosen_unique {lower : Char → Char} {l : List (List Char)} {v : List Char} {i j : ℕ} (hi : ChosenBy lower l v i) (hj : ChosenBy lower l v j) :
    i = j := by
  obtain ⟨_, e, h1, h2, h3⟩ := hi
  obtain ⟨_, f, k1, k2, k3⟩ := hj
  have a := h3 j f k1 k2
  have b := k3 i e h1 h2
  omega

theorem decode_iff (lower : Char → Char) {l : List (List Char)} (hl : ∀ e ∈ l, '\n' ∉ e) (v : List Char) (z : ℤ) :
    decodeAbbreviation lower l v true false = .ok z ↔ ∃ i : ℕ, z = i ∧ ChosenBy lower l v i := by
  by_cases hn : l = []
  · subst hn
    constructor
    · intro h; cases h
    · rintro ⟨i, _, _, e, hi, _⟩; simp at hi
  by_cases hw : WellFormed v
  swap
  · rw [C140_malformed lower l hn v hw]
    constructor
    · intro h; cases h
    · rintro ⟨i, _, h, _⟩; exact absurd h hw
  obtain ⟨h1, _, h3⟩ := C41_abbreviation lower l hl v hw true false
  by_cases he : ∃ e ∈ l, Abbreviates lower v e
  · obtain ⟨i, e, hd, hi, ha, hm⟩ := h3 he (Or.inl rfl)
    have hc : ChosenBy lower l v i := ⟨hw, e, hi, ha, hm⟩
    rw [hd]
    constructor
    · intro h
      exact ⟨i, (Except.ok.inj h).symm, hc⟩
    · rintro ⟨j, rfl, hj⟩
      rw [chosen_unique hj hc]
  · push Not at he
    rw [h1 he]
    constructor
    · intro h; simp at h
    · rintro ⟨j, _, _, e, hj, ha, _⟩
      exact absurd ha (he e (List.mem_of_getElem? hj))

theorem choose_iff (lower : Char → Char) {full short : List (List Char)} (hl : ∀ e ∈ full, '\n' ∉ e) (v t : List Char) :
    choose lower full short v = .ok t ↔ ∃ i, ChosenBy lower full v i ∧ short[i]? = some t := by
  unfold choose
  constructor
  · intro h
    obtain ⟨z, hz, h⟩ := bind_ok h
    obtain ⟨i, rfl, hi⟩ := (decode_iff lower hl v z).1 hz
    refine ⟨i, hi, ?_⟩
    unfold pick at h
    rw [Int.toNat_natCast] at h
    cases hs : short[i]? with
    | none => rw [hs] at h; cases h
    | some y => rw [hs] at h; rw [← Except.ok.inj h]
  · rintro ⟨i, hi, ht⟩
    rw [(decode_iff lower hl v i).2 ⟨i, rfl, hi⟩]
    show pick short (i : ℤ) = _
    unfold pick
    rw [Int.toNat_natCast, ht]

theorem key_iff (env : PlotEnv α) (k0 k : List Char) : itemKey env k0 = .ok k ↔ Resolves env k0 k := by
  unfold itemKey Resolves
  rw [choose_iff _ (by decide +kernel)]
  rfl

theorem replaceFrom_none {pat rep : List Char} (hp : pat ≠ []) (s : List Char) (h : ¬ pat <:+: s) : replaceFrom pat rep 0 s = s := by
  induction s with
  | nil => rfl
  | cons c l ih =>
    rw [replaceFrom, if_neg, ih]
    · exact fun h' => h (h'.trans (List.suffix_cons c l).isInfix)
    · intro h'
      exact h (List.isPrefixOf_iff_prefix.1 h').isInfix

theorem replaceFrom_skip (pat rep s : List Char) : ∀ a : List Char, replaceFrom pat rep a.length (a ++ s) = replaceFrom pat rep 0 s := by
  intro a
  induction a with
  | nil => rfl
  | cons c a ih => rw [List.length_cons, List.cons_append, replaceFrom]; exact ih

theorem replaceFrom_first {pat rep : List Char} (hp : pat ≠ []) (s : List Char) : ∀ a : List Char, ¬ pat <:+: a ++ pat.dropLast →
    replaceFrom pat rep 0 (a ++ pat ++ s) = a ++ rep ++ replaceFrom pat rep 0 s := by
  intro a
  induction a with
  | nil =>
    intro _
    cases pat with
    | nil => exact absurd rfl hp
    | cons c q =>
      rw [List.nil_append, List.cons_append, replaceFrom, if_pos, List.nil_append]
      · congr 1
        rw [List.length_cons, Nat.add_sub_cancel]
        exact replaceFrom_skip _ _ _ _
      · rw [List.isPrefixOf_iff_prefix, ← List.cons_append]
        exact List.prefix_append _ _
  | cons c a ih =>
    intro h
    rw [List.cons_append, List.cons_append, replaceFrom, if_neg, ih]
    · rfl
    · exact fun h' => h (h'.trans (List.suffix_cons c _).isInfix)
    · intro h'
      apply h
      have h2 := List.isPrefixOf_iff_prefix.1 h'
      have e : c :: (a ++ pat ++ s) = (c :: a ++ pat.dropLast) ++ ([pat.getLast hp] ++ s) := by
        conv_lhs => rw [← List.dropLast_append_getLast hp]
        simp
      rw [e] at h2
      have h3 := List.prefix_of_prefix_length_le h2 (List.prefix_append _ _) (by
        rw [List.length_append, List.length_dropLast, List.length_cons]
        omega)
      exact h3.isInfix

theorem replaced_iff {pat rep : List Char} (hp : pat ≠ []) (s t : List Char) : Replaced pat rep s t ↔ replace pat rep s = t := by
  constructor
  · intro h
    induction h with
    | none s h => exact replaceFrom_none hp s h
    | first a s t h _ ih => unfold replace at *; rw [replaceFrom_first hp s a h, ih]
  · rintro rfl
    induction hn : s.length using Nat.strong_induction_on generalizing s with
    | _ n ih =>
      by_cases hin : pat <:+: s
      · classical
        have hex : ∃ k, pat <+: s.drop k := by
          obtain ⟨a, b, rfl⟩ := hin
          exact ⟨a.length, by rw [List.append_assoc, List.drop_left]; exact List.prefix_append _ _⟩
        obtain ⟨k, hk, hmin⟩ : ∃ k, pat <+: s.drop k ∧ ∀ j < k, ¬ pat <+: s.drop j :=
          ⟨Nat.find hex, Nat.find_spec hex, fun j hj => Nat.find_min hex hj⟩
        obtain ⟨r, hr⟩ := hk
        have hs : s = s.take k ++ pat ++ r := by rw [List.append_assoc, hr, List.take_append_drop]
        have hlen : 0 < pat.length := List.length_pos_iff.2 hp
        have hkl : k ≤ s.length := by
          by_contra hc
          rw [List.drop_of_length_le (by omega)] at hr
          have := congrArg List.length hr
          rw [List.length_append, List.length_nil] at this
          omega
        have hno : ¬ pat <:+: s.take k ++ pat.dropLast := by
          rintro ⟨a, b, hab⟩
          have hl := congrArg List.length hab
          simp only [List.length_append, List.length_dropLast, List.length_take] at hl
          have ha : a.length < k := by omega
          apply hmin a.length ha
          have e : s = (s.take k ++ pat.dropLast) ++ ([pat.getLast hp] ++ r) := by
            conv_lhs => rw [hs, ← List.dropLast_append_getLast hp]
            simp
          rw [e, ← hab, List.append_assoc, List.append_assoc, List.drop_left]
          exact List.prefix_append _ _
        rw [hs]
        unfold replace
        rw [replaceFrom_first hp r _ hno]
        refine Replaced.first _ _ _ hno (ih r.length ?_ r rfl)
        rw [← hn, hs]
        simp only [List.length_append]
        omega
      · have := replaceFrom_none (rep := rep) hp s hin
        unfold replace
        rw [this]
        exact .none s hin

theorem strip_ends (p : Char → Bool) (s : List Char) : (∀ c ∈ (strip p s).head?, ¬ p c = true) ∧ ∀ c ∈ (strip p s).getLast?, ¬ p c = true := by
  have h2 : ∀ c ∈ (strip p s).getLast?, ¬ p c = true := by
    intro c hc
    unfold strip rstrip at hc
    by_cases hne : (lstrip p s).rdropWhile p = []
    · rw [hne] at hc; simp at hc
    · rw [List.getLast?_eq_some_getLast hne, Option.mem_some] at hc
      rw [← hc]
      exact List.rdropWhile_last_not p _ hne
  refine ⟨?_, h2⟩
  intro c hc
  have hpre : strip p s <+: lstrip p s := List.rdropWhile_prefix p _
  obtain ⟨t, ht⟩ := hpre
  cases hm : strip p s with
  | nil => rw [hm] at hc; simp at hc
  | cons d m =>
    rw [hm] at hc ht
    rw [List.head?_cons, Option.mem_some] at hc
    subst hc
    have hne : s.dropWhile p ≠ [] := by
      intro h0
      unfold lstrip at ht
      rw [h0] at ht
      simp at ht
    have := List.head_dropWhile_not p hne
    have e : (s.dropWhile p).head hne = d := by
      have : (s.dropWhile p).head? = some d := by
        show (lstrip p s).head? = some d
        rw [← ht]; rfl
      rw [List.head?_eq_some_head hne] at this
      exact Option.some.inj this
    rw [e] at this
    simp [this]

theorem trimmed_iff {p : Char → Bool} {q : Char → Prop} (hpq : ∀ c, p c = true ↔ q c) (s m : List Char) : Trimmed q s m ↔ strip p s = m := by
  constructor
  · rintro ⟨a, b, rfl, h1, h2, h3, h4⟩
    exact strip_eq (fun c hc => (hpq c).2 (h1 c hc)) (fun c hc => (hpq c).2 (h2 c hc))
      (fun c hc => by simpa using mt (hpq c).1 (h3 c hc)) (fun c hc => by simpa using mt (hpq c).1 (h4 c hc))
  · rintro rfl
    obtain ⟨a, b, h, h1, h2⟩ := strip_decomp p s
    obtain ⟨e1, e2⟩ := strip_ends p s
    exact ⟨a, b, h, fun c hc => (hpq c).1 (h1 c hc), fun c hc => (hpq c).1 (h2 c hc), fun c hc => mt (hpq c).2 (e1 c hc),
      fun c hc => mt (hpq c).2 (e2 c hc)⟩

theorem commaParts_iff (s : List Char) (parts : List (List Char)) : CommaParts s parts ↔ split ',' s = parts := by
  constructor
  · rintro ⟨h1, h2, rfl⟩
    exact split_join h1 h2
  · rintro rfl
    exact ⟨split_ne_nil _ _, split_not_mem _ _, (join_split ',' s).symm⟩

theorem isHex_iff (c : Char) : isHex c = true ↔ c ∈ "0123456789ABCDEFabcdef".toList := by
  constructor
  · intro h
    have h' : (48 ≤ c.toNat ∧ c.toNat ≤ 57) ∨ (65 ≤ c.toNat ∧ c.toNat ≤ 70) ∨ (97 ≤ c.toNat ∧ c.toNat ≤ 102) := by
      unfold isHex at h
      simp only [Bool.or_eq_true, Bool.and_eq_true, decide_eq_true_eq] at h
      rcases h with (⟨a, b⟩ | ⟨a, b⟩) | ⟨a, b⟩
      · exact Or.inl ⟨a, b⟩
      · exact Or.inr (Or.inl ⟨a, b⟩)
      · exact Or.inr (Or.inr ⟨a, b⟩)
    have hc : c = Char.ofNat c.toNat := (Char.ofNat_toNat c).symm
    rw [hc]
    generalize c.toNat = n at h'
    rcases h' with ⟨a, b⟩ | ⟨a, b⟩ | ⟨a, b⟩ <;> interval_cases n <;> decide
  · intro h
    have : ∀ c ∈ "0123456789ABCDEFabcdef".toList, isHex c = true := by decide
    exact this c h

theorem hexColour_iff (v : List Char) : HexColour v ↔ isHexColour v = true := by
  constructor
  · rintro ⟨h, hl, hh, rfl | rfl⟩
    · unfold isHexColour
      dsimp only
      rw [List.take_of_length_le (by omega), List.drop_of_length_le (by omega)]
      simp only [beq_self_eq_true, Bool.true_and, Bool.true_or, Bool.and_true, Bool.and_eq_true, hl, List.all_eq_true]
      exact fun c hc => (isHex_iff c).2 (hh c hc)
    · rw [List.cons_append]
      unfold isHexColour
      dsimp only
      rw [List.take_left' hl, List.drop_left' hl]
      simp only [beq_self_eq_true, Bool.true_and, Bool.or_true, Bool.and_true, Bool.and_eq_true, hl, List.all_eq_true]
      exact fun c hc => (isHex_iff c).2 (hh c hc)
  · intro h
    unfold isHexColour at h
    cases v with
    | nil => cases h
    | cons c l =>
      dsimp only at h
      simp only [Bool.and_eq_true, beq_iff_eq, Bool.or_eq_true, List.all_eq_true] at h
      obtain ⟨⟨⟨rfl, h1⟩, h2⟩, h3⟩ := h
      refine ⟨l.take 6, h2, fun c hc => (isHex_iff c).1 (h1 c hc), ?_⟩
      rcases h3 with h3 | h3
      · left; conv_lhs => rw [← List.take_append_drop 6 l, h3, List.append_nil]
      · right; conv_lhs => rw [← List.take_append_drop 6 l, h3]
        rfl

theorem map_ok_iff {ε β γ : Type} {m : Except ε β} {f : β → γ} {y : γ} : m.map f = .ok y ↔ ∃ a, m = .ok a ∧ y = f a := by
  cases m with
  | error e => simp [Except.map]
  | ok a => simp [Except.map, eq_comm]

theorem colour_iff (lower : Char → Char) (v : List Char) (x : PVal) : colourValue lower v = .ok x ↔
    (HexColour v ∧ x = .str v ∨ v ≠ [] ∧ v.head? ≠ some '#' ∧ ∃ i, ChosenBy lower paletteNames v i ∧ x = .num (i : ℕ)) := by
  unfold colourValue
  cases v with
  | nil =>
    constructor
    · intro h; cases h
    · rintro (⟨⟨h, _, _, e | e⟩, _⟩ | ⟨h, _⟩)
      · cases e
      · cases e
      · exact absurd rfl h
  | cons c l =>
    dsimp only
    by_cases hc : c = '#'
    · subst hc
      rw [if_pos rfl]
      by_cases hh : isHexColour ('#' :: l) = true
      · rw [if_pos hh]
        constructor
        · intro h; exact Or.inl ⟨(hexColour_iff _).2 hh, (Except.ok.inj h).symm⟩
        · rintro (⟨_, rfl⟩ | ⟨_, h, _⟩)
          · rfl
          · exact absurd rfl h
      · rw [if_neg hh]
        constructor
        · intro h; cases h
        · rintro (⟨h, _⟩ | ⟨_, h, _⟩)
          · exact absurd ((hexColour_iff _).1 h) hh
          · exact absurd rfl h
    · rw [if_neg hc, map_ok_iff]
      constructor
      · rintro ⟨z, hz, rfl⟩
        obtain ⟨i, rfl, hi⟩ := (decode_iff lower (by decide +kernel) _ z).1 hz
        exact Or.inr ⟨by simp, by simpa using hc, i, hi, rfl⟩
      · rintro (⟨⟨h, _, _, e | e⟩, _⟩ | ⟨_, _, i, hi, rfl⟩)
        · exact absurd (List.cons.inj e).1 hc
        · exact absurd (List.cons.inj e).1 hc
        · exact ⟨i, (decode_iff lower (by decide +kernel) _ _).2 ⟨i, rfl, hi⟩, rfl⟩

theorem psym_iff (lower : Char → Char) (v : List Char) (x : PVal) : psymValue lower v = .ok x ↔
    ((∃ (i : ℕ) (e : List Char × List Char), markers[i]? = some e ∧ e.1 = v ∧ x = .num (i : ℕ)) ∨
    (∀ e ∈ markers, e.1 ≠ v) ∧ ∃ i, ChosenBy lower (markers.map Prod.snd) v i ∧ x = .num (i : ℕ)) := by
  by_cases hv : ∃ e ∈ markers, e.1 = v
  · obtain ⟨e, he, rfl⟩ := hv
    obtain ⟨i, hi⟩ := List.mem_iff_getElem?.1 he
    have hall : ∀ x ∈ markers.zipIdx, psymValue lower x.1.1 = .ok (.num (x.2 : ℕ)) := by
      have : ∀ x ∈ markers.zipIdx, ((markers.map Prod.fst).zipIdx.filter (fun y => y.1 == x.1.1)).map Prod.snd = [x.2] := by decide +kernel
      intro x hx
      unfold psymValue
      rw [this x hx]
    have h1 := hall (e, i) (List.mk_mem_zipIdx_iff_getElem?.2 hi)
    dsimp only at h1
    rw [h1]
    constructor
    · intro h; exact Or.inl ⟨i, e, hi, rfl, (Except.ok.inj h).symm⟩
    · rintro (⟨j, f, hj, hf, rfl⟩ | ⟨h, _⟩)
      · have h2 := hall (f, j) (List.mk_mem_zipIdx_iff_getElem?.2 hj)
        dsimp only at h2
        rw [hf, h1] at h2
        exact h2
      · exact absurd rfl (h e he)
  · push Not at hv
    have hnil : (markers.map Prod.fst).zipIdx.filter (fun x => x.1 == v) = [] := by
      rw [List.filter_eq_nil_iff]
      rintro ⟨a, k⟩ hx
      have := List.mem_of_getElem? (List.mk_mem_zipIdx_iff_getElem?.1 hx)
      obtain ⟨e, he, rfl⟩ := List.mem_map.1 this
      simpa using hv e he
    unfold psymValue
    rw [hnil]
    simp only [List.map_nil]
    rw [map_ok_iff]
    constructor
    · rintro ⟨z, hz, rfl⟩
      obtain ⟨i, rfl, hi⟩ := (decode_iff lower (by decide +kernel) _ z).1 hz
      exact Or.inr ⟨hv, i, hi, rfl⟩
    · rintro (⟨i, e, hi, rfl, _⟩ | ⟨_, i, hi, rfl⟩)
      · exact absurd rfl (hv e (List.mem_of_getElem? hi))
      · exact ⟨i, (decode_iff lower (by decide +kernel) _ _).2 ⟨i, rfl, hi⟩, rfl⟩

theorem value_iff (env : PlotEnv α) {k : List Char} (hk : k ∈ plotKeys) (v : List Char) (x : PVal) :
    itemValue env k v = .ok x ↔ ValueFor env k v x := by
  have hdis : ∀ k ∈ plotKeys, (k ∈ textKeys ∨ k = "range".toList ∨ k = "offset_age".toList ∨ k = "source".toList ∨ k = "type".toList ∨
      k = "binning".toList ∨ k = "colour".toList ∨ k = "psym".toList) := by decide +kernel
  have hkeys : ["name", "snap", "error_bars", "hide", "age_left", "show_age", "resurf", "resurf_showall", "isochron"].map String.toList =
    textKeys := rfl
  unfold itemValue ValueFor
  rw [hkeys]
  have t1 : ∀ k ∈ textKeys, k ≠ "range".toList ∧ k ≠ "offset_age".toList ∧ k ≠ "source".toList ∧ k ≠ "type".toList ∧
      k ≠ "binning".toList ∧ k ≠ "colour".toList ∧ k ≠ "psym".toList := by decide +kernel
  by_cases h1 : k ∈ textKeys
  · obtain ⟨a1, a2, a3, a4, a5, a6, a7⟩ := t1 k h1
    rw [if_pos h1]
    constructor
    · intro h; exact Or.inl ⟨h1, (Except.ok.inj h).symm⟩
    · rintro (⟨_, rfl⟩ | ⟨h | h, _⟩ | ⟨h, _⟩ | ⟨h, _⟩ | ⟨h, _⟩ | ⟨h, _⟩ | ⟨h, _⟩)
      · rfl
      all_goals exact absurd h (by assumption)
  rw [if_neg h1]
  by_cases h2 : k = "range".toList ∨ k = "offset_age".toList
  · rw [if_pos h2]
    have n3 : k ≠ "source".toList ∧ k ≠ "type".toList ∧ k ≠ "binning".toList ∧ k ≠ "colour".toList ∧ k ≠ "psym".toList := by
      rcases h2 with rfl | rfl <;> decide +kernel
    obtain ⟨a3, a4, a5, a6, a7⟩ := n3
    constructor
    · intro h
      exact Or.inr (Or.inl ⟨h2, _, _, (trimmed_iff (p := fun c => c == '[' || c == ']') (by simp) _ _).2 rfl, (commaParts_iff _ _).2 rfl,
        (Except.ok.inj h).symm⟩)
    · rintro (⟨h, _⟩ | ⟨_, m, parts, hm, hp, rfl⟩ | ⟨h, _⟩ | ⟨h, _⟩ | ⟨h, _⟩ | ⟨h, _⟩ | ⟨h, _⟩)
      · exact absurd h h1
      · rw [(trimmed_iff (p := fun c => c == '[' || c == ']') (by simp) _ _).1 hm, (commaParts_iff _ _).1 hp]
      all_goals exact absurd h (by assumption)
  rw [if_neg h2]
  by_cases h3 : k = "source".toList
  · subst h3
    rw [if_pos rfl]
    constructor
    · intro h
      exact Or.inr (Or.inr (Or.inl ⟨rfl, _, _, (replaced_iff (by decide) _ _).2 rfl, (trimmed_iff (p := (· == '"')) (by simp) _ _).2 rfl,
        (Except.ok.inj h).symm⟩))
    · rintro (⟨h, _⟩ | ⟨h, _⟩ | ⟨_, t, s, ht, hs, rfl⟩ | ⟨h, _⟩ | ⟨h, _⟩ | ⟨h, _⟩ | ⟨h, _⟩)
      · exact absurd h h1
      · exact absurd h h2
      · unfold csSource
        rw [(replaced_iff (by decide) _ _).1 ht, (trimmed_iff (p := (· == '"')) (by simp) _ _).1 hs]
      all_goals exact absurd h (by decide +kernel)
  rw [if_neg h3]
  by_cases h4 : k = "type".toList
  · subst h4
    rw [if_pos rfl, map_ok_iff]
    constructor
    · rintro ⟨t, ht, rfl⟩
      obtain ⟨i, hi, hs⟩ := (choose_iff _ (by decide +kernel) _ _).1 ht
      exact Or.inr (Or.inr (Or.inr (Or.inl ⟨rfl, i, t, hi, hs, rfl⟩)))
    · rintro (⟨h, _⟩ | ⟨h, _⟩ | ⟨h, _⟩ | ⟨_, i, t, hi, ht, rfl⟩ | ⟨h, _⟩ | ⟨h, _⟩ | ⟨h, _⟩)
      · exact absurd h h1
      · exact absurd h h2
      · exact absurd h h3
      · exact ⟨t, (choose_iff _ (by decide +kernel) _ _).2 ⟨i, hi, ht⟩, rfl⟩
      all_goals exact absurd h (by decide +kernel)
  rw [if_neg h4]
  by_cases h5 : k = "binning".toList
  · subst h5
    rw [if_pos rfl, map_ok_iff]
    constructor
    · rintro ⟨t, ht, rfl⟩
      obtain ⟨i, hi, hs⟩ := (choose_iff _ (by decide +kernel) _ _).1 ht
      exact Or.inr (Or.inr (Or.inr (Or.inr (Or.inl ⟨rfl, i, t, hi, hs, rfl⟩))))
    · rintro (⟨h, _⟩ | ⟨h, _⟩ | ⟨h, _⟩ | ⟨h, _⟩ | ⟨_, i, t, hi, ht, rfl⟩ | ⟨h, _⟩ | ⟨h, _⟩)
      · exact absurd h h1
      · exact absurd h h2
      · exact absurd h h3
      · exact absurd h h4
      · exact ⟨t, (choose_iff _ (by decide +kernel) _ _).2 ⟨i, hi, ht⟩, rfl⟩
      all_goals exact absurd h (by decide +kernel)
  rw [if_neg h5]
  by_cases h6 : k = "colour".toList
  · subst h6
    rw [if_pos rfl, colour_iff]
    constructor
    · intro h
      exact Or.inr (Or.inr (Or.inr (Or.inr (Or.inr (Or.inl ⟨rfl, h⟩)))))
    · rintro (⟨h, _⟩ | ⟨h, _⟩ | ⟨h, _⟩ | ⟨h, _⟩ | ⟨h, _⟩ | ⟨_, h⟩ | ⟨h, _⟩)
      · exact absurd h h1
      · exact absurd h h2
      · exact absurd h h3
      · exact absurd h h4
      · exact absurd h h5
      · exact h
      · exact absurd h (by decide +kernel)
  rw [if_neg h6]
  have h7 : k = "psym".toList := by
    rcases hdis k hk with h | h | h | h | h | h | h | h
    · exact absurd h h1
    · exact absurd (Or.inl h) h2
    · exact absurd (Or.inr h) h2
    · exact absurd h h3
    · exact absurd h h4
    · exact absurd h h5
    · exact absurd h h6
    · exact h
  rw [psym_iff]
  constructor
  · intro h
    exact Or.inr (Or.inr (Or.inr (Or.inr (Or.inr (Or.inr ⟨h7, h⟩)))))
  · rintro (⟨h, _⟩ | ⟨h, _⟩ | ⟨h, _⟩ | ⟨h, _⟩ | ⟨h, _⟩ | ⟨h, _⟩ | ⟨_, h⟩)
    · exact absurd h h1
    · exact absurd h h2
    · exact absurd h h3
    · exact absurd h h4
    · exact absurd h h5
    · exact absurd h h6
    · exact h

theorem resolves_mem {env : PlotEnv α} {k0 k : List Char} (h : Resolves env k0 k) : k ∈ plotKeys := by
  obtain ⟨i, _, h⟩ := h
  exact List.mem_of_getElem? h

theorem resolves_unique {env : PlotEnv α} {k0 k k' : List Char} (h : Resolves env k0 k) (h' : Resolves env k0 k') : k = k' :=
  Except.ok.inj (((key_iff env k0 k).2 h).symm.trans ((key_iff env k0 k').2 h'))

theorem value_unique {env : PlotEnv α} {k v : List Char} (hk : k ∈ plotKeys) {x y : PVal} (hx : ValueFor env k v x) (hy : ValueFor env k v y) :
    x = y := Except.ok.inj (((value_iff env hk v x).2 hx).symm.trans ((value_iff env hk v y).2 hy))

theorem lastGiven_append {env : PlotEnv α} {A B : List (List Char × List Char)} {k : List Char} {x : PVal} :
    LastGiven env (A ++ B) k x ↔ LastGiven env B k x ∨ NotGiven env B k ∧ LastGiven env A k x := by
  constructor
  · rintro ⟨a, k0, v, b, h, hr, hv, hn⟩
    rcases List.append_eq_append_iff.1 h with ⟨c, h1, h2⟩ | ⟨c, h1, h2⟩
    · left; exact ⟨c, k0, v, b, h2, hr, hv, hn⟩
    · cases c with
      | nil => left; exact ⟨[], k0, v, b, by simpa using h2.symm, hr, hv, hn⟩
      | cons y c =>
        obtain ⟨rfl, rfl⟩ := List.cons.inj h2
        right
        exact ⟨fun z hz => hn z (by simp [hz]), a, k0, v, c, h1, hr, hv, fun z hz => hn z (by simp [hz])⟩
  · rintro (⟨a, k0, v, b, rfl, hr, hv, hn⟩ | ⟨hB, a, k0, v, b, rfl, hr, hv, hn⟩)
    · exact ⟨A ++ a, k0, v, b, by simp, hr, hv, hn⟩
    · refine ⟨a, k0, v, b ++ B, by simp, hr, hv, ?_⟩
      intro z hz
      rcases List.mem_append.1 hz with hz | hz
      · exact hn z hz
      · exact hB z hz

theorem notGiven_append {env : PlotEnv α} {A B : List (List Char × List Char)} {k : List Char} :
    NotGiven env (A ++ B) k ↔ NotGiven env A k ∧ NotGiven env B k := by
  simp only [NotGiven, List.forall_mem_append]

theorem applyItem_ok {env : PlotEnv α} {st st' : PDict × Bool} {it : List Char × List Char}
    (h : applyItem env st it = .ok st') : ∃ k x, Resolves env it.1 k ∧ ValueFor env k it.2 x ∧
      st' = (dictSet st.1 k x, st.2 || k == "source".toList) := by
  obtain ⟨k, hk, h⟩ := bind_ok h
  obtain ⟨x, hx, h⟩ := bind_ok h
  have hk' := (key_iff _ _ _).1 hk
  exact ⟨k, x, hk', (value_iff env (resolves_mem hk') _ _).1 hx, (Except.ok.inj h).symm⟩

theorem applyItems_ok {env : PlotEnv α} (d : List (List Char × List Char)) : ∀ {st st' : PDict × Bool},
    d.foldlM (applyItem env) st = .ok st' →
      (∀ k x, LastOr env (dictGet st.1 k) d k x → dictGet st'.1 k = some x) ∧
      (∀ k, NotGiven env d k → dictGet st'.1 k = dictGet st.1 k) ∧
      (∀ k, NotGiven env d k ∨ ∃ x, LastGiven env d k x) ∧
      (st'.2 = true ↔ st.2 = true ∨ ¬ NotGiven env d "source".toList) := by
  induction d with
  | nil =>
    intro st st' h
    obtain rfl : st = st' := Except.ok.inj h
    refine ⟨?_, fun k _ => rfl, fun k => Or.inl (by intro y hy; cases hy), ?_⟩
    · rintro k x (⟨a, k0, v, b, h, _⟩ | ⟨_, h⟩)
      · simp at h
      · exact h
    · constructor
      · exact Or.inl
      · rintro (h | h)
        · exact h
        · exact absurd (by intro y hy; cases hy) h
  | cons it d ih =>
    intro st st' h
    rw [List.foldlM_cons] at h
    obtain ⟨st1, h1, h2⟩ := bind_ok h
    obtain ⟨k1, x1, hr, hx, rfl⟩ := applyItem_ok h1
    obtain ⟨i1, i2, i3, i4⟩ := ih h2
    have hres : ∀ {k}, Resolves env it.1 k → k = k1 := fun hk => resolves_unique hk hr
    refine ⟨?_, ?_, ?_, ?_⟩
    · rintro k x (hl | ⟨hn, hd⟩)
      · rw [show it :: d = [it] ++ d from rfl, lastGiven_append] at hl
        rcases hl with hl | ⟨hn, a, k0, v, b, e, hr0, hv0, _⟩
        · exact i1 k x (Or.inl hl)
        · have : a = [] ∧ (k0, v) = it ∧ b = [] := by
            cases a with
            | nil => simp at e; exact ⟨rfl, e.1.symm, e.2⟩
            | cons y a => simp at e
          obtain ⟨rfl, rfl, rfl⟩ := this
          obtain rfl := hres hr0
          rw [i2 k hn, dictGet_set, if_pos rfl]
          rw [value_unique (resolves_mem hr) hx hv0]
      · have hk : k ≠ k1 := by rintro rfl; exact hn it (by simp) hr
        rw [i2 k (fun y hy => hn y (by simp [hy])), dictGet_set, if_neg hk]
        exact hd
    · intro k hn
      have hk : k ≠ k1 := by rintro rfl; exact hn it (by simp) hr
      rw [i2 k (fun y hy => hn y (by simp [hy])), dictGet_set, if_neg hk]
    · intro k
      rcases i3 k with hn | ⟨x, hl⟩
      · by_cases hk : k = k1
        · subst hk
          exact Or.inr ⟨x1, [], it.1, it.2, d, rfl, hr, hx, hn⟩
        · left
          intro y hy
          rcases List.mem_cons.1 hy with rfl | hy
          · exact fun h => hk (hres h)
          · exact hn y hy
      · right
        exact ⟨x, (lastGiven_append (A := [it])).2 (Or.inl hl)⟩
    · rw [i4]
      constructor
      · rintro (h | h)
        · rw [Bool.or_eq_true] at h
          rcases h with h | h
          · exact Or.inl h
          · right
            intro hn
            rw [beq_iff_eq] at h
            exact hn it (by simp) (h ▸ hr)
        · right
          intro hn
          exact h (fun y hy => hn y (by simp [hy]))
      · rintro (h | h)
        · left; rw [h]; rfl
        · by_cases hn : NotGiven env d "source".toList
          · left
            have : k1 = "source".toList := by
              by_contra hk
              apply h
              intro y hy
              rcases List.mem_cons.1 hy with rfl | hy
              · exact fun h => hk (hres h).symm
              · exact hn y hy
            rw [this]; simp
          · exact Or.inr hn

theorem plotDefault_type (env : PlotEnv α) : plotDefault env "type".toList =
    some (.str (if env.sequence then "poisson".toList else "data".toList)) := by rw [plotDefault, if_pos rfl]

theorem documented_eq (k : List Char) (hk : k ≠ "type".toList) : dictGet plotDefaults k = (documented.find? (fun y => y.1 == k)).map Prod.snd := by
  have hall : ∀ y ∈ plotDefaults, y.1 ≠ "type".toList → dictGet plotDefaults y.1 = (documented.find? (fun z => z.1 == y.1)).map Prod.snd := by
    decide +kernel
  by_cases hm : ∃ y ∈ plotDefaults, y.1 = k
  · obtain ⟨y, hy, rfl⟩ := hm
    exact hall y hy hk
  · push Not at hm
    have h1 : dictGet plotDefaults k = none := by
      unfold dictGet
      rw [Option.map_eq_none_iff, List.find?_eq_none]
      intro y hy
      simpa using hm y hy
    have h2 : documented.find? (fun y => y.1 == k) = none := by
      rw [List.find?_eq_none]
      intro y hy
      have : ∀ y ∈ documented, ∃ z ∈ plotDefaults, z.1 = y.1 := by decide +kernel
      obtain ⟨z, hz, e⟩ := this y hy
      rw [← e]
      simpa using hm z hz
    rw [h1, h2]; rfl

theorem startDict_none (env : PlotEnv α) (k : List Char) : dictGet (startDict env none) k = plotDefault env k := by
  rw [startDict, plotDefault]
  simp only [dictGet_set]
  by_cases ht : k = "type".toList
  · rw [if_pos ht, if_pos ht]
  · rw [if_neg ht, if_neg ht, documented_eq k ht]

theorem foldl_carry (q : PDict) (l : List (List Char)) : ∀ (p : PDict) (k : List Char),
    dictGet (l.foldl (fun p k => dictSet p k ((dictGet q k).getD .none)) p) k =
      if k ∈ l then some ((dictGet q k).getD .none) else dictGet p k := by
  induction l with
  | nil => intro p k; simp
  | cons c l ih =>
    intro p k
    rw [List.foldl_cons, ih]
    by_cases h : k ∈ l
    · rw [if_pos h, if_pos (List.mem_cons_of_mem _ h)]
    · rw [if_neg h, dictGet_set]
      by_cases hc : k = c
      · subst hc; rw [if_pos rfl, if_pos (by simp)]
      · rw [if_neg hc, if_neg (by simp [h, hc])]

theorem startDict_some (env : PlotEnv α) (q : PDict) (k : List Char) : dictGet (startDict env (some q)) k =
    if k ∈ carriedKeys ∨ k = "source".toList then some ((dictGet q k).getD .none) else plotDefault env k := by
  have h0 : dictGet (dictSet plotDefaults "type".toList
      (.str (if env.sequence then "poisson".toList else "data".toList))) "source".toList = some PVal.none := by
    rw [dictGet_set, if_neg (by decide)]
    decide
  rw [startDict]
  simp only [h0, if_true]
  rw [foldl_carry]
  by_cases ht : k = "type".toList
  · subst ht
    rw [if_neg (by decide), dictGet_set, if_pos rfl, if_pos (by decide)]
  · have he : k ∈ carryOver ↔ k ∈ carriedKeys ∨ k = "source".toList := by
      have h1 : ∀ k ∈ carryOver, k ∈ carriedKeys ∨ k = "source".toList := by decide
      have h2 : ∀ k ∈ carriedKeys, k = "type".toList ∨ k ∈ carryOver := by decide
      refine ⟨h1 k, ?_⟩
      rintro (h | rfl)
      · exact (h2 k h).resolve_left ht
      · decide
    by_cases hk : k ∈ carryOver
    · rw [if_pos hk, if_pos (he.1 hk)]
    · rw [if_neg hk, if_neg (fun h => hk (he.2 h)), dictGet_set, if_neg ht, dictGet_set, if_neg ht, plotDefault, if_neg ht, documented_eq k ht]

/-- where a source file is looked for: relative names in the directory of the `-i` file -/
def Placed (env : PlotEnv α) (s s' : List Char) : Prop :=
  (env.input = none ∨ env.isabs s = true) ∧ s' = s ∨
    ∃ f dir, env.input = some f ∧ env.isabs s = false ∧ Text.filename env.classes f ['p'] none none 4 = .ok dir ∧ s' = dir ++ s

theorem placeSource_ok {env : PlotEnv α} {s s' : List Char} : placeSource env s = .ok s' ↔ Placed env s s' := by
  unfold placeSource Placed
  cases hi : env.input with
  | none =>
    constructor
    · intro h; exact Or.inl ⟨Or.inl rfl, (Except.ok.inj h).symm⟩
    · rintro (⟨_, rfl⟩ | ⟨f, _, h, _⟩)
      · rfl
      · cases h
  | some f =>
    by_cases ha : env.isabs s = true
    · simp only [ha, if_true]
      constructor
      · intro h; exact Or.inl ⟨Or.inr trivial, (Except.ok.inj h).symm⟩
      · rintro (⟨_, rfl⟩ | ⟨f, _, _, h, _⟩)
        · rfl
        · cases h
    · simp only [ha]
      constructor
      · intro h
        obtain ⟨dir, h1, h2⟩ := bind_ok h
        exact Or.inr ⟨f, dir, rfl, by simp, h1, (Except.ok.inj h2).symm⟩
      · rintro (⟨h, _⟩ | ⟨f', dir, hf, _, hd, rfl⟩)
        · simp at h
        · obtain rfl := Option.some.inj hf
          simp only [Bool.false_eq_true, if_false, hd]
          rfl

theorem plotStep_ok {env : PlotEnv α} {st st' : List (PDict × α) × Bool} {d : List (List Char × List Char)}
    (h : plotStep env st d = .ok st') : ∃ p s s' cc, d.foldlM (applyItem env)
        (startDict env (st.1.getLast?.map Prod.fst), st.2) = .ok (p, true) ∧ dictGet p "source".toList = some (.str s) ∧
      Placed env s s' ∧ env.load s' = .ok cc ∧ st' = (st.1 ++ [(dictSet p "source".toList (.str s'), cc)], true) := by
  obtain ⟨⟨p, b⟩, h1, h2⟩ := bind_ok h
  simp only at h2
  cases b with
  | false => simp at h2
  | true =>
    simp only [if_true] at h2
    split at h2
    · rename_i s hs
      obtain ⟨s', h3, h4⟩ := bind_ok h2
      obtain ⟨cc, h5, h6⟩ := bind_ok h4
      exact ⟨p, s, s', cc, h1, hs, placeSource_ok.1 h3, h5, (Except.ok.inj h6).symm⟩
    · cases h2

/-- the `-i` directory is empty or makes every name absolute -/
def PlainInput (env : PlotEnv α) : Prop :=
  ∀ f dir, env.input = some f → Text.filename env.classes f ['p'] none none 4 = .ok dir →
    dir = [] ∨ ∀ s, env.isabs (dir ++ s) = true

theorem placed_idem {env : PlotEnv α} (hp : PlainInput env) {s s' s'' : List Char} (h : Placed env s s') (h2 : Placed env s' s'') :
    Placed env s s'' := by
  rcases h with ⟨h, rfl⟩ | ⟨f, dir, hf, ha, hd, rfl⟩
  · exact h2
  · rcases hp f dir hf hd with rfl | hall
    · simpa using h2
    · rcases h2 with ⟨_, rfl⟩ | ⟨f', dir', hf', ha', _⟩
      · exact Or.inr ⟨f, dir, hf, ha, hd, rfl⟩
      · rw [hall s] at ha'; cases ha'

/-- what is known about the plots for the specifications `ds` -/
structure Good (env : PlotEnv α) (ds : List (List (List Char × List Char))) (ps : List (PDict × α)) : Prop where
  len : ps.length = ds.length
  carried : ∀ (i : ℕ) (p : PDict × α), ps[i]? = some p → ∀ k ∈ carriedKeys, ∀ x,
    LastOr env (plotDefault env k) (ds.take (i + 1)).flatten k x → dictGet p.1 k = some x
  own : ∀ (i : ℕ) (p : PDict × α) (d : List (List Char × List Char)), ps[i]? = some p → ds[i]? = some d → ∀ k ∈ ownKeys, ∀ x,
    LastOr env (plotDefault env k) d k x → dictGet p.1 k = some x
  source : ∀ (i : ℕ) (p : PDict × α), ps[i]? = some p → ∃ s', dictGet p.1 "source".toList = some (.str s') ∧ env.load s' = .ok p.2 ∧
    (PlainInput env → ∃ s, LastGiven env (ds.take (i + 1)).flatten "source".toList (.str s) ∧ Placed env s s')
  known : ∀ k, NotGiven env ds.flatten k ∨ ∃ x, LastGiven env ds.flatten k x

theorem Good.append {env : PlotEnv α} {ds : List (List (List Char × List Char))} {ps : List (PDict × α)} {b : Bool}
    (g : Good env ds ps) (hb : b = true ↔ ds ≠ []) {d : List (List Char × List Char)} {st' : List (PDict × α) × Bool}
    (h : plotStep env (ps, b) d = .ok st') : Good env (ds ++ [d]) st'.1 ∧ st'.2 = true := by
  obtain ⟨p, s, s', cc, h1, hs, hpl, hload, rfl⟩ := plotStep_ok h
  obtain ⟨a1, a2, a3, a4⟩ := applyItems_ok d h1
  simp only [true_iff] at a4
  -- values of the new dictionary other than the source
  have hget : ∀ k, k ≠ "source".toList → dictGet (dictSet p "source".toList (.str s')) k = dictGet p k := by
    intro k hk; rw [dictGet_set, if_neg hk]
  have hlast : ∀ {i : ℕ} {q : PDict × α}, (ps ++ [(dictSet p "source".toList (.str s'), cc)])[i]? = some q →
      ps[i]? = some q ∧ i < ds.length ∨ i = ds.length ∧ q = (dictSet p "source".toList (.str s'), cc) := by
    intro i q hq
    rcases Nat.lt_or_ge i ps.length with hi | hi
    · left
      rw [List.getElem?_append_left hi] at hq
      exact ⟨hq, g.len ▸ hi⟩
    · right
      rw [List.getElem?_append_right hi] at hq
      have : i - ps.length = 0 := by
        by_contra hne
        rw [List.getElem?_eq_none (by simp; omega)] at hq
        cases hq
      rw [this] at hq
      simp at hq
      exact ⟨by rw [← g.len]; omega, hq.symm⟩
  have htake : (ds ++ [d]).take (ds.length + 1) = ds ++ [d] := List.take_of_length_le (by simp)
  have htake' : ∀ i, i < ds.length → (ds ++ [d]).take (i + 1) = ds.take (i + 1) := fun i hi =>
    List.take_append_of_le_length hi
  have hprev : ps = [] ∧ ds = [] ∨ ∃ q, ps.getLast? = some q ∧ ps[ds.length - 1]? = some q ∧ ds ≠ [] := by
    cases hq : ps.getLast? with
    | none =>
      left
      have : ps = [] := List.getLast?_eq_none_iff.1 hq
      refine ⟨this, ?_⟩
      rw [← List.length_eq_zero_iff, ← g.len, this]; rfl
    | some q =>
      right
      rw [List.getLast?_eq_getElem?] at hq
      refine ⟨q, rfl, by rw [← g.len]; exact hq, ?_⟩
      rintro rfl
      have := g.len
      simp at this
      subst this
      simp at hq
  refine ⟨⟨by simp [g.len], ?_, ?_, ?_, ?_⟩, rfl⟩
  · intro i q hq k hk x hx
    rcases hlast hq with ⟨hq', hi⟩ | ⟨rfl, rfl⟩
    · rw [htake' i hi] at hx
      exact g.carried i q hq' k hk x hx
    · have hks : k ≠ "source".toList := by rintro rfl; exact absurd hk (by decide)
      rw [htake, List.flatten_append, List.flatten_singleton] at hx
      simp only [hget k hks]
      -- given in the new specification or carried
      have : LastGiven env d k x ∨ NotGiven env d k ∧ LastOr env (plotDefault env k) ds.flatten k x := by
        rcases hx with hx | ⟨hn, hd⟩
        · rcases lastGiven_append.1 hx with h | ⟨h1, h2⟩
          · exact Or.inl h
          · exact Or.inr ⟨h1, Or.inl h2⟩
        · obtain ⟨h1, h2⟩ := notGiven_append.1 hn
          exact Or.inr ⟨h2, Or.inr ⟨h1, hd⟩⟩
      rcases this with hl | ⟨hn, hl⟩
      · exact a1 k x (Or.inl hl)
      · rw [a2 k hn]
        simp only
        rcases hprev with ⟨rfl, rfl⟩ | ⟨q, hq1, hq2, hne⟩
        · rw [List.getLast?_nil, Option.map_none, startDict_none]
          rcases hl with ⟨a, k0, v, c, e, _⟩ | ⟨_, hd⟩
          · simp at e
          · exact hd
        · rw [hq1, Option.map_some, startDict_some, if_pos (Or.inl hk)]
          have hlen : 0 < ds.length := List.length_pos_iff.2 hne
          have : ds.take (ds.length - 1 + 1) = ds := by
            rw [show ds.length - 1 + 1 = ds.length by omega, List.take_length]
          rw [g.carried (ds.length - 1) q hq2 k hk x (by rw [this]; exact hl)]
          rfl
  · intro i q e hq he k hk x hx
    rcases hlast hq with ⟨hq', hi⟩ | ⟨rfl, rfl⟩
    · rw [List.getElem?_append_left hi] at he
      exact g.own i q e hq' he k hk x hx
    · rw [List.getElem?_append_right le_rfl] at he
      simp only [Nat.sub_self, List.getElem?_cons_zero, Option.some.injEq] at he
      subst he
      have hks : k ≠ "source".toList := by rintro rfl; exact absurd hk (by decide)
      have hkc : k ∉ carriedKeys := by
        intro hc
        have : ∀ k ∈ ownKeys, k ∉ carriedKeys := by decide
        exact this k hk hc
      simp only [hget k hks]
      refine a1 k x ?_
      rcases hx with hx | ⟨hn, hd⟩
      · exact Or.inl hx
      · refine Or.inr ⟨hn, ?_⟩
        simp only
        rcases hprev with ⟨rfl, rfl⟩ | ⟨q, hq1, _, _⟩
        · rw [List.getLast?_nil, Option.map_none, startDict_none]; exact hd
        · rw [hq1, Option.map_some, startDict_some, if_neg (by simp only [not_or]; exact ⟨hkc, hks⟩)]
          exact hd
  · intro i q hq
    rcases hlast hq with ⟨hq', hi⟩ | ⟨rfl, rfl⟩
    · rw [htake' i hi]
      exact g.source i q hq'
    · refine ⟨s', by simp only [dictGet_set, if_true], hload, ?_⟩
      intro hplain
      rw [htake, List.flatten_append, List.flatten_singleton]
      rcases a3 "source".toList with hn | ⟨x, hl⟩
      · -- carried from the previous plot
        rcases hprev with ⟨rfl, rfl⟩ | ⟨q, hq1, hq2, hne⟩
        · rcases a4 with h | h
          · exact absurd (hb.1 h) (by simp)
          · exact absurd hn h
        · obtain ⟨t, ht, _, hsrc⟩ := g.source _ q hq2
          obtain ⟨s0, hl0, hp0⟩ := hsrc hplain
          have hlen : 0 < ds.length := List.length_pos_iff.2 hne
          rw [show ds.length - 1 + 1 = ds.length by omega, List.take_length] at hl0
          have : s = t := by
            have h2 := a2 _ hn
            rw [hs] at h2
            simp only at h2
            rw [hq1, Option.map_some, startDict_some, if_pos (Or.inr rfl), ht] at h2
            simpa using h2
          subst this
          exact ⟨s0, lastGiven_append.2 (Or.inr ⟨hn, hl0⟩), placed_idem hplain hp0 hpl⟩
      · have := a1 _ x (Or.inl hl)
        rw [hs] at this
        obtain rfl := Option.some.inj this
        exact ⟨s, lastGiven_append.2 (Or.inl hl), hpl⟩
  · intro k
    rw [List.flatten_append, List.flatten_singleton]
    rcases a3 k with hn | ⟨x, hl⟩
    · rcases g.known k with hn' | ⟨x, hl⟩
      · exact Or.inl (notGiven_append.2 ⟨hn', hn⟩)
      · exact Or.inr ⟨x, lastGiven_append.2 (Or.inr ⟨hn, hl⟩)⟩
    · exact Or.inr ⟨x, lastGiven_append.2 (Or.inl hl)⟩

theorem run_good {env : PlotEnv α} (ds : List (List (List Char × List Char))) : ∀ {st : List (PDict × α) × Bool},
    ds.foldlM (plotStep env) ([], false) = .ok st → Good env ds st.1 ∧ (st.2 = true ↔ ds ≠ []) := by
  induction ds using List.reverseRecOn with
  | nil =>
    intro st h
    obtain rfl : ([], false) = st := Except.ok.inj h
    exact ⟨⟨rfl, by simp, by simp, by simp, fun k => Or.inl (by intro y hy; simp at hy)⟩, by simp⟩
  | append_singleton ds d ih =>
    intro st h
    rw [List.foldlM_append] at h
    obtain ⟨st1, h1, h2⟩ := bind_ok h
    obtain ⟨g, hb⟩ := ih h1
    rw [List.foldlM_cons] at h2
    obtain ⟨st2, h3, h4⟩ := bind_ok h2
    obtain rfl : st2 = st := Except.ok.inj h4
    obtain ⟨g1, g2⟩ := g.append hb h3
    exact ⟨g1, by simp [g2]⟩

theorem construct_good {env : PlotEnv α} {ds : List (List (List Char × List Char))} {ps : List (PDict × α)}
    (h : constructPlotDicts env (some ds) = .ok ps) : Good env ds ps := by
  obtain ⟨st, h1, h2⟩ := bind_ok h
  obtain rfl : st.1 = ps := Except.ok.inj h2
  exact (run_good ds h1).1

/-- **C42, carried properties.** In an accepted sequence of plot specifications there is one plot for each; its type,
symbol, snap, isochron, error bar, colour and binning settings are the last ones given in the specifications up to it, or
the defaults if there are none (exactly one of the two applies). -/
theorem C42_carried (env : PlotEnv α) (ds : List (List (List Char × List Char))) (ps : List (PDict × α))
    (h : constructPlotDicts env (some ds) = .ok ps) : ps.length = ds.length ∧
    ∀ (i : ℕ) (p : PDict × α), ps[i]? = some p → ∀ k ∈ carriedKeys,
      (NotGiven env (ds.take (i + 1)).flatten k → dictGet p.1 k = plotDefault env k) ∧
      ∀ x, LastGiven env (ds.take (i + 1)).flatten k x → dictGet p.1 k = some x := by
  have g := construct_good h
  refine ⟨g.len, fun i p hp k hk => ⟨fun hn => ?_, fun x hx => g.carried i p hp k hk x (Or.inl hx)⟩⟩
  have hdef : ∃ x, plotDefault env k = some x := by
    by_cases ht : k = "type".toList
    · subst ht; exact ⟨_, plotDefault_type env⟩
    · rw [plotDefault, if_neg ht]
      have : ∀ k ∈ carriedKeys, k ≠ "type".toList → ((documented.find? (fun y => y.1 == k)).map Prod.snd).isSome = true := by decide
      exact Option.isSome_iff_exists.1 (this k hk ht)
  obtain ⟨x, hx⟩ := hdef
  rw [hx]
  exact g.carried i p hp k hk x (Or.inr ⟨hn, hx⟩)

/-- **C42, other properties** are the last ones given in the plot's own specification, or the defaults. -/
theorem C42_own (env : PlotEnv α) (ds : List (List (List Char × List Char))) (ps : List (PDict × α))
    (h : constructPlotDicts env (some ds) = .ok ps) : ∀ (i : ℕ) (p : PDict × α) (d : List (List Char × List Char)), ps[i]? = some p → ds[i]? = some d → ∀ k ∈ ownKeys,
      (NotGiven env d k → dictGet p.1 k = plotDefault env k) ∧ ∀ x, LastGiven env d k x → dictGet p.1 k = some x := by
  have g := construct_good h
  refine fun i p d hp hd k hk => ⟨fun hn => ?_, fun x hx => g.own i p d hp hd k hk x (Or.inl hx)⟩
  have hdef : ∃ x, plotDefault env k = some x := by
    have hk' : k ≠ "type".toList := by rintro rfl; exact absurd hk (by decide)
    rw [plotDefault, if_neg hk']
    have : ∀ k ∈ ownKeys, ((documented.find? (fun y => y.1 == k)).map Prod.snd).isSome = true := by decide
    exact Option.isSome_iff_exists.1 (this k hk)
  obtain ⟨x, hx⟩ := hdef
  rw [hx]
  exact g.own i p d hp hd k hk x (Or.inr ⟨hn, hx⟩)

/-- **C42, source (partial).** The crater count of a plot is read from its source, which is the last one given in the
specifications up to it, relative names taken in the directory of the `-i` file.  Restricted to `-i` files given without
directory or with an absolute one (`PlainInput`). -/
theorem C42_source_partial (env : PlotEnv α) (hin : PlainInput env) (ds : List (List (List Char × List Char)))
    (ps : List (PDict × α)) (h : constructPlotDicts env (some ds) = .ok ps) : ∀ (i : ℕ) (p : PDict × α), ps[i]? = some p →
    ∃ s s', LastGiven env (ds.take (i + 1)).flatten "source".toList (.str s) ∧ Placed env s s' ∧
      dictGet p.1 "source".toList = some (.str s') ∧ env.load s' = .ok p.2 := by
  intro i p hp
  obtain ⟨s', h1, h2, h3⟩ := (construct_good h).source i p hp
  obtain ⟨s, h4, h5⟩ := h3 hin
  exact ⟨s, s', h4, h5, h1, h2⟩

/-- the keys and values of a specification are understood -/
def Understood (env : PlotEnv α) (d : List (List Char × List Char)) : Prop :=
  ∀ y ∈ d, ∃ k x, Resolves env y.1 k ∧ ValueFor env k y.2 x

theorem applyItems_total {env : PlotEnv α} (d : List (List Char × List Char)) (hd : Understood env d) :
    ∀ st : PDict × Bool, ∃ st', d.foldlM (applyItem env) st = .ok st' := by
  induction d with
  | nil => exact fun st => ⟨st, rfl⟩
  | cons it d ih =>
    intro st
    obtain ⟨k, x, hk, hx⟩ := hd it (by simp)
    have h1 : applyItem env st it = .ok (dictSet st.1 k x, st.2 || k == "source".toList) := by
      simp only [applyItem, (key_iff env _ _).2 hk]
      show (itemValue env k it.2 >>= _) = _
      rw [(value_iff env (resolves_mem hk) _ _).2 hx]; rfl
    obtain ⟨st', h⟩ := ih (fun y hy => hd y (by simp [hy])) (dictSet st.1 k x, st.2 || k == "source".toList)
    exact ⟨st', by rw [List.foldlM_cons, h1]; exact h⟩

theorem applyItems_understood {env : PlotEnv α} (d : List (List Char × List Char)) : ∀ {st st' : PDict × Bool},
    d.foldlM (applyItem env) st = .ok st' → Understood env d := by
  induction d with
  | nil => intro _ _ _ y hy; cases hy
  | cons it d ih =>
    intro st st' h
    rw [List.foldlM_cons] at h
    obtain ⟨st1, h1, h2⟩ := bind_ok h
    obtain ⟨k, x, hk, hx, _⟩ := applyItem_ok h1
    intro y hy
    rcases List.mem_cons.1 hy with rfl | hy
    · exact ⟨k, x, hk, hx⟩
    · exact ih h2 y hy

/-- the value of a source item is a text -/
theorem source_str {env : PlotEnv α} {v : List Char} {x : PVal} (h : ValueFor env "source".toList v x) : ∃ s, x = .str s := by
  replace h := (value_iff env (by decide) v x).2 h
  rw [itemValue, if_neg (by decide), if_neg (by decide), if_pos rfl] at h
  exact ⟨_, (Except.ok.inj h).symm⟩

/-- **C42, acceptance.** If every file can be read, a sequence of specifications is accepted exactly if all its keys and
values are understood and the first plot has a source. -/
theorem C42_accepted (env : PlotEnv α) (hload : ∀ s, ∃ a, env.load s = .ok a)
    (hplace : ∀ s, ∃ s', Placed env s s') (ds : List (List (List Char × List Char))) :
    (∃ ps, constructPlotDicts env (some ds) = .ok ps) ↔
      (∀ d ∈ ds, Understood env d) ∧ ∀ d ∈ ds.head?, ¬ NotGiven env d "source".toList := by
  have key : ∀ ds : List (List (List Char × List Char)), (∃ st, ds.foldlM (plotStep env) ([], false) = .ok st) ↔
      (∀ d ∈ ds, Understood env d) ∧ ∀ d ∈ ds.head?, ¬ NotGiven env d "source".toList := by
    intro ds
    induction ds using List.reverseRecOn with
    | nil => exact ⟨fun _ => ⟨by simp, by simp⟩, fun _ => ⟨_, rfl⟩⟩
    | append_singleton ds d ih =>
      constructor
      · rintro ⟨st, h⟩
        rw [List.foldlM_append] at h
        obtain ⟨st1, h1, h2⟩ := bind_ok h
        rw [List.foldlM_cons] at h2
        obtain ⟨st2, h3, h4⟩ := bind_ok h2
        obtain ⟨i1, i2⟩ := ih.1 ⟨st1, h1⟩
        obtain ⟨p, s, s', cc, g1, g2, g3, g4, g5⟩ := plotStep_ok h3
        refine ⟨?_, ?_⟩
        · intro e he
          rcases List.mem_append.1 he with he | he
          · exact i1 e he
          · rw [List.mem_singleton] at he; subst he
            exact applyItems_understood _ g1
        · intro e he
          cases ds with
          | nil =>
            simp at he
            subst he
            obtain rfl : ([], false) = st1 := Except.ok.inj h1
            have := (applyItems_ok _ g1).2.2.2
            simpa using this
          | cons d0 ds => exact i2 e (by simpa using he)
      · rintro ⟨h1, h2⟩
        have hprev : ∃ st, ds.foldlM (plotStep env) ([], false) = .ok st := by
          refine ih.2 ⟨fun e he => h1 e (by simp [he]), fun e he => ?_⟩
          cases ds with
          | nil => simp at he
          | cons d0 ds => exact h2 e (by simpa using he)
        obtain ⟨st1, hst1⟩ := hprev
        obtain ⟨g, hb⟩ := run_good ds hst1
        obtain ⟨⟨p, b⟩, hp⟩ := applyItems_total d (h1 d (by simp)) (startDict env (st1.1.getLast?.map Prod.fst), st1.2)
        obtain ⟨a1, a2, a3, a4⟩ := applyItems_ok d hp
        have hbt : b = true := by
          refine a4.2 ?_
          by_cases hds : ds = []
          · right
            subst hds
            exact h2 d (by simp)
          · exact Or.inl (hb.2 hds)
        subst hbt
        have hsrc : ∃ s, dictGet p "source".toList = some (.str s) := by
          rcases a3 "source".toList with hn | ⟨x, hl⟩
          · rw [a2 _ hn]
            rcases a4.1 rfl with h | h
            · have hne := hb.1 h
              cases hq : st1.1.getLast? with
              | none =>
                exfalso
                have : st1.1 = [] := List.getLast?_eq_none_iff.1 hq
                exact hne (by rw [← List.length_eq_zero_iff, ← g.len, this]; rfl)
              | some q =>
                rw [List.getLast?_eq_getElem?] at hq
                obtain ⟨t, ht, _⟩ := g.source _ q hq
                refine ⟨t, ?_⟩
                simp only [Option.map_some]
                rw [startDict_some, if_pos (Or.inr rfl), ht]; rfl
            · exact absurd hn h
          · obtain ⟨a, k0, v, c, _, _, hv, _⟩ := id hl
            obtain ⟨s, rfl⟩ := source_str hv
            exact ⟨s, a1 _ _ (Or.inl hl)⟩
        obtain ⟨s, hs⟩ := hsrc
        obtain ⟨s', hs'⟩ := hplace s
        obtain ⟨cc, hcc⟩ := hload s'
        refine ⟨(st1.1 ++ [(dictSet p "source".toList (.str s'), cc)], true), ?_⟩
        rw [List.foldlM_append, hst1]
        show List.foldlM (plotStep env) st1 [d] = _
        have hstep : plotStep env st1 d = .ok (st1.1 ++ [(dictSet p "source".toList (.str s'), cc)], true) := by
          rw [plotStep, hp]
          show (match dictGet p "source".toList with | some (.str s) => _ | _ => _) = _
          rw [hs]
          simp only
          rw [placeSource_ok.2 hs']
          show (env.load s' >>= _) = _
          rw [hcc]; rfl
        rw [List.foldlM_cons, hstep]; rfl
  constructor
  · rintro ⟨ps, h⟩
    obtain ⟨st, h1, _⟩ := bind_ok h
    exact (key ds).1 ⟨st, h1⟩
  · intro h
    obtain ⟨st, hst⟩ := (key ds).2 h
    exact ⟨st.1, by rw [constructPlotDicts]; simp only [hst]; rfl⟩

/-- an environment for examples: ASCII, no `-i` file unless given, every file readable -/
def exampleEnv (input : Option (List Char)) : PlotEnv Unit :=
  { classes := .ascii, lower := Char.toLower, path := "/pkg/".toList, isabs := fun s => s.head? == some '/',
    input := input, sequence := false, load := fun _ => .ok () }

/-- **C42 is not what the program intends for the type**: "only carry type if source unchanged" - a fit given for one
file is carried to the next file. -/
theorem C42_type_counterexample : (constructPlotDicts (exampleEnv none)
    (some [[("source".toList, "a.diam".toList), ("type".toList, "c-fit".toList)], [("source".toList, "b.diam".toList)]])).map
      (fun ps => ps.map (fun p => (dictGet p.1 "source".toList, dictGet p.1 "type".toList))) =
    .ok [(some (.str "a.diam".toList), some (.str "c-fit".toList)), (some (.str "b.diam".toList), some (.str "c-fit".toList))] := by
  decide +kernel

/-- **C42 fails for a relative `-i` directory**: it is put in front of a carried source once more for every plot. -/
theorem C42_source_counterexample : (constructPlotDicts (exampleEnv (some "run/x.cs".toList))
    (some [[("source".toList, "a.diam".toList)], [("type".toList, "poisson".toList)]])).map
      (fun ps => ps.map (fun p => dictGet p.1 "source".toList)) =
    .ok [some (.str "run/a.diam".toList), some (.str "run/run/a.diam".toList)] := by
  decide +kernel

/-- a sequence with abbreviated keys, a carried colour and a name which is not carried -/
example : (constructPlotDicts (exampleEnv none)
    (some [[("src".toList, "%sample%/a.diam".toList), ("col".toList, "red".toList), ("name".toList, "A".toList)],
      [("range".toList, "[.2,.7]".toList)]])).map
      (fun ps => ps.map (fun p => (dictGet p.1 "source".toList, dictGet p.1 "colour".toList, dictGet p.1 "name".toList,
        dictGet p.1 "range".toList))) =
    .ok [(some (.str "/pkg/sample/a.diam".toList), some (.num 1), some (.str "A".toList), some (.strs ["0".toList, "inf".toList])),
      (some (.str "/pkg/sample/a.diam".toList), some (.num 1), some (.str []), some (.strs [".2".toList, ".7".toList]))] := by
  decide +kernel

/-- a range in brackets, and a sample file in quotes -/
example : ValueFor (exampleEnv none) "range".toList "[.2,.7]".toList (.strs [".2".toList, ".7".toList]) ∧
    ValueFor (exampleEnv none) "source".toList "\"%sample%/a.diam\"".toList (.str "/pkg/sample/a.diam".toList) :=
  ⟨(value_iff _ (by decide +kernel) _ _).1 (by decide +kernel), (value_iff _ (by decide +kernel) _ _).1 (by decide +kernel)⟩

/-- the hypotheses of `C42_source_partial` and `C42_accepted` hold without `-i` file -/
example : PlainInput (exampleEnv none) ∧ ∀ s, ∃ s', Placed (exampleEnv none) s s' :=
  ⟨(fun _ _ h => by cases h), fun s => ⟨s, Or.inl ⟨Or.inl rfl, rfl⟩⟩⟩

theorem plain_of_lower {v : List Char} (h : Plain41 (v.map Char.toLower)) : Plain41 v := by
  intro c hc
  have := h (c.toLower) (List.mem_map.2 ⟨c, hc, rfl⟩)
  refine ⟨?_, ?_, ?_, ?_⟩
  · rintro rfl; exact this.1 (by decide)
  · rintro rfl; exact this.2.1 (by decide)
  · rintro rfl; exact this.2.2.1 (by decide)
  · rintro rfl; exact this.2.2.2 (by decide)

/-- **C73, names and codes.** Every colour name and every symbol name, in any case, and every symbol code selects its own
entry. -/
theorem C73_names (v : List Char) :
    (∀ i e, paletteNames[i]? = some e → v.map Char.toLower = e.map Char.toLower → v.head? ≠ some '#' →
      colourValue Char.toLower v = .ok (.num (i : ℕ))) ∧
    (∀ i e, markers[i]? = some e → v = e.1 → psymValue Char.toLower v = .ok (.num (i : ℕ))) ∧
    (∀ i e, markers[i]? = some e → v.map Char.toLower = e.2.map Char.toLower → v ∉ markers.map Prod.fst →
      psymValue Char.toLower v = .ok (.num (i : ℕ))) := by
  refine ⟨?_, ?_, ?_⟩
  · intro i e he hv hh
    have hmem : e ∈ paletteNames := List.mem_of_getElem? he
    obtain ⟨j, f, h1, h2, h3, h4⟩ := C41_full_name Char.toLower paletteNames (by decide +kernel) v e
      (plain_of_lower (by
        have : ∀ e ∈ paletteNames, Plain41 (e.map Char.toLower) := by decide +kernel
        rw [hv]; exact this e hmem)) hmem hv false
    have hij : j = i := by
      have hnd : (paletteNames.map (List.map Char.toLower)).Nodup := by decide +kernel
      have e1 : (paletteNames.map (List.map Char.toLower))[j]? = some (v.map Char.toLower) := by
        rw [List.getElem?_map, h2]; simp [h3]
      have e2 : (paletteNames.map (List.map Char.toLower))[i]? = some (v.map Char.toLower) := by
        rw [List.getElem?_map, he]; simp [hv]
      obtain ⟨hj, _⟩ := List.getElem?_eq_some_iff.1 e1
      exact (List.getElem?_inj hj hnd).1 (e1.trans e2.symm)
    cases v with
    | nil =>
      exfalso
      have : ∀ e ∈ paletteNames, e ≠ [] := by decide +kernel
      exact this e hmem (by simpa using hv.symm)
    | cons c v =>
      rw [colourValue, if_neg (by rintro rfl; exact hh rfl), h1, hij]
      rfl
  · rintro i e he rfl
    have hall : ∀ x ∈ markers.zipIdx, psymValue Char.toLower x.1.1 = .ok (.num (x.2 : ℕ)) := by decide +kernel
    exact hall (e, i) (List.mk_mem_zipIdx_iff_getElem?.2 he)
  · intro i e he hv hn
    have he2 : (markers.map Prod.snd)[i]? = some e.2 := by rw [List.getElem?_map, he]; rfl
    obtain ⟨j, f, h1, h2, h3, h4⟩ := C41_full_name Char.toLower (markers.map Prod.snd) (by decide +kernel) v e.2
      (plain_of_lower (by
        have : ∀ e ∈ markers.map Prod.snd, Plain41 (e.map Char.toLower) := by decide +kernel
        rw [hv]; exact this e.2 (List.mem_of_getElem? he2)))
      (List.mem_of_getElem? he2) hv false
    have hij : j = i := by
      have hnd : ((markers.map Prod.snd).map (List.map Char.toLower)).Nodup := by decide +kernel
      have e1 : ((markers.map Prod.snd).map (List.map Char.toLower))[j]? = some (v.map Char.toLower) := by
        rw [List.getElem?_map, h2]; simp [h3]
      have e2 : ((markers.map Prod.snd).map (List.map Char.toLower))[i]? = some (v.map Char.toLower) := by
        rw [List.getElem?_map, he2]; simp [hv]
      obtain ⟨hj, _⟩ := List.getElem?_eq_some_iff.1 e1
      exact (List.getElem?_inj hj hnd).1 (e1.trans e2.symm)
    have hnil : (markers.map Prod.fst).zipIdx.filter (fun x => x.1 == v) = [] := by
      rw [List.filter_eq_nil_iff]
      rintro ⟨a, k⟩ hx
      have := List.mk_mem_zipIdx_iff_getElem?.1 hx
      simp only [beq_iff_eq]
      rintro rfl
      exact hn (List.mem_of_getElem? this)
    rw [psymValue, hnil]
    simp only [List.map_nil]
    rw [h1, hij]
    rfl

/-- **C73 is false for indices**, although the help text says colours can be given as 0-31 and symbols as 0-14: colour 1 is
not entry 1 but `red1`, symbol 4 is `star4`, and symbol 0 is rejected. -/
theorem C73_index_counterexample : colourValue Char.toLower "1".toList = .ok (.num 24) ∧
    psymValue Char.toLower "4".toList = .ok (.num 2) ∧ psymValue Char.toLower "0".toList = .error .system ∧
    colourValue Char.toLower "0".toList = .error .system := by
  decide +kernel

/-- **C73, hexadecimal colours**: a number sign and six hexadecimal digits are kept as they are, with fewer or other
characters they are rejected. -/
theorem C73_hex (lower : Char → Char) (h : List Char) (hlen : h.length = 6) :
    colourValue lower ('#' :: h) = if h.all isHex then .ok (.str ('#' :: h)) else .error .system := by
  rw [colourValue, if_pos rfl, isHexColour]
  have h1 : h.take 6 = h := List.take_of_length_le (by omega)
  have h2 : h.drop 6 = [] := List.drop_of_length_le (by omega)
  rw [h1, h2]
  simp [hlen]

/-- **C73, which colours are accepted.**  A colour is accepted exactly if it is a number sign with six hexadecimal digits, or if it abbreviates a
colour name; the result is the written colour, or the number of the first of the shortest names. -/
theorem C73_accepted (lower : Char → Char) (v : List Char) (x : PVal) : colourValue lower v = .ok x ↔
    (HexColour v ∧ x = .str v ∨ v ≠ [] ∧ v.head? ≠ some '#' ∧ ∃ i, ChosenBy lower paletteNames v i ∧ x = .num (i : ℕ)) := colour_iff lower v x

/-- too short, other characters, and good -/
example : colourValue Char.toLower "#fff".toList = .error .system ∧ colourValue Char.toLower "#00gg00".toList = .error .system ∧
    colourValue Char.toLower "#00Ff00".toList = .ok (.str "#00Ff00".toList) := by decide +kernel

end Verif.Props
