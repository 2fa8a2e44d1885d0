import Mathlib.Data.List.Basic
import Mathlib.Data.List.TakeWhile
import Mathlib.Tactic.Common
import Mathlib.Tactic.IntervalCases

/-!
A model of the part of Python's `re` which craterstats uses.  Strings are lists of characters.

`Re.run r s` is the list of all ways to match `r` from state `s`, in the order in which the backtracking matcher of
`re` tries them (documented: alternatives left to right, greedy repetition tries more first, lazy repetition tries
fewer first).  The first entry is therefore the match `re` finds.  A repetition of a pattern of unknown length requires
each further round to consume at least one character (`re` gives up on a round which consumes nothing).

Unicode character classes are parameters: theorems hold for every classification agreeing with ASCII on the
characters named in `Classes`.
-/

namespace Verif.Py

/-- ASCII white space of Python: tab, line feed, vertical tab, form feed, carriage return, the separators 28-31, space -/
def asciiSpace (c : Char) : Bool := (9 ≤ c.toNat && c.toNat ≤ 13) || (28 ≤ c.toNat && c.toNat ≤ 32)

/-- classification of characters by `\w`, `\d`, `\s` -/
structure Classes where
  word : Char → Bool
  digit : Char → Bool
  space : Char → Bool
  word_ascii : ∀ c : Char, c.toNat < 128 → word c = (c.isAlphanum || c == '_')
  digit_ascii : ∀ c : Char, c.toNat < 128 → digit c = c.isDigit
  space_ascii : ∀ c : Char, c.toNat < 128 → space c = asciiSpace c
  digit_word : ∀ c, digit c = true → word c = true
  space_word : ∀ c, space c = true → word c = false
  /-- value of a digit, as `int` reads it -/
  dval : Char → ℕ
  dval_ascii : ∀ c : Char, c.toNat < 128 → digit c = true → dval c = c.toNat - 48

/-- the classification of the flag `re.ASCII` -/
def Classes.ascii : Classes where
  word c := c.isAlphanum || c == '_'
  digit c := c.isDigit
  space c := asciiSpace c
  word_ascii _ _ := rfl
  digit_ascii _ _ := rfl
  space_ascii _ _ := rfl
  digit_word c h := by simp [Char.isAlphanum, h]
  space_word c h := by
    simp only [asciiSpace, Bool.or_eq_true, Bool.and_eq_true, decide_eq_true_eq] at h
    have hn : c.toNat ≤ 32 := by omega
    have e : c = Char.ofNat c.toNat := (Char.ofNat_toNat c).symm
    generalize c.toNat = n at e hn
    subst e
    interval_cases n <;> decide
  dval c := c.toNat - 48
  dval_ascii _ _ _ := rfl

/-- state of a match: characters before the current position (reversed), characters after it, and the groups
captured so far (number, start position, text), latest first -/
structure St where
  pre : List Char
  rest : List Char
  caps : List (ℕ × ℕ × List Char) := []
  deriving DecidableEq

inductive Re
  | eps
  | chr (p : Char → Bool)
  | seq (a b : Re)
  | alt (a b : Re)
  | star (greedy : Bool) (r : Re)
  /-- at most `n` repetitions (greedy); `r?` is `upto 1 r` -/
  | upto (n : ℕ) (r : Re)
  | grp (n : ℕ) (r : Re)
  /-- `^`; with the flag `m` also after a line feed -/
  | bol (multi : Bool)
  /-- `$`: at the end or before a final line feed; with the flag `m` before any line feed -/
  | eol (multi : Bool)
  /-- `(?=r)` -/
  | look (r : Re)

/-- rounds of a repetition -/
def starRun (body : St → List St) (greedy : Bool) : ℕ → St → List St
  | 0, s => [s]
  | n + 1, s =>
    let more := ((body s).filter (fun t => decide (t.rest.length < s.rest.length))).flatMap (starRun body greedy n)
    if greedy then more ++ [s] else s :: more

def uptoRun (body : St → List St) : ℕ → St → List St
  | 0, s => [s]
  | n + 1, s => (body s).flatMap (uptoRun body n) ++ [s]

def Re.run : Re → St → List St
  | .eps, s => [s]
  | .chr p, s =>
    match s.rest with
    | c :: l => if p c then [⟨c :: s.pre, l, s.caps⟩] else []
    | [] => []
  | .seq a b, s => (a.run s).flatMap b.run
  | .alt a b, s => a.run s ++ b.run s
  | .star g r, s => starRun r.run g s.rest.length s
  | .upto n r, s => uptoRun r.run n s
  | .grp n r, s => (r.run s).map (fun t =>
      { t with caps := (n, s.pre.length, (t.pre.take (t.pre.length - s.pre.length)).reverse) :: t.caps })
  | .bol m, s => match s.pre with
    | [] => [s]
    | c :: _ => if m && c == '\n' then [s] else []
  | .eol m, s => match s.rest with
    | [] => [s]
    | c :: l => if c == '\n' && (m || l.isEmpty) then [s] else []
  | .look r, s => if (r.run s).isEmpty then [] else [s]

/-- `re.match` -/
def Re.match_ (r : Re) (s : List Char) : Option St := (r.run ⟨[], s, []⟩).head?

/-- first match from a position on; the result carries the state at the start of the match -/
def Re.searchFrom (r : Re) (pre : List Char) : List Char → Option (St × St)
  | [] => ((r.run ⟨pre, [], []⟩).head?).map (fun t => (⟨pre, [], []⟩, t))
  | c :: l =>
    match (r.run ⟨pre, c :: l, []⟩).head? with
    | some t => some (⟨pre, c :: l, []⟩, t)
    | none => r.searchFrom (c :: pre) l

/-- `re.search` -/
def Re.search (r : Re) (s : List Char) : Option (St × St) := r.searchFrom [] s

/-- text of group `n`; `none` if the group took no part -/
def St.group (t : St) (n : ℕ) : Option (List Char) := (t.caps.find? (fun c => c.1 == n)).map (fun c => c.2.2)

/-- start position of group `n` -/
def St.groupStart (t : St) (n : ℕ) : Option ℕ := (t.caps.find? (fun c => c.1 == n)).map (fun c => c.2.1)

/-- the whole match, from the state at its start -/
def matched (s t : St) : List Char := (t.pre.take (t.pre.length - s.pre.length)).reverse

/-- `re.finditer` (for patterns which never match the empty string): successive matches from left to right.  Each
step consumes at least one character or stops, so the length of the string is enough fuel. -/
def Re.findIter (r : Re) : ℕ → List Char → List Char → List (St × St)
  | 0, _, _ => []
  | fuel + 1, pre, rest =>
    match r.searchFrom pre rest with
    | none => []
    | some (s, t) => if t.rest.length < s.rest.length then (s, t) :: r.findIter fuel t.pre t.rest else []

def Re.findAll (r : Re) (s : List Char) : List (St × St) := r.findIter (s.length + 1) [] s

/-- `re.split` (pattern without groups, never matching the empty string): the texts between successive matches -/
def Re.pieces (r : Re) : ℕ → List Char → List Char → List (List Char)
  | 0, _, rest => [rest]
  | fuel + 1, pre, rest =>
    match r.searchFrom pre rest with
    | none => [rest]
    | some (s, t) =>
      if t.rest.length < s.rest.length then
        (s.pre.take (s.pre.length - pre.length)).reverse :: r.pieces fuel t.pre t.rest
      else [rest]

def Re.split (r : Re) (s : List Char) : List (List Char) := r.pieces (s.length + 1) [] s

/-! ### abbreviations -/

def Re.lit (c : Char) : Re := .chr (fun d => d == c)
/-- `.` without the flag `s` -/
def Re.dot : Re := .chr (fun d => d != '\n')
/-- `.` with the flag `s` -/
def Re.any : Re := .chr (fun _ => true)
def Re.opt (r : Re) : Re := .upto 1 r
/-- greedy `*` and `+`, lazy `*?` -/
def Re.many (r : Re) : Re := .star true r
def Re.some1 (r : Re) : Re := .seq r (.star true r)
def Re.lazy (r : Re) : Re := .star false r

/-! ### basic facts -/

@[simp] theorem run_eps (s : St) : Re.eps.run s = [s] := rfl
theorem run_seq (a b : Re) (s : St) : (Re.seq a b).run s = (a.run s).flatMap b.run := rfl
theorem run_alt (a b : Re) (s : St) : (Re.alt a b).run s = a.run s ++ b.run s := rfl

/-- matching only moves characters from `rest` to `pre` -/
def Step (s t : St) : Prop := ∃ w, s.rest = w ++ t.rest ∧ t.pre = w.reverse ++ s.pre

theorem Step.refl (s : St) : Step s s := ⟨[], rfl, rfl⟩

theorem Step.trans {a b c : St} (h1 : Step a b) (h2 : Step b c) : Step a c := by
  obtain ⟨u, hu1, hu2⟩ := h1
  obtain ⟨v, hv1, hv2⟩ := h2
  exact ⟨u ++ v, by rw [hu1, hv1, List.append_assoc], by rw [hv2, hu2, List.reverse_append, List.append_assoc]⟩

theorem starRun_step {body : St → List St} (hb : ∀ s, ∀ t ∈ body s, Step s t) (g : Bool) :
    ∀ n s, ∀ t ∈ starRun body g n s, Step s t := by
  intro n
  induction n with
  | zero => intro s t ht; rw [starRun, List.mem_singleton] at ht; subst ht; exact Step.refl _
  | succ n ih =>
    intro s t ht
    have key : t ∈ ((body s).filter (fun t => decide (t.rest.length < s.rest.length))).flatMap (starRun body g n) ∨ t = s := by
      simp only [starRun] at ht
      cases g <;> simp only [Bool.false_eq_true, if_false, if_true, List.mem_cons, List.mem_append, List.not_mem_nil, or_false] at ht
      · exact ht.symm
      · exact ht
    rcases key with h | h
    · obtain ⟨u, hu, h⟩ := List.mem_flatMap.1 h
      exact (hb s u (List.mem_of_mem_filter hu)).trans (ih u t h)
    · subst h; exact Step.refl _

theorem uptoRun_step {body : St → List St} (hb : ∀ s, ∀ t ∈ body s, Step s t) :
    ∀ n s, ∀ t ∈ uptoRun body n s, Step s t := by
  intro n
  induction n with
  | zero => intro s t ht; rw [uptoRun, List.mem_singleton] at ht; subst ht; exact Step.refl _
  | succ n ih =>
    intro s t ht
    simp only [uptoRun, List.mem_append, List.mem_flatMap, List.mem_singleton] at ht
    rcases ht with ⟨u, hu, h⟩ | h
    · exact (hb s u hu).trans (ih u t h)
    · subst h; exact Step.refl _

theorem run_step (r : Re) : ∀ s, ∀ t ∈ r.run s, Step s t := by
  induction r with
  | eps => intro s t ht; rw [run_eps, List.mem_singleton] at ht; subst ht; exact Step.refl _
  | chr p =>
    intro s t ht
    obtain ⟨pre, rest, caps⟩ := s
    cases rest with
    | nil => simp [Re.run] at ht
    | cons c l =>
      simp only [Re.run] at ht
      split at ht
      · rw [List.mem_singleton] at ht; subst ht; exact ⟨[c], rfl, rfl⟩
      · simp at ht
  | seq a b iha ihb =>
    intro s t ht
    obtain ⟨u, hu, h⟩ := List.mem_flatMap.1 ht
    exact (iha s u hu).trans (ihb u t h)
  | alt a b iha ihb =>
    intro s t ht
    rcases List.mem_append.1 ht with h | h
    · exact iha s t h
    · exact ihb s t h
  | star g r ih => intro s t ht; exact starRun_step ih g _ s t ht
  | upto n r ih => intro s t ht; exact uptoRun_step ih n s t ht
  | grp n r ih =>
    intro s t ht
    simp only [Re.run, List.mem_map] at ht
    obtain ⟨u, hu, rfl⟩ := ht
    obtain ⟨w, h1, h2⟩ := ih s u hu
    exact ⟨w, h1, h2⟩
  | bol m =>
    intro s t ht
    simp only [Re.run] at ht
    have : t = s := by
      split at ht
      · simpa using ht
      · split at ht
        · simpa using ht
        · simp at ht
    subst this; exact Step.refl _
  | eol m =>
    intro s t ht
    simp only [Re.run] at ht
    have : t = s := by
      split at ht
      · simpa using ht
      · split at ht
        · simpa using ht
        · simp at ht
    subst this; exact Step.refl _
  | look r ih =>
    intro s t ht
    simp only [Re.run] at ht
    split at ht
    · simp at ht
    · rw [List.mem_singleton] at ht; subst ht; exact Step.refl _

/-- the state after consuming the first `k` characters -/
def St.adv (s : St) (k : ℕ) : St := ⟨(s.rest.take k).reverse ++ s.pre, s.rest.drop k, s.caps⟩

@[simp] theorem adv_zero (s : St) : s.adv 0 = s := by simp [St.adv]
@[simp] theorem adv_caps (s : St) (k : ℕ) : (s.adv k).caps = s.caps := rfl
@[simp] theorem adv_rest (s : St) (k : ℕ) : (s.adv k).rest = s.rest.drop k := rfl
theorem adv_pre (s : St) (k : ℕ) : (s.adv k).pre = (s.rest.take k).reverse ++ s.pre := rfl

theorem adv_adv (s : St) (j k : ℕ) : (s.adv j).adv k = s.adv (j + k) := by
  simp only [St.adv, List.drop_drop, List.take_add, List.reverse_append, List.append_assoc]

theorem run_chr_nil (p : Char → Bool) (pre caps) : (Re.chr p).run ⟨pre, [], caps⟩ = [] := rfl

theorem run_chr_cons (p : Char → Bool) (pre c l caps) :
    (Re.chr p).run ⟨pre, c :: l, caps⟩ = if p c then [⟨c :: pre, l, caps⟩] else [] := rfl

theorem run_chr_adv (p : Char → Bool) (s : St) :
    (Re.chr p).run s = match s.rest with | c :: _ => if p c then [s.adv 1] else [] | [] => [] := by
  obtain ⟨pre, rest, caps⟩ := s
  cases rest <;> simp [Re.run, St.adv]

/-- number of leading characters satisfying `p` -/
def runLen (p : Char → Bool) (l : List Char) : ℕ := (l.takeWhile p).length

theorem runLen_cons_pos {p : Char → Bool} {c : Char} {l : List Char} (h : p c = true) : runLen p (c :: l) = runLen p l + 1 := by
  simp [runLen, List.takeWhile_cons, h]

theorem runLen_cons_neg {p : Char → Bool} {c : Char} {l : List Char} (h : ¬ p c = true) : runLen p (c :: l) = 0 := by
  simp [runLen, List.takeWhile_cons, h]

theorem runLen_le (p : Char → Bool) (l : List Char) : runLen p l ≤ l.length := (List.takeWhile_prefix p).length_le

/-- greedy repetition of a character class: all lengths up to the maximal run, longest first -/
theorem run_star_chr_greedy (p : Char → Bool) (s : St) :
    (Re.star true (.chr p)).run s = ((List.range (runLen p s.rest + 1)).reverse).map s.adv := by
  have main : ∀ n (s : St), s.rest.length ≤ n → starRun (Re.chr p).run true n s =
      ((List.range (runLen p s.rest + 1)).reverse).map s.adv := by
    intro n
    induction n with
    | zero =>
      intro s h
      have : s.rest = [] := List.length_eq_zero_iff.1 (by omega)
      simp [starRun, this, runLen]
    | succ n ih =>
      intro s h
      obtain ⟨pre, rest, caps⟩ := s
      cases rest with
      | nil => simp [starRun, Re.run, runLen]
      | cons c l =>
        simp only [starRun, if_true, run_chr_cons]
        by_cases hc : p c = true
        · rw [if_pos hc]
          have hl : l.length ≤ n := by simpa using h
          simp only [List.length_cons, List.filter_cons, Nat.lt_succ_self, decide_true, if_true, List.filter_nil,
            List.flatMap_cons, List.flatMap_nil, List.append_nil]
          rw [ih _ hl, runLen_cons_pos hc, List.range_succ_eq_map (n := runLen p l + 1), List.reverse_cons, List.map_append,
            List.map_cons, List.map_nil, adv_zero, ← List.map_reverse, List.map_map]
          congr 1
          apply List.map_congr_left
          intro k _
          simp [St.adv]
        · rw [if_neg hc, runLen_cons_neg hc]
          simp
  exact main _ s le_rfl

/-- lazy repetition: shortest first -/
theorem run_star_chr_lazy (p : Char → Bool) (s : St) :
    (Re.star false (.chr p)).run s = (List.range (runLen p s.rest + 1)).map s.adv := by
  have main : ∀ n (s : St), s.rest.length ≤ n → starRun (Re.chr p).run false n s =
      (List.range (runLen p s.rest + 1)).map s.adv := by
    intro n
    induction n with
    | zero =>
      intro s h
      have : s.rest = [] := List.length_eq_zero_iff.1 (by omega)
      simp [starRun, this, runLen]
    | succ n ih =>
      intro s h
      obtain ⟨pre, rest, caps⟩ := s
      cases rest with
      | nil => simp [starRun, Re.run, runLen]
      | cons c l =>
        simp only [starRun, Bool.false_eq_true, if_false, run_chr_cons]
        by_cases hc : p c = true
        · rw [if_pos hc]
          have hl : l.length ≤ n := by simpa using h
          simp only [List.length_cons, List.filter_cons, Nat.lt_succ_self, decide_true, if_true, List.filter_nil,
            List.flatMap_cons, List.flatMap_nil, List.append_nil]
          rw [ih _ hl, runLen_cons_pos hc, List.range_succ_eq_map (n := runLen p l + 1), List.map_cons, adv_zero, List.map_map]
          congr 1
          apply List.map_congr_left
          intro k _
          simp [St.adv]
        · rw [if_neg hc, runLen_cons_neg hc]
          simp
  exact main _ s le_rfl

/-- bounded repetition of a character class, longest first -/
theorem run_upto_chr (p : Char → Bool) (n : ℕ) (s : St) :
    (Re.upto n (.chr p)).run s = ((List.range (min n (runLen p s.rest) + 1)).reverse).map s.adv := by
  show uptoRun (Re.chr p).run n s = _
  induction n generalizing s with
  | zero => simp [uptoRun]
  | succ n ih =>
    obtain ⟨pre, rest, caps⟩ := s
    cases rest with
    | nil => simp [uptoRun, Re.run, runLen]
    | cons c l =>
      simp only [uptoRun, run_chr_cons]
      by_cases hc : p c = true
      · rw [if_pos hc]
        simp only [List.flatMap_cons, List.flatMap_nil, List.append_nil]
        rw [ih, runLen_cons_pos hc, Nat.add_min_add_right, List.range_succ_eq_map (n := min n (runLen p l) + 1),
          List.reverse_cons, List.map_append, List.map_cons, List.map_nil, adv_zero, ← List.map_reverse, List.map_map]
        congr 1
        apply List.map_congr_left
        intro k _
        simp [St.adv]
      · rw [if_neg hc, runLen_cons_neg hc]
        simp

/-- the text captured by a group which consumes `k` characters -/
theorem matched_adv (s : St) (k : ℕ) (hk : k ≤ s.rest.length) : matched s (s.adv k) = s.rest.take k := by
  simp [matched, St.adv, Nat.min_eq_left hk]

theorem matched_step {s t : St} {w : List Char} (h : t.pre = w.reverse ++ s.pre) : matched s t = w := by
  simp [matched, h]

theorem run_grp (n : ℕ) (r : Re) (s : St) :
    (Re.grp n r).run s = (r.run s).map (fun t => { t with caps := (n, s.pre.length, matched s t) :: t.caps }) := rfl

theorem run_eol_false (s : St) (h : '\n' ∉ s.rest) : (Re.eol false).run s = if s.rest = [] then [s] else [] := by
  obtain ⟨pre, rest, caps⟩ := s
  cases rest with
  | nil => rfl
  | cons c l =>
    have : c ≠ '\n' := fun e => h (by simp [e])
    simp [Re.run, this]

theorem flatMap_head? {α β : Type} (l : List α) (f : α → List β) :
    (l.flatMap f).head? = l.findSome? (fun a => (f a).head?) := by
  induction l with
  | nil => rfl
  | cons a l ih =>
    rw [List.flatMap_cons, List.findSome?_cons]
    cases h : f a with
    | nil => simpa using ih
    | cons b m => simp

/-- the first index at which something is found -/
theorem findSome?_range {β : Type} (g : ℕ → Option β) (n k : ℕ) (x : β) (hk : k < n) (hx : g k = some x)
    (hn : ∀ j < k, g j = none) : (List.range n).findSome? g = some x := by
  have e : List.range n = List.range k ++ (k :: (List.range (n - k - 1)).map (· + (k + 1))) := by
    conv_lhs => rw [show n = k + ((n - k - 1) + 1) by omega, List.range_add, List.range_succ_eq_map]
    simp [Function.comp_def, Nat.add_comm, Nat.add_left_comm]
  rw [e, List.findSome?_append]
  have : (List.range k).findSome? g = none := by
    rw [List.findSome?_eq_none_iff]
    intro j hj
    exact hn j (List.mem_range.1 hj)
  rw [this, List.findSome?_cons, hx]
  rfl

/-- the last index at which something is found -/
theorem findSome?_range_reverse {β : Type} (g : ℕ → Option β) (n k : ℕ) (x : β) (hk : k < n) (hx : g k = some x)
    (hn : ∀ j, k < j → j < n → g j = none) : (List.range n).reverse.findSome? g = some x := by
  have e : List.range n = List.range k ++ (k :: (List.range (n - k - 1)).map (· + (k + 1))) := by
    conv_lhs => rw [show n = k + ((n - k - 1) + 1) by omega, List.range_add, List.range_succ_eq_map]
    simp [Function.comp_def, Nat.add_comm, Nat.add_left_comm]
  rw [e, List.reverse_append, List.reverse_cons, List.findSome?_append, List.findSome?_append]
  have : ((List.range (n - k - 1)).map (· + (k + 1))).reverse.findSome? g = none := by
    rw [List.findSome?_eq_none_iff]
    intro j hj
    rw [List.mem_reverse, List.mem_map] at hj
    obtain ⟨i, hi, rfl⟩ := hj
    exact hn _ (by omega) (by have := List.mem_range.1 hi; omega)
  rw [this, List.findSome?_cons, hx]
  rfl

/-- the state after a group which consumes `k` characters -/
def St.cap (s : St) (i k : ℕ) : St :=
  ⟨(s.rest.take k).reverse ++ s.pre, s.rest.drop k, (i, s.pre.length, s.rest.take k) :: s.caps⟩

@[simp] theorem cap_rest (s : St) (i k : ℕ) : (s.cap i k).rest = s.rest.drop k := rfl
@[simp] theorem cap_caps (s : St) (i k : ℕ) : (s.cap i k).caps = (i, s.pre.length, s.rest.take k) :: s.caps := rfl

theorem run_lazy_grp_seq (p : Char → Bool) (i : ℕ) (r : Re) (s : St) :
    (Re.seq (.grp i (.lazy (.chr p))) r).run s =
      (List.range (runLen p s.rest + 1)).flatMap (fun k => r.run (s.cap i k)) := by
  rw [run_seq, run_grp, Re.lazy, run_star_chr_lazy, List.map_map, List.flatMap_map]
  apply List.flatMap_congr
  intro k hk
  have : k ≤ s.rest.length := by have := runLen_le p s.rest; have := List.mem_range.1 hk; omega
  simp only [Function.comp, matched_adv s k this]
  rfl

theorem run_many_grp_seq (p : Char → Bool) (i : ℕ) (r : Re) (s : St) :
    (Re.seq (.grp i (.many (.chr p))) r).run s =
      (List.range (runLen p s.rest + 1)).reverse.flatMap (fun k => r.run (s.cap i k)) := by
  rw [run_seq, run_grp, Re.many, run_star_chr_greedy, List.map_map, List.flatMap_map]
  apply List.flatMap_congr
  intro k hk
  have : k ≤ s.rest.length := by
    have := runLen_le p s.rest; have := List.mem_range.1 (List.mem_reverse.1 hk); omega
  simp only [Function.comp, matched_adv s k this]
  rfl

/-- a lazy group takes the fewest characters with which the rest matches -/
theorem lazy_grp_seq_head (p : Char → Bool) (i : ℕ) (r : Re) (s t : St) (k : ℕ) (hk : k ≤ runLen p s.rest)
    (hx : (r.run (s.cap i k)).head? = some t) (hn : ∀ j < k, r.run (s.cap i j) = []) :
    ((Re.seq (.grp i (.lazy (.chr p))) r).run s).head? = some t := by
  rw [run_lazy_grp_seq, flatMap_head?]
  exact findSome?_range _ _ k _ (by omega) hx (fun j hj => by simp [hn j hj])

/-- a greedy group takes the most characters with which the rest matches -/
theorem many_grp_seq_head (p : Char → Bool) (i : ℕ) (r : Re) (s t : St) (k : ℕ) (hk : k ≤ runLen p s.rest)
    (hx : (r.run (s.cap i k)).head? = some t) (hn : ∀ j, k < j → j ≤ runLen p s.rest → r.run (s.cap i j) = []) :
    ((Re.seq (.grp i (.many (.chr p))) r).run s).head? = some t := by
  rw [run_many_grp_seq, flatMap_head?]
  exact findSome?_range_reverse _ _ k _ (by omega) hx (fun j hj hj' => by simp [hn j hj (by omega)])

theorem run_many_seq (p : Char → Bool) (r : Re) (s : St) :
    (Re.seq (.many (.chr p)) r).run s =
      (List.range (runLen p s.rest + 1)).reverse.flatMap (fun k => r.run (s.adv k)) := by
  rw [run_seq, Re.many, run_star_chr_greedy, List.flatMap_map]

theorem run_lazy_seq (p : Char → Bool) (r : Re) (s : St) :
    (Re.seq (.lazy (.chr p)) r).run s =
      (List.range (runLen p s.rest + 1)).flatMap (fun k => r.run (s.adv k)) := by
  rw [run_seq, Re.lazy, run_star_chr_lazy, List.flatMap_map]

theorem many_seq_head (p : Char → Bool) (r : Re) (s t : St) (k : ℕ) (hk : k ≤ runLen p s.rest)
    (hx : (r.run (s.adv k)).head? = some t) (hn : ∀ j, k < j → j ≤ runLen p s.rest → r.run (s.adv j) = []) :
    ((Re.seq (.many (.chr p)) r).run s).head? = some t := by
  rw [run_many_seq, flatMap_head?]
  exact findSome?_range_reverse _ _ k _ (by omega) hx (fun j hj hj' => by simp [hn j hj (by omega)])

theorem lazy_seq_head (p : Char → Bool) (r : Re) (s t : St) (k : ℕ) (hk : k ≤ runLen p s.rest)
    (hx : (r.run (s.adv k)).head? = some t) (hn : ∀ j < k, r.run (s.adv j) = []) :
    ((Re.seq (.lazy (.chr p)) r).run s).head? = some t := by
  rw [run_lazy_seq, flatMap_head?]
  exact findSome?_range _ _ k _ (by omega) hx (fun j hj => by simp [hn j hj])

theorem runLen_eq_length_iff (p : Char → Bool) (l : List Char) : l.length ≤ runLen p l ↔ ∀ c ∈ l, p c = true := by
  induction l with
  | nil => simp [runLen]
  | cons c l ih =>
    by_cases h : p c = true
    · rw [runLen_cons_pos h, List.length_cons]; simp [ih, h]
    · rw [runLen_cons_neg h]; simp [h]

/-- a run of `p` followed by something else -/
theorem runLen_append {p : Char → Bool} {a b : List Char} (h : ∀ c ∈ a, p c = true) :
    runLen p (a ++ b) = a.length + runLen p b := by
  induction a with
  | nil => simp
  | cons c a ih =>
    rw [List.cons_append, runLen_cons_pos (h c (by simp)), ih (fun d hd => h d (by simp [hd])), List.length_cons]
    omega

theorem take_runLen {p : Char → Bool} {l : List Char} {k : ℕ} (hk : k ≤ runLen p l) : ∀ c ∈ l.take k, p c = true := by
  intro c hc
  have hpre : l.take k <+: l.takeWhile p := by
    apply List.prefix_of_prefix_length_le (List.take_prefix _ _) (List.takeWhile_prefix _)
    simp only [List.length_take]
    have : runLen p l = (l.takeWhile p).length := rfl
    omega
  exact List.mem_takeWhile_imp (hpre.subset hc)

theorem seq_head {a b : Re} {s u t : St} (h1 : (a.run s).head? = some u) (h2 : (b.run u).head? = some t) :
    ((Re.seq a b).run s).head? = some t := by
  rw [run_seq]
  cases h : a.run s with
  | nil => simp [h] at h1
  | cons x l =>
    rw [h] at h1
    simp only [List.head?_cons, Option.some.injEq] at h1
    subst h1
    rw [List.flatMap_cons, List.head?_append, h2]
    rfl

theorem many_head (p : Char → Bool) (s : St) : ((Re.many (.chr p)).run s).head? = some (s.adv (runLen p s.rest)) := by
  rw [Re.many, run_star_chr_greedy, List.head?_map, List.range_succ, List.reverse_append]
  rfl

theorem mem_many {p : Char → Bool} {s t : St} (h : t ∈ (Re.many (.chr p)).run s) :
    ∃ w, s.rest = w ++ t.rest ∧ t.pre = w.reverse ++ s.pre ∧ t.caps = s.caps ∧ ∀ c ∈ w, p c = true := by
  rw [Re.many, run_star_chr_greedy, List.mem_map] at h
  obtain ⟨k, hk, rfl⟩ := h
  have hk' := List.mem_range.1 (List.mem_reverse.1 hk)
  exact ⟨s.rest.take k, by simp, rfl, rfl, take_runLen (by omega)⟩

theorem mem_lazy {p : Char → Bool} {s t : St} (h : t ∈ (Re.lazy (.chr p)).run s) :
    ∃ w, s.rest = w ++ t.rest ∧ t.pre = w.reverse ++ s.pre ∧ t.caps = s.caps ∧ ∀ c ∈ w, p c = true := by
  rw [Re.lazy, run_star_chr_lazy, List.mem_map] at h
  obtain ⟨k, hk, rfl⟩ := h
  have hk' := List.mem_range.1 hk
  exact ⟨s.rest.take k, by simp, rfl, rfl, take_runLen (by omega)⟩

theorem mem_chr {p : Char → Bool} {s t : St} (h : t ∈ (Re.chr p).run s) :
    ∃ c, s.rest = c :: t.rest ∧ t.pre = c :: s.pre ∧ t.caps = s.caps ∧ p c = true := by
  obtain ⟨pre, rest, caps⟩ := s
  cases rest with
  | nil => simp [Re.run] at h
  | cons c l =>
    rw [run_chr_cons] at h
    split at h
    · rename_i hc
      rw [List.mem_singleton] at h
      subst h
      exact ⟨c, rfl, rfl, rfl, hc⟩
    · simp at h

theorem mem_some1 {p : Char → Bool} {s t : St} (h : t ∈ (Re.some1 (.chr p)).run s) :
    ∃ w, w ≠ [] ∧ s.rest = w ++ t.rest ∧ t.pre = w.reverse ++ s.pre ∧ t.caps = s.caps ∧ ∀ c ∈ w, p c = true := by
  rw [Re.some1, run_seq, List.mem_flatMap] at h
  obtain ⟨u, hu, ht⟩ := h
  obtain ⟨c, h1, h2, h3, h4⟩ := mem_chr hu
  obtain ⟨w, g1, g2, g3, g4⟩ := mem_many ht
  refine ⟨c :: w, by simp, by rw [h1, g1]; rfl, by rw [g2, h2]; simp, by rw [g3, h3], ?_⟩
  intro d hd
  rcases List.mem_cons.1 hd with rfl | hd
  exacts [h4, g4 d hd]

theorem some1_head (p : Char → Bool) (s : St) (c : Char) (l : List Char) (h : s.rest = c :: l) (hc : p c = true) :
    ((Re.some1 (.chr p)).run s).head? = some (s.adv (runLen p s.rest)) := by
  have h1 : ((Re.chr p).run s).head? = some (s.adv 1) := by rw [run_chr_adv, h]; simp [hc]
  have := seq_head h1 (many_head p (s.adv 1))
  rw [Re.some1]
  refine this.trans ?_
  rw [adv_adv, adv_rest, h, runLen_cons_pos hc]
  simp [Nat.add_comm]

theorem mem_opt {r : Re} {s t : St} (h : t ∈ (Re.opt r).run s) : t ∈ r.run s ∨ t = s := by
  have : (Re.opt r).run s = (r.run s).flatMap (fun t => [t]) ++ [s] := rfl
  rw [this, List.mem_append, List.mem_flatMap] at h
  rcases h with ⟨u, hu, h⟩ | h
  · rw [List.mem_singleton] at h; subst h; exact Or.inl hu
  · exact Or.inr (by simpa using h)

theorem opt_head (r : Re) (s : St) : ((Re.opt r).run s).head? = some (((r.run s).head?).getD s) := by
  have : (Re.opt r).run s = (r.run s).flatMap (fun t => [t]) ++ [s] := rfl
  rw [this]
  cases h : r.run s <;> simp

theorem search_zero {r : Re} {s : List Char} {t : St} (h : (r.run ⟨[], s, []⟩).head? = some t) :
    r.search s = some (⟨[], s, []⟩, t) := by
  cases s with
  | nil => simp [Re.search, Re.searchFrom, h]
  | cons c l => simp [Re.search, Re.searchFrom, h]

/-- no match anywhere -/
theorem searchFrom_none {r : Re} (s : List Char) : ∀ pre, (∀ k ≤ s.length, r.run (St.adv ⟨pre, s, []⟩ k) = []) →
    r.searchFrom pre s = none := by
  induction s with
  | nil => intro pre h; have := h 0 (by simp); simp only [adv_zero] at this; simp [Re.searchFrom, this]
  | cons c l ih =>
    intro pre h
    have h0 := h 0 (by simp)
    simp only [adv_zero] at h0
    simp only [Re.searchFrom, h0, List.head?_nil]
    apply ih
    intro k hk
    have := h (k + 1) (by simpa using hk)
    simpa [St.adv] using this

end Verif.Py
