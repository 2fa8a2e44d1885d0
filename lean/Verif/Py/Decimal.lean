import Mathlib.Data.Nat.Log
import Mathlib.Data.Int.Log
import Mathlib.Algebra.Order.Floor.Ring
import Mathlib.Algebra.Order.Round
import Mathlib.Data.Rat.Floor
import Mathlib.Tactic.Ring
import Mathlib.Tactic.Linarith
import Mathlib.Tactic.NormNum
import Mathlib.Tactic.FieldSimp
import Mathlib.Tactic.Positivity
import Mathlib.Tactic.IntervalCases

/-!
Decimal numbers as text.  Doubles are rational numbers, so that formatting and reading are stated over `ℚ`; the sign of
zero, `inf` and `nan` are not represented.
-/

namespace Verif.Py

def isDig (c : Char) : Bool := '0' ≤ c && c ≤ '9'

def digVal (c : Char) : ℕ := c.toNat - 48

def digChar (n : ℕ) : Char := Char.ofNat (48 + n % 10)

/-- the number denoted by a sequence of digits -/
def digitsNum (ds : List Char) : ℕ := ds.foldl (fun a c => 10 * a + digVal c) 0

/-- the last `w` decimal digits of `n` -/
def fixDigits : ℕ → ℕ → List Char
  | 0, _ => []
  | w + 1, n => fixDigits w (n / 10) ++ [digChar n]

/-- `str(n)` for a natural number -/
def natStr (n : ℕ) : List Char := fixDigits (Nat.log 10 n + 1) n

/-- `str(z)` for an integer -/
def intStr (z : ℤ) : List Char := if z < 0 then '-' :: natStr z.natAbs else natStr z.natAbs

/-- optional sign -/
def takeSign (s : List Char) : ℤ × List Char :=
  match s with
  | '-' :: t => (-1, t)
  | '+' :: t => (1, t)
  | _ => (1, s)

/-- `int(s)` for an optional sign followed by digits; anything else (also the white space and underscores which Python
accepts) is rejected -/
def intVal (s : List Char) : Option ℤ :=
  let x := takeSign s
  if x.2 ≠ [] ∧ x.2.all isDig then some (x.1 * (digitsNum x.2 : ℤ)) else none

/-- the digits after a decimal point (none without point) and what follows -/
def fracPart (r : List Char) : List Char × List Char :=
  match r with
  | '.' :: t => (t.takeWhile isDig, t.dropWhile isDig)
  | _ => ([], r)

/-- multiplication by the power of ten given by an exponent, if there is one -/
def expPart (v : ℚ) (r : List Char) : Option ℚ :=
  match r with
  | [] => some v
  | c :: t => if c = 'e' ∨ c = 'E' then (intVal t).map (fun e => v * (10 : ℚ) ^ e) else none

/-- the number denoted by plain or exponential decimal notation, as read by `float(s)`; white space, underscores, `inf`
and `nan` are not read -/
def decVal (s : List Char) : Option ℚ :=
  let x := takeSign s
  let ip := x.2.takeWhile isDig
  let y := fracPart (x.2.dropWhile isDig)
  if ip = [] ∧ y.1 = [] then none else
    expPart ((x.1 : ℚ) * ((digitsNum (ip ++ y.1) : ℕ) : ℚ) / 10 ^ y.1.length) y.2

theorem digChar_toNat (n : ℕ) : (digChar n).toNat = 48 + n % 10 := by
  have : n % 10 < 10 := Nat.mod_lt _ (by norm_num)
  rw [digChar]
  interval_cases n % 10 <;> rfl

theorem isDig_digChar (n : ℕ) : isDig (digChar n) = true := by
  have : n % 10 < 10 := Nat.mod_lt _ (by norm_num)
  rw [digChar]
  interval_cases n % 10 <;> rfl

theorem digVal_digChar (n : ℕ) : digVal (digChar n) = n % 10 := by rw [digVal, digChar_toNat]; omega

theorem fixDigits_length (w n : ℕ) : (fixDigits w n).length = w := by
  induction w generalizing n with
  | zero => rfl
  | succ w ih => rw [fixDigits, List.length_append, ih]; rfl

theorem fixDigits_isDig (w n : ℕ) : ∀ c ∈ fixDigits w n, isDig c = true := by
  induction w generalizing n with
  | zero => simp [fixDigits]
  | succ w ih =>
    intro c hc
    rw [fixDigits, List.mem_append, List.mem_singleton] at hc
    rcases hc with hc | rfl
    · exact ih _ c hc
    · exact isDig_digChar n

theorem digitsNum_append (a b : List Char) : digitsNum (a ++ b) = digitsNum a * 10 ^ b.length + digitsNum b := by
  induction b using List.reverseRecOn with
  | nil => simp [digitsNum]
  | append_singleton b c ih =>
    have h : ∀ l : List Char, digitsNum (l ++ [c]) = 10 * digitsNum l + digVal c := by
      intro l; simp [digitsNum, List.foldl_append]
    rw [← List.append_assoc, h, h, ih, List.length_append, List.length_singleton, pow_succ]
    ring

theorem digitsNum_fixDigits (w n : ℕ) : digitsNum (fixDigits w n) = n % 10 ^ w := by
  induction w generalizing n with
  | zero => simp [fixDigits, digitsNum, Nat.mod_one]
  | succ w ih =>
    rw [fixDigits, digitsNum_append, ih]
    have : digitsNum [digChar n] = n % 10 := by simp [digitsNum, digVal_digChar]
    rw [this, List.length_singleton, pow_one, pow_succ, mul_comm (10 ^ w) 10, Nat.mod_mul]
    ring

theorem digitsNum_replicate_zero (k : ℕ) : digitsNum (List.replicate k '0') = 0 := by
  induction k with
  | zero => rfl
  | succ k ih =>
    rw [List.replicate_succ', digitsNum_append, ih]; rfl

theorem natStr_ne_nil (n : ℕ) : natStr n ≠ [] := by
  intro h
  have := fixDigits_length (Nat.log 10 n + 1) n
  rw [← natStr, h] at this
  simp at this

theorem digitsNum_natStr (n : ℕ) : digitsNum (natStr n) = n := by
  rw [natStr, digitsNum_fixDigits]
  exact Nat.mod_eq_of_lt (Nat.lt_pow_succ_log_self (by norm_num) n)

theorem dig_ne_sign {c : Char} (h : isDig c = true) : c ≠ '-' ∧ c ≠ '+' ∧ c ≠ '.' ∧ c ≠ 'e' ∧ c ≠ 'E' := by
  refine ⟨?_, ?_, ?_, ?_, ?_⟩ <;> rintro rfl <;> revert h <;> decide

theorem takeSign_of_dig {s : List Char} (h : ∀ c ∈ s.head?, isDig c = true ∨ c = '.') : takeSign s = (1, s) := by
  cases s with
  | nil => rfl
  | cons c l =>
    have hc := h c rfl
    have : c ≠ '-' ∧ c ≠ '+' := by
      rcases hc with hc | rfl
      · exact ⟨(dig_ne_sign hc).1, (dig_ne_sign hc).2.1⟩
      · decide
    unfold takeSign
    split
    · rename_i e; exact absurd (List.cons.inj e).1 this.1
    · rename_i e; exact absurd (List.cons.inj e).1 this.2
    · rfl

theorem intVal_intStr (z : ℤ) : intVal (intStr z) = some z := by
  have hd : ∀ n, (natStr n).all isDig = true := fun n => List.all_eq_true.2 (fixDigits_isDig _ n)
  have hs : ∀ n, takeSign (natStr n) = (1, natStr n) := by
    intro n
    apply takeSign_of_dig
    intro c hc
    exact Or.inl (fixDigits_isDig _ n c (List.mem_of_mem_head? hc))
  rw [intStr]
  split
  · rename_i h
    have : takeSign ('-' :: natStr z.natAbs) = (-1, natStr z.natAbs) := rfl
    rw [intVal]
    simp only [this]
    rw [if_pos ⟨natStr_ne_nil _, hd _⟩, digitsNum_natStr]
    congr 1
    omega
  · rename_i h
    rw [intVal]
    simp only [hs]
    rw [if_pos ⟨natStr_ne_nil _, hd _⟩, digitsNum_natStr]
    congr 1
    omega

theorem takeWhile_eq_self' {p : Char → Bool} {l : List Char} (h : ∀ c ∈ l, p c = true) : l.takeWhile p = l := by
  have := List.takeWhile_append_of_pos (l₂ := []) h
  simpa using this

theorem dropWhile_eq_nil' {p : Char → Bool} {l : List Char} (h : ∀ c ∈ l, p c = true) : l.dropWhile p = [] := by
  have := List.dropWhile_append_of_pos (l₂ := []) h
  simpa using this

theorem expPart_neg (v : ℚ) (r : List Char) : expPart (-v) r = (expPart v r).map (fun v => -v) := by
  unfold expPart
  split
  · rfl
  · split
    · rw [Option.map_map]
      congr 1
      funext e
      simp only [Function.comp]
      ring
    · rfl

/-- reading plain decimal notation -/
theorem decVal_plain (ip fp : List Char) (hi : ∀ c ∈ ip, isDig c = true) (hf : ∀ c ∈ fp, isDig c = true)
    (hne : ip ≠ [] ∨ fp ≠ []) : decVal (ip ++ '.' :: fp) = some (((digitsNum (ip ++ fp) : ℕ) : ℚ) / 10 ^ fp.length) := by
  have hs : takeSign (ip ++ '.' :: fp) = (1, ip ++ '.' :: fp) := by
    apply takeSign_of_dig
    intro c hc
    cases ip with
    | nil => right; simpa using hc.symm
    | cons d ip => left; simp at hc; subst hc; exact hi _ (by simp)
  have h1 : (ip ++ '.' :: fp).takeWhile isDig = ip := by
    rw [List.takeWhile_append_of_pos hi, List.takeWhile_cons_of_neg (by decide), List.append_nil]
  have h2 : (ip ++ '.' :: fp).dropWhile isDig = '.' :: fp := by
    rw [List.dropWhile_append_of_pos hi, List.dropWhile_cons_of_neg (by decide)]
  have h3 : fp.takeWhile isDig = fp := takeWhile_eq_self' hf
  have h4 : fp.dropWhile isDig = [] := dropWhile_eq_nil' hf
  rw [decVal]
  have h5 : fracPart ('.' :: fp) = (fp, []) := by rw [fracPart, h3, h4]
  simp only [hs, h1, h2, h5]
  rw [if_neg (by tauto), expPart]
  norm_num

/-- reading digits only -/
theorem decVal_digits (ip : List Char) (hi : ∀ c ∈ ip, isDig c = true) (hne : ip ≠ []) :
    decVal ip = some ((digitsNum ip : ℕ) : ℚ) := by
  have hs : takeSign ip = (1, ip) := by
    apply takeSign_of_dig
    intro c hc
    exact Or.inl (hi c (List.mem_of_mem_head? hc))
  have h1 : ip.takeWhile isDig = ip := takeWhile_eq_self' hi
  have h2 : ip.dropWhile isDig = [] := dropWhile_eq_nil' hi
  rw [decVal]
  have h5 : fracPart [] = ([], []) := rfl
  simp only [hs, h1, h2, h5]
  rw [if_neg (by tauto), expPart]
  norm_num

/-- a minus sign in front -/
theorem decVal_neg (s : List Char) (h : ∀ c ∈ s.head?, isDig c = true ∨ c = '.') :
    decVal ('-' :: s) = (decVal s).map (fun v => -v) := by
  have h1 : takeSign ('-' :: s) = (-1, s) := rfl
  rw [decVal, decVal]
  simp only [h1, takeSign_of_dig h]
  split
  · rfl
  · rw [← expPart_neg]
    congr 1
    push_cast
    ring

end Verif.Py
