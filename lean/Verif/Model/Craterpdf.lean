import Verif.Model.Chronology
import Verif.Model.Production
import Mathlib.MeasureTheory.Integral.IntervalIntegral.Basic

/-!
Model of `src/craterstats/Craterpdf.py` (the age likelihood, without the plotting methods) and of
`src/craterstats/gm/maths/poisson.py`.

Simplifications: exact reals (no underflow of the Poisson mass function); `scipy.stats.poisson.pmf` and `math.erf` are
defined here by their mathematical formulae; `scipy.integrate.simpson` is a parameter.
-/

namespace Verif.Craterpdf
open Verif.Py Verif.Cratercount Verif.Chronology Verif.Production

noncomputable section

open Classical in
/-- gm/maths/poisson.py:8-22, `scipy.stats.poisson.pmf(k, lam)`: 0 unless `k` is a non-negative integer, `nan` for
negative `lam` -/
def poissonPmf (k lam : ℝ) : Except Err ℝ :=
  if lam < 0 then .error .nonFinite
  else if h : ∃ n : ℕ, k = n then .ok (lam ^ h.choose * Real.exp (-lam) / (h.choose.factorial : ℝ))
  else .ok 0

/-- Craterpdf.py:39-40: `ts - np.roll(ts, 1)` with the first element replaced by the second (IndexError for fewer than
two samples) -/
def steps (ts : List ℝ) : Except Err (List ℝ) :=
  match List.zipWith (fun a b => b - a) ts ts.tail with
  | [] => .error .index
  | d :: ds => .ok (d :: d :: ds)

/-- what Craterpdf uses of a `Cratercount` -/
structure Source where
  /-- `cc.diam`: `None` for a binned-only count -/
  diam : Option (List ℝ)
  binned : List Bin
  area : ℝ
  perimeter : Option ℝ

/-- Craterpdf.py:42-50: the number of craters.  `elif cc.diam:` is false for an empty list too. -/
def countK (k : Option ℝ) (cc : Source) (lo hi : ℝ) : ℝ :=
  match k with
  | some k => k
  | none =>
    match cc.diam with
    | some (d :: ds) => (((d :: ds).filter (fun e => decide (lo ≤ e ∧ e < hi))).length : ℝ)
    | _ => ((cc.binned.filter (fun b => decide (lo ≤ b.dMin ∧ b.dMax ≤ hi))).map Bin.nEvent).sum

/-- type of `simpson(y, d)` -/
abbrev Simpson := List ℝ → List ℝ → ℝ

/-- Craterpdf.py:52-65: the expected numbers, one for each `x` -/
def lams (pf : PFn) (simpson : Simpson) (cc : Source) (lo hi a0 : ℝ) (bcc : Bool) (x : List ℝ) :
    Except Err (List ℝ) :=
  if bcc then
    match cc.perimeter with
    | none => .error .emptyInput
    | some per => do
      let d := linspace lo hi 500
      let f ← d.mapM (fun e => pf.F e a0)
      let y := List.zipWith (fun e f => (cc.area + e * per / 2 + Real.pi * e ^ 2 / 4) * f) d f
      let l ← log10E (simpson y d)
      .ok (x.map (fun e => (10 : ℝ) ^ (l + e)))
  else do
    let c0 ← pf.evaluate .cumulative lo (some a0)
    let c1 ← pf.evaluate .cumulative hi (some a0)
    let n0 ← log10E c0
    let n1 ← log10E c1
    .ok (x.map (fun e => ((10 : ℝ) ^ (n0 + e) - (10 : ℝ) ^ (n1 + e)) * cc.area))

/-- the attributes of a `Craterpdf` -/
structure Pdf where
  k : ℝ
  ts : List ℝ
  dt : List ℝ
  lam : List ℝ
  pdf : List ℝ
  cdf : List ℝ

/-- Craterpdf.py:69-70: force a peak if under-resolved -/
def forcePeak (pdf0 lam : List ℝ) (k : ℝ) : Except Err (List ℝ) :=
  if pdf0.sum < 1e-30 then
    if searchsorted lam k < pdf0.length then .ok (pdf0.set (searchsorted lam k) 1) else .error .index
  else .ok pdf0

/-- Craterpdf.py:67-73: from the expected numbers to the normalised likelihood; 0/0 is `nan` -/
def finish (c : Chron) (k : ℝ) (ts dt lam : List ℝ) : Except Err Pdf := do
  let p ← lam.mapM (poissonPmf k)
  let ph ← ts.mapM c.phi
  let pdf0 ← forcePeak (List.zipWith (· * ·) p ph) lam k
  let s := (List.zipWith (· * ·) pdf0 dt).sum
  if s = 0 then .error .nonFinite
  else
    let pdf := pdf0.map (fun e => e / s)
    .ok { k := k, ts := ts, dt := dt, lam := lam, pdf := pdf, cdf := cumsum (List.zipWith (· * ·) pdf dt) }

/-- Craterpdf.py:52 `if not lam:` for an array argument: numpy raises ValueError unless it has exactly one element (an
empty array counts as false with a warning, later an error) -/
def truthArray (lam : List ℝ) : Except Err Bool :=
  match lam with
  | [x] => .ok (decide (x ≠ 0))
  | _ => .error .domain

/-- Craterpdf.py:52: is `lam` to be computed? -/
def lamMissing (lam : Option (List ℝ)) : Except Err Bool :=
  match lam with
  | none => .ok true
  | some l => do
    let b ← truthArray l
    .ok (!b)

/-- Craterpdf.py:23-73 `__init__`; `lam` is an array if given (its only use is in `create_sequence_table`,
Craterplotset.py:783) -/
def init (pf : PFn) (c : Chron) (simpson : Simpson) (cc : Source) (lo hi : ℝ) (k : Option ℝ) (lam : Option (List ℝ))
    (bcc : Bool) (n : ℕ) : Except Err Pdf := do
  let x := linspace (-10) 5 n
  let a0 ← c.a0 1
  let ts ← x.mapM (fun e => c.t (some (a0 + e)) none)
  let dt ← steps ts
  let missing ← lamMissing lam
  let lam ← if missing then lams pf simpson cc lo hi a0 bcc x else .ok (lam.getD [])
  finish c (countK k cc lo hi) ts dt lam

/-- Craterpdf.py:76-83 `t` -/
def Pdf.t (p : Pdf) (q : ℝ) : ℝ := interp p.cdf p.ts q

/-- Craterpdf.py:85-92 `cumulative_fraction` -/
def Pdf.cumulativeFraction (p : Pdf) (t : ℝ) : ℝ := interp p.ts p.cdf t

/-- Craterpdf.py:94-101 `relative_probability` -/
def Pdf.relativeProbability (p : Pdf) (t : ℝ) : ℝ := interp p.ts p.pdf t

/-- `math.erf` -/
def erf (x : ℝ) : ℝ := 2 / Real.sqrt Real.pi * ∫ t in (0 : ℝ)..x, Real.exp (-t ^ 2)

/-- Craterpdf.py:110-114: `f` for sigma number `i` -/
def tail (i : ℕ) : ℝ := (1 - erf ((i : ℝ) / Real.sqrt 2)) / 2

/-- Craterpdf.py:103-114 `gaussian_percentiles` -/
def gaussianPercentiles (n : ℕ) : List ℝ :=
  (List.range n).foldl (fun g i => [tail (i + 1)] ++ g ++ [1 - tail (i + 1)]) [0.5]

/-- Craterpdf.py:116-123 `median1sigma`: median, lower, upper -/
def Pdf.median1sigma (p : Pdf) : List ℝ :=
  let g := gaussianPercentiles 1
  [g.getD 1 0, g.getD 0 0, g.getD 2 0].map p.t

/-- `np.roll(l, 1)` -/
def roll1 (l : List ℝ) : List ℝ :=
  match l.getLast? with
  | none => []
  | some x => x :: l.dropLast

/-- Craterpdf.py:236-247 `calculate_sequence_probability` -/
def Pdf.sequenceProbability (p q : Pdf) : ℝ :=
  let cdf2 := List.zipWith (fun a b => (a + b) / 2) q.cdf (roll1 q.cdf)
  (List.zipWith (· * ·) (List.zipWith (· * ·) p.dt p.pdf) cdf2).sum

/-- Craterpdf.py:249-258 `calculate_instantaneous_probability_ratio` -/
def Pdf.instantaneousRatio (p : Pdf) (t : ℝ) : Except Err ℝ :=
  fdiv (p.relativeProbability t) (p.relativeProbability (p.t 0.5))

end

end Verif.Craterpdf
