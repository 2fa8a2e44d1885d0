import Verif.Py.Num
import Mathlib.Analysis.SpecialFunctions.Log.Base
import Mathlib.Analysis.SpecialFunctions.Pow.Real
import Mathlib.Analysis.SpecialFunctions.Sqrt
import Mathlib.Data.EReal.Basic
import Mathlib.Data.EReal.Operations

/-!
Model of `src/craterstats/Cratercount.py` (binning, range decoding, plot data, stat files) and of
`bin_bias_correction` (`src/craterstats/miscellaneous.py`, lines 19-32).

Simplifications common to the whole file
* numbers are exact reals; range limits are extended reals (`np.inf` is a legal limit), `nan` does not occur:
  wherever numpy would deliver `nan`/`inf` through a logarithm or a division by zero the model returns the error
  value `Err.nonFinite` (or `Err.domain` where Python really raises);
* the dictionary of parallel arrays `self.binned` is a list of records `Bin`;
* the two parallel lists `self.diam`, `self.fraction` are one list of pairs.
-/

namespace Verif.Cratercount

open Verif.Py

noncomputable section

/-- `np.log10` on positive numbers -/
def log10 (x : ℝ) : ℝ := Real.logb 10 x

/-- exceptions (Python raises, exits, or numpy delivers `inf`/`nan`) -/
inductive Err
  | invalidBinning
  | emptyInput
  | domain
  | index
  | nonFinite
  | rangeLimit
  | attribute
  | presentation
  deriving DecidableEq, Repr

/-- Cratercount.py:15 `BINNINGS` -/
inductive Binning
  | pseudoLog | perDecade20 | perDecade10 | x2 | root2 | root4 | none
  deriving DecidableEq, Repr

/-- Cratercount.py:15, the names in order -/
def Binning.name : Binning → String
  | .pseudoLog => "pseudo-log"
  | .perDecade20 => "20/decade"
  | .perDecade10 => "10/decade"
  | .x2 => "x2"
  | .root2 => "root-2"
  | .root4 => "4th root-2"
  | .none => "none"

/-- Cratercount.py:282 `if not binning in self.BINNINGS: raise` -/
def Binning.ofName (s : String) : Option Binning :=
  [Binning.pseudoLog, .perDecade20, .perDecade10, .x2, .root2, .root4, .none].find? (fun b => b.name == s)

/-- Python `range(lo, hi)` on integers -/
def pyRange (lo hi : ℤ) : List ℤ := (List.range (hi - lo).toNat).map (fun i : ℕ => lo + (i : ℤ))

/-- `np.arange(start, stop)` with step 1 on floats: `ceil(stop - start)` values `start + i` -/
def arange (start stop : ℝ) : List ℝ := (List.range ⌈stop - start⌉.toNat).map (fun i : ℕ => start + (i : ℝ))

/-- Python slice `l[i:j]` for non-negative `i`, `j` -/
def slice {α : Type*} (l : List α) (i j : ℕ) : List α := (l.take j).drop i

/-- Cratercount.py:253 -/
def mantissas : List ℝ :=
  [1, 1.1, 1.2, 1.3, 1.4, 1.5, 1.7, 2, 2.5, 3, 3.5, 4, 4.5, 5, 6, 7, 8, 9]

/-- Cratercount.py:253-255 -/
def pseudoLogEdges (r0 r1 : ℝ) : List ℝ :=
  (pyRange ⌊r0⌋ ⌈r1 + 0.1⌉).flatMap (fun e => mantissas.map (fun a => (10 : ℝ) ^ e * a))

/-- Cratercount.py:257-262; the two names without entry are treated before (lines 251, 252) -/
def binsPerDecade : Binning → ℝ
  | .x2 => 1 / log10 2
  | .root2 => 2 / log10 2
  | .root4 => 4 / log10 2
  | .perDecade10 => 10
  | .perDecade20 => 20
  | .pseudoLog => 0
  | .none => 0

/-- Cratercount.py:264-266 -/
def regularEdges (bpd off r0 r1 : ℝ) : List ℝ :=
  let lo := ((⌊min (r0 * bpd + off) (r1 * bpd + off)⌋ : ℤ) : ℝ) - off
  let hi := ((⌈max (r0 * bpd + off) (r1 * bpd + off)⌉ : ℤ) : ℝ) - off
  (arange lo (hi + 1)).map (fun b => (10 : ℝ) ^ (b / bpd))

/-- Cratercount.py:268-270 (`q[0]-1` clipped at 0 is natural subtraction) -/
def neededBins (bins : List ℝ) (r0 r1 : ℝ) : List ℝ :=
  slice bins (searchsorted bins ((10 : ℝ) ^ r0) - 1) (searchsorted bins ((10 : ℝ) ^ r1) + 1)

/-- gm/maths/range.py:6-28 without `magnitude`, `outer` -/
def rangeOf {α : Type*} [LinearOrder α] : List α → Option (α × α)
  | [] => Option.none
  | x :: l => some (l.foldl min x, l.foldl max x)

/-- Cratercount.py:235-270.  A non-positive diameter makes `log10` give `-inf`/`nan`, and the following
`int(...)`/`arange` raise: `Err.domain`.  For binning 'none' the list is returned unchanged. -/
def generateBins (b : Binning) (d : List ℝ) (off : ℝ) (expand : Bool) : Except Err (List ℝ) :=
  if b = .none then .ok d
  else
    let r : Option (ℝ × ℝ) :=
      match rangeOf d with
      | Option.none => some (0, 0)
      | some (mn, mx) => if mn ≤ 0 then Option.none else some (log10 mn, log10 mx)
    match r with
    | Option.none => .error .domain
    | some (l0, l1) =>
      let eps : ℝ := 0.001
      let r0 := if expand then l0 else l0 + eps
      let r1 := if expand then l1 + eps else l1 - eps
      let bins := if b = .pseudoLog then pseudoLogEdges r0 r1 else regularEdges (binsPerDecade b) off r0 r1
      .ok (neededBins bins r0 r1)

/-- one row of `self.binned` (Cratercount.py:302-311) -/
@[ext] structure Bin where
  dMin : ℝ
  dMax : ℝ
  width : ℝ
  dMean : ℝ
  n : ℝ
  nEvent : ℝ
  ncum : ℝ
  ncumEvent : ℝ

/-- a crater: diameter and fraction -/
abbrev Crater := ℝ × ℝ

/-- Python tuple comparison `(d, fraction) <= (d', fraction')` -/
def craterLe (p q : Crater) : Bool := decide (p.1 < q.1 ∨ (p.1 = q.1 ∧ p.2 ≤ q.2))

/-- Cratercount.py:286-291: binning 'none', `sorted(zip(d, fraction))` -/
def tableNone (cs : List Crater) : List Bin :=
  let s := cs.mergeSort craterLe
  let h := s.map Prod.snd
  let e := s.map (fun _ => (1 : ℝ))
  let nc := flipCumsumFlip h
  let ne := flipCumsumFlip e
  (List.range s.length).map fun i =>
    let b := (s.map Prod.fst).getD i 0
    { dMin := b, dMax := b, width := 0, dMean := b, n := h.getD i 0, nEvent := e.getD i 0,
      ncum := nc.getD i 0, ncumEvent := ne.getD i 0 }

/-- Cratercount.py:294-311: histogram of the craters over the given boundaries -/
def tableOf (edges : List ℝ) (cs : List Crater) : List Bin :=
  let hEvent := histogram (cs.map fun c => (c.1, (1 : ℝ))) edges
  let h := histogram cs edges
  let nc := flipCumsumFlip h
  let ne := flipCumsumFlip hEvent
  (List.range h.length).map fun i =>
    let b0 := edges.getD i 0
    let b1 := edges.getD (i + 1) 0
    { dMin := b0, dMax := b1, width := b1 - b0, dMean := Real.sqrt (b1 * b0),
      n := h.getD i 0, nEvent := hEvent.getD i 0, ncum := nc.getD i 0, ncumEvent := ne.getD i 0 }

/-- Cratercount.py:273-312 `apply_binning`, the table it stores.  Unpacking `zip(*[])` of an empty list raises
(line 287). -/
def applyBinning (b : Binning) (off : ℝ) (cs : List Crater) : Except Err (List Bin) :=
  if b = .none then
    if cs = [] then .error .emptyInput else .ok (tableNone cs)
  else do
    let edges ← generateBins b (cs.map Prod.fst) off true
    .ok (tableOf edges cs)

/-- Cratercount.py:295 `self.reverse_indices = np.digitize(d, bins)` -/
def reverseIndices (edges : List ℝ) (cs : List Crater) : List ℕ :=
  cs.map fun c => searchsortedRight edges c.1

/-! ### range decoding -/

/-- a range limit as it arrives in `decode_range`: a float, a string `bN` with integer `N`, or some other
string that is not a number (Cratercount.py:324-337) -/
inductive Lim
  | val (x : EReal)
  | bin (k : ℤ)
  | bad

/-- Cratercount.py:322 `np.where(self.binned['n'] > 0)`: the non-empty bins, in order -/
def nonEmpty (t : List Bin) : List Bin := t.filter (fun b => decide (0 < b.n))

/-- Python list indexing with a possibly negative index -/
def pyIndex {α : Type*} (l : List α) (i : ℤ) : Option α :=
  if 0 ≤ i then l[i.toNat]?
  else if 0 ≤ (l.length : ℤ) + i then l[((l.length : ℤ) + i).toNat]? else Option.none

/-- Cratercount.py:324-337: value of one limit and its snap flag -/
def decodeLim (t : List Bin) (snap : Bool) : Lim → Except Err (EReal × Bool)
  | .val x => .ok (x, snap)
  | .bad => .error .rangeLimit
  | .bin k =>
    let q := nonEmpty t
    let v := clip k (-(q.length : ℤ)) (q.length : ℤ)
    let v := if v > 0 then v - 1 else v
    match pyIndex q v with
    | some b => .ok ((b.dMean : EReal), true)
    | Option.none => .error .rangeLimit

/-- Cratercount.py:342-343 -/
def snapLow (t : List Bin) (r : EReal) : Except Err EReal :=
  match (t.map Bin.dMin)[searchsorted (t.map fun b => (b.dMin : EReal)) (r * ((1.0000001 : ℝ) : EReal)) - 1]? with
  | some x => .ok (x : EReal)
  | Option.none => .error .index

/-- Cratercount.py:345 -/
def snapHigh (t : List Bin) (r : EReal) : Except Err EReal :=
  match (t.map Bin.dMax)[searchsorted (t.map fun b => (b.dMax : EReal)) (r * ((0.999999 : ℝ) : EReal))]? with
  | some x => .ok (x : EReal)
  | Option.none => .error .index

/-- Cratercount.py:315-347 `decode_range` on the binned table; `bn` is `self.binning`. -/
def decodeRange (bn : Binning) (t : List Bin) (l0 l1 : Lim) (snap : Bool) : Except Err (EReal × EReal) := do
  let (a, s0) ← decodeLim t snap l0
  let (b, s1) ← decodeLim t snap l1
  let b := if b < a then a else b
  if bn = .none then .ok (a, b)
  else do
    let a' ← if s0 = true ∧ 0 < a then snapLow t a else .ok a
    match t.getLast? with
    | Option.none => if s1 then .error .index else .ok (a', b)
    | some last =>
      let b' ← if s1 = true ∧ b ≤ ((last.dMax - 0.0000001 : ℝ) : EReal) then snapHigh t b else .ok b
      .ok (a', b')

/-! ### plot data -/

/-- miscellaneous.py:19-32 -/
def binBiasCorrection (beta k : ℝ) : ℝ :=
  let g := beta ^ (0.5 : ℝ) - beta ^ (-0.5 : ℝ)
  if |k| < 0.00001 then 1 else (beta ^ (k / 2) - beta ^ (-k / 2)) / (g * k)

inductive Presentation
  | cumulative | incremental | hartmann | differential | rplot | other
  deriving DecidableEq, Repr

structure Point where
  d : ℝ
  y : ℝ
  err : ℝ

/-- numpy division: `inf`/`nan` for a zero denominator is reported as an error -/
def fdiv (x y : ℝ) : Except Err ℝ := if y = 0 then .error .nonFinite else .ok (x / y)

/-- `y/np.sqrt(n)`: not finite unless `n > 0` -/
def errBar (y n : ℝ) : Except Err ℝ := if n ≤ 0 then .error .nonFinite else .ok (y / Real.sqrt n)

/-- slope `k` used for the bias correction, Cratercount.py:416-420; `C` is `pf.evaluate("cumulative", ·)` -/
def slopeK (C : Option (ℝ → ℝ)) (beta d : ℝ) : ℝ :=
  match C with
  | some f => log10 (f (d * Real.sqrt beta) / f (d / Real.sqrt beta)) / log10 beta
  | Option.none => -3

/-- Cratercount.py:389-428: value and error bar of one non-empty bin -/
def point (pr : Presentation) (area adj : ℝ) (C : Option (ℝ → ℝ)) (b : Bin) : Except Err Point :=
  match pr with
  | .cumulative => do
    let y ← fdiv b.ncum area
    let y := y + adj
    let e ← errBar y b.ncumEvent
    .ok ⟨b.dMin, y, e⟩
  | .incremental => do
    let y ← fdiv b.n area
    let e ← errBar y b.nEvent
    .ok ⟨b.dMean, y, e⟩
  | .hartmann => do
    let y ← fdiv b.n b.width
    let y ← fdiv y area
    let y := y * b.dMean * (Real.sqrt 2 - 1)
    let e ← errBar y b.nEvent
    .ok ⟨b.dMean, y, e⟩
  | .differential => do
    let y ← fdiv b.n b.width
    let y ← fdiv y area
    let e ← errBar y b.nEvent
    let r ← fdiv b.dMean b.dMin
    let beta := r ^ 2
    let f := binBiasCorrection beta (slopeK C beta b.dMean)
    let y ← fdiv y f
    .ok ⟨b.dMean, y, e⟩
  | .rplot => do
    let y ← fdiv (b.dMean ^ 3 * b.n) b.width
    let y ← fdiv y area
    let e ← errBar y b.nEvent
    .ok ⟨b.dMean, y, e⟩
  | .other => .error .presentation

/-- result of `getplotdata` (Cratercount.py:451) -/
structure PlotData where
  points : List Point
  n : ℝ
  nEvent : ℝ
  binRange : EReal × EReal

/-- Cratercount.py:430-433: is the bin inside the range? -/
def inRange (range : EReal × EReal) (showall : Bool) (b : Bin) : Bool :=
  decide ((if showall then (0 : EReal) else range.1) < (b.dMean : EReal)) &&
  decide ((b.dMean : EReal) < range.2)

/-- Cratercount.py:438-443 `bin_range` for a given range; `generate_bins` needs finite positive numbers
(`int(floor(inf))` raises).  `resurf1` is `resurfacing == 1`. -/
def binRangeOf (bn : Binning) (t : List Bin) (range : EReal × EReal) (resurf1 : Bool) :
    Except Err (EReal × EReal) :=
  match t.head?, t.getLast? with
  | some first, some last =>
    let a := if resurf1 then 0 else range.1
    let a := if a = 0 then (first.dMin : EReal) else a
    let b := if range.2 = ⊤ then (last.dMax : EReal) else range.2
    if bn = .none then .ok (a, b)
    else if a = ⊤ ∨ a = ⊥ ∨ b = ⊤ ∨ b = ⊥ then .error .domain
    else
      match generateBins bn [a.toReal, b.toReal] 0 false with
      | .error e => .error e
      | .ok edges =>
        match edges.head?, edges.getLast? with
        | some x, some y => .ok ((x : EReal), (y : EReal))
        | _, _ => .error .index
  | _, _ => .error .index

/-- Cratercount.py:372-451 `getplotdata` for given correction `adj` (the resurfacing term of line 386).  numpy
computes the columns for all non-empty bins and then selects; here the selection is done first, so that a
non-finite value in a bin that is not selected does no harm, as in numpy. -/
def plotData (pr : Presentation) (bn : Binning) (t : List Bin) (area adj : ℝ) (C : Option (ℝ → ℝ))
    (range : Option (EReal × EReal)) (resurf1 showall : Bool) : Except Err PlotData :=
  let q := nonEmpty t
  match range with
  | some r => do
    let kept := q.filter (inRange r showall)
    let pts ← kept.mapM (point pr area adj C)
    let br ← binRangeOf bn t r resurf1
    .ok { points := pts
          n := (kept.map Bin.n).sum
          nEvent := (kept.map Bin.nEvent).sum
          binRange := br }
  | Option.none => do
    let pts ← q.mapM (point pr area adj C)
    match q.head?, q.getLast? with
    | some f, some l =>
      .ok { points := pts
            n := (q.map Bin.n).sum
            nEvent := (q.map Bin.nEvent).sum
            binRange := ((f.dMin : EReal), (l.dMax : EReal)) }
    | _, _ => .error .index

/-- Cratercount.py:354-369 `resurf_adj`: the loop body is repeated until two successive corrections differ by less
than 0.0001 or `count > 20`.  `fit` is `pf.fit` returning `a0[0]` for the adjusted values, `C d a0` is
`pf.evaluate("cumulative", d, a0)`.  `count` counts executed bodies; Lean needs a bound to accept the
recursion: `fuel`; the entry point below supplies 21 and `resurf_fuel_enough` shows that it never runs out.
The second component of the result is the number of executed bodies. -/
def resurfLoop (fit : List Point → ℝ) (C : ℝ → ℝ → ℝ) (p0 : List Point) (last : Point) :
    ℕ → ℕ → ℝ → Option (ℝ × ℕ)
  | 0, _, _ => Option.none
  | fuel + 1, count, adj =>
    let p := p0.map (fun q => { q with y := q.y + adj })
    let a0 := fit p
    let adj' := C last.d a0 - last.y
    let count' := count + 1
    if |adj - adj'| < 0.0001 ∨ count' > 20 then some (adj', count')
    else resurfLoop fit C p0 last fuel count' adj'

/-- Cratercount.py:354-369, entry: fewer than two points give 0 -/
def resurfAdj (fit : List Point → ℝ) (C : ℝ → ℝ → ℝ) (p0 : List Point) : Option (ℝ × ℕ) :=
  match p0.getLast? with
  | some last => if p0.length > 1 then resurfLoop fit C p0 last 21 0 0 else some (0, 0)
  | Option.none => some (0, 0)

/-! ### the object with its cache -/

/-- the state of a `Cratercount` object (Cratercount.py:17-48) -/
structure Obj where
  craters : List Crater
  area : ℝ
  prebinned : Bool
  binning : Option Binning
  binned : List Bin

/-- Cratercount.py:199-201, 316-318, 382-384: bin if not pre-binned and the cached binning differs -/
def Obj.ensure (o : Obj) (b : Binning) : Except Err Obj :=
  if o.prebinned then .ok o
  else if o.binning = some b then .ok o
  else do
    let t ← applyBinning b 0 o.craters
    .ok { o with binned := t, binning := some b }

/-- a production function, as far as `Cratercount` uses it: `pf.fit(p)[0]`, `pf.evaluate("cumulative", d, a0)`
and `pf.evaluate("cumulative", d)` -/
structure PF where
  fit : List Point → ℝ
  C : ℝ → ℝ → ℝ
  C0 : ℝ → ℝ

/-- the arguments of `getplotdata`; `resurfacing` is `None`, 0 or 1 -/
structure PlotArgs where
  pr : Presentation
  binning : Binning
  range : Option (EReal × EReal)
  resurfacing : Option ℕ
  showall : Bool
  pf : Option PF

/-- Cratercount.py:386: `0 if resurfacing==0 else self.resurf_adj(pf,range)`; without a production function
`pf.fit` raises as soon as there are two points.  `resurf_adj` itself calls
`getplotdata("cumulative", self.binning, range=range)`. -/
def adjOf (bn : Binning) (t : List Bin) (area : ℝ) (a : PlotArgs) : Except Err ℝ :=
  if a.resurfacing = some 0 then .ok 0
  else do
    let p0 ← plotData .cumulative bn t area 0 Option.none a.range false false
    match a.pf with
    | some pf =>
      match resurfAdj pf.fit pf.C p0.points with
      | some (adj, _) => .ok adj
      | Option.none => .error .attribute
    | Option.none => if p0.points.length > 1 then .error .attribute else .ok 0

/-- Cratercount.py:372-451 once the binning is in place -/
def plotDataFull (bn : Binning) (t : List Bin) (area : ℝ) (a : PlotArgs) : Except Err PlotData := do
  let adj ← adjOf bn t area a
  plotData a.pr bn t area adj (a.pf.map PF.C0) a.range (decide (a.resurfacing = some 1)) a.showall

/-- `getplotdata` as a method: new state and result.  An exception raised after the binning step leaves the new
binning in the object. -/
def Obj.getplotdata (o : Obj) (a : PlotArgs) : Obj × Except Err PlotData :=
  match o.ensure a.binning with
  | .error e => (o, .error e)
  | .ok o' =>
    (o', match o'.binning with
      | some bn => plotDataFull bn o'.binned o'.area a
      | Option.none => .error .attribute)

/-- `decode_range` as a method -/
def Obj.decodeRange (o : Obj) (l0 l1 : Lim) (b : Binning) (snap : Bool) : Obj × Except Err (EReal × EReal) :=
  match o.ensure b with
  | .error e => (o, .error e)
  | .ok o' =>
    (o', match o'.binning with
      | some bn => Cratercount.decodeRange bn o'.binned l0 l1 snap
      | Option.none => .error .attribute)

/-- `apply_binning` called directly, as the randomness analysis does, with an arbitrary offset; on a pre-binned
object it raises (`self.diam` is `None`) and leaves the state alone -/
def Obj.rebin (o : Obj) (b : Binning) (off : ℝ) : Obj :=
  if o.prebinned then o else
  match applyBinning b off o.craters with
  | .error _ => o
  | .ok t => { o with binned := t, binning := some b }

/-! ### stat files -/

/-- a row of a .stat file, the columns read back (Cratercount.py:96-121): diam, n, ncum, ncum_density, n_event -/
structure StatRow where
  diam : ℝ
  n : ℝ
  ncum : ℝ
  ncumDensity : ℝ
  nEvent : ℝ

/-- Cratercount.py:197-229 `WriteStatFile`: the rows, as numbers (the printing precision is not modelled) -/
def statRows (t : List Bin) (area : ℝ) : List StatRow :=
  (nonEmpty t).map fun b => ⟨b.dMin, b.n, b.ncum, b.ncum / area, b.nEvent⟩

/-- Cratercount.py:197-229 as a method: it may re-bin the object -/
def Obj.writeStat (o : Obj) (b : Binning) : Obj × Except Err (List StatRow) :=
  match o.ensure b with
  | .error e => (o, .error e)
  | .ok o' => (o', .ok (statRows o'.binned o'.area))

/-- Cratercount.py:69-75 `MakeBinGeometricMean`: upper boundaries; needs two rows (`d_min[-2]`) -/
def statDMax (dmin : List ℝ) : Except Err (List ℝ) :=
  match dmin.reverse with
  | last :: prev :: _ => .ok (dmin.tail ++ [last * (last / prev)])
  | _ => .error .index

/-- Cratercount.py:96-121 `ReadStatFile` on 11 columns; an exception is turned into an exit by `__init__` -/
def readStat (rows : List StatRow) : Except Err (ℝ × List Bin) := do
  let dmin := rows.map StatRow.diam
  let dmax ← statDMax dmin
  match rows.head? with
  | Option.none => .error .index
  | some r0 =>
    let area ← fdiv r0.ncum r0.ncumDensity
    .ok (area, List.zipWith (fun (r : StatRow) (hi : ℝ) =>
      { dMin := r.diam, dMax := hi, width := hi - r.diam, dMean := Real.sqrt (r.diam * hi),
        n := r.n, nEvent := r.nEvent, ncum := r.ncum, ncumEvent := r.ncum }) rows dmax)

end

end Verif.Cratercount
