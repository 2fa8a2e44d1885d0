import Mathlib.Data.Real.Sqrt
import Mathlib.Data.List.Sort
import Verif.Py.Dict
import Verif.Py.Exc

/-!
Model of the Monte Carlo part of Randomnessanalysis.py: placing random craters, neighbour search, statistics, the pool
of worker processes, and the order of computing and writing.

Points are of any type `P`, grid cells of any type `ι`.  The external geometry libraries (spherely, astropy_healpix) enter
as the functions of `Sphere`.  Distances are exact reals.
-/

namespace Verif.Rand

open Verif.Py

/-- the calls of spherely and astropy_healpix -/
structure Sphere (P ι : Type) where
  /-- `sph.within(pt, polygon)` -/
  within : P → Bool
  /-- `sph.distance(p, q, radius=planetary_radius)` -/
  dist : P → P → ℝ
  /-- `hp.lonlat_to_healpix` -/
  cell : P → ι
  /-- `hp.cone_search_lonlat`; the angular radius is given as the distance, angle times planetary radius -/
  cone : P → ℝ → List ι
  /-- `hp.neighbours(tuple(outer)).flatten()` -/
  neighbours : List ι → List ι

section

variable {P ι : Type} [DecidableEq ι]

/-- craters filed by grid cell (the dictionary `hpd`) -/
abbrev Filed (P ι : Type) := List (ι × List P)

/-- Randomnessanalysis.py:570-574: erase the craters of the listed cells which are not more than half a diameter away -/
noncomputable def eraseNear (S : Sphere P ι) (diam : ℝ) (pt : P) : List ι → Filed P ι × ℤ → Filed P ι × ℤ
  | [], s => s
  | id :: ids, (hpd, count) =>
    match dictGet hpd id with
    | none => eraseNear S diam pt ids (hpd, count)
    | some l =>
      let l' := l.filter (fun e => decide (S.dist pt e > diam / 2))
      eraseNear S diam pt ids (dictSet hpd id l', count + (l'.length - l.length))

/-- Randomnessanalysis.py:577-582: add the new crater -/
def addPoint (S : Sphere P ι) (pt : P) (s : Filed P ι × ℤ) : Filed P ι × ℤ :=
  match dictGet s.1 (S.cell pt) with
  | none => (dictSet s.1 (S.cell pt) [pt], s.2 + 1)
  | some l => (dictSet s.1 (S.cell pt) (l ++ [pt]), s.2 + 1)

/-- Randomnessanalysis.py:564-584: one batch of random points; `break` once there are `n` -/
noncomputable def placeBatch (S : Sphere P ι) (n : ℤ) (diam : ℝ) : List P → Filed P ι × ℤ → Filed P ι × ℤ
  | [], s => s
  | pt :: pts, s =>
    if S.within pt then
      let s' := addPoint S pt (eraseNear S diam pt (S.cone pt diam) s)
      if s'.2 ≥ n then s' else placeBatch S n diam pts s'
    else placeBatch S n diam pts s

/-- Randomnessanalysis.py:560-587: `draw i count` is batch `i` of random points (their number depends on the count so far).
The loop may go on for ever: `none` when the fuel runs out.  `zip(*[])` of no points is a ValueError. -/
noncomputable def sprinkle (S : Sphere P ι) (n : ℤ) (diam : ℝ) (draw : ℕ → ℤ → List P) :
    ℕ → ℕ → Filed P ι × ℤ → Option (Except Exc (List P × List ι × Filed P ι))
  | 0, _, _ => none
  | fuel + 1, i, s =>
    if s.2 < n then sprinkle S n diam draw fuel (i + 1) (placeBatch S n diam (draw i s.2) s)
    else
      let pairs := s.1.flatMap (fun x => x.2.map (fun e => (e, x.1)))
      if pairs = [] then some (.error .value) else some (.ok (pairs.map Prod.fst, pairs.map Prod.snd, s.1))

/-- Randomnessanalysis.py:548-587 -/
noncomputable def sprinkleDiscs (S : Sphere P ι) (n : ℤ) (diam : ℝ) (draw : ℕ → ℤ → List P) (fuel : ℕ) :
    Option (Except Exc (List P × List ι × Filed P ι)) := sprinkle S n diam draw fuel 0 ([], 0)

/-- Randomnessanalysis.py:131-137: craters of a count filed by cell -/
def fileCraters (S : Sphere P ι) (pts : List P) : Filed P ι :=
  pts.foldl (fun d pt => match dictGet d (S.cell pt) with
    | none => dictSet d (S.cell pt) [pt]
    | some l => dictSet d (S.cell pt) (l ++ [pt])) []

/-- Randomnessanalysis.py:594-596: craters in the cells of `zone` with their distances -/
def zoneDistances (S : Sphere P ι) (hpd : Filed P ι) (pt : P) (zone : List ι) : List (ℝ × P) :=
  zone.flatMap (fun id => ((dictGet hpd id).getD []).map (fun e => (S.dist pt e, e)))

/-- Randomnessanalysis.py:593-598 -/
noncomputable def getKth (S : Sphere P ι) (hpd : Filed P ι) (k : ℕ) (pt : P) (zone : List ι) : Except Exc (ℝ × P) :=
  match ((zoneDistances S hpd pt zone).insertionSort (fun a b => a.1 ≤ b.1))[k]? with
  | some x => .ok x
  | none => .error .index

/-- Randomnessanalysis.py:610-617: widen the locality until it holds enough craters.  Sets are lists without repetition.  The
loop may go on for ever: `none` when the fuel runs out. -/
def widen (S : Sphere P ι) (hpd : Filed P ι) (k : ℕ) : ℕ → List ι → List ι → Option (List ι)
  | 0, _, _ => none
  | fuel + 1, locality, outer =>
    let loc := locality ++ outer
    let n := (loc.map (fun id => ((dictGet hpd id).getD []).length)).sum
    if n ≥ k + 1 then some loc
    else widen S hpd k fuel loc ((S.neighbours outer).dedup.filter (fun id => decide (id ∉ loc)))

/-- Randomnessanalysis.py:606-628, one crater -/
noncomputable def kthNeighbour (S : Sphere P ι) (hpd : Filed P ι) (k fuel : ℕ) (pt : P) (id : ι) : Option (Except Exc (ℝ × P)) :=
  (widen S hpd k fuel [] [id]).map (fun loc =>
    match getKth S hpd k pt loc with
    | .error e => .error e
    | .ok (d0, _) => getKth S hpd k pt (S.cone pt d0))

/-- the results for all craters: Randomnessanalysis.py:600-601, 606, 627-628 -/
noncomputable def kthNeighbours (S : Sphere P ι) (hpd : Filed P ι) (k fuel : ℕ) : List (P × ι) → Option (Except Exc (List (ℝ × P)))
  | [] => some (.ok [])
  | (pt, id) :: l =>
    match kthNeighbour S hpd k fuel pt id with
    | none => none
    | some (.error e) => some (.error e)
    | some (.ok x) =>
      match kthNeighbours S hpd k fuel l with
      | none => none
      | some (.error e) => some (.error e)
      | some (.ok xs) => some (.ok (x :: xs))

/-- mean of a list; numpy's mean of nothing is nan -/
noncomputable def meanOf (l : List ℝ) : Except Exc ℝ := if l = [] then .error .nonFinite else .ok (l.sum / l.length)

/-- Randomnessanalysis.py:589-635 -/
noncomputable def kthMeasure (S : Sphere P ι) (hpd : Filed P ι) (k fuel : ℕ) (pts : List P) (ids : List ι) :
    Option (Except Exc (ℝ × List P)) :=
  (kthNeighbours S hpd k fuel (pts.zip ids)).map (fun r => do
    let l ← r
    let m ← meanOf (l.map Prod.fst)
    .ok (m, l.map Prod.snd))

end

/-! ### statistics -/

/-- numpy's `searchsorted(a, v)` for sorted `a`: the first position at which `v` can be inserted -/
noncomputable def searchSorted (a : List ℝ) (v : ℝ) : ℕ := (a.takeWhile (fun x => decide (x < v))).length

/-- numpy's `std`: root of the mean squared deviation -/
noncomputable def stdOf (l : List ℝ) : Except Exc ℝ :=
  if l = [] then .error .nonFinite
  else .ok (Real.sqrt ((l.map (fun x => (x - l.sum / l.length) ^ 2)).sum / l.length))

structure RandStats where
  m0 : ℝ
  mn : ℝ
  sd : ℝ
  nSigma : ℝ
  percentile : ℝ

/-- Randomnessanalysis.py:182-186.  All trials equal (`sd = 0`) or no trials give nan or infinities. -/
noncomputable def randStats (m : List ℝ) (m0 : ℝ) : Except Exc RandStats := do
  let mn ← meanOf m
  let sd ← stdOf m
  if sd = 0 then .error .nonFinite
  else .ok ⟨m0, mn, sd, (m0 - mn) / sd, (searchSorted (m.insertionSort (· ≤ ·)) m0 : ℝ) / m.length * 100⟩

/-! ### worker processes -/

/-- Randomnessanalysis.py:489-519 with the wrapper 483-487.  `trial` is one trial as a function of the state of the random number
generator of its process; `state w` is the state of worker `w`; trial `i` is done by worker `assign[i]`.  Tasks are handed out in the
order of submission, so that each worker does its trials in this order; results are collected in the order of submission. -/
def runPool {σ ρ : Type} (trial : σ → ρ × σ) : (ℕ → σ) → List ℕ → List ρ
  | _, [] => []
  | state, w :: ws => (trial (state w)).1 :: runPool trial (Function.update state w (trial (state w)).2) ws

/-- the serial version, Randomnessanalysis.py:521-536 -/
def runSerial {σ ρ : Type} (trial : σ → ρ × σ) : σ → ℕ → List ρ
  | _, 0 => []
  | s, n + 1 => (trial s).1 :: runSerial trial (trial s).2 n

/-! ### computing and writing -/

section

variable {M D : Type} [DecidableEq M]

/-- results by measure: number of trials and data -/
abbrev Results (M D : Type) := List (M × (ℕ × D))

/-- Randomnessanalysis.py:162-169: does `run_montecarlo` compute? -/
def needs (mem : Results M D) (trials : ℕ) (m : M) : Bool :=
  match dictGet mem m with
  | none => true
  | some (n, _) => !decide (n ≥ trials)

/-- one measure: results afterwards (which are then written), and whether it was computed.  `compute m t` are the results of `t`
trials of measure `m` (randomness: any function). -/
def measureStep (compute : M → ℕ → D) (trials : ℕ) (mem : Results M D) (m : M) : Results M D :=
  if needs mem trials m then dictSet mem m (trials, compute m trials) else mem

/-- cli.py:411-415: the results written after each of the measures (the file holds the last), and the measures computed.  The file is
what `read` gives back at the next start (C56). -/
def session (compute : M → ℕ → D) (trials : ℕ) : List M → Results M D → Results M D × List M
  | [], mem => (mem, [])
  | m :: ms, mem =>
    let r := session compute trials ms (measureStep compute trials mem m)
    (r.1, if needs mem trials m then m :: r.2 else r.2)

/-- a sequence of runs, each stopped after some of its measures: (trials, measures done) -/
def sessions (compute : M → ℕ → D) : List (ℕ × List M) → Results M D → Results M D × List M
  | [], mem => (mem, [])
  | (t, ms) :: rest, mem =>
    let r := session compute t ms mem
    let r' := sessions compute rest r.1
    (r'.1, r.2 ++ r'.2)

end

end Verif.Rand
