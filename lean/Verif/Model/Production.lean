import Verif.Model.Cratercount

/-!
Model of `src/craterstats/Productionfn.py` and `src/craterstats/gm/maths/poly.py`.

Simplifications: exact reals (also for the `float32` rounding of `range`, line 35); a logarithm of a non-positive
number is the error `nonFinite` (numpy: `nan`/`-inf` in that element); looking up the definition by name is modelled
in `Model/Lookup.lean`.
-/

namespace Verif.Production
open Verif.Py Verif.Cratercount

noncomputable section

/-- `np.log10` with numpy's `-inf`/`nan` as an error -/
def log10E (x : ℝ) : Except Err ℝ := if 0 < x then .ok (log10 x) else .error .nonFinite

/-- gm/maths/poly.py:6-10: `np.polyval(p[::-1], x)`; `polyval` is `y = 0; for c in p: y = y*x + c` -/
def poly (p : List ℝ) (x : ℝ) : ℝ := p.reverse.foldl (fun y c => y * x + c) 0

/-- the attributes of a `Productionfn` (Productionfn.py:42-69) -/
inductive PFn
  /-- `type=='polynomial'`: coefficients, range -/
  | poly (a : List ℝ) (range : ℝ × ℝ)
  /-- `type=='tabular incremental root-2'`: hC10, d_min10, d_mean10, range -/
  | tab (hC10 dMin10 dMean10 : List ℝ) (range : ℝ × ℝ)

/-- Productionfn.py:34-37 (`range` given or the default) and 42-43.  `range=None` stands for a definition without
`range` entry. -/
def initPoly (a : List ℝ) (range : Option (ℝ × ℝ)) : PFn :=
  .poly a (range.getD (0.0001, 2000))

/-- Productionfn.py:51-62 for the list `H` and `index_1km` (Python indexing: a negative index counts from the end) -/
def initTab (h : List ℝ) (idx : ℤ) : Except Err PFn := do
  let hC ← (flipCumsumFlip h).mapM log10E
  let v ← match pyIndex hC idx with
    | some v => .ok v
    | none => .error .index
  let dMin := (List.range h.length).map (fun i : ℕ => (2 : ℝ) ^ (((i : ℝ) - (idx : ℝ)) / 2))
  let dMean := dMin.map (fun d => d * (2 : ℝ) ^ (0.25 : ℝ))
  match dMean.head?, dMean.getLast? with
  | some r0, some r1 =>
    .ok (.tab (hC.map (fun x => x - v)) (dMin.map log10) (dMean.map log10) (r0, r1))
  | _, _ => .error .index

/-- the range attribute -/
def PFn.range : PFn → ℝ × ℝ
  | .poly _ r => r
  | .tab _ _ _ r => r

/-- Productionfn.py:97-100 `polynomial_C10` -/
def polyC10 (a : List ℝ) (d10 a0 : ℝ) : ℝ := poly (a0 :: a.tail) d10

/-- Productionfn.py:102-105 `polynomial_C` -/
def polyC (a : List ℝ) (d a0 : ℝ) : Except Err ℝ := do
  let x ← log10E d
  .ok ((10 : ℝ) ^ polyC10 a x a0)

/-- Productionfn.py:111-120 `polynomial_F` -/
def polyF (a : List ℝ) (d a0 : ℝ) : Except Err ℝ := do
  let x ← log10E d
  let a := a0 :: a.tail
  let p := poly a x
  let dCdp := Real.log 10 * (10 : ℝ) ^ p
  let aDash := a.tail.zipIdx.map (fun e => ((e.2 : ℝ) + 1) * e.1)
  let dpdx := poly aDash x
  let dxdD := 1 / (d * Real.log 10)
  .ok (-dCdp * dpdx * dxdD)

/-- Productionfn.py:107-109 `polynomial_F10` -/
def polyF10 (a : List ℝ) (d10 a0 : ℝ) : Except Err ℝ := do
  let f ← polyF a ((10 : ℝ) ^ d10) a0
  log10E f

/-- Productionfn.py:122-125 `polynomial_R` -/
def polyR (a : List ℝ) (d a0 : ℝ) : Except Err ℝ := do
  let f ← polyF a d a0
  .ok (f / d ^ (-3 : ℝ))

/-- Productionfn.py:127-130 `polynomial_H` -/
def polyH (a : List ℝ) (d a0 : ℝ) : Except Err ℝ := do
  let f ← polyF a d a0
  .ok (f * d * ((2 : ℝ) ^ (0.25 : ℝ) - (2 : ℝ) ^ (-0.25 : ℝ)))

/-- Productionfn.py:171-172: `k=(hC10-np.roll(hC10,-1))/np.log10(beta); k[-1]=k[-2]` -/
def slopes (hC10 : List ℝ) : Except Err (List ℝ) :=
  match hC10 with
  | [] => .error .index
  | x0 :: rest =>
    let beta := Real.sqrt 2
    let k := List.zipWith (fun x y => (x - y) / log10 beta) hC10 (rest ++ [x0])
    match k.reverse with
    | _ :: k2 :: ks => .ok (k2 :: k2 :: ks).reverse
    | _ => .error .index

/-- Productionfn.py:155, 161: `c=10**(hC10+a0)`, `h=c-np.concatenate((c[1:],[0]))` -/
def tabH (hC10 : List ℝ) (a0 : ℝ) : List ℝ :=
  let c := hC10.map (fun x => (10 : ℝ) ^ (x + a0))
  List.zipWith (fun x y => x - y) c (c.tail ++ [0])

/-- Productionfn.py:157-159, modes 'C', 'C10' at `d10` -/
def tabC10 (hC10 dMin10 : List ℝ) (d10 a0 : ℝ) : ℝ :=
  interp dMin10 (hC10.map (fun x => log10 ((10 : ℝ) ^ (x + a0)))) d10

/-- Productionfn.py:163-165, mode 'H' at `d10`.  (A non-positive increment makes the whole evaluation an error here;
in numpy only the neighbouring intervals are not finite.) -/
def tabH10 (hC10 dMean10 : List ℝ) (d10 a0 : ℝ) : Except Err ℝ := do
  let lh ← (tabH hC10 a0).mapM log10E
  .ok (interp dMean10 lh d10)

/-- Productionfn.py:167-174: the unbiased differential values `f` -/
def tabFs (hC10 dMean10 : List ℝ) (a0 : ℝ) : Except Err (List ℝ) := do
  let w0 := (2 : ℝ) ^ (0.25 : ℝ) - (2 : ℝ) ^ (-0.25 : ℝ)
  let fBin := List.zipWith (fun h m => h / (10 : ℝ) ^ m / w0) (tabH hC10 a0) dMean10
  let k ← slopes hC10
  .ok (List.zipWith (fun f k => f / binBiasCorrection (Real.sqrt 2) k) fBin k)

/-- Productionfn.py:176-178, modes 'F', 'F10' at `d10` -/
def tabF10 (hC10 dMean10 : List ℝ) (d10 a0 : ℝ) : Except Err ℝ := do
  let f ← tabFs hC10 dMean10 a0
  let lf ← f.mapM log10E
  .ok (interp dMean10 lf d10)

/-- Productionfn.py:180-184, mode 'R' at `d10` -/
def tabR10 (hC10 dMean10 : List ℝ) (d10 a0 : ℝ) : Except Err ℝ := do
  let f ← tabFs hC10 dMean10 a0
  let r := List.zipWith (fun f m => f / ((10 : ℝ) ^ m) ^ (-3 : ℝ)) f dMean10
  let lr ← r.mapM log10E
  .ok (interp dMean10 lr d10)

/-- `self.C10(d10, a0)` -/
def PFn.C10 (f : PFn) (d10 a0 : ℝ) : Except Err ℝ :=
  match f with
  | .poly a _ => .ok (polyC10 a d10 a0)
  | .tab hC10 dMin10 _ _ => .ok (tabC10 hC10 dMin10 d10 a0)

/-- `self.F10(d10, a0)` -/
def PFn.F10 (f : PFn) (d10 a0 : ℝ) : Except Err ℝ :=
  match f with
  | .poly a _ => polyF10 a d10 a0
  | .tab hC10 _ dMean10 _ => tabF10 hC10 dMean10 d10 a0

/-- `self.C(d, a0)` -/
def PFn.C (f : PFn) (d a0 : ℝ) : Except Err ℝ :=
  match f with
  | .poly a _ => polyC a d a0
  | .tab hC10 dMin10 _ _ => do
    let d10 ← log10E d
    .ok ((10 : ℝ) ^ tabC10 hC10 dMin10 d10 a0)

/-- `self.F(d, a0)` -/
def PFn.F (f : PFn) (d a0 : ℝ) : Except Err ℝ :=
  match f with
  | .poly a _ => polyF a d a0
  | .tab hC10 _ dMean10 _ => do
    let d10 ← log10E d
    let y ← tabF10 hC10 dMean10 d10 a0
    .ok ((10 : ℝ) ^ y)

/-- `self.R(d, a0)` -/
def PFn.R (f : PFn) (d a0 : ℝ) : Except Err ℝ :=
  match f with
  | .poly a _ => polyR a d a0
  | .tab hC10 _ dMean10 _ => do
    let d10 ← log10E d
    let y ← tabR10 hC10 dMean10 d10 a0
    .ok ((10 : ℝ) ^ y)

/-- `self.H(d, a0)` -/
def PFn.H (f : PFn) (d a0 : ℝ) : Except Err ℝ :=
  match f with
  | .poly a _ => polyH a d a0
  | .tab hC10 _ dMean10 _ => do
    let d10 ← log10E d
    let y ← tabH10 hC10 dMean10 d10 a0
    .ok ((10 : ℝ) ^ y)

/-- Productionfn.py:84 `self.a[0] if hasattr(self,'a') else 0.` -/
def PFn.defaultA0 : PFn → Except Err ℝ
  | .poly a _ => match a[0]? with | some x => .ok x | none => .error .index
  | .tab .. => .ok 0

/-- Productionfn.py:74-92 `evaluate` at one diameter.  `if not a0:` is true for `None` and for 0.  Any other
presentation returns `None` (here the error `presentation`). -/
def PFn.evaluate (f : PFn) (pr : Presentation) (d : ℝ) (a0 : Option ℝ) : Except Err ℝ := do
  let a ← match a0 with
    | none => f.defaultA0
    | some x => if x = 0 then f.defaultA0 else .ok x
  match pr with
  | .cumulative => f.C d a
  | .differential => f.F d a
  | .rplot => f.R d a
  | .hartmann => f.H d a
  | _ => .error .presentation

/-- result of `fit`: best value, lower and upper bound -/
structure FitResult where
  best : ℝ
  lower : Except Err ℝ
  upper : Except Err ℝ

/-- type of `scipy.optimize.curve_fit` as used in line 210: function of (x, parameter), xdata, ydata, sigma; result
`popt[0]` -/
abbrev CurveFit := (ℝ → ℝ → Except Err ℝ) → List ℝ → List ℝ → List ℝ → Except Err ℝ

/-- Productionfn.py:196-202: a single point is duplicated, an empty list ends the program -/
def fitData (pts : List Point) : Except Err (List Point) :=
  match pts with
  | [] => .error .emptyInput
  | [p] => .ok [p, p]
  | ps => .ok ps

/-- Productionfn.py:204-208: `1/np.sqrt(y)`; not finite unless positive -/
def sigmaOf (v : ℝ) : Except Err ℝ := if 0 < v then .ok (1 / Real.sqrt v) else .error .nonFinite

/-- Productionfn.py:187-212 `fit`; another presentation leaves `func` unbound (UnboundLocalError) -/
def PFn.fit (f : PFn) (cf : CurveFit) (pr : Presentation) (pts : List Point) : Except Err FitResult := do
  let ps ← fitData pts
  let (func, sigma) ← match pr with
    | .cumulative => do
      let s ← ps.mapM (fun p => sigmaOf p.y)
      .ok (f.C10, s)
    | .differential => do
      let s ← ps.mapM (fun p => sigmaOf p.err)
      .ok (f.F10, s)
    | _ => .error .presentation
  let lx ← ps.mapM (fun p => log10E p.d)
  let ly ← ps.mapM (fun p => log10E p.y)
  let popt ← cf func lx ly sigma
  match ps with
  | [] => .error .index
  | p0 :: _ => do
    let l0 ← log10E p0.y
    .ok { best := popt - 0
          lower := do
            let l ← log10E (p0.y - 0.98 * p0.err)
            .ok (popt - (l0 - l))
          upper := do
            let l ← log10E (p0.y + 0.98 * p0.err)
            .ok (popt - (l0 - l)) }

/-- `np.clip` of a possibly infinite number to a finite interval -/
def clipE (x : EReal) (lo hi : ℝ) : ℝ := (min (hi : EReal) (max x (lo : EReal))).toReal

/-- Productionfn.py:215-231 `getplotdata`: the diameters and values.  `a0=None` uses `self.a[0]`, which a tabular
function does not have. -/
def PFn.getplotdata (f : PFn) (pr : Presentation) (a0 : Option ℝ) (range : Option (EReal × EReal)) :
    Except Err (List ℝ × List ℝ) := do
  let a ← match a0 with
    | some x => .ok x
    | none => match f with
      | .poly .. => f.defaultA0
      | .tab .. => .error .attribute
  let r := range.getD ((f.range.1 : EReal), (f.range.2 : EReal))
  let lo ← log10E (clipE r.1 f.range.1 f.range.2)
  let hi ← log10E (clipE r.2 f.range.1 f.range.2)
  let d := (linspace lo hi 400).map (fun x => (10 : ℝ) ^ x)
  let y ← d.mapM (fun x => f.evaluate pr x (some a))
  .ok (d, y)

/-- Python list indexing `l[j]` with `j = searchsorted - 1 ≥ -1` (gm.value_locate, Productionfn.py:247-248): the index
-1 is the last element -/
def locate (l : List ℝ) (i : ℕ) : Except Err ℝ :=
  match i with
  | 0 => match l.getLast? with | some x => .ok x | none => .error .index
  | j + 1 => match l[j]? with | some x => .ok x | none => .error .index

/-- Productionfn.py:234-251 `getisochron` -/
def PFn.getisochron (f : PFn) (pr : Presentation) (a0 : ℝ) (ef : Option PFn) : Except Err (List (ℝ × ℝ)) := do
  let (d, y) ← f.getplotdata pr (some a0) none
  match ef with
  | none => .ok (d.zip y)
  | some e => do
    let (ed, ey) ← e.getplotdata pr none none
    let lim ← d.mapM (fun x => locate ey (searchsorted ed x))
    .ok (((d.zip y).zip lim).filter (fun q => decide (q.1.2 < q.2 * 0.8))).unzip.1

end

end Verif.Production
