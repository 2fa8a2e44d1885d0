import Verif.Model.Craterpdf

/-!
Model of `Craterplot.calculate_age` (Craterplot.py:69-97) and of the density shown in the legend (line 261).

Simplifications: exact reals; the production function as used by `getplotdata` for the resurfacing correction is the
record `PF` of Model/Cratercount.lean, `scipy`'s `curve_fit` and `simpson` are parameters.
-/

namespace Verif.Age
open Verif.Py Verif.Cratercount Verif.Chronology Verif.Production Verif.Craterpdf

noncomputable section

/-- the attributes set by `calculate_age` for the types 'poisson' and 'b-poisson' -/
structure PoissonAge where
  pdf : Pdf
  t : List ℝ
  a0 : List ℝ
  n : ℝ
  nEvent : ℝ
  nd : ℝ

/-- Craterplot.py:97 `n_d = pf.evaluate("cumulative", ref_diameter, a0[0])` for a list of `a0` -/
def densityAt (pf : PFn) (ref : ℝ) (a0 : List ℝ) : Except Err ℝ :=
  match a0 with
  | [] => .error .index
  | a :: _ => pf.evaluate .cumulative ref (some a)

/-- Craterplot.py:74-81, 97: `range` is the decoded diameter range, clipped to the range of the production function;
5000 samples are the default of `Craterpdf` (Craterpdf.py:23).  `cf.a0(t)` works on the array of the three ages. -/
def poissonAge (pf : PFn) (c : Chron) (simpson : Simpson) (cc : Source) (range : EReal × EReal) (bcc : Bool) (ref : ℝ) :
    Except Err PoissonAge := do
  let pdf ← Craterpdf.init pf c simpson cc (clipE range.1 pf.range.1 pf.range.2) (clipE range.2 pf.range.1 pf.range.2)
    none none bcc 5000
  let t := pdf.median1sigma
  let a0 ← t.mapM c.a0
  let nd ← densityAt pf ref a0
  .ok { pdf := pdf, t := t, a0 := a0, n := pdf.k, nEvent := pdf.k, nd := nd }

/-- the two kinds of fit -/
inductive FitType where
  | cFit | dFit

/-- Craterplot.py:84-90: the arguments of `getplotdata`; a differential fit passes no `resurfacing` (default 0,
Cratercount.py:374) -/
def FitType.args (k : FitType) (b : Binning) (range : EReal × EReal) (resurf : Bool) (pf : PF) : PlotArgs :=
  match k with
  | .cFit => { pr := .cumulative, binning := b, range := some range, resurfacing := some (if resurf then 1 else 0),
               showall := false, pf := some pf }
  | .dFit => { pr := .differential, binning := b, range := some range, resurfacing := some 0, showall := false,
               pf := some pf }

/-- the attributes set by `calculate_age` for the types 'c-fit' and 'd-fit'; the bounds may be not finite -/
structure FitAge where
  a0 : FitResult
  t : ℝ
  tLower : Except Err ℝ
  tUpper : Except Err ℝ
  n : ℝ
  nEvent : ℝ
  binRange : EReal × EReal
  nd : ℝ

/-- Craterplot.py:83-97 -/
def fitAge (pf : PFn) (c : Chron) (cf : CurveFit) (pfc : PF) (o : Obj) (k : FitType) (b : Binning) (range : EReal × EReal)
    (resurf : Bool) (ref : ℝ) : Except Err FitAge := do
  let a := k.args b range resurf pfc
  let p0 ← (o.getplotdata a).2
  let a0 ← pf.fit cf a.pr p0.points
  let t ← c.t (some a0.best) none
  let nd ← densityAt pf ref [a0.best]
  .ok { a0 := a0, t := t
        tLower := a0.lower.bind (fun x => c.t (some x) none)
        tUpper := a0.upper.bind (fun x => c.t (some x) none)
        n := p0.n, nEvent := p0.nEvent, binRange := p0.binRange, nd := nd }

/-- Craterplot.py:261: the diameter named in the legend item `N(d)=…` and the three values shown for it (value, upper,
lower), for the list `a0` -/
def legendDensity (ref : ℝ) (a0 : List ℝ) : Except Err (ℝ × List ℝ) :=
  match (a0[0]? : Option ℝ), (a0[2]? : Option ℝ), (a0[1]? : Option ℝ) with
  | some a, some u, some l => .ok (ref, [(10 : ℝ) ^ a, (10 : ℝ) ^ u, (10 : ℝ) ^ l])
  | _, _, _ => .error .index

/-- Craterplotset.py:679, 694, 718-719: the diameter named in the captions `N(d)`, `N(d)-`, `N(d)+` of the summary table and
the values in these columns -/
def tableDensity (ref : ℝ) (a0 : List ℝ) : ℝ × List ℝ := (ref, a0.map (fun e => (10 : ℝ) ^ e))

end

end Verif.Age
