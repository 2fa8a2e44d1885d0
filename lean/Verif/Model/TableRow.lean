import Verif.Model.FileAge
import Verif.Model.PlotObject
import Verif.Model.Summary
import Verif.Model.Notation
import Verif.Model.Filename

/-!
Model of the contents of the summary table: `/repo/src/craterstats/Craterplotset.py` `create_summary_table` (660-743) with the ages
calculated by `/repo/src/craterstats/Craterplot.py` `calculate_age` (69-97) for the plots it lists.

The layout of the table is modelled in `Verif.Model.Summary`, whose texts are produced here from the attributes of the plots and the
calculated ages.  Simplifications: numbers are exact reals, `ρ` gives the (rational) floating point number formatted for a real one and
`floatStr` its default text; the kinds of errors of the age calculation are not distinguished (`.nonFinite`); a fit whose bounds are not
finite numbers is an error here (the program writes `nan` or `inf`).
-/

namespace Verif.TableRow

open Verif.Py Verif.Text Verif.Cratercount Verif.Chronology Verif.Production Verif.Craterpdf Verif.Age Verif.CountFile Verif.FileAge
open Verif.PlotObject

noncomputable section

/-- what the table takes from the plot set: the chronology system, the reference diameter and the setting `mu`, and the numerical routines of
scipy -/
structure Env where
  classes : Classes
  ρ : ℝ → ℚ
  floatStr : ℝ → List Char
  pf : PFn
  /-- the same production function as used by `getplotdata` -/
  plotPF : PF
  chron : Chron
  simpson : Simpson
  curveFit : CurveFit
  ref : ℝ
  mu : Bool

/-- the attributes set by `calculate_age` and used by the table; the numbers of craters as texts -/
structure Ages where
  t : ℝ × ℝ × ℝ
  a0 : ℝ × ℝ × ℝ
  n : List Char
  nEvent : List Char
  binRange : Option (EReal × EReal)

/-- errors of the age calculation -/
def lift {α : Type} : Except Err α → Except Exc α
  | .ok x => .ok x
  | .error _ => .error .nonFinite

/-- the text of a number of craters: `len(d)` is an integer, as are the numbers of craters in the bins (`np.histogram`), the sum of a column
of a .stat file is a floating point number (Craterpdf.py:46-50) -/
def countText (E : Env) (o : Opened) (k : ℝ) : List Char :=
  match o with
  | .craters _ => natStr ⌊k⌋₊
  | .table _ _ => E.floatStr k

/-- a list of three numbers -/
def triple : List ℝ → Except Exc (ℝ × ℝ × ℝ)
  | [a, b, c] => .ok (a, b, c)
  | _ => .error .index

/-- Craterplot.py:74-81 -/
def poissonAges (E : Env) (o : Opened) (range : EReal × EReal) (bcc : Bool) : Except Exc Ages := do
  let r ← lift (ageOf E.pf E.chron E.simpson o range bcc E.ref)
  let t ← triple r.t
  let a ← triple r.a0
  .ok ⟨t, a, countText E o r.n, countText E o r.nEvent, none⟩

/-- the binning of this name (Cratercount.py:15); another name is refused when bins are generated -/
def binningNamed (s : List Char) : Except Exc Binning :=
  match [Binning.pseudoLog, .perDecade20, .perDecade10, .x2, .root2, .root4, .none].find? (fun b => b.name.toList == s) with
  | some b => .ok b
  | none => .error .value

/-- Craterplot.py:83-95: `n` is a sum of weights, `n_event` of numbers of craters -/
def fitAges (E : Env) (o : Opened) (k : FitType) (binning : List Char) (range : EReal × EReal) (resurf : Bool) : Except Exc Ages := do
  let b ← binningNamed binning
  let r ← lift (fitAge E.pf E.chron E.curveFit E.plotPF (object o) k b range resurf E.ref)
  let l ← lift r.tLower
  let u ← lift r.tUpper
  let al ← lift r.a0.lower
  let au ← lift r.a0.upper
  .ok ⟨(r.t, l, u), (r.a0.best, al, au), E.floatStr r.n, countText E o r.nEvent, some r.binRange⟩

/-- `f"{e:.2g}"` of a limit which may be infinite -/
def limitText (E : Env) (x : EReal) : List Char :=
  if x = ⊤ then "inf".toList else if x = ⊥ then "-inf".toList else gStr 1 (E.ρ x.toReal)

/-- `gm.diameter_range` (diameter_range.py:16-25); a lower limit of `-inf` cannot be formatted with a finite upper one -/
def rangeLabel (E : Env) (r : EReal × EReal) : Except Exc (List Char) :=
  if r.2 = ⊤ ∨ r.2 = ⊥ then diameterRange E.classes 0 none 2
  else if r.1 = ⊤ ∨ r.1 = ⊥ then .error .type
  else diameterRange E.classes (E.ρ r.1.toReal) (some (E.ρ r.2.toReal)) 2

/-- Craterplotset.py:714-717: both limits and the label of a range -/
def rangeTexts (E : Env) (r : EReal × EReal) : Except Exc (List Char × List Char × List Char) := do
  let t ← rangeLabel E r
  .ok (limitText E r.1, limitText E r.2, t)

/-- the same for a range which may be absent -/
def rangeTexts? (E : Env) : Option (EReal × EReal) → Except Exc (Option (List Char × List Char × List Char))
  | none => .ok none
  | some r => do .ok (some (← rangeTexts E r))

/-- Craterplotset.py:712-713 -/
def baseName (E : Env) (name source : List Char) : Except Exc (List Char) :=
  if name = [] then filename E.classes source ['n'] none none 4 else .ok []

/-- Craterplotset.py:721-725: the formatted age and density -/
def formatted (E : Env) (a : Ages) (mathML : Bool) : Except Exc (List Char × List Char) := do
  let v0 ← strAge E.classes (E.ρ a.t.1) (E.ρ (a.t.2.2 - a.t.1)) (E.ρ (a.t.1 - a.t.2.1)) 3 none false false E.mu mathML
  let v1 ← scientificNotation E.classes (E.ρ ((10 : ℝ) ^ a.a0.1)) (some (E.ρ ((10 : ℝ) ^ a.a0.2.2))) (E.ρ ((10 : ℝ) ^ a.a0.2.1)) 3 false mathML
    (some "km-2".toList)
  .ok (v0, v1)

/-- the texts of three numbers -/
def texts (f : ℝ → List Char) (x : ℝ × ℝ × ℝ) : List Char × List Char × List Char := (f x.1, f x.2.1, f x.2.2)

/-- an attribute which is a text -/
def strAttr (o : Attrs Opened) (k : String) : Except Exc (List Char) := do
  match ← attr o k with
  | .str s => .ok s
  | _ => .error .type

/-- an attribute which is an integer -/
def intAttr (o : Attrs Opened) (k : String) : Except Exc ℤ := do
  match ← attr o k with
  | .num z => .ok z
  | _ => .error .type

/-- the attribute `cratercount` -/
def countAttr (o : Attrs Opened) : Except Exc Opened := do
  match ← attr o "cratercount" with
  | .count k => .ok k
  | _ => .error .attribute

/-- a plot without row -/
def noRow : Summary.Plot :=
  { data := true, fit := false, type := [], name := [], sourceName := [], source := [], binning := [], area := [], resurf1 := false, resurf := [],
    n := [], nEvent := [], range := ([], [], []), binRange := none, age := 0, ageText := ([], [], []), a0Text := ([], [], []),
    densityText := ([], [], []), mathML := ([], []), latex := ([], []) }

/-- Craterplotset.py:668 -/
def tableTypes : List (List Char) := ["c-fit".toList, "d-fit".toList, "poisson".toList, "b-poisson".toList]

/-- Craterplot.py:74-95 -/
def calculate (E : Env) (type : List Char) (o : Opened) (binning : List Char) (range : EReal × EReal) (resurf : ℤ) : Except Exc Ages :=
  if type = "poisson".toList then poissonAges E o range false
  else if type = "b-poisson".toList then poissonAges E o range true
  else if type = "c-fit".toList then fitAges E o .cFit binning range (resurf != 0)
  else fitAges E o .dFit binning range (resurf != 0)

/-- the area of a count -/
def areaOf : Opened → ℝ
  | .craters c => c.area
  | .table a _ => a

/-- Craterplotset.py:712-733: the texts of a row -/
def rowTexts (E : Env) (type name source binning : List Char) (resurf : ℤ) (o : Opened) (range : EReal × EReal) (a : Ages) :
    Except Exc Summary.Plot := do
  let base ← baseName E name source
  let rt ← rangeTexts E range
  let bt ← rangeTexts? E a.binRange
  let m ← formatted E a true
  let l ← formatted E a false
  .ok { data := false, fit := type = "c-fit".toList || type = "d-fit".toList, type := type, name := name, sourceName := base, source := source,
        binning := binning, area := gStr 4 (E.ρ (areaOf o)), resurf1 := resurf == 1, resurf := intStr resurf, n := a.n, nEvent := a.nEvent,
        range := rt, binRange := bt, age := E.ρ a.t.1, ageText := texts (fun x => gStr 2 (E.ρ x)) a.t,
        a0Text := texts (fun x => gStr 3 (E.ρ x)) a.a0, densityText := texts (fun x => sciStr 2 (E.ρ ((10 : ℝ) ^ x))) a.a0,
        mathML := m, latex := l }

/-- Craterplotset.py:667-673, 712-733: what the table shows of one plot, from its attributes and its range of diameters.  Both ranges are
formatted here; the table shows one of them.  The ages are calculated for all plots before the first text is formed; as errors are not
distinguished this makes no difference. -/
def rowOf (E : Env) (x : Attrs Opened × (EReal × EReal)) : Except Exc Summary.Plot := do
  let type ← strAttr x.1 "type"
  if type ∈ tableTypes then do
    let o ← countAttr x.1
    let name ← strAttr x.1 "name"
    let source ← strAttr x.1 "source"
    let binning ← strAttr x.1 "binning"
    let resurf ← intAttr x.1 "resurf"
    let a ← calculate E type o binning x.2 resurf
    rowTexts E type name source binning resurf o x.2 a
  else .ok noRow

/-- Craterplotset.py:680: `N({ref_diameter:0g})` -/
def densityLabel (E : Env) : List Char := "N(".toList ++ gStr 5 (E.ρ E.ref) ++ ")".toList

/-- Craterplotset.py:660-738: the table of these plots -/
def table (E : Env) (xs : List (Attrs Opened × (EReal × EReal))) : Except Exc (Option (List Char)) := do
  let rows ← xs.mapM (rowOf E)
  Summary.summaryTable (densityLabel E) rows

end

end Verif.TableRow
