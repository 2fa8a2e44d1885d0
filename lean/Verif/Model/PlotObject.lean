import Verif.Model.Settings
import Verif.Py.Decimal

/-!
Model of the settings of plots and plot sets: `src/craterstats/Craterplot.py` `__init__` and `UpdateSettings` (18-66) and
`src/craterstats/Craterplotset.py` `__init__` and `UpdateSettings` (32-89).
-/

namespace Verif.PlotObject

open Verif.Py

/-- values of settings; `count` is a `Cratercount` object -/
inductive Val (K : Type)
  | none
  | num (z : ℤ)
  | real (q : ℚ)
  | str (s : List Char)
  | strs (l : List (List Char))
  | reals (l : List ℚ)
  | count (k : K)
  deriving DecidableEq

/-- a dictionary of settings, or the attributes of an object -/
abbrev Attrs (K : Type) := List (List Char × Val K)

variable {K : Type}

/-- `int(v)`; a float is cut off at the point -/
def toInt : Val K → Except Exc (Val K)
  | .num z => .ok (.num z)
  | .real q => .ok (.num (if q < 0 then ⌈q⌉ else ⌊q⌋))
  | .str s => match intVal s with
    | some z => .ok (.num z)
    | Option.none => .error .value
  | .none => .error .type
  | .strs _ => .error .type
  | .reals _ => .error .type
  | .count _ => .error .type

/-- `float(s)` of a text.  The texts of infinity and nan count as errors here (simplification). -/
def floatText (s : List Char) : Except Exc ℚ :=
  match decVal s with
  | some q => .ok q
  | none => .error .value

/-- `float(v)` -/
def toFloat : Val K → Except Exc (Val K)
  | .num z => .ok (.real z)
  | .real q => .ok (.real q)
  | .str s => (floatText s).map .real
  | .none => .error .type
  | .strs _ => .error .type
  | .reals _ => .error .type
  | .count _ => .error .type

/-- `[float(e) for e in v]`; the elements of a text are its characters -/
def toFloats : Val K → Except Exc (Val K)
  | .strs l => (l.mapM floatText).map .reals
  | .reals l => .ok (.reals l)
  | .str s => (s.mapM (fun c => floatText [c])).map .reals
  | .none => .error .type
  | .num _ => .error .type
  | .real _ => .error .type
  | .count _ => .error .type

/-- `not v` is false -/
def truthy : Val K → Bool
  | .none => false
  | .num z => z != 0
  | .real q => q != 0
  | .str s => s != []
  | .strs l => l != []
  | .reals l => l != []
  | .count _ => true

/-- Craterplot.py:42-43, Craterplotset.py:72-73: the dictionaries one after the other -/
def merged (ds : List (Attrs K)) : Attrs K := ds.flatten.foldl (fun d x => dictSet d x.1 x.2) []

/-- Craterplot.py:44-60, Craterplotset.py:74-88: conversion and `setattr` of one setting -/
def setOne (conv : List Char → Val K → Except Exc (Val K)) (o : Attrs K) (x : List Char × Val K) : Except Exc (Attrs K) := do
  let v ← conv x.1 x.2
  .ok (dictSet o x.1 v)

/-- the loop over the settings -/
def setAll (conv : List Char → Val K → Except Exc (Val K)) (o : Attrs K) (ds : List (Attrs K)) : Except Exc (Attrs K) :=
  (merged ds).foldlM (setOne conv) o

/-- Craterplot.py:49-58 -/
def plotIntKeys : List (List Char) :=
  ["error_bars", "snap", "hide", "age_left", "show_age", "resurf", "resurf_showall", "isochron", "psym"].map String.toList

/-- Craterplot.py:45-60.  `k in ('offset_age')` is a test for a substring: the parentheses do not make a tuple. -/
def plotConv (k : List Char) (v : Val K) : Except Exc (Val K) := do
  let v ← if k <:+: "offset_age".toList then toFloats v else .ok v
  if k ∈ plotIntKeys then toInt v else .ok v

/-- what the object needs from outside: `open_ s` is `Cratercount(s)`, `fileOf` the attribute `filename` of a count, `decode` is
`decode_range(range, binning, snap)` of a count -/
structure Env (K R : Type) where
  classes : Classes
  open_ : List Char → Except Exc K
  fileOf : K → List Char
  decode : K → Val K → Val K → Val K → Except Exc R

/-- an attribute; missing: AttributeError -/
def attr (o : Attrs K) (k : String) : Except Exc (Val K) :=
  match dictGet o k.toList with
  | some v => .ok v
  | none => .error .attribute

variable {R : Type}

/-- Craterplot.py:61-62.  A true source which is no text makes `Cratercount` fail. -/
def fillCount (E : Env K R) (o : Attrs K) : Except Exc (Attrs K) := do
  let c ← attr o "cratercount"
  let s ← attr o "source"
  if truthy c = false ∧ truthy s = true then
    match s with
    | .str t => do
      let k ← E.open_ t
      .ok (dictSet o "cratercount".toList (.count k))
    | _ => .error .type
  else .ok o

/-- Craterplot.py:63-64; a true count which is no count has no file name -/
def fillSource (E : Env K R) (o : Attrs K) : Except Exc (Attrs K) := do
  let s ← attr o "source"
  let c ← attr o "cratercount"
  if truthy s = false ∧ truthy c = true then
    match c with
    | .count k => .ok (dictSet o "source".toList (.str (E.fileOf k)))
    | _ => .error .attribute
  else .ok o

/-- Craterplot.py:65-66 -/
def fillName (E : Env K R) (o : Attrs K) : Except Exc (Attrs K) := do
  let n ← attr o "name"
  let s ← attr o "source"
  if truthy n = false ∧ truthy s = true then
    match s with
    | .str t => do
      let b ← Text.filename E.classes t ['n'] none none 4
      .ok (dictSet o "name".toList (.str (Cli.removeCrater (b.length + 1) b)))
    | _ => .error .type
  else .ok o

/-- Craterplot.py:41-66 `UpdateSettings`; the keywords are the last dictionary -/
def update (E : Env K R) (o : Attrs K) (ds : List (Attrs K)) : Except Exc (Attrs K) := do
  let o ← setAll plotConv o ds
  let o ← fillCount E o
  let o ← fillSource E o
  fillName E o

/-- Craterplot.py:20-36 -/
def plotDefaults : Attrs K :=
  [("cratercount".toList, .none), ("source".toList, .str []), ("name".toList, .str []), ("range".toList, .strs ["0".toList, "inf".toList]),
   ("snap".toList, .num 1), ("type".toList, .str "data".toList), ("error_bars".toList, .num 1), ("hide".toList, .num 0),
   ("colour".toList, .num 0), ("psym".toList, .num 0), ("binning".toList, .str "pseudo-log".toList), ("age_left".toList, .num 0),
   ("show_age".toList, .num 1), ("resurf".toList, .num 0), ("resurf_showall".toList, .num 0), ("isochron".toList, .num 0),
   ("offset_age".toList, .reals [0, 0])]

/-- Craterplot.py:39 -/
def decodeRange (E : Env K R) (o : Attrs K) : Except Exc R := do
  let c ← attr o "cratercount"
  match c with
  | .count k => do
    let r ← attr o "range"
    let b ← attr o "binning"
    let s ← attr o "snap"
    E.decode k r b s
  | _ => .error .attribute

/-- Craterplot.py:18-39 `Craterplot(*args, **kwargs)`: the attributes (`range` before decoding) and the decoded range -/
def create (E : Env K R) (args : List (Attrs K)) (kwargs : Attrs K) : Except Exc (Attrs K × R) := do
  let o ← update E [] (plotDefaults :: args ++ [kwargs])
  let r ← decodeRange E o
  .ok (o, r)

/-- Craterplotset.py:76 -/
def setRangeKeys : List (List Char) := ["xrange", "yrange"].map String.toList
/-- Craterplotset.py:77 -/
def setFloatKeys : List (List Char) := ["pt_size", "ref_diameter"].map String.toList
/-- Craterplotset.py:78-84 -/
def setIntKeys : List (List Char) := ["randomness", "mu", "invert", "text_halo", "sig_figs"].map String.toList

/-- Craterplotset.py:76-85 -/
def setConv (k : List Char) (v : Val K) : Except Exc (Val K) := do
  let v ← if k ∈ setRangeKeys then toFloats v else .ok v
  let v ← if k ∈ setFloatKeys then toFloat v else .ok v
  if k ∈ setIntKeys then toInt v else .ok v

/-- Craterplotset.py:45-63 -/
def setDefaults : Attrs K :=
  [("title".toList, .none), ("presentation".toList, .str "differential".toList), ("xrange".toList, .reals [-3, 2]),
   ("yrange".toList, .reals [-5, 5]), ("style".toList, .str "natural".toList), ("isochrons".toList, .none),
   ("print_dimensions".toList, .str "7.5x7.5".toList), ("pt_size".toList, .real 9), ("font".toList, .str "Open Sans".toList),
   ("ref_diameter".toList, .real 1), ("sig_figs".toList, .num 3), ("randomness".toList, .num 0), ("mu".toList, .num 1),
   ("invert".toList, .num 0), ("text_halo".toList, .num 1), ("bins".toList, .num 0), ("ra_show".toList, .num 1)]

/-- Craterplotset.py:45-63, 71-88: the settings of `Craterplotset(*args, **kwargs)` and what is derived from them (65-66): the ratio
of the font size to 9 and the index of the grey levels (two sets of grey levels, one for each background; Python counts negative
indices from the end). -/
def createSet (args : List (Attrs K)) (kwargs : Attrs K) : Except Exc (Attrs K × ℚ × Bool) := do
  let o ← setAll setConv [] (setDefaults :: args ++ [kwargs])
  let p ← attr o "pt_size"
  let i ← attr o "invert"
  match p, i with
  | .real q, .num z => if z = 0 ∨ z = -2 then .ok (o, q / 9, false) else if z = 1 ∨ z = -1 then .ok (o, q / 9, true) else .error .index
  | _, _ => .error .type

end Verif.PlotObject
