import Verif.Model.Abbrev
import Verif.Model.Filename
import Verif.Py.Str
import Verif.Py.Dict
import Verif.Py.Exc

/-! Model of `construct_plot_dicts` (`/repo/src/craterstats/cli.py:240-301`). -/

namespace Verif.Cli

open Verif.Py

/-- the values which occur in a plot dictionary -/
inductive PVal
  | none
  | num (z : ℤ)
  | str (s : List Char)
  | strs (l : List (List Char))
  deriving DecidableEq

abbrev PDict := List (List Char × PVal)

/-- constants.py:12 -/
def oplotTypes : List (List Char) :=
  ["data", "differential-fit", "cumulative-fit", "poisson", "buffered-poisson"].map String.toList

/-- constants.py:13 -/
def oplotTypesShort : List (List Char) := ["data", "d-fit", "c-fit", "poisson", "b-poisson"].map String.toList

/-- constants.py:14-15 -/
def craterplotKeys : List (List Char) :=
  ["source", "name", "range", "snap", "type", "error_bars", "hide", "colour", "psym", "binning", "age_left", "show_age",
   "resurf", "resurf_showall", "isochron", "offset_age"].map String.toList

/-- constants.py:17 -/
def carryOver : List (List Char) :=
  ["source", "psym", "snap", "isochron", "error_bars", "colour", "binning"].map String.toList

/-- constants.py:62-80 `DEFAULTS['plot']` -/
def plotDefaults : PDict :=
  [("source".toList, .none), ("name".toList, .str []), ("range".toList, .strs ["0".toList, "inf".toList]),
   ("snap".toList, .num 1), ("type".toList, .str "data".toList), ("error_bars".toList, .num 1), ("hide".toList, .num 0),
   ("colour".toList, .num 0), ("psym".toList, .num 1), ("binning".toList, .str "pseudo-log".toList),
   ("age_left".toList, .num 0), ("show_age".toList, .num 1), ("resurf".toList, .num 0), ("resurf_showall".toList, .num 0),
   ("isochron".toList, .num 0), ("offset_age".toList, .strs ["0".toList, "0".toList])]

/-- Cratercount.py:15 -/
def binnings : List (List Char) :=
  ["pseudo-log", "20/decade", "10/decade", "x2", "root-2", "4th root-2", "none"].map String.toList

/-- constants.py:87-120, third column of `PALETTE` -/
def paletteNames : List (List Char) :=
  ["Black", "Red", "Green", "Blue", "Yellow", "Violet", "Grey", "blue1", "blue2", "blue3", "blue4", "brown1", "brown2",
   "brown3", "brown4", "green1", "green2", "green3", "orange", "pink1", "pink2", "pink3", "purple1", "purple2", "red1",
   "red2", "red3", "teal1", "teal2", "yellow1", "yellow2", "yellow-green"].map String.toList

/-- constants.py:127-142, first two columns of `MARKERS` -/
def markers : List (List Char × List Char) :=
  [("s", "square"), ("o", "circle"), ("*4", "star4"), ("^", "triangle"), ("*", "star5"), ("x", "diagonal cross"),
   ("+", "cross"), (".", "point"), ("v", "inverted triangle"), ("fs", "filled square"), ("fo", "filled circle"),
   ("f*4", "filled star4"), ("f^", "filled triangle"), ("f*", "filled star5"), ("fv", "filled inverted triangle")].map
    (fun x => (x.1.toList, x.2.toList))

/-- what the function takes from outside: character classes, case folding, the package directory (`cst.PATH`), the
directory test `os.path.isabs`, the file given with `-i` (if any), the presentation, and reading a crater count
(`cst.Cratercount(source)`, with result in `α`) -/
structure PlotEnv (α : Type) where
  classes : Classes
  lower : Char → Char
  path : List Char
  isabs : List Char → Bool
  input : Option (List Char)
  sequence : Bool
  load : List Char → Except Exc α

variable {α : Type}

/-- `l[i]` -/
def pick {β : Type} (l : List β) (i : ℤ) : Except Exc β :=
  match l[i.toNat]? with
  | some x => .ok x
  | none => .error .index

/-- `l[decode_abbreviation(l', v, allow_ambiguous=True)]` -/
def choose (lower : Char → Char) (full short : List (List Char)) (v : List Char) : Except Exc (List Char) := do
  pick short (← decodeAbbreviation lower full v true false)

/-- cli.py:397-398 -/
def csSource (path v : List Char) : List Char := replace "%sample%/".toList (path ++ "sample/".toList) v

def isHex (c : Char) : Bool := ('0' ≤ c && c ≤ '9') || ('A' ≤ c && c ≤ 'F') || ('a' ≤ c && c ≤ 'f')

/-- cli.py:282: `^#([0-9A-Fa-f]{6})$`; `$` also matches before a final line break -/
def isHexColour (v : List Char) : Bool :=
  match v with
  | c :: l => c == '#' && (l.take 6).all isHex && (l.take 6).length == 6 && (l.drop 6 == [] || l.drop 6 == ['\n'])
  | [] => false

/-- cli.py:280-288 -/
def colourValue (lower : Char → Char) (v : List Char) : Except Exc PVal :=
  match v with
  | [] => .error .index
  | c :: _ =>
    if c = '#' then (if isHexColour v then .ok (.str v) else .error .system)
    else (decodeAbbreviation lower paletteNames v true false).map .num

/-- cli.py:289-295 -/
def psymValue (lower : Char → Char) (v : List Char) : Except Exc PVal :=
  match ((markers.map Prod.fst).zipIdx.filter (fun x => x.1 == v)).map Prod.snd with
  | [j] => .ok (.num j)
  | _ => (decodeAbbreviation lower (markers.map Prod.snd) v true false).map .num

/-- cli.py:258-295: the value stored for key `k` -/
def itemValue (env : PlotEnv α) (k v : List Char) : Except Exc PVal :=
  if k ∈ (["name", "snap", "error_bars", "hide", "age_left", "show_age", "resurf", "resurf_showall", "isochron"].map
      String.toList) then .ok (.str v)
  else if k = "range".toList ∨ k = "offset_age".toList then
    .ok (.strs (split ',' (strip (fun c => c == '[' || c == ']') v)))
  else if k = "source".toList then .ok (.str (strip (· == '"') (csSource env.path v)))
  else if k = "type".toList then (choose env.lower oplotTypes oplotTypesShort v).map .str
  else if k = "binning".toList then (choose env.lower binnings binnings v).map .str
  else if k = "colour".toList then colourValue env.lower v
  else psymValue env.lower v

/-- cli.py:257: the full key for an abbreviated one -/
def itemKey (env : PlotEnv α) (k0 : List Char) : Except Exc (List Char) := choose env.lower craterplotKeys craterplotKeys k0

/-- cli.py:256-295, one item of a specification; the flag is `specified_source` -/
def applyItem (env : PlotEnv α) (st : PDict × Bool) (item : List Char × List Char) : Except Exc (PDict × Bool) := do
  let k ← itemKey env item.1
  let v ← itemValue env k item.2
  .ok (dictSet st.1 k v, st.2 || k == "source".toList)

/-- cli.py:245-254: the dictionary before the items of the specification are applied.  `p['source']` is the default
`None` here, so that the type is always carried over. -/
def startDict (env : PlotEnv α) (prev : Option PDict) : PDict :=
  let p := dictSet plotDefaults "type".toList (.str (if env.sequence then "poisson".toList else "data".toList))
  match prev with
  | none => p
  | some q =>
    let p := if dictGet p "source".toList = some .none then
      dictSet p "type".toList ((dictGet q "type".toList).getD .none) else p
    carryOver.foldl (fun p k => dictSet p k ((dictGet q k).getD .none)) p

/-- cli.py:298-299: the directory of the `-i` file in front of a relative source -/
def placeSource (env : PlotEnv α) (s : List Char) : Except Exc (List Char) :=
  match env.input with
  | none => .ok s
  | some f => if env.isabs s then .ok s else do .ok ((← Text.filename env.classes f ['p'] none none 4) ++ s)

/-- cli.py:244-301: one round of the loop.  A source which is not a string cannot occur once one was given. -/
def plotStep (env : PlotEnv α) (st : List (PDict × α) × Bool) (d : List (List Char × List Char)) :
    Except Exc (List (PDict × α) × Bool) := do
  let (p, spec) ← d.foldlM (applyItem env) (startDict env (st.1.getLast?.map Prod.fst), st.2)
  if spec then
    match dictGet p "source".toList with
    | some (.str s) => do
      let s' ← placeSource env s
      let cc ← env.load s'
      .ok (st.1 ++ [(dictSet p "source".toList (.str s'), cc)], spec)
    | _ => .error .type
  else .error .system

/-- cli.py:240-301 `construct_plot_dicts`; each dictionary with the crater count read from its source.  `none` stands for
no `-p` option. -/
def constructPlotDicts (env : PlotEnv α) (plots : Option (List (List (List Char × List Char)))) :
    Except Exc (List (PDict × α)) :=
  match plots with
  | none => .ok []
  | some ds => do .ok (← ds.foldlM (plotStep env) ([], false)).1

end Verif.Cli
