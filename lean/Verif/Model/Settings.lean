import Verif.Model.PlotDicts
import Mathlib.Data.Rat.Defs
import Mathlib.Data.List.Dedup

/-!
Model of the plot set settings (`/repo/src/craterstats/cli.py:162-237` `construct_cps_dict`), of the default output name
(cli.py:418-435), of the legend step in `main` (cli.py:525-526) and of the names of the files written (cli.py:437-468).
-/

namespace Verif.Cli

open Verif.Py

/-- the values which occur in the settings -/
inductive SVal
  | none
  | num (q : ℚ)
  | str (s : List Char)
  | strs (l : List (List Char))
  | pair (a b : ℚ)
  deriving DecidableEq

abbrev SDict := List (List Char × SVal)

/-- constants.py:11 -/
def presentations : List (List Char) :=
  ["cumulative", "differential", "R-plot", "Hartmann", "chronology", "rate", "sequence", "uncertainty", "map", "sdaa",
   "m2cnd"].map String.toList

/-- constants.py:19, 21 -/
def defaultX : List (List Char × SVal) :=
  presentations.zip [.pair (-3) 2, .pair (-3) 2, .pair (-2) 3, .pair (-315/100) (256/100), .pair (9/2) 0, .pair (9/2) 0,
    .pair (42/10) (1/100), .pair (42/10) (1/100000), .pair 0 1, .pair 0 1, .pair 0 1]

/-- constants.py:20, 22 -/
def defaultY : List (List Char × SVal) :=
  presentations.zip [.pair (-4) 1, .pair (-5) 5, .pair (-4) 1, .pair (-8) 5, .pair (-6) 2, .pair (-6) 3,
    .pair 0 0, .pair (-2) 8, .pair 0 1, .pair 0 1, .pair 0 1]

/-- constants.py:31-61 `DEFAULTS['set']`; sets are lists -/
def settingDefaults : SDict :=
  [("chronology_system".toList, .str "Moon, Neukum (1983)".toList), ("epochs".toList, .none), ("equilibrium".toList, .none),
   ("invert".toList, .num 0), ("tight".toList, .num 0), ("transparent".toList, .num 0), ("text_halo".toList, .none),
   ("isochrons".toList, .str []), ("select".toList, .str []), ("legend".toList, .str "fnacr".toList), ("mu".toList, .num 1),
   ("presentation".toList, .str "differential".toList), ("print_dimensions".toList, .str "7.5x7.5".toList),
   ("pt_size".toList, .str "9.0".toList), ("font".toList, .str "Open Sans".toList), ("ref_diameter".toList, .num 1),
   ("sig_figs".toList, .num 3), ("style".toList, .str "natural".toList), ("title".toList, .str []), ("out".toList, .none),
   ("format".toList, .strs ["png".toList, "csv".toList]), ("min_diameter".toList, .num (15/100)),
   ("global_area".toList, .num 1000000000000), ("n_samples".toList, .num 200), ("trials".toList, .num 1000),
   ("measure".toList, .strs ["m2cnd".toList, "sdaa".toList]), ("ra_offset".toList, .num 0), ("ra_show".toList, .num 1),
   ("bins".toList, .num 0)]

/-- cli.py:61-132: the destinations of the options in parser order, which is the order of `vars(args)` -/
def parserKeys : List (List Char) :=
  ["input", "include", "lcs", "lpc", "about", "version", "demo", "bins", "convert", "out", "functions_user",
   "create_desktop_icon", "merge", "format", "chronology_system", "equilibrium", "epochs", "title", "presentation", "xrange",
   "yrange", "isochrons", "legend", "style", "mu", "invert", "text_halo", "transparent", "tight", "print_dimensions",
   "pt_size", "ref_diameter", "sig_figs", "font", "sequence_table", "min_diameter", "n_samples", "plot",
   "randomness_analysis", "trials", "measure", "ra_offset", "select", "ra_show"].map String.toList

/-- cli.py:175-192: the options taken over as they are -/
def copiedKeys : List (List Char) :=
  ["title", "isochrons", "legend", "print_dimensions", "pt_size", "font", "ref_diameter", "sig_figs", "randomness", "mu",
   "invert", "transparent", "text_halo", "style", "xrange", "yrange", "min_diameter", "n_samples", "bins", "ra_offset",
   "ra_show"].map String.toList

/-- an entry of the chronology systems -/
structure System where
  name : List Char
  cf : List Char
  pf : List Char
  body : List Char
  deriving DecidableEq

/-- what the function takes from outside.  `chron`, `prod`, `equil` and `epoch` stand for the constructors called at
cli.py:216-225; of a production function only its own axis ranges
(`xrange`, and `yrange` if defined) are used here. -/
structure SetEnv where
  classes : Classes
  lower : Char → Char
  isdir : List Char → Bool
  normpath : List Char → List Char
  systems : List System
  equilNames : List (List Char)
  epochNames : List (List Char)
  chron : List Char → Except Exc Unit
  prod : List Char → Except Exc (Option (SVal × Option SVal))
  equil : List Char → Except Exc Unit
  epoch : List Char → Except Exc Unit

/-- the parsed options: `none` for an option which was not given (`None`) -/
abbrev Args := List Char → Option SVal

/-- cli.py:194: `[e['name'] for e in f[k]]` -/
def functionNames (env : SetEnv) (k : List Char) : List (List Char) :=
  if k = "chronology_system".toList then env.systems.map System.name
  else if k = "equilibrium".toList then env.equilNames else env.epochNames

/-- the value of a key as a string; other values are a type error -/
def getStr (c : SDict) (k : String) : Except Exc (List Char) :=
  match dictGet c k.toList with
  | some (.str s) => .ok s
  | some _ => .error .type
  | none => .error .key

/-- cli.py:163-165 -/
def choosePresentation (env : SetEnv) (args : Args) (c : SDict) : Except Exc SDict :=
  match args "presentation".toList with
  | none => .ok c
  | some (.str v) => do
    let i ← decodeAbbreviation env.lower presentations v false false
    .ok (dictSet c "presentation".toList (.str (← pick presentations i)))
  | some _ => .error .type

/-- cli.py:166-170 -/
def presentationDefaults (p : List Char) (c : SDict) : SDict :=
  let c := if p ∈ ["chronology", "rate", "sequence", "uncertainty"].map String.toList then
    dictSet (dictSet c "xrange".toList ((dictGet defaultX p).getD .none)) "yrange".toList ((dictGet defaultY p).getD .none) else c
  if p = "sequence".toList then dictSet c "legend".toList (.str "A".toList) else c

/-- `s.add(e)` -/
def setAdd (l : List (List Char)) (e : List Char) : List (List Char) := if e ∈ l then l else l ++ [e]

/-- cli.py:197-203 -/
def applyOut (env : SetEnv) (c : SDict) (v : List Char) : Except Exc SDict :=
  if env.isdir v then .ok (dictSet c "out".toList (.str (env.normpath (v ++ ['/']))))
  else do
    let c := dictSet c "out".toList (.str (← Text.filename env.classes v "pn".toList none none 4))
    let ext := (← Text.filename env.classes v ['e'] none none 4).dropWhile (· == '.')
    if ext = [] then .ok c
    else match dictGet c "format".toList with
      | some (.strs l) => .ok (dictSet c "format".toList (.strs (setAdd l ext)))
      | _ => .error .attribute

/-- cli.py:172-207, one round of the loop over `vars(args).items()`.  `k in 'format'` and `k in 'measures'` are substring
tests, which among the parser's keys only `format` and `measure` pass. -/
def settingStep (env : SetEnv) (args : Args) (c : SDict) (k : List Char) : Except Exc SDict :=
  match args k with
  | none => .ok c
  | some v =>
    if k ∈ copiedKeys then .ok (dictSet c k v)
    else if k = "chronology_system".toList ∨ k = "equilibrium".toList ∨ k = "epochs".toList then
      match v with
      | .str s => do
        let i ← decodeAbbreviation env.lower (functionNames env k) s true false
        .ok (dictSet c k (.str (← pick (functionNames env k) i)))
      | _ => .error .type
    else if k = "out".toList then
      match v with
      | .str s => applyOut env c s
      | _ => .error .type
    else if k = "format".toList then
      match v with
      | .strs l => .ok (dictSet c k (.strs l.dedup))
      | _ => .error .type
    else if k = "measure".toList then
      match v with
      | .str s => .ok (dictSet c k (.strs (split ',' s).dedup))
      | _ => .error .type
    else .ok c

/-- constants.py:24-25 -/
def planets : List (List Char) := ["Moon", "Mars", "Mercury"].map String.toList

def surfaceAreas : List ℚ := [37900000, 144000000, 74800000]

/-- cli.py:213-220 -/
def applySystem (env : SetEnv) (c : SDict) : Except Exc (SDict × Option (SVal × Option SVal)) := do
  let name ← getStr c "chronology_system"
  match env.systems.find? (fun e => e.name = name) with
  | none => .error .system
  | some cs => do
    env.chron cs.cf
    let r ← env.prod cs.pf
    let i ← decodeAbbreviation env.lower planets cs.body false true
    if i = -1 then .ok (c, r)
    else .ok (dictSet c "global_area".toList (.num (← pick surfaceAreas i)), r)

/-- cli.py:222-225: an optional function -/
def applyOptional (mk : List Char → Except Exc Unit) (c : SDict) (k : String) : Except Exc Unit :=
  match dictGet c k.toList with
  | some (.str s) => if s = [] then .ok () else mk s
  | _ => .ok ()

/-- cli.py:228-229: the axis ranges of the production function; a missing `yrange` is an AttributeError -/
def ownRange (p : List Char) (r : Option (SVal × Option SVal)) : Except Exc (Option (SVal × SVal)) :=
  match r with
  | none => .ok none
  | some (x, some y) => .ok (some (x, y))
  | some (_, none) => if p = "Hartmann".toList then .error .attribute else .ok none

/-- cli.py:227-233; `range` is the axis range of the production function if it has one -/
def hartmannRange (p : List Char) (range : Option (SVal × SVal)) (c : SDict) : SDict :=
  if p = "Hartmann".toList then
    let r := range.getD ((dictGet defaultX p).getD .none, (dictGet defaultY p).getD .none)
    dictSet (dictSet c "xrange".toList r.1) "yrange".toList r.2
  else c

/-- cli.py:234-235 -/
def haloStep (p : List Char) (c : SDict) : SDict :=
  if dictGet c "text_halo".toList = some .none ∨ dictGet c "text_halo".toList = some (.num 0) then
    dictSet c "text_halo".toList (.num (if p ∈ ["uncertainty", "sequence", "chronology", "rate"].map String.toList then 0 else 1))
  else c

/-- cli.py:227-235 -/
def finish (p : List Char) (range : Option (SVal × SVal)) (c : SDict) : SDict := haloStep p (hartmannRange p range c)

/-- cli.py:162-237 `construct_cps_dict` with `c = DEFAULTS['set']`.  The function objects `c['cf']` etc. are not part of
the result. -/
def constructSettings (env : SetEnv) (args : Args) : Except Exc SDict := do
  let c ← choosePresentation env args settingDefaults
  let p ← getStr c "presentation"
  let c ← parserKeys.foldlM (settingStep env args) (presentationDefaults p c)
  let x ← applySystem env c
  applyOptional env.equil x.1 "equilibrium"
  applyOptional env.epoch x.1 "epochs"
  let range ← ownRange p x.2
  .ok (finish p range x.1)

/-- cli.py:525-526 -/
def legendStep (c : SDict) (types : List (List Char)) : Except Exc SDict := do
  let l ← getStr c "legend"
  if 'a' ∈ l ∧ "b-poisson".toList ∈ types then .ok (dictSet c "legend".toList (.str (l ++ ['p']))) else .ok c

/-! ### the default output name -/

/-- `[^a-zA-Z0-9_]` removed (cli.py:424) -/
def plainName (s : List Char) : List Char :=
  s.filter (fun c => ('a' ≤ c && c ≤ 'z') || ('A' ≤ c && c ≤ 'Z') || ('0' ≤ c && c ≤ '9') || c == '_')

/-- cli.py:429: `_?CRATER_?` at the beginning of a string; the rest -/
def dropCrater (s : List Char) : Option (List Char) :=
  let r := if "_CRATER".toList <+: s then some (s.drop 7) else if "CRATER".toList <+: s then some (s.drop 6) else none
  r.map (fun t => if t.head? = some '_' then t.drop 1 else t)

/-- cli.py:429: all occurrences removed, from left to right -/
def removeCrater : ℕ → List Char → List Char
  | 0, s => s
  | n + 1, s => match dropCrater s with
    | some t => removeCrater n t
    | none => match s with
      | [] => []
      | c :: t => c :: removeCrater n t

/-- the order of Python strings -/
def strLe : List Char → List Char → Bool
  | [], _ => true
  | _ :: _, [] => false
  | c :: s, d :: t => if c < d then true else if d < c then false else strLe s t

/-- `sep.join(l)` -/
def joinWith (sep : List Char) (l : List (List Char)) : List Char := (l.intersperse sep).flatten

/-- cli.py:418-431: the default name.  `input` is the file given with `-i`; `minD` the text of `min_diameter`. -/
def defaultName (env : SetEnv) (input : Option (List Char)) (p system minD : List Char) (sources : List (List Char)) :
    Except Exc (List Char) :=
  match input with
  | some f => Text.filename env.classes f "pn".toList none none 4
  | none => do
    let base ← if p ∈ ["chronology", "rate", "uncertainty"].map String.toList then
        .ok (plainName system ++ if p = "uncertainty".toList then '_' :: minD else [])
      else do
        let names ← sources.mapM (fun s => Text.filename env.classes s ['n'] none none 4)
        let j := if sources = [] then "out".toList else joinWith ['_'] (names.dedup.insertionSort (fun a b => strLe a b))
        .ok (removeCrater (j.length + 1) j)
    .ok (base ++ if p ∈ ["chronology", "rate", "uncertainty", "map", "m2cnd", "sdaa"].map String.toList then '_' :: p else [])

/-- cli.py:418-435 `set_default_filename`; for a directory the undefined variable `v` is used (cli.py:435) -/
def setDefaultName (env : SetEnv) (input : Option (List Char)) (minD : List Char) (sources : List (List Char)) (c : SDict) :
    Except Exc SDict := do
  let p ← getStr c "presentation"
  let system ← getStr c "chronology_system"
  let d ← defaultName env input p system minD sources
  match dictGet c "out".toList with
  | some .none => .ok (dictSet c "out".toList (.str d))
  | some (.str o) => if env.isdir o then .error .name else .ok c
  | _ => .error .type

/-! ### the files written -/

def imageFormats : List (List Char) := ["png", "pdf", "svg", "tif"].map String.toList

/-- what `write_output_files` depends on -/
structure WriteJob where
  presentation : List Char
  out : List Char
  /-- with `-ra`: the measures in the order in which the set is run through, and whether no trials are selected -/
  randomness : Option (List (List Char) × Bool)
  /-- is there an age evaluation among the plots?  (Craterplotset.py:667, 675) -/
  ages : Bool
  deriving DecidableEq

/-- cli.py:443-465: the names of the files of one image format; `computed` is `age_area_result is not None` -/
def imageFiles (w : WriteJob) (computed : Bool) (f : List Char) : List (List Char) :=
  match w.randomness with
  | some (ms, nSigma) => ms.map (fun m => w.out ++ '-' :: m ++ (if nSigma then "-n_sigma".toList else []) ++ '.' :: f)
  | none =>
    if w.presentation = "uncertainty".toList ∧ computed = false then
      ["_k", "_err", "_age"].map (fun t => w.out ++ t.toList ++ '.' :: f)
    else [w.out ++ '.' :: f]

/-- cli.py:456-458: `age_area_result` is set by the first image format of an uncertainty plot and stays set -/
def computedAfter (w : WriteJob) (computed : Bool) : Bool :=
  computed || (w.randomness = none && w.presentation = "uncertainty".toList)

/-- cli.py:437-468 `write_output_files` called without `age_area_result`: the names of the files; `f` runs over the formats
in some order.  A table without rows is not written (Craterplotset.py:675). -/
def writeStep (w : WriteJob) (st : List (List Char) × Bool) (f : List Char) : List (List Char) × Bool :=
  let st := if f ∈ imageFormats then (st.1 ++ imageFiles w st.2 f, computedAfter w st.2) else st
  if f = "csv".toList ∧ w.presentation ≠ "uncertainty".toList ∧ w.ages then (st.1 ++ [w.out ++ '.' :: f], st.2) else st

def writtenFiles (w : WriteJob) (formats : List (List Char)) : List (List Char) :=
  (formats.foldl (writeStep w) ([], false)).1

end Verif.Cli
