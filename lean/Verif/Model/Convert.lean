import Verif.Model.Filename
import Verif.Model.Settings

/-!
Model of `convert_format` (`src/craterstats/cli.py` 303-347): which files are written and what is reported, and of the names which
`Spatialcount` (Spatialcount.py:26-39) and `Cratercount` (Cratercount.py:17-30, 186-191) take from their source.

Simplifications: the source is readable; the data files are represented by their names; a shapefile stands for itself and the
`.prj`, `.qml`, `.shx` and `.dbf` files beside it.  A directory given for output does not come this far: `set_default_filename`
(cli.py:434-435) fails before (see `setDefaultName`); the branch is modelled nevertheless.
-/

namespace Verif.Cli
open Verif.Py Verif.Text

/-- a file written -/
inductive Out
  | stat (f : List Char)
  | scc (f : List Char)
  | craters (f : List Char)
  | areas (f : List Char)
  | image (f : List Char)
  | commands (f : List Char)
  deriving DecidableEq

/-- the last line printed (cli.py:344-347) -/
inductive Report
  | written (f : List Char)
  | notSupported
  deriving DecidableEq

/-- what a conversion depends on: `args.convert`, `cps.out`, whether that is a directory, and whether the arguments came from a file -/
structure ConvertJob where
  fmt : List Char
  src : List Char
  out : List Char
  isDir : Bool
  input : Bool

/-- Spatialcount.py:28-29, 39 `name` -/
def spatialName (C : Classes) (src : List Char) : Except Exc (List Char) := do
  let e ← filename C src ['e'] none none 4
  let n ← filename C src ['n'] none none 4
  .ok (if e = ".shp".toList then removeCrater (n.length + 1) n else n)

/-- Cratercount.py:19, 29, 191 `name` -/
def countName (C : Classes) (src : List Char) : Except Exc (List Char) := do
  let e ← filename C src ['e'] none none 6
  if e = ".shp".toList then spatialName C src else filename C src ['n'] none none 4

/-- cli.py:304-312 `outfile` -/
def outfile (C : Classes) (isDir : Bool) (name out ext : List Char) : Except Exc (List Char) :=
  if out ≠ "out".toList then
    if isDir then .ok (out ++ name ++ ext)
    else do
      let f ← filename C out ['p', 'n'] none none 4
      .ok (f ++ ext)
  else .ok (name ++ ext)

/-- cli.py:303-347 `convert_format` -/
def convert (C : Classes) (j : ConvertJob) : Except Exc (List Out × Report) := do
  let fmt1 := j.fmt.dropWhile (· == '.')
  let e0 ← filename C j.src ['e'] none none 4
  let fmt0 := e0.dropWhile (· == '.')
  let n ← filename C j.src ['n'] none none 4
  let out ← outfile C j.isDir n j.out ('.' :: fmt1)
  if fmt1 = "stat".toList ∧ fmt0 ∈ ["diam".toList, "scc".toList, "shp".toList] then do
    let name ← countName C j.src
    let out ← filename C out ['p', '1', 'e'] (some name) none 4
    .ok ([.stat out], .written out)
  else if fmt1 = "scc".toList then
    if fmt0 = "shp".toList then do
      let name ← spatialName C j.src
      let out ← filename C out ['p', '1', 'e'] (some name) none 4
      .ok ([.scc out], .written out)
    else .ok ([], .written out)
  else if fmt1 = "shp".toList then
    if fmt0 = "scc".toList then do
      let fc ← filename C out ['p', 'n', '1', 'e'] (some "_CRATER".toList) none 4
      let fa ← filename C out ['p', 'n', '1', 'e'] (some "_AREA".toList) none 4
      let both ← filename C out ['p', 'n', '1', 'e'] (some "[_CRATER,_AREA]".toList) none 4
      .ok ([.craters fc, .areas fa], .written both)
    else .ok ([], .written out)
  else if fmt1 ∈ ["png".toList, "svg".toList, "pdf".toList] then
    if fmt0 ∈ ["shp".toList, "scc".toList] then do
      let out := removeCrater (out.length + 1) out
      if j.input then .ok ([.image out], .written out)
      else do
        let out ← filename C out ['p', 'n', '1', 'e'] (some "_map".toList) none 4
        let cs ← filename C out ['p', 'n', '1'] (some ".cs".toList) none 4
        .ok ([.commands cs, .image out], .written out)
    else .ok ([], .written out)
  else .ok ([], .notSupported)

end Verif.Cli
