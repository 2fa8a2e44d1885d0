import Verif.Model.Filename
import Verif.Py.Exc

/-!
Model of the output of a run: `randomness_analysis` (`/repo/src/craterstats/cli.py:401-416`), `write_output_files` (434-468) and the end
of `main` (535-541).  Modelled are the names of the files written and what they show.  Drawing, the table and the analysis itself are
parameters or constructors.  The formats are a Python set: the list gives the order in which the set is traversed, which is arbitrary
(texts are hashed differently in every process).
-/

namespace Verif.Output

open Verif.Py Verif.Text

/-- what a file shows; `A` are the results of a randomness analysis -/
inductive Content (A : Type)
  | plot
  | ageArea (kind : List Char)
  | sigma (measure : List Char) (results : A)
  | bins (measure : List Char) (results : A)
  | results (results : A)
  | table
  | commands
  deriving DecidableEq

/-- what the options ask for -/
structure Job where
  /-- `cps.out` after `set_default_filename`: never None -/
  out : List Char
  formats : List (List Char)
  /-- name of the count analysed, and the file of earlier results beside it (Randomnessanalysis.py:35, 440) -/
  ra : Option (List Char × List Char)
  /-- the selection is `[0]` (cli.py:448) -/
  overview : Bool
  measures : List (List Char)
  /-- presentation `uncertainty` -/
  uncertainty : Bool
  /-- there is an age to be put into the table (Craterplotset.create_summary_table returns otherwise) -/
  fits : Bool
  /-- `-i` -/
  input : Bool

/-- the state of `write_output_files`: `cps.out`, whether `age_area_result` is set, the number of analyses run, the files of results by
name and the files written (later ones replace earlier ones of the same name) -/
structure St (A : Type) where
  out : List Char
  areaDone : Bool
  runs : ℕ
  raFiles : List Char → Option A
  files : List (List Char × Content A)

/-- cli.py:441 -/
def imageFormats : List (List Char) := ["png".toList, "pdf".toList, "svg".toList, "tif".toList]

/-- cli.py:401-416 and Randomnessanalysis.py:35, 438-442: the analysis, named after the output or else the count, continues with
the results found under its name or else beside the source; `analyse k` gives the results of the `k`-th analysis of the run from those
found -/
def randomness {A : Type} (C : Classes) (analyse : ℕ → Option A → A) (name beside : List Char) (s : St A) : Except Exc (St A × A) := do
  let o ← if s.out = "out".toList then .ok [] else filename C s.out "pn".toList none none 4
  let raFile := (if o = [] then name else o) ++ "_ra.txt".toList
  let out ← filename C raFile "pn".toList none none 4
  let a := analyse s.runs (s.raFiles raFile <|> s.raFiles beside)
  .ok (⟨out, s.areaDone, s.runs + 1, fun f => if f = raFile then some a else s.raFiles f, s.files ++ [(raFile, .results a)]⟩, a)

/-- cli.py:440-463: one round of the loop, images -/
def imageRound {A : Type} (C : Classes) (analyse : ℕ → Option A → A) (j : Job) (f : List Char) (s : St A) : Except Exc (St A) :=
  match j.ra with
  | some (name, beside) => do
    let (s, a) ← randomness C analyse name beside s
    .ok { s with files := s.files ++ j.measures.map (fun m =>
      if j.overview then (s.out ++ '-' :: m ++ "-n_sigma.".toList ++ f, .sigma m a) else (s.out ++ '-' :: m ++ '.' :: f, .bins m a)) }
  | none =>
    if j.uncertainty && !s.areaDone then
      .ok { s with areaDone := true, files := s.files ++ ["k".toList, "err".toList, "age".toList].map (fun k =>
        (s.out ++ '_' :: k ++ '.' :: f, .ageArea k)) }
    else .ok { s with files := s.files ++ [(s.out ++ '.' :: f, .plot)] }

/-- cli.py:439-466: one round of the loop -/
def formatRound {A : Type} (C : Classes) (analyse : ℕ → Option A → A) (j : Job) (s : St A) (f : List Char) : Except Exc (St A) := do
  let s ← if f ∈ imageFormats then imageRound C analyse j f s else .ok s
  if f = "csv".toList ∧ j.uncertainty = false ∧ j.fits = true then .ok { s with files := s.files ++ [(s.out ++ ".csv".toList, .table)] }
  else .ok s

/-- cli.py:434-468 and 538-541 -/
def output {A : Type} (C : Classes) (analyse : ℕ → Option A → A) (raFiles : List Char → Option A) (j : Job) : Except Exc (St A) := do
  let s ← j.formats.foldlM (formatRound C analyse j) ⟨j.out, false, 0, raFiles, []⟩
  .ok (if j.input then s else { s with files := s.files ++ [(s.out ++ ".cs".toList, .commands)] })

end Verif.Output
