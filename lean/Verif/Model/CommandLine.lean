import Verif.Model.CommandFile
import Verif.Model.Filename
import Verif.Model.PlotSpec
import Verif.Model.Settings
import Verif.Py.Decimal
import Verif.Py.Dict
import Mathlib.Data.List.TakeWhile

/-!
Model of the command line: `src/craterstats/cli.py` `get_parser` (58-141), `LoadFromFile` (37-56), `SpacedString` (33-35),
`AppendPlotDict` (19-31), on top of Python's `argparse`.

Simplifications: options are spelled in full (`argparse` also accepts unambiguous abbreviations and values joined to an option; these are
errors here); numbers are written plainly (`intVal`, `decVal`: no white space, underscores, infinity or nan); `-h` is an error (it ends the
program).  Paths are texts; two different texts are two different files.
-/

namespace Verif.Cli

open Verif.Py Verif.Text

/-- the number of values of an option (`nargs`): none, one, two, at least one, at most one -/
inductive Arity
  | none | one | two | some | opt
  deriving DecidableEq

/-- an option: its spellings, the attribute, the number of values -/
structure Opt where
  flags : List (List Char)
  dest : List Char
  arity : Arity
  deriving DecidableEq

def mkOpt (flags : List String) (dest : String) (arity : Arity) : Opt := ⟨flags.map String.toList, dest.toList, arity⟩

/-- cli.py:61-139 -/
def cliOptions : List Opt :=
  [mkOpt ["-i", "--input"] "input" .one, mkOpt ["-inc", "--include"] "include" .one, mkOpt ["-lcs"] "lcs" .none,
   mkOpt ["-lpc"] "lpc" .none, mkOpt ["-about"] "about" .none, mkOpt ["-v", "--version"] "version" .none, mkOpt ["-demo"] "demo" .none,
   mkOpt ["-b", "--bins"] "bins" .none, mkOpt ["--convert"] "convert" .two, mkOpt ["-o", "--out"] "out" .some,
   mkOpt ["--functions_user"] "functions_user" .some, mkOpt ["--create_desktop_icon"] "create_desktop_icon" .none,
   mkOpt ["-m", "--merge"] "merge" .some, mkOpt ["-f", "--format"] "format" .some,
   mkOpt ["-cs", "--chronology_system"] "chronology_system" .one, mkOpt ["-ef", "--equilibrium"] "equilibrium" .one,
   mkOpt ["-ep", "--epochs"] "epochs" .one, mkOpt ["-title"] "title" .some, mkOpt ["-pr", "--presentation"] "presentation" .one,
   mkOpt ["-xrange"] "xrange" .two, mkOpt ["-yrange"] "yrange" .two, mkOpt ["-isochrons"] "isochrons" .one,
   mkOpt ["-legend"] "legend" .one, mkOpt ["-style"] "style" .one, mkOpt ["-mu"] "mu" .opt, mkOpt ["-invert"] "invert" .opt,
   mkOpt ["-text_halo"] "text_halo" .opt, mkOpt ["-transparent"] "transparent" .opt, mkOpt ["-tight"] "tight" .opt,
   mkOpt ["-pd", "--print_dimensions"] "print_dimensions" .one, mkOpt ["-pt_size"] "pt_size" .one,
   mkOpt ["-ref_diameter"] "ref_diameter" .one, mkOpt ["-sf", "--sig_figs"] "sig_figs" .one, mkOpt ["--font"] "font" .some,
   mkOpt ["-st", "--sequence_table"] "sequence_table" .none, mkOpt ["-d_min", "--min_diameter"] "min_diameter" .one,
   mkOpt ["-ns", "--n_samples"] "n_samples" .one, mkOpt ["-p", "--plot"] "plot" .some,
   mkOpt ["-ra", "--randomness_analysis"] "randomness_analysis" .some, mkOpt ["-trials"] "trials" .one, mkOpt ["-measure"] "measure" .one,
   mkOpt ["-ra_offset"] "ra_offset" .one, mkOpt ["-select"] "select" .one, mkOpt ["-ra_show"] "ra_show" .opt]

/-- an option with its values -/
structure Given where
  dest : List Char
  values : List (List Char)
  deriving DecidableEq

/-- is the word an option? -/
def isFlag (w : List Char) : Bool := cliOptions.any (fun o => w ∈ o.flags)

/-- `argparse`: a word is a value if it is no option and does not begin with a minus sign, or `isNeg` holds: the test of `argparse` for
negative numbers, the single minus sign, and words with a blank which begin like no option -/
def isValue (isNeg : List Char → Bool) (w : List Char) : Bool := !isFlag w && (w.head? != some '-' || isNeg w)

/-- `argparse`: does an option have the right number of values? -/
def arityOk (a : Arity) (n : ℕ) : Bool :=
  match a with
  | .none => n == 0
  | .one => n == 1
  | .two => n == 2
  | .some => n != 0
  | .opt => n ≤ 1

/-- `argparse`: the options of a command with their values.  A word which is neither an option nor a value of one ends the program. -/
def parseWords (isNeg : List Char → Bool) : List (List Char) → Except Exc (List Given)
  | [] => .ok []
  | w :: rest =>
    match cliOptions.find? (fun o => w ∈ o.flags) with
    | none => .error .system
    | some o =>
      if arityOk o.arity (rest.takeWhile (isValue isNeg)).length then do
        let l ← parseWords isNeg (rest.dropWhile (isValue isNeg))
        .ok (⟨o.dest, rest.takeWhile (isValue isNeg)⟩ :: l)
      else .error .system
  termination_by l => l.length
  decreasing_by
    have := (List.dropWhile_sublist (isValue isNeg) (l := rest)).length_le
    simp
    omega

/-- what becomes of the values of an option (`action`, `type`, `choices`, `const`) -/
inductive Kind
  /-- a word, or the two words of `nargs=2` -/
  | word
  /-- words, each one of a few -/
  | choices (l : List (List Char))
  /-- one word of a few -/
  | choice (l : List (List Char))
  /-- cli.py:33-35 `SpacedString` -/
  | spaced
  /-- `store_true` -/
  | flag
  /-- `nargs='?', choices=[0,1], type=int, const=1` -/
  | switch
  /-- `type=int`, perhaps with choices -/
  | int (l : Option (List ℤ))
  /-- `type=float` -/
  | float
  /-- cli.py:19-31 `AppendPlotDict` -/
  | plot
  deriving DecidableEq

/-- cli.py:61-139: the options which are not mentioned have words as values -/
def cliKinds : List (List Char × Kind) :=
  [("lcs", .flag), ("lpc", .flag), ("about", .flag), ("version", .flag), ("demo", .flag), ("bins", .flag), ("out", .spaced),
   ("functions_user", .spaced), ("create_desktop_icon", .flag), ("merge", .spaced),
   ("format", .choices (["png", "tif", "pdf", "svg", "csv"].map String.toList)), ("title", .spaced),
   ("style", .choice (["natural", "root-2"].map String.toList)), ("mu", .switch), ("invert", .switch), ("text_halo", .switch),
   ("transparent", .switch), ("tight", .switch), ("pt_size", .float), ("ref_diameter", .float), ("sig_figs", .int (some [2, 3])),
   ("font", .spaced), ("sequence_table", .flag), ("min_diameter", .float), ("n_samples", .int none), ("plot", .plot),
   ("randomness_analysis", .spaced), ("trials", .int none), ("ra_offset", .int none), ("ra_show", .switch)].map
    (fun x => (x.1.toList, x.2))

def optionKind (dest : List Char) : Kind := (dictGet cliKinds dest).getD .word

/-- `int(w)` with the choices -/
def intOption (l : Option (List ℤ)) (w : List Char) : Except Exc SVal :=
  match intVal w with
  | none => .error .system
  | some z => match l with
    | none => .ok (.num z)
    | some l => if z ∈ l then .ok (.num z) else .error .system

/-- `argparse`: the value of an option; a value of the wrong type or outside the choices ends the program.  The value of `-p` is
constructed elsewhere (`parsePlot`). -/
def optionValue (C : Classes) (dest : List Char) (values : List (List Char)) : Except Exc SVal :=
  match optionKind dest, values with
  | .word, [w] => .ok (.str w)
  | .word, l => .ok (.strs l)
  | .choices c, l => if l.all (fun w => w ∈ c) then .ok (.strs l) else .error .system
  | .choice c, [w] => if w ∈ c then .ok (.str w) else .error .system
  | .spaced, l => .ok (.str (join [' '] l))
  | .flag, _ => .ok (.num 1)
  | .switch, [] => .ok (.num 1)
  | .switch, [w] => intOption (some [0, 1]) w
  | .int c, [w] => intOption c w
  | .float, [w] => match decVal w with
    | some q => .ok (.num q)
    | none => .error .system
  | .plot, l => do
    let _ ← parsePlot C l
    .ok .none
  | _, _ => .error .system

/-- the files and directories, by their absolute paths -/
structure FileSys where
  content : List Char → Option (List Char)
  isdir : List Char → Bool

/-- the path of a file named in a program running in the directory `cwd` (which ends with `/`) -/
def absPath (cwd f : List Char) : List Char := if f.head? = some '/' then f else cwd ++ f

/-- the options given so far (the attributes of the namespace; for `plot` all of them), and the current directory -/
structure CmdState where
  ns : List (List Char × List (List (List Char)))
  cwd : List Char
  deriving DecidableEq

/-- `setattr`; for `-p` the values are appended to those given before (cli.py:29-31) -/
def setOption (ns : List (List Char × List (List (List Char)))) (g : Given) : List (List Char × List (List (List Char))) :=
  if g.dest = "plot".toList then dictSet ns g.dest ((dictGet ns g.dest).getD [] ++ [g.values]) else dictSet ns g.dest [g.values]

/-- cli.py:39-42: for `-i`, the program goes to the directory of the file -/
def changeDir (C : Classes) (F : FileSys) (dest f cwd : List Char) : Except Exc (List Char) :=
  if dest = "input".toList then do
    let p ← filename C f ['p'] none none 4
    .ok (if p ≠ [] ∧ F.isdir (absPath cwd p) = true then absPath cwd p else cwd)
  else .ok cwd

/-- one option: `-i` and `-inc` read further options from a file (cli.py:38-56), the others are converted (the words are kept here; their
value is `optionValue`) and stored.  `depth` stands for Python's limit of
nested calls; all errors end the program. -/
def applyOption (C : Classes) (isNeg : List Char → Bool) (F : FileSys) : ℕ → CmdState → Given → Except Exc CmdState
  | depth, st, g =>
    if g.dest = "input".toList ∨ g.dest = "include".toList then
      match depth, g.values with
      | n + 1, [f] => do
        let cwd ← changeDir C F g.dest f st.cwd
        match F.content (absPath cwd f) with
        | none => .error .system
        | some text => do
          let l ← parseWords isNeg (← loadArgs C text)
          let st' ← l.foldlM (applyOption C isNeg F n) ⟨st.ns, cwd⟩
          .ok ⟨dictSet (dictSet st'.ns "input_filename".toList [[f]]) g.dest [["True".toList]], st'.cwd⟩
      | _, _ => .error .system
    else do
      let _ ← optionValue C g.dest g.values
      .ok ⟨setOption st.ns g, st.cwd⟩

/-- `get_parser().parse_args(args0)` (cli.py:484) in the directory `cwd` -/
def runCommand (C : Classes) (isNeg : List Char → Bool) (F : FileSys) (depth : ℕ) (cwd : List Char) (words : List (List Char)) :
    Except Exc CmdState := do
  (← parseWords isNeg words).foldlM (applyOption C isNeg F depth) ⟨[], cwd⟩

end Verif.Cli
