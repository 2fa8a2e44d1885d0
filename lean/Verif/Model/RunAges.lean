import Verif.Model.Run
import Verif.Model.TableRow

/-!
Model of `Cratercount.decode_range` (Cratercount.py:315-347) as it is called for the plots of a command (Craterplot.py:39): the range is given by texts.
-/

namespace Verif.RunAges

open Verif.Py Verif.CountFile Verif.Cratercount Verif.FileAge Verif.PlotObject

noncomputable section

/-- the texts of infinity which `float(s)` reads, without sign -/
def infinite : List (List Char) := ["inf".toList, "infinity".toList]

/-- Cratercount.py:335: `float(r)`; nan counts as an error (simplification) -/
def floatLim (s : List Char) : Lim :=
  match decVal s with
  | some q => .val ((q : ℝ) : EReal)
  | none => if (takeSign s).2.map Char.toLower ∈ infinite then .val (if (takeSign s).1 = 1 then ⊤ else ⊥) else .bad

/-- Cratercount.py:325-335: one limit given as text; the first letter of an empty text does not exist -/
def textLim : List Char → Lim
  | [] => .bad
  | c :: t =>
    if c = 'b' then
      match intVal t with
      | some k => .bin k
      | none => .bad
    else floatLim (c :: t)

/-- Cratercount.py:320, 323: the limits not given stay 0; there is no place for a third one, which ends the program (337) -/
def twoLims : List Lim → Except Exc (Lim × Lim)
  | [] => .ok (.val 0, .val 0)
  | [a] => .ok (a, .val 0)
  | [a, b] => .ok (a, b)
  | _ => .error .system

/-- Cratercount.py:323: the limits in the setting `range`; the elements of a text are its characters -/
def limsOf : Val Opened → Except Exc (Lim × Lim)
  | .strs l => twoLims (l.map textLim)
  | .reals l => twoLims (l.map (fun q : ℚ => Lim.val ((q : ℝ) : EReal)))
  | .str s => twoLims (s.map (fun c => textLim [c]))
  | .none => .error .type
  | .num _ => .error .type
  | .real _ => .error .type
  | .count _ => .error .type

/-- Craterplot.py:39, Cratercount.py:315-347.  What was binned before does not matter (C05), so that the object is taken as it is after opening.  A
pre-binned count ignores the binning; its name is one of those known in any case (cli.py:278), others are refused here.  Which exception stops the
program is not distinguished. -/
def decodeOf (o : Opened) (range binning snap : Val Opened) : Except Exc (EReal × EReal) := do
  let l ← limsOf range
  match binning, snap with
  | .str b, .num z => do
    let b ← TableRow.binningNamed b
    match ((object o).decodeRange l.1 l.2 b (z != 0)).2 with
    | .ok r => .ok r
    | .error _ => .error .system
  | _, _ => .error .type

end

end Verif.RunAges
