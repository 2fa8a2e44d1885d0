import Verif.Py.Regex
import Verif.Py.Exc
import Mathlib.Data.List.Sort

/-! Model of `decode_abbreviation` (`/repo/src/craterstats/cli.py:136-159`). -/

namespace Verif.Cli

open Verif.Py

/-- one character of a pattern under the flag `i`: the full stop matches everything but a line feed.  `lower` is the case folding of the
regular expression engine.  The characters `\ [ + ? | ^ $` are taken to stand for themselves (their special meaning is not modelled). -/
def reAtom (lower : Char → Char) (c : Char) : Re := if c = '.' then .dot else .chr (fun d => lower d == lower c)

/-- `re`'s reading of a pattern: sequences of characters and full stops, each followed by a star or not, and groups (numbers of
groups and captured texts are not used).  `cur` is the sequence read so far, `outer` are those around the open groups.  A star with
nothing to repeat or after another one, a bracket not closed and one not opened are a `re.error` (`.value`). -/
def parsePattern (lower : Char → Char) : List Char → Re → List Re → Except Exc Re
  | [], cur, [] => .ok cur
  | [], _, _ :: _ => .error .value
  | '(' :: t, cur, outer => parsePattern lower t .eps (cur :: outer)
  | ')' :: t, cur, r :: outer => parsePattern lower t (.seq r cur) outer
  | ')' :: _, _, [] => .error .value
  | '*' :: _, _, _ => .error .value
  | c :: '*' :: t, cur, outer => parsePattern lower t (.seq cur (.many (reAtom lower c))) outer
  | c :: t, cur, outer => parsePattern lower t (.seq cur (reAtom lower c)) outer

/-- cli.py:149: `'.*'.join(v)` -/
def abbrevPattern : List Char → List Char
  | [] => []
  | [c] => [c]
  | c :: d :: l => c :: '.' :: '*' :: abbrevPattern (d :: l)

/-- cli.py:150: positions and entries which match, in list order; without entries the pattern is not looked at -/
def abbrevMatches (lower : Char → Char) (s : List (List Char)) (v : List Char) : Except Exc (List (ℕ × List Char)) :=
  match s with
  | [] => .ok []
  | s => (parsePattern lower (abbrevPattern v) .eps []).map (fun r =>
      (s.zipIdx.map (fun x => (x.2, x.1))).filter (fun x => (r.search x.2).isSome))

/-- cli.py:136-159 `decode_abbreviation`; `res.sort(key=len)` is stable (insertion sort).  `sys.exit` is `.system`; the
result is a position, -1 if nothing matches and this is allowed. -/
def decodeAbbreviation (lower : Char → Char) (s : List (List Char)) (v : List Char)
    (allowAmbiguous allowInvalid : Bool) : Except Exc ℤ := do
  let res ← abbrevMatches lower s v
  match res.insertionSort (fun a b => a.2.length ≤ b.2.length) with
  | [] => if allowInvalid then .ok (-1) else .error .system
  | x :: rest => if rest.length + 1 > 1 && !allowAmbiguous then .error .system else .ok x.1

end Verif.Cli
