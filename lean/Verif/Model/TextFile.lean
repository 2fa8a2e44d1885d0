import Verif.Py.Regex
import Verif.Py.Str

/-!
Model of `/repo/src/craterstats/gm/file/read_textfile.py` and `/repo/src/craterstats/gm/file/write_textfile.py`.

A file is the list of characters its bytes encode as UTF-8 (a byte order mark is the character U+FEFF).  Line endings are
translated as Python's text mode does: on writing every line feed becomes `os.linesep`, on reading `\r\n` and `\r` become a
line feed.  Files which cannot be opened or decoded, and appending, are not modelled.
-/

namespace Verif.Text

open Verif.Py

/-- byte order mark -/
def bomChar : Char := Char.ofNat 0xFEFF

/-- text mode, writing: `\n` → `os.linesep` -/
def writeNewlines (linesep : List Char) (s : List Char) : List Char := s.flatMap (fun c => if c = '\n' then linesep else [c])

/-- text mode, reading (`newline=None`): `\r\n` and `\r` → `\n` -/
def readNewlines : List Char → List Char
  | [] => []
  | c :: l => if c = '\r' then (if l.head? = some '\n' then readNewlines l else '\n' :: readNewlines l) else c :: readNewlines l

/-- write_textfile.py:13-15 with a list of strings; the encoding `utf-8-sig` puts a mark before the first character written -/
def writeTextfile (linesep : List Char) (bom : Bool) (s : List (List Char)) : List Char :=
  let t := writeNewlines linesep (join ['\n'] s)
  if bom = true ∧ t ≠ [] then bomChar :: t else t

/-- the encoding `utf-8-sig`, reading: one mark at the start is dropped -/
def dropBom : List Char → List Char
  | [] => []
  | c :: l => if c = bomChar then l else c :: l

/-- the line boundaries of `str.splitlines` -/
def lineBreaks : List Char := ['\n', '\r', '\x0b', '\x0c', '\x1c', '\x1d', '\x1e', Char.ofNat 0x85, Char.ofNat 0x2028, Char.ofNat 0x2029]

/-- `str.splitlines` -/
def splitLines : List Char → List (List Char)
  | [] => []
  | c :: l =>
    if c = '\r' ∧ l.head? = some '\n' then splitLines l
    else if c ∈ lineBreaks then [] :: splitLines l
    else match splitLines l with
      | [] => [[c]]
      | h :: t => (c :: h) :: t

/-- read_textfile.py:17 the text `file.read()` -/
def fileText (file : List Char) : List Char := readNewlines (dropBom file)

/-- read_textfile.py:18-25 the lines; `nLines` is `none` for -1 -/
def fileLines (C : Classes) (nLines : Option ℕ) (file : List Char) : List (List Char) :=
  match nLines with
  | some n => (List.range n).map (fun i => strip C.space ((split '\n' (fileText file)).getD i []))
  | none => splitLines (fileText file) ++ if (fileText file).getLast? = some '\n' then [[]] else []

/-- read_textfile.py:34 `(("[^"]*?")|('[^']*?')|[^;'"]*)*` -/
def commentRe : Re :=
  .many (.grp 1 (.alt (.grp 2 (.seq (.lit '"') (.seq (.lazy (.chr (fun c => c != '"'))) (.lit '"'))))
    (.alt (.grp 3 (.seq (.lit '\'') (.seq (.lazy (.chr (fun c => c != '\''))) (.lit '\''))))
      (.many (.chr (fun c => c != ';' && c != '\'' && c != '"'))))))

/-- read_textfile.py:35 `c.match(e)[0]`; the expression matches at every start -/
def stripComment (e : List Char) : List Char :=
  match commentRe.match_ e with
  | some t => matched ⟨[], e, []⟩ t
  | none => []

/-- read_textfile.py:6-35 (with `as_string=False`); whatever symbol is given as `strip`, the semicolon is used -/
def readTextfile (C : Classes) (nLines : Option ℕ) (ignoreBlank ignoreHash stripComments : Bool) (file : List Char) :
    List (List Char) :=
  let s := fileLines C nLines file
  let s := if ignoreBlank then s.filter (fun e => e != []) else s
  let s := if ignoreHash then s.filter (fun e => (lstrip C.space e).head? != some '#') else s
  if stripComments then s.map stripComment else s

end Verif.Text
