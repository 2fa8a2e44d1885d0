import Verif.Py.Regex
import Verif.Py.Str
import Verif.Py.Exc

/-!
Model of the saved command file: `/repo/src/craterstats/cli.py:535` (`cs_content`), `LoadFromFile` (cli.py:37-56), and of the
functions `shlex.quote` and `shlex.split` of Python's library.
-/

namespace Verif.Cli

open Verif.Py

/-- `shlex.quote`: the characters needing no quotes: ASCII letters, digits, underscore and `@ % + = : , . /` and the minus sign -/
def shellSafe (c : Char) : Bool :=
  c.isAlphanum || c == '_' || c == '@' || c == '%' || c == '+' || c == '=' || c == ':' || c == ',' || c == '.' || c == '/' || c == '-'

/-- `s.replace("'", "'\"'\"'")` -/
def escapeQuotes (s : List Char) : List Char := s.flatMap (fun c => if c = '\'' then "'\"'\"'".toList else [c])

/-- `shlex.quote` -/
def shellQuote (s : List Char) : List Char :=
  if s = [] then "''".toList
  else if s.all shellSafe then s
  else '\'' :: escapeQuotes s ++ ['\'']

/-- state of the lexer of `shlex`: between words, in a word, in quotes, after a backslash (with the quote to return to) -/
inductive LexMode
  | space
  | word
  | quote (q : Char)
  | escape (back : Option Char)
  deriving DecidableEq

structure LexSt where
  mode : LexMode
  token : List Char
  quoted : Bool
  out : List (List Char)
  deriving DecidableEq

/-- `shlex.whitespace` -/
def lexSpace (c : Char) : Bool := c == ' ' || c == '\t' || c == '\r' || c == '\n'

/-- the end of a word: it counts if it is not empty or was quoted -/
def LexSt.emit (s : LexSt) : LexSt :=
  if s.token ≠ [] ∨ s.quoted = true then ⟨.space, [], false, s.out ++ [s.token]⟩ else ⟨.space, s.token, s.quoted, s.out⟩

/-- after an escaped character: back to the quotation, or to the word -/
def escapeBack : Option Char → LexMode
  | some q => .quote q
  | none => .word

/-- in a quotation the backslash stays unless it stands before itself or the quote -/
def escapeKeep : Option Char → Char → List Char
  | some q, c => if c ≠ '\\' ∧ c ≠ q then ['\\'] else []
  | none, _ => []

/-- one character, `shlex.read_token` with `posix=True`, `whitespace_split=True`, no comments -/
def lexStep (s : LexSt) (c : Char) : LexSt :=
  match s.mode with
  | .space =>
    if lexSpace c then s.emit
    else if c = '\\' then { s with mode := .escape none }
    else if c = '\'' ∨ c = '"' then { s with mode := .quote c }
    else { s with mode := .word, token := [c] }
  | .word =>
    if lexSpace c then s.emit
    else if c = '\'' ∨ c = '"' then { s with mode := .quote c }
    else if c = '\\' then { s with mode := .escape none }
    else { s with token := s.token ++ [c] }
  | .quote q =>
    if c = q then { s with mode := .word, quoted := true }
    else if c = '\\' ∧ q = '"' then { s with mode := .escape (some q), quoted := true }
    else { s with token := s.token ++ [c], quoted := true }
  | .escape back => { s with mode := escapeBack back, token := s.token ++ escapeKeep back c ++ [c] }

/-- `shlex.split`; an open quotation or a final backslash is a ValueError -/
def shlexSplit (s : List Char) : Except Exc (List (List Char)) :=
  let t := s.foldl lexStep ⟨.space, [], false, []⟩
  match t.mode with
  | .space => .ok t.emit.out
  | .word => .ok t.emit.out
  | .quote _ => .error .value
  | .escape _ => .error .value

/-- cli.py:535: one argument; `e[0]` of an empty argument is an IndexError.  `isdigit` is `str.isdigit` for one character. -/
def csItem (isdigit : Char → Bool) (e : List Char) : Except Exc (List Char) :=
  match e with
  | [] => .error .index
  | c :: t => if c = '-' ∧ isdigit (t.headD ' ') = false then .ok ('\n' :: e) else .ok (' ' :: shellQuote e)

/-- cli.py:535 `cs_content` -/
def csContent (isdigit : Char → Bool) (args : List (List Char)) : Except Exc (List Char) := do
  .ok ((← args.mapM (csItem isdigit)).flatten.drop 1)

/-- cli.py:47: which lines are kept; `space` is Python's white space -/
def keepLine (C : Classes) (e : List Char) : Bool :=
  strip C.space e != [] && (strip C.space e).head? != some '#'

/-- cli.py:46-48: the arguments in a file with the given content (`f.read()`) -/
def loadArgs (C : Classes) (content : List Char) : Except Exc (List (List Char)) :=
  shlexSplit (join ['\n'] ((split '\n' content).filter (keepLine C)))

end Verif.Cli
