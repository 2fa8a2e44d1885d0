import Verif.Py.Regex
import Verif.Py.Str
import Verif.Py.Dict
import Verif.Py.Exc
import Verif.Model.TextFile

/-!
Model of `/repo/src/craterstats/gm/file/read_textstructure.py`, `/repo/src/craterstats/gm/string/quoted_split.py` and
`/repo/src/craterstats/gm/string/strip_quotes.py`.
-/

namespace Verif.Text

open Verif.Py

/-- strip_quotes.py:5-11 -/
def stripQuotes (s : List Char) : List Char :=
  match s with
  | c :: d :: t => if (d :: t).getLast? = some c ∧ (c = '"' ∨ c = '\'') then (d :: t).dropLast else s
  | _ => s

/-- `q(?:\\.|[^q])*q` -/
def quotedRe (q : Char) : Re :=
  .seq (.lit q) (.seq (.many (.alt (.seq (.lit '\\') .dot) (.chr (fun c => c != q)))) (.lit q))

/-- quoted_split.py:18-19; `sep` is the class of separators -/
def fieldRe (sep : Char → Bool) : Re :=
  .alt (quotedRe '"') (.alt (quotedRe '\'') (.some1 (.chr (fun c => !sep c))))

/-- quoted_split.py:18 what becomes of one match -/
def cleanField (p : List Char) : List Char := replace2 '\\' '\'' ['\''] (replace2 '\\' '"' ['"'] (stripQuotes p))

/-- quoted_split.py:8-19 -/
def quotedSplit (sep : Char → Bool) (s : List Char) : List (List Char) :=
  ((fieldRe sep).findAll s).map (fun m => cleanField (matched m.1 m.2))

/-- values of a text structure -/
inductive TVal
  | none
  | str (s : List Char)
  | list (l : List TVal)
  | dict (d : List (List Char × TVal))

mutual
def TVal.decEq : (a b : TVal) → Decidable (a = b)
  | .none, .none => .isTrue rfl
  | .str s, .str t => if h : s = t then .isTrue (by rw [h]) else .isFalse (by intro e; injection e; contradiction)
  | .list l, .list m => match TVal.decEqList l m with
    | .isTrue h => .isTrue (by rw [h])
    | .isFalse h => .isFalse (by intro e; injection e; contradiction)
  | .dict l, .dict m => match TVal.decEqDict l m with
    | .isTrue h => .isTrue (by rw [h])
    | .isFalse h => .isFalse (by intro e; injection e; contradiction)
  | .none, .str _ => .isFalse (by intro e; cases e)
  | .none, .list _ => .isFalse (by intro e; cases e)
  | .none, .dict _ => .isFalse (by intro e; cases e)
  | .str _, .none => .isFalse (by intro e; cases e)
  | .str _, .list _ => .isFalse (by intro e; cases e)
  | .str _, .dict _ => .isFalse (by intro e; cases e)
  | .list _, .none => .isFalse (by intro e; cases e)
  | .list _, .str _ => .isFalse (by intro e; cases e)
  | .list _, .dict _ => .isFalse (by intro e; cases e)
  | .dict _, .none => .isFalse (by intro e; cases e)
  | .dict _, .str _ => .isFalse (by intro e; cases e)
  | .dict _, .list _ => .isFalse (by intro e; cases e)
def TVal.decEqList : (a b : List TVal) → Decidable (a = b)
  | [], [] => .isTrue rfl
  | [], _ :: _ => .isFalse (by intro e; cases e)
  | _ :: _, [] => .isFalse (by intro e; cases e)
  | x :: l, y :: m => match TVal.decEq x y, TVal.decEqList l m with
    | .isTrue h, .isTrue h' => .isTrue (by rw [h, h'])
    | .isFalse h, _ => .isFalse (by intro e; injection e; contradiction)
    | _, .isFalse h => .isFalse (by intro e; injection e; contradiction)
def TVal.decEqDict : (a b : List (List Char × TVal)) → Decidable (a = b)
  | [], [] => .isTrue rfl
  | [], _ :: _ => .isFalse (by intro e; cases e)
  | _ :: _, [] => .isFalse (by intro e; cases e)
  | (k, x) :: l, (k', y) :: m => if hk : k = k' then
      match TVal.decEq x y, TVal.decEqDict l m with
      | .isTrue h, .isTrue h' => .isTrue (by rw [hk, h, h'])
      | .isFalse h, _ => .isFalse (by intro e; injection e with e1 e2; injection e1; contradiction)
      | _, .isFalse h => .isFalse (by intro e; injection e; contradiction)
    else .isFalse (by intro e; injection e with e1 e2; injection e1; contradiction)
end

instance : DecidableEq TVal := TVal.decEq

/-- read_textstructure.py:18-20, 22-24: the elements of an array -/
def arrayValue (brackets : List Char) (s : List Char) : TVal :=
  .list ((split ',' (strip (fun c => brackets.contains c || c == ' ' || c == '\n') s)).map
    (fun e => .str (stripQuotes (strip (fun c => c == '\n' || c == ' ') e))))

/-- read_textstructure.py:34-35: the fields of one row -/
def addRow : List (List Char) → List (List Char) → List (List Char × List (List Char)) → List (List Char × List (List Char))
  | [], _, r => r
  | t :: tags, v, r => addRow tags v.tail (dictSet r t ((dictGet r t).getD [] ++ [v.headD []]))

/-- read_textstructure.py:31-35: the rows; `v[0]` of a blank row is an IndexError.  `space` is the class `\s`. -/
def tableRows (space : Char → Bool) (tags : List (List Char)) :
    List (List Char) → List (List Char × List (List Char)) → Except Exc (List (List Char × List (List Char)))
  | [], r => .ok r
  | row :: rows, r =>
    match quotedSplit space row with
    | [] => .error .index
    | f :: v => if f = ['}'] then .ok r else tableRows space tags rows (addRow tags (f :: v) r)

/-- read_textstructure.py:27-28 -/
def tableTags (line : List Char) : List (List Char) := (split ',' line).map (strip (fun c => c == '{' || c == ' '))

/-- read_textstructure.py:26-35 -/
def tableValue (space : Char → Bool) (s : List Char) : Except Exc (List (List Char × List (List Char))) :=
  match splitLines s with
  | [] => .error .index
  | l :: rows => tableRows space (tableTags l) rows ((tableTags l).foldl (fun d t => dictSet d t []) [])

def columnsVal (d : List (List Char × List (List Char))) : TVal := .dict (d.map (fun x => (x.1, .list (x.2.map .str))))

/-- read_textstructure.py:17-37 -/
def plainValue (space : Char → Bool) (s : List Char) : Except Exc TVal :=
  match s with
  | '[' :: _ => .ok (arrayValue ['[', ']'] s)
  | '(' :: _ => .ok (arrayValue ['(', ')'] s)
  | '{' :: _ => do .ok (columnsVal (← tableValue space s))
  | _ => .ok (.str (stripQuotes (strip (fun c => c == ' ' || c == '\n') s)))

/-- read_textstructure.py:11-39 -/
def simpleValue (space : Char → Bool) (s : List Char) : Except Exc TVal :=
  match s with
  | '*' :: t => plainValue space t
  | _ => plainValue space s

/-- read_textstructure.py:42-58 with `s1 = {k: v}` -/
def mergeVal (k : List Char) (v : TVal) (sr : TVal) : TVal :=
  match sr with
  | .dict d =>
    match dictGet d k with
    | some (.list l) => .dict (dictSet d k (.list (v :: l)))
    | some w => .dict (dictSet d k (.list [v, w]))
    | Option.none => .dict (dictSet d k v)
  | _ => .dict [(k, v)]

/-- `[\w\.]*\^?` -/
def keyRe (C : Classes) : Re := .seq (.many (.chr (fun c => C.word c || c == '.'))) (.opt (.lit '^'))

/-- `^\s*(?P<keyword2>[\w\.]*\^?) *=` -/
def nextRe (C : Classes) : Re :=
  .seq (.bol true) (.seq (.many (.chr C.space)) (.seq (.grp 7 (keyRe C)) (.seq (.many (.lit ' ')) (.lit '='))))

/-- `(\{[a-zA-Z].*?\}|[^{}]*?)*?` -/
def insideRe : Re :=
  .lazy (.grp 4 (.alt (.seq (.lit '{') (.seq (.chr (fun c => c.isAlpha)) (.seq (.lazy .any) (.lit '}'))))
    (.lazy (.chr (fun c => c != '{' && c != '}')))))

/-- `\{\s+(?P<struct_value>…)^\s*\}.*?` -/
def structRe (C : Classes) : Re :=
  .seq (.lit '{') (.seq (.some1 (.chr C.space)) (.seq (.grp 3 insideRe)
    (.seq (.bol true) (.seq (.many (.chr C.space)) (.seq (.lit '}') (.lazy .any))))))

/-- `\"\s*$(?P<text_value>[^{]*)^\s*\".*?` -/
def textRe (C : Classes) : Re :=
  .seq (.lit '"') (.seq (.many (.chr C.space)) (.seq (.eol true) (.seq (.grp 5 (.many (.chr (fun c => c != '{'))))
    (.seq (.bol true) (.seq (.many (.chr C.space)) (.seq (.lit '"') (.lazy .any)))))))

/-- read_textstructure.py:72-76 with the flags m and s -/
def definitionRe (C : Classes) : Re :=
  .seq (.bol true) (.seq (.many (.chr C.space)) (.seq (.grp 1 (keyRe C)) (.seq (.many (.chr C.space)) (.seq (.lit '=')
    (.seq (.many (.chr C.space)) (.seq (.grp 2 (.alt (structRe C) (.alt (textRe C) (.grp 6 (.lazy .any))))) (nextRe C)))))))

/-- read_textstructure.py:80-81 -/
def keyName (k : List Char) : List Char :=
  if k.getLast? = some '^' then "ptr_".toList ++ rstrip (fun c => c == '^') k else k

/-- read_textstructure.py:61-104.  The text of a structure and the remainder are shorter than the text, so that the length of the
text is enough fuel. -/
def evaluate (C : Classes) : ℕ → List Char → Except Exc TVal
  | 0, _ => .ok .none
  | fuel + 1, s =>
    match (definitionRe C).search (s ++ "\nend=".toList) with
    | none => .ok .none
    | some (_, m) => do
      let r ← match m.group 3, m.group 5 with
        | some inner, _ => evaluate C fuel inner
        | none, some text => .ok (.str text)
        | none, none => simpleValue C.space ((m.group 6).getD [])
      let rest ← evaluate C fuel (s.drop ((m.groupStart 7).getD 0))
      .ok (mergeVal (keyName ((m.group 1).getD [])) r rest)

/-- read_textstructure.py:106-120 with `from_string=True` -/
def readStructure (C : Classes) (s : List Char) : Except Exc TVal := evaluate C (s.length + 1) s

/-- read_textstructure.py:106-120 for a file -/
def readStructureFile (C : Classes) (file : List Char) : Except Exc TVal :=
  readStructure C (join ['\n'] (readTextfile C none false true true file))

end Verif.Text
