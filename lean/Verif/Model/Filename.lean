import Verif.Py.Regex
import Verif.Py.Exc

/-! Model of `/repo/src/craterstats/gm/file/filename.py`. -/

namespace Verif.Text

open Verif.Py

/-- filename.py:28: the class `[\.,= \w-]` -/
def nameCh (C : Classes) (c : Char) : Bool := c == '.' || c == ',' || c == '=' || c == ' ' || C.word c || c == '-'

/-- filename.py:28: `(\.\w{1,N})?$`; `\w{1,N}` is one word character and up to `N-1` more (`N ≥ 1`) -/
def reExt (C : Classes) (maxExt : ℕ) : Re :=
  .seq (.opt (.seq (.lit '.') (.seq (.chr C.word) (.upto (maxExt - 1) (.chr C.word))))) (.eol false)

/-- filename.py:28, groups 1 `path`, 2 `name`, 3 `ext` -/
def reName (C : Classes) (maxExt : ℕ) : Re :=
  .seq (.grp 1 (.lazy .dot)) (.seq (.grp 2 (.lazy (.chr (nameCh C)))) (.grp 3 (reExt C maxExt)))

/-- filename.py:41, groups 1 `path`, 3 `parentdir` -/
def reUp : Re :=
  .seq (.grp 1 (.seq (.many .dot) (.grp 2 (.alt (.lit '\\') (.lit '/'))))) (.grp 3 (.some1 .dot))

/-- filename.py:35-44, one round of the loop; the state is `(path, out)` -/
def codeStep (name ext : List Char) (insert1 insert2 : Option (List Char)) (st : List Char × List Char) (ch : Char) :
    Except Exc (List Char × List Char) :=
  if ch = 'p' then .ok (st.1, st.1 ++ st.2)
  else if ch = 'n' then .ok (st.1, name ++ st.2)
  else if ch = 'e' then .ok (st.1, ext ++ st.2)
  else if ch = '1' then match insert1 with
    | some i => .ok (st.1, i ++ st.2)
    | none => .error .type
  else if ch = '2' then match insert2 with
    | some i => .ok (st.1, i ++ st.2)
    | none => .error .type
  else if ch = 'u' ∨ ch = 'b' then
    match reUp.search st.1 with
    | none => .error .type
    | some (_, t) =>
      let path := (t.group 1).getD []
      let parentdir := (t.group 3).getD []
      .ok (path, (if ch = 'b' then parentdir else path) ++ st.2)
  else .ok st

/-- filename.py:6-46 for one file name; `m[...]` of a failed search is a TypeError -/
def filename (C : Classes) (f code : List Char) (insert1 insert2 : Option (List Char)) (maxExt : ℕ) :
    Except Exc (List Char) :=
  match (reName C maxExt).search f with
  | none => .error .type
  | some (_, t) => do
    let r ← code.reverse.foldlM (codeStep ((t.group 2).getD []) ((t.group 3).getD []) insert1 insert2)
      ((t.group 1).getD [], [])
    .ok r.2

/-- filename.py:25-26: a list of file names; `max_ext_length` is not handed on -/
def filenameList (C : Classes) (fs : List (List Char)) (code : List Char) (insert1 insert2 : Option (List Char))
    (_maxExt : ℕ) : Except Exc (List (List Char)) :=
  fs.mapM (fun e => filename C e code insert1 insert2 4)

end Verif.Text
