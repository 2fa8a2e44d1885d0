import Verif.Model.Convert
import Verif.Props.Filename
import Verif.Props.Settings
import Verif.Props.TextStructure

/-! C88: conversion of files. -/

namespace Verif.Props
open Verif.Py Verif.Text Verif.Cli

/-- Specification: a directory (empty, or ending in a separator) and a base name of characters which can be part of a name. -/
structure PathOf (C : Classes) (dir base : List Char) : Prop where
  line : '\n' ∉ dir ++ base
  dir_ok : dir = [] ∨ ∃ c, dir.getLast? = some c ∧ isSep c = true
  base_ok : ∀ c ∈ base, nameCh C c = true

/-- Specification: a name with nothing at its end that could be an extension. -/
def NoExt (C : Classes) (base : List Char) : Prop := ∀ a b, a ++ b = base → ¬ IsExt C 4 b

theorem sep_not_name (C : Classes) (c : Char) (h : isSep c = true) : nameCh C c ≠ true := by
  simp only [isSep, Bool.or_eq_true, beq_iff_eq] at h
  rcases h with rfl | rfl
  · rw [nameCh, C.word_ascii _ (by decide)]; decide
  · rw [nameCh, C.word_ascii _ (by decide)]; decide

theorem PathOf.dir_name {C : Classes} {dir base : List Char} (h : PathOf C dir base) :
    dir = [] ∨ ∃ c, dir.getLast? = some c ∧ nameCh C c ≠ true :=
  h.dir_ok.imp id (fun ⟨c, h1, h2⟩ => ⟨c, h1, sep_not_name C c h2⟩)

/-- extensions of letters -/
theorem isExt_ascii (C : Classes) {m : ℕ} {v : List Char} (h1 : v ≠ []) (h2 : v.length ≤ m)
    (h3 : ∀ c ∈ v, c.toNat < 128 ∧ (c.isAlphanum || c == '_') = true) : IsExt C m ('.' :: v) :=
  ⟨v, rfl, List.length_pos_iff.2 h1, h2, fun c hc => by rw [C.word_ascii _ (h3 c hc).1]; exact (h3 c hc).2⟩

theorem IsExt.no_newline {C : Classes} {m : ℕ} {e : List Char} (h : IsExt C m e) : '\n' ∉ e := by
  obtain ⟨v, rfl, _, _, h⟩ := h
  intro hc
  rcases List.mem_cons.1 hc with hc | hc
  · exact absurd hc (by decide)
  · have := h _ hc
    rw [word_nl] at this; cases this

/-- the parts of a name with an extension -/
theorem filename_ext {C : Classes} {m : ℕ} (hm : 1 ≤ m) {dir base e : List Char} (h : PathOf C dir base) (he : IsExt C m e)
    (code : List Char) (i1 i2 : Option (List Char)) :
    filename C (dir ++ base ++ e) code i1 i2 m = (code.reverse.foldlM (codeStep base e i1 i2) (dir, [])).map Prod.snd := by
  have hne : e ≠ [] := by obtain ⟨v, rfl, _⟩ := he; simp
  obtain ⟨t, ht, h1, h2, h3⟩ := reName_search C m hm dir base e
    (by rw [List.mem_append, not_or]; exact ⟨h.line, he.no_newline⟩) h.dir_name h.base_ok (Or.inr he) (fun h => absurd h hne)
  simp only [filename, ht, h1, h2, h3, Option.getD_some]
  cases code.reverse.foldlM (codeStep base e i1 i2) (dir, []) <;> rfl

/-- the parts of a name without extension -/
theorem filename_noExt {C : Classes} {dir base : List Char} (h : PathOf C dir base) (he : NoExt C base) (code : List Char)
    (i1 i2 : Option (List Char)) :
    filename C (dir ++ base) code i1 i2 4 = (code.reverse.foldlM (codeStep base [] i1 i2) (dir, [])).map Prod.snd := by
  obtain ⟨t, ht, h1, h2, h3⟩ := reName_search C 4 (by omega) dir base [] (by rw [List.append_nil]; exact h.line) h.dir_name h.base_ok
    (Or.inl rfl) (fun _ k _ => he _ _ (List.take_append_drop k base))
  rw [List.append_nil] at ht
  simp only [filename, ht, h1, h2, h3, Option.getD_some]
  cases code.reverse.foldlM (codeStep base [] i1 i2) (dir, []) <;> rfl

/-- Specification: a conversion from `<sdir><base>.<from>` to format `<to>`, with the output name `<odir><oname>` asked for. -/
structure Asked (C : Classes) (j : ConvertJob) (sdir base frm odir oname tgt : List Char) : Prop where
  src : j.src = sdir ++ base ++ '.' :: frm
  src_path : PathOf C sdir base
  src_ext : IsExt C 4 ('.' :: frm)
  fmt : j.fmt = tgt
  to_ext : IsExt C 4 ('.' :: tgt)
  out : j.out = odir ++ oname
  out_path : PathOf C odir oname
  out_ext : NoExt C oname
  /-- not the default -/
  other : j.out ≠ "out".toList
  isDir : j.isDir = false

/-- Specification: a conversion without an output name. -/
structure Unasked (C : Classes) (j : ConvertJob) (sdir base frm tgt : List Char) : Prop where
  src : j.src = sdir ++ base ++ '.' :: frm
  src_path : PathOf C sdir base
  src_ext : IsExt C 4 ('.' :: frm)
  fmt : j.fmt = tgt
  to_ext : IsExt C 4 ('.' :: tgt)
  out : j.out = "out".toList

theorem ext_head {C : Classes} {e : List Char} (h : IsExt C 4 ('.' :: e)) : e.dropWhile (· == '.') = e := by
  obtain ⟨v, hv, h1, _, hw⟩ := h
  injection hv with _ hv
  subst hv
  cases e with
  | nil => rfl
  | cons c e =>
    rw [List.dropWhile_cons_of_neg]
    intro hc
    rw [beq_iff_eq] at hc
    subst hc
    have := hw '.' (by simp)
    rw [word_dot] at this; cases this

/-- the conversion, with the name of the output before the formats are told apart -/
theorem convert_start {C : Classes} {j : ConvertJob} {sdir base frm tgt odir oname : List Char} (hs : j.src = sdir ++ base ++ '.' :: frm)
    (hp : PathOf C sdir base) (he : IsExt C 4 ('.' :: frm)) (hf : j.fmt = tgt) (ht : IsExt C 4 ('.' :: tgt))
    (ho : outfile C j.isDir base j.out ('.' :: tgt) = .ok (odir ++ oname ++ '.' :: tgt)) :
    convert C j = (if tgt = "stat".toList ∧ frm ∈ ["diam".toList, "scc".toList, "shp".toList] then do
        let name ← countName C j.src
        let out ← filename C (odir ++ oname ++ '.' :: tgt) ['p', '1', 'e'] (some name) none 4
        .ok ([.stat out], .written out)
      else if tgt = "scc".toList then
        if frm = "shp".toList then do
          let name ← spatialName C j.src
          let out ← filename C (odir ++ oname ++ '.' :: tgt) ['p', '1', 'e'] (some name) none 4
          .ok ([.scc out], .written out)
        else .ok ([], .written (odir ++ oname ++ '.' :: tgt))
      else if tgt = "shp".toList then
        if frm = "scc".toList then do
          let fc ← filename C (odir ++ oname ++ '.' :: tgt) ['p', 'n', '1', 'e'] (some "_CRATER".toList) none 4
          let fa ← filename C (odir ++ oname ++ '.' :: tgt) ['p', 'n', '1', 'e'] (some "_AREA".toList) none 4
          let both ← filename C (odir ++ oname ++ '.' :: tgt) ['p', 'n', '1', 'e'] (some "[_CRATER,_AREA]".toList) none 4
          .ok ([.craters fc, .areas fa], .written both)
        else .ok ([], .written (odir ++ oname ++ '.' :: tgt))
      else if tgt ∈ ["png".toList, "svg".toList, "pdf".toList] then
        if frm ∈ ["shp".toList, "scc".toList] then do
          let out := removeCrater ((odir ++ oname ++ '.' :: tgt).length + 1) (odir ++ oname ++ '.' :: tgt)
          if j.input then .ok ([.image out], .written out)
          else do
            let out ← filename C out ['p', 'n', '1', 'e'] (some "_map".toList) none 4
            let cs ← filename C out ['p', 'n', '1'] (some ".cs".toList) none 4
            .ok ([.commands cs, .image out], .written out)
        else .ok ([], .written (odir ++ oname ++ '.' :: tgt))
      else .ok ([], .notSupported)) := by
  have e1 : filename C j.src ['e'] none none 4 = .ok ('.' :: frm) := by
    rw [hs, filename_ext (by omega) hp he]
    show Except.ok ('.' :: frm ++ []) = _
    rw [List.append_nil]
  have e2 : filename C j.src ['n'] none none 4 = .ok base := by
    rw [hs, filename_ext (by omega) hp he]
    show Except.ok (base ++ []) = _
    rw [List.append_nil]
  have e3 : ('.' :: frm).dropWhile (· == '.') = frm := by
    rw [List.dropWhile_cons_of_pos (by rfl), ext_head he]
  rw [convert]
  simp only [hf, e1, e2, ok_bind, ext_head ht, e3, ho]

theorem outfile_asked {C : Classes} {j : ConvertJob} {sdir base frm odir oname tgt : List Char} (h : Asked C j sdir base frm odir oname tgt) :
    outfile C j.isDir base j.out ('.' :: tgt) = .ok (odir ++ oname ++ '.' :: tgt) := by
  rw [outfile, if_pos h.other, h.isDir, h.out, filename_noExt h.out_path h.out_ext]
  show Except.ok ((odir ++ (oname ++ [])) ++ _) = _
  rw [List.append_nil]

theorem outfile_unasked {C : Classes} {j : ConvertJob} {sdir base frm tgt : List Char} (h : Unasked C j sdir base frm tgt) :
    outfile C j.isDir base j.out ('.' :: tgt) = .ok ([] ++ base ++ '.' :: tgt) := by
  rw [outfile, if_neg (by simp [h.out])]
  rfl

theorem PathOf.base {C : Classes} {dir base : List Char} (h : PathOf C dir base) : PathOf C [] base :=
  ⟨fun hc => h.line (by simp at hc; simp [hc]), Or.inl rfl, h.base_ok⟩

theorem insert_name {C : Classes} {dir base tgt : List Char} (h : PathOf C dir base) (ht : IsExt C 4 ('.' :: tgt)) (i : List Char) :
    filename C (dir ++ base ++ '.' :: tgt) ['p', '1', 'e'] (some i) none 4 = .ok (dir ++ i ++ '.' :: tgt) := by
  rw [filename_ext (by omega) h ht]
  show Except.ok (dir ++ (i ++ ('.' :: tgt ++ []))) = _
  simp

theorem insert_end {C : Classes} {dir base tgt : List Char} (h : PathOf C dir base) (ht : IsExt C 4 ('.' :: tgt)) (i : List Char) :
    filename C (dir ++ base ++ '.' :: tgt) ['p', 'n', '1', 'e'] (some i) none 4 = .ok (dir ++ base ++ i ++ '.' :: tgt) := by
  rw [filename_ext (by omega) h ht]
  show Except.ok (dir ++ (base ++ (i ++ ('.' :: tgt ++ [])))) = _
  simp

theorem IsExt.mono {C : Classes} {m n : ℕ} {e : List Char} (h : IsExt C m e) (hmn : m ≤ n) : IsExt C n e := by
  obtain ⟨v, h1, h2, h3, h4⟩ := h
  exact ⟨v, h1, h2, h3.trans hmn, h4⟩

theorem spatialName_eq {C : Classes} {sdir base frm : List Char} (hp : PathOf C sdir base) (he : IsExt C 4 ('.' :: frm))
    (hc : ¬ "CRATER".toList <:+: base) : spatialName C (sdir ++ base ++ '.' :: frm) = .ok base := by
  rw [spatialName, filename_ext (by omega) hp he, filename_ext (by omega) hp he]
  show Except.ok (if '.' :: frm ++ [] = ".shp".toList then removeCrater ((base ++ []).length + 1) (base ++ []) else base ++ []) = _
  rw [List.append_nil, List.append_nil, removeCrater_none _ _ hc, ite_self]

theorem countName_eq {C : Classes} {sdir base frm : List Char} (hp : PathOf C sdir base) (he : IsExt C 4 ('.' :: frm))
    (hc : ¬ "CRATER".toList <:+: base) : countName C (sdir ++ base ++ '.' :: frm) = .ok base := by
  rw [countName, filename_ext (by omega) hp (he.mono (by omega)), spatialName_eq hp he hc, filename_ext (by omega) hp he]
  show (if '.' :: frm ++ [] = ".shp".toList then Except.ok base else Except.ok (base ++ [])) = _
  rw [List.append_nil, List.append_nil, ite_self]

/-- Specification: the pairs of formats between which count data are converted. -/
def Supported (frm tgt : List Char) : Prop :=
  (tgt = "stat".toList ∧ (frm = "diam".toList ∨ frm = "scc".toList ∨ frm = "shp".toList)) ∨ (tgt = "scc".toList ∧ frm = "shp".toList)

/-- **C88 (partial): without an output name**, a count file converted to `stat` or `scc` is written to the current directory under its
own base name with the new extension, and that is reported.  Missing: names which contain `CRATER`. -/
theorem C88_default_partial {C : Classes} {j : ConvertJob} {sdir base frm tgt : List Char} (h : Unasked C j sdir base frm tgt)
    (hs : Supported frm tgt) (hc : ¬ "CRATER".toList <:+: base) :
    ∃ file, convert C j = .ok ([file], .written (base ++ '.' :: tgt)) ∧
      file = if tgt = "stat".toList then .stat (base ++ '.' :: tgt) else .scc (base ++ '.' :: tgt) := by
  rw [convert_start h.src h.src_path h.src_ext h.fmt h.to_ext (outfile_unasked h), h.src, countName_eq h.src_path h.src_ext hc,
    spatialName_eq h.src_path h.src_ext hc, ok_bind, ok_bind, insert_name h.src_path.base h.to_ext, ok_bind]
  rcases hs with ⟨rfl, hs⟩ | ⟨rfl, rfl⟩
  · rw [if_pos ⟨rfl, by simpa using hs⟩, if_pos rfl]
    exact ⟨_, rfl, rfl⟩
  · rw [if_neg (by simp), if_pos rfl, if_pos rfl, if_neg (by decide)]
    exact ⟨_, rfl, rfl⟩

/-- **C88 fails for the output name**: of the name asked for only the directory is used: the file is written there under the name of
the source. -/
theorem C88_name_counterexample {C : Classes} {j : ConvertJob} {sdir base frm odir oname tgt : List Char}
    (h : Asked C j sdir base frm odir oname tgt) (hs : Supported frm tgt) (hc : ¬ "CRATER".toList <:+: base) :
    ∃ file, convert C j = .ok ([file], .written (odir ++ base ++ '.' :: tgt)) ∧
      (file = if tgt = "stat".toList then .stat (odir ++ base ++ '.' :: tgt) else .scc (odir ++ base ++ '.' :: tgt)) ∧
      (oname ≠ base → odir ++ base ++ '.' :: tgt ≠ odir ++ oname ++ '.' :: tgt) := by
  rw [convert_start h.src h.src_path h.src_ext h.fmt h.to_ext (outfile_asked h), h.src, countName_eq h.src_path h.src_ext hc,
    spatialName_eq h.src_path h.src_ext hc, ok_bind, ok_bind, insert_name h.out_path h.to_ext, ok_bind]
  have hn : oname ≠ base → odir ++ base ++ '.' :: tgt ≠ odir ++ oname ++ '.' :: tgt := by
    intro hne e
    rw [List.append_assoc, List.append_assoc] at e
    exact hne (List.append_cancel_right (List.append_cancel_left e)).symm
  rcases hs with ⟨rfl, hs⟩ | ⟨rfl, rfl⟩
  · rw [if_pos ⟨rfl, by simpa using hs⟩, if_pos rfl]
    exact ⟨_, rfl, rfl, hn⟩
  · rw [if_neg (by simp), if_pos rfl, if_pos rfl, if_neg (by decide)]
    exact ⟨_, rfl, rfl, hn⟩

/-- **C88: shapefiles.** A spatial count file converted to shapefiles is written as a pair of files with the name asked for and
`_CRATER` or `_AREA` added. -/
theorem C88_shapefiles {C : Classes} {j : ConvertJob} {sdir base odir oname : List Char}
    (h : Asked C j sdir base "scc".toList odir oname "shp".toList) :
    ∃ r, convert C j = .ok ([.craters (odir ++ oname ++ "_CRATER.shp".toList), .areas (odir ++ oname ++ "_AREA.shp".toList)], .written r) := by
  rw [convert_start h.src h.src_path h.src_ext h.fmt h.to_ext (outfile_asked h), if_neg (by simp), if_neg (by decide), if_pos rfl, if_pos rfl,
    insert_end h.out_path h.to_ext, insert_end h.out_path h.to_ext, insert_end h.out_path h.to_ext]
  refine ⟨odir ++ oname ++ "[_CRATER,_AREA]".toList ++ ".shp".toList, ?_⟩
  show Except.ok _ = Except.ok _
  have e1 : odir ++ oname ++ "_CRATER".toList ++ '.' :: "shp".toList = odir ++ oname ++ "_CRATER.shp".toList := by
    rw [List.append_assoc _ "_CRATER".toList]; rfl
  have e2 : odir ++ oname ++ "_AREA".toList ++ '.' :: "shp".toList = odir ++ oname ++ "_AREA.shp".toList := by
    rw [List.append_assoc _ "_AREA".toList]; rfl
  rw [e1, e2]
  rfl

theorem PathOf.append {C : Classes} {dir base i : List Char} (h : PathOf C dir base) (hi : ∀ c ∈ i, nameCh C c = true) (hn : '\n' ∉ i) :
    PathOf C dir (base ++ i) :=
  ⟨by rw [← List.append_assoc, List.mem_append, not_or]; exact ⟨h.line, hn⟩, h.dir_ok, by
    intro c hc
    rcases List.mem_append.1 hc with hc | hc
    · exact h.base_ok c hc
    · exact hi c hc⟩

theorem map_suffix (C : Classes) : ∀ c ∈ "_map".toList, nameCh C c = true := by
  intro c hc
  have h1 : ∀ c ∈ "_map".toList, c.toNat < 128 ∧ (c.isAlphanum || c == '_') = true := by decide
  obtain ⟨a, b⟩ := h1 c hc
  have : C.word c = true := by rw [C.word_ascii _ a]; exact b
  simp [nameCh, this]

/-- **C88 (partial): maps.** A spatial count file or shapefile converted to an image is written under the name asked for with `_map`
added, with the command line beside it.  Missing: names (of files or directories) which contain `CRATER` (see
`C88_directory_counterexample`). -/
theorem C88_map_partial {C : Classes} {j : ConvertJob} {sdir base frm odir oname tgt : List Char} (h : Asked C j sdir base frm odir oname tgt)
    (hin : j.input = false) (hf : frm = "shp".toList ∨ frm = "scc".toList) (ht : tgt = "png".toList ∨ tgt = "svg".toList ∨ tgt = "pdf".toList)
    (hc : ¬ "CRATER".toList <:+: odir ++ oname ++ '.' :: tgt) :
    convert C j = .ok ([.commands (odir ++ oname ++ "_map.cs".toList), .image (odir ++ oname ++ "_map.".toList ++ tgt)],
      .written (odir ++ oname ++ "_map.".toList ++ tgt)) := by
  have hp : PathOf C odir (oname ++ "_map".toList) := h.out_path.append (map_suffix C) (by decide)
  have e1 : odir ++ oname ++ "_map".toList ++ '.' :: tgt = odir ++ (oname ++ "_map".toList) ++ '.' :: tgt := by simp only [List.append_assoc]
  have e2 : filename C (odir ++ (oname ++ "_map".toList) ++ '.' :: tgt) ['p', 'n', '1'] (some ".cs".toList) none 4 =
      .ok (odir ++ oname ++ "_map.cs".toList) := by
    rw [filename_ext (by omega) hp h.to_ext]
    show Except.ok (odir ++ ((oname ++ "_map".toList) ++ (".cs".toList ++ []))) = _
    rw [List.append_nil, List.append_assoc oname, ← List.append_assoc odir]
    rfl
  have e3 : odir ++ (oname ++ "_map".toList) ++ '.' :: tgt = odir ++ oname ++ "_map.".toList ++ tgt := by
    have : "_map.".toList = "_map".toList ++ ['.'] := rfl
    rw [this]; simp only [List.append_assoc, List.cons_append, List.nil_append]
  rw [convert_start h.src h.src_path h.src_ext h.fmt h.to_ext (outfile_asked h)]
  rw [if_neg (by rintro ⟨e, _⟩; rcases ht with rfl | rfl | rfl <;> exact absurd e (by decide)), if_neg (by rcases ht with rfl | rfl | rfl <;> decide),
    if_neg (by rcases ht with rfl | rfl | rfl <;> decide), if_pos (by simpa using ht), if_pos (by simpa using hf)]
  simp only [removeCrater_none _ _ hc, hin, Bool.false_eq_true, if_false]
  rw [insert_end h.out_path h.to_ext, ok_bind, e1, e2, ok_bind, e3]

/-- **C88 fails for unsupported pairs**: a conversion to `scc`, to shapefiles or to an image from a file which is not of the right kind
writes nothing, but is reported as written. -/
theorem C88_nothing_written_counterexample {C : Classes} {j : ConvertJob} {sdir base frm odir oname tgt : List Char}
    (h : Asked C j sdir base frm odir oname tgt)
    (hs : (tgt = "scc".toList ∧ frm ≠ "shp".toList) ∨ (tgt = "shp".toList ∧ frm ≠ "scc".toList) ∨
      ((tgt = "png".toList ∨ tgt = "svg".toList ∨ tgt = "pdf".toList) ∧ frm ≠ "shp".toList ∧ frm ≠ "scc".toList)) :
    convert C j = .ok ([], .written (odir ++ oname ++ '.' :: tgt)) := by
  rw [convert_start h.src h.src_path h.src_ext h.fmt h.to_ext (outfile_asked h)]
  rcases hs with ⟨rfl, hs⟩ | ⟨rfl, hs⟩ | ⟨ht, h1, h2⟩
  · rw [if_neg (by simp), if_pos rfl, if_neg hs]
  · rw [if_neg (by simp), if_neg (by decide), if_pos rfl, if_neg hs]
  · rw [if_neg (by rintro ⟨e, _⟩; rcases ht with rfl | rfl | rfl <;> exact absurd e (by decide)), if_neg (by rcases ht with rfl | rfl | rfl <;> decide),
      if_neg (by rcases ht with rfl | rfl | rfl <;> decide), if_pos (by simpa using ht), if_neg (by simp only [List.mem_cons, List.not_mem_nil, or_false, not_or]; exact ⟨h1, h2⟩)]

/-- **C88: other formats** (and `stat` from anything but `diam`, `scc` and `shp` files) are refused, and nothing is written. -/
theorem C88_refused {C : Classes} {j : ConvertJob} {sdir base frm odir oname tgt : List Char} (h : Asked C j sdir base frm odir oname tgt)
    (hs : ∀ x ∈ ["scc", "shp", "png", "svg", "pdf"], tgt ≠ x.toList)
    (hstat : tgt = "stat".toList → ∀ x ∈ ["diam", "scc", "shp"], frm ≠ x.toList) : convert C j = .ok ([], .notSupported) := by
  rw [convert_start h.src h.src_path h.src_ext h.fmt h.to_ext (outfile_asked h), if_neg, if_neg (hs "scc" (by simp)),
    if_neg (hs "shp" (by simp)), if_neg]
  · simp only [List.mem_cons, List.not_mem_nil, or_false, not_or]
    exact ⟨hs "png" (by simp), hs "svg" (by simp), hs "pdf" (by simp)⟩
  · rintro ⟨ht, hf⟩
    simp only [List.mem_cons, List.not_mem_nil, or_false] at hf
    rcases hf with hf | hf | hf
    · exact hstat ht "diam" (by simp) hf
    · exact hstat ht "scc" (by simp) hf
    · exact hstat ht "shp" (by simp) hf

/-! ### examples -/

theorem asked_example : Asked .ascii ⟨"stat".toList, "data/site.diam".toList, "res/a".toList, false, false⟩ "data/".toList "site".toList
    "diam".toList "res/".toList "a".toList "stat".toList :=
  ⟨rfl, ⟨by decide, Or.inr ⟨'/', by decide, by decide⟩, by decide⟩, isExt_ascii _ (by decide) (by decide) (by decide), rfl,
    isExt_ascii _ (by decide) (by decide) (by decide), rfl, ⟨by decide, Or.inr ⟨'/', by decide, by decide⟩, by decide⟩, by
      rintro a b e ⟨v, rfl, _, _, _⟩
      have : '.' ∈ "a".toList := by rw [← e]; simp
      exact absurd this (by decide), by decide, rfl⟩

/-- `--convert stat data/site.diam -o res/a` writes `res/site.stat` -/
example : convert .ascii ⟨"stat".toList, "data/site.diam".toList, "res/a".toList, false, false⟩ =
    .ok ([.stat "res/site.stat".toList], .written "res/site.stat".toList) := by
  have hc : ¬ "CRATER".toList <:+: "site".toList := by decide
  obtain ⟨f, h1, h2, _⟩ := C88_name_counterexample asked_example (Or.inl ⟨rfl, Or.inl rfl⟩) hc
  rw [h1, h2]
  rfl

/-- `--convert scc data/site.diam` is said to have been written -/
example : convert .ascii ⟨"scc".toList, "data/site.diam".toList, "res/a".toList, false, false⟩ = .ok ([], .written "res/a.scc".toList) := by
  decide +kernel

example : convert .ascii ⟨"shp".toList, "s.scc".toList, "res/a".toList, false, false⟩ =
    .ok ([.craters "res/a_CRATER.shp".toList, .areas "res/a_AREA.shp".toList], .written "res/a[_CRATER,_AREA].shp".toList) := by
  decide +kernel

/-- **C88**: the word `CRATER` is removed from the directory too: a map asked for in the directory `CRATERS` is written to `S`. -/
theorem C88_directory_counterexample : convert .ascii ⟨"png".toList, "s.scc".toList, "CRATERS/a".toList, false, false⟩ =
    .ok ([.commands "S/a_map.cs".toList, .image "S/a_map.png".toList], .written "S/a_map.png".toList) := by
  decide +kernel

end Verif.Props
