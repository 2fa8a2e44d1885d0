import Verif.Model.PlotObject
import Verif.Props.Settings

/-! Property C115: settings of plots and plot sets. -/

namespace Verif.Props

open Verif.Py Verif.PlotObject

variable {K R : Type}

/-- Specification: a Python dictionary has every key once. -/
def IsDict (d : Attrs K) : Prop := (d.map Prod.fst).Nodup

/-- Specification: the last of the dictionaries which has the key gives it this value. -/
def GivenLast (ds : List (Attrs K)) (k : List Char) (v : Val K) : Prop :=
  ∃ pre d post, ds = pre ++ d :: post ∧ (k, v) ∈ d ∧ ∀ e ∈ post, k ∉ e.map Prod.fst

/-- Specification: whole number for a setting: a number (cut off at the point) or the text of a whole number. -/
inductive IntegerOf : Val K → ℤ → Prop
  | num (z : ℤ) : IntegerOf (.num z) z
  | text (s : List Char) (z : ℤ) (h : intVal s = some z) : IntegerOf (.str s) z
  | up (q : ℚ) (z : ℤ) (h : 0 ≤ q) (h0 : (z : ℚ) ≤ q) (h1 : q < z + 1) : IntegerOf (.real q) z
  | down (q : ℚ) (z : ℤ) (h : q < 0) (h0 : q ≤ z) (h1 : (z : ℚ) - 1 < q) : IntegerOf (.real q) z

/-- Specification: number for a setting. -/
inductive NumberOf : Val K → ℚ → Prop
  | num (z : ℤ) : NumberOf (.num z) z
  | real (q : ℚ) : NumberOf (.real q) q
  | text (s : List Char) (q : ℚ) (h : decVal s = some q) : NumberOf (.str s) q

/-- Specification: numbers for a setting; the elements of a text are its characters. -/
inductive NumbersOf : Val K → List ℚ → Prop
  | reals (l : List ℚ) : NumbersOf (.reals l) l
  | texts (s : List (List Char)) (l : List ℚ) (h : s.map decVal = l.map some) : NumbersOf (.strs s) l
  | text (s : List Char) (l : List ℚ) (h : s.map (fun c => decVal [c]) = l.map some) : NumbersOf (.str s) l

theorem toInt_ok {v w : Val K} (h : toInt v = .ok w) : ∃ z, IntegerOf v z ∧ w = .num z := by
  cases v with
  | num z => cases h; exact ⟨z, .num z, rfl⟩
  | real q =>
    cases h
    refine ⟨_, ?_, rfl⟩
    split
    · rename_i hq
      exact .down q _ hq (Int.le_ceil q) (by have := Int.ceil_lt_add_one q; linarith)
    · rename_i hq
      exact .up q _ (not_lt.1 hq) (Int.floor_le q) (Int.lt_floor_add_one q)
  | str s =>
    simp only [toInt] at h
    split at h
    · rename_i z hz
      cases h
      exact ⟨z, .text s z hz, rfl⟩
    · cases h
  | none => cases h
  | strs l => cases h
  | reals l => cases h
  | count k => cases h

theorem floatText_ok {s : List Char} {q : ℚ} (h : floatText s = .ok q) : decVal s = some q := by
  rw [floatText] at h
  split at h
  · rename_i q' hq
    cases h
    exact hq
  · cases h

theorem map_ok {α β ε : Type} {f : α → β} {x : Except ε α} {b : β} (h : x.map f = .ok b) : ∃ a, x = .ok a ∧ b = f a := by
  cases x with
  | error e => cases h
  | ok a => cases h; exact ⟨a, rfl, rfl⟩

theorem toFloat_ok {v w : Val K} (h : toFloat v = .ok w) : ∃ q, NumberOf v q ∧ w = .real q := by
  cases v with
  | num z => cases h; exact ⟨z, .num z, rfl⟩
  | real q => cases h; exact ⟨q, .real q, rfl⟩
  | str s =>
    obtain ⟨q, hq, rfl⟩ := map_ok h
    exact ⟨q, .text s q (floatText_ok hq), rfl⟩
  | none => cases h
  | strs l => cases h
  | reals l => cases h
  | count k => cases h

theorem mapM_floats {α : Type} (f : α → List Char) (l : List α) : ∀ q, l.mapM (fun a => floatText (f a)) = .ok q →
    l.map (fun a => decVal (f a)) = q.map some := by
  induction l with
  | nil => intro q h; cases h; rfl
  | cons a l ih =>
    intro q h
    rw [List.mapM_cons] at h
    cases hx : floatText (f a) with
    | error e => rw [hx] at h; cases h
    | ok x =>
      rw [hx] at h
      cases hy : l.mapM (fun a => floatText (f a)) with
      | error e =>
        have : (do let y ← l.mapM (fun a => floatText (f a)); pure (x :: y) : Except Exc (List ℚ)) = .ok q := h
        rw [hy] at this; cases this
      | ok y =>
        have : (do let y ← l.mapM (fun a => floatText (f a)); pure (x :: y) : Except Exc (List ℚ)) = .ok q := h
        rw [hy] at this
        cases this
        rw [List.map_cons, floatText_ok hx, ih y hy]
        rfl

theorem toFloats_ok {v w : Val K} (h : toFloats v = .ok w) : ∃ l, NumbersOf v l ∧ w = .reals l := by
  cases v with
  | num z => cases h
  | real q => cases h
  | str s =>
    obtain ⟨q, hq, rfl⟩ := map_ok h
    exact ⟨q, .text s q (mapM_floats (fun c => [c]) s q hq), rfl⟩
  | none => cases h
  | strs l =>
    obtain ⟨q, hq, rfl⟩ := map_ok h
    exact ⟨q, .texts l q (mapM_floats id l q hq), rfl⟩
  | reals l => cases h; exact ⟨l, .reals l, rfl⟩
  | count k => cases h

/-! ### merging -/

theorem foldl_set_get {α : Type} (d : List (List Char × α)) (hd : (d.map Prod.fst).Nodup) (m : List (List Char × α)) (k : List Char) :
    dictGet (d.foldl (fun d x => dictSet d x.1 x.2) m) k = (dictGet d k).or (dictGet m k) := by
  induction d generalizing m with
  | nil => rfl
  | cons x d ih =>
    obtain ⟨j, v⟩ := x
    rw [List.map_cons, List.nodup_cons] at hd
    rw [List.foldl_cons, ih hd.2, dictGet_set]
    by_cases h : k = j
    · subst h
      have : dictGet d k = none := by
        simp only [dictGet, Option.map_eq_none_iff, List.find?_eq_none]
        intro x hx
        simp only [decide_eq_true_eq]
        intro hxk
        rw [← hxk] at hd
        exact hd.1 (List.mem_map.2 ⟨x, hx, rfl⟩)
      have e : dictGet ((k, v) :: d) k = some v := by simp [dictGet]
      rw [this, e, if_pos rfl]
      rfl
    · simp [h, dictGet, Ne.symm h]

theorem merged_keys (ds : List (Attrs K)) : IsDict (merged ds) := by
  have key : ∀ (l : Attrs K) (m : Attrs K), IsDict m → IsDict (l.foldl (fun d x => dictSet d x.1 x.2) m) := by
    intro l
    induction l with
    | nil => intro m hm; exact hm
    | cons x l ih =>
      intro m hm
      refine ih _ ?_
      have : ∀ (m : Attrs K), (dictSet m x.1 x.2).map Prod.fst = if x.1 ∈ m.map Prod.fst then m.map Prod.fst else m.map Prod.fst ++ [x.1] := by
        intro m
        induction m with
        | nil => rfl
        | cons y m ihm =>
          obtain ⟨a, b⟩ := y
          simp only [dictSet]
          by_cases h : a = x.1
          · simp [h]
          · rw [if_neg h, List.map_cons, ihm]
            by_cases h2 : x.1 ∈ m.map Prod.fst
            · rw [if_pos h2, if_pos (by simp only [List.map_cons, List.mem_cons]; exact Or.inr h2)]
              rfl
            · rw [if_neg h2, if_neg (by simp only [List.map_cons, List.mem_cons, not_or]; exact ⟨Ne.symm h, h2⟩)]
              rfl
      rw [IsDict, this]
      split
      · exact hm
      · rename_i h
        exact hm.append (by simp) (by simpa using h)
  exact key _ [] (by simp [IsDict])

theorem get_mem {α : Type} {d : List (List Char × α)} {k : List Char} {v : α} (h : dictGet d k = some v) : (k, v) ∈ d := by
  simp only [dictGet, Option.map_eq_some_iff] at h
  obtain ⟨x, hx, rfl⟩ := h
  have h1 := List.find?_some hx
  simp only [decide_eq_true_eq] at h1
  have h2 := List.mem_of_find?_eq_some hx
  rw [← h1]
  exact h2

theorem mem_get {α : Type} {d : List (List Char × α)} (hd : (d.map Prod.fst).Nodup) {k : List Char} {v : α} (h : (k, v) ∈ d) :
    dictGet d k = some v := by
  induction d with
  | nil => cases h
  | cons x d ih =>
    obtain ⟨j, w⟩ := x
    rw [List.map_cons, List.nodup_cons] at hd
    rcases List.mem_cons.1 h with h | h
    · cases h; simp [dictGet]
    · have : j ≠ k := by
        intro e
        subst e
        exact hd.1 (List.mem_map.2 ⟨_, h, rfl⟩)
      have e : dictGet ((j, w) :: d) k = dictGet d k := by simp [dictGet, this]
      rw [e, ih hd.2 h]

theorem not_mem_get {α : Type} {d : List (List Char × α)} {k : List Char} (h : k ∉ d.map Prod.fst) : dictGet d k = none := by
  cases e : dictGet d k with
  | none => rfl
  | some v => exact absurd (List.mem_map_of_mem (f := Prod.fst) (get_mem e)) h

theorem merged_get (ds : List (Attrs K)) (hds : ∀ d ∈ ds, IsDict d) (k : List Char) (v : Val K) :
    dictGet (merged ds) k = some v ↔ GivenLast ds k v := by
  induction ds using List.reverseRecOn with
  | nil =>
    constructor
    · intro h; cases h
    · rintro ⟨pre, d, post, h, _⟩
      simp at h
  | append_singleton ds d ih =>
    have ih := ih (fun e he => hds e (by simp [he]))
    have hd : IsDict d := hds d (by simp)
    have e : merged (ds ++ [d]) = d.foldl (fun d x => dictSet d x.1 x.2) (merged ds) := by simp [merged]
    rw [e, foldl_set_get d hd]
    constructor
    · intro h
      cases hg : dictGet d k with
      | some w =>
        rw [hg] at h
        simp at h
        subst h
        exact ⟨ds, d, [], rfl, get_mem hg, by simp⟩
      | none =>
        rw [hg] at h
        simp at h
        obtain ⟨pre, d', post, rfl, h1, h2⟩ := ih.1 h
        refine ⟨pre, d', post ++ [d], by simp, h1, ?_⟩
        intro e he
        rcases List.mem_append.1 he with he | he
        · exact h2 e he
        · rw [List.mem_singleton] at he
          subst he
          intro hk
          obtain ⟨x, hx, rfl⟩ := List.mem_map.1 hk
          rw [mem_get hd (v := x.2) hx] at hg
          cases hg
    · rintro ⟨pre, d', post, h, h1, h2⟩
      rcases List.eq_nil_or_concat post with rfl | ⟨post', x, rfl⟩
      · have := List.append_inj_right' h rfl
        simp at this
        subst this
        rw [mem_get hd h1]
        rfl
      · rw [List.concat_eq_append] at h h2
        have h' : ds ++ [d] = (pre ++ d' :: post') ++ [x] := by rw [h]; simp
        have e1 := List.append_inj_left' h' rfl
        have e2 := List.append_inj_right' h' rfl
        simp at e2
        subst e2
        rw [not_mem_get (h2 d (by simp))]
        simp only [Option.none_or]
        exact ih.2 ⟨pre, d', post', e1, h1, fun e he => h2 e (by simp [he])⟩

/-- a key which occurs has a last value -/
theorem lastGiven_exists (ds : List (Attrs K)) (k : List Char) (h : ∃ d ∈ ds, k ∈ d.map Prod.fst) : ∃ v, GivenLast ds k v := by
  induction ds using List.reverseRecOn with
  | nil => simp at h
  | append_singleton ds d ih =>
    by_cases hk : k ∈ d.map Prod.fst
    · obtain ⟨x, hx, rfl⟩ := List.mem_map.1 hk
      exact ⟨x.2, ds, d, [], rfl, hx, by simp⟩
    · obtain ⟨e, he, hke⟩ := h
      rcases List.mem_append.1 he with he | he
      · obtain ⟨v, pre, d', post, rfl, h1, h2⟩ := ih ⟨e, he, hke⟩
        refine ⟨v, pre, d', post ++ [d], by simp, h1, ?_⟩
        intro x hx
        rcases List.mem_append.1 hx with hx | hx
        · exact h2 x hx
        · rw [List.mem_singleton] at hx; subst hx; exact hk
      · rw [List.mem_singleton] at he; subst he; exact absurd hke hk

theorem foldlM_get {conv : List Char → Val K → Except Exc (Val K)} (l : Attrs K) (hl : IsDict l) : ∀ {o o' : Attrs K},
    l.foldlM (setOne conv) o = .ok o' → ∀ k, (∀ v, (k, v) ∈ l → ∃ w, conv k v = .ok w ∧ dictGet o' k = some w) ∧
      (k ∉ l.map Prod.fst → dictGet o' k = dictGet o k) := by
  induction l with
  | nil =>
    intro o o' h k
    cases h
    exact ⟨by simp, fun _ => rfl⟩
  | cons x l ih =>
    obtain ⟨j, v⟩ := x
    intro o o' h k
    rw [IsDict, List.map_cons, List.nodup_cons] at hl
    rw [List.foldlM_cons, setOne] at h
    cases hc : conv j v with
    | error e => simp only [hc] at h; cases h
    | ok w =>
      simp only [hc] at h
      have ih := @ih hl.2 (dictSet o j w) o' h k
      refine ⟨?_, ?_⟩
      · intro u hu
        rcases List.mem_cons.1 hu with hu | hu
        · cases hu
          refine ⟨w, hc, ?_⟩
          rw [ih.2 hl.1, dictGet_set, if_pos rfl]
        · exact ih.1 u hu
      · intro hk
        rw [List.map_cons, List.mem_cons, not_or] at hk
        rw [ih.2 hk.2, dictGet_set, if_neg hk.1]

theorem setAll_get {conv : List Char → Val K → Except Exc (Val K)} {o o' : Attrs K} {ds : List (Attrs K)} (hds : ∀ d ∈ ds, IsDict d)
    (h : setAll conv o ds = .ok o') (k : List Char) : (∀ v, GivenLast ds k v → ∃ w, conv k v = .ok w ∧ dictGet o' k = some w) ∧
      ((∀ d ∈ ds, k ∉ d.map Prod.fst) → dictGet o' k = dictGet o k) := by
  have := foldlM_get (merged ds) (merged_keys ds) h k
  refine ⟨fun v hv => this.1 v (get_mem ((merged_get ds hds k v).2 hv)), fun hk => this.2 ?_⟩
  intro hm
  obtain ⟨x, hx, rfl⟩ := List.mem_map.1 hm
  obtain ⟨pre, d, post, rfl, h1, _⟩ := (merged_get ds hds x.1 x.2).1 (mem_get (merged_keys ds) hx)
  exact hk d (by simp) (List.mem_map_of_mem (f := Prod.fst) h1)

/-! ### the parts of `UpdateSettings` -/

theorem attr_ok {o : Attrs K} {k : String} {v : Val K} : attr o k = .ok v ↔ dictGet o k.toList = some v := by
  rw [attr]
  cases dictGet o k.toList with
  | none => simp
  | some w => simp

theorem bind_inv {α β ε : Type} {x : Except ε α} {f : α → Except ε β} {b : β} (h : x >>= f = .ok b) : ∃ a, x = .ok a ∧ f a = .ok b := by
  cases x with
  | error e => cases h
  | ok a => exact ⟨a, rfl, h⟩

theorem fillCount_ok {E : Env K R} {o o' : Attrs K} (h : fillCount E o = .ok o') :
    ∃ c s, dictGet o "cratercount".toList = some c ∧ dictGet o "source".toList = some s ∧
      ((truthy c = false ∧ ∃ t k, s = .str t ∧ t ≠ [] ∧ E.open_ t = .ok k ∧ o' = dictSet o "cratercount".toList (.count k)) ∨
       (¬ (truthy c = false ∧ truthy s = true) ∧ o' = o)) := by
  rw [fillCount] at h
  obtain ⟨c, hc, h⟩ := bind_inv h
  obtain ⟨s, hs, h⟩ := bind_inv h
  refine ⟨c, s, attr_ok.1 hc, attr_ok.1 hs, ?_⟩
  split at h
  · rename_i hcond
    cases s with
    | str t =>
      obtain ⟨k, hk, h⟩ := bind_inv h
      cases h
      exact Or.inl ⟨hcond.1, t, k, rfl, by simpa [truthy] using hcond.2, hk, rfl⟩
    | none => cases h
    | num z => cases h
    | real z => cases h
    | strs z => cases h
    | reals z => cases h
    | count z => cases h
  · rename_i hcond
    cases h
    exact Or.inr ⟨hcond, rfl⟩

theorem fillSource_ok {E : Env K R} {o o' : Attrs K} (h : fillSource E o = .ok o') :
    ∃ c s, dictGet o "cratercount".toList = some c ∧ dictGet o "source".toList = some s ∧
      ((truthy s = false ∧ ∃ k, c = .count k ∧ o' = dictSet o "source".toList (.str (E.fileOf k))) ∨
       (¬ (truthy s = false ∧ truthy c = true) ∧ o' = o)) := by
  rw [fillSource] at h
  obtain ⟨s, hs, h⟩ := bind_inv h
  obtain ⟨c, hc, h⟩ := bind_inv h
  refine ⟨c, s, attr_ok.1 hc, attr_ok.1 hs, ?_⟩
  split at h
  · rename_i hcond
    cases c with
    | count k =>
      cases h
      exact Or.inl ⟨hcond.1, k, rfl, rfl⟩
    | none => cases h
    | num z => cases h
    | real z => cases h
    | strs z => cases h
    | reals z => cases h
    | str z => cases h
  · rename_i hcond
    cases h
    exact Or.inr ⟨hcond, rfl⟩

theorem fillName_ok {E : Env K R} {o o' : Attrs K} (h : fillName E o = .ok o') :
    ∃ n s, dictGet o "name".toList = some n ∧ dictGet o "source".toList = some s ∧
      ((truthy n = false ∧ ∃ t b, s = .str t ∧ t ≠ [] ∧ Text.filename E.classes t ['n'] none none 4 = .ok b ∧
          o' = dictSet o "name".toList (.str (Cli.removeCrater (b.length + 1) b))) ∨
       (¬ (truthy n = false ∧ truthy s = true) ∧ o' = o)) := by
  rw [fillName] at h
  obtain ⟨n, hn, h⟩ := bind_inv h
  obtain ⟨s, hs, h⟩ := bind_inv h
  refine ⟨n, s, attr_ok.1 hn, attr_ok.1 hs, ?_⟩
  split at h
  · rename_i hcond
    cases s with
    | str t =>
      obtain ⟨b, hb, h⟩ := bind_inv h
      cases h
      exact Or.inl ⟨hcond.1, t, b, rfl, by simpa [truthy] using hcond.2, hb, rfl⟩
    | none => cases h
    | num z => cases h
    | real z => cases h
    | strs z => cases h
    | reals z => cases h
    | count z => cases h
  · rename_i hcond
    cases h
    exact Or.inr ⟨hcond, rfl⟩

theorem update_ok {E : Env K R} {o o' : Attrs K} {ds : List (Attrs K)} (h : update E o ds = .ok o') :
    ∃ o1 o2 o3, setAll plotConv o ds = .ok o1 ∧ fillCount E o1 = .ok o2 ∧ fillSource E o2 = .ok o3 ∧ fillName E o3 = .ok o' := by
  rw [update] at h
  obtain ⟨o1, h1, h⟩ := bind_inv h
  obtain ⟨o2, h2, h⟩ := bind_inv h
  obtain ⟨o3, h3, h⟩ := bind_inv h
  exact ⟨o1, o2, o3, h1, h2, h3, h⟩

theorem create_ok {E : Env K R} {args : List (Attrs K)} {kwargs : Attrs K} {o : Attrs K} {r : R} (h : create E args kwargs = .ok (o, r)) :
    update E [] (PlotObject.plotDefaults :: args ++ [kwargs]) = .ok o ∧ PlotObject.decodeRange E o = .ok r := by
  rw [create] at h
  obtain ⟨o1, h1, h⟩ := bind_inv h
  obtain ⟨r1, h2, h⟩ := bind_inv h
  cases h
  exact ⟨h1, h2⟩

theorem ne_key {a b : String} (h : a ≠ b) : a.toList ≠ b.toList := fun e => h (String.toList_injective e)

theorem update_other {E : Env K R} {o o' : Attrs K} {ds : List (Attrs K)} (h : update E o ds = .ok o') {k : List Char}
    (hk : k ≠ "cratercount".toList ∧ k ≠ "source".toList ∧ k ≠ "name".toList) :
    ∃ o1, setAll plotConv o ds = .ok o1 ∧ dictGet o' k = dictGet o1 k := by
  obtain ⟨o1, o2, o3, h1, h2, h3, h4⟩ := update_ok h
  refine ⟨o1, h1, ?_⟩
  have e2 : dictGet o2 k = dictGet o1 k := by
    obtain ⟨_, _, _, _, ⟨_, _, _, _, _, _, rfl⟩ | ⟨_, rfl⟩⟩ := fillCount_ok h2
    · rw [dictGet_set, if_neg hk.1]
    · rfl
  have e3 : dictGet o3 k = dictGet o2 k := by
    obtain ⟨_, _, _, _, ⟨_, _, _, rfl⟩ | ⟨_, rfl⟩⟩ := fillSource_ok h3
    · rw [dictGet_set, if_neg hk.2.1]
    · rfl
  have e4 : dictGet o' k = dictGet o3 k := by
    obtain ⟨_, _, _, _, ⟨_, _, _, _, _, _, rfl⟩ | ⟨_, rfl⟩⟩ := fillName_ok h4
    · rw [dictGet_set, if_neg hk.2.2]
    · rfl
  rw [e4, e3, e2]

/-! ### the property -/

/-- Specification: the settings which are whole numbers -/
def switches : List String := ["error_bars", "snap", "hide", "age_left", "show_age", "resurf", "resurf_showall", "isochron", "psym"]

/-- Specification: the settings of a plot with their defaults. -/
def plotStart : Attrs K :=
  [("cratercount".toList, .none), ("source".toList, .str []), ("name".toList, .str []), ("range".toList, .strs ["0".toList, "inf".toList]),
   ("snap".toList, .num 1), ("type".toList, .str "data".toList), ("error_bars".toList, .num 1), ("hide".toList, .num 0),
   ("colour".toList, .num 0), ("psym".toList, .num 0), ("binning".toList, .str "pseudo-log".toList), ("age_left".toList, .num 0),
   ("show_age".toList, .num 1), ("resurf".toList, .num 0), ("resurf_showall".toList, .num 0), ("isochron".toList, .num 0),
   ("offset_age".toList, .reals [0, 0])]

theorem plotStart_keys : (plotStart (K := K)).map Prod.fst = ["cratercount", "source", "name", "range", "snap", "type", "error_bars",
    "hide", "colour", "psym", "binning", "age_left", "show_age", "resurf", "resurf_showall", "isochron", "offset_age"].map String.toList := rfl

theorem plotStart_dict : IsDict (plotStart (K := K)) := by
  rw [IsDict, plotStart_keys]
  decide +kernel

theorem dicts_ok {args : List (Attrs K)} {kwargs : Attrs K} (ha : ∀ d ∈ args, IsDict d) (hk : IsDict kwargs) :
    ∀ d ∈ plotStart :: args ++ [kwargs], IsDict d := by
  intro d hd
  simp only [List.cons_append, List.mem_cons, List.mem_append, List.not_mem_nil, or_false] at hd
  rcases hd with rfl | hd | rfl
  · exact plotStart_dict
  · exact ha d hd
  · exact hk

theorem plotConv_switch {k : List Char} (hk : k ∈ switches.map String.toList) {v w : Val K} (h : plotConv k v = .ok w) :
    ∃ z, IntegerOf v z ∧ w = .num z := by
  have h1 : ∀ k ∈ switches.map String.toList, ¬ k <:+: "offset_age".toList ∧ k ∈ plotIntKeys := by decide +kernel
  have h2 := h1 k hk
  rw [plotConv, if_neg h2.1] at h
  obtain ⟨v', hv, h⟩ := bind_inv h
  cases hv
  dsimp only at h
  rw [if_pos h2.2] at h
  exact toInt_ok h

theorem plotConv_offset {v w : Val K} (h : plotConv "offset_age".toList v = .ok w) : ∃ l, NumbersOf v l ∧ w = .reals l := by
  rw [plotConv, if_pos (List.infix_refl _)] at h
  obtain ⟨v', hv, h⟩ := bind_inv h
  dsimp only at h
  rw [if_neg (by decide +kernel)] at h
  cases h
  exact toFloats_ok hv

theorem plotConv_plain {k : List Char} (hk : k ∉ switches.map String.toList) (ho : ¬ k <:+: "offset_age".toList) {v : Val K} :
    plotConv k v = .ok v := by
  rw [plotConv, if_neg ho]
  show (if k ∈ plotIntKeys then toInt v else .ok v) = _
  rw [if_neg (by exact hk)]

/-- **C115.** The settings of a plot: every setting has the value of the last dictionary which gives it (the defaults first, the
keywords last); the switches are whole numbers, the shift of the age text is a list of numbers, everything else is as given. -/
theorem C115_settings (E : Env K R) (args : List (Attrs K)) (kwargs o : Attrs K) (r : R) (ha : ∀ d ∈ args, IsDict d) (hk : IsDict kwargs)
    (h : create E args kwargs = .ok (o, r)) (k : List Char) (v : Val K) (hv : GivenLast (plotStart :: args ++ [kwargs]) k v) :
    (k ∈ switches.map String.toList → ∃ z, IntegerOf v z ∧ dictGet o k = some (.num z)) ∧
    (k = "offset_age".toList → ∃ l, NumbersOf v l ∧ dictGet o k = some (.reals l)) ∧
    (k ∉ switches.map String.toList → ¬ k <:+: "offset_age".toList →
      k ≠ "cratercount".toList ∧ k ≠ "source".toList ∧ k ≠ "name".toList → dictGet o k = some v) := by
  have h0 := (create_ok h).1
  have key : k ≠ "cratercount".toList ∧ k ≠ "source".toList ∧ k ≠ "name".toList → ∃ w, plotConv k v = .ok w ∧ dictGet o k = some w := by
    intro hk3
    obtain ⟨o1, h1, h2⟩ := update_other h0 hk3
    rw [h2]
    exact (setAll_get (dicts_ok ha hk) h1 k).1 v hv
  refine ⟨?_, ?_, ?_⟩
  · intro hs
    have h3 : ∀ k ∈ switches.map String.toList, k ≠ "cratercount".toList ∧ k ≠ "source".toList ∧ k ≠ "name".toList := by decide +kernel
    obtain ⟨w, h4, h5⟩ := key (h3 k hs)
    obtain ⟨z, hz, rfl⟩ := plotConv_switch hs h4
    exact ⟨z, hz, h5⟩
  · rintro rfl
    obtain ⟨w, h4, h5⟩ := key (by decide +kernel)
    obtain ⟨l, hl, rfl⟩ := plotConv_offset h4
    exact ⟨l, hl, h5⟩
  · intro hs ho hk3
    obtain ⟨w, h4, h5⟩ := key hk3
    rw [plotConv_plain hs ho] at h4
    cases h4
    exact h5

/-- **C115, nothing is missing.** Every setting has some value, whatever is given. -/
theorem C115_complete (E : Env K R) (args : List (Attrs K)) (kwargs o : Attrs K) (r : R) (ha : ∀ d ∈ args, IsDict d) (hk : IsDict kwargs)
    (h : create E args kwargs = .ok (o, r)) (k : List Char) (hkey : k ∈ (plotStart (K := K)).map Prod.fst) :
    (∃ v, GivenLast (plotStart :: args ++ [kwargs]) k v) ∧ ∃ w, dictGet o k = some w := by
  obtain ⟨v, hv⟩ := lastGiven_exists (plotStart :: args ++ [kwargs]) k ⟨plotStart, by simp, hkey⟩
  refine ⟨⟨v, hv⟩, ?_⟩
  obtain ⟨o1, o2, o3, h1, h2, h3, h4⟩ := update_ok (create_ok h).1
  obtain ⟨w, _, hw⟩ := (setAll_get (dicts_ok ha hk) h1 k).1 v hv
  have set_some : ∀ (o : Attrs K) (j : List Char) (x : Val K), (∃ w, dictGet o k = some w) → ∃ w, dictGet (dictSet o j x) k = some w := by
    rintro o j x ⟨w, hw⟩
    rw [dictGet_set]
    split
    · exact ⟨x, rfl⟩
    · exact ⟨w, hw⟩
  have e2 : ∃ w, dictGet o2 k = some w := by
    obtain ⟨_, _, _, _, ⟨_, _, _, _, _, _, rfl⟩ | ⟨_, rfl⟩⟩ := fillCount_ok h2
    · exact set_some _ _ _ ⟨w, hw⟩
    · exact ⟨w, hw⟩
  have e3 : ∃ w, dictGet o3 k = some w := by
    obtain ⟨_, _, _, _, ⟨_, _, _, rfl⟩ | ⟨_, rfl⟩⟩ := fillSource_ok h3
    · exact set_some _ _ _ e2
    · exact e2
  obtain ⟨_, _, _, _, ⟨_, _, _, _, _, _, rfl⟩ | ⟨_, rfl⟩⟩ := fillName_ok h4
  · exact set_some _ _ _ e3
  · exact e3

theorem special_plain : ∀ k ∈ ["cratercount", "source", "name", "range", "type", "colour", "binning"].map String.toList,
    k ∉ switches.map String.toList ∧ ¬ k <:+: "offset_age".toList := by decide +kernel

theorem given_plain {o o1 : Attrs K} {ds : List (Attrs K)} (hds : ∀ d ∈ ds, IsDict d) (h : setAll plotConv o ds = .ok o1) {k : List Char}
    {v : Val K} (hv : GivenLast ds k v)
    (hk : k ∈ ["cratercount", "source", "name", "range", "type", "colour", "binning"].map String.toList) : dictGet o1 k = some v := by
  obtain ⟨w, h1, h2⟩ := (setAll_get hds h k).1 v hv
  have := special_plain k hk
  rw [plotConv_plain this.1 this.2] at h1
  cases h1
  exact h2

/-- **C115, count.** The plot has the count which is given; if none is given, the count read from the source. -/
theorem C115_count (E : Env K R) (args : List (Attrs K)) (kwargs o : Attrs K) (r : R) (ha : ∀ d ∈ args, IsDict d) (hk : IsDict kwargs)
    (h : create E args kwargs = .ok (o, r)) (v : Val K) (hv : GivenLast (plotStart :: args ++ [kwargs]) "cratercount".toList v) :
    (∀ c, v = .count c → dictGet o "cratercount".toList = some (.count c)) ∧
    (v = .none → ∃ s c, GivenLast (plotStart :: args ++ [kwargs]) "source".toList (.str s) ∧ s ≠ [] ∧ E.open_ s = .ok c ∧
      dictGet o "cratercount".toList = some (.count c)) := by
  obtain ⟨hu, hr⟩ := create_ok h
  obtain ⟨o1, o2, o3, h1, h2, h3, h4⟩ := update_ok hu
  have g1 := given_plain (dicts_ok ha hk) h1 hv (by decide +kernel)
  have e3 : dictGet o3 "cratercount".toList = dictGet o2 "cratercount".toList := by
    obtain ⟨_, _, _, _, ⟨_, _, _, rfl⟩ | ⟨_, rfl⟩⟩ := fillSource_ok h3
    · rw [dictGet_set, if_neg (by decide)]
    · rfl
  have e4 : dictGet o "cratercount".toList = dictGet o3 "cratercount".toList := by
    obtain ⟨_, _, _, _, ⟨_, _, _, _, _, _, rfl⟩ | ⟨_, rfl⟩⟩ := fillName_ok h4
    · rw [dictGet_set, if_neg (by decide)]
    · rfl
  obtain ⟨c0, s0, hc0, hs0, hcase⟩ := fillCount_ok h2
  rw [g1] at hc0
  cases hc0
  constructor
  · rintro c rfl
    rcases hcase with ⟨hf, _⟩ | ⟨_, rfl⟩
    · simp [truthy] at hf
    · rw [e4, e3, g1]
  · rintro rfl
    rcases hcase with ⟨_, t, c, rfl, hne, hopen, rfl⟩ | ⟨hno, rfl⟩
    · refine ⟨t, c, ?_, hne, hopen, ?_⟩
      · obtain ⟨v', hv'⟩ := lastGiven_exists (plotStart :: args ++ [kwargs]) "source".toList
          ⟨plotStart, by simp, by rw [plotStart_keys]; decide +kernel⟩
        have := given_plain (dicts_ok ha hk) h1 hv' (by decide +kernel)
        rw [this] at hs0
        cases hs0
        exact hv'
      · rw [e4, e3, dictGet_set, if_pos rfl]
    · -- no count at all: the range cannot be decoded
      exfalso
      rw [PlotObject.decodeRange] at hr
      obtain ⟨c, hc, hr⟩ := bind_inv hr
      rw [attr_ok] at hc
      rw [e4, e3, g1] at hc
      cases hc
      cases hr

/-- **C115, no count.** A plot with neither a count nor a source is refused. -/
theorem C115_nothing (E : Env K R) (args : List (Attrs K)) (kwargs : Attrs K) (ha : ∀ d ∈ args, IsDict d) (hk : IsDict kwargs)
    (hv : GivenLast (plotStart :: args ++ [kwargs]) "cratercount".toList .none)
    (hs : GivenLast (plotStart :: args ++ [kwargs]) "source".toList (.str [])) : ∃ e, create E args kwargs = .error e := by
  cases h : create E args kwargs with
  | error e => exact ⟨e, rfl⟩
  | ok x =>
    exfalso
    obtain ⟨o, r⟩ := x
    obtain ⟨s, c, h1, h2, _⟩ := (C115_count E args kwargs o r ha hk h .none hv).2 rfl
    have e1 := (merged_get _ (dicts_ok ha hk) _ _).2 h1
    have e2 := (merged_get _ (dicts_ok ha hk) _ _).2 hs
    rw [e1] at e2
    cases e2
    exact h2 rfl

theorem source_after {E : Env K R} {args : List (Attrs K)} {kwargs o : Attrs K} {r : R} (ha : ∀ d ∈ args, IsDict d) (hk : IsDict kwargs)
    (h : create E args kwargs = .ok (o, r)) {v : Val K} (hv : GivenLast (plotStart :: args ++ [kwargs]) "source".toList v) :
    ∃ o3, fillName E o3 = .ok o ∧ dictGet o3 "source".toList = dictGet o "source".toList ∧
      (∀ n, GivenLast (plotStart :: args ++ [kwargs]) "name".toList n → dictGet o3 "name".toList = some n) ∧
      (truthy v = true → dictGet o "source".toList = some v) ∧
      (truthy v = false → ∃ c, dictGet o "cratercount".toList = some (.count c) ∧ dictGet o "source".toList = some (.str (E.fileOf c))) := by
  obtain ⟨hu, hr⟩ := create_ok h
  obtain ⟨o1, o2, o3, h1, h2, h3, h4⟩ := update_ok hu
  have g1 := given_plain (dicts_ok ha hk) h1 hv (by decide +kernel)
  have e2 : dictGet o2 "source".toList = dictGet o1 "source".toList := by
    obtain ⟨_, _, _, _, ⟨_, _, _, _, _, _, rfl⟩ | ⟨_, rfl⟩⟩ := fillCount_ok h2
    · rw [dictGet_set, if_neg (by decide)]
    · rfl
  have e2n : dictGet o2 "name".toList = dictGet o1 "name".toList := by
    obtain ⟨_, _, _, _, ⟨_, _, _, _, _, _, rfl⟩ | ⟨_, rfl⟩⟩ := fillCount_ok h2
    · rw [dictGet_set, if_neg (by decide)]
    · rfl
  have e3n : dictGet o3 "name".toList = dictGet o2 "name".toList := by
    obtain ⟨_, _, _, _, ⟨_, _, _, rfl⟩ | ⟨_, rfl⟩⟩ := fillSource_ok h3
    · rw [dictGet_set, if_neg (by decide)]
    · rfl
  have e4 : dictGet o "source".toList = dictGet o3 "source".toList := by
    obtain ⟨_, _, _, _, ⟨_, _, _, _, _, _, rfl⟩ | ⟨_, rfl⟩⟩ := fillName_ok h4
    · rw [dictGet_set, if_neg (by decide)]
    · rfl
  have e4c : dictGet o "cratercount".toList = dictGet o3 "cratercount".toList := by
    obtain ⟨_, _, _, _, ⟨_, _, _, _, _, _, rfl⟩ | ⟨_, rfl⟩⟩ := fillName_ok h4
    · rw [dictGet_set, if_neg (by decide)]
    · rfl
  refine ⟨o3, h4, e4.symm, ?_, ?_, ?_⟩
  · intro n hn
    rw [e3n, e2n]
    exact given_plain (dicts_ok ha hk) h1 hn (by decide +kernel)
  · intro ht
    obtain ⟨c, s, hc, hs, hcase⟩ := fillSource_ok h3
    rw [e2, g1] at hs
    cases hs
    rcases hcase with ⟨hf, _⟩ | ⟨_, rfl⟩
    · rw [ht] at hf; cases hf
    · rw [e4, e2, g1]
  · intro ht
    obtain ⟨c, s, hc, hs, hcase⟩ := fillSource_ok h3
    rw [e2, g1] at hs
    cases hs
    rcases hcase with ⟨_, k, rfl, rfl⟩ | ⟨hno, rfl⟩
    · refine ⟨k, ?_, ?_⟩
      · rw [e4c, dictGet_set, if_neg (by decide), hc]
      · rw [e4, dictGet_set, if_pos rfl]
    · exfalso
      rw [PlotObject.decodeRange] at hr
      obtain ⟨c', hc', hr⟩ := bind_inv hr
      rw [attr_ok, e4c, hc] at hc'
      cases hc'
      cases hcc : truthy c with
      | true => exact hno ⟨ht, hcc⟩
      | false => cases c <;> first | cases hr | simp [truthy] at hcc

/-- **C115, source.** A source which is given is kept; otherwise the source is the file of the count. -/
theorem C115_source (E : Env K R) (args : List (Attrs K)) (kwargs o : Attrs K) (r : R) (ha : ∀ d ∈ args, IsDict d) (hk : IsDict kwargs)
    (h : create E args kwargs = .ok (o, r)) (s : List Char) (hv : GivenLast (plotStart :: args ++ [kwargs]) "source".toList (.str s)) :
    (s ≠ [] → dictGet o "source".toList = some (.str s)) ∧
    (s = [] → ∃ c, dictGet o "cratercount".toList = some (.count c) ∧ dictGet o "source".toList = some (.str (E.fileOf c))) := by
  obtain ⟨o3, _, _, _, h1, h2⟩ := source_after ha hk h hv
  exact ⟨fun hs => h1 (by simpa [truthy] using hs), fun hs => h2 (by simpa [truthy] using hs)⟩

/-- Specification: without a final underscore -/
def trimEnd (a : List Char) : List Char := if a.getLast? = some '_' then a.dropLast else a
/-- Specification: without an initial underscore -/
def trimStart (b : List Char) : List Char := if b.head? = some '_' then b.tail else b

theorem crater_prefix (a b : List Char) (hne : a ≠ []) (h : "CRATER".toList <+: a ++ "CRATER".toList ++ b) : "CRATER".toList <+: a := by
  have hC : "CRATER".toList = ['C', 'R', 'A', 'T', 'E', 'R'] := rfl
  rw [hC] at h ⊢
  match a, hne with
  | [c1], _ => simp [List.cons_prefix_cons] at h
  | [c1, c2], _ => simp [List.cons_prefix_cons] at h
  | [c1, c2, c3], _ => simp [List.cons_prefix_cons] at h
  | [c1, c2, c3, c4], _ => simp [List.cons_prefix_cons] at h
  | [c1, c2, c3, c4, c5], _ => simp [List.cons_prefix_cons] at h
  | c1 :: c2 :: c3 :: c4 :: c5 :: c6 :: l, _ =>
    simp only [List.cons_append, List.cons_prefix_cons, List.nil_prefix, and_true] at h ⊢
    exact h

theorem removeCrater_one (b : List Char) (hb : ¬ "CRATER".toList <:+: b) : ∀ (n : ℕ) (a : List Char), ¬ "CRATER".toList <:+: a →
    a.length < n → Cli.removeCrater n (a ++ "CRATER".toList ++ b) = trimEnd a ++ trimStart b := by
  have hrest : ∀ n, Cli.removeCrater n (trimStart b) = trimStart b := by
    intro n
    apply removeCrater_none
    intro h
    apply hb
    rw [trimStart] at h
    split at h
    · exact h.trans (List.tail_suffix b).isInfix
    · exact h
  have hts : ∀ t : List Char, (if t.head? = some '_' then t.drop 1 else t) = trimStart t := by
    intro t; rw [trimStart, List.drop_one]
  intro n
  induction n with
  | zero => intro a _ h; omega
  | succ n ih =>
    intro a ha hn
    match a with
    | [] =>
      have hd : Cli.dropCrater ([] ++ "CRATER".toList ++ b) = some (trimStart b) := by
        rw [Cli.dropCrater]
        have h1 : ¬ "_CRATER".toList <+: [] ++ "CRATER".toList ++ b := by
          rintro ⟨t, ht⟩
          have := congrArg List.head? ht
          simp at this
        have h2 : "CRATER".toList <+: [] ++ "CRATER".toList ++ b := ⟨b, rfl⟩
        rw [if_neg h1, if_pos h2]
        show some (if b.head? = some '_' then b.drop 1 else b) = _
        rw [hts]
      simp only [Cli.removeCrater, hd]
      rw [hrest]
      rfl
    | c :: a' =>
      by_cases hu : c = '_' ∧ a' = []
      · obtain ⟨rfl, rfl⟩ := hu
        have hd : Cli.dropCrater (['_'] ++ "CRATER".toList ++ b) = some (trimStart b) := by
          rw [Cli.dropCrater]
          have h1 : "_CRATER".toList <+: ['_'] ++ "CRATER".toList ++ b := ⟨b, rfl⟩
          rw [if_pos h1]
          show some (if b.head? = some '_' then b.drop 1 else b) = _
          rw [hts]
        simp only [Cli.removeCrater, hd]
        rw [hrest]
        rfl
      · have hp : ¬ "CRATER".toList <+: (c :: a') ++ "CRATER".toList ++ b := fun h => ha (crater_prefix _ b (by simp) h).isInfix
        have hp1 : ¬ "_CRATER".toList <+: (c :: a') ++ "CRATER".toList ++ b := by
          intro h
          have hh : '_' :: "CRATER".toList <+: c :: (a' ++ "CRATER".toList ++ b) := by simpa using h
          rw [List.cons_prefix_cons] at hh
          by_cases ha' : a' = []
          · exact hu ⟨hh.1.symm, ha'⟩
          · exact ha ((crater_prefix a' b ha' hh.2).isInfix.trans (List.suffix_cons c a').isInfix)
        have hd : Cli.dropCrater ((c :: a') ++ "CRATER".toList ++ b) = none := by
          rw [Cli.dropCrater]
          rw [if_neg hp1, if_neg hp]
          rfl
        simp only [Cli.removeCrater, hd]
        rw [List.cons_append, List.cons_append]
        simp only
        rw [ih a' (fun h => ha (h.trans (List.suffix_cons c a').isInfix)) (by simp at hn; omega), ← List.cons_append]
        congr 1
        rw [trimEnd, trimEnd]
        cases a' with
        | nil =>
          have : c ≠ '_' := fun h => hu ⟨h, rfl⟩
          simp [this]
        | cons d l =>
          rw [List.getLast?_cons_cons]
          split
          · rfl
          · rfl

/-- **C115, name.** A name which is given is kept.  Otherwise the name is the base name of the source without directory and extension;
the word `CRATER` of shape file names is left out together with an underscore on either side. -/
theorem C115_name (E : Env K R) (args : List (Attrs K)) (kwargs o : Attrs K) (r : R) (ha : ∀ d ∈ args, IsDict d) (hk : IsDict kwargs)
    (h : create E args kwargs = .ok (o, r)) (n : List Char) (hn : GivenLast (plotStart :: args ++ [kwargs]) "name".toList (.str n))
    (s : List Char) (hv : GivenLast (plotStart :: args ++ [kwargs]) "source".toList (.str s)) (hs : s ≠ []) :
    (n ≠ [] → dictGet o "name".toList = some (.str n)) ∧
    (n = [] → ∀ dir base ext, FileParts E.classes s dir base ext →
      (¬ "CRATER".toList <:+: base → dictGet o "name".toList = some (.str base)) ∧
      (∀ a b, base = a ++ "CRATER".toList ++ b → ¬ "CRATER".toList <:+: a → ¬ "CRATER".toList <:+: b →
        dictGet o "name".toList = some (.str (trimEnd a ++ trimStart b)))) := by
  obtain ⟨o3, h4, e1, h5, h6, _⟩ := source_after ha hk h hv
  have h6 := h6 (by simpa [truthy] using hs)
  have h5 := h5 _ hn
  obtain ⟨n', s', hn', hs', hcase⟩ := fillName_ok h4
  rw [h5] at hn'
  rw [e1, h6] at hs'
  cases hn'
  cases hs'
  constructor
  · intro hne
    rcases hcase with ⟨hf, _⟩ | ⟨_, rfl⟩
    · simp [truthy] at hf; exact absurd hf hne
    · exact h5
  · rintro rfl dir base ext hp
    rcases hcase with ⟨_, t, b', ht, _, hb, rfl⟩ | ⟨hno, _⟩
    · cases ht
      rw [(filename_parts hp).2.2] at hb
      cases hb
      rw [dictGet_set, if_pos rfl]
      refine ⟨fun hc => by rw [removeCrater_none _ _ hc], ?_⟩
      rintro a b rfl h1 h2
      rw [removeCrater_one b h2 _ a h1 (by simp; omega)]
    · exact absurd ⟨by simp [truthy], by simpa [truthy] using hs⟩ hno

theorem toInt_defined {v : Val K} {z : ℤ} (h : IntegerOf v z) : ∃ z', IntegerOf v z' ∧ toInt v = .ok (.num z') := by
  have : ∃ w, toInt v = .ok w := by
    cases h with
    | num => exact ⟨_, rfl⟩
    | text s _ h => exact ⟨.num z, by simp only [toInt, h]⟩
    | up => exact ⟨_, rfl⟩
    | down => exact ⟨_, rfl⟩
  obtain ⟨w, hw⟩ := this
  obtain ⟨z', h1, rfl⟩ := toInt_ok hw
  exact ⟨z', h1, hw⟩

theorem floats_defined {α : Type} (f : α → List Char) (l : List α) : ∀ q : List ℚ, l.map (fun a => decVal (f a)) = q.map some →
    ∃ w, l.mapM (fun a => floatText (f a)) = .ok w := by
  induction l with
  | nil => intro q _; exact ⟨[], rfl⟩
  | cons a l ih =>
    intro q h
    cases q with
    | nil => cases h
    | cons x q =>
      rw [List.map_cons, List.map_cons, List.cons.injEq] at h
      obtain ⟨w, hw⟩ := ih q h.2
      have hx : floatText (f a) = .ok x := by rw [floatText, h.1]
      exact ⟨x :: w, by rw [List.mapM_cons, hx, hw]; rfl⟩

theorem toFloats_defined {v : Val K} {l : List ℚ} (h : NumbersOf v l) : ∃ w, toFloats v = .ok w := by
  cases h with
  | reals => exact ⟨_, rfl⟩
  | texts s _ h =>
    obtain ⟨w, hw⟩ := floats_defined id s l h
    have hw : s.mapM floatText = .ok w := hw
    exact ⟨.reals w, by simp only [toFloats, hw]; rfl⟩
  | text s _ h =>
    obtain ⟨w, hw⟩ := floats_defined (fun c : Char => [c]) s l h
    exact ⟨.reals w, by simp only [toFloats, hw]; rfl⟩

theorem foldlM_defined {conv : List Char → Val K → Except Exc (Val K)} (l : Attrs K) (h : ∀ x ∈ l, ∃ w, conv x.1 x.2 = .ok w) :
    ∀ o : Attrs K, ∃ o', l.foldlM (setOne conv) o = .ok o' := by
  induction l with
  | nil => exact fun o => ⟨o, rfl⟩
  | cons x l ih =>
    intro o
    obtain ⟨w, hw⟩ := h x (by simp)
    obtain ⟨o', h'⟩ := ih (fun y hy => h y (by simp [hy])) (dictSet o x.1 w)
    refine ⟨o', ?_⟩
    rw [List.foldlM_cons, setOne, hw]
    exact h'

/-- **C115, plots are created.** A plot is created from settings which can be read as the numbers they stand for, with a source whose count can
be opened and whose range can be decoded, and with a name or a source which has a base name. -/
theorem C115_created (E : Env K R) (args : List (Attrs K)) (kwargs : Attrs K) (ha : ∀ d ∈ args, IsDict d) (hk : IsDict kwargs)
    (hint : ∀ k ∈ switches.map String.toList, ∀ v, GivenLast (plotStart :: args ++ [kwargs]) k v → ∃ z, IntegerOf v z)
    (hoff : ∀ k v, k <:+: "offset_age".toList → GivenLast (plotStart :: args ++ [kwargs]) k v → ∃ l, NumbersOf v l)
    (hcount : GivenLast (plotStart :: args ++ [kwargs]) "cratercount".toList .none) (s n : List Char) (c : K)
    (hsource : GivenLast (plotStart :: args ++ [kwargs]) "source".toList (.str s)) (hs : s ≠ []) (hopen : E.open_ s = .ok c)
    (hname : GivenLast (plotStart :: args ++ [kwargs]) "name".toList (.str n)) (hn : n ≠ [] ∨ ∃ dir base ext, FileParts E.classes s dir base ext)
    (hdec : ∀ v b w z, GivenLast (plotStart :: args ++ [kwargs]) "range".toList v → GivenLast (plotStart :: args ++ [kwargs]) "binning".toList b →
      GivenLast (plotStart :: args ++ [kwargs]) "snap".toList w → IntegerOf w z → ∃ r, E.decode c v b (.num z) = .ok r) :
    ∃ o r, create E args kwargs = .ok (o, r) := by
  have hd := dicts_ok ha hk
  have hconv : ∀ x ∈ merged (plotStart :: args ++ [kwargs]), ∃ w, plotConv x.1 x.2 = .ok w := by
    rintro ⟨k, v⟩ hx
    have hg := (merged_get _ hd k v).1 (mem_get (merged_keys _) hx)
    by_cases h1 : k ∈ switches.map String.toList
    · have h3 : ∀ k ∈ switches.map String.toList, ¬ k <:+: "offset_age".toList ∧ k ∈ plotIntKeys := by decide +kernel
      obtain ⟨z, hz⟩ := hint k h1 v hg
      obtain ⟨z', _, hz'⟩ := toInt_defined hz
      refine ⟨.num z', ?_⟩
      show plotConv k v = _
      rw [plotConv, if_neg (h3 k h1).1]
      show (if k ∈ plotIntKeys then toInt v else .ok v) = _
      rw [if_pos (h3 k h1).2, hz']
    · by_cases h2 : k <:+: "offset_age".toList
      · obtain ⟨l, hl⟩ := hoff k v h2 hg
        obtain ⟨w, hw⟩ := toFloats_defined hl
        refine ⟨w, ?_⟩
        show plotConv k v = _
        rw [plotConv, if_pos h2, hw]
        show (if k ∈ plotIntKeys then toInt w else .ok w) = _
        rw [if_neg (by exact h1)]
      · exact ⟨v, plotConv_plain h1 h2⟩
  obtain ⟨o1, h1⟩ := foldlM_defined _ hconv []
  have h1 : setAll plotConv [] (plotStart :: args ++ [kwargs]) = .ok o1 := h1
  have gc := given_plain hd h1 hcount (by decide +kernel)
  have gs := given_plain hd h1 hsource (by decide +kernel)
  have gn := given_plain hd h1 hname (by decide +kernel)
  obtain ⟨o2, e2⟩ : ∃ o2, o2 = dictSet o1 "cratercount".toList (.count c) := ⟨_, rfl⟩
  have g2 : ∀ k, k ≠ "cratercount".toList → dictGet o2 k = dictGet o1 k := by
    intro k hk
    rw [e2, dictGet_set, if_neg hk]
  have gc2 : dictGet o2 "cratercount".toList = some (.count c) := by rw [e2, dictGet_set, if_pos rfl]
  have h2 : fillCount E o1 = .ok o2 := by
    rw [fillCount, attr_ok.2 gc, attr_ok.2 gs]
    show (if _ then _ else _) = _
    rw [if_pos ⟨rfl, by simpa [truthy] using hs⟩]
    show (E.open_ s >>= _) = _
    rw [hopen, e2]
    rfl
  have gs2 := (g2 "source".toList (by decide +kernel)).trans gs
  have gn2 := (g2 "name".toList (by decide +kernel)).trans gn
  have h3 : fillSource E o2 = .ok o2 := by
    rw [fillSource, attr_ok.2 gs2, attr_ok.2 gc2]
    show (if _ then _ else _) = _
    rw [if_neg (by rintro ⟨h, _⟩; exact hs (by simpa [truthy] using h))]
  have h4 : ∃ o3, fillName E o2 = .ok o3 := by
    rw [fillName, attr_ok.2 gn2, attr_ok.2 gs2]
    show ∃ o3, (if truthy (.str n : Val K) = false ∧ truthy (.str s : Val K) = true then _ else _) = _
    split
    · rename_i hcond
      rcases hn with hn | ⟨dir, base, ext, hp⟩
      · exact absurd (by simpa [truthy] using hcond.1) hn
      · refine ⟨dictSet o2 "name".toList (.str (Cli.removeCrater (base.length + 1) base)), ?_⟩
        show (Text.filename E.classes s ['n'] none none 4 >>= _) = _
        rw [(filename_parts hp).2.2]
        rfl
    · exact ⟨_, rfl⟩
  obtain ⟨o3, h4⟩ := h4
  have hu : update E [] (plotStart :: args ++ [kwargs]) = .ok o3 := by
    rw [update, h1]
    show (fillCount E o1 >>= _) = _
    rw [h2]
    show (fillSource E o2 >>= _) = _
    rw [h3]
    exact h4
  have key : ∀ k, k ≠ "cratercount".toList ∧ k ≠ "source".toList ∧ k ≠ "name".toList → dictGet o3 k = dictGet o1 k := by
    intro k hk
    obtain ⟨o1', h1', h⟩ := update_other hu hk
    rw [h1] at h1'
    cases h1'
    exact h
  have gc3 : dictGet o3 "cratercount".toList = some (.count c) := by
    obtain ⟨_, _, _, _, ⟨_, _, _, _, _, _, rfl⟩ | ⟨_, rfl⟩⟩ := fillName_ok h4
    · rw [dictGet_set, if_neg (by decide), gc2]
    · exact gc2
  obtain ⟨v, hv⟩ := lastGiven_exists (plotStart :: args ++ [kwargs]) "range".toList ⟨plotStart, by simp, by rw [plotStart_keys]; decide +kernel⟩
  obtain ⟨b, hb⟩ := lastGiven_exists (plotStart :: args ++ [kwargs]) "binning".toList ⟨plotStart, by simp, by rw [plotStart_keys]; decide +kernel⟩
  obtain ⟨w, hw⟩ := lastGiven_exists (plotStart :: args ++ [kwargs]) "snap".toList ⟨plotStart, by simp, by rw [plotStart_keys]; decide +kernel⟩
  have gv := (key "range".toList (by decide +kernel)).trans (given_plain hd h1 hv (by decide +kernel))
  have gb := (key "binning".toList (by decide +kernel)).trans (given_plain hd h1 hb (by decide +kernel))
  obtain ⟨w', hw1, hw2⟩ := (setAll_get hd h1 "snap".toList).1 w hw
  obtain ⟨z, hz, rfl⟩ := plotConv_switch (by decide +kernel) hw1
  have gw := (key "snap".toList (by decide +kernel)).trans hw2
  obtain ⟨r, hr⟩ := hdec v b w z hv hb hw hz
  refine ⟨o3, r, ?_⟩
  have hu' : update E [] (PlotObject.plotDefaults :: args ++ [kwargs]) = .ok o3 := hu
  have hr' : PlotObject.decodeRange E o3 = .ok r := by
    rw [PlotObject.decodeRange, attr_ok.2 gc3]
    show (attr o3 "range" >>= _) = _
    rw [attr_ok.2 gv]
    show (attr o3 "binning" >>= _) = _
    rw [attr_ok.2 gb]
    show (attr o3 "snap" >>= _) = _
    rw [attr_ok.2 gw]
    exact hr
  rw [create, hu']
  show (PlotObject.decodeRange E o3 >>= _) = _
  rw [hr']
  rfl

/-- **C115, counterexample.** `UpdateSettings(source=…)` on a plot with a count does not change what is plotted: the plot reports the
new source but keeps the old count, and the old name. -/
theorem C115_stale_counterexample (E : Env K R) (o : Attrs K) (c : K) (s n s' : List Char) (hs : s' ≠ []) (hne : n ≠ [])
    (hc : dictGet o "cratercount".toList = some (.count c)) (_ho : dictGet o "source".toList = some (.str s))
    (hn : dictGet o "name".toList = some (.str n)) :
    ∃ o', update E o [[("source".toList, .str s')]] = .ok o' ∧ dictGet o' "source".toList = some (.str s') ∧
      dictGet o' "cratercount".toList = some (.count c) ∧ dictGet o' "name".toList = some (.str n) := by
  have h1 : setAll plotConv o [[("source".toList, .str s')]] = .ok (dictSet o "source".toList (.str s')) := by
    have : merged [[("source".toList, (.str s' : Val K))]] = [("source".toList, .str s')] := by simp [merged, dictSet]
    rw [setAll, this, List.foldlM_cons, setOne]
    have hp := plotConv_plain (k := "source".toList) (by decide +kernel) (by decide +kernel) (v := (.str s' : Val K))
    simp only [hp]
    rfl
  have a1 : attr (dictSet o "source".toList (.str s')) "cratercount" = .ok (.count c) := by
    rw [attr_ok, dictGet_set, if_neg (by decide), hc]
  have a2 : attr (dictSet o "source".toList (.str s')) "source" = .ok (.str s') := by
    rw [attr_ok, dictGet_set, if_pos rfl]
  have a3 : attr (dictSet o "source".toList (.str s')) "name" = .ok (.str n) := by
    rw [attr_ok, dictGet_set, if_neg (by decide), hn]
  have h2 : fillCount E (dictSet o "source".toList (.str s')) = .ok (dictSet o "source".toList (.str s')) := by
    rw [fillCount, a1, a2]; rfl
  have h3 : fillSource E (dictSet o "source".toList (.str s')) = .ok (dictSet o "source".toList (.str s')) := by
    rw [fillSource, a1, a2]
    show (if truthy (Val.str s' : Val K) = false ∧ truthy (Val.count c) = true then _ else _) = _
    rw [if_neg (by simp [truthy, hs])]
  have h4 : fillName E (dictSet o "source".toList (.str s')) = .ok (dictSet o "source".toList (.str s')) := by
    rw [fillName, a3, a2]
    show (if truthy (Val.str n : Val K) = false ∧ truthy (Val.str s' : Val K) = true then _ else _) = _
    rw [if_neg (by simp [truthy, hne])]
  refine ⟨_, ?_, attr_ok.1 a2, attr_ok.1 a1, attr_ok.1 a3⟩
  rw [update, h1]
  show (fillCount E _ >>= fun o => fillSource E o >>= fun o => fillName E o) = _
  rw [h2]
  show (fillSource E _ >>= fun o => fillName E o) = _
  rw [h3]
  exact h4

/-! ### plot sets -/

/-- Specification: the settings of a plot set with their defaults. -/
def setStart : Attrs K :=
  [("title".toList, .none), ("presentation".toList, .str "differential".toList), ("xrange".toList, .reals [-3, 2]),
   ("yrange".toList, .reals [-5, 5]), ("style".toList, .str "natural".toList), ("isochrons".toList, .none),
   ("print_dimensions".toList, .str "7.5x7.5".toList), ("pt_size".toList, .real 9), ("font".toList, .str "Open Sans".toList),
   ("ref_diameter".toList, .real 1), ("sig_figs".toList, .num 3), ("randomness".toList, .num 0), ("mu".toList, .num 1),
   ("invert".toList, .num 0), ("text_halo".toList, .num 1), ("bins".toList, .num 0), ("ra_show".toList, .num 1)]

theorem setStart_keys : (setStart (K := K)).map Prod.fst = ["title", "presentation", "xrange", "yrange", "style", "isochrons",
    "print_dimensions", "pt_size", "font", "ref_diameter", "sig_figs", "randomness", "mu", "invert", "text_halo", "bins",
    "ra_show"].map String.toList := rfl

theorem setDicts_ok {args : List (Attrs K)} {kwargs : Attrs K} (ha : ∀ d ∈ args, IsDict d) (hk : IsDict kwargs) :
    ∀ d ∈ setStart :: args ++ [kwargs], IsDict d := by
  intro d hd
  simp only [List.cons_append, List.mem_cons, List.mem_append, List.not_mem_nil, or_false] at hd
  rcases hd with rfl | hd | rfl
  · rw [IsDict, setStart_keys]; decide +kernel
  · exact ha d hd
  · exact hk

theorem setConv_eq (k : List Char) (v : Val K) : setConv k v = if k ∈ setRangeKeys then toFloats v else if k ∈ setFloatKeys then toFloat v
    else if k ∈ setIntKeys then toInt v else .ok v := by
  have h1 : k ∈ setRangeKeys → k ∉ setFloatKeys ∧ k ∉ setIntKeys := by
    have : ∀ k ∈ setRangeKeys, k ∉ setFloatKeys ∧ k ∉ setIntKeys := by decide +kernel
    exact this k
  have h2 : k ∈ setFloatKeys → k ∉ setIntKeys := by
    have : ∀ k ∈ setFloatKeys, k ∉ setIntKeys := by decide +kernel
    exact this k
  rw [setConv]
  by_cases a : k ∈ setRangeKeys
  · simp only [if_pos a, if_neg (h1 a).1, if_neg (h1 a).2]
    cases toFloats v <;> rfl
  · by_cases b : k ∈ setFloatKeys
    · simp only [if_neg a, if_pos b, if_neg (h2 b)]
      show (toFloat v >>= fun v => Except.ok v) = _
      cases toFloat v <;> rfl
    · simp only [if_neg a, if_neg b]
      rfl

/-- **C115, plot sets.** The settings of a plot set: the last dictionary which gives a setting counts; axis ranges are lists of numbers,
font size and reference diameter numbers, the five switches whole numbers, everything else is as given.  The scale of all line widths is
the font size over 9, and the colours for a dark background are used exactly for `invert` 1 (or -1). -/
theorem C115_set (args : List (Attrs K)) (kwargs o : Attrs K) (ratio : ℚ) (dark : Bool) (ha : ∀ d ∈ args, IsDict d) (hk : IsDict kwargs)
    (h : createSet args kwargs = .ok (o, ratio, dark)) :
    (∀ k v, GivenLast (setStart :: args ++ [kwargs]) k v →
      (k ∈ ["xrange", "yrange"].map String.toList → ∃ l, NumbersOf v l ∧ dictGet o k = some (.reals l)) ∧
      (k ∈ ["pt_size", "ref_diameter"].map String.toList → ∃ q, NumberOf v q ∧ dictGet o k = some (.real q)) ∧
      (k ∈ ["randomness", "mu", "invert", "text_halo", "sig_figs"].map String.toList → ∃ z, IntegerOf v z ∧ dictGet o k = some (.num z)) ∧
      (k ∉ ["xrange", "yrange", "pt_size", "ref_diameter", "randomness", "mu", "invert", "text_halo", "sig_figs"].map String.toList →
        dictGet o k = some v)) ∧
    (∃ q, dictGet o "pt_size".toList = some (.real q) ∧ ratio = q / 9) ∧
    (∃ z : ℤ, dictGet o "invert".toList = some (.num z) ∧ (dark = true ↔ z = 1 ∨ z = -1) ∧ (dark = false ↔ z = 0 ∨ z = -2)) := by
  rw [createSet] at h
  obtain ⟨o1, h1, h⟩ := bind_inv h
  obtain ⟨p, hp, h⟩ := bind_inv h
  obtain ⟨i, hi, h⟩ := bind_inv h
  have hoo : o1 = o ∧ ∃ q z, p = .real q ∧ i = .num z ∧ ratio = q / 9 ∧ (dark = true ↔ z = 1 ∨ z = -1) ∧ (dark = false ↔ z = 0 ∨ z = -2) := by
    cases p with
    | real q =>
      cases i with
      | num z =>
        dsimp only at h
        split at h
        · cases h
          refine ⟨rfl, q, z, rfl, rfl, rfl, ?_, ?_⟩ <;> simp <;> omega
        · split at h
          · cases h
            refine ⟨rfl, q, z, rfl, rfl, rfl, ?_, ?_⟩ <;> simp <;> omega
          · cases h
      | none => cases h
      | real z => cases h
      | str z => cases h
      | strs z => cases h
      | reals z => cases h
      | count z => cases h
    | none => cases h
    | num z => cases h
    | str z => cases h
    | strs z => cases h
    | reals z => cases h
    | count z => cases h
  obtain ⟨rfl, q, z, rfl, rfl, hr, hd1, hd2⟩ := hoo
  refine ⟨?_, ⟨q, attr_ok.1 hp, hr⟩, z, attr_ok.1 hi, hd1, hd2⟩
  intro k v hv
  obtain ⟨w, hw, hg⟩ := (setAll_get (setDicts_ok ha hk) h1 k).1 v hv
  rw [setConv_eq] at hw
  have k1 : ∀ k ∈ ["pt_size", "ref_diameter"].map String.toList, k ∉ setRangeKeys ∧ k ∈ setFloatKeys := by decide +kernel
  have k2 : ∀ k ∈ ["randomness", "mu", "invert", "text_halo", "sig_figs"].map String.toList,
    k ∉ setRangeKeys ∧ k ∉ setFloatKeys ∧ k ∈ setIntKeys := by decide +kernel
  refine ⟨?_, ?_, ?_, ?_⟩
  · intro hk'
    rw [if_pos (show k ∈ setRangeKeys from hk')] at hw
    obtain ⟨l, hl, rfl⟩ := toFloats_ok hw
    exact ⟨l, hl, hg⟩
  · intro hk'
    rw [if_neg (k1 k hk').1, if_pos (k1 k hk').2] at hw
    obtain ⟨l, hl, rfl⟩ := toFloat_ok hw
    exact ⟨l, hl, hg⟩
  · intro hk'
    rw [if_neg (k2 k hk').1, if_neg (k2 k hk').2.1, if_pos (k2 k hk').2.2] at hw
    obtain ⟨l, hl, rfl⟩ := toInt_ok hw
    exact ⟨l, hl, hg⟩
  · intro hk'
    have hsub : ∀ j ∈ setRangeKeys ++ setFloatKeys ++ setIntKeys, j ∈ ["xrange", "yrange", "pt_size", "ref_diameter", "randomness", "mu",
      "invert", "text_halo", "sig_figs"].map String.toList := by decide +kernel
    have hn : ∀ l : List (List Char), (∀ j ∈ l, j ∈ setRangeKeys ++ setFloatKeys ++ setIntKeys) → k ∉ l := fun l hl hm => hk' (hsub k (hl k hm))
    rw [if_neg (hn _ (by intro j hj; simp [hj])), if_neg (hn _ (by intro j hj; simp [hj])), if_neg (hn _ (by intro j hj; simp [hj]))] at hw
    cases hw
    exact hg

/-! ### concrete cases -/

/-- counts are numbers, named by their files -/
def sampleEnv : Env ℕ Unit := ⟨Classes.ascii, fun s => .ok s.length, fun n => "counts/".toList ++ natStr n ++ ".scc".toList, fun _ _ _ _ => .ok ()⟩

/-- two dictionaries and keywords; the switch `snap` is given as text, twice -/
example : (create sampleEnv [[("source".toList, .str "d/mare_CRATER.shp".toList), ("snap".toList, .str "1".toList)], [("snap".toList, .str "0".toList)]]
    [("hide".toList, .num 1)]).map (fun x => (dictGet x.1 "snap".toList, dictGet x.1 "hide".toList, dictGet x.1 "cratercount".toList,
      dictGet x.1 "name".toList)) = .ok (some (.num 0), some (.num 1), some (.count 17), some (.str "mare".toList)) := by
  decide +kernel

/-- a plot of a count without source -/
example : (create sampleEnv [[("cratercount".toList, .count 12)]] []).map (fun x => (dictGet x.1 "source".toList, dictGet x.1 "name".toList)) =
    .ok (some (.str "counts/12.scc".toList), some (.str "12".toList)) := by
  decide +kernel

/-- settings of a plot set given as texts -/
example : (createSet (K := ℕ) [[("xrange".toList, .strs ["-2".toList, "3.5".toList]), ("pt_size".toList, .str "18".toList)]]
    [("invert".toList, .num 1)]).map (fun x => (dictGet x.1 "xrange".toList, x.2)) = .ok (some (.reals [-2, 7/2]), 2, true) := by
  decide +kernel

end Verif.Props
