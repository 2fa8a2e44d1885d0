import Verif.Py.RegexStar

/-! The first match of an expression followed by a continuation. -/

namespace Verif.Py

/-- all matches of `r` from `s`, continued by `k` -/
def Re.cont (r : Re) (s : St) (k : St → List St) : List St := (r.run s).flatMap k

theorem cont_seq (a b : Re) (s : St) (k : St → List St) : (Re.seq a b).cont s k = a.cont s (fun u => b.cont u k) := by
  simp only [Re.cont, run_seq, List.flatMap_assoc]

theorem run_eq_cont (r : Re) (s : St) : r.run s = r.cont s (fun u => [u]) := by simp [Re.cont]

theorem seq_run_cont (a b : Re) (s : St) : (Re.seq a b).run s = a.cont s b.run := rfl

theorem cont_alt (a b : Re) (s : St) (k : St → List St) : (Re.alt a b).cont s k = a.cont s k ++ b.cont s k := by
  simp only [Re.cont, run_alt, List.flatMap_append]

theorem cont_grp (n : ℕ) (r : Re) (s : St) (k : St → List St) :
    (Re.grp n r).cont s k = r.cont s (fun u => k { u with caps := (n, s.pre.length, matched s u) :: u.caps }) := by
  simp only [Re.cont, run_grp, List.flatMap_map]

theorem cont_chr_pos {p : Char → Bool} {c : Char} (hc : p c = true) (pre l : List Char) (caps) (k : St → List St) :
    (Re.chr p).cont ⟨pre, c :: l, caps⟩ k = k ⟨c :: pre, l, caps⟩ := by
  rw [Re.cont, run_chr_cons, if_pos hc]; simp

theorem cont_chr_neg {p : Char → Bool} {c : Char} (hc : ¬ p c = true) (pre l : List Char) (caps) (k : St → List St) :
    (Re.chr p).cont ⟨pre, c :: l, caps⟩ k = [] := by
  rw [Re.cont, run_chr_cons, if_neg hc]; rfl

theorem cont_bol_pos {pre : List Char} (h : ∀ c ∈ pre.head?, c = '\n') (l : List Char) (caps) (k : St → List St) :
    (Re.bol true).cont ⟨pre, l, caps⟩ k = k ⟨pre, l, caps⟩ := by
  rw [Re.cont]
  cases pre with
  | nil => simp [Re.run]
  | cons c pre =>
    have : c = '\n' := h c (by simp)
    simp [Re.run, this]

theorem cont_bol_neg {c : Char} (hc : c ≠ '\n') (pre l : List Char) (caps) (k : St → List St) :
    (Re.bol true).cont ⟨c :: pre, l, caps⟩ k = [] := by
  rw [Re.cont]; simp [Re.run, hc]

/-- greedy repetition of a class -/
theorem cont_many_head {p : Char → Bool} {w : List Char} (hw : ∀ c ∈ w, p c = true) {l : List Char} (hl : ∀ c ∈ l.head?, p c = false)
    {pre : List Char} {caps} {k : St → List St} {t : St} (h : (k ⟨w.reverse ++ pre, l, caps⟩).head? = some t) :
    ((Re.many (.chr p)).cont ⟨pre, w ++ l, caps⟩ k).head? = some t := by
  have hr : runLen p (w ++ l) = w.length := by
    rw [runLen_append hw]
    cases l with
    | nil => simp [runLen]
    | cons c l => rw [runLen_cons_neg (by simp [hl c (by simp)])]; rfl
  rw [Re.cont, Re.many, run_star_chr_greedy, flatMap_head?]
  have e : (⟨pre, w ++ l, caps⟩ : St).adv w.length = ⟨w.reverse ++ pre, l, caps⟩ := by simp [St.adv]
  simp only [hr]
  rw [List.range_succ, List.reverse_append, List.map_append, List.findSome?_append]
  simp [e, h]

/-- an optional character which is not there, or is there -/
theorem cont_opt_none {r : Re} {s : St} {k : St → List St} (hr : r.run s = []) : (Re.opt r).cont s k = k s := by
  rw [Re.cont]
  show (uptoRun r.run 1 s).flatMap k = _
  simp [uptoRun, hr]

theorem cont_opt_head {r : Re} {s : St} {k : St → List St} {t : St} (h : (r.cont s k).head? = some t) :
    ((Re.opt r).cont s k).head? = some t := by
  rw [Re.cont]
  show ((uptoRun r.run 1 s).flatMap k).head? = _
  have e : (r.run s).flatMap (uptoRun r.run 0) = r.run s := by
    show (r.run s).flatMap (fun u => [u]) = _
    simp
  rw [uptoRun, e, List.flatMap_append, List.head?_append]
  rw [Re.cont] at h
  rw [h]
  rfl

/-- lazy repetition of a class -/
theorem cont_lazy_head {p : Char → Bool} {w l : List Char} (hw : ∀ c ∈ w, p c = true) {pre : List Char} {caps} {k : St → List St} {t : St}
    (hn : ∀ a b, w = a ++ b → b ≠ [] → k ⟨a.reverse ++ pre, b ++ l, caps⟩ = [])
    (h : (k ⟨w.reverse ++ pre, l, caps⟩).head? = some t) :
    ((Re.lazy (.chr p)).cont ⟨pre, w ++ l, caps⟩ k).head? = some t := by
  rw [Re.cont, Re.lazy, run_star_chr_lazy, List.flatMap_map, flatMap_head?]
  refine findSome?_range _ _ w.length _ ?_ ?_ ?_
  · rw [runLen_append hw]; omega
  · have e : (⟨pre, w ++ l, caps⟩ : St).adv w.length = ⟨w.reverse ++ pre, l, caps⟩ := by simp [St.adv]
    rw [e, h]
  · intro j hj
    have e : (⟨pre, w ++ l, caps⟩ : St).adv j = ⟨(w.take j).reverse ++ pre, w.drop j ++ l, caps⟩ := by
      simp [St.adv, List.take_append_of_le_length hj.le, List.drop_append_of_le_length hj.le]
    rw [e, hn (w.take j) (w.drop j) (by simp) (by
      intro e
      have := congrArg List.length e
      simp at this
      omega)]
    rfl

theorem mem_cont {r : Re} {s : St} {k : St → List St} {t : St} : t ∈ r.cont s k ↔ ∃ u ∈ r.run s, t ∈ k u := by
  rw [Re.cont, List.mem_flatMap]

theorem head_append_some {α : Type} {a b : List α} {t : α} (h : a.head? = some t) : (a ++ b).head? = some t := by
  rw [List.head?_append, h]; rfl

/-- a lazy repetition tries the continuation before its body -/
theorem starRun_lazy_here {body : St → List St} {n : ℕ} {s : St} {k : St → List St} {t : St} (h : (k s).head? = some t) :
    ((starRun body false n s).flatMap k).head? = some t := by
  cases n with
  | zero => simpa [starRun] using h
  | succ n =>
    rw [starRun]
    simp only [Bool.false_eq_true, if_false, List.flatMap_cons]
    exact head_append_some h

theorem starRun_lazy_step {body : St → List St} {n : ℕ} {s u : St} {k : St → List St} {t : St} (hk : k s = [])
    (hb : ((body s).filter (fun t => decide (t.rest.length < s.rest.length))).head? = some u)
    (h : ((starRun body false n u).flatMap k).head? = some t) :
    ((starRun body false (n + 1) s).flatMap k).head? = some t := by
  rw [starRun]
  simp only [Bool.false_eq_true, if_false, List.flatMap_cons, hk, List.nil_append]
  cases hf : (body s).filter (fun t => decide (t.rest.length < s.rest.length)) with
  | nil => rw [hf] at hb; simp at hb
  | cons x xs =>
    rw [hf] at hb
    simp only [List.head?_cons, Option.some.injEq] at hb
    subst hb
    rw [List.flatMap_cons, List.flatMap_append]
    exact head_append_some h

end Verif.Py
