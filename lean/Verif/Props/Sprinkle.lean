import Mathlib.Tactic.Linarith
import Verif.Model.Randomness

/-! Property C51: random configurations meet their constraints. -/

namespace Verif.Props

open Verif.Py Verif.Rand

section

variable {P ι : Type} [DecidableEq ι]

/-! dictionaries -/

theorem dict_split {κ α : Type} [DecidableEq κ] {d : List (κ × α)} {k : κ} {v : α} (h : dictGet d k = some v) :
    ∃ a b, d = a ++ (k, v) :: b ∧ k ∉ a.map Prod.fst ∧ ∀ w, dictSet d k w = a ++ (k, w) :: b := by
  induction d with
  | nil => simp [dictGet] at h
  | cons x t ih =>
    obtain ⟨k', v'⟩ := x
    by_cases hk : k' = k
    · subst hk
      have : v' = v := by simpa [dictGet] using h
      subst this
      exact ⟨[], t, rfl, by simp, fun w => by simp [dictSet]⟩
    · have h' : dictGet t k = some v := by simpa [dictGet, hk] using h
      obtain ⟨a, b, h1, h2, h3⟩ := ih h'
      refine ⟨(k', v') :: a, b, by rw [h1]; rfl, ?_, ?_⟩
      · simp only [List.map_cons, List.mem_cons, not_or]
        exact ⟨fun e => hk e.symm, h2⟩
      · intro w
        rw [dictSet, if_neg hk, h3]
        rfl

theorem dictGet_none {κ α : Type} [DecidableEq κ] {d : List (κ × α)} {k : κ} (h : dictGet d k = none) : k ∉ d.map Prod.fst := by
  induction d with
  | nil => simp
  | cons x t ih =>
    obtain ⟨k', v'⟩ := x
    by_cases hk : k' = k
    · subst hk; simp [dictGet] at h
    · have h' : dictGet t k = none := by simpa [dictGet, hk] using h
      simp only [List.map_cons, List.mem_cons, not_or]
      exact ⟨fun e => hk e.symm, ih h'⟩

/-- all craters filed -/
def allPoints (hpd : Filed P ι) : List P := hpd.flatMap Prod.snd

/-- each crater is filed under its own cell, each cell once -/
structure WellFiled (S : Sphere P ι) (hpd : Filed P ι) : Prop where
  keys : (hpd.map Prod.fst).Nodup
  own : ∀ x ∈ hpd, ∀ e ∈ x.2, S.cell e = x.1

/-! erasing -/

/-- the craters left over -/
noncomputable def erased (S : Sphere P ι) (diam : ℝ) (pt : P) (ids : List ι) (hpd : Filed P ι) : Filed P ι :=
  hpd.map (fun x => (x.1, if x.1 ∈ ids then x.2.filter (fun e => decide (S.dist pt e > diam / 2)) else x.2))

theorem erased_keys (S : Sphere P ι) (diam : ℝ) (pt : P) (ids : List ι) (hpd : Filed P ι) :
    (erased S diam pt ids hpd).map Prod.fst = hpd.map Prod.fst := by
  simp [erased, Function.comp_def]

theorem eraseNear_eq (S : Sphere P ι) (diam : ℝ) (pt : P) (ids : List ι) : ∀ (hpd : Filed P ι) (count : ℤ),
    (hpd.map Prod.fst).Nodup → eraseNear S diam pt ids (hpd, count) =
      (erased S diam pt ids hpd, count + ((allPoints (erased S diam pt ids hpd)).length - (allPoints hpd).length)) := by
  induction ids with
  | nil =>
    intro hpd count _
    have : erased S diam pt [] hpd = hpd := by simp [erased]
    rw [this, eraseNear]
    simp
  | cons id ids ih =>
    intro hpd count hn
    rw [eraseNear]
    cases hg : dictGet hpd id with
    | none =>
      simp only
      have hid := dictGet_none hg
      have : erased S diam pt (id :: ids) hpd = erased S diam pt ids hpd := by
        apply List.map_congr_left
        intro x hx
        have hx1 : x.1 ≠ id := by rintro rfl; exact hid (List.mem_map.2 ⟨x, hx, rfl⟩)
        simp [hx1]
      rw [ih hpd count hn, this]
    | some l =>
      simp only
      obtain ⟨a, b, h1, h2, h3⟩ := dict_split hg
      set f := fun e => decide (S.dist pt e > diam / 2) with hf
      have hb : id ∉ b.map Prod.fst := by
        rw [h1, List.map_append, List.map_cons, List.nodup_append] at hn
        exact (List.nodup_cons.1 hn.2.1).1
      have key : erased S diam pt ids (dictSet hpd id (l.filter f)) = erased S diam pt (id :: ids) hpd := by
        rw [h3, h1]
        simp only [erased, List.map_append, List.map_cons]
        have part : ∀ c : Filed P ι, id ∉ c.map Prod.fst →
            c.map (fun x => (x.1, if x.1 ∈ ids then x.2.filter f else x.2)) =
            c.map (fun x => (x.1, if x.1 ∈ id :: ids then x.2.filter f else x.2)) := by
          intro c hc
          apply List.map_congr_left
          intro x hx
          have hx1 : x.1 ≠ id := by rintro rfl; exact hc (List.mem_map.2 ⟨x, hx, rfl⟩)
          simp [hx1]
        rw [← hf, part a h2, part b hb]
        congr 2
        simp
      have hk : (dictSet hpd id (l.filter f)).map Prod.fst = hpd.map Prod.fst := by rw [h3, h1]; simp
      rw [ih _ _ (by rw [hk]; exact hn), key]
      congr 1
      have e1 : ((allPoints (dictSet hpd id (l.filter f))).length : ℤ) = (allPoints hpd).length - l.length + (l.filter f).length := by
        rw [h3, h1]
        simp only [allPoints, List.flatMap_append, List.flatMap_cons, List.length_append]
        push_cast
        ring
      rw [e1]
      ring

theorem mem_erased {S : Sphere P ι} {diam : ℝ} {pt : P} {ids : List ι} {hpd : Filed P ι} (hw : WellFiled S hpd) {e : P}
    (h : e ∈ allPoints (erased S diam pt ids hpd)) : e ∈ allPoints hpd ∧ (S.cell e ∈ ids → S.dist pt e > diam / 2) := by
  rw [allPoints, List.mem_flatMap] at h
  obtain ⟨x, hx, he⟩ := h
  rw [erased, List.mem_map] at hx
  obtain ⟨y, hy, rfl⟩ := hx
  simp only at he
  split at he
  · rename_i hi
    rw [List.mem_filter] at he
    refine ⟨List.mem_flatMap.2 ⟨y, hy, he.1⟩, fun _ => by simpa using he.2⟩
  · rename_i hi
    refine ⟨List.mem_flatMap.2 ⟨y, hy, he⟩, fun hc => ?_⟩
    rw [hw.own y hy e he] at hc
    exact absurd hc hi

theorem erased_sublist (S : Sphere P ι) (diam : ℝ) (pt : P) (ids : List ι) (hpd : Filed P ι) :
    (allPoints (erased S diam pt ids hpd)).Sublist (allPoints hpd) := by
  induction hpd with
  | nil => simp [erased, allPoints]
  | cons x t ih =>
    simp only [allPoints, erased, List.map_cons, List.flatMap_cons] at ih ⊢
    refine List.Sublist.append ?_ ih
    split
    · exact List.filter_sublist
    · exact List.Sublist.refl _

theorem wellFiled_erased {S : Sphere P ι} {hpd : Filed P ι} (hw : WellFiled S hpd) (diam : ℝ) (pt : P) (ids : List ι) :
    WellFiled S (erased S diam pt ids hpd) := by
  refine ⟨by rw [erased_keys]; exact hw.keys, ?_⟩
  intro x hx e he
  rw [erased, List.mem_map] at hx
  obtain ⟨y, hy, rfl⟩ := hx
  simp only at he ⊢
  split at he
  · exact hw.own y hy e (List.mem_filter.1 he).1
  · exact hw.own y hy e he

/-! adding -/

theorem addPoint_spec {S : Sphere P ι} {hpd : Filed P ι} (hw : WellFiled S hpd) (pt : P) (count : ℤ) :
    ∃ hpd', addPoint S pt (hpd, count) = (hpd', count + 1) ∧ WellFiled S hpd' ∧ (allPoints hpd').Perm (pt :: allPoints hpd) := by
  rw [addPoint]
  simp only
  cases hg : dictGet hpd (S.cell pt) with
  | none =>
    have hn := dictGet_none hg
    have e := dictSet_new hpd (S.cell pt) [pt] hn
    refine ⟨_, rfl, ?_, ?_⟩
    · rw [e]
      refine ⟨?_, ?_⟩
      · rw [List.map_append, List.nodup_append]
        refine ⟨hw.keys, by simp, ?_⟩
        intro a ha b hb
        simp at hb
        rintro rfl
        exact hn (hb ▸ ha)
      · intro x hx e he
        rw [List.mem_append, List.mem_singleton] at hx
        rcases hx with hx | rfl
        · exact hw.own x hx e he
        · simp at he
          rw [he]
    · rw [e, allPoints, List.flatMap_append]
      simp only [List.flatMap_cons, List.flatMap_nil, List.append_nil]
      exact List.perm_append_comm
  | some l =>
    obtain ⟨a, b, h1, h2, h3⟩ := dict_split hg
    refine ⟨_, rfl, ?_, ?_⟩
    · rw [h3]
      refine ⟨?_, ?_⟩
      · have := hw.keys
        rw [h1] at this
        simpa using this
      · intro x hx e he
        rw [List.mem_append, List.mem_cons] at hx
        rcases hx with hx | rfl | hx
        · exact hw.own x (by rw [h1]; simp [hx]) e he
        · simp only [List.mem_append, List.mem_singleton] at he
          rcases he with he | rfl
          · exact hw.own (S.cell pt, l) (by rw [h1]; simp) e he
          · rfl
        · exact hw.own x (by rw [h1]; simp [hx]) e he
    · rw [h3, h1]
      simp only [allPoints, List.flatMap_append, List.flatMap_cons]
      have : (List.flatMap Prod.snd a ++ (l ++ [pt] ++ List.flatMap Prod.snd b)) =
          (List.flatMap Prod.snd a ++ l) ++ pt :: List.flatMap Prod.snd b := by simp
      rw [this, show List.flatMap Prod.snd a ++ (l ++ List.flatMap Prod.snd b) = (List.flatMap Prod.snd a ++ l) ++ List.flatMap Prod.snd b by simp]
      exact List.perm_middle

/-! the invariant -/

/-- Specification: craters inside the area, any two more than half a diameter apart. -/
structure Configuration (S : Sphere P ι) (diam : ℝ) (pts : List P) : Prop where
  inside : ∀ p ∈ pts, S.within p = true
  apart : pts.Pairwise (fun p q => S.dist p q > diam / 2)

theorem configuration_perm {S : Sphere P ι} (hsymm : ∀ p q, S.dist p q = S.dist q p) {diam : ℝ} {l l' : List P} (h : l.Perm l')
    (hc : Configuration S diam l) : Configuration S diam l' :=
  ⟨fun p hp => hc.inside p (h.mem_iff.2 hp), (h.pairwise_iff (fun {p q} hpq => by rw [hsymm]; exact hpq)).1 hc.apart⟩

structure Inv (S : Sphere P ι) (n : ℤ) (diam : ℝ) (s : Filed P ι × ℤ) : Prop where
  filed : WellFiled S s.1
  config : Configuration S diam (allPoints s.1)
  count : s.2 = (allPoints s.1).length
  bound : s.2 ≤ n

theorem step_inv {S : Sphere P ι} (hsymm : ∀ p q, S.dist p q = S.dist q p) {diam : ℝ} (hd : 0 ≤ diam)
    (hcone : ∀ p q r, S.dist p q ≤ r → S.cell q ∈ S.cone p r) {n : ℤ} {s : Filed P ι × ℤ} (hi : Inv S n diam s) (hlt : s.2 < n)
    {pt : P} (hp : S.within pt = true) : Inv S n diam (addPoint S pt (eraseNear S diam pt (S.cone pt diam) s)) := by
  obtain ⟨hpd, count⟩ := s
  rw [eraseNear_eq S diam pt _ hpd count hi.filed.keys]
  set hpd' := erased S diam pt (S.cone pt diam) hpd with hpd'def
  have hsub := erased_sublist S diam pt (S.cone pt diam) hpd
  obtain ⟨hpd'', e, hw, hperm⟩ := addPoint_spec (wellFiled_erased hi.filed diam pt (S.cone pt diam)) pt
    (count + ((allPoints hpd').length - (allPoints hpd).length))
  rw [e]
  have hcount : count = (allPoints hpd).length := hi.count
  have hlen : (allPoints hpd').length ≤ (allPoints hpd).length := hsub.length_le
  refine ⟨hw, ?_, ?_, ?_⟩
  · refine configuration_perm hsymm hperm.symm ⟨?_, ?_⟩
    · intro p hp'
      rcases List.mem_cons.1 hp' with rfl | hp'
      · exact hp
      · exact hi.config.inside p (hsub.subset hp')
    · rw [List.pairwise_cons]
      refine ⟨?_, hi.config.apart.sublist hsub⟩
      intro q hq
      by_cases hc : S.cell q ∈ S.cone pt diam
      · exact (mem_erased hi.filed hq).2 hc
      · have : ¬ S.dist pt q ≤ diam := fun h => hc (hcone pt q diam h)
        linarith
  · have := hperm.length_eq
    rw [List.length_cons, ← hpd'def] at this
    show count + _ + 1 = _
    rw [this]
    push_cast
    omega
  · show count + _ + 1 ≤ n
    simp only at hlt
    omega

theorem batch_inv {S : Sphere P ι} (hsymm : ∀ p q, S.dist p q = S.dist q p) {diam : ℝ} (hd : 0 ≤ diam)
    (hcone : ∀ p q r, S.dist p q ≤ r → S.cell q ∈ S.cone p r) {n : ℤ} (pts : List P) : ∀ {s : Filed P ι × ℤ}, Inv S n diam s → s.2 < n →
    Inv S n diam (placeBatch S n diam pts s) := by
  induction pts with
  | nil => intro s hi _; exact hi
  | cons pt pts ih =>
    intro s hi hlt
    rw [placeBatch]
    split
    · rename_i hp
      have h' := step_inv hsymm hd hcone hi hlt hp
      simp only
      split
      · exact h'
      · rename_i hlt'
        exact ih h' (not_le.1 hlt')
    · exact ih hi hlt

omit [DecidableEq ι] in
theorem pairs_fst (hpd : Filed P ι) : (hpd.flatMap (fun x => x.2.map (fun e => (e, x.1)))).map Prod.fst = allPoints hpd := by
  simp [allPoints, List.map_flatMap, Function.comp_def]

omit [DecidableEq ι] in
theorem pairs_snd {S : Sphere P ι} {hpd : Filed P ι} (hw : WellFiled S hpd) :
    (hpd.flatMap (fun x => x.2.map (fun e => (e, x.1)))).map Prod.snd = (allPoints hpd).map S.cell := by
  rw [← pairs_fst, List.map_map]
  apply List.map_congr_left
  intro y hy
  rw [List.mem_flatMap] at hy
  obtain ⟨x, hx, hy⟩ := hy
  rw [List.mem_map] at hy
  obtain ⟨e, he, rfl⟩ := hy
  exact (hw.own x hx e he).symm

theorem sprinkle_inv {S : Sphere P ι} (hsymm : ∀ p q, S.dist p q = S.dist q p) {diam : ℝ} (hd : 0 ≤ diam)
    (hcone : ∀ p q r, S.dist p q ≤ r → S.cell q ∈ S.cone p r) {n : ℤ} {draw : ℕ → ℤ → List P} (fuel : ℕ) :
    ∀ {i : ℕ} {s : Filed P ι × ℤ} {r}, Inv S n diam s → sprinkle S n diam draw fuel i s = some r →
    ∃ s', Inv S n diam s' ∧ s'.2 = n ∧ r = (if allPoints s'.1 = [] then .error .value else
      .ok (allPoints s'.1, (allPoints s'.1).map S.cell, s'.1)) := by
  induction fuel with
  | zero => intro i s r _ h; simp [sprinkle] at h
  | succ fuel ih =>
    intro i s r hi h
    rw [sprinkle] at h
    split at h
    · rename_i hlt
      exact ih (batch_inv hsymm hd hcone _ hi hlt) h
    · rename_i hge
      refine ⟨s, hi, le_antisymm hi.bound (not_lt.1 hge), ?_⟩
      simp only at h
      rw [pairs_fst, pairs_snd hi.filed] at h
      have hnil : (s.1.flatMap (fun x => x.2.map (fun e => (e, x.1))) = []) ↔ allPoints s.1 = [] := by
        rw [← pairs_fst, List.map_eq_nil_iff]
      by_cases he : allPoints s.1 = []
      · rw [if_pos (hnil.2 he)] at h
        rw [if_pos he]
        exact (Option.some.inj h).symm
      · rw [if_neg (fun e => he (hnil.1 e))] at h
        rw [if_neg he]
        exact (Option.some.inj h).symm

/-- **C51: random crater placement.** Whatever the random points drawn, if the placement ends it gives exactly `n` craters, all inside
the area, any two more than half the bin diameter apart, each listed with its own grid cell, and filed under this cell, each cell
once.  For no craters it is a ValueError.  Assumed of the geometry libraries: distances are symmetric, and the cone search returns
every cell holding a point within its radius.  (Whether the placement ends depends on the random numbers and on whether there is
room: see `C51_no_room`.) -/
theorem C51_configuration {S : Sphere P ι} (hsymm : ∀ p q, S.dist p q = S.dist q p) {diam : ℝ} (hd : 0 ≤ diam)
    (hcone : ∀ p q r, S.dist p q ≤ r → S.cell q ∈ S.cone p r) {n : ℕ} {draw : ℕ → ℤ → List P} {fuel : ℕ} {r}
    (h : sprinkleDiscs S n diam draw fuel = some r) :
    (n = 0 ∧ r = .error .value) ∨ ∃ pts ids hpd, r = .ok (pts, ids, hpd) ∧ pts.length = n ∧ (∀ p ∈ pts, S.within p = true) ∧
      pts.Pairwise (fun p q => S.dist p q > diam / 2) ∧ ids = pts.map S.cell ∧ hpd.flatMap Prod.snd = pts ∧
      (hpd.map Prod.fst).Nodup ∧ ∀ x ∈ hpd, ∀ e ∈ x.2, S.cell e = x.1 := by
  obtain ⟨s', hi, hn, hr⟩ := sprinkle_inv hsymm hd hcone fuel
    (⟨⟨by simp, by simp⟩, ⟨by simp [allPoints], by simp [allPoints]⟩, by simp [allPoints], by simp⟩ : Inv S n diam ([], 0)) h
  have hlen : (allPoints s'.1).length = n := by
    have := hi.count
    rw [hn] at this
    exact_mod_cast this.symm
  by_cases he : allPoints s'.1 = []
  · left
    rw [if_pos he] at hr
    rw [he] at hlen
    exact ⟨by simpa using hlen.symm, hr⟩
  · right
    rw [if_neg he] at hr
    exact ⟨_, _, _, hr, hlen, hi.config.inside, hi.config.apart, rfl, rfl, hi.filed.keys, hi.filed.own⟩

/-- **No room, no end**: if the area does not hold `n` craters more than half a diameter apart, the placement goes on for ever,
whatever the random numbers. -/
theorem C51_no_room {S : Sphere P ι} (hsymm : ∀ p q, S.dist p q = S.dist q p) {diam : ℝ} (hd : 0 ≤ diam)
    (hcone : ∀ p q r, S.dist p q ≤ r → S.cell q ∈ S.cone p r) {n : ℕ} (hn : 0 < n)
    (hroom : ¬ ∃ pts : List P, pts.length = n ∧ (∀ p ∈ pts, S.within p = true) ∧ pts.Pairwise (fun p q => S.dist p q > diam / 2))
    (draw : ℕ → ℤ → List P) (fuel : ℕ) : sprinkleDiscs S n diam draw fuel = none := by
  cases h : sprinkleDiscs S n diam draw fuel with
  | none => rfl
  | some r =>
    rcases C51_configuration hsymm hd hcone h with ⟨h0, _⟩ | ⟨pts, _, _, _, h1, h2, h3, _⟩
    · omega
    · exact absurd ⟨pts, h1, h2, h3⟩ hroom

theorem erased_all {S : Sphere P ι} {diam : ℝ} {pt : P} {ids : List ι} {hpd : Filed P ι}
    (h : ∀ e ∈ allPoints hpd, S.dist pt e > diam / 2) : erased S diam pt ids hpd = hpd := by
  rw [erased]
  conv_rhs => rw [← List.map_id hpd]
  apply List.map_congr_left
  intro x hx
  have : x.2.filter (fun e => decide (S.dist pt e > diam / 2)) = x.2 := by
    rw [List.filter_eq_self]
    intro e he
    simpa using h e (List.mem_flatMap.2 ⟨x, hx, he⟩)
  simp only [this, ite_self, id]

theorem batch_count {S : Sphere P ι} (hsymm : ∀ p q, S.dist p q = S.dist q p) {diam : ℝ} {n : ℤ} (pts : List P) (rest : List P) :
    ∀ {s : Filed P ι × ℤ}, WellFiled S s.1 → Configuration S diam (pts ++ allPoints s.1) → s.2 + pts.length = n → pts ≠ [] →
    (placeBatch S n diam (pts ++ rest) s).2 = n := by
  induction pts with
  | nil => intro s _ _ _ h; exact absurd rfl h
  | cons pt pts ih =>
    intro s hw hc hn _
    obtain ⟨hpd, count⟩ := s
    rw [List.cons_append, placeBatch, if_pos (hc.inside pt (by simp)), eraseNear_eq S diam pt _ hpd count hw.keys, erased_all]
    · obtain ⟨hpd', e, hw', hperm⟩ := addPoint_spec hw pt (count + (((allPoints hpd).length : ℤ) - (allPoints hpd).length))
      simp only [e]
      simp only [sub_self, add_zero, ge_iff_le]
      simp only [List.length_cons] at hn
      push_cast at hn
      split
      · rename_i hge
        show count + 1 = n
        omega
      · rename_i hlt
        refine ih hw' ?_ (by simp only; omega) ?_
        · refine configuration_perm hsymm ?_ hc
          show (pt :: (pts ++ allPoints hpd)).Perm (pts ++ allPoints hpd')
          refine List.Perm.trans ?_ (List.Perm.append_left pts hperm.symm)
          exact (List.perm_middle (l₁ := pts) (l₂ := allPoints hpd) (a := pt)).symm
        · rintro rfl
          apply hlt
          simp at hn
          omega
    · intro e he
      have := hc.apart
      rw [List.cons_append, List.pairwise_cons] at this
      exact this.1 e (by simp [he])

/-- **The placement can end**: when the points drawn first are `n` inside the area and apart, these are the craters. -/
theorem C51_ends {S : Sphere P ι} (hsymm : ∀ p q, S.dist p q = S.dist q p) {diam : ℝ} {n : ℕ} (hn : 0 < n)
    {draw : ℕ → ℤ → List P} {pts rest : List P} (hdraw : draw 0 0 = pts ++ rest) (hlen : pts.length = n)
    (hin : ∀ p ∈ pts, S.within p = true) (hap : pts.Pairwise (fun p q => S.dist p q > diam / 2)) :
    ∃ r, sprinkleDiscs S n diam draw 2 = some r := by
  have hc := batch_count (n := (n : ℤ)) hsymm pts rest (s := (([] : Filed P ι), 0)) ⟨by simp, by simp⟩
    ⟨by simpa [allPoints] using hin, by simpa [allPoints] using hap⟩ (by simp [hlen]) (by
      rintro rfl
      simp at hlen
      omega)
  rw [sprinkleDiscs, sprinkle, if_pos (by simpa using hn)]
  simp only
  rw [hdraw, sprinkle, if_neg (by rw [hc]; simp)]
  simp only
  split
  · exact ⟨_, rfl⟩
  · exact ⟨_, rfl⟩

end

/-- a line of points at whole numbers, one in each cell; three craters of diameter 4 at 0, 5 and 9 -/
noncomputable def lineSphere : Sphere (Fin 10) (Fin 10) where
  within _ := true
  dist p q := |(p : ℝ) - q|
  cell p := p
  cone _ _ := List.finRange 10
  neighbours l := l.flatMap (fun _ => List.finRange 10)

example : ∃ pts ids hpd, sprinkleDiscs lineSphere 3 4 (fun _ _ => [0, 5, 9]) 2 = some (.ok (pts, ids, hpd)) ∧ pts.length = 3 ∧
    pts.Pairwise (fun p q => lineSphere.dist p q > 2) := by
  have hs : ∀ p q, lineSphere.dist p q = lineSphere.dist q p := fun p q => abs_sub_comm _ _
  have hl : (([0, 5, 9] : List (Fin 10))).Pairwise (fun p q => lineSphere.dist p q > 4 / 2) := by
    simp only [List.pairwise_cons, List.mem_cons, List.not_mem_nil, or_false, lineSphere]
    refine ⟨?_, ?_, by simp, by simp⟩
    · rintro a (rfl | rfl)
      · rw [gt_iff_lt, lt_abs]; right; norm_num [Fin.val]
      · rw [gt_iff_lt, lt_abs]; right; norm_num [Fin.val]
    · rintro a rfl
      rw [gt_iff_lt, lt_abs]; right; norm_num [Fin.val]
  obtain ⟨r, hr⟩ := C51_ends hs (n := 3) (by decide) (draw := fun _ _ => [0, 5, 9]) (rest := []) rfl rfl (by simp [lineSphere]) hl
  rcases C51_configuration hs (by norm_num) (by intro p q r _; simp [lineSphere]) hr with ⟨h0, _⟩ | ⟨pts, ids, hpd, h1, h2, _, h4, _⟩
  · omega
  · rw [h1] at hr
    refine ⟨pts, ids, hpd, hr, h2, ?_⟩
    have : (4 : ℝ) / 2 = 2 := by norm_num
    rwa [this] at h4

end Verif.Props
