import Mathlib.Algebra.BigOperators.Group.List.Basic
import Verif.Props.Sprinkle

/-! Property C52: the neighbour search by grid cells is exact. -/

namespace Verif.Props

open Verif.Py Verif.Rand

/-- Specification: `x` is the value with index `k` of the list put in order: at most `k` values are smaller, and more than `k` are not
larger. -/
structure IsKth (k : ℕ) (l : List ℝ) (x : ℝ) : Prop where
  mem : x ∈ l
  below : l.countP (fun y => decide (y < x)) ≤ k
  above : k < l.countP (fun y => decide (y ≤ x))

/-- there is at most one -/
theorem isKth_unique {k : ℕ} {l : List ℝ} {x y : ℝ} (hx : IsKth k l x) (hy : IsKth k l y) : x = y := by
  have key : ∀ {x y : ℝ}, IsKth k l x → IsKth k l y → ¬ x < y := by
    intro x y hx hy h
    have : l.countP (fun z => decide (z ≤ x)) ≤ l.countP (fun z => decide (z < y)) :=
      List.countP_mono_left (fun z _ hz => by simp at hz ⊢; linarith)
    have := hx.above
    have := hy.below
    omega
  exact le_antisymm (not_lt.1 (key hy hx)) (not_lt.1 (key hx hy))

theorem countP_split {α : Type} (p : α → Bool) (l : List α) (k : ℕ) : l.countP p = (l.take k).countP p + (l.drop k).countP p := by
  conv_lhs => rw [← List.take_append_drop k l]
  rw [List.countP_append]

section

variable {P ι : Type} [DecidableEq ι]

/-- the entry with index `k` of a sorted list -/
theorem sorted_kth {l : List (ℝ × P)} {k : ℕ} {x : ℝ × P} (h : (l.insertionSort (fun a b => a.1 ≤ b.1))[k]? = some x) :
    IsKth k (l.map Prod.fst) x.1 ∧ x ∈ l := by
  have htot : Std.Total (fun a b : ℝ × P => a.1 ≤ b.1) := ⟨fun a b => le_total a.1 b.1⟩
  have htr : IsTrans (ℝ × P) (fun a b => a.1 ≤ b.1) := ⟨fun a b c h1 h2 => le_trans h1 h2⟩
  set s := l.insertionSort (fun a b => a.1 ≤ b.1) with hs
  have hsorted : s.Pairwise (fun a b => a.1 ≤ b.1) := List.pairwise_insertionSort _ _
  have hperm : s.Perm l := List.perm_insertionSort _ _
  obtain ⟨hk, hx⟩ := List.getElem?_eq_some_iff.1 h
  have hdrop : s.drop k = x :: s.drop (k + 1) := by rw [← hx]; exact List.drop_eq_getElem_cons hk
  have hmem : x ∈ s := by rw [← hx]; exact List.getElem_mem hk
  have hpw := hsorted
  rw [← List.take_append_drop k s, hdrop, List.pairwise_append] at hpw
  have hcount : ∀ p : ℝ → Bool, (l.map Prod.fst).countP p = s.countP (fun a => p a.1) := by
    intro p
    rw [List.countP_map, ← hperm.countP_eq]
    rfl
  refine ⟨⟨List.mem_map.2 ⟨x, hperm.mem_iff.1 hmem, rfl⟩, ?_, ?_⟩, hperm.mem_iff.1 hmem⟩
  · rw [hcount, countP_split _ s k]
    have h0 : (s.drop k).countP (fun a => decide (a.1 < x.1)) = 0 := by
      rw [List.countP_eq_zero, hdrop]
      intro a ha
      rcases List.mem_cons.1 ha with rfl | ha
      · simp
      · have := (List.pairwise_cons.1 hpw.2.1).1 a ha
        simpa using this
    rw [h0]
    have := List.countP_le_length (p := fun a : ℝ × P => decide (a.1 < x.1)) (l := s.take k)
    rw [List.length_take] at this
    omega
  · rw [hcount, countP_split _ s k, hdrop, List.countP_cons_of_pos (by simp)]
    have : (s.take k).countP (fun a => decide (a.1 ≤ x.1)) = (s.take k).length := by
      rw [List.countP_eq_length]
      intro a ha
      simpa using hpw.2.2 a ha x (by simp)
    rw [this, List.length_take]
    omega

/-- Specification: distances from a point to all craters. -/
def distances (S : Sphere P ι) (pt : P) (pts : List P) : List ℝ := pts.map (S.dist pt)

theorem sum_ite_mem {zone : List ι} (hz : zone.Nodup) (id : ι) (c : ℕ) :
    (zone.map (fun z => if z = id then c else 0)).sum = if id ∈ zone then c else 0 := by
  induction zone with
  | nil => simp
  | cons z zs ih =>
    rw [List.nodup_cons] at hz
    rw [List.map_cons, List.sum_cons, ih hz.2]
    by_cases h : z = id
    · subst h
      simp [hz.1]
    · simp [h, Ne.symm h]

/-- craters of a zone, counted -/
theorem countP_zone (hpd : Filed P ι) (hk : (hpd.map Prod.fst).Nodup) {zone : List ι} (hz : zone.Nodup) (p : P → Bool) :
    (zone.flatMap (fun id => (dictGet hpd id).getD [])).countP p =
      ((hpd.filter (fun x => decide (x.1 ∈ zone))).flatMap Prod.snd).countP p := by
  have hsum : ∀ hpd : Filed P ι, (zone.flatMap (fun id => (dictGet hpd id).getD [])).countP p =
      (zone.map (fun id => ((dictGet hpd id).getD []).countP p)).sum := by
    intro hpd
    rw [List.countP_flatMap]
    rfl
  rw [hsum]
  induction hpd with
  | nil => simp [dictGet]
  | cons x t ih =>
    obtain ⟨id, l⟩ := x
    rw [List.map_cons, List.nodup_cons] at hk
    have hnone : dictGet t id = none := by
      cases h : dictGet t id with
      | none => rfl
      | some v =>
        obtain ⟨a, b, h1, _⟩ := dict_split h
        exact absurd (by rw [h1]; simp) hk.1
    have e : (zone.map (fun z => ((dictGet ((id, l) :: t) z).getD []).countP p)) =
        zone.map (fun z => (if z = id then l.countP p else 0) + ((dictGet t z).getD []).countP p) := by
      apply List.map_congr_left
      intro z _
      by_cases h : z = id
      · subst h
        simp [dictGet, hnone, show dictGet t z = none from hnone]
        have : t.find? (fun x => decide (x.1 = z)) = none := by
          simpa [dictGet] using hnone
        simp [this]
      · simp [dictGet, h, Ne.symm h]
    rw [e, List.sum_map_add, sum_ite_mem hz, ih hk.2]
    by_cases hm : id ∈ zone
    · simp [hm]
    · simp [hm]

theorem zoneDistances_eq (S : Sphere P ι) (hpd : Filed P ι) (pt : P) (zone : List ι) : zoneDistances S hpd pt zone =
    (zone.flatMap (fun id => (dictGet hpd id).getD [])).map (fun e => (S.dist pt e, e)) := by
  rw [zoneDistances, List.map_flatMap]

omit [DecidableEq ι] in
theorem flatMap_sublist {a b : Filed P ι} (h : a.Sublist b) : (a.flatMap Prod.snd).Sublist (b.flatMap Prod.snd) := by
  induction h with
  | slnil => exact List.Sublist.refl _
  | cons x _ ih => rw [List.flatMap_cons]; exact ih.trans (List.sublist_append_right _ _)
  | cons_cons x _ ih => rw [List.flatMap_cons, List.flatMap_cons]; exact List.Sublist.append_left ih _

/-- a zone holds no more craters than there are -/
theorem count_zone_le {S : Sphere P ι} {hpd : Filed P ι} (hw : WellFiled S hpd) {zone : List ι} (hz : zone.Nodup) (pt : P) (p : ℝ → Bool) :
    ((zoneDistances S hpd pt zone).map Prod.fst).countP p ≤ (distances S pt (allPoints hpd)).countP p := by
  rw [zoneDistances_eq, List.map_map, List.countP_map, distances, List.countP_map, countP_zone hpd hw.keys hz]
  have hsub : ((hpd.filter (fun x => decide (x.1 ∈ zone))).flatMap Prod.snd).Sublist (allPoints hpd) :=
    flatMap_sublist List.filter_sublist
  exact hsub.countP_le

/-- a zone with the cells of all craters of a kind holds all of these -/
theorem count_zone_eq {S : Sphere P ι} {hpd : Filed P ι} (hw : WellFiled S hpd) {zone : List ι} (hz : zone.Nodup) (pt : P) (p : ℝ → Bool)
    (hall : ∀ e ∈ allPoints hpd, p (S.dist pt e) = true → S.cell e ∈ zone) :
    ((zoneDistances S hpd pt zone).map Prod.fst).countP p = (distances S pt (allPoints hpd)).countP p := by
  rw [zoneDistances_eq, List.map_map, List.countP_map, distances, List.countP_map, countP_zone hpd hw.keys hz]
  have gen : ∀ t : Filed P ι, (∀ x ∈ t, x ∈ hpd) →
      ((t.filter (fun x => decide (x.1 ∈ zone))).flatMap Prod.snd).countP (p ∘ S.dist pt) = (allPoints t).countP (p ∘ S.dist pt) := by
    intro t
    induction t with
    | nil => intro _; simp [allPoints]
    | cons x t ih =>
      intro ht
      have ih := ih (fun y hy => ht y (by simp [hy]))
      have e : allPoints (x :: t) = x.2 ++ allPoints t := by simp [allPoints]
      rw [e, List.countP_append, ← ih]
      by_cases hx : x.1 ∈ zone
      · rw [List.filter_cons_of_pos (by simpa using hx), List.flatMap_cons, List.countP_append]
      · rw [List.filter_cons_of_neg (by simpa using hx)]
        have : x.2.countP (p ∘ S.dist pt) = 0 := by
          rw [List.countP_eq_zero]
          intro e he hp
          apply hx
          rw [← hw.own x (ht x (by simp)) e he]
          exact hall e (List.mem_flatMap.2 ⟨x, ht x (by simp), he⟩) hp
        rw [this, Nat.zero_add]
  exact gen hpd (fun _ h => h)

theorem mem_zone {S : Sphere P ι} {hpd : Filed P ι} {pt : P} {zone : List ι} {x : ℝ × P} (h : x ∈ zoneDistances S hpd pt zone) :
    x.2 ∈ allPoints hpd ∧ x.1 = S.dist pt x.2 := by
  rw [zoneDistances_eq, List.mem_map] at h
  obtain ⟨e, he, rfl⟩ := h
  rw [List.mem_flatMap] at he
  obtain ⟨id, _, he⟩ := he
  cases hg : dictGet hpd id with
  | none => rw [hg] at he; simp at he
  | some l =>
    rw [hg] at he
    obtain ⟨a, b, h1, _⟩ := dict_split hg
    exact ⟨List.mem_flatMap.2 ⟨(id, l), by rw [h1]; simp, he⟩, rfl⟩

theorem widen_nodup {S : Sphere P ι} {hpd : Filed P ι} {k : ℕ} (fuel : ℕ) : ∀ {loc outer r : List ι}, (loc ++ outer).Nodup →
    widen S hpd k fuel loc outer = some r → r.Nodup := by
  induction fuel with
  | zero => intro loc outer r _ h; simp [widen] at h
  | succ fuel ih =>
    intro loc outer r hn h
    rw [widen] at h
    split at h
    · rw [← Option.some.inj h]; exact hn
    · refine ih ?_ h
      rw [List.nodup_append]
      refine ⟨hn, (List.nodup_dedup _).filter _, ?_⟩
      intro a ha b hb
      rw [List.mem_filter] at hb
      rintro rfl
      simp only [decide_eq_true_eq] at hb
      exact hb.2 ha

theorem getKth_spec {S : Sphere P ι} {hpd : Filed P ι} {k : ℕ} {pt : P} {zone : List ι} {x : ℝ × P}
    (h : getKth S hpd k pt zone = .ok x) : IsKth k ((zoneDistances S hpd pt zone).map Prod.fst) x.1 ∧
      x.2 ∈ allPoints hpd ∧ x.1 = S.dist pt x.2 := by
  rw [getKth] at h
  split at h
  · rename_i y hy
    have : y = x := by injection h
    subst this
    have := sorted_kth hy
    exact ⟨this.1, mem_zone this.2⟩
  · cases h

/-- the search for one crater gives the crater at the distance with index `k` among all distances -/
theorem kth_exact {S : Sphere P ι} (hcone : ∀ p q r, S.dist p q ≤ r → S.cell q ∈ S.cone p r) (hnd : ∀ p r, (S.cone p r).Nodup)
    {hpd : Filed P ι} (hw : WellFiled S hpd) {k fuel : ℕ} {pt : P} {id : ι} {x : ℝ × P}
    (h : kthNeighbour S hpd k fuel pt id = some (.ok x)) :
    IsKth k (distances S pt (allPoints hpd)) x.1 ∧ x.2 ∈ allPoints hpd ∧ x.1 = S.dist pt x.2 := by
  rw [kthNeighbour, Option.map_eq_some_iff] at h
  obtain ⟨loc, hloc, h⟩ := h
  have hln := widen_nodup fuel (by simp) hloc
  split at h
  · cases h
  · rename_i d0 q0 h0
    have k0 := (getKth_spec h0).1
    obtain ⟨k1, hm, hd⟩ := getKth_spec h
    set z := S.cone pt d0 with hz
    -- there are more than k craters within d0, all of them in the cone
    have hall : ∀ p : ℝ → Bool, (∀ y, p y = true → y ≤ d0) → ((zoneDistances S hpd pt z).map Prod.fst).countP p =
        (distances S pt (allPoints hpd)).countP p := by
      intro p hp
      refine count_zone_eq hw (hnd pt d0) pt p ?_
      intro e _ he
      exact hcone pt e d0 (hp _ he)
    have hle : k < (distances S pt (allPoints hpd)).countP (fun y => decide (y ≤ d0)) :=
      lt_of_lt_of_le k0.above (count_zone_le hw hln pt _)
    have hx : x.1 ≤ d0 := by
      by_contra hlt
      push Not at hlt
      rw [← hall _ (by intro y hy; simpa using hy)] at hle
      have : ((zoneDistances S hpd pt z).map Prod.fst).countP (fun y => decide (y ≤ d0)) ≤
          ((zoneDistances S hpd pt z).map Prod.fst).countP (fun y => decide (y < x.1)) :=
        List.countP_mono_left (fun y _ hy => by simp at hy ⊢; linarith)
      have := k1.below
      omega
    refine ⟨⟨?_, ?_, ?_⟩, hm, hd⟩
    · rw [hd]; exact List.mem_map.2 ⟨_, hm, rfl⟩
    · rw [← hall _ (by intro y hy; simp at hy; linarith)]; exact k1.below
    · rw [← hall _ (by intro y hy; simp at hy; linarith)]; exact k1.above

theorem kthNeighbours_spec {S : Sphere P ι} {hpd : Filed P ι} {k fuel : ℕ} (Q : P → ℝ × P → Prop)
    (hq : ∀ pt id x, kthNeighbour S hpd k fuel pt id = some (.ok x) → Q pt x) (l : List (P × ι)) :
    ∀ {r}, kthNeighbours S hpd k fuel l = some (.ok r) → List.Forall₂ Q (l.map Prod.fst) r := by
  induction l with
  | nil =>
    intro r h
    rw [kthNeighbours] at h
    have : r = [] := by
      injection h with h; injection h with h; exact h.symm
    subst this
    exact .nil
  | cons y l ih =>
    obtain ⟨pt, id⟩ := y
    intro r h
    rw [kthNeighbours] at h
    split at h
    · cases h
    · cases h
    · rename_i x hx
      split at h
      · cases h
      · cases h
      · rename_i xs hxs
        injection h with h
        injection h with h
        rw [← h]
        exact .cons (hq pt id x hx) (ih hxs)

/-- **C52: the neighbour search is exact.** When the measure is found, the neighbour listed for each crater lies at the distance with
index `k` among its distances to all craters (index 0 is the crater itself), and the measure is the mean of these distances, whatever
the resolution of the grid and the neighbourhood of its cells.  Assumed of the cone search: it returns every cell holding a point
within its radius, once. -/
theorem C52_exact {S : Sphere P ι} (hcone : ∀ p q r, S.dist p q ≤ r → S.cell q ∈ S.cone p r) (hnd : ∀ p r, (S.cone p r).Nodup)
    {hpd : Filed P ι} (hkeys : (hpd.map Prod.fst).Nodup) (hown : ∀ x ∈ hpd, ∀ e ∈ x.2, S.cell e = x.1) {k fuel : ℕ}
    {pts : List P} {ids : List ι} (hlen : ids.length = pts.length) {m : ℝ} {nb : List P}
    (h : kthMeasure S hpd k fuel pts ids = some (.ok (m, nb))) :
    ∃ ds : List ℝ, m = ds.sum / ds.length ∧ List.Forall₂ (fun pt d => IsKth k (distances S pt (hpd.flatMap Prod.snd)) d) pts ds ∧
      List.Forall₂ (fun pt q => q ∈ hpd.flatMap Prod.snd ∧ IsKth k (distances S pt (hpd.flatMap Prod.snd)) (S.dist pt q)) pts nb := by
  rw [kthMeasure, Option.map_eq_some_iff] at h
  obtain ⟨r, hr, h⟩ := h
  cases r with
  | error e => cases h
  | ok l =>
    have hspec := kthNeighbours_spec (S := S) (hpd := hpd) (k := k) (fuel := fuel)
      (fun pt x => IsKth k (distances S pt (allPoints hpd)) x.1 ∧ x.2 ∈ allPoints hpd ∧ x.1 = S.dist pt x.2)
      (fun pt id x hx => kth_exact hcone hnd ⟨hkeys, hown⟩ hx) (pts.zip ids) hr
    rw [List.map_fst_zip (by omega)] at hspec
    change (meanOf (l.map Prod.fst) >>= fun m => Except.ok (m, l.map Prod.snd)) = _ at h
    rw [meanOf] at h
    split at h
    · cases h
    · change Except.ok (_, _) = _ at h
      injection h with h
      injection h with h1 h2
      refine ⟨l.map Prod.fst, h1.symm, ?_, ?_⟩
      · rw [List.forall₂_map_right_iff]
        exact hspec.imp (fun _ _ hx => hx.1)
      · rw [← h2, List.forall₂_map_right_iff]
        exact hspec.imp (fun pt x hx => ⟨hx.2.1, by rw [← hx.2.2]; exact hx.1⟩)

/-! the search ends -/

/-- Specification: cells within `j` steps of a cell. -/
inductive Within (adj : ι → ι → Prop) (id : ι) : ℕ → ι → Prop
  | here (j : ℕ) : Within adj id j id
  | step (j : ℕ) (b c : ι) : Within adj id j b → adj b c → Within adj id (j + 1) c

theorem locality_count {S : Sphere P ι} {hpd : Filed P ι} (hw : WellFiled S hpd) {loc : List ι} (hn : loc.Nodup) (pt : P)
    (hall : ∀ e ∈ allPoints hpd, S.cell e ∈ loc) :
    (loc.map (fun id => ((dictGet hpd id).getD []).length)).sum = (allPoints hpd).length := by
  have h := count_zone_eq hw hn pt (fun _ => true) (fun e he _ => hall e he)
  rw [List.countP_true, zoneDistances_eq, List.map_map, List.length_map, distances, List.length_map,
    List.length_flatMap] at h
  exact h

theorem widen_some {S : Sphere P ι} {hpd : Filed P ι} (hw : WellFiled S hpd) {k : ℕ} {adj : ι → ι → Prop}
    (hadj : ∀ l c, c ∈ S.neighbours l ↔ ∃ b ∈ l, adj b c) {id : ι} {J : ℕ} (hreach : ∀ e ∈ allPoints hpd, Within adj id J (S.cell e))
    (htot : k + 1 ≤ (allPoints hpd).length) (pt : P) (d : ℕ) : ∀ {j : ℕ} {loc outer : List ι}, j + d = J → (loc ++ outer).Nodup →
    (∀ c, Within adj id j c → c ∈ loc ++ outer) → (∀ b ∈ loc, ∀ c, adj b c → c ∈ loc ++ outer) →
    ∃ r, widen S hpd k (d + 1) loc outer = some r := by
  induction d with
  | zero =>
    intro j loc outer hj hn h1 _
    have : j = J := by omega
    subst this
    rw [widen]
    have := locality_count hw hn pt (fun e he => h1 _ (hreach e he))
    simp only [this]
    rw [if_pos htot]
    exact ⟨_, rfl⟩
  | succ d ih =>
    intro j loc outer hj hn h1 h2
    rw [widen]
    split
    · exact ⟨_, rfl⟩
    · have hn' : (loc ++ outer ++ (S.neighbours outer).dedup.filter (fun id => decide (id ∉ loc ++ outer))).Nodup := by
        rw [List.nodup_append]
        refine ⟨hn, (List.nodup_dedup _).filter _, ?_⟩
        intro a ha b hb
        rw [List.mem_filter] at hb
        rintro rfl
        simp only [decide_eq_true_eq] at hb
        exact hb.2 ha
      have h2' : ∀ b ∈ loc ++ outer, ∀ c, adj b c →
          c ∈ loc ++ outer ++ (S.neighbours outer).dedup.filter (fun id => decide (id ∉ loc ++ outer)) := by
        intro b hb c hbc
        by_cases hc : c ∈ loc ++ outer
        · exact List.mem_append_left _ hc
        · rcases List.mem_append.1 hb with hb | hb
          · exact absurd (h2 b hb c hbc) hc
          · refine List.mem_append_right _ (List.mem_filter.2 ⟨?_, by simpa using hc⟩)
            rw [List.mem_dedup, hadj]
            exact ⟨b, hb, hbc⟩
      refine ih (j := j + 1) (by omega) hn' ?_ h2'
      intro c hc
      cases hc with
      | here => exact List.mem_append_left _ (h1 _ (.here j))
      | step j b c hb hbc => exact h2' b (h1 b hb) c hbc

theorem getKth_ok {S : Sphere P ι} {hpd : Filed P ι} {k : ℕ} {pt : P} {zone : List ι} (h : k < (zoneDistances S hpd pt zone).length) :
    ∃ x, getKth S hpd k pt zone = .ok x := by
  rw [getKth]
  have hl : k < ((zoneDistances S hpd pt zone).insertionSort (fun a b => a.1 ≤ b.1)).length := by
    rw [List.length_insertionSort]; exact h
  rw [List.getElem?_eq_getElem hl]
  exact ⟨_, rfl⟩

/-- the search for one crater succeeds -/
theorem kth_found {S : Sphere P ι} (hcone : ∀ p q r, S.dist p q ≤ r → S.cell q ∈ S.cone p r) (hnd : ∀ p r, (S.cone p r).Nodup)
    {hpd : Filed P ι} (hw : WellFiled S hpd) {k : ℕ} {adj : ι → ι → Prop} (hadj : ∀ l c, c ∈ S.neighbours l ↔ ∃ b ∈ l, adj b c) {id : ι}
    {J : ℕ} (hreach : ∀ e ∈ allPoints hpd, Within adj id J (S.cell e)) (htot : k + 1 ≤ (allPoints hpd).length) (pt : P) :
    ∃ x, kthNeighbour S hpd k (J + 1) pt id = some (.ok x) := by
  obtain ⟨loc, hloc⟩ := widen_some hw hadj hreach htot pt J (j := 0) (loc := []) (outer := [id]) (by omega) (by simp)
    (by intro c hc; cases hc; simp) (by simp)
  have hln := widen_nodup (J + 1) (by simp) hloc
  have hlen : k < (zoneDistances S hpd pt loc).length := by
    have key : ∀ (fuel : ℕ) (loc outer r : List ι), widen S hpd k fuel loc outer = some r →
        k + 1 ≤ (r.map (fun id => ((dictGet hpd id).getD []).length)).sum := by
      intro fuel
      induction fuel with
      | zero => intro loc outer r h; simp [widen] at h
      | succ fuel ih =>
        intro loc outer r h
        rw [widen] at h
        split at h
        · rename_i hge
          rw [← Option.some.inj h]
          exact hge
        · exact ih _ _ r h
    have := key _ _ _ _ hloc
    rw [zoneDistances_eq, List.length_map, List.length_flatMap]
    omega
  obtain ⟨⟨d0, q0⟩, h0⟩ := getKth_ok (S := S) (hpd := hpd) (pt := pt) hlen
  have k0 := (getKth_spec h0).1
  have hcnt : k < (zoneDistances S hpd pt (S.cone pt d0)).length := by
    have h1 := count_zone_eq hw (hnd pt d0) pt (fun y => decide (y ≤ d0)) (fun e _ he => hcone pt e d0 (by simpa using he))
    have h2 := count_zone_le hw hln pt (fun y => decide (y ≤ d0))
    have h3 := k0.above
    have h4 := List.countP_le_length (p := fun y => decide (y ≤ d0)) (l := (zoneDistances S hpd pt (S.cone pt d0)).map Prod.fst)
    rw [List.length_map] at h4
    simp only at h3
    omega
  obtain ⟨x, hx⟩ := getKth_ok (S := S) (hpd := hpd) (pt := pt) hcnt
  refine ⟨x, ?_⟩
  rw [kthNeighbour, hloc, Option.map_some, h0]
  simp only
  rw [hx]

/-- **The search ends** when there are more than `k` craters and every cell with craters can be reached from every other by
neighbouring cells. -/
theorem C52_found {S : Sphere P ι} (hcone : ∀ p q r, S.dist p q ≤ r → S.cell q ∈ S.cone p r) (hnd : ∀ p r, (S.cone p r).Nodup)
    {hpd : Filed P ι} (hkeys : (hpd.map Prod.fst).Nodup) (hown : ∀ x ∈ hpd, ∀ e ∈ x.2, S.cell e = x.1) {k : ℕ}
    {adj : ι → ι → Prop} (hadj : ∀ l c, c ∈ S.neighbours l ↔ ∃ b ∈ l, adj b c) {J : ℕ} {pts : List P} {ids : List ι}
    (hne : pts ≠ []) (hlen : ids.length = pts.length)
    (hreach : ∀ id ∈ ids, ∀ e ∈ hpd.flatMap Prod.snd, Within adj id J (S.cell e)) (htot : k + 1 ≤ (hpd.flatMap Prod.snd).length) :
    ∃ m nb, kthMeasure S hpd k (J + 1) pts ids = some (.ok (m, nb)) := by
  have key : ∀ l : List (P × ι), (∀ y ∈ l, y.2 ∈ ids) → ∃ r : List (ℝ × P), kthNeighbours S hpd k (J + 1) l = some (.ok r) ∧ r.length = l.length := by
    intro l
    induction l with
    | nil => intro _; exact ⟨[], rfl, rfl⟩
    | cons y l ih =>
      intro h
      obtain ⟨pt, id⟩ := y
      obtain ⟨x, hx⟩ := kth_found hcone hnd ⟨hkeys, hown⟩ hadj (hreach id (h (pt, id) (by simp))) htot pt
      obtain ⟨r, hr, hl⟩ := ih (fun z hz => h z (by simp [hz]))
      refine ⟨x :: r, ?_, by simp [hl]⟩
      rw [kthNeighbours, hx]
      simp only
      rw [hr]
  obtain ⟨r, hr, hl⟩ := key (pts.zip ids) (fun y hy => (List.of_mem_zip (a := y.1) (b := y.2) hy).2)
  refine ⟨(r.map Prod.fst).sum / (r.map Prod.fst).length, r.map Prod.snd, ?_⟩
  have hrne : r.map Prod.fst ≠ [] := by
    intro e
    rw [List.map_eq_nil_iff] at e
    rw [e, List.length_zip, hlen, min_self] at hl
    exact hne (List.length_eq_zero_iff.1 hl.symm)
  rw [kthMeasure, hr, Option.map_some]
  show some (meanOf (r.map Prod.fst) >>= fun m => Except.ok (m, r.map Prod.snd)) = _
  rw [meanOf, if_neg hrne]
  rfl

/-- **The craters of a count** are filed each under its own cell, none lost. -/
theorem C52_filed (S : Sphere P ι) (pts : List P) : ((fileCraters S pts).flatMap Prod.snd).Perm pts ∧
    ((fileCraters S pts).map Prod.fst).Nodup ∧ ∀ x ∈ fileCraters S pts, ∀ e ∈ x.2, S.cell e = x.1 := by
  have key : ∀ (pts : List P) (d : Filed P ι), WellFiled S d → WellFiled S (pts.foldl (fun d pt => match dictGet d (S.cell pt) with
      | none => dictSet d (S.cell pt) [pt]
      | some l => dictSet d (S.cell pt) (l ++ [pt])) d) ∧ (allPoints (pts.foldl (fun d pt => match dictGet d (S.cell pt) with
      | none => dictSet d (S.cell pt) [pt]
      | some l => dictSet d (S.cell pt) (l ++ [pt])) d)).Perm (pts ++ allPoints d) := by
    intro pts
    induction pts with
    | nil => intro d hd; exact ⟨hd, List.Perm.refl _⟩
    | cons pt pts ih =>
      intro d hd
      obtain ⟨d', e, hw, hp⟩ := addPoint_spec hd pt 0
      have e' : (match dictGet d (S.cell pt) with
        | none => dictSet d (S.cell pt) [pt]
        | some l => dictSet d (S.cell pt) (l ++ [pt])) = d' := by
        rw [addPoint] at e
        cases hg : dictGet d (S.cell pt) with
        | none => rw [hg] at e; exact congrArg Prod.fst e
        | some l => rw [hg] at e; exact congrArg Prod.fst e
      rw [List.foldl_cons, e']
      obtain ⟨h1, h2⟩ := ih d' hw
      refine ⟨h1, h2.trans ?_⟩
      exact (List.Perm.append_left pts hp).trans List.perm_middle
  obtain ⟨h1, h2⟩ := key pts [] ⟨by simp, by simp⟩
  refine ⟨?_, h1.keys, h1.own⟩
  have : allPoints ([] : Filed P ι) = [] := rfl
  rw [this, List.append_nil] at h2
  exact h2

end

/-- second neighbours of three craters on a line: the hypotheses hold and the measure is found -/
example : ∃ m nb, kthMeasure lineSphere (fileCraters lineSphere [0, 5, 9]) 2 2 [0, 5, 9] [0, 5, 9] = some (.ok (m, nb)) ∧
    List.Forall₂ (fun pt q => q ∈ (fileCraters lineSphere [0, 5, 9]).flatMap Prod.snd ∧ IsKth 2 (distances lineSphere pt
      ((fileCraters lineSphere [0, 5, 9]).flatMap Prod.snd)) (lineSphere.dist pt q)) [0, 5, 9] nb := by
  have hc : ∀ p q r, lineSphere.dist p q ≤ r → lineSphere.cell q ∈ lineSphere.cone p r := by intro p q r _; simp [lineSphere]
  have hn : ∀ p r, (lineSphere.cone p r).Nodup := fun p r => List.nodup_finRange 10
  obtain ⟨f1, f2, f3⟩ := C52_filed lineSphere [0, 5, 9]
  obtain ⟨m, nb, h⟩ := C52_found hc hn f2 f3 (k := 2) (adj := fun _ _ => True) (J := 1) (pts := [0, 5, 9]) (ids := [0, 5, 9])
    (by
      intro l c
      simp only [lineSphere, List.mem_flatMap, List.mem_finRange, and_true])
    (by simp) rfl (fun id _ e _ => .step 0 id _ (.here 0) trivial) (by rw [f1.length_eq]; rfl)
  obtain ⟨ds, _, _, h3⟩ := C52_exact hc hn f2 f3 rfl h
  exact ⟨m, nb, h, h3⟩

end Verif.Props
