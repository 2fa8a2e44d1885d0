import Mathlib.Algebra.BigOperators.Group.List.Basic
import Mathlib.Algebra.Order.BigOperators.Group.List
import Mathlib.Data.Finset.Card
import Mathlib.Tactic.FieldSimp
import Mathlib.Tactic.Linarith
import Mathlib.Tactic.Positivity
import Verif.Model.Randomness

/-! Properties C53 (percentile), C54 (resuming) and C55 (worker processes). -/

namespace Verif.Props

open Verif.Py Verif.Rand

/-! ### C53 -/

/-- in a sorted list the values below come first -/
theorem searchSorted_sort (m : List ℝ) (v : ℝ) : searchSorted (m.insertionSort (· ≤ ·)) v = m.countP (fun x => decide (x < v)) := by
  rw [← (List.perm_insertionSort (· ≤ ·) m).countP_eq]
  have h : (m.insertionSort (· ≤ ·)).Pairwise (· ≤ ·) := List.pairwise_insertionSort _ _
  generalize m.insertionSort (· ≤ ·) = s at h
  rw [searchSorted]
  induction s with
  | nil => rfl
  | cons x s ih =>
    rw [List.pairwise_cons] at h
    by_cases hx : x < v
    · rw [List.takeWhile_cons_of_pos (by simpa using hx), List.countP_cons_of_pos (by simpa using hx), List.length_cons, ih h.2]
    · rw [List.takeWhile_cons_of_neg (by simpa using hx), List.countP_cons_of_neg (by simpa using hx)]
      symm
      rw [List.length_nil, List.countP_eq_zero]
      intro y hy
      have := h.1 y hy
      simp only [decide_eq_true_eq, not_lt]
      linarith

/-- Specification: the mean. -/
noncomputable def mean (m : List ℝ) : ℝ := m.sum / m.length

theorem randStats_ok {m : List ℝ} {m0 : ℝ} {s : RandStats} (h : randStats m m0 = .ok s) :
    m ≠ [] ∧ s.m0 = m0 ∧ s.mn = mean m ∧ s.sd = Real.sqrt (mean (m.map (fun x => (x - mean m) ^ 2))) ∧ s.sd ≠ 0 ∧
      s.nSigma = (m0 - s.mn) / s.sd ∧ s.percentile = (m.countP (fun x => decide (x < m0)) : ℝ) / m.length * 100 := by
  rw [randStats] at h
  by_cases hm : m = []
  · rw [meanOf, if_pos hm] at h; cases h
  · rw [meanOf, if_neg hm, stdOf, if_neg hm] at h
    change (if _ then Except.error Exc.nonFinite else Except.ok _) = _ at h
    split at h
    · cases h
    · rename_i hsd
      injection h with h
      subst h
      refine ⟨hm, rfl, rfl, ?_, hsd, rfl, ?_⟩
      · simp [mean]
      · simp only [searchSorted_sort]

/-- **C53: the percentile.** The statistics of a bin exist whenever the trials are not all equal; the mean and standard deviation are
those of the trials, `n_sigma` is the distance of the measure from the mean in standard deviations, and the percentile is 100 times
the fraction of trials with a strictly smaller measure, between 0 and 100. -/
theorem C53_stats {m : List ℝ} {m0 : ℝ} {s : RandStats} (h : randStats m m0 = .ok s) :
    s.mn = mean m ∧ s.sd = Real.sqrt (mean (m.map (fun x => (x - mean m) ^ 2))) ∧ s.nSigma * s.sd = m0 - mean m ∧
      s.percentile = 100 * ((m.countP (fun x => decide (x < m0)) : ℝ) / m.length) ∧ 0 ≤ s.percentile ∧ s.percentile ≤ 100 := by
  obtain ⟨hm, _, h1, h2, h3, h4, h5⟩ := randStats_ok h
  have hpos : (0 : ℝ) < m.length := by
    have : 0 < m.length := List.length_pos_iff.2 hm
    exact_mod_cast this
  have hle : (m.countP (fun x => decide (x < m0)) : ℝ) ≤ m.length := by exact_mod_cast List.countP_le_length
  have hfrac : (m.countP (fun x => decide (x < m0)) : ℝ) / m.length ≤ 1 := by rw [div_le_one hpos]; exact hle
  refine ⟨h1, h2, ?_, by rw [h5]; ring, ?_, ?_⟩
  · rw [h4, h1]; field_simp
  · rw [h5]; positivity
  · rw [h5]; linarith

/-- the statistics exist exactly when two trials differ -/
theorem C53_exists (m : List ℝ) (m0 : ℝ) : (∃ s, randStats m m0 = .ok s) ↔ ∃ x ∈ m, ∃ y ∈ m, x ≠ y := by
  have key : ∀ m : List ℝ, m ≠ [] → (Real.sqrt ((m.map (fun x => (x - m.sum / m.length) ^ 2)).sum / m.length) = 0 ↔
      ∀ x ∈ m, x = m.sum / m.length) := by
    intro m hm
    have hpos : (0 : ℝ) < m.length := by
      have : 0 < m.length := List.length_pos_iff.2 hm
      exact_mod_cast this
    generalize m.sum / m.length = c
    have hnn : 0 ≤ (m.map (fun x => (x - c) ^ 2)).sum := List.sum_nonneg (by
      intro y hy
      obtain ⟨x, _, rfl⟩ := List.mem_map.1 hy
      positivity)
    rw [Real.sqrt_eq_zero (by positivity), div_eq_zero_iff, or_iff_left hpos.ne']
    clear hm hpos hnn
    induction m with
    | nil => simp
    | cons x t ih =>
      rw [List.map_cons, List.sum_cons]
      have hnn : 0 ≤ (t.map (fun x => (x - c) ^ 2)).sum := List.sum_nonneg (by
        intro y hy
        obtain ⟨x, _, rfl⟩ := List.mem_map.1 hy
        positivity)
      constructor
      · intro h
        have h1 : (x - c) ^ 2 = 0 := by nlinarith [sq_nonneg (x - c)]
        have h2 : (t.map (fun x => (x - c) ^ 2)).sum = 0 := by nlinarith [sq_nonneg (x - c)]
        intro y hy
        rcases List.mem_cons.1 hy with rfl | hy
        · have := pow_eq_zero_iff (two_ne_zero) |>.1 h1
          linarith
        · exact ih.1 h2 y hy
      · intro h
        have hx := h x (by simp)
        rw [ih.2 (fun y hy => h y (by simp [hy])), hx]
        simp
  constructor
  · rintro ⟨s, hs⟩
    obtain ⟨hm, _, h1, h2, h3, _⟩ := randStats_ok hs
    by_contra hno
    push Not at hno
    apply h3
    rw [h2]
    have hall : ∀ x ∈ m, x = m.sum / m.length := by
      obtain ⟨x0, hx0⟩ := List.exists_mem_of_ne_nil m hm
      have hsum : m.sum = m.length * x0 := by
        have : m = List.replicate m.length x0 := List.eq_replicate_iff.2 ⟨rfl, fun y hy => hno y hy x0 hx0⟩
        conv_lhs => rw [this]
        rw [List.sum_replicate, nsmul_eq_mul]
      have hpos : (m.length : ℝ) ≠ 0 := by
        have : m.length ≠ 0 := fun e => hm (List.length_eq_zero_iff.1 e)
        exact_mod_cast this
      intro x hx
      rw [hsum, mul_div_cancel_left₀ _ hpos]
      exact hno x hx x0 hx0
    have := (key m hm).2 hall
    simpa [mean] using this
  · rintro ⟨x, hx, y, hy, hxy⟩
    have hm : m ≠ [] := by rintro rfl; simp at hx
    have e : randStats m m0 = if Real.sqrt ((m.map (fun x => (x - m.sum / m.length) ^ 2)).sum / m.length) = 0 then .error .nonFinite
        else .ok ⟨m0, m.sum / m.length, Real.sqrt ((m.map (fun x => (x - m.sum / m.length) ^ 2)).sum / m.length), (m0 - m.sum / m.length) /
          Real.sqrt ((m.map (fun x => (x - m.sum / m.length) ^ 2)).sum / m.length),
          (searchSorted (m.insertionSort (· ≤ ·)) m0 : ℝ) / m.length * 100⟩ := by
      rw [randStats, meanOf, if_neg hm, stdOf, if_neg hm]
      rfl
    rw [e, if_neg]
    · exact ⟨_, rfl⟩
    · intro h0
      have := (key m hm).1 h0
      exact hxy (by rw [this x hx, this y hy])

theorem sum_perm {l l' : List ℝ} (h : l.Perm l') : l.sum = l'.sum := h.sum_eq

/-- **Independent of the order of the trials.** -/
theorem C53_order {m m' : List ℝ} (h : m.Perm m') (m0 : ℝ) : randStats m m0 = randStats m' m0 := by
  have e : m = [] ↔ m' = [] := by
    constructor
    · rintro rfl; exact List.nil_perm.1 h
    · rintro rfl; exact List.perm_nil.1 h
  have hmean : meanOf m = meanOf m' := by
    by_cases hm : m = []
    · rw [meanOf, meanOf, if_pos hm, if_pos (e.1 hm)]
    · rw [meanOf, meanOf, if_neg hm, if_neg (fun x => hm (e.2 x)), h.sum_eq, h.length_eq]
  have hstd : stdOf m = stdOf m' := by
    by_cases hm : m = []
    · rw [stdOf, stdOf, if_pos hm, if_pos (e.1 hm)]
    · rw [stdOf, stdOf, if_neg hm, if_neg (fun x => hm (e.2 x)), h.sum_eq, h.length_eq, (h.map _).sum_eq]
  rw [randStats, randStats, hmean, hstd]
  simp only [searchSorted_sort, h.countP_eq, h.length_eq]

/-- **Monotone in the measure.** -/
theorem C53_monotone {m : List ℝ} {a b : ℝ} (hab : a ≤ b) {s t : RandStats} (hs : randStats m a = .ok s) (ht : randStats m b = .ok t) :
    s.percentile ≤ t.percentile := by
  obtain ⟨_, _, _, _, _, _, h1⟩ := randStats_ok hs
  obtain ⟨_, _, _, _, _, _, h2⟩ := randStats_ok ht
  rw [h1, h2]
  have : (m.countP (fun x => decide (x < a)) : ℝ) ≤ m.countP (fun x => decide (x < b)) := by
    exact_mod_cast List.countP_mono_left (fun x _ hx => by simp at hx ⊢; linarith)
  gcongr

/-- four trials of which three are smaller -/
example : ∃ s, randStats [3, 1, 5, 2] 4 = .ok s ∧ s.percentile = 75 := by
  obtain ⟨s, hs⟩ := (C53_exists [3, 1, 5, 2] 4).2 ⟨3, by simp, 1, by simp, by norm_num⟩
  refine ⟨s, hs, ?_⟩
  rw [(C53_stats hs).2.2.2.1]
  norm_num [List.countP_cons]

/-! ### C55 -/

/-- Specification: trial number `j` of a stream: the result after `j` trials from a state. -/
def streamAt {σ ρ : Type} (trial : σ → ρ × σ) (s : σ) (j : ℕ) : ρ := (trial ((fun s => (trial s).2)^[j] s)).1

/-- Specification: for each trial, how many earlier ones its worker has done. -/
def rank (assign : List ℕ) (i : ℕ) : ℕ := (assign.take i).count (assign.getD i 0)

theorem runPool_length {σ ρ : Type} (trial : σ → ρ × σ) (assign : List ℕ) : ∀ state, (runPool trial state assign).length = assign.length := by
  induction assign with
  | nil => intro _; rfl
  | cons w ws ih => intro state; rw [runPool, List.length_cons, ih, List.length_cons]

/-- **C55 (partial): what the pool computes.** Results come in the order of submission, one for each trial, and trial `i` is the trial
of its worker's own stream with the number of trials this worker did before. -/
theorem C55_streams_partial {σ ρ : Type} (trial : σ → ρ × σ) (assign : List ℕ) : ∀ (state : ℕ → σ) (i : ℕ) (hi : i < assign.length),
    (runPool trial state assign)[i]'(by rw [runPool_length]; exact hi) = streamAt trial (state (assign.getD i 0)) (rank assign i) := by
  induction assign with
  | nil => intro state i hi; simp at hi
  | cons w ws ih =>
    intro state i hi
    cases i with
    | zero => simp [runPool, rank, streamAt]
    | succ i =>
      have hi' : i < ws.length := by simpa using hi
      have e : (runPool trial state (w :: ws))[i + 1]'(by rw [runPool_length]; exact hi) =
          (runPool trial (Function.update state w (trial (state w)).2) ws)[i]'(by rw [runPool_length]; exact hi') := rfl
      rw [e, ih _ i hi']
      have hg : (w :: ws).getD (i + 1) 0 = ws.getD i 0 := rfl
      have hr : rank (w :: ws) (i + 1) = rank ws i + if w = ws.getD i 0 then 1 else 0 := by
        rw [rank, hg, List.take_succ_cons, List.count_cons, rank]
        simp only [beq_iff_eq]
      rw [hg, hr]
      by_cases h : w = ws.getD i 0
      · rw [if_pos h, ← h, Function.update_self]
        rw [streamAt, streamAt, Function.iterate_succ_apply]
      · rw [if_neg h, Function.update_of_ne (fun e => h e.symm), Nat.add_zero]

theorem runSerial_stream {σ ρ : Type} (trial : σ → ρ × σ) (n : ℕ) : ∀ s, runSerial trial s n = (List.range n).map (streamAt trial s) := by
  induction n with
  | zero => intro s; rfl
  | succ n ih =>
    intro s
    rw [runSerial, ih, List.range_succ_eq_map, List.map_cons, List.map_map]
    congr 1

/-- **One worker**: the results are those of the serial version. -/
theorem C55_one_worker {σ ρ : Type} (trial : σ → ρ × σ) (s : σ) (n : ℕ) :
    runPool trial (fun _ => s) (List.replicate n 0) = runSerial trial s n := by
  rw [runSerial_stream]
  apply List.ext_getElem
  · rw [runPool_length]; simp
  · intro i h1 h2
    rw [C55_streams_partial _ _ _ _ (by simpa using h2)]
    have hi : i < n := by simpa using h2
    have hr : rank (List.replicate n 0) i = i := by
      rw [rank, List.getD_eq_getElem?_getD, List.getElem?_replicate, if_pos hi, List.take_replicate]
      simp
      omega
    rw [hr]
    simp

/-- **C55 is false**: processes created by fork all start with the state of the random number generator of the main process, seeded
before.  Two trials which are each the first of their worker then give the same result — for every measure, every seed. -/
theorem C55_repeated_counterexample {σ ρ : Type} (trial : σ → ρ × σ) (s : σ) (assign : List ℕ) (i j : ℕ) (hi : i < assign.length)
    (hj : j < assign.length) (hr : rank assign i = rank assign j) :
    (runPool trial (fun _ => s) assign)[i]'(by rw [runPool_length]; exact hi) =
      (runPool trial (fun _ => s) assign)[j]'(by rw [runPool_length]; exact hj) := by
  rw [C55_streams_partial _ _ _ _ hi, C55_streams_partial _ _ _ _ hj, hr]

/-- **and there are no more different results than the busiest worker has trials**: with trials spread evenly over `w` workers, only
one in `w` is new. -/
theorem C55_distinct_counterexample {σ ρ : Type} [DecidableEq ρ] (trial : σ → ρ × σ) (s : σ) (assign : List ℕ) (c : ℕ)
    (hc : ∀ w, assign.count w ≤ c) : (runPool trial (fun _ => s) assign).toFinset.card ≤ c := by
  have hsub : (runPool trial (fun _ => s) assign).toFinset ⊆ (Finset.range c).image (streamAt trial s) := by
    intro x hx
    rw [List.mem_toFinset, List.mem_iff_getElem] at hx
    obtain ⟨i, hi, rfl⟩ := hx
    have hi' : i < assign.length := by rwa [runPool_length] at hi
    rw [C55_streams_partial _ _ _ _ hi', Finset.mem_image]
    refine ⟨rank assign i, ?_, rfl⟩
    rw [Finset.mem_range]
    refine lt_of_lt_of_le ?_ (hc (assign.getD i 0))
    rw [rank]
    generalize hw : assign.getD i 0 = w
    have hd : 0 < (assign.drop i).count w := by
      rw [List.count_pos_iff, List.drop_eq_getElem_cons hi', ← hw, List.getD_eq_getElem?_getD, List.getElem?_eq_getElem hi']
      exact List.mem_cons_self
    have he : assign.count w = (assign.take i).count w + (assign.drop i).count w := by
      conv_lhs => rw [← List.take_append_drop i assign]
      rw [List.count_append]
    omega
  calc (runPool trial (fun _ => s) assign).toFinset.card ≤ ((Finset.range c).image (streamAt trial s)).card := Finset.card_le_card hsub
    _ ≤ (Finset.range c).card := Finset.card_image_le
    _ = c := Finset.card_range c

/-- **and the results depend on the assignment of trials to workers**, for every trial which does not always give the same result. -/
theorem C55_schedule_counterexample {σ ρ : Type} (trial : σ → ρ × σ) (s : σ) (h : (trial (trial s).2).1 ≠ (trial s).1) :
    runPool trial (fun _ => s) [0, 1] ≠ runPool trial (fun _ => s) [0, 0] := by
  intro e
  simp only [runPool, Function.update_self, List.cons.injEq, and_true, true_and] at e
  rw [Function.update_of_ne (by decide)] at e
  exact h e.symm

/-- a generator counting up: six trials of three workers give two different results instead of six -/
example : runPool (fun s : ℕ => (s, s + 1)) (fun _ => 42) [0, 1, 2, 0, 1, 2] = [42, 42, 42, 43, 43, 43] ∧
    runSerial (fun s : ℕ => (s, s + 1)) 42 6 = [42, 43, 44, 45, 46, 47] := by decide

/-! ### C54 -/

section

variable {M D : Type} [DecidableEq M]

/-- the results hold nothing but computed data -/
def Genuine (compute : M → ℕ → D) (mem : Results M D) : Prop := ∀ m n d, dictGet mem m = some (n, d) → d = compute m n

/-- at least this many trials of a measure are there -/
def Has (mem : Results M D) (m : M) (t : ℕ) : Prop := ∃ n d, dictGet mem m = some (n, d) ∧ t ≤ n

theorem needs_iff (mem : Results M D) (t : ℕ) (m : M) : needs mem t m = false ↔ Has mem m t := by
  rw [needs, Has]
  cases h : dictGet mem m with
  | none => simp
  | some x => obtain ⟨n, d⟩ := x; simp

theorem step_has (compute : M → ℕ → D) (t : ℕ) (mem : Results M D) (m : M) : Has (measureStep compute t mem m) m t := by
  rw [measureStep]
  cases h : needs mem t m with
  | true => rw [if_pos rfl]; exact ⟨t, compute m t, by rw [dictGet_set, if_pos rfl], le_rfl⟩
  | false => rw [if_neg (by simp)]; exact (needs_iff mem t m).1 h

theorem step_keeps (compute : M → ℕ → D) (t : ℕ) (mem : Results M D) (m : M) {j : M} {n : ℕ} (h : Has mem j n) :
    Has (measureStep compute t mem m) j n := by
  rw [measureStep]
  cases hn : needs mem t m with
  | false => rw [if_neg (by simp)]; exact h
  | true =>
    rw [if_pos rfl]
    by_cases hj : j = m
    · subst hj
      refine ⟨t, compute j t, by rw [dictGet_set, if_pos rfl], ?_⟩
      by_contra hlt
      have : Has mem j t := by
        obtain ⟨k, d, h1, h2⟩ := h
        exact ⟨k, d, h1, by omega⟩
      rw [← needs_iff, hn] at this
      cases this
    · obtain ⟨k, d, h1, h2⟩ := h
      exact ⟨k, d, by rw [dictGet_set, if_neg hj]; exact h1, h2⟩

theorem step_genuine (compute : M → ℕ → D) (t : ℕ) (mem : Results M D) (m : M) (h : Genuine compute mem) :
    Genuine compute (measureStep compute t mem m) := by
  rw [measureStep]
  split
  · intro j n d hj
    rw [dictGet_set] at hj
    split at hj
    · rename_i e
      subst e
      simp only [Option.some.injEq, Prod.mk.injEq] at hj
      rw [← hj.2, hj.1]
    · exact h j n d hj
  · exact h

theorem session_spec (compute : M → ℕ → D) (t : ℕ) (ms : List M) : ∀ mem : Results M D,
    (∀ m ∈ ms, Has (session compute t ms mem).1 m t) ∧ (∀ j n, Has mem j n → Has (session compute t ms mem).1 j n) ∧
    (Genuine compute mem → Genuine compute (session compute t ms mem).1) ∧
    (∀ m ∈ (session compute t ms mem).2, m ∈ ms ∧ ¬ Has mem m t) ∧ (session compute t ms mem).2.Nodup := by
  induction ms with
  | nil => intro mem; simp [session]
  | cons m ms ih =>
    intro mem
    obtain ⟨h1, h2, h3, h4, h5⟩ := ih (measureStep compute t mem m)
    refine ⟨?_, ?_, ?_, ?_, ?_⟩
    · intro j hj
      rcases List.mem_cons.1 hj with rfl | hj
      · exact h2 j t (step_has compute t mem j)
      · exact h1 j hj
    · intro j n hj
      exact h2 j n (step_keeps compute t mem m hj)
    · intro hg
      exact h3 (step_genuine compute t mem m hg)
    · intro j hj
      simp only [session] at hj
      have hrest : j ∈ (session compute t ms (measureStep compute t mem m)).2 → j ∈ m :: ms ∧ ¬ Has mem j t := by
        intro hj
        refine ⟨List.mem_cons_of_mem _ (h4 j hj).1, fun hh => (h4 j hj).2 (step_keeps compute t mem m hh)⟩
      cases hn : needs mem t m with
      | true =>
        rw [hn, if_pos rfl] at hj
        rcases List.mem_cons.1 hj with rfl | hj
        · refine ⟨by simp, fun hh => ?_⟩
          rw [← needs_iff, hn] at hh
          cases hh
        · exact hrest hj
      | false =>
        rw [hn, if_neg (by simp)] at hj
        exact hrest hj
    · simp only [session]
      cases hn : needs mem t m with
      | true =>
        rw [if_pos rfl, List.nodup_cons]
        exact ⟨fun hm => (h4 m hm).2 (step_has compute t mem m), h5⟩
      | false => rw [if_neg (by simp)]; exact h5

theorem sessions_spec (compute : M → ℕ → D) (runs : List (ℕ × List M)) : ∀ mem : Results M D,
    (∀ r ∈ runs, ∀ m ∈ r.2, Has (sessions compute runs mem).1 m r.1) ∧
    (∀ j n, Has mem j n → Has (sessions compute runs mem).1 j n) ∧
    (Genuine compute mem → Genuine compute (sessions compute runs mem).1) := by
  induction runs with
  | nil => intro mem; simp [sessions]
  | cons r runs ih =>
    obtain ⟨t, ms⟩ := r
    intro mem
    obtain ⟨a1, a2, a3, _, _⟩ := session_spec compute t ms mem
    obtain ⟨b1, b2, b3⟩ := ih (session compute t ms mem).1
    refine ⟨?_, ?_, ?_⟩
    · intro r hr m hm
      rcases List.mem_cons.1 hr with rfl | hr
      · exact b2 m t (a1 m hm)
      · exact b1 r hr m hm
    · intro j n hj; exact b2 j n (a2 j n hj)
    · intro hg; exact b3 (a3 hg)

/-- **C54 (partial): resuming.** A sequence of runs, each with its own number of trials and each stopped after any of its measures
(`runs` lists what was completed), continuing from the results written before: every completed measure has afterwards at least the
number of trials of each run which completed it; results with more trials are never replaced by results with fewer; and all results
are as computed.  Missing: a run stopped while the file is being written (see `C54_write_counterexample`). -/
theorem C54_resume_partial (compute : M → ℕ → D) (runs : List (ℕ × List M)) :
    let mem := (sessions compute runs []).1
    (∀ r ∈ runs, ∀ m ∈ r.2, ∃ n d, dictGet mem m = some (n, d) ∧ r.1 ≤ n ∧ d = compute m n) ∧
    ∀ before after, runs = before ++ after → ∀ m n d, dictGet (sessions compute before []).1 m = some (n, d) →
      ∃ n' d', dictGet mem m = some (n', d') ∧ n ≤ n' := by
  intro mem
  obtain ⟨h1, h2, h3⟩ := sessions_spec compute runs []
  have hg : Genuine compute mem := h3 (by intro m n d h; simp [dictGet] at h)
  refine ⟨?_, ?_⟩
  · intro r hr m hm
    obtain ⟨n, d, e, hle⟩ := h1 r hr m hm
    exact ⟨n, d, e, hle, hg m n d e⟩
  · intro before after e m n d hb
    have hsplit : ∀ (b a : List (ℕ × List M)) (mem : Results M D),
        (sessions compute (b ++ a) mem).1 = (sessions compute a (sessions compute b mem).1).1 := by
      intro b
      induction b with
      | nil => intro a mem; rfl
      | cons r b ih => intro a mem; obtain ⟨t, ms⟩ := r; simp only [List.cons_append, sessions]; exact ih a _
    obtain ⟨n', d', e', hle⟩ := (sessions_spec compute after (sessions compute before []).1).2.1 m n ⟨n, d, hb, le_rfl⟩
    refine ⟨n', d', ?_, hle⟩
    show dictGet (sessions compute runs []).1 m = _
    rw [e, hsplit]
    exact e'

/-- **and nothing is computed twice**: over any number of restarts with the same number of trials, each measure is computed at most
once. -/
theorem C54_once (compute : M → ℕ → D) (t : ℕ) (runs : List (List M)) :
    (sessions compute (runs.map (fun ms => (t, ms))) []).2.Nodup := by
  have key : ∀ (runs : List (List M)) (mem : Results M D), (sessions compute (runs.map (fun ms => (t, ms))) mem).2.Nodup ∧
      ∀ m ∈ (sessions compute (runs.map (fun ms => (t, ms))) mem).2, ¬ Has mem m t := by
    intro runs
    induction runs with
    | nil => intro mem; simp [sessions]
    | cons ms runs ih =>
      intro mem
      obtain ⟨a1, a2, _, a4, a5⟩ := session_spec compute t ms mem
      obtain ⟨b1, b2⟩ := ih (session compute t ms mem).1
      simp only [List.map_cons, sessions]
      refine ⟨?_, ?_⟩
      · rw [List.nodup_append]
        refine ⟨a5, b1, ?_⟩
        intro x hx y hy
        rintro rfl
        exact b2 x hy (a1 x (a4 x hx).1)
      · intro m hm
        rcases List.mem_append.1 hm with hm | hm
        · exact (a4 m hm).2
        · exact fun hh => b2 m hm (a2 m t hh)
  exact (key runs []).1

end

/-- two measures, stopped after the first and begun again with more trials -/
example : sessions (fun m t => (m, t)) [(300, ["m2cnd"]), (300, ["m2cnd", "sdaa"]), (100, ["sdaa"]), (1000, ["sdaa"])] [] =
    ([("m2cnd", 300, ("m2cnd", 300)), ("sdaa", 1000, ("sdaa", 1000))], ["m2cnd", "sdaa", "sdaa"]) := by decide +kernel

end Verif.Props
