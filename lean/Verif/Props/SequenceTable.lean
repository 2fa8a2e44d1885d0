import Verif.Model.SequenceTable
import Verif.Props.Age

/-! C70: the table of sequence probabilities. -/

namespace Verif.Props
open Verif.Py Verif.Cratercount Verif.Chronology Verif.Production Verif.Craterpdf Verif.Age Verif.SequenceTable

/-- there is an expected number for each sample -/
theorem init_lam_length {pf : PFn} {c : Chron} {simpson : Simpson} {cc : Source} {lo hi : ℝ} {k : Option ℝ} {bcc : Bool} {n : ℕ} {p : Pdf}
    (h : Craterpdf.init pf c simpson cc lo hi k none bcc n = .ok p) : p.lam.length = n := by
  unfold Craterpdf.init at h
  obtain ⟨a0, _, h⟩ := except_bind_eq_ok h
  obtain ⟨ts, _, h⟩ := except_bind_eq_ok h
  obtain ⟨dt, _, h⟩ := except_bind_eq_ok h
  obtain ⟨mi, h1, h⟩ := except_bind_eq_ok h
  cases h1
  rw [if_pos rfl] at h
  obtain ⟨lam, h2, h⟩ := except_bind_eq_ok h
  have hl : lam.length = n := by
    unfold lams at h2
    split at h2
    · split at h2
      · cases h2
      · dsimp only at h2
        generalize linspace lo hi 500 = d at h2
        obtain ⟨f, _, h2⟩ := except_bind_eq_ok h2
        obtain ⟨l, _, h2⟩ := except_bind_eq_ok h2
        have h2 := Except.ok.inj h2
        rw [← h2, List.length_map, linspace_length]
    · obtain ⟨c0, _, h2⟩ := except_bind_eq_ok h2
      obtain ⟨c1, _, h2⟩ := except_bind_eq_ok h2
      obtain ⟨n0, _, h2⟩ := except_bind_eq_ok h2
      obtain ⟨n1, _, h2⟩ := except_bind_eq_ok h2
      injection h2 with h2
      rw [← h2, List.length_map, linspace_length]
  unfold finish at h
  obtain ⟨pm, _, h⟩ := except_bind_eq_ok h
  obtain ⟨ph, _, h⟩ := except_bind_eq_ok h
  obtain ⟨w, _, h⟩ := except_bind_eq_ok h
  dsimp only at h
  split at h
  · cases h
  · injection h with h
    rw [← h]
    exact hl

/-- **C70 is false, for every plot set**: the table of sequence probabilities is never produced: with fewer than two shown plots of
type `poisson` nothing is done, and otherwise an error occurs. -/
theorem C70_never_written_counterexample (pf : PFn) (c : Chron) (simpson : Simpson) (ref : ℝ) (plots : List Plot) (tab : Table) :
    create pf c simpson ref plots ≠ .ok (some tab) := by
  intro h
  unfold create at h
  dsimp only at h
  split at h
  · cases h
  rename_i hn
  obtain ⟨ages, h1, h⟩ := except_bind_eq_ok h
  obtain ⟨n0, h2, h⟩ := except_bind_eq_ok h
  obtain ⟨ratios, h3, h⟩ := except_bind_eq_ok h
  obtain ⟨pdf2, h4, h⟩ := except_bind_eq_ok h
  clear h
  have la := mapM_length h1
  have lr := mapM_length h3
  simp only [List.length_map] at lr
  cases hr : ratios with
  | nil => rw [hr] at lr; simp at lr; omega
  | cons r rs =>
  cases ha : ages with
  | nil => rw [ha] at la; simp at la; omega
  | cons a as =>
  cases hs : selected plots with
  | nil => rw [hs] at hn; simp at hn
  | cons p ps =>
  rw [hr, ha, hs, List.map_cons, List.zip_cons_cons, List.zip_cons_cons, List.mapM_cons] at h4
  obtain ⟨x, h5, _⟩ := except_bind_eq_ok h4
  rw [hs, ha, List.mapM_cons] at h1
  obtain ⟨a', h6, h7⟩ := except_bind_eq_ok h1
  obtain ⟨as', h8, h7⟩ := except_bind_eq_ok h7
  injection h7 with h7
  injection h7 with h7 _
  subst h7
  unfold poissonAge at h6
  obtain ⟨pdf, h9, h6⟩ := except_bind_eq_ok h6
  obtain ⟨a0, _, h6⟩ := except_bind_eq_ok h6
  obtain ⟨nd, _, h6⟩ := except_bind_eq_ok h6
  injection h6 with h6
  have hl : a'.pdf.lam.length = 5000 := by
    rw [← h6]
    exact init_lam_length h9
  obtain ⟨e, he⟩ := C70_forced_array_counterexample pf c simpson p.count p.range.1.toReal p.range.2.toReal (some a'.pdf.k)
    (a'.pdf.lam.map (fun l => l * r)) false 5000 (by rw [List.length_map, hl]; omega)
  rw [he] at h5
  cases h5

/-- with at least two shown plots of type `poisson` there is an error -/
theorem C70_error_counterexample (pf : PFn) (c : Chron) (simpson : Simpson) (ref : ℝ) (plots : List Plot)
    (h : 2 ≤ (plots.filter (fun p => decide (p.type = "poisson".toList) && !p.hide)).length) :
    ∃ e, create pf c simpson ref plots = .error e := by
  have hsub : (plots.filter (fun p => decide (p.type = "poisson".toList) && !p.hide)).length ≤ (selected plots).length := by
    apply List.Sublist.length_le
    apply List.monotone_filter_right
    intro p hp
    rw [Bool.and_eq_true, decide_eq_true_eq] at hp
    rw [Bool.and_eq_true, decide_eq_true_eq]
    exact ⟨by rw [hp.1]; simp, hp.2⟩
  cases hc : create pf c simpson ref plots with
  | error e => exact ⟨e, rfl⟩
  | ok r =>
    exfalso
    cases r with
    | some tab => exact C70_never_written_counterexample pf c simpson ref plots tab hc
    | none =>
      unfold create at hc
      dsimp only at hc
      rw [if_neg (by omega)] at hc
      obtain ⟨ages, _, hc⟩ := except_bind_eq_ok hc
      obtain ⟨n0, _, hc⟩ := except_bind_eq_ok hc
      obtain ⟨ratios, _, hc⟩ := except_bind_eq_ok hc
      obtain ⟨pdf2, _, hc⟩ := except_bind_eq_ok hc
      obtain ⟨w, _, hc⟩ := except_bind_eq_ok hc
      have := Except.ok.inj hc
      cases this

example (s : Source) (r : EReal × EReal) : 2 ≤ ([⟨"poisson".toList, false, "a".toList, s, r⟩, ⟨"data".toList, false, "a".toList, s, r⟩,
    ⟨"poisson".toList, false, "b".toList, s, r⟩].filter (fun p : Plot => decide (p.type = "poisson".toList) && !p.hide)).length := by
  simp

/-- buffered plots are not selected at all: their type is called `b-poisson` -/
theorem C70_buffered_ignored_counterexample (pf : PFn) (c : Chron) (simpson : Simpson) (ref : ℝ) (plots : List Plot)
    (h : ∀ p ∈ plots, p.type = "b-poisson".toList) : create pf c simpson ref plots = .ok none := by
  have : selected plots = [] := by
    rw [selected, List.filter_eq_nil_iff]
    intro p hp
    rw [h p hp]
    cases p.hide <;> decide
  unfold create
  rw [this]
  rfl

example (s : Source) (r : EReal × EReal) : ∀ p ∈ [(⟨"b-poisson".toList, false, "a".toList, s, r⟩ : Plot), ⟨"b-poisson".toList, false, "b".toList, s, r⟩],
    p.type = "b-poisson".toList := by
  intro p hp
  simp only [List.mem_cons, List.not_mem_nil, or_false] at hp
  rcases hp with rfl | rfl <;> rfl

end Verif.Props
