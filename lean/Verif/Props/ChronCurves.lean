import Verif.Model.ChronCurves
import Verif.Props.Chronology
import Verif.Props.Production

/-! C118: the curves on chronology and rate plots. -/

namespace Verif.Props
open Verif.Py Verif.Cratercount Verif.Chronology Verif.Production Verif.ChronCurves

/-- Specification: a production function made from a polynomial, or from a table with an entry for 1 km. -/
def MadeFrom (f : PFn) : Prop := (∃ a r, a ≠ [] ∧ f = initPoly a r) ∨ ∃ h, ∃ idx : ℕ, idx < h.length ∧ initTab h idx = .ok f

theorem MadeFrom.constructed {f : PFn} (h : MadeFrom f) : Constructed f := by
  rcases h with ⟨a, r, _, h⟩ | ⟨h, idx, _, hf⟩
  · exact Or.inl ⟨a, r, h⟩
  · exact Or.inr ⟨h, idx, hf⟩

theorem MadeFrom.at_1km {f : PFn} (h : MadeFrom f) (a0 : ℝ) : f.C 1 a0 = .ok ((10 : ℝ) ^ a0) :=
  C16_at_1km f (by
    rcases h with ⟨a, r, _, h⟩ | h
    · exact Or.inl ⟨a, r, h⟩
    · exact Or.inr h) a0

theorem MadeFrom.default {f : PFn} (h : MadeFrom f) : ∃ a, f.defaultA0 = .ok a := by
  rcases h with ⟨a, r, ha, rfl⟩ | ⟨h, idx, _, hf⟩
  · cases a with
    | nil => exact absurd rfl ha
    | cons x a => exact ⟨x, rfl⟩
  · obtain ⟨_, _, v, r, _, rfl⟩ := initTab_ok hf
    exact ⟨0, rfl⟩

/-- the density of craters above any diameter is defined and positive -/
theorem MadeFrom.C_ok {f : PFn} (h : MadeFrom f) {d : ℝ} (hd : 0 < d) (a : ℝ) : ∃ y, f.C d a = .ok y := by
  rcases h with ⟨p, r, _, rfl⟩ | ⟨h, idx, _, hf⟩
  · simp only [initPoly, PFn.C, polyC, log10E_pos hd, except_ok_bind]
    exact ⟨_, rfl⟩
  · obtain ⟨_, _, v, r, _, rfl⟩ := initTab_ok hf
    simp only [PFn.C, log10E_pos hd, except_ok_bind]
    exact ⟨_, rfl⟩

/-- the ratio takes the density above 1 km to that above the reference diameter, whatever the age -/
theorem ratio_spec {f : PFn} (h : MadeFrom f) {ref : ℝ} (hd : 0 < ref) :
    ∃ r, refRatio (some f) ref = .ok r ∧ ∀ n, 0 < n → f.C ref (log10 n) = .ok (n * r) := by
  obtain ⟨a, ha⟩ := h.default
  obtain ⟨y, hy⟩ := h.C_ok hd a
  have h10 : (0 : ℝ) < (10 : ℝ) ^ a := Real.rpow_pos_of_pos (by norm_num) a
  refine ⟨y / (10 : ℝ) ^ a, ?_, ?_⟩
  · simp only [refRatio, PFn.evaluate, ha, except_ok_bind, hy, h.at_1km]
    rw [if_neg h10.ne']
  · intro n hn
    have := (C16_scaling f h.constructed ref a (log10 n - a) y).1 hy
    rw [add_sub_cancel] at this
    rw [this, Real.rpow_sub (by norm_num), pow10_log10 hn]
    congr 1
    ring

/-- **C118: the curves of a chronology plot.**  On a chronology plot for the reference diameter `ref` there is a curve over the ages
0…5 whose value at each age is the density of craters larger than `ref` that the production function gives when its density above 1 km
is that of the chronology function; if `ref` is not 1 km it is labelled with the diameter and the curve for 1 km is there as well. -/
theorem C118_chronology (g : ℝ → List Char) (p : List ℝ) (cf : Chron) (hc : Chronology.init p = .ok cf) (f : PFn) (hf : MadeFrom f)
    (ref : ℝ) (hd : 0 < ref) :
    ∃ c rest, curves g cf (some f) false ref = .ok (c :: rest) ∧ c.t.length = 1000 ∧ c.y.length = 1000 ∧ c.t.Pairwise (· < ·) ∧
      c.t[0]? = some 0 ∧ c.t[999]? = some 5 ∧
      (∀ (i : ℕ) (t y : ℝ), c.t[i]? = some t → c.y[i]? = some y → ∃ n, cf.N1 t = .ok n ∧
        (n = 0 → y = 0) ∧ (0 < n → f.C ref (log10 n) = .ok y)) ∧
      (ref ≠ 1 → c.label = some ("N(>".toList ++ g ref ++ " km)".toList) ∧ ∃ c1, rest = [c1] ∧ c1.label = some "N(>1 km)".toList ∧ c1.t = c.t ∧
        ∀ (i : ℕ) (t y : ℝ), c1.t[i]? = some t → c1.y[i]? = some y → cf.N1 t = .ok y) ∧
      (ref = 1 → c.label = none ∧ rest = []) := by
  obtain ⟨r, hr, hr2⟩ := ratio_spec hf hd
  obtain ⟨t, y, hty, h1, h2, h3, h4, h5, h6⟩ := C69_plotted_chronology p cf hc true false
  simp only [if_true] at h4
  simp only [curves, hr, hty, except_ok_bind]
  by_cases h : ref = 1
  · subst h
    rw [if_neg (by simp)]
    refine ⟨⟨none, t, y⟩, [], rfl, h1, h2, h3, h4, h5, ?_, fun h => absurd rfl h, fun _ => ⟨rfl, rfl⟩⟩
    intro i a b ha hb
    have hn := h6 i b a ha hb
    simp only [Bool.false_eq_true, if_false] at hn
    refine ⟨b, hn, id, fun hpos => ?_⟩
    rw [hf.at_1km, pow10_log10 hpos]
  · rw [if_pos h]
    refine ⟨_, _, rfl, h1, by simpa using h2, h3, h4, h5, ?_, fun _ => ⟨rfl, _, rfl, rfl, rfl, ?_⟩, fun h' => absurd h' h⟩
    · intro i a b ha hb
      simp only [List.getElem?_map, Option.map_eq_some_iff] at hb
      obtain ⟨n, hn, rfl⟩ := hb
      have hn' := h6 i n a ha hn
      simp only [Bool.false_eq_true, if_false] at hn'
      refine ⟨n, hn', fun h0 => by rw [h0, zero_mul], fun hpos => hr2 n hpos⟩
    · intro i a b ha hb
      have hn := h6 i b a ha hb
      simpa only [Bool.false_eq_true, if_false] using hn

/-- **C118: the curves of a rate plot.**  On a rate plot the value at each age is the derivative, with respect to age, of the density of
craters larger than the reference diameter. -/
theorem C118_rate (g : ℝ → List Char) (p : List ℝ) (cf : Chron) (hc : Chronology.init p = .ok cf) (p0 p1 p3 : ℝ)
    (e0 : p[0]? = some p0) (e1 : p[1]? = some p1) (e3 : p[3]? = some p3) (h0 : 0 ≤ p0) (h1 : 0 ≤ p1) (h3 : 0 < p3)
    (f : PFn) (hf : MadeFrom f) (ref : ℝ) (hd : 0 < ref) :
    ∃ c rest, curves g cf (some f) true ref = .ok (c :: rest) ∧ c.t.length = 1000 ∧ c.y.length = 1000 ∧ c.t[0]? = some 0 ∧ c.t[999]? = some 5 ∧
      ∃ D D' : ℝ → ℝ, (∀ t, 0 < t → ∃ n, cf.N1 t = .ok n ∧ 0 < n ∧ f.C ref (log10 n) = .ok (D t)) ∧ (∀ t, HasDerivAt D (D' t) t) ∧
        ∀ (i : ℕ) (t y : ℝ), c.t[i]? = some t → c.y[i]? = some y → y = D' t := by
  obtain ⟨r, hr, hr2⟩ := ratio_spec hf hd
  obtain ⟨t, y, hty, l1, l2, l3, l4, l5, l6⟩ := C69_plotted_chronology p cf hc true true
  simp only [if_true] at l4
  obtain ⟨N, rate, hN, hrate, _, hN0, hmono, hder, _, _⟩ := C14_increasing_and_rate p cf hc p0 p1 p3 e0 e1 e3 h0 h1 h3
  have hD : ∀ s, 0 < s → ∃ n, cf.N1 s = .ok n ∧ 0 < n ∧ f.C ref (log10 n) = .ok (N s * r) := by
    intro s hs
    have hpos : 0 < N s := by rw [← hN0]; exact hmono hs
    exact ⟨N s, hN s, hpos, hr2 _ hpos⟩
  have hD' : ∀ s, HasDerivAt (fun s => N s * r) (rate s * r) s := fun s => (hder s).mul_const r
  simp only [curves, hr, hty, except_ok_bind]
  by_cases h : ref = 1
  · subst h
    rw [if_neg (by simp)]
    have hr1 : r = 1 := by
      have := hr2 1 one_pos
      rw [hf.at_1km, pow10_log10 one_pos, one_mul] at this
      exact (Except.ok.inj this).symm
    refine ⟨_, _, rfl, l1, l2, l4, l5, fun s => N s * r, fun s => rate s * r, hD, hD', ?_⟩
    intro i a b ha hb
    have hn := l6 i b a ha hb
    simp only [if_true] at hn
    rw [hrate] at hn
    dsimp only
    rw [hr1, mul_one]
    exact (Except.ok.inj hn).symm
  · rw [if_pos h]
    refine ⟨_, _, rfl, l1, by simpa using l2, l4, l5, fun s => N s * r, fun s => rate s * r, hD, hD', ?_⟩
    intro i a b ha hb
    simp only [List.getElem?_map, Option.map_eq_some_iff] at hb
    obtain ⟨n, hn, rfl⟩ := hb
    have hn' := l6 i n a ha hn
    simp only [if_true] at hn'
    rw [hrate] at hn'
    dsimp only
    rw [Except.ok.inj hn']

/-- an example: a production function falling with the third power, and a chronology function with an exponential term -/
example : ∃ cf, Chronology.init [5.44e-14, 6.93, 0, 8.38e-4] = .ok cf ∧ MadeFrom (initPoly [-3, -3] none) ∧
    (initPoly [-3, -3] none).C 10 (-2) = .ok (10 ^ (-5 : ℝ)) := by
  obtain ⟨c, hc, _⟩ := (C14_construct [5.44e-14, 6.93, 0, 8.38e-4]).2 (by simp)
  refine ⟨c, hc, Or.inl ⟨_, _, by simp, rfl⟩, ?_⟩
  simp only [initPoly, PFn.C, polyC, log10E_pos (show (0 : ℝ) < 10 by norm_num), except_ok_bind, polyC10, Production.poly]
  have : log10 10 = 1 := by unfold log10; exact Real.logb_self_eq_one (by norm_num)
  simp only [this, List.tail_cons, List.reverse_cons, List.reverse_nil, List.nil_append, List.foldl_cons, List.foldl_nil, List.cons_append]
  norm_num

/-- **C118 (counterexample): without a production function** the curve labelled with another reference diameter is that for 1 km. -/
theorem C118_no_function_counterexample (g : ℝ → List Char) (p : List ℝ) (cf : Chron) (hc : Chronology.init p = .ok cf) (rate : Bool)
    (ref : ℝ) (h : ref ≠ 1) :
    ∃ c c1, curves g cf none rate ref = .ok [c, c1] ∧ c.label = some ("N(>".toList ++ g ref ++ " km)".toList) ∧ c.y = c1.y := by
  obtain ⟨t, y, hty, _⟩ := C69_plotted_chronology p cf hc true rate
  simp only [curves, refRatio, hty, except_ok_bind]
  rw [if_pos h]
  exact ⟨_, _, rfl, rfl, by simp⟩

end Verif.Props
