import Verif.Model.EpochRun
import Verif.Props.EpochPlot
import Verif.Props.SequencePlot
import Verif.Props.Listing

/-!
C155: the epoch system and the equilibrium function of a command are those of the list of functions.
-/

namespace Verif.Props

open Verif.Py Verif.Text Verif.Rand Verif.Cli Verif.PlotObject Verif.Epochs Verif.EpochPlot
open Verif.CountFile Verif.Cratercount Verif.Chronology Verif.Production Verif.Craterpdf Verif.Age Verif.FileAge Verif.RunAges Verif.FunctionRun Verif.EpochRun

noncomputable section

/-- Specification: the entry `k` of a definition is a list of texts. -/
def TextsEntry (ids : List (List Char × TVal)) (k : String) (ts : List (List Char)) : Prop := occurrences ids k.toList = [.list (ts.map .str)]

/-- Specification: the entry `k` of a definition is a list of whole numbers. -/
def WholeEntry (ids : List (List Char × TVal)) (k : String) (zs : List ℤ) : Prop :=
  ∃ ts : List (List Char), occurrences ids k.toList = [.list (ts.map .str)] ∧ List.Forall₂ (fun s z => intVal s = some z) ts zs

/-- Specification: the names of the epochs and the formatting codes of the first epoch system called `id` in the list -/
structure EpochsDefined (ds : List (List Char × TVal)) (id : List Char) (ids : List (List Char × TVal)) (names codes : List (List Char)) : Prop where
  first : FirstNamed (occurrences ds "epochs".toList) id ids
  names : TextsEntry ids "epoch" names
  codes : TextsEntry ids "formatting" codes
  reference : ∃ r, occurrences ids "reference".toList = [r]

theorem epochs_word : "epochs".toList ≠ [] ∧ ∀ c ∈ "epochs".toList, c.toNat < 128 ∧ (c.isAlphanum || c == '_') = true :=
  ⟨by decide, by decide⟩

theorem textElems_entry {ids : List (List Char × TVal)} {k : String} {ts : List (List Char)} (h : TextsEntry ids k ts) :
    (tget (.dict (dictOf ids)) k.toList >>= textElems) = .ok ts := by
  rw [tget_dictOf h, ok_bind, textElems, telems, ok_bind]
  refine mapM_texts (List.forall₂_same.2 ?_)
  exact fun _ _ => rfl

theorem optField_none {α : Type} {ids : List (List Char × TVal)} {k : String} {f : TVal → Except Exc α} (h : NoEntry ids k) :
    optField (dictOf ids) k.toList f = .ok none := by
  rw [optField, dictOf_get, h]
  rfl

theorem optField_some {α : Type} {ids : List (List Char × TVal)} {k : String} {f : TVal → Except Exc α} {ts : List (List Char)} {qs : List α}
    (h : occurrences ids k.toList = [.list (ts.map .str)]) (hf : List.Forall₂ (fun s q => f (.str s) = .ok q) ts qs) :
    optField (dictOf ids) k.toList f = .ok (some qs) := by
  rw [optField, dictOf_get, h]
  show ((ts.map TVal.str).mapM f >>= _) = _
  rw [mapM_texts hf]
  rfl

/-- making an epoch system: what is left -/
theorem epochs_made {C : Classes} {src : FunctionSource} {ds : List (List Char × TVal)} (h : SourceOf C src ds)
    (hl : enough src ≤ (occurrences ds "epochs".toList).length) {id : List Char} {ids : List (List Char × TVal)} {names codes : List (List Char)}
    (hd : EpochsDefined ds id ids names codes) (pf : PFn) (cf : CurveFit) (c : Chron) {r : Option (List ℤ)} {n t : Option (List ℚ)} {time : List ℝ}
    (hr : optField (dictOf ids) "ref_diameter".toList tint = .ok r) (hn : optField (dictOf ids) "density".toList tfloat = .ok n)
    (ht : optField (dictOf ids) "time".toList tfloat = .ok t) (htime : times pf cf c ⟨r, n, t⟩ = .ok time) :
    makeEpochs C src id pf cf c = .ok ⟨id, names, codes, time⟩ := by
  obtain ⟨ref, href⟩ := hd.reference
  have e1 := textElems_entry hd.names
  have e2 := textElems_entry hd.codes
  obtain ⟨a, ha, e1⟩ := bind_ok e1
  obtain ⟨b, hb, e2⟩ := bind_ok e2
  rw [makeEpochs, definition_found h epochs_word hl hd.first, ok_bind]
  dsimp only
  rw [ha, ok_bind, e1, ok_bind, hb, ok_bind, e2, ok_bind, hr, ok_bind, hn, ok_bind, ht, ok_bind, tget_dictOf href, ok_bind, htime]

/-- **C155, listed boundaries.** An epoch system whose definition lists ages has the names, codes and ages written in the first definition of its name, whatever the chronology and the production function. -/
theorem C155_listed (C : Classes) (src : FunctionSource) (ds : List (List Char × TVal)) (h : SourceOf C src ds)
    (hl : enough src ≤ (occurrences ds "epochs".toList).length) (id : List Char) (ids : List (List Char × TVal)) (names codes : List (List Char))
    (hd : EpochsDefined ds id ids names codes) (qs : List ℚ) (ht : NumberEntry ids "time" qs) (hr : NoEntry ids "ref_diameter") (hn : NoEntry ids "density")
    (pf : PFn) (cf : CurveFit) (c : Chron) :
    makeEpochs C src id pf cf c = .ok ⟨id, names, codes, qs.map (fun q : ℚ => (q : ℝ))⟩ := by
  obtain ⟨ts, t1, t2⟩ := ht
  exact epochs_made h hl hd pf cf c (optField_none hr) (optField_none hn)
    (optField_some t1 (t2.imp (fun _ _ h => by rw [tfloat, h]))) rfl

/-- Specification: the number of craters of at least diameter `d` per area, relative to that of 1 km, for the production function of a chronology system: `10` to the power of the polynomial without its first
number, or the curve of the table -/
def CurveDefined (ds : List (List Char × TVal)) (s : System) (p : List ℚ) (d y : ℝ) : Prop :=
  (∃ q qs r, FunctionsDefined ds s p (q :: qs) r ∧ y = curveAt 0 qs d) ∨ ∃ qs idx, TableDefined ds s p qs idx ∧ TableCurve qs idx d y

theorem curveAt_zero (a0 : ℝ) (qs : List ℚ) (d : ℝ) : curveAt a0 qs d = 10 ^ a0 * curveAt 0 qs d := by
  unfold curveAt
  rw [← Real.rpow_add (by norm_num)]
  congr 1
  rw [List.zipIdx_cons, List.zipIdx_cons, List.foldr_cons, List.foldr_cons]
  simp

theorem tableCurve_unique {qs : List ℚ} {idx : ℕ} {d y z : ℝ} (hy : TableCurve qs idx d y) (hz : TableCurve qs idx d z) : y = z := by
  obtain ⟨S, s1, hy⟩ := hy
  obtain ⟨S', s2, hz⟩ := hz
  obtain rfl : S = S' := funext fun i => by rw [s1, s2]
  have key : ∀ a b : ℝ, (2 : ℝ) ^ ((a - (idx : ℝ)) / 2) ≤ 2 ^ ((b - (idx : ℝ)) / 2) → a ≤ b := by
    intro a b h
    have := (Real.rpow_le_rpow_left_iff (by norm_num : (1 : ℝ) < 2)).1 h
    linarith
  have c12 : ∀ (i : ℕ) (t : ℝ), i + 1 < qs.length → t < 1 → ¬ (2 : ℝ) ^ (((qs.length : ℝ) - 1 - (idx : ℝ)) / 2) ≤ 2 ^ (((i : ℝ) + t - (idx : ℝ)) / 2) := by
    intro i t hi ht h
    have := key _ _ h
    have : (i : ℝ) + 1 + 1 ≤ qs.length := by exact_mod_cast hi
    linarith
  have c13 : ∀ (i : ℕ) (t : ℝ), 0 ≤ t → ¬ (2 : ℝ) ^ (((i : ℝ) + t - (idx : ℝ)) / 2) < 2 ^ ((0 - (idx : ℝ)) / 2) := by
    intro i t ht h
    have h2 := (Real.rpow_lt_rpow_left_iff (by norm_num : (1 : ℝ) < 2)).1 h
    have : (0 : ℝ) ≤ i := Nat.cast_nonneg i
    linarith
  have c23 : qs.length ≠ 0 → (2 : ℝ) ^ (((qs.length : ℝ) - 1 - (idx : ℝ)) / 2) ≤ d → ¬ d < 2 ^ ((0 - (idx : ℝ)) / 2) := by
    intro h0 h1 h2
    have h3 := (Real.rpow_lt_rpow_left_iff (by norm_num : (1 : ℝ) < 2)).1 (h1.trans_lt h2)
    have : (1 : ℝ) ≤ qs.length := by exact_mod_cast Nat.one_le_iff_ne_zero.2 h0
    linarith
  have e0 : qs.length = 0 → S (qs.length - 1) = S 0 := fun h => by rw [h]
  rcases hy with ⟨i, t, i1, t1, t2, rfl, rfl⟩ | ⟨h1, rfl⟩ | ⟨h1, rfl⟩ <;> rcases hz with ⟨j, u, j1, u1, u2, e, rfl⟩ | ⟨h2, rfl⟩ | ⟨h2, rfl⟩
  · have h1 := key _ _ e.le
    have h2 := key _ _ e.ge
    have hij : i = j := by
      have a1 : (i : ℝ) < j + 1 := by linarith
      have a2 : (j : ℝ) < i + 1 := by linarith
      have a1 : i < j + 1 := by exact_mod_cast a1
      have a2 : j < i + 1 := by exact_mod_cast a2
      omega
    subst hij
    obtain rfl : t = u := by linarith
    rfl
  · exact absurd h2 (c12 i t i1 t2)
  · exact absurd h2 (c13 i t t1)
  · rw [e] at h1
    exact absurd h1 (c12 j u j1 u2)
  · rfl
  · by_cases h0 : qs.length = 0
    · rw [e0 h0]
    · exact absurd h2 (c23 h0 h1)
  · rw [e] at h1
    exact absurd h1 (c13 j u u1)
  · by_cases h0 : qs.length = 0
    · rw [e0 h0]
    · exact absurd h1 (c23 h0 h2)
  · rfl

/-- the curve of the function made -/
theorem curve_made {C : Classes} {v : TVal} {ds : List (List Char × TVal)} (hv : SourceOf C (.dict v) ds) (hpn : 2 ≤ (occurrences ds "production".toList).length)
    {s : System} {p : List ℚ} {f : PFn} (hf : makeProduction C (.dict v) s.pf false = .ok (some f)) {d : ℝ} (hd : 0 < d) :
    (((∃ q qs r, FunctionsDefined ds s p (q :: qs) r) ∨ ∃ qs idx, TableDefined ds s p qs idx) → ∃ y, CurveDefined ds s p d y) ∧
      ∀ y, CurveDefined ds s p d y → ∀ a0 : ℝ, f.C d a0 = .ok (10 ^ a0 * y) := by
  have ht : ∀ qs idx, TableDefined ds s p qs idx → ∃ y, TableCurve qs idx d y ∧ ∀ a0 : ℝ, f.C d a0 = .ok (10 ^ a0 * y) := by
    intro qs idx hdef
    obtain ⟨_, ids, i1, i2, i3, i4, it, i5, i6, i7, ⟨r, i8⟩, i9⟩ := hdef
    obtain ⟨f', g1, _, g2, _⟩ := C132_table C (.dict v) ds hv false _ rfl hpn s.pf ids i1 i2 qs i3 i4 it idx i5 i6 i7 r i8 i9
    rw [hf] at g1
    injection g1 with g1
    injection g1 with g1
    subst g1
    exact g2 d hd
  constructor
  · rintro (⟨q, qs, r, hdef⟩ | ⟨qs, idx, hdef⟩)
    · exact ⟨_, .inl ⟨q, qs, r, hdef, rfl⟩⟩
    · obtain ⟨y, y1, _⟩ := ht qs idx hdef
      exact ⟨y, .inr ⟨qs, idx, hdef, y1⟩⟩
  · rintro y (⟨q, qs, r, hdef, rfl⟩ | ⟨qs, idx, hdef, hy⟩) a0
    · obtain ⟨_, ids, i1, i2, i3, i4, i5⟩ := hdef
      obtain ⟨f', g1, _, g2, _⟩ := C132_polynomial C (.dict v) ds hv false _ rfl hpn s.pf ids i1 i2 q qs i3 r i4 i5
      rw [hf] at g1
      injection g1 with g1
      injection g1 with g1
      subst g1
      rw [g2 d a0 hd, ← curveAt_zero]
      rfl
    · obtain ⟨y', y1, y2⟩ := ht qs idx hdef
      rw [tableCurve_unique hy y1]
      exact y2 a0

/-- **C155, boundaries by density.** An epoch system whose definition lists reference diameters and densities has the names and codes written there, and its boundaries are 0 followed by one age per pair.
Each lies in [0,5] Ga; if some age of the chronology gives the density at the reference diameter, by the numbers of the chronology and of the production function in the list, the boundary
is less than 5 Ma (the step of the table of ages) below it, and if the density is beyond that of 5 Ga, the boundary is 5 Ga. -/
theorem C155_densities_partial (C : Classes) (v : TVal) (ds : List (List Char × TVal)) (h : SourceOf C (.dict v) ds)
    (hl : 2 ≤ (occurrences ds "epochs".toList).length) (hcn : 2 ≤ (occurrences ds "chronology".toList).length) (hpn : 2 ≤ (occurrences ds "production".toList).length)
    (id : List Char) (ids : List (List Char × TVal)) (names codes : List (List Char))
    (hd : EpochsDefined ds id ids names codes) (zs : List ℤ) (hz : WholeEntry ids "ref_diameter" zs) (qs : List ℚ) (hq : NumberEntry ids "density" qs)
    (ht : NoEntry ids "time") (hz0 : ∀ z ∈ zs, 0 < z) (hq0 : ∀ q ∈ qs, 0 < q) (s : System) (p0 p1 p2 p3 : ℚ) (more : List ℚ) (h0 : 0 ≤ p0) (h1 : 0 ≤ p1) (h3 : 0 < p3)
    (hs : (∃ q qs r, FunctionsDefined ds s (p0 :: p1 :: p2 :: p3 :: more) (q :: qs) r) ∨ ∃ qs idx, TableDefined ds s (p0 :: p1 :: p2 :: p3 :: more) qs idx)
    (c : Chron) (hc : makeChronology C (.dict v) s.cf = .ok c) (f : PFn) (hf : makeProduction C (.dict v) s.pf false = .ok (some f)) (cf : CurveFit) (hcf : CurveFitSpec cf) :
    ∃ t, makeEpochs C (.dict v) id f cf c = .ok ⟨id, names, codes, 0 :: t⟩ ∧ t.length = min zs.length qs.length ∧ (∀ x ∈ t, 0 ≤ x ∧ x ≤ 5) ∧
      ∀ (i : ℕ) z q x, zs[i]? = some z → qs[i]? = some q → t[i]? = some x → (∃ y, CurveDefined ds s (p0 :: p1 :: p2 :: p3 :: more) (z : ℝ) y) ∧
        ∀ y, CurveDefined ds s (p0 :: p1 :: p2 :: p3 :: more) (z : ℝ) y → ∀ τ : ℝ, 0 ≤ τ → ((p0 : ℝ) * (Real.exp ((p1 : ℝ) * τ) - 1) + (p3 : ℝ) * τ) * y = (q : ℝ) / 1000000 → (τ ≤ 5 → x ≤ τ ∧ τ - 5 / 999 < x) ∧ (5 ≤ τ → x = 5) := by
  obtain ⟨ts, z1, z2⟩ := hz
  obtain ⟨us, q1, q2⟩ := hq
  obtain ⟨cids, hci, hcp⟩ : ChronologyDefined ds s (p0 :: p1 :: p2 :: p3 :: more) := by
    rcases hs with ⟨q, qs, r, hdef⟩ | ⟨qs, idx, hdef⟩
    · exact hdef.1
    · exact hdef.1
  obtain ⟨p, g0, g1, g2, g3, g4, g5, g6⟩ := made_chron h hcn hci hcp h0 h1 h3 hc
  obtain ⟨t, t1, t2, t3, t4, _⟩ := C61_boundary_times f (made_constructed hf) cf hcf p c g0 p0 p1 p3 g1 g2 g3 g4 g5 g6 zs qs hz0 hq0
  refine ⟨t, epochs_made h hl hd f cf c (optField_some z1 (z2.imp (fun _ _ h => by rw [tint, h]))) (optField_some q1 (q2.imp (fun _ _ h => by rw [tfloat, h])))
    (optField_none ht) t1, t2, t3, ?_⟩
  intro i z q x hzi hqi hxi
  have hzp : (0 : ℝ) < z := by exact_mod_cast hz0 z (List.mem_of_getElem? hzi)
  obtain ⟨w1, w2⟩ := curve_made (p := p0 :: p1 :: p2 :: p3 :: more) h hpn hf hzp
  refine ⟨w1 hs, fun y hy τ hτ e => ?_⟩
  have y2 := w2 y hy
  obtain ⟨a, a1, a2⟩ := t4 i z q x hzi hqi hxi
  obtain ⟨age, b1, b2, b3, b4, b5, b6, b7, b8⟩ := C15_age_inversion p c g0 p0 p1 p3 g1 g2 g3 g4 g5 g6
  have hN : c.N1 τ = .ok ((p0 : ℝ) * (Real.exp ((p1 : ℝ) * τ) - 1) + (p3 : ℝ) * τ) := by
    obtain ⟨c', k1, k2⟩ := C132_chronology C (.dict v) ds h hcn s.cf cids hci p0 p1 p2 p3 more hcp
    rw [hc] at k1
    injection k1 with k1
    subst k1
    exact (k2 τ).1
  have hqp : (0 : ℝ) < q := by exact_mod_cast hq0 q (List.mem_of_getElem? hqi)
  rw [y2 a] at a1
  injection a1 with a1
  have ey : (10 : ℝ) ^ a = (p0 : ℝ) * (Real.exp ((p1 : ℝ) * τ) - 1) + (p3 : ℝ) * τ := by
    have hy : y ≠ 0 := by
      rintro rfl
      rw [mul_zero] at e
      have : (0 : ℝ) < (q : ℝ) / 1000000 := by positivity
      linarith
    refine mul_right_cancel₀ hy ?_
    rw [a1, e]
    norm_num
  rw [b2 a none, ey] at a2
  injection a2 with a2
  exact ⟨fun h5 => by rw [← a2]; exact b6 τ hτ h5 _ hN, fun h5 => by rw [← a2]; exact b8 τ h5 _ hN⟩

/-- **C155, drawn.** On chronology, rate and sequence plots the epochs written in the definition are drawn: on a chronology or rate plot the names in their order, dividing lines at the listed ages after the first, and the
region from each of these to the next one, in the shade of its code. -/
theorem C155_drawn (C : Classes) (src : FunctionSource) (ds : List (List Char × TVal)) (h : SourceOf C src ds)
    (hl : enough src ≤ (occurrences ds "epochs".toList).length) (id : List Char) (ids : List (List Char × TVal)) (names : List (List Char)) (slant : List Char) (codes : List (List Char))
    (hd : EpochsDefined ds id ids names (slant :: codes)) (qs : List ℚ) (ht : NumberEntry ids "time" qs) (hr : NoEntry ids "ref_diameter") (hn : NoEntry ids "density")
    (pf : PFn) (cf : CurveFit) (p : List ℝ) (c : Chron) (hc : Chronology.init p = .ok c) (grey : List (List Char)) :
    ∃ e, makeEpochs C src id pf cf c = .ok e ∧
      (∀ ρ phi left m, chronologyPlot ρ grey c phi left e.time e.epoch e.formatting = .ok m →
        m.names.map (fun q => q.2.2) = names ∧ m.times.map Prod.fst = (qs.filter (· ≠ 0)).map (fun q : ℚ => (q : ℝ)) ∧
        (∀ (k : ℕ) (a b : ℚ), qs[k + 1]? = some a → qs[k + 2]? = some b → ∃ r v w, m.regions[k]? = some r ∧ r.1[0]? = some ((a : ℝ), v) ∧ r.1[99]? = some ((b : ℝ), w) ∧
          ∀ code n, codes[k + 1]? = some code → ShadeCode code n → grey[3 - n]? = some r.2) ∧
        ∀ (k : ℕ) (a : ℚ), qs[k + 1]? = some a → ∃ v code, codes[k]? = some code ∧ m.lines[k]? = some ((a : ℝ), v, decide ('b' ∈ code))) ∧
      ∀ lower axis r, Verif.SequencePlot.sequencePlot lower grey e.time e.epoch e.formatting axis = .ok r → ∀ log m, marksOf r log = some m →
        (∀ (k : ℕ) (a b : ℚ), qs[k + 1]? = some a → qs[k + 2]? = some b → ∃ g, m.regions[k]? = some ((a : ℝ), (b : ℝ), g) ∧
          ∀ code n, codes[k + 1]? = some code → ShadeCode code n → grey[3 - n]? = some g) ∧
        ∀ (k : ℕ) (a : ℚ), qs[k + 1]? = some a → ∃ code, codes[k]? = some code ∧ m.lines[k]? = some ((a : ℝ), decide ('b' ∈ code)) := by
  refine ⟨_, C155_listed C src ds h hl id ids names _ hd qs ht hr hn pf cf c, ?_, ?_⟩
  · intro ρ phi left m hm
    dsimp only at hm
    obtain ⟨pt, py, _, _, _, r1, r2⟩ := C113_regions ρ grey p c hc phi left _ names slant codes m hm
    obtain ⟨n1, _, n2, _⟩ := C113_texts ρ grey c phi left _ names slant codes m hm
    refine ⟨n1, ?_, ?_, ?_⟩
    · rw [n2, List.filter_map]
      have e : (fun x : ℝ => decide (x ≠ 0)) ∘ (fun q : ℚ => (q : ℝ)) = fun q : ℚ => decide (q ≠ 0) := by
        funext q
        simp
      rw [e]
    · intro k a b ha hb
      obtain ⟨r, r3, r4, ⟨v, w, r5, r6⟩, _⟩ := r1 k a b (by rw [List.getElem?_map, ha]; rfl) (by rw [List.getElem?_map, hb]; rfl)
      exact ⟨r, v, w, r3, r5, r6, r4⟩
    · intro k a ha
      obtain ⟨v, code, l1, l2, _⟩ := r2 k a (by rw [List.getElem?_map, ha]; rfl)
      exact ⟨v, code, l2, l1⟩
  · intro lower axis r hr log m hm
    obtain ⟨_, _, r1, r2⟩ := C120_regions lower grey _ names slant codes axis r hr log m hm
    exact ⟨fun k a b ha hb => r1 k a b (by rw [List.getElem?_map, ha]; rfl) (by rw [List.getElem?_map, hb]; rfl),
      fun k a ha => r2 k a (by rw [List.getElem?_map, ha]; rfl)⟩

/-- the name of an optional function in the settings -/
theorem optional_setting (env : SetEnv) (args : Args) (c : SDict) (h : constructSettings env args = .ok c) (k : String) (hk : k = "equilibrium" ∨ k = "epochs")
    (hnl : ∀ n ∈ functionNames env k.toList, '\n' ∉ n) :
    (args k.toList = none → dictGet c k.toList = some .none) ∧
      ∀ v, args k.toList = some (.str v) → ∃ (i : ℕ) (name : List Char), ChosenBy env.lower (functionNames env k.toList) v i ∧
        (functionNames env k.toList)[i]? = some name ∧ dictGet c k.toList = some (.str name) := by
  obtain ⟨p, c1, c2, c3, range0, range, hp, h1, h2, h3, h4, rfl, -⟩ := settings_ok h
  obtain ⟨A, B, hkeys, hA, hB, hout, hnc, hpres, hdef, hne1, hne2, hne3, hne4⟩ : ∃ A B, parserKeys = A ++ k.toList :: B ∧ k.toList ∉ A ∧ k.toList ∉ B ∧ "out".toList ∉ B ∧ k.toList ∉ copiedKeys ∧
      k.toList ≠ "presentation".toList ∧ dictGet settingDefaults k.toList = some .none ∧ k.toList ≠ "format".toList ∧ k.toList ≠ "global_area".toList ∧
      k.toList ∉ ["xrange".toList, "yrange".toList, "legend".toList] ∧ k.toList ≠ "text_halo".toList := by
    rcases hk with rfl | rfl
    · exact ⟨(keys1 ++ "out".toList :: keys2 ++ ["format".toList]) ++ keys3.take 1, keys3.drop 2, by decide +kernel, by decide +kernel, by decide +kernel, by decide +kernel,
        by decide +kernel, by decide +kernel, by decide +kernel, by decide +kernel, by decide +kernel, by decide +kernel, by decide +kernel⟩
    · exact ⟨(keys1 ++ "out".toList :: keys2 ++ ["format".toList]) ++ keys3.take 2, keys3.drop 3, by decide +kernel, by decide +kernel, by decide +kernel, by decide +kernel,
        by decide +kernel, by decide +kernel, by decide +kernel, by decide +kernel, by decide +kernel, by decide +kernel, by decide +kernel⟩
  have hx : k.toList ≠ "xrange".toList ∧ k.toList ≠ "yrange".toList ∧ k.toList ≠ "legend".toList :=
    ⟨fun e => hne3 (by rw [e]; exact List.mem_cons_self), fun e => hne3 (by rw [e]; exact List.mem_cons_of_mem _ List.mem_cons_self),
      fun e => hne3 (by rw [e]; exact List.mem_cons_of_mem _ (List.mem_cons_of_mem _ List.mem_cons_self))⟩
  rw [finish_get _ _ _ _ (fun _ => ⟨hx.1, hx.2.1⟩) hne4, h4 _ hne2]
  rw [hkeys, List.foldlM_append] at h2
  obtain ⟨ca, ha, h2⟩ := bind_ok h2
  rw [List.foldlM_cons] at h2
  obtain ⟨cb, hb, h2⟩ := bind_ok h2
  have g1 : dictGet ca k.toList = some .none := by
    rw [settingSteps_frame _ ha _ hA (fun _ => hne1), presentationDefaults_get _ _ _ hx.1 hx.2.1 hx.2.2, h1, if_neg hpres, hdef]
  have g2 : dictGet c2 k.toList = dictGet cb k.toList := settingSteps_frame _ h2 _ hB (fun h => absurd h hout)
  rw [g2]
  constructor
  · intro hn
    rw [settingStep, hn] at hb
    cases hb
    exact g1
  · intro v hv
    have hor : k.toList = "chronology_system".toList ∨ k.toList = "equilibrium".toList ∨ k.toList = "epochs".toList := by
      rcases hk with rfl | rfl
      · exact .inr (.inl rfl)
      · exact .inr (.inr rfl)
    rw [settingStep, hv] at hb
    dsimp only at hb
    rw [if_neg hnc, if_pos hor] at hb
    obtain ⟨j, hj, hb⟩ := bind_ok hb
    obtain ⟨x, hx', hb⟩ := bind_ok hb
    cases hb
    obtain ⟨i, rfl, hi⟩ := (decode_iff env.lower hnl v j).1 hj
    exact ⟨i, x, hi, by simpa using pick_ok hx', by rw [dictGet_set, if_pos rfl]⟩

/-- Specification: the name asked for with an option, among the names given: the first of the shortest ones with the characters given in this order; none without the option -/
def NameAsked (lower : Char → Char) (names : List (List Char)) (flat : List Given) (k : String) (name : Option (List Char)) : Prop :=
  ((∀ g ∈ flat, g.dest ≠ k.toList) ∧ name = none) ∨ ∃ t i n, OptionLast flat k [t] ∧ ChosenBy lower names t i ∧ names[i]? = some n ∧ name = some n

/-- the names in the settings of a run -/
theorem run_names (C : Classes) (isNeg : List Char → Bool) (F : FileSys) (cwd : List Char) (words : List (List Char))
    (l flat : List Given) (cwd' : List Char) (n : ℕ) (hw : CommandOf isNeg words l) (h : Expands C isNeg F cwd l flat cwd' n)
    (depth : ℕ) (hd : n ≤ depth) (E : List Char → RunEnv Opened (EReal × EReal)) (hE : ∀ d, (E d).set.classes = C)
    (hnl : ∀ s ∈ (E cwd').set.systems, '\n' ∉ s.name) (hnq : ∀ n ∈ (E cwd').set.equilNames, '\n' ∉ n ∧ n ≠ [])
    (hne : ∀ n ∈ (E cwd').set.epochNames, '\n' ∉ n ∧ n ≠ []) :
    ∃ st, runCommand C isNeg F depth cwd words = .ok st ∧ ∀ P, prepareRun E st = .ok P →
      (∃ i s, (E cwd').set.systems[i]? = some s ∧ (∀ (j : ℕ) s', j < i → (E cwd').set.systems[j]? = some s' → s'.name ≠ s.name) ∧
        SystemAsked (E cwd').set.lower ((E cwd').set.systems.map System.name) flat s.name ∧ getStr P.settings "chronology_system" = .ok s.name) ∧
      NameAsked (E cwd').set.lower (E cwd').set.equilNames flat "equilibrium" (optionalName P.settings "equilibrium") ∧
      NameAsked (E cwd').set.lower (E cwd').set.epochNames flat "epochs" (optionalName P.settings "epochs") := by
  obtain ⟨st, h1, hcwd, hs⟩ := C133_in_place_partial C isNeg F cwd words l flat cwd' n hw h depth hd
  refine ⟨st, h1, fun P hP => ?_⟩
  have hf := flat_arity h (command_arity hw)
  obtain ⟨c0, p0, specs, ds, c1, ratio, dark, r1, r2, r3, r4, r5, r6, r7, r8⟩ := run_ok hP
  rw [hcwd] at r1 r5
  have hC := hE cwd'
  have n0 := settings_nodup r1
  obtain ⟨n1, e1⟩ := defaultName_keys r5 n0
  obtain ⟨n2, e2⟩ := legend_keys r6 n1
  have hopt : ∀ k : String, k = "equilibrium" ∨ k = "epochs" → (∀ n ∈ functionNames (E cwd').set k.toList, '\n' ∉ n ∧ n ≠ []) →
      NameAsked (E cwd').set.lower (functionNames (E cwd').set k.toList) flat k (optionalName P.settings k) := by
    intro k hk hn
    obtain ⟨q1, q2⟩ := optional_setting (E cwd').set _ _ r1 k hk (fun x hx => (hn x hx).1)
    have hg : dictGet P.settings k.toList = dictGet c0 k.toList := by
      rcases hk with rfl | rfl
      · rw [e2 _ (by decide), e1 _ (by decide)]
      · rw [e2 _ (by decide), e1 _ (by decide)]
    have hkp : k.toList ≠ "plot".toList := by
      rcases hk with rfl | rfl <;> decide
    rcases given_or hs k hkp with hno | ⟨values, hl⟩
    · refine .inl ⟨hno, ?_⟩
      rw [optionalName, hg, q1 (by rw [hC]; exact (args_last hs k hkp).2 hno)]
    · obtain ⟨ha, w, hw', hw''⟩ := last_value hs hf (by rcases hk with rfl | rfl <;> decide +kernel) hl
      obtain ⟨t, e⟩ := one_value ha (ks := [k]) ⟨_, List.mem_cons_self, rfl⟩ (by rcases hk with rfl | rfl <;> decide +kernel)
      change values = [t] at e
      have := ((kind_values hw').2.2.2.2.2.2.2 (by rcases hk with rfl | rfl <;> decide +kernel)).1 t e
      subst this e
      obtain ⟨i, name, k1, k2, k3⟩ := q2 t (by rw [hC]; exact hw'')
      refine .inr ⟨t, i, name, hl, k1, k2, ?_⟩
      rw [optionalName, hg, k3]
      dsimp only
      rw [if_neg (hn name (List.mem_of_getElem? k2)).2]
  have f1 : functionNames (E cwd').set "equilibrium".toList = (E cwd').set.equilNames := by
    rw [functionNames, if_neg (by decide), if_pos rfl]
  have f2 : functionNames (E cwd').set "epochs".toList = (E cwd').set.epochNames := by
    rw [functionNames, if_neg (by decide), if_neg (by decide)]
  refine ⟨?_, ?_, ?_⟩
  · obtain ⟨name, i, s, q1, q2, q3, q4, _, _, q5, q6⟩ := C60_system (E cwd').set hnl _ _ r1
    have hg : getStr P.settings "chronology_system" = .ok name := by
      rw [getStr, e2 _ (by decide), e1 _ (by decide), q1]
    subst q3
    refine ⟨i, s, q2, q4, ?_, hg⟩
    rcases given_or hs "chronology_system" (by decide) with hn | ⟨values, hl⟩
    · exact .inl ⟨hn, q5 (by rw [hC]; exact (args_last hs "chronology_system" (by decide)).2 hn)⟩
    · obtain ⟨ha, w, hw', hw''⟩ := last_value hs hf (by decide +kernel) hl
      obtain ⟨t, e⟩ := one_value ha (ks := ["chronology_system"]) ⟨_, List.mem_cons_self, rfl⟩ (by decide +kernel)
      change values = [t] at e
      have := ((kind_values hw').2.2.2.2.2.2.2 (by decide +kernel)).1 t e
      subst this e
      obtain ⟨k, k1, k2⟩ := q6 t (by rw [hC]; exact hw'')
      exact .inr ⟨t, k, hl, k1, k2⟩
  · have := hopt "equilibrium" (.inl rfl) (by rw [f1]; exact hnq)
    rw [f1] at this
    exact this
  · have := hopt "epochs" (.inr rfl) (by rw [f2]; exact hne)
    rw [f2] at this
    exact this

/-- **C155, choice.** The epoch system of a command is made from the definition of the name asked for with `-ep`, with the functions of the chronology system asked for; its equilibrium function from that
of the name asked for with `-ef`.  Without these options there are none. -/
theorem C155_choice (C : Classes) (isNeg : List Char → Bool) (F : FileSys) (cwd : List Char) (words : List (List Char))
    (l flat : List Given) (cwd' : List Char) (n : ℕ) (hw : CommandOf isNeg words l) (h : Expands C isNeg F cwd l flat cwd' n)
    (depth : ℕ) (hd : n ≤ depth) (E : List Char → RunEnv Opened (EReal × EReal)) (hE : ∀ d, (E d).set.classes = C)
    (v : TVal) (ds : List (List Char × TVal)) (hv : SourceOf C (.dict v) ds) (systems : List System) (equilibria epochs : List (List Char))
    (hsys : List.Forall₂ SystemEntry (occurrences ds "chronology_system".toList) systems) (h2 : 2 ≤ systems.length)
    (hset : (E cwd').set.systems = systems ∧ (E cwd').set.equilNames = equilibria ∧ (E cwd').set.epochNames = epochs)
    (hnl : ∀ s ∈ systems, '\n' ∉ s.name) (hnq : ∀ n ∈ equilibria, '\n' ∉ n ∧ n ≠ []) (hne : ∀ n ∈ epochs, '\n' ∉ n ∧ n ≠ []) (cf : CurveFit) :
    ∃ st, runCommand C isNeg F depth cwd words = .ok st ∧ ∀ P, prepareRun E st = .ok P →
      (∃ i s name, systems[i]? = some s ∧ (∀ (j : ℕ) s', j < i → systems[j]? = some s' → s'.name ≠ s.name) ∧
        SystemAsked (E cwd').set.lower (systems.map System.name) flat s.name ∧ NameAsked (E cwd').set.lower epochs flat "epochs" name ∧
        ∀ ep, runEpochs C v cf P = .ok ep ↔ ∃ c f, makeChronology C (.dict v) s.cf = .ok c ∧ makeProduction C (.dict v) s.pf false = .ok (some f) ∧
          ((name = none ∧ ep = none) ∨ ∃ m e, name = some m ∧ ep = some e ∧ makeEpochs C (.dict v) m f cf c = .ok e)) ∧
      ∃ name, NameAsked (E cwd').set.lower equilibria flat "equilibrium" name ∧
        ∀ ef, runEquilibrium C v P = .ok ef ↔ (name = none ∧ ef = none) ∨ ∃ m f, name = some m ∧ ef = some f ∧ makeProduction C (.dict v) m true = .ok (some f) := by
  obtain ⟨rfl, rfl, rfl⟩ := hset
  obtain ⟨st, e1, hr⟩ := run_names C isNeg F cwd words l flat cwd' n hw h depth hd E hE hnl hnq hne
  refine ⟨st, e1, fun P hP => ?_⟩
  obtain ⟨⟨i, s, q1, q2, q3, q4⟩, q5, q6⟩ := hr P hP
  constructor
  · refine ⟨i, s, _, q1, q2, q3, q6, fun ep => ?_⟩
    have hfind : (E cwd').set.systems.find? (fun s' => s'.name = s.name) = some s := by
      rw [List.find?_eq_some_iff_getElem]
      obtain ⟨hi, e⟩ := List.getElem?_eq_some_iff.1 q1
      refine ⟨by simp, i, hi, e, fun j hj => ?_⟩
      simpa using q2 j _ hj (List.getElem?_eq_getElem (by omega))
    rw [runEpochs, q4, ok_bind, systemFunctions, C153_list C v ds hv _ hsys h2, ok_bind, hfind]
    dsimp only
    constructor
    · intro hep
      obtain ⟨cf', hfun, hep⟩ := bind_ok hep
      obtain ⟨c, hc, hfun⟩ := bind_ok hfun
      obtain ⟨f', hf', hfun⟩ := bind_ok hfun
      cases f' with
      | none => cases hfun
      | some f =>
        cases hfun
        refine ⟨c, f, hc, hf', ?_⟩
        cases hn : optionalName P.settings "epochs" with
        | none =>
          rw [hn] at hep
          cases hep
          exact .inl ⟨rfl, rfl⟩
        | some m =>
          rw [hn] at hep
          obtain ⟨e, he, hep⟩ := bind_ok hep
          cases hep
          exact .inr ⟨m, e, rfl, rfl, he⟩
    · rintro ⟨c, f, hc, hf, hep⟩
      rw [hc, ok_bind, hf, ok_bind]
      dsimp only
      rw [ok_bind]
      rcases hep with ⟨hn, rfl⟩ | ⟨m, e, hn, rfl, he⟩
      · rw [hn]
      · rw [hn]
        dsimp only
        rw [he, ok_bind]
  · refine ⟨_, q5, fun ef => ?_⟩
    rw [runEquilibrium]
    cases hn : optionalName P.settings "equilibrium" with
    | none =>
      constructor
      · intro h
        cases h
        exact .inl ⟨rfl, rfl⟩
      · rintro (⟨_, rfl⟩ | ⟨m, f, h, _⟩)
        · rfl
        · cases h
    | some m =>
      constructor
      · intro hef
        obtain ⟨f, hf, hef⟩ := bind_ok hef
        cases f with
        | none => cases hef
        | some f =>
          cases hef
          exact .inr ⟨m, f, rfl, rfl, hf⟩
      · rintro (⟨h, _⟩ | ⟨m', f, h, rfl, hf⟩)
        · cases h
        · cases h
          dsimp only
          rw [hf, ok_bind]

/-- an epoch system with listed ages -/
def listedEpochIds : List (List Char × TVal) :=
  [("name".toList, .str "Wilhelms".toList), ("epoch".toList, .list (["Copernican", "Eratosthenian", "Imbrian"].map (fun x => .str x.toList))),
   ("time".toList, .list (["0.", "1.1", "3.2"].map (fun x => .str x.toList))), ("formatting".toList, .list (["60", "0b", "1b", "0"].map (fun x => .str x.toList))),
   ("reference".toList, .str "Ref".toList)]

/-- one with densities -/
def densityEpochIds : List (List Char × TVal) :=
  [("name".toList, .str "Michael".toList), ("epoch".toList, .list (["Amazonian", "Hesperian"].map (fun x => .str x.toList))),
   ("formatting".toList, .list (["90", "0", "2b"].map (fun x => .str x.toList))), ("ref_diameter".toList, .list (["1", "5"].map (fun x => .str x.toList))),
   ("density".toList, .list (["160", "1e6"].map (fun x => .str x.toList))), ("reference".toList, .str "Ref".toList)]

set_option maxRecDepth 8192 in
theorem listed_epochs : TextOf .ascii "epochs={\n name=Wilhelms\nepoch=[Copernican,Eratosthenian,Imbrian]\ntime=[0.,1.1,3.2]\nformatting=[60,0b,1b,0]\nreference=Ref\n}\n".toList
    [("epochs".toList, .dict (dictOf listedEpochIds))] := by
  have := definition_text (kind := "epochs") epochs_word _ _
    (name_line "name" "Wilhelms" ⟨by decide, by decide⟩ (by decide) (by decide) (by decide) (by decide) (by decide) (by decide)
    (line_text "epoch" "[Copernican,Eratosthenian,Imbrian]" _ ⟨by decide, by decide⟩ (by decide) (valueText_line _ (by decide) (by decide) (by decide) (by decide))
      (list_value ["Copernican", "Eratosthenian", "Imbrian"] (by simp) (by decide))
    (line_text "time" "[0.,1.1,3.2]" _ ⟨by decide, by decide⟩ (by decide) (valueText_line _ (by decide) (by decide) (by decide) (by decide))
      (list_value ["0.", "1.1", "3.2"] (by simp) (by decide))
    (line_text "formatting" "[60,0b,1b,0]" _ ⟨by decide, by decide⟩ (by decide) (valueText_line _ (by decide) (by decide) (by decide) (by decide))
      (list_value ["60", "0b", "1b", "0"] (by simp) (by decide))
    (name_line "reference" "Ref" ⟨by decide, by decide⟩ (by decide) (by decide) (by decide) (by decide) (by decide) (by decide) nil_text)))))
    (by simp) (by decide +kernel) 'n' "ame=Wilhelms\nepoch=[Copernican,Eratosthenian,Imbrian]\ntime=[0.,1.1,3.2]\nformatting=[60,0b,1b,0]\nreference=Ref\n".toList
    "name=Wilhelms\nepoch=[Copernican,Eratosthenian,Imbrian]\ntime=[0.,1.1,3.2]\nformatting=[60,0b,1b,0]\nreference=Re".toList 'f'
    (by decide +kernel) (by decide) (by decide +kernel) (by decide) (by decide +kernel)
  exact this

set_option maxRecDepth 8192 in
theorem density_epochs : TextOf .ascii "epochs={\n name=Michael\nepoch=[Amazonian,Hesperian]\nformatting=[90,0,2b]\nref_diameter=[1,5]\ndensity=[160,1e6]\nreference=Ref\n}\n".toList
    [("epochs".toList, .dict (dictOf densityEpochIds))] := by
  have := definition_text (kind := "epochs") epochs_word _ _
    (name_line "name" "Michael" ⟨by decide, by decide⟩ (by decide) (by decide) (by decide) (by decide) (by decide) (by decide)
    (line_text "epoch" "[Amazonian,Hesperian]" _ ⟨by decide, by decide⟩ (by decide) (valueText_line _ (by decide) (by decide) (by decide) (by decide))
      (list_value ["Amazonian", "Hesperian"] (by simp) (by decide))
    (line_text "formatting" "[90,0,2b]" _ ⟨by decide, by decide⟩ (by decide) (valueText_line _ (by decide) (by decide) (by decide) (by decide))
      (list_value ["90", "0", "2b"] (by simp) (by decide))
    (line_text "ref_diameter" "[1,5]" _ ⟨by decide, by decide⟩ (by decide) (valueText_line _ (by decide) (by decide) (by decide) (by decide))
      (list_value ["1", "5"] (by simp) (by decide))
    (line_text "density" "[160,1e6]" _ ⟨by decide, by decide⟩ (by decide) (valueText_line _ (by decide) (by decide) (by decide) (by decide))
      (list_value ["160", "1e6"] (by simp) (by decide))
    (name_line "reference" "Ref" ⟨by decide, by decide⟩ (by decide) (by decide) (by decide) (by decide) (by decide) (by decide) nil_text))))))
    (by simp) (by decide +kernel) 'n' "ame=Michael\nepoch=[Amazonian,Hesperian]\nformatting=[90,0,2b]\nref_diameter=[1,5]\ndensity=[160,1e6]\nreference=Ref\n".toList
    "name=Michael\nepoch=[Amazonian,Hesperian]\nformatting=[90,0,2b]\nref_diameter=[1,5]\ndensity=[160,1e6]\nreference=Re".toList 'f'
    (by decide +kernel) (by decide) (by decide +kernel) (by decide) (by decide +kernel)
  exact this

/-- the list of functions with these epoch systems -/
def epochList : List Char :=
  smallList ++ ("epochs={\n name=Wilhelms\nepoch=[Copernican,Eratosthenian,Imbrian]\ntime=[0.,1.1,3.2]\nformatting=[60,0b,1b,0]\nreference=Ref\n}\n".toList ++
    "epochs={\n name=Michael\nepoch=[Amazonian,Hesperian]\nformatting=[90,0,2b]\nref_diameter=[1,5]\ndensity=[160,1e6]\nreference=Ref\n}\n".toList)

def epochDefinitions : List (List Char × TVal) :=
  smallDefinitions ++ ([("epochs".toList, .dict (dictOf listedEpochIds))] ++ [("epochs".toList, .dict (dictOf densityEpochIds))])

theorem epoch_dicts : ∀ d ∈ epochDefinitions, ∃ l, d.2 = .dict l := by
  intro d hd
  simp only [epochDefinitions, smallDefinitions, List.mem_append, List.mem_cons, List.not_mem_nil, or_false] at hd
  rcases hd with (rfl | rfl | rfl | rfl | rfl | rfl) | (rfl | rfl) <;> exact ⟨_, rfl⟩

theorem epoch_source : ∃ v, loadFunctions .ascii none ⟨epochList, fun _ => none⟩ = .ok v ∧ SourceOf .ascii (.dict v) epochDefinitions := by
  have htext : TextOf .ascii epochList epochDefinitions := by
    refine textOf_append small_text (textOf_append listed_epochs density_epochs (.inr (by decide +kernel)) ?_) (.inr (by decide +kernel)) ?_
    · intro d hd t
      obtain ⟨l, e⟩ := epoch_dicts d (List.mem_append_right _ (List.mem_append_left _ hd))
      rw [e]
      exact nofun
    · intro d hd t
      obtain ⟨l, e⟩ := epoch_dicts d (List.mem_append_left _ hd)
      rw [e]
      exact nofun
  have ht : functionText .ascii epochList = epochList := by decide +kernel
  have hlist : FunctionList .ascii epochList epochDefinitions := by
    refine ⟨by rw [ht]; exact htext, by rw [ht]; decide +kernel, ?_, ?_⟩ <;>
    · intro d hd t
      obtain ⟨l, e⟩ := epoch_dicts d hd
      rw [e]
      exact nofun
  obtain ⟨v, h1, _⟩ := C109_builtin .ascii none ⟨epochList, fun _ => none⟩ (nofun) epochDefinitions hlist (List.cons_ne_nil _ _)
  exact ⟨_, h1, .program none ⟨epochList, fun _ => none⟩ _ _ (nofun) hlist (List.cons_ne_nil _ _) h1⟩

theorem epoch_defined : EpochsDefined epochDefinitions "Wilhelms".toList listedEpochIds (["Copernican", "Eratosthenian", "Imbrian"].map String.toList) (["60", "0b", "1b", "0"].map String.toList) ∧
    EpochsDefined epochDefinitions "Michael".toList densityEpochIds (["Amazonian", "Hesperian"].map String.toList) (["90", "0", "2b"].map String.toList) := by
  have e : occurrences epochDefinitions "epochs".toList = [.dict (dictOf listedEpochIds), .dict (dictOf densityEpochIds)] := by decide +kernel
  refine ⟨⟨⟨[], _, e, by decide +kernel, by simp⟩, by unfold TextsEntry; decide +kernel, by unfold TextsEntry; decide +kernel, .str "Ref".toList, by decide +kernel⟩,
    ⟨⟨[.dict (dictOf listedEpochIds)], [], e, by decide +kernel, ?_⟩, by unfold TextsEntry; decide +kernel, by unfold TextsEntry; decide +kernel, .str "Ref".toList, by decide +kernel⟩⟩
  intro x hx
  rw [List.mem_singleton] at hx
  exact ⟨_, "Wilhelms".toList, hx, by decide +kernel, by decide +kernel⟩

/-- the names, codes and ages of the first system are those of the list -/
example : ∃ v, loadFunctions .ascii none ⟨epochList, fun _ => none⟩ = .ok v ∧ ∀ pf cf c,
    makeEpochs .ascii (.dict v) "Wilhelms".toList pf cf c = .ok ⟨"Wilhelms".toList, ["Copernican", "Eratosthenian", "Imbrian"].map String.toList, ["60", "0b", "1b", "0"].map String.toList,
      ([0, 11 / 10, 16 / 5] : List ℚ).map (fun q : ℚ => (q : ℝ))⟩ := by
  obtain ⟨v, h1, h2⟩ := epoch_source
  refine ⟨v, h1, C155_listed .ascii (.dict v) _ h2 (by show 2 ≤ _; decide +kernel) _ _ _ _ epoch_defined.1 _ ⟨["0.".toList, "1.1".toList, "3.2".toList], by decide +kernel,
    .cons (by decide +kernel) (.cons (by decide +kernel) (.cons (by decide +kernel) .nil))⟩ (by unfold NoEntry; decide +kernel) (by unfold NoEntry; decide +kernel)⟩

theorem epoch_functions : FunctionsDefined epochDefinitions ⟨"Moon, Neukum (1983)".toList, "c".toList, "p".toList, "Moon".toList⟩ [0, 0, 0, 2] [0, -1] (1, 2.5) := by
  have e1 : occurrences epochDefinitions "chronology".toList = [.dict (dictOf (functionIds "c" ["0", "0", "0", "2"])),
      .dict (dictOf (functionIds "c2" ["5e-14", "7", "0", "8e-4"]))] := by decide +kernel
  have e2 : occurrences epochDefinitions "production".toList = [.dict (dictOf (rangedIds "p" ["0", "-1"] ["1", "2.5"])),
      .dict (dictOf (functionIds "h" ["0", "-2"]))] := by decide +kernel
  refine ⟨⟨_, ⟨[], _, e1, by decide +kernel, by simp⟩, ["0".toList, "0".toList, "0".toList, "2".toList], by decide +kernel,
    .cons (by decide +kernel) (.cons (by decide +kernel) (.cons (by decide +kernel) (.cons (by decide +kernel) .nil)))⟩,
    _, ⟨[], _, e2, by decide +kernel, by simp⟩, .inl (by unfold NoEntry; decide +kernel), ⟨["0".toList, "-1".toList], by decide +kernel,
      .cons (by decide +kernel) (.cons (by decide +kernel) .nil)⟩, .inr ⟨1, 5 / 2, ⟨["1".toList, "2.5".toList], by decide +kernel,
      .cons (by decide +kernel) (.cons (by decide +kernel) .nil)⟩, by norm_num⟩, .inl (by unfold NoEntry; decide +kernel)⟩

/-- the second system: a million craters of 5 km in 10⁶ km², with 2 craters of 1 km per Ga and km², and numbers falling with the diameter: 2.5 Ga -/
example (cf : CurveFit) (hcf : CurveFitSpec cf) : ∃ v c f t, ∃ x : ℝ, loadFunctions .ascii none ⟨epochList, fun _ => none⟩ = .ok v ∧
    makeChronology .ascii (.dict v) "c".toList = .ok c ∧ makeProduction .ascii (.dict v) "p".toList false = .ok (some f) ∧
    makeEpochs .ascii (.dict v) "Michael".toList f cf c = .ok ⟨"Michael".toList, ["Amazonian", "Hesperian"].map String.toList, ["90", "0", "2b"].map String.toList, 0 :: t⟩ ∧
    t.length = 2 ∧ t[1]? = some x ∧ x ≤ 2.5 ∧ 2.5 - 5 / 999 < x := by
  obtain ⟨v, h1, h2⟩ := epoch_source
  have hcn : 2 ≤ (occurrences epochDefinitions "chronology".toList).length := by decide +kernel
  have hpn : 2 ≤ (occurrences epochDefinitions "production".toList).length := by decide +kernel
  obtain ⟨⟨cids, c1, c2⟩, pids, p1, p2, p3, p4, p5⟩ := epoch_functions
  obtain ⟨c, hc, _⟩ := C132_chronology .ascii (.dict v) _ h2 hcn _ cids c1 0 0 0 2 [] c2
  obtain ⟨f, hf, _⟩ := C132_polynomial .ascii (.dict v) _ h2 false _ rfl hpn _ pids p1 p2 0 [-1] p3 (1, 2.5) p4 p5
  obtain ⟨t, t1, t2, t3, t4⟩ := C155_densities_partial .ascii v _ h2 (by decide +kernel) hcn hpn _ _ _ _ epoch_defined.2 [1, 5]
    ⟨["1".toList, "5".toList], by decide +kernel, .cons (by decide +kernel) (.cons (by decide +kernel) .nil)⟩ [160, 1000000]
    ⟨["160".toList, "1e6".toList], by decide +kernel, .cons (by decide +kernel) (.cons (by decide +kernel) .nil)⟩ (by unfold NoEntry; decide +kernel)
    (by decide) (by decide +kernel) ⟨"Moon, Neukum (1983)".toList, "c".toList, "p".toList, "Moon".toList⟩ 0 0 0 2 [] le_rfl le_rfl (by norm_num)
    (.inl ⟨0, [-1], (1, 2.5), epoch_functions⟩) c hc f hf cf hcf
  have hlen : t.length = 2 := by simpa using t2
  obtain ⟨x, hx⟩ : ∃ x, t[1]? = some x := ⟨_, List.getElem?_eq_getElem (by omega)⟩
  obtain ⟨_, y2⟩ := t4 1 5 1000000 x rfl rfl hx
  refine ⟨v, c, f, t, x, h1, hc, hf, t1, hlen, hx, ?_⟩
  have e : curveAt 0 [-1] ((5 : ℤ) : ℝ) = 1 / 5 := by
    unfold curveAt
    simp [List.zipIdx_cons]
    rw [Real.rpow_neg (by norm_num), Real.rpow_logb (by norm_num) (by norm_num) (by norm_num)]
  have := (y2 _ (.inl ⟨0, [-1], (1, 2.5), epoch_functions, rfl⟩) (5 / 2) (by norm_num) (by rw [e]; norm_num)).1 (by norm_num)
  norm_num at this ⊢
  exact this

/-- a command with an epoch system -/
example : ∃ flat, CommandOf (fun _ => false) (["-ep", "wil"].map String.toList) flat ∧
    Expands .ascii (fun _ => false) ageFiles "/u/".toList flat flat "/u/".toList 0 ∧
    NameAsked Char.toLower ["Wilhelms".toList, "Michael".toList] flat "epochs" (some "Wilhelms".toList) ∧ NameAsked Char.toLower ["Hartmann".toList] flat "equilibrium" none := by
  refine ⟨[⟨"epochs".toList, ["wil".toList]⟩], (C133_grammar _ _ _).1 (by decide +kernel), ?_, .inr ⟨_, 0, _, ⟨[], [], rfl, by simp⟩, ?_, rfl, rfl⟩, .inl ⟨by decide +kernel, rfl⟩⟩
  · exact .option _ _ _ _ _ _ (by unfold Loads; decide +kernel) (admissible_ok (by decide +kernel)) (.nil _ _)
  · have h : decodeAbbreviation Char.toLower ["Wilhelms".toList, "Michael".toList] "wil".toList true false = .ok 0 := by decide +kernel
    obtain ⟨i, e, hi⟩ := (decode_iff _ (by decide +kernel) _ _).1 h
    obtain rfl : i = 0 := by exact_mod_cast e.symm
    exact hi

end

end Verif.Props
