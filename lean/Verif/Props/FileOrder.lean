import Verif.Props.FileAge
import Verif.Props.Resolved
import Verif.Props.MergedFile

/-!
C149: comparing the ages of crater files.  C150: ages of converted and merged spatial counts.
-/

namespace Verif.Props

open Verif.Py Verif.Text Verif.Spec Verif.CountFile Verif.Cratercount Verif.Chronology Verif.Production Verif.Craterpdf Verif.Age Verif.FileAge

noncomputable section

/-- Specification: how many of the diameters lie in a range which includes its lower and not its upper limit -/
def numberIn (diam : List ℚ) (lo hi : ℝ) : ℕ := diam.countP (fun d : ℚ => decide (lo ≤ (d : ℝ) ∧ (d : ℝ) < hi))

theorem count_listed {k : Reading.Count} {diam frac : List ℚ} (hk : k.craters.Perm ((diam.zip frac).map (fun x => ((x.1 : ℝ), (x.2 : ℝ)))))
    (hl : frac.length = diam.length) (lo hi : ℝ) : countK none (source (.craters k)) lo hi = (numberIn diam lo hi : ℝ) := by
  have e := hk.map Prod.fst
  rw [zip_firsts (fun q => (q : ℝ)) hl] at e
  rw [source, count_perm e]
  have key : ∀ l : List ℝ, countK none ⟨some l, [], k.area, k.perimeter⟩ lo hi = ((l.filter (fun e => decide (lo ≤ e ∧ e < hi))).length : ℝ) := by
    intro l
    cases l with
    | nil => simp [countK]
    | cons d l => rfl
  rw [key, ← List.countP_eq_length_filter, reals, List.countP_map]
  rfl

/-- **C149, only craters in the range matter.** Files with the same area and the same number of craters in the diameter range, within the range of
the production function, have the same Poisson age: no number of its result differs. -/
theorem C149_outside_partial (C : Classes) (shp : Except Exc Reading.Count) (file file' : List Char) (diam frac diam' frac' : List ℚ) (a : ℚ)
    (h : ListsCraters C file diam frac a) (h' : ListsCraters C file' diam' frac' a) :
    ∃ o o', openCount C shp ".diam".toList file = .ok o ∧ openCount C shp ".diam".toList file' = .ok o' ∧
      ∀ (pf : PFn) (c : Chron) (simpson : Simpson) (range : EReal × EReal) (bcc : Bool) (ref lo hi : ℝ),
        lo = clipE range.1 pf.range.1 pf.range.2 → hi = clipE range.2 pf.range.1 pf.range.2 → numberIn diam lo hi = numberIn diam' lo hi →
        ageOf pf c simpson o range bcc ref = ageOf pf c simpson o' range bcc ref := by
  obtain ⟨k, ho, hk, ha, hper, _, hlen, _⟩ := open_lists shp h
  obtain ⟨k', ho', hk', ha', hper', _, hlen', _⟩ := open_lists shp h'
  refine ⟨_, _, ho, ho', ?_⟩
  intro pf c simpson range bcc ref lo hi elo ehi hn
  unfold ageOf poissonAge Craterpdf.init lams
  rw [← elo, ← ehi, count_listed hk hlen, count_listed hk' hlen', hn]
  simp only [source, ha, ha', hper, hper']

/-- the parts of a Poisson age -/
theorem age_parts {pf : PFn} {c : Chron} {simpson : Simpson} {o : Opened} {range : EReal × EReal} {bcc : Bool} {ref : ℝ} {r : PoissonAge}
    (h : ageOf pf c simpson o range bcc ref = .ok r) :
    Craterpdf.init pf c simpson (source o) (clipE range.1 pf.range.1 pf.range.2) (clipE range.2 pf.range.1 pf.range.2) none none bcc 5000 = .ok r.pdf ∧
    r.t = r.pdf.median1sigma ∧ r.n = r.pdf.k := by
  unfold ageOf poissonAge at h
  obtain ⟨pdf, e1, h⟩ := except_bind_eq_ok h
  dsimp only at h
  obtain ⟨a0, _, h⟩ := except_bind_eq_ok h
  obtain ⟨nd, _, h⟩ := except_bind_eq_ok h
  injection h with h
  subst h
  exact ⟨e1, rfl, rfl⟩

/-- Specification: the ages of the time scale reach from less than the age of `m` craters on the area `a` (or of one crater) to more than that of `m'`:
the expected numbers of craters in the range on the youngest and the oldest sampled isochron, of densities between 10⁻¹⁰ and 10⁵ times that of 1 Ga -/
def ScaleReaches (pf : PFn) (N1 lo hi a : ℝ) (m m' : ℕ) : Prop :=
  (∀ Nlo Nhi, pf.C lo (log10 (sampleDensity N1 5000 0)) = .ok Nlo → pf.C hi (log10 (sampleDensity N1 5000 0)) = .ok Nhi →
    (Nlo - Nhi) * a ≤ max (m : ℝ) 1) ∧
  ∀ Nlo Nhi, pf.C lo (log10 (sampleDensity N1 5000 4999)) = .ok Nlo → pf.C hi (log10 (sampleDensity N1 5000 4999)) = .ok Nhi →
    (m' : ℝ) ≤ (Nlo - Nhi) * a

/-- the first and last expected numbers -/
theorem scale_ends {C : Classes} {shp : Except Exc Reading.Count} {file : List Char} {diam frac : List ℚ} {a : ℚ}
    (h : ListsCraters C file diam frac a) {pf : PFn} (hf : Constructed pf) {c : Chron} {simpson : Simpson} {range : EReal × EReal} {ref : ℝ}
    {p0 p1 p3 : ℝ} (hc : GoodChron c p0 p1 p3) {N1 : ℝ} (hN : c.N1 1 = .ok N1) (h1 : N1 ≠ 1) {o : Opened}
    (ho : openCount C shp ".diam".toList file = .ok o) {r : PoissonAge} (hr : ageOf pf c simpson o range false ref = .ok r) {lo hi : ℝ}
    (elo : lo = clipE range.1 pf.range.1 pf.range.2) (ehi : hi = clipE range.2 pf.range.1 pf.range.2) {m m' : ℕ}
    (hs : ScaleReaches pf N1 lo hi a m m') : (∀ l ∈ r.pdf.lam.head?, l ≤ max (m : ℝ) 1) ∧ (∀ l ∈ r.pdf.lam.getLast?, (m' : ℝ) ≤ l) ∧
      r.pdf.k = (numberIn diam lo hi : ℝ) := by
  obtain ⟨o', ho', g⟩ := C144_age_partial C shp file diam frac a h pf hf c simpson range ref p0 p1 p3 hc N1 hN h1
  rw [ho] at ho'
  injection ho' with ho'
  subst ho'
  obtain ⟨lo', hi', e1, e2, hn, g⟩ := g r hr
  rw [← elo] at e1
  rw [← ehi] at e2
  subst e1 e2
  obtain ⟨i1, _, hk⟩ := age_parts hr
  obtain ⟨_, _, _, _, _, b⟩ := built i1
  obtain ⟨_, _, l1, _⟩ := b.props hc
  refine ⟨?_, ?_, ?_⟩
  · intro l hl
    obtain ⟨Nlo, Nhi, t, q1, q2, q3, _⟩ := g 0 (by norm_num)
    rw [List.head?_eq_getElem?, q3] at hl
    have hl : (Nlo - Nhi) * (a : ℝ) = l := by simpa using hl
    rw [← hl]
    exact hs.1 _ _ q1 q2
  · intro l hl
    obtain ⟨Nlo, Nhi, t, q1, q2, q3, _⟩ := g 4999 (by norm_num)
    rw [List.getLast?_eq_getElem?, l1] at hl
    rw [q3] at hl
    have hl : (Nlo - Nhi) * (a : ℝ) = l := by simpa using hl
    rw [← hl]
    exact hs.2 _ _ q1 q2
  · rw [← hk, hn, numberIn]

/-- **C149, more craters.** Of two files with the same area, the one listing more craters in the diameter range has no smaller age, nor a smaller
lower or upper limit of the age. -/
theorem C149_more_craters_partial (C : Classes) (shp : Except Exc Reading.Count) (file file' : List Char) (diam frac diam' frac' : List ℚ) (a : ℚ)
    (h : ListsCraters C file diam frac a) (h' : ListsCraters C file' diam' frac' a) :
    ∃ o o', openCount C shp ".diam".toList file = .ok o ∧ openCount C shp ".diam".toList file' = .ok o' ∧
      ∀ (pf : PFn) (c : Chron) (simpson : Simpson) (range : EReal × EReal) (ref lo hi p0 p1 p3 N1 : ℝ), Constructed pf → GoodChron c p0 p1 p3 →
        0.0001 ≤ p3 → c.N1 1 = .ok N1 → N1 ≠ 1 → lo = clipE range.1 pf.range.1 pf.range.2 → hi = clipE range.2 pf.range.1 pf.range.2 →
        numberIn diam lo hi ≤ numberIn diam' lo hi → numberIn diam' lo hi ≤ 1000000 →
        ScaleReaches pf N1 lo hi a (numberIn diam lo hi) (numberIn diam' lo hi) →
        ∀ r r', ageOf pf c simpson o range false ref = .ok r → ageOf pf c simpson o' range false ref = .ok r' → List.Forall₂ (· ≤ ·) r.t r'.t := by
  obtain ⟨k, ho, hk, ha, hper, _, hlen, _⟩ := open_lists shp h
  obtain ⟨k', ho', hk', ha', hper', _, hlen', _⟩ := open_lists shp h'
  refine ⟨_, _, ho, ho', ?_⟩
  intro pf c simpson range ref lo hi p0 p1 p3 N1 hf hc hp3 hN h1 elo ehi hle hmax hs r r' hr hr'
  obtain ⟨i1, t1, _⟩ := age_parts hr
  obtain ⟨i2, t2, _⟩ := age_parts hr'
  obtain ⟨e1, e2, e3⟩ := scale_ends h hf hc hN h1 ho hr elo ehi hs
  obtain ⟨_, _, e3'⟩ := scale_ends h' hf hc hN h1 ho' hr' elo ehi hs
  have key := fun q => C25_more_craters pf c simpson _ _ _ _ none none false 5000 p0 p1 p3 hc r.pdf r'.pdf (by simp only [source, ha, ha'])
    (by simp only [source, hper, hper']) i1 i2 _ _ e3 e3' hle le_rfl hp3 hmax e1 e2 q
  rw [t1, t2, Pdf.median1sigma, Pdf.median1sigma]
  exact .cons (key _) (.cons (key _) (.cons (key _) .nil))

/-- **C149, larger area.** Of two files listing the same number of craters in the diameter range, the one with the larger area has no greater age,
nor a greater lower or upper limit of the age. -/
theorem C149_more_area_partial (C : Classes) (shp : Except Exc Reading.Count) (file file' : List Char) (diam frac diam' frac' : List ℚ) (a a' : ℚ)
    (h : ListsCraters C file diam frac a) (h' : ListsCraters C file' diam' frac' a') (hpos : 0 < a) (hle : a ≤ a') :
    ∃ o o', openCount C shp ".diam".toList file = .ok o ∧ openCount C shp ".diam".toList file' = .ok o' ∧
      ∀ (pf : PFn) (c : Chron) (simpson : Simpson) (range : EReal × EReal) (ref lo hi p0 p1 p3 N1 : ℝ) (m : ℕ), Constructed pf → GoodChron c p0 p1 p3 →
        0.0001 ≤ p3 → c.N1 1 = .ok N1 → N1 ≠ 1 → lo = clipE range.1 pf.range.1 pf.range.2 → hi = clipE range.2 pf.range.1 pf.range.2 →
        numberIn diam lo hi = m → numberIn diam' lo hi = m → m ≤ 1000000 → ScaleReaches pf N1 lo hi a m m → ScaleReaches pf N1 lo hi a' m m →
        ∀ r r', ageOf pf c simpson o range false ref = .ok r → ageOf pf c simpson o' range false ref = .ok r' → List.Forall₂ (· ≤ ·) r'.t r.t := by
  obtain ⟨k, ho, hk, ha, hper, _, hlen, _⟩ := open_lists shp h
  obtain ⟨k', ho', hk', ha', hper', _, hlen', _⟩ := open_lists shp h'
  refine ⟨_, _, ho, ho', ?_⟩
  intro pf c simpson range ref lo hi p0 p1 p3 N1 m hf hc hp3 hN h1 elo ehi hm hm' hmax hs hs' r r' hr hr'
  obtain ⟨i1, t1, _⟩ := age_parts hr
  obtain ⟨i2, t2, _⟩ := age_parts hr'
  obtain ⟨e1, e2, e3⟩ := scale_ends h hf hc hN h1 ho hr elo ehi hs
  obtain ⟨e1', e2', e3'⟩ := scale_ends h' hf hc hN h1 ho' hr' elo ehi hs'
  rw [hm] at e3
  rw [hm'] at e3'
  have key := fun q => C25_more_area pf c simpson _ _ _ _ none none 5000 p0 p1 p3 hc r.pdf r'.pdf
    (by simp only [source, ha]; exact_mod_cast hpos) (by simp only [source, ha, ha']; exact_mod_cast hle) i1 i2 m e3 e3' le_rfl hp3 hmax e1' e2 e1 e2' q
  rw [t1, t2, Pdf.median1sigma, Pdf.median1sigma]
  exact .cons (key _) (.cons (key _) (.cons (key _) .nil))

/-- two files of three and four craters between 1 and 4 km, and a time scale which reaches far enough -/
example (C : Classes) : ListsCraters C (writeTextfile ['\n'] false (sampleLines "10".toList "fraction".toList [(1, 1), (3 / 2, 1 / 2), (2, 1)]))
      [1, 3 / 2, 2] [1, 1 / 2, 1] 10 ∧
    ListsCraters C (writeTextfile ['\n'] false (sampleLines "10".toList "fraction".toList [(1, 1), (3, 1), (3 / 2, 1 / 2), (2, 1)]))
      [1, 3, 3 / 2, 2] [1, 1, 1 / 2, 1] 10 ∧ numberIn [1, 3 / 2, 2] 1 4 = 3 ∧ numberIn [1, 3, 3 / 2, 2] 1 4 = 4 ∧
    ScaleReaches (initPoly [0, -1] (some (1, 4))) 2 1 4 ((10 : ℚ) : ℝ) 3 4 ∧ ScaleReaches (initPoly [0, -1] (some (1, 4))) 2 1 4 ((20 : ℚ) : ℝ) 3 3 := by
  have hC : ∀ d a0 N : ℝ, 0 < d → (initPoly [0, -1] (some (1, 4))).C d a0 = .ok N → N = (10 : ℝ) ^ a0 / d := by
    intro d a0 N hd h
    rw [initPoly, PFn.C, polyC_eq hd] at h
    injection h with h
    rw [← h, List.tail_cons, poly_cons, poly_cons, poly_nil, mul_zero, add_zero, mul_neg_one, Real.rpow_add (by norm_num), Real.rpow_neg (by norm_num),
      pow10_log10 hd]
    rfl
  have hlow : (10 : ℝ) ^ log10 (sampleDensity 2 5000 0) ≤ 1 / 1000 := by
    rw [pow10_log10 (sample_log (by norm_num) _ _).1, sampleDensity]
    norm_num
  have hhigh : 1000 ≤ (10 : ℝ) ^ log10 (sampleDensity 2 5000 4999) := by
    rw [pow10_log10 (sample_log (by norm_num) _ _).1, sampleDensity]
    norm_num
  have hs : ∀ (a : ℝ) (m m' : ℕ), 10 ≤ a → a ≤ 20 → m' ≤ 4 → ScaleReaches (initPoly [0, -1] (some (1, 4))) 2 1 4 a m m' := by
    intro a m m' h1 h2 h3
    have h3 : (m' : ℝ) ≤ 4 := by exact_mod_cast h3
    refine ⟨fun Nlo Nhi g1 g2 => ?_, fun Nlo Nhi g1 g2 => ?_⟩
    · rw [hC _ _ _ (by norm_num) g1, hC _ _ _ (by norm_num) g2]
      refine le_trans ?_ (le_max_right _ _)
      nlinarith
    · rw [hC _ _ _ (by norm_num) g1, hC _ _ _ (by norm_num) g2]
      nlinarith
  refine ⟨⟨_, _, "10".toList, sample_text C "10".toList "fraction".toList ⟨by decide, by decide +kernel⟩ ⟨by decide, by decide +kernel⟩ (by decide +kernel) _,
    ⟨_, rfl, .cons (by decide +kernel) (.cons (by decide +kernel) (.cons (by decide +kernel) .nil))⟩, by simp, rfl,
    .inl ⟨⟨_, rfl, .cons (by decide +kernel) (.cons (by decide +kernel) (.cons (by decide +kernel) .nil))⟩, rfl⟩, rfl, by decide +kernel⟩, ⟨_, _,
    "10".toList, sample_text C "10".toList "fraction".toList ⟨by decide, by decide +kernel⟩ ⟨by decide, by decide +kernel⟩ (by decide +kernel) _,
    ⟨_, rfl, .cons (by decide +kernel) (.cons (by decide +kernel) (.cons (by decide +kernel) (.cons (by decide +kernel) .nil)))⟩, by simp, rfl,
    .inl ⟨⟨_, rfl, .cons (by decide +kernel) (.cons (by decide +kernel) (.cons (by decide +kernel) (.cons (by decide +kernel) .nil)))⟩, rfl⟩, rfl,
    by decide +kernel⟩, ?_, ?_, hs _ _ _ (by norm_num) (by norm_num) (by norm_num), hs _ _ _ (by norm_num) (by norm_num) (by norm_num)⟩
  · norm_num [numberIn]
  · norm_num [numberIn]

end

end Verif.Props
