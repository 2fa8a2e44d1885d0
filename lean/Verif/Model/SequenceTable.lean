import Verif.Model.Age

/-!
Model of `create_sequence_table` (`src/craterstats/Craterplotset.py` 745-802).

Simplifications: exact reals; the table is represented by its numbers, not by its text (the texts are `sigfigs` of the numbers);
`np.product` (removed in numpy 2) is taken to be the product.
-/

namespace Verif.SequenceTable
open Verif.Py Verif.Cratercount Verif.Chronology Verif.Production Verif.Craterpdf Verif.Age

noncomputable section

/-- what the table uses of a plot -/
structure Plot where
  type : List Char
  hide : Bool
  name : List Char
  count : Source
  range : EReal × EReal

/-- what is written -/
structure Table where
  names : List (List Char)
  /-- probability that the plot of the row is older than that of the column -/
  older : List (List ℝ)
  medians : List ℝ
  mean : ℝ
  worse : ℝ

/-- Craterplotset.py:755 -/
def selected (plots : List Plot) : List Plot :=
  plots.filter (fun p => decide (p.type ∈ ["poisson".toList, "buffered-poisson".toList]) && !p.hide)

/-- Craterplotset.py:745-802; `none` is a return without a table (line 757).  `calculate_age` is called for each plot selected
(761); `bcc` is its type being 'b-poisson' (Craterplot.py:77). -/
def create (pf : PFn) (c : Chron) (simpson : Simpson) (ref : ℝ) (plots : List Plot) : Except Err (Option Table) :=
  let cpl := selected plots
  if cpl.length < 2 then .ok none
  else do
    let ages ← cpl.mapM (fun p => poissonAge pf c simpson p.count p.range (decide (p.type = "b-poisson".toList)) ref)
    let pdfs := ages.map PoissonAge.pdf
    let older := pdfs.map (fun p => pdfs.map (fun q => p.sequenceProbability q))
    let t := pdfs.map (fun p => p.t 0.5)
    let mean := t.sum / t.length
    let n0 ← c.N1 mean
    let ratios ← t.mapM (fun tt => do fdiv (← c.N1 tt) n0)
    let pdf2 ← (ratios.zip (cpl.zip pdfs)).mapM (fun x =>
      Craterpdf.init pf c simpson x.2.1.count (x.2.1.range.1.toReal) (x.2.1.range.2.toReal) (some x.2.2.k)
        (some (x.2.2.lam.map (fun l => l * x.1))) false 5000)
    let products := (List.range 5000).map (fun i => (pdf2.map (fun p => p.pdf.getD i 0)).prod)
    let dt := (pdf2.headD ⟨0, [], [], [], [], []⟩).dt
    let compound := (List.zipWith (fun p t0 => p.relativeProbability t0) pdf2 t).prod
    let weights := List.zipWith (· * ·) dt products
    let worse ← fdiv (List.zipWith (fun w p => if p < compound then w else 0) weights products).sum weights.sum
    .ok (some { names := cpl.map Plot.name, older := older, medians := t, mean := mean, worse := worse })

end

end Verif.SequenceTable
