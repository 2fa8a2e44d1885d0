import Verif.Model.MapPlot
import Verif.Model.Plotting
import Verif.Model.Format
import Verif.Py.Num

/-!
Model of the grid lines of a map (`/repo/src/craterstats/Spatialcount.py`: `plot` 387-407, with `grid=True` as in
`/repo/src/craterstats/cli.py:340-341`).

The projection and its inverse (pyproj) are data of the model, `none` standing for infinite coordinates.  `ρ` gives the (rational) floating
point number of a real number, for the labels.  Colours, line widths and sizes of the text are left out.
-/

namespace Verif.MapGrid

open Verif.Py Verif.Spatial Verif.Misc Verif.Plotting Verif.MapPlot Verif.Text

noncomputable section

/-- Spatialcount.py:345, 372-373, 381-382: the range `xr0` (or `yr0`) of what is shown -/
def dataRange (areas rims : List (List ℝ)) : Except Exc (ℝ × ℝ) := do
  let a ← areas.foldlM growArea none
  let b ← rims.foldlM growRim a
  match b with
  | none => .error .type
  | some r => .ok r

/-- `np.clip(v, lo, hi)` of the coordinate of a place; infinite coordinates become the upper limit -/
def clipTo (r : ℝ × ℝ) (v : Option ℝ) : ℝ :=
  match v with
  | some x => min (max x r.1) r.2
  | none => r.2

/-- a grid line: the longitude or latitude, the projected places, the text and its place -/
structure GridLine where
  value : ℝ
  places : List (Option (ℝ × ℝ))
  label : List Char
  labelAt : ℝ × ℝ

/-- Spatialcount.py:398-402, 403-407: `f'{lat:.7g}°'` -/
def degreeLabel (ρ : ℝ → ℚ) (v : ℝ) : List Char := gStr 6 (ρ v) ++ "°".toList

/-- Spatialcount.py:399-402: the parallel of latitude `lat`; the text stands at its last place -/
def parallel (proj : ℝ × ℝ → Option (ℝ × ℝ)) (ρ : ℝ → ℚ) (offset : ℝ) (xr yr : ℝ × ℝ) (w e dlat lat : ℝ) : GridLine :=
  let pts := (linspace (w - dlat) (e + dlat) 50).map (fun lon => proj (lon, lat))
  let end_ := (pts.getLast?.getD none)
  ⟨lat, pts, degreeLabel ρ lat, (clipTo xr (end_.map Prod.fst), clipTo yr (end_.map Prod.snd) - offset)⟩

/-- Spatialcount.py:403-407: the meridian of longitude `lon`; the text stands at its first place, after a space -/
def meridian (proj : ℝ × ℝ → Option (ℝ × ℝ)) (ρ : ℝ → ℚ) (xr yr : ℝ × ℝ) (s n dlon lon : ℝ) : GridLine :=
  let pts := (linspace (s - dlon) (n + dlon) 50).map (fun lat => proj (lon, lat))
  let end_ := (pts.head?.getD none)
  ⟨lon, pts, ' ' :: degreeLabel ρ lon, (clipTo xr (end_.map Prod.fst), clipTo yr (end_.map Prod.snd))⟩

/-- Spatialcount.py:391-392: `gm.ticks(lonr, 6)`.  With an infinite value the number of ticks is nan, and `np.arange` raises a ValueError.
The outer `none`: the loop has not ended. -/
def gridTicks (fuel : ℕ) (a b : Option ℝ) : Option (Except Exc Ticks) :=
  match a, b with
  | some a, some b => ticks fuel [a, b] (some 6)
  | _, _ => some (.error .value)

/-- Spatialcount.py:388-407: parallels and meridians.  Lines 395-396: the first two ticks; `[1:-1]`: without the first and last. -/
def mapGrid (fuel : ℕ) (proj inv : ℝ × ℝ → Option (ℝ × ℝ)) (ρ : ℝ → ℚ) (offset : ℝ) (xr0 yr0 xr yr : ℝ × ℝ) :
    Option (Except Exc (List GridLine × List GridLine)) :=
  let c0 := inv (xr0.1, yr0.1)
  let c1 := inv (xr0.2, yr0.2)
  match gridTicks fuel (c0.map Prod.fst) (c1.map Prod.fst), gridTicks fuel (c0.map Prod.snd) (c1.map Prod.snd) with
  | none, _ => none
  | some (.error e), _ => some (.error e)
  | some (.ok _), none => none
  | some (.ok _), some (.error e) => some (.error e)
  | some (.ok tx), some (.ok ty) =>
    match tx.values, ty.values with
    | w :: w' :: xs, s :: s' :: ys =>
      let e := (w' :: xs).getLast (by simp)
      let n := (s' :: ys).getLast (by simp)
      some (.ok (((s' :: ys).dropLast.map (fun lat => parallel proj ρ offset xr yr w e (s' - s) lat)),
        ((w' :: xs).dropLast.map (fun lon => meridian proj ρ xr yr s n (w' - w) lon))))
    | _, _ => some (.error .index)

/-- Spatialcount.py:334-410 with `grid=True`: limits of the axes, parallels and meridians -/
def mapPlot (fuel : ℕ) (proj inv : ℝ × ℝ → Option (ℝ × ℝ)) (ρ : ℝ → ℚ) (offset : ℝ) (outlines rims : List Ring) :
    Option (Except Exc (((ℝ × ℝ) × (ℝ × ℝ)) × List GridLine × List GridLine)) :=
  let r : Except Exc (((ℝ × ℝ) × (ℝ × ℝ)) × ((ℝ × ℝ) × (ℝ × ℝ))) := do
    let l ← mapLimits proj true outlines rims
    let a ← outlines.mapM (projectRing proj)
    let r ← rims.mapM (projectRing proj)
    let x ← dataRange (a.map (fun l => l.map Prod.fst)) (r.map (fun l => l.map Prod.fst))
    let y ← dataRange (a.map (fun l => l.map Prod.snd)) (r.map (fun l => l.map Prod.snd))
    .ok (l, x, y)
  match r with
  | .error e => some (.error e)
  | .ok (l, x, y) => (mapGrid fuel proj inv ρ offset x y l.1 l.2).map (fun g => g.map (fun g => (l, g)))

end

end Verif.MapGrid
