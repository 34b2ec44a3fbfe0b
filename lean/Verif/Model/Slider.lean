import Verif.Model.Report
import Verif.Model.SwingEr

/-!
Model of the two figures with a slider: the sizing curve of a system (`DHWSystem.py:773-825`) and the trade-off curve of the
electric resistance element (`SwingERTrdOffSystem.py:633-713`). Colours, texts, hover templates and axis titles are left out.
-/

namespace Eco
variable {K : Type} [Field K] [LinearOrder K]

/-- A figure: the points of each trace, which traces are visible at first, what each slider step makes visible and the
values its label names, and the step that is active at first. -/
structure SliderFig (α β : Type) where
  traces : List (List (α × β))
  shown : List Bool
  steps : List (List Bool × List α × List β)
  active : Int
  deriving DecidableEq

/-- The marker of point `i` (`DHWSystem.py:787-789`, `SwingERTrdOffSystem.py:649-652`). -/
def markerTrace {α β : Type} (x : List α) (y : List β) (i : Nat) : Py (List (α × β)) := do
  let a ← pyGet x i
  let b ← pyGet y i
  return [(a, b)]

/-- A slider step of the sizing figure (`DHWSystem.py:797-803`) with its label (`:732-736`, `:765-770`; `extra` are the run
hours, which only the figure without load shifting names). The label is rounded when printed. -/
def sizingStep (x y : List K) (extra : Option (List K)) (i : Nat) : Py (List Bool × List K × List K) := do
  let a ← pyGet x i
  let b ← pyGet y i
  let h ← extra.mapM (fun l => pyGet l i)
  return (true :: (List.range x.length).map (fun j => decide (j = i)), [a], b :: h.toList)

/-- The figure of a sizing curve (`DHWSystem.py:773-825`). -/
def sizingFigure (pl : CurvePlot K) (extra : Option (List K)) : Py (SliderFig K K) := do
  let markers ← (List.range pl.x.length).mapM (markerTrace pl.x pl.y)
  let steps ← (List.range pl.x.length).mapM (sizingStep pl.x pl.y extra)
  return ⟨pl.x.zip pl.y :: markers, true :: (List.range pl.x.length).map (fun i : Nat => decide ((i : Int) = pl.start)), steps,
    pl.start⟩

/-- `plot_sizing_curve` from the curve to the figure, without load shifting (`DHWSystem.py:740-825`). -/
def curveFigure (cv : Curve K) : Py (SliderFig K K) :=
  sizingFigure (plotOfCurve cv) (some (cv.points.map (·.1)).reverse)

/-- `plot_sizing_curve` from the curve to the figure, with load shifting (`DHWSystem.py:717-737`, `:771-825`). -/
def lsCurveFigure (cv : Curve K) : Py (SliderFig K K) := sizingFigure (plotOfLsCurve cv) none

/-- A slider step of the trade-off figure (`SwingERTrdOffSystem.py:677-692`), for trace `i + 1` of `n`. -/
def erFigureStep (percents : List Nat) (kw : List Int) (n i : Nat) : Py (List Bool × List Nat × List Int) := do
  let a ← pyGet percents i
  let b ← pyGet kw i
  return (((List.replicate n false).set 0 true).set (i + 1) true, [a], [b])

/-- The trade-off figure (`SwingERTrdOffSystem.py:633-713`). -/
def erFigure (c : ErCurve K) : Py (SliderFig Nat Int) := do
  let markers ← (List.range c.percents.length).mapM (markerTrace c.percents c.kw)
  let n := markers.length + 1
  let shown := true :: List.replicate markers.length false
  if n ≤ c.start + 1 then .error .indexError
  else do
    let steps ← (List.range (n - 1)).mapM (erFigureStep c.percents c.kw n)
    return ⟨c.percents.zip c.kw :: markers, shown.set (c.start + 1) true, steps, c.start⟩

/-- `get_er_sizing_curve` (`SwingERTrdOffSystem.py:611-713`): the object and building left behind, and the figure. -/
def ErSys.getErSizingCurve [FloorRing K] (e : ErSys K) (b : Building K) (extra : K) :
    (ErSys K × Building K) × Py (SliderFig Nat Int) :=
  let r := e.getErSizedPoints b extra
  (r.1, r.2 >>= erFigure)

end Eco
