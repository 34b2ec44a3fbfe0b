import Verif.Model.Slider

/-! What a user sees of a figure with a slider. -/

namespace Eco.Spec

variable {α β : Type}

/-- The traces that are drawn when `vis` says which are visible. -/
def drawn (fig : SliderFig α β) (vis : List Bool) : List (List (α × β)) :=
  ((fig.traces.zip vis).filter (·.2)).map (·.1)

/-- The figure draws the whole curve of `pts` and, as the only marker, the point at `start`; its slider stands there; and
moving the slider to any `i` draws the whole curve and the point at `i` as the only marker, and shows a label that begins
with the two values of this point. -/
structure SliderShows (fig : SliderFig α β) (pts : List (α × β)) (start : Nat) : Prop where
  inside : start < pts.length
  stands : fig.active = start
  first : ∃ p, pts[start]? = some p ∧ drawn fig fig.shown = [pts, [p]]
  stops : fig.steps.length = pts.length
  moved : ∀ (i : ℕ) (p : α × β), pts[i]? = some p → ∃ (vis : List Bool) (xs : List α) (ys : List β), fig.steps[i]? = some (vis, xs, ys) ∧ drawn fig vis = [pts, [p]] ∧
    xs.head? = some p.1 ∧ ys.head? = some p.2

end Eco.Spec
