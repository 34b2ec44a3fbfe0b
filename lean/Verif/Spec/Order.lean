import Verif.Spec.Unused
import Verif.Model.MultiPass

/-! The same heaters, listed in another order. -/

namespace Eco.Spec
variable {K : Type} [Field K] [LinearOrder K]

/-- All heaters follow one schedule, and their normal settings have the ON sensor at one height. -/
structure Alike (ws : List (Heater K)) : Prop where
  sched : ∃ sc, ∀ w ∈ ws, w.sched = sc
  sensor : ∃ f, ∀ w ∈ ws, ∃ m c, w.cmap = some m ∧ setting m "normal" = some c ∧ c.onFract = f

/-- The same primary system with its heaters in another order. -/
def ReorderPrim (s s' : Prim K) : Prop := ∃ ws, s.heaters.Perm ws ∧ s' = { s with heaters := ws }

/-- The same parallel-loop system with its primary heaters in another order. -/
def ReorderPar (s s' : ParSim K) : Prop := ∃ p, ReorderPrim s.prim p ∧ s' = { s with prim := p }

/-- The same swing system with its primary heaters in another order. -/
def ReorderSwing (s s' : SwingSim K) : Prop := ∃ ws, s.heaters.Perm ws ∧ s' = { s with heaters := ws }

/-- The same multi-pass system with its heaters in another order. -/
def ReorderMp (s s' : MpSim K) : Prop := ∃ ws, s.heaters.Perm ws ∧ s' = { s with heaters := ws }

end Eco.Spec
