import Verif.Model.Simulate
import Verif.Model.MultiPass

/-! Heating capacity that is spread over several heaters. -/

namespace Eco.Spec
variable {K : Type} [Field K] [LinearOrder K]

/-- The sum of the known values, if any is known. -/
def addUp : List (Option K) → Option K
  | [] => none
  | none :: l => addUp l
  | some x :: l => some (x + (addUp l).getD 0)

/-- The heaters `ws` together are the heater `w`: they follow its schedule and controls, are on if it is, and their capacities
and their powers add up to its capacity and its power under all conditions. -/
structure Together (w : Heater K) (ws : List (Heater K)) : Prop where
  nonempty : ws ≠ []
  same : ∀ v ∈ ws, v.sched = w.sched ∧ v.cmap = w.cmap ∧ v.active = w.active
  capacity : ∀ oat outlet inlet, (ws.mapM (fun v : Heater K => v.getCapacity oat outlet inlet)).map addUp = w.getCapacity oat outlet inlet
  power : ∀ oat outlet inlet, (ws.mapM (fun v : Heater K => v.getPower oat outlet inlet)).map addUp = w.getPower oat outlet inlet

/-- Every heater of `ws` is replaced by heaters that together are that heater. -/
def Spread (ws ws' : List (Heater K)) : Prop := ∃ gs, List.Forall₂ Together ws gs ∧ ws' = gs.flatten

/-- The same primary system with its heaters spread. -/
def SpreadPrim (s s' : Prim K) : Prop := ∃ ws', Spread s.heaters ws' ∧ s' = { s with heaters := ws' }

/-- The same parallel-loop system with its primary heaters spread. -/
def SpreadPar (s s' : ParSim K) : Prop := ∃ p, SpreadPrim s.prim p ∧ s' = { s with prim := p }

/-- The same swing system with its primary heaters spread. -/
def SpreadSwing (s s' : SwingSim K) : Prop := ∃ ws', Spread s.heaters ws' ∧ s' = { s with heaters := ws' }

/-- The same multi-pass system with its heaters spread. -/
def SpreadMp (s s' : MpSim K) : Prop := ∃ ws', Spread s.heaters ws' ∧ s' = { s with heaters := ws' }

end Eco.Spec
