import Verif.Model.StratTank
import Verif.Model.EnergyTank
import Mathlib.Algebra.BigOperators.Group.List.Basic

/-! Specification vocabulary for storage tanks: histories of operations on a tank. -/

namespace Eco.Spec
variable {K : Type} [Field K] [LinearOrder K]

/-- The calls a user of the stratified tank can make. -/
inductive StratOp (K : Type) where
  | init (storage cold pu : K)
  | draw (vol cold supply outlet : K)
  | heat (kbtuh dur outlet : K)
  | recirc (flow ret dur : K) (supply : Option K)
  | drawPhysical (gal inlet : K) (supply : Option K)

/-- One call. -/
def StratOp.run (s : StratTank K) : StratOp K → StratTank K
  | .init a b c => s.init a b c
  | .draw a b c d => s.draw a b c d
  | .heat a b c => s.heat a b c
  | .recirc a b c d => s.recirc a b c d
  | .drawPhysical a b c => s.drawPhysical a b c

/-- The tank after a history of calls. -/
def stratAfter (vol slope : K) (ops : List (StratOp K)) : StratTank K :=
  ops.foldl StratOp.run (StratTank.new vol slope)

/-- The calls a user of the energy tank can make during a simulation. -/
inductive EnergyOp (K : Type) where
  | draw (vol cold supply : K)
  | heat (kbtuh dur outlet : K)
  | addEnergy (btu : K)
  | recirc (flow ret dur supply : K)

/-- One call. -/
def EnergyOp.run (s : EnergyTank K) : EnergyOp K → EnergyTank K
  | .draw a b c => s.draw a b c
  | .heat a b c => s.heat a b c
  | .addEnergy a => s.addEnergy a
  | .recirc a b c d => s.recirc a b c (some d)

/-- The heat [BTU] a call brings into the tank (negative: takes out), from the physics: gallons × 8.353535 ×
temperature difference, and kBTU/h × minutes. -/
def EnergyOp.btu : EnergyOp K → K
  | .draw vol cold supply => -(vol * rhoCp K * (supply - cold))
  | .heat kbtuh dur _ => 1000 * kbtuh * (dur / 60)
  | .addEnergy b => b
  | .recirc flow ret dur supply => -(flow * dur * rhoCp K * (supply - ret))

/-- A sensible call at inlet temperature `cold`: amounts and durations are not negative, draws are warmer than
the inlet, heat is delivered above the inlet temperature, the loop returns at most at supply temperature. -/
def EnergyOp.Sensible (cold : K) : EnergyOp K → Prop
  | .draw vol c supply => 0 ≤ vol ∧ c = cold ∧ c < supply
  | .heat kbtuh dur outlet => 0 ≤ kbtuh ∧ 0 ≤ dur ∧ cold < outlet
  | .addEnergy b => 0 ≤ b
  | .recirc flow ret dur supply => 0 ≤ flow ∧ 0 ≤ dur ∧ ret ≤ supply

end Eco.Spec
