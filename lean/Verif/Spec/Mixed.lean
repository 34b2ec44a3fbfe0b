import Verif.Model.MixedTank

/-! Specification vocabulary for the fully mixed tank: calls that move water, and heat content. -/

namespace Eco.Spec
variable {K : Type} [Field K] [LinearOrder K]

/-- The heat content [BTU] above 0 °F of a mixed tank: gallons × 8.353535 × temperature. -/
def heatContent (s : MixedTank K) : K := s.vol * rhoCp K * s.tempAt 0

/-- The calls that move water through a mixed tank. -/
inductive WaterOp (K : Type) where
  | draw (vol cold supply : K)
  | drawPhysical (gal inlet : K)
  | mix (gal primary : K)
  | recirc (flow ret dur : K)

/-- One call. -/
def WaterOp.run (s : MixedTank K) : WaterOp K → MixedTank K
  | .draw a b c => s.draw a b c
  | .drawPhysical a b => s.drawPhysical a b
  | .mix a b => s.mix a b
  | .recirc a b c => s.recirc a b c

/-- The temperature of the water a call brings in. -/
def WaterOp.incoming : WaterOp K → K
  | .draw _ cold _ => cold
  | .drawPhysical _ inlet => inlet
  | .mix _ primary => primary
  | .recirc _ ret _ => ret

/-- Sensible amounts: nothing negative, demanded water not colder than the inlet, and the loop does not circulate
more than the tank volume in one step. -/
def WaterOp.Sensible (vol : K) : WaterOp K → Prop
  | .draw _ cold supply => cold ≤ supply
  | .drawPhysical _ _ => True
  | .mix _ _ => True
  | .recirc flow _ dur => 0 ≤ flow * dur ∧ flow * dur ≤ vol

end Eco.Spec
