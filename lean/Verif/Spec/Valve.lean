import Mathlib.Algebra.Order.Field.Basic

/-!
What a mixing valve may do in one step, written from the plumbing and not from the code.

The building takes `load` gallons at `supply`, and `flow` gallons go round the recirculation loop and
come back at `ret`. At the valve hot water at `storage`, cold water at `cold` and returning loop water
are mixed into `load + flow` gallons at `supply`. The returning water that does not go through the
valve goes to the bottom of the tank, together with enough cold water to replace what was taken out.
-/

namespace Eco.Spec
variable {K : Type} [Field K] [LinearOrder K]

/-- A distribution of the water: gallons of storage water, cold water and return water entering the
valve, and of cold water and return water entering the tank. -/
structure ValveFlows (K : Type) where
  hot : K
  coldToValve : K
  retToValve : K
  coldToTank : K
  retToTank : K

/-- All flows go forward; the valve and the tank balance in mass; the return water is used up; the
building's water is replaced by cold water; the mixed water is at supply temperature; and the water
entering the tank has temperature `inlet`. -/
structure ValveFlows.Balanced (f : ValveFlows K) (load flow cold supply ret storage inlet : K) :
    Prop where
  hot_nonneg : 0 ≤ f.hot
  coldToValve_nonneg : 0 ≤ f.coldToValve
  retToValve_nonneg : 0 ≤ f.retToValve
  coldToTank_nonneg : 0 ≤ f.coldToTank
  retToTank_nonneg : 0 ≤ f.retToTank
  valve_mass : f.hot + f.coldToValve + f.retToValve = load + flow
  valve_heat : f.hot * storage + f.coldToValve * cold + f.retToValve * ret = (load + flow) * supply
  tank_mass : f.coldToTank + f.retToTank = f.hot
  tank_heat : f.coldToTank * cold + f.retToTank * ret = f.hot * inlet
  return_used : f.retToValve + f.retToTank = flow
  makeup : f.coldToValve + f.coldToTank = load

end Eco.Spec
