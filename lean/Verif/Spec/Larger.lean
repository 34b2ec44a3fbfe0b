import Verif.Model.Session

/-! What C123 compares: engines that differ in one entry, and how their three-day simulations end. -/

namespace Eco.Spec
variable {K : Type} [Field K] [LinearOrder K]

/-- The engine is built, and its three-day simulation completes and reports `ok`, whatever the stop settings are. -/
def ThreeDays (db : ShapeFiles K) (t : ClimateZone.Tables K) (model : String → Nat → K → Option K → Py (PerfMap K))
    (invCdf : K → K) (p : EngineParams K) (ok : Bool) : Prop :=
  ∃ e, EngineObj.new db t model invCdf p = .ok e ∧ ∀ (thr : K) (maxMin : Int), 0 ≤ thr →
    ∃ s r, e.prim.simulate e.bld thr maxMin "3day" = .ok (s, r) ∧ r.isSuccessful = ok

/-- Equipment that keeps up with every minute of demand: `v` gallons of storage and `cap` kBTU/h for a building that asks for at
most `P` gallons of stored water in a minute, with cold water at `cold`. The heater heats `P` gallons in a minute, and above
the ON sensor the tank holds `P` gallons besides the transition zone. -/
structure Ample (p : EngineParams K) (v cap P cold : K) : Prop where
  vol : 0 < v
  capacity : 0 < cap
  aquastat : 0 ≤ p.aquastat ∧ p.aquastat ≤ 1
  sensors : p.offSensor ≤ p.aquastat
  triggers : cold < p.onTrig.getD p.supply ∧ p.onTrig.getD p.supply ≤ p.offTrig.getD p.storage ∧
    p.onTrig.getD p.supply ≤ p.storage
  temps : cold < p.supply ∧ p.supply < p.storage
  heats : P * rhoCp K * (p.storage - cold) * 60 / 1000 ≤ cap
  zone : (p.storage - cold) / 280 ≤ 1 - p.aquastat
  holds : P ≤ v * (1 - p.aquastat - (p.storage - p.onTrig.getD p.supply) / 280)

end Eco.Spec
