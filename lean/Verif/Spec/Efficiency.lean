import Verif.Spec.Sim
import Verif.Model.SimRun

/-! The efficiency of a run: the heat its heaters gave off per unit of electrical energy. -/

namespace Eco.Spec
variable {K : Type} [Field K] [LinearOrder K]

/-- Under these conditions the heater reports a COP between `lo` and `hi`. -/
def CopWithin (lo hi : K) (w : Heater K) (oat outlet : K) (inlet : Option K) : Prop :=
  ∃ m cop, w.perf = some m ∧ m.getCop (some oat) outlet inlet = .ok (some cop) ∧ lo ≤ cop ∧ cop ≤ hi

/-- The heat that the primary heaters gave off in the run, in kBtu. -/
def primaryHeat (r : SimRun K) : K := (r.output.map (fun q => q * ((r.ts : K) / 60))).sum

/-- The heat that temperature maintenance gave off in the run, in kBtu. -/
def tmHeat (r : SimRun K) : K := (r.tmOutput.map (fun q => q * ((r.ts : K) / 60))).sum

/-- All heat given off in the run, in kBtu. -/
def runHeat (r : SimRun K) : K := primaryHeat r + tmHeat r

/-- The heat `q` in kBtu is between `lo` and `hi` times the energy `e` in kWh. -/
def BetweenTimes (lo hi q e : K) : Prop := lo * (e * wToKbtuh K) ≤ q ∧ q ≤ hi * (e * wToKbtuh K)

end Eco.Spec
