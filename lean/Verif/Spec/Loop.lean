import Verif.Model.Constants

/-! Heat quantities, as an engineer would write them down. -/

namespace Eco.Spec
variable {K : Type} [Field K]

/-- The heat, in thousands of BTU, that raises `gal` gallons from `cold` to `hot`. -/
def heatKbtu (gal cold hot : K) : K := gal * rhoCp K * (hot - cold) / 1000

/-- The heat, in thousands of BTU, that a recirculation loop of `flow` gallons per minute loses in `hours` hours when
it leaves at `supply` and comes back at `ret`. -/
def loopLossKbtu (flow supply ret hours : K) : K := flow * (60 * hours) * rhoCp K * (supply - ret) / 1000

end Eco.Spec
