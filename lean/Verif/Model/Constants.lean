import Mathlib.Algebra.Order.Field.Basic

/-! Physical constants, `constants/constants.py`. -/

namespace Eco
variable (K : Type) [Field K]

/-- `_RHO_CP = 8.353535` [BTU/(gal·°F)] (`constants/constants.py`). -/
def rhoCp : K := 8353535 / 1000000

/-- `_W_TO_KBTUH = 3.412142` [kBTU/hr per kW] (`constants/constants.py`). -/
def wToKbtuh : K := 3412142 / 1000000

end Eco
