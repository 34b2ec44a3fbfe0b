import Verif.Py

/-! Model of `objects/components/heating/Controls.py` (data part). -/

namespace Eco

/-- `Controls` (`Controls.py:26-56`). -/
structure Controls (K : Type) where
  onFract : K
  onTrig : K
  offFract : K
  offTrig : K
  outlet : K
  deriving DecidableEq

/-- A `control_map` dict, in insertion order. -/
abbrev ControlMap (K : Type) := List (String × Controls K)

end Eco
