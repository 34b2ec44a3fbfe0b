import Verif.Model.Simulate

/-! Model of the two ways to make a `DHWSystem`: from its components, and from a sizing. -/

namespace Eco
variable {K : Type} [Field K] [LinearOrder K]

/-- `from_components` (`DHWSystem.py:223-278`, with `__init__`, `:93-129`): what sizing and what simulation sees of the
object. -/
def fromComponents (vol : K) (heaters : List (Heater K)) (c : SysCfg K) (slope : K) : DhwSys K × Prim K :=
  ({ cfg := c, heaterMap := heaters.head?.bind (·.cmap) }, ⟨c.supply, c.storage, heaters, some (StratTank.new vol slope)⟩)

/-- `from_size` (`DHWSystem.py:135-221`): the building left behind, and what sizing and what simulation sees of the object. -/
def fromSizePlant (M : SizingMethods K) (db : ShapeFiles K) (c : SysCfg K) (b : Building K)
    (sched : Option (List String)) (cmap : Option (ControlMap K)) (slope fract : K) :
    Building K × Py (DhwSys K × Prim K) :=
  match size M db { cfg := c } b sched cmap slope fract with
  | ((_, b'), .error e) => (b', .error e)
  | ((s, b'), .ok _) => (b', do
      let cap ← getMinCapacity s
      let vol ← getMinStorage s
      return ({ s with heaterMap := cmap }, Prim.ofSized c cap vol slope sched cmap))

end Eco
