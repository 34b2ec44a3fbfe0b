import Verif.Model.SlugTank

/-! Specification vocabulary for the slug tank: histories of calls. -/

namespace Eco.Spec
variable {K : Type} [Field K] [LinearOrder K]

/-- The calls of a simulation: (re-)initialise, start and end of a heating cycle, heat, draw. -/
inductive SlugOp (K : Type) where
  | init (storage cold pu : K)
  | activate (supply : K)
  | heat (kbtuh dur : K)
  | draw (gal inlet : K) (updateCold : Bool)
  | deactivate

/-- One call. -/
def SlugOp.run (s : SlugTank K) : SlugOp K → SlugTank K
  | .init a b c => s.init a b c
  | .activate a => s.activate a
  | .heat a b => s.heatSlug a b
  | .draw a b c => s.drawPhysical a b c
  | .deactivate => s.deactivate

/-- The calls inside one heating cycle. -/
inductive CycleOp (K : Type) where
  | heat (kbtuh dur : K)
  | draw (gal inlet : K)

/-- One call inside a heating cycle. -/
def CycleOp.run (s : SlugTank K) : CycleOp K → SlugTank K
  | .heat a b => s.heatSlug a b
  | .draw a b => s.drawPhysical a b true

end Eco.Spec
