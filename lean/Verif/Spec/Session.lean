import Verif.Model.Session

/-! Specification of histories of calls on an engine (C122). -/

namespace Eco
namespace Spec
variable {K : Type} [Field K] [LinearOrder K]

/-- The call runs the simulator. -/
def Simulates : EngineCall K → Prop
  | .simulate .. => True
  | _ => False

/-- Whatever was called before, the call gives the answer it gives first. -/
def SameAnswer [FloorRing K] (db : ShapeFiles K) (invCdf : K → K) (e : EngineObj K) (q : EngineCall K) : Prop :=
  ∀ qs e' e1 e1' a a', EngineObj.History db invCdf e qs e' → EngineObj.Step db invCdf e q e1 a →
    EngineObj.Step db invCdf e' q e1' a' → a' = a

end Spec
end Eco
