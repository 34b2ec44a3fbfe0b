import Verif.Model.LoopGetters

/-! What the accessors of a recirculation system report after a history of sizing calls. -/

namespace Eco.Spec
variable {K : Type} [Field K] [LinearOrder K]

/-- What a user expects after a history of calls: `before` until a call has succeeded, else what the last successful
call reports. `alone q` is the report of a new object after the call `q` on its own, `none` if that call raises. -/
def lastSuccess {Q R : Type} (alone : Q → Option R) (before : R) (calls : List Q) : R :=
  ((calls.filterMap alone).getLast?).getD before

/-- The answers of the accessors of a parallel loop system: capacity and storage of the primary plant, volume and
capacity of the loop tank. -/
structure ParReport (K : Type) where
  cap : Py K
  storage : Py K
  tmVol : Py K
  tmCap : Py K
  deriving DecidableEq

/-- The answers of the accessors of a swing system; with the California volume of the swing tank. -/
structure SwingReport (K : Type) where
  cap : Py K
  storage : Py K
  tmVol : Py K
  tmCa : Py Nat
  tmCap : Py K
  deriving DecidableEq

/-- The answers of the accessors of a swing system with an enlarged element: also the capacity added, in kBTU/h and
in kW. -/
structure ErReport (K : Type) where
  swing : SwingReport K
  er : Py K
  erKw : Py K
  deriving DecidableEq

/-- Every accessor asks for `size()` first. -/
def ParReport.unsized : ParReport K :=
  ⟨.error .runtimeError, .error .runtimeError, .error .runtimeError, .error .runtimeError⟩

def SwingReport.unsized : SwingReport K :=
  ⟨.error .runtimeError, .error .runtimeError, .error .runtimeError, .error .runtimeError, .error .runtimeError⟩

def ErReport.unsized : ErReport K := ⟨SwingReport.unsized, .error .runtimeError, .error .runtimeError⟩

end Eco.Spec
