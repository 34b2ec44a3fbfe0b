import Verif.Model.SwingEr
import Verif.Model.ParallelLoop

/-! The accessors for the sizes of the recirculation loop. -/

namespace Eco
variable {K : Type} [Field K] [LinearOrder K]

/-- An attribute that is `None` until `size()` stores it: reading it before raises `RuntimeError`. -/
def sizedOr {α : Type} (x : Option α) : Py α :=
  match x with
  | none => .error .runtimeError
  | some v => .ok v

/-- `get_minimum_tm_volume_gal` (`ParallelLoopSystem.py:322-325`). -/
def ParSys.getTmVol (s : ParSys K) : Py K := sizedOr s.minTmVol

/-- `get_minimum_tm_capacity_kbtuh` (`ParallelLoopSystem.py:327-330`). -/
def ParSys.getTmCap (s : ParSys K) : Py K := sizedOr s.minTmCap

/-- `get_minimum_tm_volume_gal` (`SwingSystem.py:856-859`). -/
def SwingSys.getTmVol (s : SwingSys K) : Py K := sizedOr s.tmVol

/-- `get_minimum_tm_ca_volume_gal` (`SwingSystem.py:861-871`). -/
def SwingSys.getTmCa (s : SwingSys K) : Py Nat := sizedOr s.tmCa

/-- `get_minimum_tm_capacity_kbtuh` (`SwingSystem.py:873-876`). -/
def SwingSys.getTmCap (s : SwingSys K) : Py K := sizedOr s.tmCap

/-- `get_er_capacity_kbtuh` (`SwingERTrdOffSystem.py:515-519`). -/
def ErSys.getErCap (e : ErSys K) : Py K := sizedOr e.erCap

/-- `get_er_capacity_kw` (`SwingERTrdOffSystem.py:521-523`). -/
def ErSys.getErKw (e : ErSys K) : Py K := do
  let c ← e.getErCap
  return c / wToKbtuh K

end Eco
