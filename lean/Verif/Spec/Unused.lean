import Verif.Model.Simulate

/-! Control settings that no hour of the schedule uses. -/

namespace Eco.Spec
variable {K : Type} [Field K] [LinearOrder K]

/-- What a map of controls says for a mode. -/
def setting (m : ControlMap K) (mode : String) : Option (Controls K) := (m.find? (fun p => p.1 = mode)).map (·.2)

/-- The two maps say the same for each mode of the schedule. -/
def SameWhenUsed (sched : List String) (m m' : ControlMap K) : Prop := ∀ mode ∈ sched, setting m' mode = setting m mode

/-- The map has settings for shifting load. -/
def CanShift (m : ControlMap K) : Prop := ∃ p ∈ m, p.1 = "loadUp" ∨ p.1 = "shed"

/-- Both maps have the same settings for the normal mode. -/
def SameNormal (m m' : ControlMap K) : Prop := ∃ c, setting m "normal" = some c ∧ setting m' "normal" = some c

/-- `w'` is `w` with other settings for modes that the schedule does not use. -/
structure OtherUnused (w w' : Heater K) : Prop where
  perf : w'.perf = w.perf
  sched : w'.sched = w.sched
  active : w'.active = w.active
  maps : w'.cmap = w.cmap ∨ ∃ s m m', w.sched = some s ∧ w.cmap = some m ∧ w'.cmap = some m' ∧ SameWhenUsed s m m'

/-- ... and the other map has the same normal settings, and settings for shifting load only if the first one has. -/
structure OtherIdle (w w' : Heater K) : Prop extends OtherUnused w w' where
  normal : ∀ m m', w.cmap = some m → w'.cmap = some m' → w'.cmap = w.cmap ∨ SameNormal m m'
  shift : ∀ m m', w.cmap = some m → w'.cmap = some m' → (CanShift m' ↔ CanShift m)

/-- Primary plants that differ only in settings for unused modes. -/
structure OtherPrim (s s' : Prim K) : Prop where
  supply : s'.supply = s.supply
  storage : s'.storage = s.storage
  tank : s'.tank = s.tank
  heaters : List.Forall₂ OtherIdle s.heaters s'.heaters

/-- Parallel-loop plants that differ only in settings for unused modes. -/
structure OtherPar (s s' : ParSim K) : Prop where
  prim : OtherPrim s.prim s'.prim
  tmTank : s'.tmTank = s.tmTank
  tmHeater : OtherIdle s.tmHeater s'.tmHeater

/-- Swing plants that differ only in settings for unused modes. -/
structure OtherSwing (s s' : SwingSim K) : Prop where
  same : s' = { s with heaters := s'.heaters, tmHeater := s'.tmHeater }
  heaters : List.Forall₂ OtherIdle s.heaters s'.heaters
  tmHeater : OtherIdle s.tmHeater s'.tmHeater

end Eco.Spec
