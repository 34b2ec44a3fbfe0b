import Verif.Model.Size
import Mathlib.Algebra.Order.Field.Rat
import Mathlib.Data.Rat.Floor

/-! Concrete data used by the `example`s beside the theorems. -/

namespace Eco.Demo

/-- A morning and an evening peak; sums to 1. -/
def shape : List ℚ :=
  [1/100, 1/100, 1/100, 1/100, 2/100, 5/100, 9/100, 9/100, 7/100, 5/100, 4/100, 3/100,
   3/100, 3/100, 3/100, 3/100, 4/100, 5/100, 8/100, 8/100, 6/100, 4/100, 3/100, 2/100]

def building : Building ℚ :=
  ⟨some (ClimateZone.fromDesignConditions (some 20) (some 50)), 1000, shape, shape, "custom"⟩

def cfg : SysCfg ℚ := ⟨120, 150, 16, 1⟩

def normal : Controls ℚ := ⟨4/10, 110, 2/10, 120, 150⟩
def loadUp : Controls ℚ := ⟨2/10, 110, 1/10, 120, 150⟩
def shed : Controls ℚ := ⟨8/10, 110, 7/10, 120, 150⟩

def map : ControlMap ℚ := [("normal", normal), ("loadUp", loadUp), ("shed", shed)]

/-- Two load-up hours before a shed block from 17 to 20 h. -/
def sched : List String :=
  List.replicate 15 "normal" ++ ["loadUp", "loadUp", "shed", "shed", "shed"] ++
    List.replicate 4 "normal"

def noFiles : ShapeFiles ℚ := fun _ => none

end Eco.Demo
