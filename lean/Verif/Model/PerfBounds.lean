import Verif.Model.PerfMap

/-! The operating range of a performance map. -/

namespace Eco
variable {K : Type} [Field K] [LinearOrder K]

/-- `oat_min` and `oat_max` of a grid map (`PerformanceMap.py:309-315`). -/
def PklMap.oatMin (m : PklMap K) : Py K := pyGet m.oats 0

@[inherit_doc PklMap.oatMin]
def PklMap.oatMax (m : PklMap K) : Py K := pyGet m.oats (m.oats.length - 1)

/-- `oat_f >= x` for an outdoor temperature that may be `None`. -/
def oatAtLeast (oat : Option K) (x : K) : Py Bool :=
  match oat with
  | none => .error .typeError
  | some t => .ok (decide (x ≤ t))

/-- `is_within_operating_bounds` (`PerformanceMap.py:214-216`, `:480-481`, `:651-652`; `oat_min` of the second class is
`:526-527`). The nominal map inherits the stub that returns `None`. Without data points the second class has the minimum
`-inf`, so that every number is inside. -/
def PerfMap.isWithinBounds (m : PerfMap K) (oat : Option K) : Py (Option Bool) :=
  match m with
  | .nominal _ => .ok none
  | .pkl p => do
    let lo ← p.oatMin
    return some (← oatAtLeast oat lo)
  | .sim p =>
    match p.entries with
    | [] => match oat with
      | none => .error .typeError
      | some _ => .ok (some true)
    | e :: _ => do return some (← oatAtLeast oat e.t)

end Eco
