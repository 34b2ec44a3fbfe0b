import Verif.Spec.Store

/-! Specification vocabulary for load shifting. Nothing here refers to the model. -/

namespace Eco.Spec
variable {K : Type} [Field K] [LinearOrder K]

/-- Hour `h` of the 24-hour schedule carries the label `k`. -/
def HourIs (sched : List String) (k : String) (h : ℕ) : Prop := sched[h]? = some k

/-- `[start, start + n)` is a maximal run of hours labelled `k` within the day. -/
structure MaxRun (sched : List String) (k : String) (start n : ℕ) : Prop where
  inDay : start + n ≤ 24
  all : ∀ h, start ≤ h → h < start + n → HourIs sched k h
  notBefore : start = 0 ∨ ¬ HourIs sched k (start - 1)
  notAfter : start + n = 24 ∨ ¬ HourIs sched k (start + n)

/-- Generation at rate `gen` in all hours of a repeating day, except the shed hours. -/
def shedGen (sched : List String) (gen : K) (h : ℕ) : K :=
  if sched[h % 24]? = some "shed" then 0 else gen

end Eco.Spec
