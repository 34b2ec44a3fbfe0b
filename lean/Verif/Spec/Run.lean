import Verif.Model.SimRun
import Mathlib.Algebra.BigOperators.Group.Finset.Basic
import Mathlib.Order.Bounds.Basic

/-! Specification vocabulary for simulation runs: traces of a system, recorded series, early stop, bills. -/

namespace Eco.Spec
variable {K : Type} [Field K] [LinearOrder K]

/-- From state `s` at step `i` the system produces the outputs `outs`, one after the other, and ends in
state `s'`. -/
def Trace {S : Type} (step : S → ℕ → Py (S × StepOut K)) : S → ℕ → List (StepOut K) → S → Prop
  | s, _, [], s' => s' = s
  | s, i, o :: os, s' => ∃ s1, step s i = .ok (s1, o) ∧ Trace step s1 (i + 1) os s'

/-- The temperature delivered at a step: the reported delivery temperature, otherwise the top of the
tank. -/
def delivered (o : StepOut K) : K := o.delivery.getD (o.temps.getLastD 0)

/-- The delivered temperature is more than `thr` below the supply temperature. -/
def Deficit (supply thr : K) (o : StepOut K) : Prop := delivered o < supply - thr

/-- At step `i` the deficit has lasted for some number `k ≥ 1` of consecutive steps up to and including
`i`, in total more than `maxMin` minutes. -/
def TooLong (supply thr : K) (ts : ℕ) (maxMin : Int) (outs : List (StepOut K)) (i : ℕ) : Prop :=
  ∃ k, 0 < k ∧ k ≤ i + 1 ∧ maxMin < ((k * ts : ℕ) : Int) ∧
    ∀ j, i + 1 - k ≤ j → j ≤ i → ∃ o, outs[j]? = some o ∧ Deficit supply thr o

/-- The run's series are the outputs. -/
structure Recorded (r : SimRun K) (outs : List (StepOut K)) : Prop where
  demand : r.demand = outs.map (·.demand)
  usable : r.usable = outs.map (·.usable)
  output : r.output = outs.map (·.output)
  power : r.power = outs.map (·.power)
  oat : r.oat = outs.map (·.oat)
  inlet : r.inlet = outs.map (·.inlet)
  mode : r.mode = outs.map (·.mode)
  tmTemp : r.tmTemp = outs.filterMap (·.tmTemp)
  tmOutput : r.tmOutput = outs.filterMap (·.tmOutput)
  tmInput : r.tmInput = outs.filterMap (·.tmInput)
  nodes : r.temps.length = 6
  temps : (∀ o ∈ outs, o.temps.length = 6) → ∀ n < 6, r.temps.getD n [] = outs.map (fun o => o.temps.getD n 0)

/-- Number of steps without usable hot water. -/
def outSteps (outs : List (StepOut K)) : ℕ := (outs.filter (fun o => decide (o.usable ≤ 0))).length

/-- The electrical power of step `i`: primary heaters plus temperature maintenance. -/
def totalKw (r : SimRun K) (i : ℕ) : K := (r.power.getD i none).getD 0 + r.tmInput.getD i 0

/-- `v` is the highest value of `kw` among the steps below `n` in billing period `p`. -/
def PeakOf (kw : ℕ → K) (per : ℕ → Int) (n : ℕ) (p : Int) (v : K) : Prop :=
  IsGreatest {x | ∃ i < n, per i = p ∧ kw i = x} v

/-- Hours per step. -/
def hours (r : SimRun K) : K := (r.ts : K) / 60

/-- The rate structure `t` prices every step of the run: `rate i` for energy, billing period `per i`, and
`charge p` per kW of a period. -/
structure Priced (r : SimRun K) (t : Tracker K) (rate : ℕ → K) (per : ℕ → Int) (charge : Int → K) : Prop where
  rateOk : ∀ i < r.power.length, t.energyChargeAtStep i r.ts = .ok (some (rate i))
  perOk : ∀ i < r.power.length, t.demandPeriodAtStep i r.ts = .ok (per i)
  chargeOk : ∀ i < r.power.length, ∀ kw, t.demandCharge (per i) kw = .ok (charge (per i) * kw)

end Eco.Spec
