import Verif.Model.MultiPass

/-! Runs that begin alike, and buildings that are alike until some minute. -/

namespace Eco.Spec
variable {K : Type} [Field K] [LinearOrder K]

/-- Every series of `r` is an initial part of the same series of `q`, and `r` has counted no more outage minutes. -/
structure Begins (r q : SimRun K) : Prop where
  demand : r.demand <+: q.demand
  usable : r.usable <+: q.usable
  output : r.output <+: q.output
  power : r.power <+: q.power
  oat : r.oat <+: q.oat
  inlet : r.inlet <+: q.inlet
  mode : r.mode <+: q.mode
  temps : ∀ n, r.temps.getD n [] <+: q.temps.getD n []
  tmTemp : r.tmTemp <+: q.tmTemp
  tmOutput : r.tmOutput <+: q.tmOutput
  tmInput : r.tmInput <+: q.tmInput
  outage : r.outage ≤ q.outage

/-- `r` is the run `q`, possibly cut short: it begins like `q`; it is successful if `q` is; it was stopped if `q` was; and
if it was not stopped, it is all of `q`. -/
structure CutShort (r q : SimRun K) : Prop where
  begins : Begins r q
  verdict : q.isSuccessful = true → r.isSuccessful = true
  stopped : q.stopped = true → r.stopped = true
  whole : r.stopped = false → Begins q r

/-- Until minute `m` the two buildings have the same hot water use, outdoor temperature and mains temperature, whatever the
interval in which they are asked. -/
def SameUntil (b b' : Building K) (m : ℕ) : Prop :=
  ∀ t int, t * int < m → (∀ avg, b.getDhwLoad t int avg = b'.getDhwLoad t int avg) ∧ b.getOat t int = b'.getOat t int ∧
    b.getInlet t int = b'.getInlet t int

/-- The two runs are the same, or they have a common beginning of at least `m` minutes. -/
def AlikeUntil (m : ℕ) (r q : SimRun K) : Prop :=
  r = q ∨ ∃ p : SimRun K, Begins p r ∧ Begins p q ∧ m ≤ p.demand.length * r.ts

end Eco.Spec
