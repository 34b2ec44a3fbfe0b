import Verif.Model.Simulate
import Mathlib.Order.Bounds.Basic

/-! Specification vocabulary for simulated systems: controls in force, outlet temperature of an hour, and what it means
that a recorded run is physically possible. -/

namespace Eco.Spec
variable {K : Type} [Field K] [LinearOrder K]

/-- `c` are the controls heater `w` follows in hour `hour`. -/
def InForce (w : Heater K) (hour : ℕ) (c : Controls K) : Prop :=
  ∃ sched cmap mode, w.sched = some sched ∧ w.cmap = some cmap ∧ sched[hour]? = some mode ∧
    dictGet? cmap mode = some c

/-- `x` is the highest outlet temperature any heater is set to in hour `hour`, and the storage temperature if no heater
has controls. -/
def IsOutlet (ws : List (Heater K)) (storage : K) (hour : ℕ) (x : K) : Prop :=
  IsGreatest {y | ∃ w ∈ ws, ∃ c, InForce w hour c ∧ c.outlet = y} x ∨
  ((∀ w ∈ ws, ∀ c, ¬ InForce w hour c) ∧ x = storage)

/-- The hour of the day of step `i` of `ts` minutes. -/
def hourOf (i ts : ℕ) : ℕ := (i * ts / 60) % 24

/-- The temperature recorded for node `n` (0 the bottom, 5 the top) at step `i`. -/
def nodeTemp (r : SimRun K) (n i : ℕ) : K := (r.temps.getD n []).getD i 0

/-- A recorded run that a tank of `vol` gallons could have gone through, heated by `ws` and refilled with the building's
cold water. -/
structure Physical (b : Building K) (ws : List (Heater K)) (storage vol : K) (r : SimRun K) : Prop where
  /-- the usable volume is within the tank -/
  usable : ∀ u ∈ r.usable, 0 ≤ u ∧ u ≤ vol
  /-- every node has one temperature per recorded step -/
  complete : ∀ n < 6, (r.temps.getD n []).length = r.usable.length
  /-- the temperature does not decrease with height -/
  rising : ∀ i < r.usable.length, ∀ m n, m ≤ n → n < 6 → nodeTemp r m i ≤ nodeTemp r n i
  /-- the temperatures are between that of the cold water and the outlet temperature of the hour -/
  within : ∀ i < r.usable.length, ∃ cold hot, b.getInlet i r.ts = .ok cold ∧ IsOutlet ws storage (hourOf i r.ts) hot ∧
    (cold ≤ hot → ∀ n < 6, cold ≤ nodeTemp r n i ∧ nodeTemp r n i ≤ hot)

/-- The recorded outdoor temperature, cold-water temperature and demand are those of the building. -/
structure Echoes (b : Building K) (useAvg : Bool) (r : SimRun K) : Prop where
  oat : ∀ i x, r.oat[i]? = some x → b.getOat i r.ts = .ok x
  inlet : ∀ i x, r.inlet[i]? = some x → b.getInlet i r.ts = .ok x
  demand : ∀ i x, r.demand[i]? = some x → b.getDhwLoad i r.ts useAvg = .ok x

/-- The heater has controls for every hour of the day and a performance that can be asked under all conditions. -/
structure Ready (w : Heater K) : Prop where
  controls : ∀ hour < 24, ∃ c, InForce w hour c
  capacity : ∀ (oat outlet : K) inlet, ∃ x, w.getCapacity (some oat) outlet inlet = .ok x
  power : ∀ (oat outlet : K) inlet, ∃ x, w.getPower (some oat) outlet inlet = .ok x

/-- The building can be asked for weather, cold water and demand at every step. -/
structure Answers (b : Building K) : Prop where
  oat : ∀ i ts, ∃ x, b.getOat i ts = .ok x
  inlet : ∀ i ts, ∃ x, b.getInlet i ts = .ok x
  demand : ∀ i ts avg, ∃ x, b.getDhwLoad i ts avg = .ok x
  design : ∃ x, b.getDesignInlet = .ok x

/-- `st` are the states a run of `outs.length` steps goes through, starting at `s`. -/
def States {S : Type} (step : S → ℕ → Py (S × StepOut K)) (s : S) (outs : List (StepOut K)) (st : ℕ → S) : Prop :=
  st 0 = s ∧ ∀ i o, outs[i]? = some o → step (st i) i = .ok (st (i + 1), o)

end Eco.Spec
