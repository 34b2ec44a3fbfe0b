import Verif.Model.SwingEr

/-! The two days over which the electric element of a swing tank is sized, as water and heat balances. -/

namespace Eco.Spec
variable {K : Type} [Field K] [LinearOrder K]

/-- The minutes of a run, from a swing tank at `t` and a primary storage holding `level` hot gallons:

* the swing tank sends the gallons that, mixed with cold water, are the demand at supply temperature;
* the primary replaces them with what it holds and makes in the minute, `fromPrimary`, the rest is cold water;
* the primary keeps what it did not send, at most its volume;
* the swing tank gains the heat that flows in, loses the loop's and gains the element's, which runs for the share `x` of
  the minute, and for all of it if the tank ends below supply temperature;
* what is missing to supply temperature is the deficit, and the next minute starts as if it had been made up. -/
def ErMinutes (p : SwingParams K) (inlet storage gen full : K) : K → K → List K → List (ErMin K) → Prop
  | _, _, [], [] => True
  | t, level, d :: ds, r :: rs =>
    let fromPrimary := min r.hw (level + gen)
    r.temp = t ∧ r.level = level ∧
    r.hw * (t - inlet) = d * (p.supply - inlet) ∧
    r.hw * (r.feed - inlet) = fromPrimary * (storage - inlet) ∧
    (∃ raw x, 0 ≤ x ∧ x ≤ 1 ∧ (raw < p.supply → x = 1) ∧
      p.vol * rhoCp K * (raw - t) = r.hw * rhoCp K * (r.feed - t) + (p.capKbtuh * x - p.lossKbtuh) * 1000 / 60 ∧
      r.deficit = max 0 (p.supply - raw) ∧
      ErMinutes p inlet storage gen full (max p.supply raw) (min full (level + gen - fromPrimary)) ds rs)
  | _, _, _, _ => False

end Eco.Spec
