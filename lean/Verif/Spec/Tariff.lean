import Verif.Props.Utility

/-! Specification vocabulary for comparing rate structures by what they charge in a month and an hour of
the day. -/

namespace Eco.Spec
variable {K : Type} [Field K] [LinearOrder K]

/-- In month `m` at hour of day `h` the rate structure is in its period `kind` (0 off-peak, 1 peak,
2 discount), with energy rate `e` and demand rate `d`. -/
def Charged (q : RateParams K) (m h kind : ℕ) (e d : K) : Prop :=
  ∃ i, Covers q i m ∧
    ((kind = 1 ∧ PeakHour q i h ∧ At q.pkEnergy i e ∧ At q.pkDemand i d) ∨
     (kind = 2 ∧ DiscountHour q i h ∧ DiscountAt q q.dEnergy i (some e) ∧ DiscountAt q q.dDemand i (some d)) ∨
     (kind = 0 ∧ ¬ PeakHour q i h ∧ ¬ DiscountHour q i h ∧ At q.offEnergy i e ∧ At q.offDemand i d))

/-- Discounts, if there are any, have numbers as rates. -/
def DiscountPriced (q : RateParams K) : Prop :=
  q.includeDiscount = true → ∀ i < q.n, (∃ c, DiscountAt q q.dEnergy i (some c)) ∧
    ∃ c, DiscountAt q q.dDemand i (some c)

/-- At every hour the two structures are in the same kind of period, and `q'` charges `c` times the rates
of `q`. -/
def TimesTariff (c : K) (q q' : RateParams K) : Prop :=
  ∀ m < 12, ∀ h < 24, ∀ k e d k' e' d', Charged q m h k e d → Charged q' m h k' e' d' →
    k' = k ∧ e' = c * e ∧ d' = c * d

/-- At every hour `q'` charges at least the rates of `q`. -/
def DearerTariff (q q' : RateParams K) : Prop :=
  ∀ m < 12, ∀ h < 24, ∀ k e d k' e' d', Charged q m h k e d → Charged q' m h k' e' d' → e ≤ e' ∧ d ≤ d'

/-- Two hours of a month in one period of `q'` are in one period of `q`. -/
def FinerTariff (q q' : RateParams K) : Prop :=
  ∀ m < 12, ∀ h₁ < 24, ∀ h₂ < 24, ∀ k₁ e₁ d₁ k₂ e₂ d₂ e₁' d₁' e₂' d₂' k',
    Charged q m h₁ k₁ e₁ d₁ → Charged q m h₂ k₂ e₂ d₂ →
    Charged q' m h₁ k' e₁' d₁' → Charged q' m h₂ k' e₂' d₂' → k₁ = k₂

/-- No rate is negative. -/
def NonnegTariff (q : RateParams K) : Prop := ∀ m h k e d, Charged q m h k e d → 0 ≤ e ∧ 0 ≤ d

/-- One energy rate at all hours and no demand rate. -/
def FlatTariff (e₀ : K) (q : RateParams K) : Prop := ∀ m h k e d, Charged q m h k e d → e = e₀ ∧ d = 0

end Eco.Spec
