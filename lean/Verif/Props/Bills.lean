import Verif.Spec.Tariff
import Verif.Props.SimRun

/-! C136: how the annual bill depends on the power and on the rates. -/

set_option linter.unusedSectionVars false

namespace Eco
open Spec
variable {K : Type} [Field K] [LinearOrder K] [IsStrictOrderedRing K]

/-- An accepted rate structure prices a run by its tariff. -/
theorem charged_priced (q : RateParams K) (t : Tracker K) (hb : q.build = .ok t) (hn : 0 < q.n)
    (hd : DiscountPriced q) (r : SimRun K) (hts : 0 < r.ts) (hlen : r.power.length * r.ts ≤ 525600) :
    ∃ (rate : ℕ → K) (per : ℕ → Int) (charge : Int → K) (kind : ℕ → ℕ), Priced r t rate per charge ∧
      ∀ i < r.power.length,
        Charged q (hourToMonth (i * r.ts / 60)) (i * r.ts / 60 % 24) (kind i) (rate i) (charge (per i)) ∧
        per i = (hourToMonth (i * r.ts / 60) : Int) * numPeriods q.includeDiscount + kind i ∧
        kind i < numPeriods q.includeDiscount ∧ hourToMonth (i * r.ts / 60) < 12 := by
  have hlt : ∀ i < r.power.length, i * r.ts < 525600 := by
    intro i hi
    calc i * r.ts < r.power.length * r.ts := Nat.mul_lt_mul_of_pos_right hi hts
      _ ≤ _ := hlen
  have hall : ∀ i < r.power.length, ∃ (c d : K) (k : ℕ), 
      t.energyChargeAtStep i r.ts = .ok (some c) ∧
      t.demandPeriodAtStep i r.ts = .ok ((hourToMonth (i * r.ts / 60) : Int) * numPeriods q.includeDiscount + k) ∧
      dictGet? t.demandMap ((hourToMonth (i * r.ts / 60) : Int) * numPeriods q.includeDiscount + k) =
        some (some d) ∧
      Charged q (hourToMonth (i * r.ts / 60)) (i * r.ts / 60 % 24) k c d ∧
      k < numPeriods q.includeDiscount ∧ hourToMonth (i * r.ts / 60) < 12 := by
    intro i hi
    have hi' := hlt i hi
    have hm := (C33_month_of_hour (i * r.ts / 60) _ (by omega)).mp rfl
    obtain ⟨l, s, j, hs, hc, hu, hg, hj, j1, j2, k1, k2, k3, -, -⟩ :=
      hour_lookup q t hb hn i r.ts _ hts (by omega) hm
    obtain ⟨e1, e2, e3, e4, e5, e6, _, d1, d2, d3, d4⟩ := season_inv q l s hs
    obtain ⟨x1, hx1⟩ := hg.pkDemand
    obtain ⟨x2, hx2⟩ := hg.pkEnergy
    obtain ⟨x3, hx3⟩ := hg.offDemand
    obtain ⟨x4, hx4⟩ := hg.offEnergy
    have f1 : s.pkDemand = some x1 := by rw [At, e3] at hx1; simpa using hx1
    have f2 : s.pkEnergy = some x2 := by rw [At, e4] at hx2; simpa using hx2
    have f3 : s.offDemand = some x3 := by rw [At, e5] at hx3; simpa using hx3
    have f4 : s.offEnergy = some x4 := by rw [At, e6] at hx4; simpa using hx4
    by_cases h1 : j = 1
    · subst h1
      refine ⟨x2, x1, 1, ?_, k1, ?_, ⟨l, hc, .inl ⟨rfl, j1.mp rfl, hx2, hx1⟩⟩, hj, hm.1⟩
      · rw [k2]; simp [Tracker.pick, f2]
      · rw [k3]; simp [Tracker.pick, f1]
    · by_cases h2 : j = 2
      · subst h2
        have hD := j2.mp rfl
        have hl : l < q.n := by
          obtain ⟨a, b, ha, -⟩ := hc
          obtain ⟨hv, -⟩ := build_inv q t hb
          obtain ⟨h', -⟩ := List.getElem?_eq_some_iff.mp ha
          have := hv.lengths
          unfold RateParams.n
          omega
        obtain ⟨⟨x5, hx5⟩, x6, hx6⟩ := hd hD.1 l hl
        have f5 : s.dEnergy = some x5 := by unfold DiscountAt at d4 hx5; rw [d4] at hx5; simpa using hx5
        have f6 : s.dDemand = some x6 := by unfold DiscountAt at d3 hx6; rw [d3] at hx6; simpa using hx6
        refine ⟨x5, x6, 2, ?_, k1, ?_, ⟨l, hc, .inr (.inl ⟨rfl, hD, hx5, hx6⟩)⟩, hj, hm.1⟩
        · rw [k2]; simp [Tracker.pick, f5]
        · rw [k3]; simp [Tracker.pick, f6]
      · have h0 : j = 0 := by
          have : numPeriods q.includeDiscount ≤ 3 := by unfold numPeriods; split <;> omega
          omega
        subst h0
        refine ⟨x4, x3, 0, ?_, k1, ?_,
          ⟨l, hc, .inr (.inr ⟨rfl, fun h => h1 (j1.mpr h), fun h => h2 (j2.mpr h), hx4, hx3⟩)⟩, hj, hm.1⟩
        · rw [k2]; simp [Tracker.pick, f4]
        · rw [k3]; simp [Tracker.pick, f3]
  choose! rate dem kind H using hall
  refine ⟨rate, fun i => (hourToMonth (i * r.ts / 60) : Int) * numPeriods q.includeDiscount + kind i,
    fun p => ((dictGet? t.demandMap p).getD none).getD 0, kind, ⟨fun i hi => (H i hi).1,
      fun i hi => (H i hi).2.1, ?_⟩, ?_⟩
  · intro i hi kw
    unfold Tracker.demandCharge
    simp [(H i hi).2.2.1]
  · intro i hi
    obtain ⟨-, -, h3, h4, h5, h6⟩ := H i hi
    refine ⟨?_, rfl, h5, h6⟩
    simpa [h3] using h4

/-- The base charge of an accepted structure. -/
theorem build_base (q : RateParams K) (t : Tracker K) (hb : q.build = .ok t) : q.base = some t.base := by
  obtain ⟨-, seasons, base, -, h2, rfl⟩ := build_inv q t hb
  rw [h2, (Tracker.fillAll_misc q.includeDiscount seasons _).2.1]

/-- Period keys of one month and kind are one key. -/
theorem key_eq_iff {N a b : ℕ} {k l : ℕ} (hk : k < N) (hl : l < N) :
    ((a : Int) * N + k = (b : Int) * N + l) ↔ a = b ∧ k = l := by
  constructor
  · intro h
    have h' : a * N + k = b * N + l := by exact_mod_cast h
    have h1 : (a * N + k) / N = a := by
      rw [Nat.mul_comm, Nat.mul_add_div (by omega), Nat.div_eq_of_lt hk]; rfl
    have h2 : (b * N + l) / N = b := by
      rw [Nat.mul_comm, Nat.mul_add_div (by omega), Nat.div_eq_of_lt hl]; rfl
    have : a = b := by rw [← h1, ← h2, h']
    subst this
    omega
  · rintro ⟨rfl, rfl⟩; rfl

/-- A sum over the periods in use is not changed by renaming the periods. -/
theorem sum_periods (n : ℕ) (per per' : ℕ → Int) (h : ∀ i < n, ∀ j < n, per i = per j ↔ per' i = per' j)
    (f g : Int → K) (hfg : ∀ i < n, f (per i) = g (per' i)) :
    ∑ p ∈ (Finset.range n).image per, f p = ∑ p ∈ (Finset.range n).image per', g p := by
  classical
  have hφ : ∀ p ∈ (Finset.range n).image per, ∃ i < n, per i = p := by
    intro p hp
    obtain ⟨i, hi, e⟩ := Finset.mem_image.mp hp
    exact ⟨i, Finset.mem_range.mp hi, e⟩
  choose! ix hlt hix using hφ
  refine Finset.sum_nbij (fun p => per' (ix p)) ?_ ?_ ?_ ?_
  · intro p hp
    exact Finset.mem_image_of_mem _ (Finset.mem_range.mpr (hlt p hp))
  · intro p hp p' hp' e
    have := (h _ (hlt p hp) _ (hlt p' hp')).mpr e
    rw [hix p hp, hix p' hp'] at this
    exact this
  · intro p' hp'
    obtain ⟨i, hi, rfl⟩ := Finset.mem_image.mp hp'
    have hm : per i ∈ (Finset.range n).image per := Finset.mem_image_of_mem _ hi
    refine ⟨per i, hm, ?_⟩
    exact (h _ (hlt _ hm) _ (Finset.mem_range.mp hi)).mp (hix _ hm)
  · intro p hp
    have := hfg _ (hlt p hp)
    rw [hix p hp] at this
    exact this

/-- A sum over the periods in use grows with the terms, also if periods are split. -/
theorem sum_periods_le (n : ℕ) (per per' : ℕ → Int) (h : ∀ i < n, ∀ j < n, per' i = per' j → per i = per j)
    (f g : Int → K) (hg : ∀ i < n, 0 ≤ g (per' i))
    (hfg : ∀ i < n, ∃ j < n, per j = per i ∧ f (per i) ≤ g (per' j)) :
    ∑ p ∈ (Finset.range n).image per, f p ≤ ∑ p ∈ (Finset.range n).image per', g p := by
  classical
  have hφ : ∀ p ∈ (Finset.range n).image per, ∃ j < n, per j = p ∧ f p ≤ g (per' j) := by
    intro p hp
    obtain ⟨i, hi, rfl⟩ := Finset.mem_image.mp hp
    exact hfg i (Finset.mem_range.mp hi)
  choose! ix hlt hix hle using hφ
  have hinj : Set.InjOn (fun p => per' (ix p)) ((Finset.range n).image per : Finset Int) := by
    intro p hp p' hp' e
    have := h _ (hlt p hp) _ (hlt p' hp') e
    rw [hix p hp, hix p' hp'] at this
    exact this
  calc ∑ p ∈ (Finset.range n).image per, f p
      ≤ ∑ p ∈ (Finset.range n).image per, g (per' (ix p)) := Finset.sum_le_sum hle
    _ = ∑ p ∈ ((Finset.range n).image per).image (fun p => per' (ix p)), g p :=
        (Finset.sum_image (f := g) hinj).symm
    _ ≤ _ := by
        refine Finset.sum_le_sum_of_subset_of_nonneg ?_ ?_
        · intro p' hp'
          obtain ⟨p, hp, rfl⟩ := Finset.mem_image.mp hp'
          exact Finset.mem_image_of_mem _ (Finset.mem_range.mpr (hlt p hp))
        · intro p' hp' _
          obtain ⟨i, hi, rfl⟩ := Finset.mem_image.mp hp'
          exact hg i (Finset.mem_range.mp hi)

/-- **C136 (scale).** Two runs over the same steps, the second with `a ≥ 0` times the power, under two accepted
rate structures, the second with the same periods at `c` times the rates: the part of the annual bill beyond
the base charges is `a * c` times as high. -/
theorem C136_scaled (a c : K) (ha : 0 ≤ a) (q q' : RateParams K) (t t' : Tracker K) (hb : q.build = .ok t)
    (hb' : q'.build = .ok t') (hn : 0 < q.n) (hn' : 0 < q'.n) (hd : DiscountPriced q) (hd' : DiscountPriced q')
    (hq : TimesTariff c q q') (b b' : K) (hbase : q.base = some b) (hbase' : q'.base = some b')
    (r r' : SimRun K) (hts : 0 < r.ts) (hlen : r.power.length * r.ts ≤ 525600) (hts' : r'.ts = r.ts)
    (hlen' : r'.power.length = r.power.length)
    (hkw : ∀ i < r.power.length, totalKw r' i = a * totalKw r i) :
    ∃ x, r.annualCost t = .ok (x + 12 * b) ∧ r'.annualCost t' = .ok (a * c * x + 12 * b') := by
  obtain ⟨rate, per, charge, kind, hp, H⟩ := charged_priced q t hb hn hd r hts hlen
  obtain ⟨rate', per', charge', kind', hp', H'⟩ := charged_priced q' t' hb' hn' hd' r' (by rw [hts']; exact hts)
    (by rw [hts', hlen']; exact hlen)
  rw [build_base q t hb, Option.some.injEq] at hbase
  rw [build_base q' t' hb', Option.some.injEq] at hbase'
  rw [annualCost_eq r t rate per charge hp, annualCost_eq r' t' rate' per' charge' hp', hbase, hbase', hlen']
  rw [hts', hlen'] at H'
  have hcmp : ∀ i < r.power.length, kind' i = kind i ∧ rate' i = c * rate i ∧
      charge' (per' i) = c * charge (per i) := fun i hi =>
    hq _ (H i hi).2.2.2 _ (Nat.mod_lt _ (by omega)) _ _ _ _ _ _ (H i hi).1 (H' i hi).1
  have hper : ∀ i < r.power.length, ∀ j < r.power.length, per i = per j ↔ per' i = per' j := by
    intro i hi j hj
    rw [(H i hi).2.1, (H j hj).2.1, (H' i hi).2.1, (H' j hj).2.1,
      key_eq_iff (H i hi).2.2.1 (H j hj).2.2.1, key_eq_iff (H' i hi).2.2.1 (H' j hj).2.2.1,
      (hcmp i hi).1, (hcmp j hj).1]
  refine ⟨_, rfl, ?_⟩
  congr 2
  rw [mul_add, Finset.mul_sum, Finset.mul_sum]
  congr 1
  · refine Finset.sum_congr rfl fun i hi => ?_
    have hi := Finset.mem_range.mp hi
    have hh : hours r' = hours r := by unfold hours; rw [hts']
    rw [hkw i hi, (hcmp i hi).2.1, hh]; ring
  · symm
    refine sum_periods _ per per' hper _ _ fun i hi => ?_
    rw [(hcmp i hi).2.2]
    have h1 := peakFn_spec (totalKw r) per _ i hi
    have h2 := peakFn_spec (totalKw r') per' _ i hi
    have h3 : PeakOf (totalKw r') per' r.power.length (per' i)
        (a * peakFn (totalKw r) per r.power.length (per i)) := by
      obtain ⟨⟨j, hj, e1, e2⟩, hub⟩ := h1
      refine ⟨⟨j, hj, (hper j hj i hi).mp e1, by rw [hkw j hj, e2]⟩, ?_⟩
      rintro _ ⟨l, hl, e3, rfl⟩
      rw [hkw l hl]
      exact mul_le_mul_of_nonneg_left (hub ⟨l, hl, (hper l hl i hi).mpr e3, rfl⟩) ha
    rw [h2.unique h3]; ring

/-- **C136 (only what is charged matters).** Two accepted rate structures with the same base charge, the same
periods and the same rates at every hour of every month give one annual bill for every run, however they are
written: for example with a season split in two. -/
theorem C136_same_tariff (q q' : RateParams K) (t t' : Tracker K) (hb : q.build = .ok t)
    (hb' : q'.build = .ok t') (hn : 0 < q.n) (hn' : 0 < q'.n) (hd : DiscountPriced q) (hd' : DiscountPriced q')
    (hq : TimesTariff 1 q q') (hbase : q'.base = q.base)
    (r : SimRun K) (hts : 0 < r.ts) (hlen : r.power.length * r.ts ≤ 525600) :
    ∃ x, r.annualCost t = .ok x ∧ r.annualCost t' = .ok x := by
  have e := build_base q t hb
  obtain ⟨x, h1, h2⟩ := C136_scaled 1 1 zero_le_one q q' t t' hb hb' hn hn' hd hd' hq t.base t.base e
    (hbase.trans e) r r hts hlen rfl rfl (fun i _ => (one_mul _).symm)
  exact ⟨_, h1, by rw [h2]; ring_nf⟩

/-- **C136 (monotone).** With rates that are not negative, more power at some steps and less at none, higher
rates at some hours and lower at none, a higher base charge, or a division of the periods into more periods,
never lower the annual bill. -/
theorem C136_monotone (q q' : RateParams K) (t t' : Tracker K) (hb : q.build = .ok t)
    (hb' : q'.build = .ok t') (hn : 0 < q.n) (hn' : 0 < q'.n) (hd : DiscountPriced q) (hd' : DiscountPriced q')
    (hq0 : NonnegTariff q) (hq : DearerTariff q q') (hf : FinerTariff q q') (b b' : K)
    (hbase : q.base = some b) (hbase' : q'.base = some b') (hbb : b ≤ b')
    (r r' : SimRun K) (hts : 0 < r.ts) (hlen : r.power.length * r.ts ≤ 525600) (hts' : r'.ts = r.ts)
    (hlen' : r'.power.length = r.power.length)
    (hkw : ∀ i < r.power.length, 0 ≤ totalKw r i ∧ totalKw r i ≤ totalKw r' i) :
    ∃ x x', r.annualCost t = .ok x ∧ r'.annualCost t' = .ok x' ∧ x ≤ x' := by
  obtain ⟨rate, per, charge, kind, hp, H⟩ := charged_priced q t hb hn hd r hts hlen
  obtain ⟨rate', per', charge', kind', hp', H'⟩ := charged_priced q' t' hb' hn' hd' r' (by rw [hts']; exact hts)
    (by rw [hts', hlen']; exact hlen)
  rw [build_base q t hb, Option.some.injEq] at hbase
  rw [build_base q' t' hb', Option.some.injEq] at hbase'
  rw [annualCost_eq r t rate per charge hp, annualCost_eq r' t' rate' per' charge' hp', hbase, hbase', hlen']
  rw [hts', hlen'] at H'
  have h24 : ∀ i, i * r.ts / 60 % 24 < 24 := fun i => Nat.mod_lt _ (by omega)
  have hcmp : ∀ i < r.power.length, rate i ≤ rate' i ∧ charge (per i) ≤ charge' (per' i) := fun i hi =>
    hq _ (H i hi).2.2.2 _ (h24 i) _ _ _ _ _ _ (H i hi).1 (H' i hi).1
  have hnn : ∀ i < r.power.length, 0 ≤ rate i ∧ 0 ≤ charge (per i) := fun i hi => hq0 _ _ _ _ _ (H i hi).1
  have hper : ∀ i < r.power.length, ∀ j < r.power.length, per' i = per' j → per i = per j := by
    intro i hi j hj
    rw [(H i hi).2.1, (H j hj).2.1, (H' i hi).2.1, (H' j hj).2.1,
      key_eq_iff (H i hi).2.2.1 (H j hj).2.2.1, key_eq_iff (H' i hi).2.2.1 (H' j hj).2.2.1]
    rintro ⟨e1, e2⟩
    refine ⟨e1, ?_⟩
    have c1 := (H i hi).1
    have c2 := (H j hj).1
    have c3 := (H' i hi).1
    have c4 := (H' j hj).1
    rw [← e1] at c2 c4
    rw [← e2] at c4
    exact hf _ (H i hi).2.2.2 _ (h24 i) _ (h24 j) _ _ _ _ _ _ _ _ _ _ _ c1 c2 c3 c4
  refine ⟨_, _, rfl, rfl, ?_⟩
  have hh : hours r' = hours r := by unfold hours; rw [hts']
  have hh0 : 0 ≤ hours r := by unfold hours; positivity
  refine add_le_add (add_le_add ?_ ?_) (mul_le_mul_of_nonneg_left hbb (by norm_num))
  · refine Finset.sum_le_sum fun i hi => ?_
    have hi := Finset.mem_range.mp hi
    obtain ⟨k0, k1⟩ := hkw i hi
    rw [hh]
    exact mul_le_mul (mul_le_mul_of_nonneg_right k1 hh0) (hcmp i hi).1 (hnn i hi).1
      (mul_nonneg (k0.trans k1) hh0)
  · refine sum_periods_le _ per per' hper _ _ ?_ ?_
    · intro i hi
      refine mul_nonneg ((hnn i hi).2.trans (hcmp i hi).2) ?_
      have := (peakFn_spec (totalKw r') per' _ i hi).2 ⟨i, hi, rfl, rfl⟩
      exact ((hkw i hi).1.trans (hkw i hi).2).trans this
    · intro i hi
      obtain ⟨⟨j, hj, e1, e2⟩, -⟩ := peakFn_spec (totalKw r) per _ i hi
      refine ⟨j, hj, e1, ?_⟩
      rw [← e2, ← e1]
      have := (peakFn_spec (totalKw r') per' _ j hj).2 ⟨j, hj, rfl, rfl⟩
      exact mul_le_mul (hcmp j hj).2 ((hkw j hj).2.trans this) (hkw j hj).1
        ((hnn j hj).2.trans (hcmp j hj).2)

/-- **C136 (flat).** Under one energy rate at all hours and no demand rate the annual bill is the reported total
energy times the rate, plus twelve base charges. -/
theorem C136_flat (e₀ : K) (q : RateParams K) (t : Tracker K) (hb : q.build = .ok t) (hn : 0 < q.n)
    (hd : DiscountPriced q) (hq : FlatTariff e₀ q) (b : K) (hbase : q.base = some b)
    (r : SimRun K) (hts : 0 < r.ts) (hlen : r.power.length * r.ts ≤ 525600)
    (htm : r.tmInput.length ≤ r.power.length) :
    r.annualCost t = .ok (r.totalEnergy * e₀ + 12 * b) := by
  obtain ⟨rate, per, charge, kind, hp, H⟩ := charged_priced q t hb hn hd r hts hlen
  rw [build_base q t hb, Option.some.injEq] at hbase
  rw [annualCost_eq r t rate per charge hp, hbase, C41_total r htm, Finset.sum_mul]
  have h1 : ∑ i ∈ Finset.range r.power.length, totalKw r i * hours r * rate i =
      ∑ i ∈ Finset.range r.power.length, totalKw r i * hours r * e₀ :=
    Finset.sum_congr rfl fun i hi => by rw [(hq _ _ _ _ _ (H i (Finset.mem_range.mp hi)).1).1]
  have h2 : ∑ p ∈ (Finset.range r.power.length).image per,
      charge p * peakFn (totalKw r) per r.power.length p = 0 := by
    refine Finset.sum_eq_zero fun p hp => ?_
    obtain ⟨i, hi, rfl⟩ := Finset.mem_image.mp hp
    rw [(hq _ _ _ _ _ (H i (Finset.mem_range.mp hi)).1).2, zero_mul]
  rw [h1, h2, add_zero]

namespace Demo

/-- The demonstration rates with the first season written as two. -/
def ratesSplit : RateParams ℚ where
  base := some 190
  pkStart := .many [some 16, some 16, some 14, some 16]
  pkEnd := .many [some 21, some 21, some 20, some 21]
  pkDemand := .many [some 30, some 30, some 40, some 30]
  pkEnergy := .many [some (2/10), some (2/10), some (3/10), some (2/10)]
  offDemand := .many [some 10, some 10, some 15, some 10]
  offEnergy := .many [some (1/10), some (1/10), some (15/100), some (1/10)]
  startMonth := .many [some 0, some 2, some 5, some 9]
  endMonth := .many [some 2, some 5, some 9, some 12]
  includeDiscount := false
  dStart := .one none
  dEnd := .one none
  dDemand := .one none
  dEnergy := .one none

/-- One season, the same rates inside and outside the peak window. -/
def plain (s e en dm : ℚ) : RateParams ℚ where
  base := some 190
  pkStart := .many [some s]
  pkEnd := .many [some e]
  pkDemand := .many [some dm]
  pkEnergy := .many [some en]
  offDemand := .many [some dm]
  offEnergy := .many [some en]
  startMonth := .many [some 0]
  endMonth := .many [some 12]
  includeDiscount := false
  dStart := .one none
  dEnd := .one none
  dDemand := .one none
  dEnergy := .one none

theorem built_of (q : RateParams ℚ) (h : q.validate = .ok ()) (hs : ((List.range q.n).mapM q.season).toBool = true) :
    ∃ t, q.build = .ok t := by
  unfold RateParams.build
  rw [h, ok_bind]
  cases e : (List.range q.n).mapM q.season with
  | error _ => rw [e] at hs; simp [Except.toBool] at hs
  | ok l =>
    rw [ok_bind]
    have hb := ((C34_validator_exact_partial q).1.mp h).base
    cases e' : q.base with
    | none => rw [e'] at hb; simp at hb
    | some b => exact ⟨_, rfl⟩

theorem charged_plain (s e en dm : ℚ) (m h k : ℕ) (x y : ℚ) (H : Charged (plain s e en dm) m h k x y) :
    k = (if s ≤ h ∧ (h : ℚ) < e then 1 else 0) ∧ x = en ∧ y = dm := by
  obtain ⟨i, ⟨a, b, ha, -⟩, H⟩ := H
  have hi : i = 0 := by
    obtain ⟨h', -⟩ := List.getElem?_eq_some_iff.mp ha
    simpa [plain, RateArg.toList] using h'
  subst hi
  simp only [PeakHour, DiscountHour, At, plain, RateArg.toList, List.getElem?_cons_zero, Option.some.injEq,
    exists_and_left, exists_eq_left', Bool.false_eq_true, false_and, not_false_eq_true, true_and] at H
  rcases H with ⟨rfl, h1, rfl, rfl⟩ | ⟨-, h1, -⟩ | ⟨rfl, h1, rfl, rfl⟩
  · exact ⟨by rw [if_pos h1], rfl, rfl⟩
  · exact ⟨by rw [if_neg h1], rfl, rfl⟩

/-- What the demonstration rates charge. -/
theorem charged_rates (q : RateParams ℚ) (hq : q = rates ∨ q = ratesSplit) (m h k : ℕ) (x y : ℚ)
    (H : Charged q m h k x y) :
    (5 ≤ m ∧ m < 9 → k = (if (14 : ℚ) ≤ h ∧ (h : ℚ) < 20 then 1 else 0) ∧
      x = (if (14 : ℚ) ≤ h ∧ (h : ℚ) < 20 then 3 / 10 else 15 / 100) ∧
      y = (if (14 : ℚ) ≤ h ∧ (h : ℚ) < 20 then 40 else 15)) ∧
    (¬ (5 ≤ m ∧ m < 9) → k = (if (16 : ℚ) ≤ h ∧ (h : ℚ) < 21 then 1 else 0) ∧
      x = (if (16 : ℚ) ≤ h ∧ (h : ℚ) < 21 then 2 / 10 else 1 / 10) ∧
      y = (if (16 : ℚ) ≤ h ∧ (h : ℚ) < 21 then 30 else 10)) := by
  obtain ⟨i, ⟨a, b, ha, hb, hab⟩, H⟩ := H
  have hi : i < 4 := by
    obtain ⟨h', -⟩ := List.getElem?_eq_some_iff.mp ha
    rcases hq with rfl | rfl
    · have : (rates.startMonth.toList).length = 3 := by decide
      omega
    · have : (ratesSplit.startMonth.toList).length = 4 := by decide
      omega
  rcases hq with rfl | rfl <;> interval_cases i <;>
  simp only [At, rates, ratesSplit, RateArg.toList, List.getElem?_cons_zero, List.getElem?_cons_succ,
    List.getElem?_nil, Option.some.injEq, reduceCtorEq] at ha hb <;> subst ha hb <;>
  simp only [PeakHour, DiscountHour, At, rates, ratesSplit, RateArg.toList, List.getElem?_cons_zero,
    List.getElem?_cons_succ, Option.some.injEq,
    exists_and_left, exists_eq_left', Bool.false_eq_true, false_and, not_false_eq_true, true_and] at H <;>
  (rcases H with ⟨rfl, h1, rfl, rfl⟩ | ⟨-, h1, -⟩ | ⟨rfl, h1, rfl, rfl⟩
   · simp only [if_pos h1]
     constructor <;> intro hm <;> first | omega | exact ⟨rfl, rfl, rfl⟩ | trivial | simp
   · simp only [if_neg h1]
     constructor <;> intro hm <;> first | omega | exact ⟨rfl, rfl, rfl⟩ | trivial | simp)

theorem split_same : TimesTariff 1 rates ratesSplit := by
  intro m _ h _ k e d k' e' d' H H'
  have h1 := charged_rates rates (.inl rfl) m h k e d H
  have h2 := charged_rates ratesSplit (.inr rfl) m h k' e' d' H'
  by_cases hm : 5 ≤ m ∧ m < 9
  · obtain ⟨a1, a2, a3⟩ := h1.1 hm
    obtain ⟨b1, b2, b3⟩ := h2.1 hm
    rw [a1, a2, a3, b1, b2, b3]; simp
  · obtain ⟨a1, a2, a3⟩ := h1.2 hm
    obtain ⟨b1, b2, b3⟩ := h2.2 hm
    rw [a1, a2, a3, b1, b2, b3]; simp

end Demo

/-- Non-vacuity of C136: the demonstration rates with the first season written as two charge the same at every
hour, so that they give one bill. -/
example (r : SimRun ℚ) (hts : 0 < r.ts) (hlen : r.power.length * r.ts ≤ 525600) :
    ∃ t t' x, Demo.rates.build = .ok t ∧ Demo.ratesSplit.build = .ok t' ∧
      r.annualCost t = .ok x ∧ r.annualCost t' = .ok x := by
  obtain ⟨t, ht⟩ := Demo.built_of Demo.rates (by decide +kernel) (by decide +kernel)
  obtain ⟨t', ht'⟩ := Demo.built_of Demo.ratesSplit (by decide +kernel) (by decide +kernel)
  obtain ⟨x, h1, h2⟩ := C136_same_tariff _ _ t t' ht ht' (by decide) (by decide) (by intro h; cases h)
    (by intro h; cases h) Demo.split_same rfl r hts hlen
  exact ⟨t, t', x, ht, ht', h1, h2⟩

/-- Non-vacuity of C136: a tariff without demand rate. -/
example : ∃ t, (Demo.plain 16 21 (1/10) 0).build = .ok t ∧
    (Demo.twoSteps [3, 3]).annualCost t = .ok (5 / 2 * (1 / 10) + 12 * 190) := by
  obtain ⟨t, ht⟩ := Demo.built_of (Demo.plain 16 21 (1/10) 0) (by decide +kernel) (by decide +kernel)
  refine ⟨t, ht, ?_⟩
  rw [C136_flat (1/10) _ t ht (by decide) (by intro h; cases h)
    (fun m h k e d H => (Demo.charged_plain _ _ _ _ m h k e d H).2) 190 rfl _ (by decide) (by decide) (by decide),
    show (Demo.twoSteps [3, 3]).totalEnergy = 5 / 2 by decide +kernel]

/-- Non-vacuity of C136: a peak window with the off-peak rates is a second period and never lowers the bill. -/
example (dm : ℚ) (hdm : 0 ≤ dm) (r : SimRun ℚ) (hts : 0 < r.ts) (hlen : r.power.length * r.ts ≤ 525600)
    (hkw : ∀ i < r.power.length, 0 ≤ totalKw r i) (t t' : Tracker ℚ)
    (ht : (Demo.plain 0 0 (1/10) dm).build = .ok t) (ht' : (Demo.plain 16 21 (1/10) dm).build = .ok t') :
    ∃ x x', r.annualCost t = .ok x ∧ r.annualCost t' = .ok x' ∧ x ≤ x' := by
  refine C136_monotone _ _ t t' ht ht' (by show 0 < 1; omega) (by show 0 < 1; omega) (by intro h; cases h)
    (by intro h; cases h) ?_ ?_ ?_ 190 190 rfl rfl le_rfl r r hts hlen rfl rfl (fun i hi => ⟨hkw i hi, le_rfl⟩)
  · intro m h k e d H
    obtain ⟨-, rfl, rfl⟩ := Demo.charged_plain _ _ _ _ m h k e d H
    exact ⟨by norm_num, hdm⟩
  · intro m _ h _ k e d k' e' d' H H'
    obtain ⟨-, rfl, rfl⟩ := Demo.charged_plain _ _ _ _ m h k e d H
    obtain ⟨-, rfl, rfl⟩ := Demo.charged_plain _ _ _ _ m h k' e' d' H'
    exact ⟨le_rfl, le_rfl⟩
  · intro m _ h₁ _ h₂ _ k₁ e₁ d₁ k₂ e₂ d₂ e₁' d₁' e₂' d₂' k' H1 H2 _ _
    have h0 : ∀ h : ℕ, ¬ ((0 : ℚ) ≤ h ∧ (h : ℚ) < 0) := fun h hh => absurd hh.1 (not_le.mpr hh.2)
    rw [(Demo.charged_plain _ _ _ _ m h₁ k₁ e₁ d₁ H1).1, (Demo.charged_plain _ _ _ _ m h₂ k₂ e₂ d₂ H2).1,
      if_neg (h0 _), if_neg (h0 _)]

end Eco
