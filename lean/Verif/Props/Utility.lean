import Verif.Lemmas.Utility
import Mathlib.Algebra.Order.Field.Rat
import Mathlib.Tactic.FieldSimp

/-! C33 to C37: electricity rates. -/

namespace Eco
set_option linter.unusedSectionVars false
variable {K : Type} [Field K] [LinearOrder K] [IsStrictOrderedRing K]
open Spec

/-! ## C33 -/

/-- **C33.** An hour of the year is assigned the month that contains its day. -/
theorem C33_month_of_hour (h m : ℕ) (hh : h < 8760) : hourToMonth h = m ↔ InMonth (h / 24) m := by
  have key : ∀ m < 12, (hourToMonth h = m ↔ InMonth (h / 24) m) := by
    intro m hm
    rw [← in_month_iff h m hh hm, monthHourStart_sum m (by omega), monthHourStart_sum (m + 1) (by omega)]
    unfold InMonth
    constructor
    · rintro ⟨h1, h2⟩; exact ⟨hm, by omega, by omega⟩
    · rintro ⟨_, h1, h2⟩; omega
  constructor
  · intro e
    have := hourToMonth_lt h
    exact (key m (by omega)).mp e
  · intro e; exact (key m e.1).mpr e

/-- **C33 (lengths).** Every month gets its number of days times 24 hours. -/
theorem C33_hours_per_month (m : ℕ) (hm : m < 12) :
    ((List.range 8760).filter (fun h => decide (hourToMonth h = m))).length = 24 * monthLen.getD m 0 := by
  have h1 : (List.range 8760).filter (fun h => decide (hourToMonth h = m)) =
      (List.range 8760).filter (fun h => decide (monthHourStart.getD m 0 ≤ h) &&
        decide (h < monthHourStart.getD (m + 1) 0)) := by
    apply List.filter_congr
    intro h hh
    have := in_month_iff h m (List.mem_range.mp hh) hm
    rw [← Bool.decide_and]
    simp only [this]
  have h2 : ∀ a b n : ℕ, a ≤ b → b ≤ n →
      ((List.range n).filter (fun h => decide (a ≤ h) && decide (h < b))).length = b - a := by
    intro a b n hab hbn
    induction n with
    | zero => simp; omega
    | succ n ih =>
      rw [List.range_succ, List.filter_append, List.length_append]
      by_cases hb : b ≤ n
      · rw [ih hb]; simp; omega
      · have hbn' : b = n + 1 := by omega
        subst hbn'
        have h3 : (List.range n).filter (fun h => decide (a ≤ h) && decide (h < n + 1)) =
            (List.range n).filter (fun h => decide (a ≤ h)) := by
          apply List.filter_congr
          intro h hh
          have := List.mem_range.mp hh
          simp; omega
        rw [h3]
        by_cases ha : a = n + 1
        · subst ha
          rw [List.filter_eq_nil_iff.mpr]
          · simp
          · intro x hx; have := List.mem_range.mp hx; simp; omega
        · have h4 : ((List.range n).filter (fun h => decide (a ≤ h))).length = n - a := by
            have : ∀ n, a ≤ n → ((List.range n).filter (fun h => decide (a ≤ h))).length = n - a := by
              intro n
              induction n with
              | zero => intro h; simp
              | succ n ih =>
                intro h
                rw [List.range_succ, List.filter_append, List.length_append]
                by_cases h5 : a ≤ n
                · rw [ih h5]; simp [h5]; omega
                · rw [List.filter_eq_nil_iff.mpr]
                  · simp [h5]; omega
                  · intro x hx; have := List.mem_range.mp hx; simp; omega
            exact this n (by omega)
          rw [h4]
          have h6 : a ≤ n := by omega
          simp [h6]; omega
  rw [h1, h2 _ _ _ (monthHourStart_mono (m + 1) (by omega) m (by omega))
    (by have := monthHourStart_mono 12 le_rfl (m + 1) (by omega); exact this)]
  interval_cases m <;> rfl

/-! ## C34 -/

namespace Spec

/-- The list argument has a number at index `i`. -/
def At {α : Type} (a : RateArg (Option α)) (i : ℕ) (x : α) : Prop := a.toList[i]? = some (some x)

/-- Season `i` is complete and its peak window is ordered. -/
structure GoodSeason (r : RateParams K) (i : ℕ) : Prop where
  window : ∃ s e, At r.pkStart i s ∧ At r.pkEnd i e ∧ 0 ≤ s ∧ s ≤ 23 ∧ s ≤ e ∧ e ≤ 24
  pkDemand : ∃ x, At r.pkDemand i x
  pkEnergy : ∃ x, At r.pkEnergy i x
  offDemand : ∃ x, At r.offDemand i x
  offEnergy : ∃ x, At r.offEnergy i x
  months : ∃ a b, At r.startMonth i a ∧ At r.endMonth i b ∧ a < b

/-- The lists have one length; each season is complete; the seasons follow one another from month 0
to month 12. -/
structure ValidRates (r : RateParams K) : Prop where
  base : r.base.isSome
  lengths : r.pkEnd.toList.length = r.pkStart.toList.length ∧
    r.pkDemand.toList.length = r.pkStart.toList.length ∧
    r.pkEnergy.toList.length = r.pkStart.toList.length ∧
    r.offDemand.toList.length = r.pkStart.toList.length ∧
    r.offEnergy.toList.length = r.pkStart.toList.length ∧
    r.startMonth.toList.length = r.pkStart.toList.length ∧
    r.endMonth.toList.length = r.pkStart.toList.length
  seasons : ∀ i < r.pkStart.toList.length, GoodSeason r i
  first : 0 < r.pkStart.toList.length → At r.startMonth 0 0
  next : ∀ i, i + 1 < r.pkStart.toList.length → ∃ b, At r.endMonth i b ∧ At r.startMonth (i + 1) b
  last : ∀ i, i + 1 = r.pkStart.toList.length → At r.endMonth i 12

end Spec

theorem block_validate_iff (b : RateBlock K) (prev : Option (Option Int)) (last : Bool) :
    (b.validate prev last = .ok () ↔
      (∃ s e, b.pkStart = some s ∧ b.pkEnd = some e ∧ 0 ≤ s ∧ s ≤ 23 ∧ s ≤ e ∧ e ≤ 24) ∧
      (∃ x, b.pkDemand = some x) ∧ (∃ x, b.pkEnergy = some x) ∧ (∃ x, b.offDemand = some x) ∧
      (∃ x, b.offEnergy = some x) ∧
      ∃ sm em, b.startMonth = some sm ∧ b.endMonth = some em ∧ sm < em ∧
        (prev = none → sm = 0) ∧ (∀ pe, prev = some pe → pe = some sm) ∧ (last = true → em = 12)) ∧
    (b.validate prev last = .ok () ∨ b.validate prev last = .error .valueError) := by
  unfold RateBlock.validate
  cases h1 : b.pkStart with
  | none => simp
  | some s =>
  simp only
  by_cases h2 : s < 0 ∨ 23 < s
  · rw [if_pos h2]
    refine ⟨⟨by simp, ?_⟩, Or.inr rfl⟩
    rintro ⟨⟨s', e, hs, _, a, b, _⟩, _⟩
    simp only [Option.some.injEq] at hs; subst hs
    rcases h2 with h2 | h2 <;> exact absurd h2 (not_lt.mpr (by assumption))
  rw [if_neg h2]
  simp only [not_or, not_lt] at h2
  cases h3 : b.pkEnd with
  | none => simp
  | some e =>
  simp only
  by_cases h4 : e < s ∨ 24 < e
  · rw [if_pos h4]
    refine ⟨⟨by simp, ?_⟩, Or.inr rfl⟩
    rintro ⟨⟨s', e', hs, he, _, _, a, b⟩, _⟩
    simp only [Option.some.injEq] at hs he; subst hs he
    rcases h4 with h4 | h4 <;> exact absurd h4 (not_lt.mpr (by assumption))
  rw [if_neg h4]
  simp only [not_or, not_lt] at h4
  cases h5 : b.pkDemand with
  | none => simp
  | some pd =>
  cases h6 : b.offDemand with
  | none => simp
  | some od =>
  cases h7 : b.pkEnergy with
  | none => simp
  | some pn =>
  cases h8 : b.offEnergy with
  | none => simp
  | some on =>
  simp only [Option.isNone_some, Bool.false_eq_true, if_false]
  cases h9 : b.startMonth with
  | none => simp
  | some sm =>
  simp only
  have hw : ∃ s' e', some s = some s' ∧ some e = some e' ∧ 0 ≤ s' ∧ s' ≤ 23 ∧ s' ≤ e' ∧ e' ≤ 24 :=
    ⟨s, e, rfl, rfl, h2.1, h2.2, h4.1, h4.2⟩
  by_cases h10 : badStart prev sm = true
  · rw [if_pos h10]
    refine ⟨⟨by simp, ?_⟩, Or.inr rfl⟩
    rintro ⟨_, _, _, _, _, sm', em, hs, _, _, a, b, _⟩
    simp only [Option.some.injEq] at hs; subst hs
    cases prev with
    | none => simp [badStart, a rfl] at h10
    | some pe => simp [badStart, b pe rfl] at h10
  rw [if_neg h10]
  cases h11 : b.endMonth with
  | none => simp
  | some em =>
  simp only
  by_cases h12 : em ≤ sm
  · rw [if_pos h12]
    refine ⟨⟨by simp, ?_⟩, Or.inr rfl⟩
    rintro ⟨_, _, _, _, _, sm', em', hs, he, hlt, _⟩
    simp only [Option.some.injEq] at hs he; subst hs he; omega
  rw [if_neg h12]
  by_cases h13 : last = true ∧ em ≠ 12
  · rw [if_pos h13]
    refine ⟨⟨by simp, ?_⟩, Or.inr rfl⟩
    rintro ⟨_, _, _, _, _, sm', em', hs, he, _, _, _, hl⟩
    simp only [Option.some.injEq] at hs he; subst hs he
    exact absurd (hl h13.1) h13.2
  rw [if_neg h13]
  refine ⟨⟨fun _ => ⟨hw, ⟨_, rfl⟩, ⟨_, rfl⟩, ⟨_, rfl⟩, ⟨_, rfl⟩, sm, em, rfl, rfl, by omega, ?_, ?_, ?_⟩,
    fun _ => rfl⟩, Or.inl rfl⟩
  · rintro rfl; simpa [badStart] using h10
  · rintro pe rfl
    simp only [badStart, ne_eq, decide_not, Bool.not_eq_true', Bool.not_eq_false, decide_eq_true_eq] at h10
    exact h10.symm
  · intro hl
    by_contra hne
    exact h13 ⟨hl, hne⟩

theorem sameLengths_iff (r : RateParams K) : r.sameLengths = true ↔
    r.pkEnd.toList.length = r.pkStart.toList.length ∧
    r.pkDemand.toList.length = r.pkStart.toList.length ∧
    r.pkEnergy.toList.length = r.pkStart.toList.length ∧
    r.offDemand.toList.length = r.pkStart.toList.length ∧
    r.offEnergy.toList.length = r.pkStart.toList.length ∧
    r.startMonth.toList.length = r.pkStart.toList.length ∧
    r.endMonth.toList.length = r.pkStart.toList.length := by
  unfold RateParams.sameLengths RateParams.n
  simp only [Bool.and_eq_true, decide_eq_true_eq, and_assoc]

/-- The block read at index `i`. -/
theorem block_eq (r : RateParams K) (hl : r.sameLengths = true) (i : ℕ) (hi : i < r.n) :
    ∃ b, r.block i = .ok b ∧ r.pkStart.toList[i]? = some b.pkStart ∧ r.pkEnd.toList[i]? = some b.pkEnd ∧
      r.pkDemand.toList[i]? = some b.pkDemand ∧ r.pkEnergy.toList[i]? = some b.pkEnergy ∧
      r.offDemand.toList[i]? = some b.offDemand ∧ r.offEnergy.toList[i]? = some b.offEnergy ∧
      r.startMonth.toList[i]? = some b.startMonth ∧ r.endMonth.toList[i]? = some b.endMonth := by
  obtain ⟨h1, h2, h3, h4, h5, h6, h7⟩ := (sameLengths_iff r).mp hl
  unfold RateParams.n at hi
  unfold RateParams.block
  rw [pyGet_of_lt hi, pyGet_of_lt (by omega), pyGet_of_lt (by omega), pyGet_of_lt (by omega),
    pyGet_of_lt (by omega), pyGet_of_lt (by omega), pyGet_of_lt (by omega), pyGet_of_lt (by omega)]
  simp only [ok_bind, pure_eq_ok, Except.ok.injEq, exists_eq_left']
  refine ⟨List.getElem?_eq_getElem _, List.getElem?_eq_getElem _, List.getElem?_eq_getElem _,
    List.getElem?_eq_getElem _, List.getElem?_eq_getElem _, List.getElem?_eq_getElem _,
    List.getElem?_eq_getElem _, List.getElem?_eq_getElem _⟩

/-- One iteration of the validation. -/
theorem validate_step (r : RateParams K) (hl : r.sameLengths = true) (i : ℕ) (hi : i < r.n) :
    ((do
      let b ← r.block i
      let prev ← (if i = 0 then .ok none else do return some (← pyGet r.endMonth.toList (i - 1)))
      b.validate prev (decide (i = r.endMonth.toList.length - 1)) : Py Unit) = .ok () ↔
      GoodSeason r i ∧ (i = 0 → At r.startMonth 0 0) ∧
      (∀ j, i = j + 1 → ∃ b, r.endMonth.toList[j]? = some (some b) ∧ At r.startMonth i b) ∧
      (i + 1 = r.n → At r.endMonth i 12)) ∧
    ((do
      let b ← r.block i
      let prev ← (if i = 0 then .ok none else do return some (← pyGet r.endMonth.toList (i - 1)))
      b.validate prev (decide (i = r.endMonth.toList.length - 1)) : Py Unit) = .ok () ∨
    (do
      let b ← r.block i
      let prev ← (if i = 0 then .ok none else do return some (← pyGet r.endMonth.toList (i - 1)))
      b.validate prev (decide (i = r.endMonth.toList.length - 1)) : Py Unit) = .error .valueError) := by
  obtain ⟨b, hb, e1, e2, e3, e4, e5, e6, e7, e8⟩ := block_eq r hl i hi
  obtain ⟨-, -, -, -, -, -, hem⟩ := (sameLengths_iff r).mp hl
  have hprev : ∃ prev, ((if i = 0 then .ok none else do
      return some (← pyGet r.endMonth.toList (i - 1))) : Py (Option (Option Int))) = .ok prev ∧
      (prev = none ↔ i = 0) ∧ (∀ pe, prev = some pe → r.endMonth.toList[i - 1]? = some pe) := by
    by_cases h0 : i = 0
    · exact ⟨none, by simp [h0], by simp [h0], by simp⟩
    · have hlt : i - 1 < r.endMonth.toList.length := by unfold RateParams.n at hi; omega
      refine ⟨some r.endMonth.toList[i - 1], ?_, by simp [h0], ?_⟩
      · rw [if_neg h0, pyGet_of_lt hlt, ok_bind, pure_eq_ok]
      · intro pe hpe
        simp only [Option.some.injEq] at hpe
        rw [List.getElem?_eq_getElem hlt, hpe]
  obtain ⟨prev, hp, hp0, hpe⟩ := hprev
  rw [hb, ok_bind, hp, ok_bind]
  obtain ⟨v1, v2⟩ := block_validate_iff b prev (decide (i = r.endMonth.toList.length - 1))
  refine ⟨?_, v2⟩
  rw [v1]
  have hlast : i = r.endMonth.toList.length - 1 ↔ i + 1 = r.n := by
    unfold RateParams.n at *; omega
  constructor
  · rintro ⟨⟨s, e, a1, a2, a3⟩, ⟨x1, b1⟩, ⟨x2, b2⟩, ⟨x3, b3⟩, ⟨x4, b4⟩, sm, em, c1, c2, c3, c4, c5, c6⟩
    refine ⟨⟨⟨s, e, by rw [At, e1, a1], by rw [At, e2, a2], a3⟩, ⟨x1, by rw [At, e3, b1]⟩,
      ⟨x2, by rw [At, e4, b2]⟩, ⟨x3, by rw [At, e5, b3]⟩, ⟨x4, by rw [At, e6, b4]⟩,
      ⟨sm, em, by rw [At, e7, c1], by rw [At, e8, c2], c3⟩⟩, ?_, ?_, ?_⟩
    · intro h0
      subst h0
      rw [At, e7, c1, c4 (hp0.mpr rfl)]
    · rintro j rfl
      cases hpv : prev with
      | none => exact absurd (hp0.mp hpv) (by omega)
      | some pe =>
        refine ⟨sm, ?_, by rw [At, e7, c1]⟩
        have := hpe pe hpv
        rw [c5 pe hpv] at this
        simpa using this
    · intro hl'
      rw [At, e8, c2, c6 (by simpa using hlast.mpr hl')]
  · rintro ⟨⟨⟨s, e, a1, a2, a3⟩, ⟨x1, b1⟩, ⟨x2, b2⟩, ⟨x3, b3⟩, ⟨x4, b4⟩, ⟨sm, em, c1, c2, c3⟩⟩, g1, g2, g3⟩
    simp only [At, e1, e2, e3, e4, e5, e6, e7, e8, Option.some.injEq] at a1 a2 b1 b2 b3 b4 c1 c2
    refine ⟨⟨s, e, a1, a2, a3⟩, ⟨x1, b1⟩, ⟨x2, b2⟩, ⟨x3, b3⟩, ⟨x4, b4⟩, sm, em, c1, c2, c3, ?_, ?_, ?_⟩
    · intro h
      have h0 := hp0.mp h
      have := g1 h0
      subst h0
      rw [At, e7, c1] at this
      simpa using this
    · intro pe hpv
      cases i with
      | zero => rw [hp0.mpr rfl] at hpv; simp at hpv
      | succ j =>
        obtain ⟨b', h1, h2⟩ := g2 j rfl
        have h3 := hpe pe hpv
        simp only [Nat.add_sub_cancel] at h3
        rw [h1] at h3
        rw [At, e7, c1] at h2
        simp only [Option.some.injEq] at h2 h3
        rw [← h3, h2]
    · intro hl'
      have := g3 (hlast.mp (by simpa using hl'))
      rw [At, e8, c2] at this
      simpa using this

/-- **C34, partial.** The validation accepts exactly the structures of `ValidRates` and rejects
everything else with `ValueError`. Missing with respect to the property: `ValidRates` admits empty lists and
says nothing of the discount window, because the code does (`C34_empty_accepted`,
`C34_discount_not_validated`). -/
theorem C34_validator_exact_partial (r : RateParams K) :
    (r.validate = .ok () ↔ ValidRates r) ∧
    (¬ ValidRates r → r.build = .error .valueError) := by
  have key : (r.validate = .ok () ↔ ValidRates r) ∧
      (r.validate = .ok () ∨ r.validate = .error .valueError) := by
    unfold RateParams.validate
    by_cases hb : r.base.isNone = true
    · rw [if_pos hb]
      refine ⟨⟨by simp, fun h => ?_⟩, Or.inr rfl⟩
      have := h.base
      rw [Option.isNone_iff_eq_none] at hb
      rw [hb] at this; simp at this
    rw [if_neg hb]
    cases hl : r.sameLengths with
    | false =>
      rw [if_pos rfl]
      refine ⟨⟨by simp, fun h => ?_⟩, Or.inr rfl⟩
      rw [(sameLengths_iff r).mpr h.lengths] at hl; simp at hl
    | true =>
      rw [if_neg (by simp)]
      constructor
      · rw [forM_eq_ok]
        constructor
        · intro h
          have h' := fun i (hi : i < r.n) => (validate_step r hl i hi).1.mp (h i (List.mem_range.mpr hi))
          refine ⟨?_, (sameLengths_iff r).mp hl, fun i hi => (h' i hi).1, fun h0 => (h' 0 h0).2.1 rfl,
            ?_, ?_⟩
          · rw [Option.isSome_iff_ne_none]
            rw [Option.isNone_iff_eq_none] at hb; exact hb
          · intro i hi
            exact (h' (i + 1) hi).2.2.1 i rfl
          · intro i hi
            exact (h' i (by unfold RateParams.n; omega)).2.2.2 hi
        · intro h i hi
          have hi := List.mem_range.mp hi
          rw [(validate_step r hl i hi).1]
          refine ⟨h.seasons i hi, ?_, ?_, fun e => h.last i e⟩
          · intro h0; exact h.first (by unfold RateParams.n at hi; omega)
          · rintro j rfl; exact h.next j hi
      · apply forM_error
        intro i hi
        exact (validate_step r hl i (List.mem_range.mp hi)).2
  refine ⟨key.1, fun h => ?_⟩
  unfold RateParams.build
  rcases key.2 with h' | h'
  · exact absurd (key.1.mp h') h
  · rw [h', error_bind]

namespace Demo

/-- A winter/summer/winter rate. -/
def rates : RateParams ℚ where
  base := some 190
  pkStart := .many [some 16, some 14, some 16]
  pkEnd := .many [some 21, some 20, some 21]
  pkDemand := .many [some 30, some 40, some 30]
  pkEnergy := .many [some (2/10), some (3/10), some (2/10)]
  offDemand := .many [some 10, some 15, some 10]
  offEnergy := .many [some (1/10), some (15/100), some (1/10)]
  startMonth := .many [some 0, some 5, some 9]
  endMonth := .many [some 5, some 9, some 12]
  includeDiscount := false
  dStart := .one none
  dEnd := .one none
  dDemand := .one none
  dEnergy := .one none

/-- The same with a discount from 22 to 6 h. -/
def ratesD : RateParams ℚ := { rates with
  includeDiscount := true
  dStart := .one (some 22)
  dEnd := .one (some 6)
  dDemand := .one (some 5)
  dEnergy := .one (some (5/100)) }

/-- No seasons at all. -/
def ratesEmpty : RateParams ℚ where
  base := some 190
  pkStart := .many []
  pkEnd := .many []
  pkDemand := .many []
  pkEnergy := .many []
  offDemand := .many []
  offEnergy := .many []
  startMonth := .many []
  endMonth := .many []
  includeDiscount := false
  dStart := .one none
  dEnd := .one none
  dDemand := .one none
  dEnergy := .one none

end Demo

/-- Non-vacuity of C34: both demo structures are valid; an overlap of seasons is not. -/
example : ValidRates Demo.rates ∧ ValidRates Demo.ratesD ∧
    ¬ ValidRates { Demo.rates with startMonth := .many [some 0, some 4, some 9] } := by
  rw [← (C34_validator_exact_partial _).1, ← (C34_validator_exact_partial _).1,
    ← (C34_validator_exact_partial _).1]
  decide +kernel

/-- **C34 fails (empty).** A structure with no season is accepted. -/
theorem C34_empty_accepted : Demo.ratesEmpty.validate = .ok () ∧
    Demo.ratesEmpty.build = .ok ⟨List.replicate 8760 0, [], [], [], [], 190, [], false⟩ :=
  ⟨rfl, rfl⟩

/-- **C34 fails (discount).** The discount arguments are not validated: a discount rate without any charge is
accepted, and a discount list that is too short is an `IndexError` instead of a `ValueError`. -/
theorem C34_discount_not_validated :
    (∃ t, { Demo.ratesD with dEnergy := .one none }.build = .ok t) ∧
    { Demo.ratesD with dEnergy := .many [some 1] }.build = .error .indexError := by
  constructor
  · unfold RateParams.build
    have h1 : ({ Demo.ratesD with dEnergy := .one none } : RateParams ℚ).validate = .ok () := by
      decide +kernel
    rw [h1, ok_bind]
    exact ⟨_, rfl⟩
  · unfold RateParams.build
    have h1 : ({ Demo.ratesD with dEnergy := .many [some 1] } : RateParams ℚ).validate = .ok () := by
      decide +kernel
    rw [h1, ok_bind]
    rfl

/-! ## C35 -/

namespace Spec

/-- Season `i` covers month `m`. -/
def Covers (r : RateParams K) (i m : ℕ) : Prop :=
  ∃ a b, At r.startMonth i a ∧ At r.endMonth i b ∧ a ≤ (m : Int) ∧ (m : Int) < b

/-- The hour of day `hod` lies in the window from `s` to `e`, which wraps midnight if `e < s`. -/
def InWindow (hod : ℕ) (s e : K) : Prop :=
  if s ≤ e then s ≤ hod ∧ (hod : K) < e else s ≤ hod ∨ (hod : K) < e

/-- Hour of day `hod` is a peak hour of season `i`. -/
def PeakHour (r : RateParams K) (i hod : ℕ) : Prop :=
  ∃ s e, At r.pkStart i s ∧ At r.pkEnd i e ∧ s ≤ hod ∧ (hod : K) < e

/-- Entry `i` of a discount argument (a single value counts for every season). -/
def DiscountAt {α : Type} (r : RateParams K) (a : RateArg (Option α)) (i : ℕ) (x : Option α) : Prop :=
  (a.toList r.n)[i]? = some x

/-- Hour of day `hod` is a discount hour of season `i`. -/
def DiscountHour (r : RateParams K) (i hod : ℕ) : Prop :=
  r.includeDiscount = true ∧ ¬ PeakHour r i hod ∧
    ∃ s e, DiscountAt r r.dStart i (some s) ∧ DiscountAt r r.dEnd i (some e) ∧ InWindow hod s e

end Spec

theorem isHourInRange_iff (hod : ℕ) (s e : Option K) : isHourInRange hod s e = true ↔
    ∃ x y, s = some x ∧ e = some y ∧ InWindow hod x y := by
  unfold isHourInRange InWindow
  cases s with
  | none => simp
  | some x =>
    cases e with
    | none => simp
    | some y =>
      simp only [Option.some.injEq, exists_and_left, exists_eq_left']
      by_cases h : y < x
      · rw [if_pos h, if_neg (not_le.mpr h)]; simp
      · rw [if_neg h, if_pos (not_lt.mp h)]; simp

/-- What is known of a built tracker. -/
theorem build_inv (r : RateParams K) (t : Tracker K) (h : r.build = .ok t) :
    ValidRates r ∧ ∃ seasons base, List.Forall₂ (fun i s => r.season i = .ok s) (List.range r.n) seasons ∧
      r.base = some base ∧ t = seasons.foldl (Tracker.fillSeason r.includeDiscount)
      ⟨List.replicate 8760 0, [], [], [], [], base, [], r.includeDiscount⟩ := by
  unfold RateParams.build at h
  simp only [bind_eq_ok] at h
  obtain ⟨u, h1, seasons, h2, h⟩ := h
  refine ⟨(C34_validator_exact_partial r).1.mp h1, seasons, ?_⟩
  cases hb : r.base with
  | none => rw [hb] at h; simp at h
  | some base =>
    rw [hb] at h
    simp only [pure_eq_ok, Except.ok.injEq] at h
    exact ⟨base, mapM_eq_ok.mp h2, rfl, h.symm⟩

/-- The fields of season `i` are the entries of the lists. -/
theorem season_inv (r : RateParams K) (i : ℕ) (s : Season K) (h : r.season i = .ok s) :
    r.pkStart.toList[i]? = some s.pkStart ∧ r.pkEnd.toList[i]? = some s.pkEnd ∧
    r.pkDemand.toList[i]? = some s.pkDemand ∧ r.pkEnergy.toList[i]? = some s.pkEnergy ∧
    r.offDemand.toList[i]? = some s.offDemand ∧ r.offEnergy.toList[i]? = some s.offEnergy ∧
    (∃ a b, At r.startMonth i a ∧ At r.endMonth i b ∧ s.startMonth = a.toNat ∧ s.endMonth = b.toNat) ∧
    DiscountAt r r.dStart i s.dStart ∧ DiscountAt r r.dEnd i s.dEnd ∧
    DiscountAt r r.dDemand i s.dDemand ∧ DiscountAt r r.dEnergy i s.dEnergy := by
  unfold RateParams.season RateParams.block at h
  simp only [bind_eq_ok, pure_eq_ok, Except.ok.injEq] at h
  obtain ⟨b, ⟨v1, w1, v2, w2, v3, w3, v4, w4, v5, w5, v6, w6, v7, w7, v8, w8, rfl⟩, d1, x1, d2, x2, d3, x3,
    d4, x4, h⟩ := h
  rw [pyGet_eq_ok] at *
  simp only at h
  cases v7 with
  | none => simp at h
  | some a =>
    cases v8 with
    | none => simp at h
    | some b =>
      simp only [Except.ok.injEq] at h
      subst h
      exact ⟨w1, w2, w3, w4, w5, w6, ⟨a, b, w7, w8, rfl, rfl⟩, x3, x4, x2, x1⟩

/-- Season bounds of a valid structure: starts are not negative, and later seasons start later. -/
theorem valid_order (r : RateParams K) (hv : ValidRates r) :
    (∀ i a b, At r.startMonth i a → At r.endMonth i b → 0 ≤ a ∧ a < b ∧ b ≤ 12) ∧
    (∀ i j b a, i < j → At r.endMonth i b → At r.startMonth j a → b ≤ a) := by
  obtain ⟨-, -, -, -, -, hls, hle⟩ := hv.lengths
  have hlt : ∀ i a, At r.startMonth i a → i < r.pkStart.toList.length := by
    intro i a h
    obtain ⟨h', _⟩ := List.getElem?_eq_some_iff.mp h
    omega
  have hmon : ∀ i j b a, i < j → At r.endMonth i b → At r.startMonth j a → b ≤ a := by
    intro i j b a hij hb ha
    induction j generalizing a with
    | zero => omega
    | succ j ih =>
      obtain ⟨c, hc1, hc2⟩ := hv.next j (hlt _ _ ha)
      have e : c = a := by rw [At] at ha hc2; rw [ha] at hc2; simpa using hc2.symm
      subst e
      by_cases hj : i = j
      · subst hj
        rw [At] at hb hc1; rw [hb] at hc1
        simp only [Option.some.injEq] at hc1; omega
      · obtain ⟨a', b', h1, h2, h3⟩ := (hv.seasons j (by have := hlt _ _ ha; omega)).months
        have := ih a' (by omega) h1
        have e : b' = c := by rw [At] at h2 hc1; rw [h2] at hc1; simpa using hc1
        omega
  refine ⟨?_, hmon⟩
  intro i a b ha hb
  have hi := hlt i a ha
  obtain ⟨a', b', h1, h2, h3⟩ := (hv.seasons i hi).months
  have ea : a' = a := by rw [At] at ha h1; rw [ha] at h1; simpa using h1.symm
  have eb : b' = b := by rw [At] at hb h2; rw [hb] at h2; simpa using h2.symm
  subst ea eb
  refine ⟨?_, h3, ?_⟩
  · by_cases h0 : i = 0
    · subst h0
      have := hv.first hi
      rw [At] at ha this; rw [ha] at this
      simp only [Option.some.injEq] at this; omega
    · obtain ⟨a0, b0, h4, h5, h6⟩ := (hv.seasons 0 (by omega)).months
      have h7 := hv.first (by omega)
      have e0 : a0 = 0 := by rw [At] at h4 h7; rw [h4] at h7; simpa using h7
      have := hmon 0 i b0 a' (by omega) h5 ha
      omega
  · have hlast := hv.last (r.pkStart.toList.length - 1) (by omega)
    by_cases hi' : i = r.pkStart.toList.length - 1
    · subst hi'
      rw [At] at hb hlast; rw [hb] at hlast
      simp only [Option.some.injEq] at hlast; omega
    · obtain ⟨a0, b0, h4, h5, h6⟩ := (hv.seasons (r.pkStart.toList.length - 1) (by omega)).months
      have e0 : b0 = 12 := by rw [At] at h5 hlast; rw [h5] at hlast; simpa using hlast
      have := hmon i (r.pkStart.toList.length - 1) b' a0 (by omega) hb h4
      omega

theorem chain_of (l : List (Season K)) (h1 : ∀ i (hi : i < l.length), l[i].startMonth < l[i].endMonth)
    (h2 : ∀ i (hi : i + 1 < l.length), l[i + 1].startMonth = l[i].endMonth) (a b : ℕ)
    (ha : ∀ hi : 0 < l.length, l[0].startMonth = a) (hb : ∀ i (hi : i < l.length), i + 1 = l.length →
      l[i].endMonth = b) (h0 : l = [] → a = b) : Tracker.Chain a l b := by
  induction l generalizing a with
  | nil => exact h0 rfl
  | cons s l ih =>
    have e := ha (by simp)
    simp only [List.getElem_cons_zero] at e
    have hlt := h1 0 (by simp)
    simp only [List.getElem_cons_zero] at hlt
    refine ⟨e, by omega, ih ?_ ?_ s.endMonth ?_ ?_ ?_⟩
    · intro i hi
      exact h1 (i + 1) (by simpa using hi)
    · intro i hi
      exact h2 (i + 1) (by simpa using hi)
    · intro hi
      exact h2 0 (by simpa using hi)
    · intro i hi e
      exact hb (i + 1) (by simpa using hi) (by simp [e])
    · rintro rfl
      exact hb 0 (by simp) (by simp)

/-- The season covering a month, and what the tracker says about that month. -/
theorem month_ok (r : RateParams K) (t : Tracker K) (hb : r.build = .ok t) (hn : 0 < r.n) (m : ℕ)
    (hm : m < 12) :
    ∃ i s, r.season i = .ok s ∧ Covers r i m ∧ (∀ j, Covers r j m → j = i) ∧
      GoodSeason r i ∧ Tracker.MonthOk r.includeDiscount s t m ∧ t.chart.length = 8760 ∧
      t.energyByHour = [] ∧ t.includeDiscount = r.includeDiscount := by
  obtain ⟨hv, seasons, base, hF, _, rfl⟩ := build_inv r t hb
  obtain ⟨hord1, hord2⟩ := valid_order r hv
  have hlen : seasons.length = r.n := by rw [← hF.length_eq]; simp
  have hget : ∀ i (hi : i < seasons.length), r.season i = .ok seasons[i] := by
    intro i hi
    have := (List.forall₂_iff_get.mp hF).2 i (by rw [hF.length_eq]; exact hi) hi
    simpa using this
  have hmon : ∀ i (hi : i < seasons.length), ∃ a b, At r.startMonth i a ∧ At r.endMonth i b ∧
      seasons[i].startMonth = a.toNat ∧ seasons[i].endMonth = b.toNat ∧ 0 ≤ a ∧ a < b ∧ b ≤ 12 := by
    intro i hi
    obtain ⟨_, _, _, _, _, _, ⟨a, b, h1, h2, h3, h4⟩, _⟩ := season_inv r i _ (hget i hi)
    obtain ⟨h5, h6, h7⟩ := hord1 i a b h1 h2
    exact ⟨a, b, h1, h2, h3, h4, h5, h6, h7⟩
  have hchain : Tracker.Chain 0 seasons 12 := by
    apply chain_of
    · intro i hi
      obtain ⟨a, b, h1, h2, h3, h4, h5, h6, h7⟩ := hmon i hi
      omega
    · intro i hi
      obtain ⟨a, b, h1, h2, h3, h4, h5, h6, h7⟩ := hmon i (by omega)
      obtain ⟨a', b', g1, g2, g3, g4, g5, g6, g7⟩ := hmon (i + 1) hi
      obtain ⟨c, hc1, hc2⟩ := hv.next i (by unfold RateParams.n at hlen; omega)
      have e1 : c = b := by rw [At] at h2 hc1; rw [h2] at hc1; simpa using hc1.symm
      have e2 : c = a' := by rw [At] at g1 hc2; rw [g1] at hc2; simpa using hc2.symm
      rw [g3, h4, ← e2, e1]
    · intro hi
      obtain ⟨a, b, h1, h2, h3, h4, h5, h6, h7⟩ := hmon 0 hi
      have := hv.first (by unfold RateParams.n at hlen; omega)
      have e : a = 0 := by rw [At] at h1 this; rw [h1] at this; simpa using this
      rw [h3, e]; rfl
    · intro i hi e
      obtain ⟨a, b, h1, h2, h3, h4, h5, h6, h7⟩ := hmon i hi
      have := hv.last i (by unfold RateParams.n at hlen; omega)
      have e : b = 12 := by rw [At] at h2 this; rw [h2] at this; simpa using this
      rw [h4, e]; rfl
    · intro e; rw [e] at hlen; simp at hlen; omega
  obtain ⟨i, hi, h1, h2⟩ := hchain.covers m (by omega) hm
  obtain ⟨a, b, g1, g2, g3, g4, g5, g6, g7⟩ := hmon i hi
  refine ⟨i, seasons[i], hget i hi, ⟨a, b, g1, g2, by omega, by omega⟩, ?_, ?_, ?_, ?_, ?_, ?_⟩
  · rintro j ⟨a', b', k1, k2, k3, k4⟩
    rcases Nat.lt_trichotomy i j with h | h | h
    · have := hord2 i j b a' h g2 k1; omega
    · exact h.symm
    · have := hord2 j i b' a h k2 g1; omega
  · exact hv.seasons i (by unfold RateParams.n at hlen; omega)
  · exact Tracker.fillAll_ok r.includeDiscount seasons _ 0 12 le_rfl (List.length_replicate ..) hchain
      seasons[i] (List.getElem_mem hi) m h1 h2
  · rw [(Tracker.fillAll_misc r.includeDiscount seasons _).1]; exact List.length_replicate ..
  · exact (Tracker.fillAll_misc r.includeDiscount seasons _).2.2.1
  · exact (Tracker.fillAll_misc r.includeDiscount seasons _).2.2.2

/-- The lookups at an hour, in one lemma: `j` is the offset of the period (0 off-peak, 1 peak,
2 discount). -/
theorem hour_lookup (r : RateParams K) (t : Tracker K) (hb : r.build = .ok t) (hn : 0 < r.n)
    (step ts m : ℕ) (hts : 0 < ts) (hh : step * ts / 60 < 8760) (hm : InMonth (step * ts / 60 / 24) m) :
    ∃ i s j, r.season i = .ok s ∧ Covers r i m ∧ (∀ i', Covers r i' m → i' = i) ∧ GoodSeason r i ∧
      j < numPeriods r.includeDiscount ∧
      (j = 1 ↔ PeakHour r i (step * ts / 60 % 24)) ∧
      (j = 2 ↔ DiscountHour r i (step * ts / 60 % 24)) ∧
      t.demandPeriodAtStep step ts = .ok (m * numPeriods r.includeDiscount + j : Int) ∧
      t.energyChargeAtStep step ts = .ok (Tracker.pick s.offEnergy s.pkEnergy s.dEnergy j) ∧
      dictGet? t.demandMap (m * numPeriods r.includeDiscount + j : Int) =
        some (Tracker.pick s.offDemand s.pkDemand s.dDemand j) ∧
      dictGet? t.isPeak (m * numPeriods r.includeDiscount + j : Int) = some (decide (j = 1)) ∧
      dictGet? t.isDiscount (m * numPeriods r.includeDiscount + j : Int) = some (decide (j = 2)) := by
  have hmo : hourToMonth (step * ts / 60) = m := (C33_month_of_hour _ m hh).mpr hm
  obtain ⟨i, s, hs, hc, hu, hg, ok, hlen, hebh, hdisc⟩ := month_ok r t hb hn m hm.1
  obtain ⟨e1, e2, e3, e4, e5, e6, _, d1, d2, d3, d4⟩ := season_inv r i s hs
  set hod := step * ts / 60 % 24 with hhod
  have hchart := ok.chart _ hh hmo
  rw [← hhod] at hchart
  have hpk : isHourInRange hod s.pkStart s.pkEnd = true ↔ PeakHour r i hod := by
    rw [isHourInRange_iff]
    unfold PeakHour At
    rw [e1, e2]
    obtain ⟨a, b, h1, h2, h3, h4, h5, h6⟩ := hg.window
    rw [At, e1] at h1; rw [At, e2] at h2
    simp only [Option.some.injEq] at h1 h2
    rw [h1, h2]
    simp only [Option.some.injEq, exists_and_left, exists_eq_left']
    unfold InWindow
    rw [if_pos h5]
  have hdk : (r.includeDiscount && isHourInRange hod s.dStart s.dEnd) = true ∧ ¬ PeakHour r i hod ↔
      DiscountHour r i hod := by
    unfold DiscountHour DiscountAt
    unfold DiscountAt at d1 d2
    rw [Bool.and_eq_true, isHourInRange_iff, d1, d2]
    simp only [Option.some.injEq]
    tauto
  have hj : ∃ j, j < numPeriods r.includeDiscount ∧ (j = 1 ↔ PeakHour r i hod) ∧
      (j = 2 ↔ DiscountHour r i hod) ∧
      Tracker.periodKey r.includeDiscount s m hod = (m * numPeriods r.includeDiscount + j : Int) := by
    unfold Tracker.periodKey
    have h2le : 2 ≤ numPeriods r.includeDiscount := by
      unfold numPeriods; split <;> omega
    by_cases h1 : isHourInRange hod s.pkStart s.pkEnd = true
    · refine ⟨1, by omega, by simp [hpk.mp h1], ?_, by rw [if_pos h1]; rfl⟩
      rw [← hdk]; simp [hpk.mp h1]
    · rw [if_neg h1]
      have h1' := hpk.not.mp h1
      by_cases h2 : (r.includeDiscount && isHourInRange hod s.dStart s.dEnd) = true
      · refine ⟨2, ?_, by simp [h1'], by simp [hdk.mp ⟨h2, h1'⟩], by rw [if_pos h2]; rfl⟩
        rw [Bool.and_eq_true] at h2
        simp [numPeriods, h2.1]
      · refine ⟨0, by omega, by simp [h1'], ?_, by rw [if_neg h2]; simp⟩
        rw [← hdk]; simp only [h2]; simp
  obtain ⟨j, hj1, hj2, hj3, hj4⟩ := hj
  rw [hj4] at hchart
  have hhs : Tracker.hourOfStep step ts = .ok (step * ts / 60) := by
    unfold Tracker.hourOfStep; rw [if_neg (by omega)]
  refine ⟨i, s, j, hs, hc, hu, hg, hj1, hj2, hj3, ?_, ?_, ok.demand j hj1, ?_, ?_⟩
  · unfold Tracker.demandPeriodAtStep
    rw [hhs, ok_bind, pyGet_eq_ok, hchart]
  · unfold Tracker.energyChargeAtStep
    rw [hhs, ok_bind, hebh, if_neg (by simp), pyGet_eq_ok.mpr hchart, ok_bind, dictGet_eq_ok]
    exact ok.energy j hj1
  · rw [ok.peak j hj1]
    unfold Tracker.pick
    congr 1
    by_cases h0 : j = 0
    · simp [h0]
    · by_cases h1 : j = 1 <;> simp [h1, h0]
  · rw [ok.discount j hj1]
    unfold Tracker.pick
    congr 1
    have : j < 3 := by unfold numPeriods at hj1; split at hj1 <;> omega
    interval_cases j <;> simp

/-- **C35.** Each step is billed in the season that covers its month, as peak exactly in the season's peak
window, as discount exactly in its discount window outside the peak window, otherwise off-peak, and at that
season's rates. -/
theorem C35_right_period (r : RateParams K) (t : Tracker K) (hb : r.build = .ok t) (hn : 0 < r.n)
    (step ts m : ℕ) (hts : 0 < ts) (hh : step * ts / 60 < 8760) (hm : InMonth (step * ts / 60 / 24) m) :
    ∃ i p, Covers r i m ∧ (∀ i', Covers r i' m → i' = i) ∧ t.demandPeriodAtStep step ts = .ok p ∧
      (dictGet? t.isPeak p = some true ↔ PeakHour r i (step * ts / 60 % 24)) ∧
      (dictGet? t.isDiscount p = some true ↔ DiscountHour r i (step * ts / 60 % 24)) ∧
      (PeakHour r i (step * ts / 60 % 24) → ∃ c d, At r.pkEnergy i c ∧ At r.pkDemand i d ∧
        t.energyChargeAtStep step ts = .ok (some c) ∧ ∀ kw, t.demandCharge p kw = .ok (d * kw)) ∧
      (DiscountHour r i (step * ts / 60 % 24) → ∃ c, DiscountAt r r.dEnergy i c ∧
        t.energyChargeAtStep step ts = .ok c ∧
        ∀ d, DiscountAt r r.dDemand i (some d) → ∀ kw, t.demandCharge p kw = .ok (d * kw)) ∧
      (¬ PeakHour r i (step * ts / 60 % 24) → ¬ DiscountHour r i (step * ts / 60 % 24) →
        ∃ c d, At r.offEnergy i c ∧ At r.offDemand i d ∧
        t.energyChargeAtStep step ts = .ok (some c) ∧ ∀ kw, t.demandCharge p kw = .ok (d * kw)) := by
  obtain ⟨i, s, j, hs, hc, hu, hg, hj, hpk, hdc, h1, h2, h3, h4, h5⟩ :=
    hour_lookup r t hb hn step ts m hts hh hm
  obtain ⟨e1, e2, e3, e4, e5, e6, _, d1, d2, d3, d4⟩ := season_inv r i s hs
  refine ⟨i, _, hc, hu, h1, ?_, ?_, ?_, ?_, ?_⟩
  · rw [h4, ← hpk]; simp
  · rw [h5, ← hdc]; simp
  · intro hp
    have hj1 := hpk.mpr hp
    obtain ⟨c, hc'⟩ := hg.pkEnergy
    obtain ⟨d, hd'⟩ := hg.pkDemand
    refine ⟨c, d, hc', hd', ?_, ?_⟩
    · rw [h2, hj1]
      rw [At, e4] at hc'
      simp only [Option.some.injEq] at hc'
      simp [Tracker.pick, hc']
    · intro kw
      rw [At, e3] at hd'
      simp only [Option.some.injEq] at hd'
      unfold Tracker.demandCharge
      rw [h3, hj1]
      simp [Tracker.pick, hd']
  · intro hd
    have hj2 := hdc.mpr hd
    refine ⟨s.dEnergy, d4, ?_, ?_⟩
    · rw [h2, hj2]; simp [Tracker.pick]
    · intro d hd' kw
      rw [DiscountAt] at d3 hd'
      rw [d3] at hd'
      simp only [Option.some.injEq] at hd'
      unfold Tracker.demandCharge
      rw [h3, hj2]
      simp [Tracker.pick, hd']
  · intro hp hd
    have hj0 : j = 0 := by
      have a1 := hpk.not.mpr hp
      have a2 := hdc.not.mpr hd
      unfold numPeriods at hj
      split at hj <;> omega
    obtain ⟨c, hc'⟩ := hg.offEnergy
    obtain ⟨d, hd'⟩ := hg.offDemand
    refine ⟨c, d, hc', hd', ?_, ?_⟩
    · rw [h2, hj0]
      rw [At, e6] at hc'
      simp only [Option.some.injEq] at hc'
      simp [Tracker.pick, hc']
    · intro kw
      rw [At, e5] at hd'
      simp only [Option.some.injEq] at hd'
      unfold Tracker.demandCharge
      rw [h3, hj0]
      simp [Tracker.pick, hd']

/-- **C35 (billing periods).** Two steps fall into the same demand period exactly if they are in the
same month and of the same kind. -/
theorem C35_same_period (r : RateParams K) (t : Tracker K) (hb : r.build = .ok t) (hn : 0 < r.n)
    (ts : ℕ) (hts : 0 < ts) (step step' m m' : ℕ)
    (hh : step * ts / 60 < 8760) (hm : InMonth (step * ts / 60 / 24) m)
    (hh' : step' * ts / 60 < 8760) (hm' : InMonth (step' * ts / 60 / 24) m') :
    ∃ p p', t.demandPeriodAtStep step ts = .ok p ∧ t.demandPeriodAtStep step' ts = .ok p' ∧
      (p = p' ↔ m = m' ∧ dictGet? t.isPeak p = dictGet? t.isPeak p' ∧
        dictGet? t.isDiscount p = dictGet? t.isDiscount p') := by
  obtain ⟨i, s, j, _, _, _, _, hj, _, _, h1, _, _, h4, h5⟩ := hour_lookup r t hb hn step ts m hts hh hm
  obtain ⟨i', s', j', _, _, _, _, hj', _, _, h1', _, _, h4', h5'⟩ :=
    hour_lookup r t hb hn step' ts m' hts hh' hm'
  refine ⟨_, _, h1, h1', ?_⟩
  rw [h4, h5, h4', h5']
  simp only [Option.some.injEq, decide_eq_decide]
  unfold numPeriods at *
  split at hj <;> rename_i hd <;> simp only [hd, if_true, if_false, Bool.false_eq_true] at * <;> omega

/-- Non-vacuity of C35: the demo structures are built, and 23 h is a discount hour. -/
example : (∃ t, Demo.rates.build = .ok t) ∧ (∃ t, Demo.ratesD.build = .ok t) ∧
    DiscountHour Demo.ratesD 1 23 ∧ ¬ DiscountHour Demo.ratesD 1 15 := by
  refine ⟨?_, ?_, ?_, ?_⟩
  · have h1 : Demo.rates.validate = .ok () := by decide +kernel
    unfold RateParams.build
    rw [h1, ok_bind]
    exact ⟨_, rfl⟩
  · have h1 : Demo.ratesD.validate = .ok () := by decide +kernel
    unfold RateParams.build
    rw [h1, ok_bind]
    exact ⟨_, rfl⟩
  · refine ⟨rfl, ?_, 22, 6, rfl, rfl, ?_⟩
    · rintro ⟨s, e, h1, h2, h3, h4⟩
      simp only [At, Demo.ratesD, Demo.rates, RateArg.toList] at h1 h2
      simp at h1 h2
      subst h1 h2
      norm_num at h4
    · unfold InWindow; norm_num
  · rintro ⟨_, hp, _⟩
    exact hp ⟨14, 20, rfl, rfl, by norm_num, by norm_num⟩

/-! ## C36 -/

/-- **C36, partial.** For an accepted structure with at least one season, every step of a year has an
energy and a demand charge; both are numbers, provided the discount charges are given when the
discount is included. Missing: the empty structure (`C36_empty_fails`) and missing discount charges
(`C36_discount_none`). -/
theorem C36_charges_defined_partial (r : RateParams K) (t : Tracker K) (hb : r.build = .ok t)
    (hn : 0 < r.n) (step ts : ℕ) (hts : 0 < ts) (hh : step * ts < 525600)
    (hd : r.includeDiscount = true → ∀ i < r.n, (∃ c, DiscountAt r r.dEnergy i (some c)) ∧
      ∃ c, DiscountAt r r.dDemand i (some c)) :
    ∃ p c, t.demandPeriodAtStep step ts = .ok p ∧ t.energyChargeAtStep step ts = .ok (some c) ∧
      ∀ kw, ∃ x, t.demandCharge p kw = .ok x := by
  have hlt : step * ts / 60 < 8760 := by omega
  have hm := (C33_month_of_hour _ _ hlt).mp rfl
  obtain ⟨i, p, hc, _, h1, _, _, h2, h3, h4⟩ := C35_right_period r t hb hn step ts _ hts hlt hm
  by_cases hp : PeakHour r i (step * ts / 60 % 24)
  · obtain ⟨c, d, _, _, h5, h6⟩ := h2 hp
    exact ⟨p, c, h1, h5, fun kw => ⟨_, h6 kw⟩⟩
  · by_cases hdh : DiscountHour r i (step * ts / 60 % 24)
    · obtain ⟨c, h5, h6, h7⟩ := h3 hdh
      obtain ⟨a, b, g1, _⟩ := hc
      have hi : i < r.n := by
        obtain ⟨hi, _⟩ := List.getElem?_eq_some_iff.mp g1
        have := (build_inv r t hb).1.lengths.2.2.2.2.2.1
        unfold RateParams.n; omega
      obtain ⟨⟨c', k1⟩, ⟨d', k2⟩⟩ := hd hdh.1 i hi
      rw [DiscountAt] at h5 k1
      rw [h5] at k1
      simp only [Option.some.injEq] at k1
      exact ⟨p, c', h1, by rw [h6, k1], fun kw => ⟨_, h7 d' k2 kw⟩⟩
    · obtain ⟨c, d, _, _, h5, h6⟩ := h4 hp hdh
      exact ⟨p, c, h1, h5, fun kw => ⟨_, h6 kw⟩⟩

/-- **C36 fails for the empty structure**, which is accepted (`C34_empty_accepted`): the first energy
lookup is a `KeyError`. -/
theorem C36_empty_fails (t : Tracker ℚ) (h : Demo.ratesEmpty.build = .ok t) :
    t.energyChargeAtStep 0 10 = .error .keyError := by
  rw [C34_empty_accepted.2, Except.ok.injEq] at h
  subst h
  rfl

/-- **C36 fails for missing discount charges**: the rate at a discount hour is `None` (at 23 h on
1 January). -/
theorem C36_discount_none (t : Tracker ℚ) (h : { Demo.ratesD with dEnergy := .one none }.build = .ok t) :
    t.energyChargeAtStep 23 60 = .ok none := by
  have hm : InMonth (23 * 60 / 60 / 24) 0 := by decide
  obtain ⟨i, p, hc, _, _, _, _, _, h3, _⟩ := C35_right_period _ t h (by decide) 23 60 0 (by omega)
    (by omega) hm
  have hi : i = 0 := by
    obtain ⟨a, b, h1, h2, h4, h5⟩ := hc
    simp only [At, Demo.ratesD, Demo.rates, RateArg.toList] at h1
    match i, h1 with
    | 0, _ => rfl
    | 1, h1 => simp at h1; omega
    | 2, h1 => simp at h1; omega
  subst hi
  obtain ⟨c, h5, h6, _⟩ := h3 (by
    refine ⟨rfl, ?_, 22, 6, rfl, rfl, ?_⟩
    · rintro ⟨s, e, h1, h2, h3, h4⟩
      simp only [At, Demo.ratesD, Demo.rates, RateArg.toList] at h1 h2
      simp at h1 h2
      subst h1 h2
      norm_num at h4
    · unfold InWindow; norm_num)
  simp only [DiscountAt, RateArg.toList, RateParams.n, Demo.ratesD, Demo.rates] at h5
  simp at h5
  rw [h6, ← h5]

/-! ## C37 -/

/-- The reader's state after the rows of some periods, in terms of the written tracker. -/
structure CsvInv (t : Tracker K) (seen done : List Int) (st : CsvState K) : Prop where
  chart : st.chart = done
  rates : st.energyByHour = done.map (fun p => (dictGet? t.energyMap p).getD none)
  has : ∀ p, dictHas st.demandMap p = true ↔ p ∈ seen
  demand : ∀ p ∈ seen, dictGet? st.demandMap p = dictGet? t.demandMap p
  energy : ∀ p ∈ seen, dictGet? st.energyMap p = dictGet? t.energyMap p
  peak : ∀ p ∈ seen, dictGet? st.isPeak p = some (decide (p % 2 = 1))
  disc : ∀ p ∈ seen, dictGet? st.isDiscount p = some false

theorem csvRows_read (t : Tracker K) (ps : List Int)
    (hnum : ∀ p ∈ ps, (∃ c, dictGet? t.energyMap p = some (some c)) ∧
      ∃ c, dictGet? t.demandMap p = some (some c)) (h : ℕ) (seen done : List Int) (st : CsvState K)
    (hst : CsvInv t seen done st) :
    ∃ st' seen', (Tracker.csvRows t h seen ps).foldlM (Tracker.csvRow 2 3 1) st = .ok st' ∧
      CsvInv t seen' (done ++ ps) st' ∧ (∀ p ∈ ps, p ∈ seen') ∧ ∀ p ∈ seen, p ∈ seen' := by
  induction ps generalizing h seen done st with
  | nil => exact ⟨st, seen, rfl, by simpa using hst, by simp, fun p hp => hp⟩
  | cons p ps ih =>
    obtain ⟨⟨c, hc⟩, ⟨d, hd⟩⟩ := hnum p (by simp)
    unfold Tracker.csvRows
    by_cases hp : p ∈ seen
    · rw [if_pos hp, List.foldlM_cons]
      have hrow : Tracker.csvRow 2 3 1 st [.text "", .int p, .blank, .blank,
          (if h = 0 then .num t.base else .blank : Cell K)] =
          .ok { st with chart := st.chart ++ [p], energyByHour := st.energyByHour ++ [some c] } := by
        have h1 := hst.energy p hp
        rw [hc] at h1
        have h2 := (hst.has p).mpr hp
        simp [Tracker.csvRow, Cell.toInt, h1, h2]
      rw [hrow, ok_bind]
      obtain ⟨st', seen', e, inv, m1, m2⟩ := ih (fun q hq => hnum q (by simp [hq])) (h + 1) seen
        (done ++ [p]) { st with chart := st.chart ++ [p], energyByHour := st.energyByHour ++ [some c] }
        ⟨by simp [hst.chart], by simp [hst.rates, hc], hst.has, hst.demand, hst.energy, hst.peak, hst.disc⟩
      refine ⟨st', seen', e, by simpa using inv, ?_, m2⟩
      intro q hq
      rcases List.mem_cons.mp hq with rfl | hq
      · exact m2 _ hp
      · exact m1 q hq
    · rw [if_neg hp, List.foldlM_cons]
      have hrow : Tracker.csvRow 2 3 1 st [.text "", .int p, .ofOption ((dictGet? t.energyMap p).getD none),
          .ofOption ((dictGet? t.demandMap p).getD none),
          (if h = 0 then .num t.base else .blank : Cell K)] =
          .ok { st with
            chart := st.chart ++ [p]
            energyByHour := st.energyByHour ++ [some c]
            demandMap := dictSet st.demandMap p (some d)
            energyMap := dictSet st.energyMap p (some c)
            isPeak := dictSet st.isPeak p (decide (p % 2 = 1))
            isDiscount := dictSet st.isDiscount p false } := by
        have h2 : dictHas st.demandMap p = false := by
          cases hx : dictHas st.demandMap p with
          | false => rfl
          | true => exact absurd ((hst.has p).mp hx) hp
        simp [Tracker.csvRow, Cell.toInt, Cell.ofOption, Cell.toFloat, hc, hd, h2, Except.map]
      rw [hrow, ok_bind]
      obtain ⟨st', seen', e, inv, m1, m2⟩ := ih (fun q hq => hnum q (by simp [hq])) (h + 1) (p :: seen)
        (done ++ [p]) { st with
            chart := st.chart ++ [p]
            energyByHour := st.energyByHour ++ [some c]
            demandMap := dictSet st.demandMap p (some d)
            energyMap := dictSet st.energyMap p (some c)
            isPeak := dictSet st.isPeak p (decide (p % 2 = 1))
            isDiscount := dictSet st.isDiscount p false }
        ⟨by simp [hst.chart], by simp [hst.rates, hc], by
            intro q
            have := hst.has q
            unfold dictHas at this ⊢
            rw [dictGet?_dictSet]
            by_cases hq : p = q
            · simp [hq]
            · rw [if_neg hq, this]
              have : ¬ q = p := fun h => hq h.symm
              simp [this],
          by
            intro q hq
            rw [dictGet?_dictSet]
            by_cases hpq : p = q
            · subst hpq; rw [if_pos rfl, hd]
            · rw [if_neg hpq]
              exact hst.demand q (by rcases List.mem_cons.mp hq with h | h; exact absurd h.symm hpq; exact h),
          by
            intro q hq
            rw [dictGet?_dictSet]
            by_cases hpq : p = q
            · subst hpq; rw [if_pos rfl, hc]
            · rw [if_neg hpq]
              exact hst.energy q (by rcases List.mem_cons.mp hq with h | h; exact absurd h.symm hpq; exact h),
          by
            intro q hq
            rw [dictGet?_dictSet]
            by_cases hpq : p = q
            · subst hpq; rw [if_pos rfl]
            · rw [if_neg hpq]
              exact hst.peak q (by rcases List.mem_cons.mp hq with h | h; exact absurd h.symm hpq; exact h),
          by
            intro q hq
            rw [dictGet?_dictSet]
            by_cases hpq : p = q
            · subst hpq; rw [if_pos rfl]
            · rw [if_neg hpq]
              exact hst.disc q (by rcases List.mem_cons.mp hq with h | h; exact absurd h.symm hpq; exact h)⟩
      refine ⟨st', seen', e, by simpa using inv, ?_, fun q hq => m2 q (by simp [hq])⟩
      intro q hq
      rcases List.mem_cons.mp hq with rfl | hq
      · exact m2 _ (by simp)
      · exact m1 q hq

theorem csvRows_length (t : Tracker K) (ps : List Int) (h : ℕ) (seen : List Int) :
    (Tracker.csvRows t h seen ps).length = ps.length := by
  induction ps generalizing h seen with
  | nil => rfl
  | cons p ps ih => unfold Tracker.csvRows; by_cases hp : p ∈ seen <;> simp [ih, hp]

/-- The round trip of any tracker whose 8760 hours all have numeric rates. -/
theorem csv_round_trip (t : Tracker K) (hlen : t.chart.length = 8760)
    (hnum : ∀ p ∈ t.chart, (∃ c, dictGet? t.energyMap p = some (some c)) ∧
      ∃ c, dictGet? t.demandMap p = some (some c)) :
    ∃ t', Tracker.fromCsv t.toCsv = .ok t' ∧ t'.chart = t.chart ∧ t'.base = t.base ∧
      t'.energyByHour = t.chart.map (fun p => (dictGet? t.energyMap p).getD none) ∧
      ∀ p ∈ t.chart, dictGet? t'.demandMap p = dictGet? t.demandMap p ∧
        dictGet? t'.isPeak p = some (decide (p % 2 = 1)) ∧ dictGet? t'.isDiscount p = some false := by
  obtain ⟨st', seen', e, inv, m1, _⟩ := csvRows_read t t.chart hnum 0 [] [] ⟨[], [], [], [], [], []⟩
    ⟨rfl, rfl, by simp [dictHas, dictGet?], by simp, by simp, by simp, by simp⟩
  refine ⟨⟨st'.chart, st'.demandMap, st'.energyMap, st'.isPeak, st'.isDiscount, t.base,
    st'.energyByHour, false⟩, ?_, by simpa using inv.chart, rfl, by simpa using inv.rates, ?_⟩
  · unfold Tracker.fromCsv Tracker.toCsv
    rw [if_neg (by rw [csvRows_length, hlen]; simp)]
    have i1 : Tracker.csvHeader.idxOf? "Energy Rate ($/kWh)" = some 2 := by decide
    have i2 : Tracker.csvHeader.idxOf? "Demand Rate ($/kW)" = some 3 := by decide
    have i3 : Tracker.csvHeader.idxOf? "Demand Period" = some 1 := by decide
    have i4 : Tracker.csvHeader.idxOf? "Monthly Base Charge" = some 4 := by decide
    simp only [i1, i2, i3, i4]
    have hb : ((Tracker.csvRows t 0 [] t.chart).headD [])[4]? = some (.num t.base) := by
      cases hc : t.chart with
      | nil => rw [hc] at hlen; simp at hlen
      | cons p ps => simp [Tracker.csvRows]
    simp only [hb, Cell.toFloat, ok_bind, e, pure_eq_ok]
  · intro p hp
    exact ⟨inv.demand p (m1 p hp), inv.peak p (m1 p hp), inv.disc p (m1 p hp)⟩

/-- Every entry of a built chart is the period of some hour, with its rates. -/
theorem chart_numeric (r : RateParams K) (t : Tracker K) (hb : r.build = .ok t) (hn : 0 < r.n)
    (hd : r.includeDiscount = true → ∀ i < r.n, (∃ c, DiscountAt r r.dEnergy i (some c)) ∧
      ∃ c, DiscountAt r r.dDemand i (some c)) :
    t.chart.length = 8760 ∧ t.energyByHour = [] ∧
    ∀ p ∈ t.chart, (∃ c, dictGet? t.energyMap p = some (some c)) ∧
      ∃ c, dictGet? t.demandMap p = some (some c) := by
  obtain ⟨_, _, _, _, _, _, _, hlen, hebh, _⟩ := month_ok r t hb hn 0 (by omega)
  refine ⟨hlen, hebh, ?_⟩
  intro p hp
  obtain ⟨h, hlt, rfl⟩ := List.getElem_of_mem hp
  obtain ⟨q, c, h1, h2, h3⟩ := C36_charges_defined_partial r t hb hn h 60 (by omega) (by omega) hd
  have hhs : Tracker.hourOfStep h 60 = .ok h := by
    unfold Tracker.hourOfStep; rw [if_neg (by omega)]; congr 1; omega
  unfold Tracker.demandPeriodAtStep at h1
  rw [hhs, ok_bind, pyGet_of_lt hlt, Except.ok.injEq] at h1
  unfold Tracker.energyChargeAtStep at h2
  rw [hhs, ok_bind, hebh, if_neg (by simp), pyGet_of_lt hlt, ok_bind, dictGet_eq_ok] at h2
  refine ⟨⟨c, h2⟩, ?_⟩
  obtain ⟨x, hx⟩ := h3 0
  rw [← h1] at hx
  unfold Tracker.demandCharge at hx
  split at hx
  · simp at hx
  · simp at hx
  · rename_i c' hc'; exact ⟨c', hc'⟩

/-- The rates survive the round trip, with or without discount. -/
theorem C37_rates_survive (r : RateParams K) (t : Tracker K) (hb : r.build = .ok t) (hn : 0 < r.n)
    (hd : r.includeDiscount = true → ∀ i < r.n, (∃ c, DiscountAt r r.dEnergy i (some c)) ∧
      ∃ c, DiscountAt r r.dDemand i (some c)) :
    ∃ t', Tracker.fromCsv t.toCsv = .ok t' ∧ t'.yearlyBase = t.yearlyBase ∧ ∀ step ts,
      t'.demandPeriodAtStep step ts = t.demandPeriodAtStep step ts ∧
      t'.energyChargeAtStep step ts = t.energyChargeAtStep step ts ∧
      ∀ p, t.demandPeriodAtStep step ts = .ok p → ∀ kw, t'.demandCharge p kw = t.demandCharge p kw := by
  obtain ⟨hlen, hebh, hnum⟩ := chart_numeric r t hb hn hd
  obtain ⟨t', h1, h2, h3, h4, h5⟩ := csv_round_trip t hlen hnum
  refine ⟨t', h1, by unfold Tracker.yearlyBase; rw [h3], ?_⟩
  intro step ts
  refine ⟨by unfold Tracker.demandPeriodAtStep; rw [h2], ?_, ?_⟩
  · unfold Tracker.energyChargeAtStep
    cases hhs : Tracker.hourOfStep step ts with
    | error e => rfl
    | ok h =>
      rw [ok_bind, ok_bind, h4, List.length_map, hlen, if_pos rfl, hebh, if_neg (by simp)]
      by_cases hh : h < t.chart.length
      · rw [pyGet_of_lt hh, pyGet_of_lt (by rw [List.length_map]; exact hh), ok_bind, List.getElem_map]
        obtain ⟨⟨c, hc⟩, _⟩ := hnum _ (List.getElem_mem hh)
        rw [dictGet_eq_ok.mpr hc, hc]; rfl
      · rw [pyGet_of_ge (by rw [List.length_map]; omega), pyGet_of_ge (by omega)]; rfl
  · intro p hp kw
    have hmem : p ∈ t.chart := by
      unfold Tracker.demandPeriodAtStep at hp
      simp only [bind_eq_ok] at hp
      obtain ⟨h, _, hp⟩ := hp
      exact List.mem_of_getElem? (pyGet_eq_ok.mp hp)
    unfold Tracker.demandCharge
    rw [(h5 p hmem).1]

/-- **C37, partial.** Without a discount period, rates and classification of every step survive the
round trip. Missing: with a discount period the classification does not
(`C37_classification_lost`). -/
theorem C37_round_trip_partial (r : RateParams K) (t : Tracker K) (hb : r.build = .ok t) (hn : 0 < r.n)
    (hd : r.includeDiscount = false) :
    ∃ t', Tracker.fromCsv t.toCsv = .ok t' ∧ t'.yearlyBase = t.yearlyBase ∧ ∀ step ts,
      t'.demandPeriodAtStep step ts = t.demandPeriodAtStep step ts ∧
      t'.energyChargeAtStep step ts = t.energyChargeAtStep step ts ∧
      ∀ p, t.demandPeriodAtStep step ts = .ok p → (∀ kw, t'.demandCharge p kw = t.demandCharge p kw) ∧
        dictGet? t'.isPeak p = dictGet? t.isPeak p ∧
        dictGet? t'.isDiscount p = dictGet? t.isDiscount p := by
  have hd' : r.includeDiscount = true → ∀ i < r.n, (∃ c, DiscountAt r r.dEnergy i (some c)) ∧
      ∃ c, DiscountAt r r.dDemand i (some c) := by rw [hd]; simp
  obtain ⟨t', h1, h2, h3⟩ := C37_rates_survive r t hb hn hd'
  obtain ⟨hlen, hebh, hnum⟩ := chart_numeric r t hb hn hd'
  obtain ⟨t'', g1, _, _, _, g5⟩ := csv_round_trip t hlen hnum
  rw [h1, Except.ok.injEq] at g1
  subst g1
  refine ⟨t', h1, h2, fun step ts => ⟨(h3 step ts).1, (h3 step ts).2.1, ?_⟩⟩
  intro p hp
  refine ⟨(h3 step ts).2.2 p hp, ?_⟩
  have hp' := hp
  unfold Tracker.demandPeriodAtStep at hp
  simp only [bind_eq_ok] at hp
  obtain ⟨h, hh, hp⟩ := hp
  have hmem := List.mem_of_getElem? (pyGet_eq_ok.mp hp)
  have hlt : h < 8760 := by
    obtain ⟨hx, _⟩ := List.getElem?_eq_some_iff.mp (pyGet_eq_ok.mp hp); omega
  unfold Tracker.hourOfStep at hh
  split at hh
  · simp at hh
  rename_i hts
  simp only [Except.ok.injEq] at hh
  have hm := (C33_month_of_hour (step * ts / 60) _ (by omega)).mp rfl
  obtain ⟨i, s, j, _, _, _, _, hj, _, _, k1, _, _, k4, k5⟩ :=
    hour_lookup r t hb hn step ts _ (by omega) (by omega) hm
  rw [hp', Except.ok.injEq] at k1
  rw [k1] at hmem ⊢
  rw [(g5 _ hmem).2.1, (g5 _ hmem).2.2, k4, k5]
  unfold numPeriods at hj ⊢
  rw [hd] at hj ⊢
  simp only [Bool.false_eq_true, if_false] at hj ⊢
  have hj' : j = 0 ∨ j = 1 := by omega
  constructor
  · congr 1
    rw [decide_eq_decide]
    rcases hj' with rfl | rfl <;> simp <;> omega
  · congr 1
    rcases hj' with rfl | rfl <;> simp

/-- **C37 fails with a discount period.** Every off-peak hour of an odd month (February, April, …) comes
back as peak, and every discount hour as not discount. -/
theorem C37_classification_lost (r : RateParams K) (t : Tracker K) (hb : r.build = .ok t) (hn : 0 < r.n)
    (hd : r.includeDiscount = true) (hd' : ∀ i < r.n, (∃ c, DiscountAt r r.dEnergy i (some c)) ∧
      ∃ c, DiscountAt r r.dDemand i (some c)) (h m : ℕ) (hh : h < 8760) (hm : InMonth (h / 24) m)
    (t' : Tracker K) (ht' : Tracker.fromCsv t.toCsv = .ok t') (p : Int)
    (hp : t.demandPeriodAtStep h 60 = .ok p) :
    (m % 2 = 1 → dictGet? t.isPeak p = some false → dictGet? t.isDiscount p = some false →
      dictGet? t'.isPeak p = some true) ∧
    (dictGet? t.isDiscount p = some true → dictGet? t'.isDiscount p = some false) := by
  obtain ⟨hlen, hebh, hnum⟩ := chart_numeric r t hb hn (fun _ => hd')
  obtain ⟨t'', g1, _, _, _, g5⟩ := csv_round_trip t hlen hnum
  rw [ht', Except.ok.injEq] at g1
  subst g1
  have e60 : h * 60 / 60 = h := by omega
  obtain ⟨i, s, j, _, _, _, _, hj, _, _, k1, _, _, k4, k5⟩ :=
    hour_lookup r t hb hn h 60 m (by omega) (by omega) (by rw [e60]; exact hm)
  have hmem : p ∈ t.chart := by
    unfold Tracker.demandPeriodAtStep at hp
    simp only [bind_eq_ok] at hp
    obtain ⟨_, _, hp⟩ := hp
    exact List.mem_of_getElem? (pyGet_eq_ok.mp hp)
  rw [hp, Except.ok.injEq] at k1
  rw [(g5 p hmem).2.1, (g5 p hmem).2.2]
  refine ⟨?_, fun _ => rfl⟩
  intro hodd hpk hdc
  rw [k1, k4] at hpk
  rw [k1, k5] at hdc
  rw [k1]
  unfold numPeriods at hj ⊢
  rw [hd] at hj ⊢
  simp only [if_true] at hj ⊢
  simp only [Option.some.injEq, decide_eq_false_iff_not] at hpk hdc
  have : j = 0 := by omega
  subst this
  congr 1
  simp
  omega

/-- Non-vacuity of C37: the demo rates meet the hypotheses, and noon on 1 February is such an hour. -/
example : Demo.rates.includeDiscount = false ∧ 0 < Demo.rates.n ∧
    (∀ i < Demo.ratesD.n, (∃ c, DiscountAt Demo.ratesD Demo.ratesD.dEnergy i (some c)) ∧
      ∃ c, DiscountAt Demo.ratesD Demo.ratesD.dDemand i (some c)) ∧
    InMonth (756 / 24) 1 ∧ ¬ PeakHour Demo.ratesD 0 12 ∧ ¬ DiscountHour Demo.ratesD 0 12 := by
  refine ⟨rfl, by decide, ?_, by decide, ?_, ?_⟩
  · intro i hi
    have : i < 3 := hi
    refine ⟨⟨5/100, ?_⟩, ⟨5, ?_⟩⟩ <;> · interval_cases i <;> rfl
  · rintro ⟨s, e, h1, h2, h3, h4⟩
    simp only [At, Demo.ratesD, Demo.rates, RateArg.toList] at h1 h2
    simp at h1 h2
    subst h1 h2
    norm_num at h3
  · rintro ⟨_, _, s, e, h1, h2, h3⟩
    simp only [DiscountAt, RateArg.toList, RateParams.n, Demo.ratesD, Demo.rates] at h1 h2
    simp at h1 h2
    subst h1 h2
    unfold InWindow at h3
    norm_num at h3

end Eco
