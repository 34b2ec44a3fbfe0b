import Verif.Spec.Calendar
import Verif.Lemmas.Dict
import Verif.Lemmas.Py
import Verif.Model.Building
import Mathlib.Tactic.NormNum
import Mathlib.Tactic.Linarith
import Mathlib.Algebra.BigOperators.Intervals
import Mathlib.Data.Finset.Card
import Mathlib.Algebra.Order.Floor.Ring
import Mathlib.Algebra.Order.Field.Rat
import Mathlib.Data.Rat.Floor

/-! C46 to C48: climate data. -/

namespace Eco
set_option linter.unusedSectionVars false
variable {K : Type} [Field K] [LinearOrder K] [IsStrictOrderedRing K]
open Spec

/-! ## C46 -/

/-- The month loop agrees with the calendar. -/
theorem dayOfYearToMonth_spec {d m : ℕ} (h : InMonth d m) : dayOfYearToMonth d = m := by
  have key : ∀ m < 12, ∀ d < 365, InMonth d m → dayOfYearToMonth d = m := by decide +kernel
  refine key m h.1 d ?_ h
  have h1 := h.2.2
  have : ∀ m < 12, (monthLen.take (m + 1)).sum ≤ 365 := by decide
  have := this m h.1
  omega

/-- Every day of the year lies in exactly one month. -/
theorem exists_month {d : ℕ} (h : d < 365) : ∃ m, InMonth d m := by
  have key : ∀ d < 365, ∃ m < 12, InMonth d m := by decide +kernel
  obtain ⟨m, _, hm⟩ := key d h
  exact ⟨m, hm⟩

/-- **C46 (outdoor temperature).** With a year of hourly data, the value returned at a timestep is
the datum of the hour of the year that contains the elapsed minute. -/
theorem C46_oat_by_hour (c : ClimateZone K) (l : List K) (step interval : ℕ)
    (hc : c.constOat = none) (hd : c.oatByHour = some l) (hl : l.length = 365 * 24) :
    ∃ v, l[(step * interval % yearMin) / 60]? = some v ∧ c.getOat step interval = .ok v := by
  have hlt : (step * interval % yearMin) / 60 < l.length := by
    have : step * interval % yearMin < yearMin := Nat.mod_lt _ (by decide)
    rw [hl]; unfold yearMin at *; omega
  refine ⟨_, List.getElem?_eq_getElem hlt, ?_⟩
  unfold ClimateZone.getOat
  have e : step * interval / 60 % l.length = (step * interval % yearMin) / 60 := by
    rw [hl]; unfold yearMin; omega
  simp only [hc, hd]
  rw [if_neg (by omega), e, pyGet_of_lt hlt]

/-- **C46 (inlet temperature).** With monthly data, the value is the datum of the calendar month that
contains the elapsed minute. -/
theorem C46_inlet_by_month (c : ClimateZone K) (l : List K) (step interval m : ℕ)
    (hc : c.constInlet = none) (hd : c.inletByMonth = some l) (hl : l.length = 12)
    (hm : InMonth ((step * interval % yearMin) / 1440) m) :
    ∃ v, l[m]? = some v ∧ c.getInlet step interval = .ok v := by
  have hlt : m < l.length := by rw [hl]; exact hm.1
  refine ⟨_, List.getElem?_eq_getElem hlt, ?_⟩
  unfold ClimateZone.getInlet
  have e : step * interval / (60 * 24) % 365 = (step * interval % yearMin) / 1440 := by
    unfold yearMin; omega
  simp only [hc, hd]
  rw [e, dayOfYearToMonth_spec hm, pyGet_of_lt hlt]

/-- **C46 (periodicity).** Two timesteps whose elapsed minutes differ by whole years get the same
values, whatever their intervals. -/
theorem C46_periodic (c : ClimateZone K) (step step' interval interval' : ℕ)
    (hl : ∀ l, c.oatByHour = some l → l.length = 365 * 24)
    (h : step * interval % yearMin = step' * interval' % yearMin) :
    c.getOat step interval = c.getOat step' interval' ∧
    c.getInlet step interval = c.getInlet step' interval' := by
  constructor
  · unfold ClimateZone.getOat
    cases c.constOat with
    | some v => rfl
    | none =>
      cases ho : c.oatByHour with
      | none => rfl
      | some l =>
        have := hl l ho
        have e : step * interval / 60 % l.length = step' * interval' / 60 % l.length := by
          rw [this]; unfold yearMin at h; omega
        simp only [e]
  · unfold ClimateZone.getInlet
    have e : step * interval / (60 * 24) % 365 = step' * interval' / (60 * 24) % 365 := by
      unfold yearMin at h; omega
    simp only [e]

/-- **C46 (constant conditions).** A design-condition zone returns its constants at every step. -/
theorem C46_constant (oat inlet : K) (step interval : ℕ) :
    (ClimateZone.fromDesignConditions (some oat) (some inlet)).getOat step interval = .ok oat ∧
    (ClimateZone.fromDesignConditions (some oat) (some inlet)).getInlet step interval = .ok inlet :=
  ⟨rfl, rfl⟩

/-- Non-vacuity of C46: minute 86 400 (day 60) is the first of March; hour 1440 of the year. -/
example : InMonth ((8640 * 10 % yearMin) / 1440) 2 ∧ ¬ InMonth ((8639 * 10 % yearMin) / 1440) 3 ∧
    InMonth ((8495 * 10 % yearMin) / 1440) 1 ∧ (8640 * 10 % yearMin) / 60 = 1440 := by decide

/-! ## C47 -/

theorem min?_spec {l : List K} {m : K} (h : l.min? = some m) : m ∈ l ∧ ∀ x ∈ l, m ≤ x := by
  rw [List.min?_eq_some_iff] at h
  exact h

/-- **C47 (outdoor).** If a zone has a design outdoor temperature, no timestep returns a lower value,
and some timestep returns it. -/
theorem C47_design_oat_is_min (c : ClimateZone K) (t : K) (h : c.getDesignOat = .ok t) :
    (∀ step interval v, c.getOat step interval = .ok v → t ≤ v) ∧
    ∃ step, c.getOat step 60 = .ok t := by
  unfold ClimateZone.getDesignOat at h
  unfold ClimateZone.getOat
  cases hc : c.constOat with
  | some v =>
    rw [hc] at h
    simp only [Except.ok.injEq] at h
    subst h
    refine ⟨?_, 0, rfl⟩
    intro s i v' hv
    simp only [Except.ok.injEq] at hv
    exact hv.le
  | none =>
    rw [hc] at h
    cases ho : c.oatByHour with
    | none => simp [ho] at h
    | some l =>
      simp only [ho] at h
      cases hm : l.min? with
      | none => simp [hm] at h
      | some m =>
        simp only [hm, Except.ok.injEq] at h
        subst h
        obtain ⟨h1, h2⟩ := min?_spec hm
        have hne : l.length ≠ 0 := by
          intro h0
          rw [List.length_eq_zero_iff] at h0
          simp [h0] at h1
        constructor
        · intro s i v hv
          simp only [if_neg hne, pyGet_eq_ok] at hv
          exact h2 v (List.mem_of_getElem? hv)
        · obtain ⟨k, hk, rfl⟩ := List.getElem_of_mem h1
          refine ⟨k, ?_⟩
          simp only [if_neg hne]
          rw [Nat.mul_div_cancel _ (by norm_num), Nat.mod_eq_of_lt hk, pyGet_of_lt hk]

/-- **C47 (inlet).** The same for the inlet water temperature, for monthly data. -/
theorem C47_design_inlet_is_min (c : ClimateZone K) (t : K)
    (hl : ∀ l, c.inletByMonth = some l → l.length = 12) (h : c.getDesignInlet = .ok t) :
    (∀ step interval v, c.getInlet step interval = .ok v → t ≤ v) ∧
    ∃ step, c.getInlet step 1440 = .ok t := by
  unfold ClimateZone.getDesignInlet at h
  unfold ClimateZone.getInlet
  cases hc : c.constInlet with
  | some v =>
    rw [hc] at h
    simp only [Except.ok.injEq] at h
    subst h
    refine ⟨?_, 0, rfl⟩
    intro s i v' hv
    simp only [Except.ok.injEq] at hv
    exact hv.le
  | none =>
    rw [hc] at h
    cases ho : c.inletByMonth with
    | none => simp [ho] at h
    | some l =>
      simp only [ho] at h
      cases hm : l.min? with
      | none => simp [hm] at h
      | some m =>
        simp only [hm, Except.ok.injEq] at h
        subst h
        obtain ⟨h1, h2⟩ := min?_spec hm
        constructor
        · intro s i v hv
          simp only [pyGet_eq_ok] at hv
          exact h2 v (List.mem_of_getElem? hv)
        · obtain ⟨k, hk, rfl⟩ := List.getElem_of_mem h1
          rw [hl l ho] at hk
          have key : ∀ k < 12, InMonth ((monthLen.take k).sum) k ∧ (monthLen.take k).sum < 365 := by
            decide
          obtain ⟨k1, k2⟩ := key k hk
          refine ⟨(monthLen.take k).sum, ?_⟩
          rw [show 60 * 24 = 1440 by rfl, Nat.mul_div_cancel _ (by norm_num), Nat.mod_eq_of_lt k2,
            dayOfYearToMonth_spec k1]
          simp only
          rw [pyGet_of_lt]

/-- Non-vacuity of C47. -/
example : (⟨none, some [40, 20, 30], none, none, some 50⟩ : ClimateZone ℚ).getDesignOat = .ok 20 ∧
    (⟨none, some [40, 20, 30], none, none, some 50⟩ : ClimateZone ℚ).getOat 4 60 = .ok 20 := by
  decide +kernel

/-! ## C48 -/

/-- Mean temperature of a day of hourly data. -/
def Spec.dayMean (l : List K) (day : ℕ) : K := (∑ h ∈ Finset.range 24, l.getD (24 * day + h) 0) / 24

theorem sum_take_drop (l : List K) (a n : ℕ) :
    ((l.drop a).take n).sum = ∑ h ∈ Finset.range n, l.getD (a + h) 0 := by
  induction n with
  | zero => simp
  | succ n ih =>
    rw [Finset.sum_range_succ, ← ih, List.take_add_one, List.sum_append]
    congr 1
    rw [List.getElem?_drop, List.getD_eq_getElem?_getD]
    cases l[a + n]? <;> simp

theorem bucketOf_iff [FloorRing K] (avg : K) (k : ℤ) :
    ClimateZone.bucketOf avg = 5 * k ↔ (5 * k : K) ≤ avg ∧ avg < 5 * k + 5 := by
  unfold ClimateZone.bucketOf
  have h5 : (0 : K) < 5 := by norm_num
  constructor
  · intro h
    have : ⌊avg / 5⌋ = k := by omega
    rw [Int.floor_eq_iff, le_div_iff₀ h5, div_lt_iff₀ h5] at this
    constructor <;> linarith [this.1, this.2]
  · intro h
    have : ⌊avg / 5⌋ = k := by
      rw [Int.floor_eq_iff, le_div_iff₀ h5, div_lt_iff₀ h5]
      constructor <;> linarith [h.1, h.2]
    omega

theorem countP_range (n : ℕ) (P : ℕ → Bool) :
    (List.range n).countP P = ((Finset.range n).filter (fun d => P d = true)).card := by
  induction n with
  | zero => simp
  | succ n ih =>
    rw [List.range_succ, List.countP_append, ih, Finset.range_add_one, Finset.filter_insert]
    by_cases h : P n = true
    · simp [h]
    · simp [h]

theorem countP_range_congr (n : ℕ) (P : ℕ → Bool) (Q : ℕ → Prop) [DecidablePred Q] (h : ∀ x, P x = true ↔ Q x) :
    (List.range n).countP P = ((Finset.range n).filter Q).card := by
  rw [countP_range]
  congr 1
  apply Finset.filter_congr
  intro x _
  exact h x

/-- **C48.** The counts add up to 365; the count of the bucket with lower edge `5 k` is the number of
days whose mean temperature `t` satisfies `5 k ≤ t < 5 k + 5`; there is an entry only for non-empty
buckets, at most one for each. -/
theorem C48_buckets_partition_year [FloorRing K] (c : ClimateZone K) (l : List K)
    (h : c.oatByHour = some l) :
    ∃ bs, c.getOatBuckets = .ok bs ∧ (bs.map (·.2)).sum = 365 ∧ (bs.map (·.1)).Nodup ∧
      (∀ b n, (b, n) ∈ bs → 0 < n ∧ ∃ k : ℤ, b = 5 * k ∧
        n = ((Finset.range 365).filter
          (fun d => (5 * k : K) ≤ dayMean l d ∧ dayMean l d < 5 * k + 5)).card) ∧
      ∀ d < 365, ∃ b n, (b, n) ∈ bs ∧ (b : K) ≤ dayMean l d ∧ dayMean l d < b + 5 := by
  have hmean : ∀ d, ClimateZone.dailyAvg l d = dayMean l d := by
    intro d
    unfold ClimateZone.dailyAvg dayMean
    rw [sum_take_drop, mul_comm d 24]
  unfold ClimateZone.getOatBuckets
  rw [h]
  set f : ℕ → ℤ := fun day => ClimateZone.bucketOf (ClimateZone.dailyAvg l day) with hf
  set bs := (List.range 365).foldl (fun m day => dictSet m (f day) ((dictGet? m (f day)).getD 0 + 1))
    ([] : List (ℤ × ℕ)) with hbs
  obtain ⟨h1, h2⟩ := count_foldl_sum f (List.range 365) [] (by simp)
  have hcnt := count_foldl f (List.range 365) []
  have hsome := count_foldl_isSome f (List.range 365) []
  simp only [← hbs] at h1 h2 hcnt hsome
  refine ⟨bs, rfl, by simpa using h2, h1, ?_, ?_⟩
  · intro b n hbn
    have hg := dictGet?_eq_some_of_mem h1 hbn
    have hc := hcnt b
    have hs := hsome b
    rw [hg] at hc hs
    simp only [Option.getD_some, Option.isSome_some] at hc hs
    have hs' : ∃ d < 365, f d = b := by
      have := hs.symm
      simp only [dictGet?, List.find?_nil, Option.map_none, Option.isSome_none, Bool.false_or,
        List.any_eq_true, List.mem_range, decide_eq_true_eq] at this
      exact this
    obtain ⟨d, hd, hdb⟩ := hs'
    have hk : b = 5 * ⌊ClimateZone.dailyAvg l d / 5⌋ := by
      rw [← hdb, hf]; simp only [ClimateZone.bucketOf]; ring
    have hc' : n = (List.range 365).countP (fun x => decide (f x = b)) := by
      rw [hc]; simp [dictGet?]
    refine ⟨?_, ⌊ClimateZone.dailyAvg l d / 5⌋, hk, ?_⟩
    · rw [hc', List.countP_pos_iff]
      exact ⟨d, by simpa using hd, by simpa using hdb⟩
    · rw [hc']
      apply countP_range_congr
      intro x
      rw [decide_eq_true_eq, hk, hf]
      simp only
      rw [bucketOf_iff, hmean]
      simp only [hmean]
  · intro d hd
    have hs := hsome (f d)
    have : (dictGet? bs (f d)).isSome = true := by
      rw [hs]
      simp only [Bool.or_eq_true, List.any_eq_true, List.mem_range, decide_eq_true_eq]
      exact Or.inr ⟨d, hd, rfl⟩
    obtain ⟨n, hn⟩ := Option.isSome_iff_exists.mp this
    refine ⟨f d, n, mem_of_dictGet? hn, ?_⟩
    have := (bucketOf_iff (ClimateZone.dailyAvg l d) ⌊ClimateZone.dailyAvg l d / 5⌋).mp
      (by simp only [ClimateZone.bucketOf]; ring)
    rw [hmean] at this
    have e : f d = 5 * ⌊dayMean l d / 5⌋ := by
      rw [hf]; simp only [ClimateZone.bucketOf, hmean]; ring
    rw [e]
    push_cast
    exact this

/-- **C48 (no hourly data).** -/
theorem C48_needs_hourly_data [FloorRing K] (c : ClimateZone K) (h : c.oatByHour = none) :
    c.getOatBuckets = .error .valueError := by simp [ClimateZone.getOatBuckets, h]

/-- Non-vacuity of C48: two days at 62 degrees and one at -2; the days without data count as 0. -/
example : (⟨none, some (List.replicate 48 62 ++ List.replicate 24 (-2)), none, none, none⟩ :
    ClimateZone ℚ).getOatBuckets = .ok [(60, 2), (-5, 1), (0, 362)] := by
  decide +kernel

end Eco
