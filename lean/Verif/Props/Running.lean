import Verif.Lemmas.Sizing
import Mathlib.Tactic.NormNum
import Mathlib.Tactic.FieldSimp

/-!
Properties C01, C02, C03, C04: running volume and capacity of a primary system.
-/

set_option linter.unusedSectionVars false

namespace Eco
open Finset

variable {K : Type} [Field K] [LinearOrder K] [IsStrictOrderedRing K]

/-- The set of shortfalls over all stretches of consecutive hours of the repeated design day, for a
system that generates at the constant rate `gen`. -/
def shortfalls (daily gen : K) (shape : List K) : Set K :=
  {x | ∃ s n : ℕ, x = Spec.shortfall (Spec.use daily shape) (fun _ => gen) s n}

/-- **C01.** If the generation of a day covers the use of a day, the running volume is the largest
shortfall over all stretches of hours, whatever their start and length. -/
theorem C01_running_volume_isGreatest (daily runHr : K) (shape : List K)
    (hshape : shape ≠ []) (hrun : runHr ≠ 0)
    (hcover : daily * shape.sum ≤ shape.length * (daily / runHr)) :
    ∃ v, runningVolume daily runHr shape = .ok v ∧
      IsGreatest (shortfalls daily (daily / runHr) shape) v := by
  refine ⟨_, runningVolume_ok hrun, ?_, ?_⟩
  · obtain ⟨s, n, _, h⟩ := runningVolumeOfDiff_attained (hourlyDiff (daily / runHr) daily shape)
    exact ⟨s, n, by rw [h, shortfall_eq_wsum _ _ _ hshape]⟩
  · rintro x ⟨s, n, rfl⟩
    rw [shortfall_eq_wsum _ _ _ hshape]
    apply wsum_ge_neg_runningVolume
    rw [hourlyDiff_sum]; linarith

/-- A normalised 24-hour shape and at most 24 run hours meet the hypothesis of C01. -/
theorem cover_of_normalised {daily runHr : K} {shape : List K} (hd : 0 ≤ daily)
    (hlen : shape.length = 24) (hsum : shape.sum ≤ 1) (hr0 : 0 < runHr) (hr : runHr ≤ 24) :
    daily * shape.sum ≤ shape.length * (daily / runHr) := by
  have h1 : daily * shape.sum ≤ daily * 1 := mul_le_mul_of_nonneg_left hsum hd
  have h2 : daily ≤ 24 * (daily / runHr) := by
    rw [mul_div_assoc', le_div_iff₀ hr0]
    nlinarith
  rw [hlen]; push_cast; linarith

/-- Non-vacuity of C01: a peaky day that has its peak around midnight, 100 gallons, 16 run hours. -/
def midnightPeak : List ℚ :=
  [1/4, 1/8, 0, 0, 0, 0, 1/48, 1/48, 1/48, 1/48, 1/48, 1/48, 1/48, 1/48, 1/48, 1/48, 1/48, 1/48,
   0, 0, 0, 0, 1/8, 1/4]

example : midnightPeak ≠ [] ∧ (16 : ℚ) ≠ 0 ∧
    (100 : ℚ) * midnightPeak.sum ≤ midnightPeak.length * (100 / 16) := by
  refine ⟨by simp [midnightPeak], by norm_num, by norm_num [midnightPeak]⟩

/-- … and the peak does wrap midnight: the result is the shortfall of the four hours 22–1. -/
example : runningVolume 100 16 midnightPeak = .ok (50 : ℚ) := by decide +kernel

/-- The hypothesis of C01 is needed: if every hour is a deficit hour (more than 24 run hours were
asked for), the code reports a running volume of zero although the shortfall grows without bound. -/
theorem C01_no_surplus_hour (daily runHr : K) (shape : List K) (hrun : runHr ≠ 0)
    (hall : ∀ f ∈ shape, daily / runHr < daily * f) :
    runningVolume daily runHr shape = .ok 0 := by
  rw [runningVolume_ok hrun]
  congr 1
  have : peakIndices (hourlyDiff (daily / runHr) daily shape) = [] := by
    rw [List.eq_nil_iff_forall_not_mem]
    intro i hi
    obtain ⟨hlt, h1, _⟩ := mem_peakIndices.mp hi
    have hne : shape ≠ [] := by
      rintro rfl; simp [hourlyDiff] at hlt
    rw [rep_hourlyDiff _ _ _ hne] at h1
    unfold Spec.use at h1
    have hmod := Nat.mod_lt (i + (hourlyDiff (daily / runHr) daily shape).length - 1)
      (List.length_pos_iff.mpr hne)
    have := hall _ (List.getElem_mem hmod)
    rw [List.getD_eq_getElem?_getD, List.getElem?_eq_getElem hmod] at h1
    simp only [Option.getD_some] at h1
    linarith
  rw [runningVolumeOfDiff_eq, this]; rfl

example : runningVolume 100 48 (List.replicate 24 (1/24 : ℚ)) = .ok 0 ∧
    Spec.shortfall (Spec.use 100 (List.replicate 24 (1/24 : ℚ))) (fun _ => 100/48) 0 24 = 50 := by
  decide +kernel

/-- **C02 (sufficiency).** A store of the running volume that is full at some hour and refilled at
the sized rate never runs dry, over any number of hours. -/
theorem C02_running_volume_suffices (daily runHr v : K) (shape : List K)
    (hshape : shape ≠ []) (hrun : runHr ≠ 0)
    (hcover : daily * shape.sum ≤ shape.length * (daily / runHr))
    (hv : runningVolume daily runHr shape = .ok v) (s n : ℕ) :
    0 ≤ Spec.level v (Spec.use daily shape) (fun _ => daily / runHr) s n := by
  obtain ⟨v', hv', hg⟩ := C01_running_volume_isGreatest daily runHr shape hshape hrun hcover
  rw [hv] at hv'
  obtain rfl : v = v' := by injection hv'
  obtain ⟨a, m, _, h⟩ := level_eq_window v (Spec.use daily shape) (fun _ => daily / runHr) s n
  have := hg.2 ⟨s + a, m, rfl⟩
  rw [h]; linarith

/-- **C02 (tightness).** Any strictly smaller store, started full at any hour, runs dry. -/
theorem C02_smaller_runs_dry (daily runHr v V : K) (shape : List K)
    (hshape : shape ≠ []) (hrun : runHr ≠ 0)
    (hcover : daily * shape.sum ≤ shape.length * (daily / runHr))
    (hv : runningVolume daily runHr shape = .ok v) (hV : V < v) (s : ℕ) :
    ∃ n, Spec.level V (Spec.use daily shape) (fun _ => daily / runHr) s n < 0 := by
  obtain ⟨v', hv', hg⟩ := C01_running_volume_isGreatest daily runHr shape hshape hrun hcover
  rw [hv] at hv'
  obtain rfl : v = v' := by injection hv'
  obtain ⟨s0, n0, h⟩ := hg.1
  -- move the worst window to a later day, at or after hour `s`
  have hper : Spec.shortfall (Spec.use daily shape) (fun _ => daily / runHr)
      (s0 + shape.length * s) n0 = v := by
    rw [h, shortfall_eq_wsum _ _ _ hshape, shortfall_eq_wsum _ _ _ hshape]
    have hl : (hourlyDiff (daily / runHr) daily shape).length = shape.length := by simp [hourlyDiff]
    rw [← hl, wsum_shift]
  have hge : s ≤ s0 + shape.length * s := by
    have : 0 < shape.length := List.length_pos_iff.mpr hshape
    nlinarith
  have := level_le_window V (Spec.use daily shape) (fun _ => daily / runHr) s
    (s0 + shape.length * s - s) n0
  rw [show s + (s0 + shape.length * s - s) = s0 + shape.length * s by omega, hper] at this
  exact ⟨_, lt_of_le_of_lt this (by linarith)⟩

/-- Non-vacuity of C02: with the midnight peak a 49-gallon store started at noon is dry after hour
1 of the next day, the sized 50-gallon store just makes it. -/
example : Spec.level 49 (Spec.use 100 midnightPeak) (fun _ => 100 / 16) 12 14 < 0 ∧
    Spec.level 50 (Spec.use 100 midnightPeak) (fun _ => 100 / 16) 12 14 = 0 := by decide +kernel

/-- **C01/C02 corollary.** No storage is needed exactly if no hour of the day uses more than is
generated in an hour. -/
theorem C01_zero_iff (daily runHr : K) (shape : List K)
    (hshape : shape ≠ []) (hrun : runHr ≠ 0)
    (hcover : daily * shape.sum ≤ shape.length * (daily / runHr)) :
    runningVolume daily runHr shape = .ok 0 ↔ ∀ f ∈ shape, daily * f ≤ daily / runHr := by
  obtain ⟨v, hv, hg⟩ := C01_running_volume_isGreatest daily runHr shape hshape hrun hcover
  have hpos : 0 < shape.length := List.length_pos_iff.mpr hshape
  rw [hv]
  constructor
  · intro h f hf
    obtain rfl : v = 0 := by injection h
    obtain ⟨i, hi, rfl⟩ := List.getElem_of_mem hf
    have := hg.2 ⟨i, 1, rfl⟩
    rw [show (1 : ℕ) = 0 + 1 from rfl, shortfall_succ, shortfall_zero] at this
    simp only [Spec.use, add_zero, Nat.mod_eq_of_lt hi, List.getD_eq_getElem?_getD,
      List.getElem?_eq_getElem hi, Option.getD_some, zero_add] at this
    linarith
  · intro h
    congr 1
    apply le_antisymm
    · obtain ⟨s, n, hsn⟩ := hg.1
      rw [hsn]
      apply Finset.sum_nonpos
      intro i _
      have hmod := Nat.mod_lt (s + i) hpos
      have := h _ (List.getElem_mem hmod)
      simp only [Spec.use, List.getD_eq_getElem?_getD, List.getElem?_eq_getElem hmod,
        Option.getD_some]
      linarith
    · exact hg.2 ⟨0, 0, by rw [shortfall_zero]⟩

/-- **C03.** The sized capacity, available for the derated run time, delivers exactly the heat
[BTU] that raises the daily use from inlet to supply temperature. -/
theorem C03_capacity_delivers_daily_heat (c : SysCfg K) (b : Building K) (inlet : K)
    (hin : requireDesignInlet b = .ok inlet) (hrun : c.maxRunHr ≠ 0) (hdef : c.defrost ≠ 0) :
    ∃ cap, requiredCapacity c b = .ok cap ∧
      cap * 1000 * c.defrost * c.maxRunHr = b.dailyGal * rhoCp K * (c.supply - inlet) := by
  refine ⟨b.dailyGal / c.maxRunHr * rhoCp K * (c.supply - inlet) / c.defrost / 1000, ?_, ?_⟩
  · simp [requiredCapacity, hin, fdiv, hrun, hdef, capacityOfGenRate, bind, Except.bind]
  · field_simp

/-- **C03 (errors).** Without a design inlet temperature, with zero run hours or with a zero defrost
factor no capacity is reported. -/
theorem C03_capacity_errors (c : SysCfg K) (b : Building K) :
    (∃ cap, requiredCapacity c b = .ok cap) ↔
      (∃ inlet, requireDesignInlet b = .ok inlet) ∧ c.maxRunHr ≠ 0 ∧ c.defrost ≠ 0 := by
  constructor
  · rintro ⟨cap, h⟩
    unfold requiredCapacity at h
    cases hi : requireDesignInlet b with
    | error e => simp [hi, bind, Except.bind] at h
    | ok inlet =>
      simp only [hi, bind, Except.bind] at h
      by_cases hr : c.maxRunHr = 0
      · simp [fdiv, hr] at h
      · by_cases hd : c.defrost = 0
        · simp [fdiv, hr, hd, capacityOfGenRate, bind, Except.bind] at h
        · exact ⟨⟨inlet, rfl⟩, hr, hd⟩
  · rintro ⟨⟨inlet, hi⟩, hr, hd⟩
    obtain ⟨cap, h, _⟩ := C03_capacity_delivers_daily_heat c b inlet hi hr hd
    exact ⟨cap, h⟩

/-- **C03 (monotonicity).** More daily use, fewer run hours, a colder inlet or a smaller defrost
factor never lower the sized capacity. -/
theorem C03_capacity_mono (c c' : SysCfg K) (b b' : Building K) (inlet inlet' cap cap' : K)
    (hin : requireDesignInlet b = .ok inlet) (hin' : requireDesignInlet b' = .ok inlet')
    (hcap : requiredCapacity c b = .ok cap) (hcap' : requiredCapacity c' b' = .ok cap')
    (hsup : c.supply = c'.supply)
    (hd0 : 0 ≤ b.dailyGal) (hd : b.dailyGal ≤ b'.dailyGal)
    (hr0 : 0 < c'.maxRunHr) (hr : c'.maxRunHr ≤ c.maxRunHr)
    (hf0 : 0 < c'.defrost) (hf : c'.defrost ≤ c.defrost)
    (ht : inlet' ≤ inlet) (hts : inlet ≤ c.supply) : cap ≤ cap' := by
  obtain ⟨x, hx, ex⟩ := C03_capacity_delivers_daily_heat c b inlet hin (by linarith) (by linarith)
  obtain ⟨y, hy, ey⟩ := C03_capacity_delivers_daily_heat c' b' inlet' hin' (by linarith) (by linarith)
  rw [hcap] at hx; rw [hcap'] at hy
  obtain rfl : cap = x := by injection hx
  obtain rfl : cap' = y := by injection hy
  have hrho : (0 : K) < rhoCp K := by unfold rhoCp; norm_num
  have hrpos : 0 < c.maxRunHr := lt_of_lt_of_le hr0 hr
  have hfpos : 0 < c.defrost := lt_of_lt_of_le hf0 hf
  have e1 : cap = b.dailyGal * rhoCp K * (c.supply - inlet) / (1000 * c.defrost * c.maxRunHr) := by
    rw [eq_div_iff (by positivity)]; linarith
  have e2 : cap' = b'.dailyGal * rhoCp K * (c'.supply - inlet') /
      (1000 * c'.defrost * c'.maxRunHr) := by
    rw [eq_div_iff (by positivity)]; linarith
  rw [e1, e2]
  have hb' : 0 ≤ b'.dailyGal := le_trans hd0 hd
  apply div_le_div₀
  · exact mul_nonneg (mul_nonneg hb' hrho.le) (by linarith)
  · apply mul_le_mul (mul_le_mul_of_nonneg_right hd hrho.le) (by linarith) (by linarith)
    exact mul_nonneg hb' hrho.le
  · positivity
  · apply mul_le_mul (by linarith) hr hr0.le (by linarith)

/-- Non-vacuity of C03: 2500 gal/day, 16 h, 120/50 °F. -/
example : requireDesignInlet (K := ℚ)
      (Building.mk' none 2500 [] [] "custom" (some 20) (some 50)) = .ok 50 ∧
    requiredCapacity (K := ℚ) ⟨120, 150, 16, 1⟩
      (Building.mk' none 2500 [] [] "custom" (some 20) (some 50)) = .ok (11694949 / 128000) := by
  decide +kernel

/-- **C04 (running volume).** Fewer run hours never need a larger running volume. -/
theorem C04_running_volume_mono (daily r r' v v' : K) (shape : List K) (hshape : shape ≠ [])
    (hd : 0 ≤ daily) (hr0 : 0 < r') (hr : r' ≤ r)
    (hcover : daily * shape.sum ≤ shape.length * (daily / r))
    (hv : runningVolume daily r shape = .ok v) (hv' : runningVolume daily r' shape = .ok v') :
    v' ≤ v := by
  have hgen : daily / r ≤ daily / r' := div_le_div_of_nonneg_left hd hr0 hr
  have hrpos : 0 < r := lt_of_lt_of_le hr0 hr
  have hcover' : daily * shape.sum ≤ shape.length * (daily / r') :=
    le_trans hcover (mul_le_mul_of_nonneg_left hgen (Nat.cast_nonneg _))
  obtain ⟨w, hw, hg⟩ := C01_running_volume_isGreatest daily r shape hshape hrpos.ne' hcover
  obtain ⟨w', hw', hg'⟩ := C01_running_volume_isGreatest daily r' shape hshape hr0.ne' hcover'
  rw [hv] at hw; rw [hv'] at hw'
  obtain rfl : v = w := by injection hw
  obtain rfl : v' = w' := by injection hw'
  obtain ⟨s, n, h⟩ := hg'.1
  rw [h]
  exact le_trans (shortfall_mono_gen (fun _ => hgen) s n) (hg.2 ⟨s, n, rfl⟩)

/-- **C04 (capacity and storage).** Fewer run hours: no less capacity, and for the same aquastat
(stratification factor) no more storage. -/
theorem C04_run_hours_tradeoff (c : SysCfg K) (r' : K) (b : Building K) (f inlet : K)
    (cap cap' v v' st st' : K)
    (hshape : b.peakShape ≠ []) (hd : 0 ≤ b.dailyGal) (hr0 : 0 < r') (hr : r' ≤ c.maxRunHr)
    (hcover : b.dailyGal * b.peakShape.sum ≤ b.peakShape.length * (b.dailyGal / c.maxRunHr))
    (hin : requireDesignInlet b = .ok inlet) (hts : inlet ≤ c.supply)
    (hdef : 0 < c.defrost) (hf : 0 < f)
    (hcap : requiredCapacity c b = .ok cap)
    (hcap' : requiredCapacity { c with maxRunHr := r' } b = .ok cap')
    (hv : runningVolume b.dailyGal c.maxRunHr b.peakShape = .ok v)
    (hv' : runningVolume b.dailyGal r' b.peakShape = .ok v')
    (hst : storageVolume v f = .ok st) (hst' : storageVolume v' f = .ok st') :
    cap ≤ cap' ∧ st' ≤ st := by
  refine ⟨C03_capacity_mono c { c with maxRunHr := r' } b b inlet inlet cap cap' hin hin hcap hcap'
    rfl hd (le_refl _) hr0 hr hdef (le_refl _) (le_refl _) hts, ?_⟩
  have := C04_running_volume_mono b.dailyGal c.maxRunHr r' v v' b.peakShape hshape hd hr0 hr hcover hv hv'
  simp only [storageVolume, fdiv, hf.ne', if_false] at hst hst'
  obtain rfl : v / f = st := by injection hst
  obtain rfl : v' / f = st' := by injection hst'
  exact div_le_div_of_nonneg_right this hf.le

/-- Non-vacuity of C04: the midnight-peak day at 24 and at 16 run hours. -/
example : runningVolume 100 24 midnightPeak = .ok (175/3 : ℚ) ∧
    runningVolume 100 16 midnightPeak = .ok (50 : ℚ) := by decide +kernel

end Eco
