import Verif.Model.Sizing
import Verif.Spec.Profile
import Mathlib.Tactic.Linarith
import Mathlib.Tactic.FieldSimp
import Mathlib.Tactic.NormNum

/-! Property C05: the stratification factor is the exact yield of the assumed tank profile. -/

namespace Eco
open MeasureTheory

/-- The set of usable heights is an interval. -/
theorem usable_heights {onPct onTemp slope supply storage : ℝ} (hs : 0 < slope)
    (hss : supply ≤ storage) :
    {h | onPct ≤ h ∧ h ≤ 100 ∧ supply ≤ Spec.sizingProfile onPct onTemp slope storage h} =
      Set.Icc (max (onPct + (supply - onTemp) / slope) onPct) 100 := by
  ext h
  simp only [Set.mem_ofPred_eq, Set.mem_Icc, Spec.sizingProfile, le_min_iff, max_le_iff]
  have key : supply ≤ onTemp + slope * (h - onPct) ↔ onPct + (supply - onTemp) / slope ≤ h := by
    rw [← le_sub_iff_add_le', div_le_iff₀ hs]
    constructor <;> intro hh <;> linarith
  rw [key]
  constructor
  · rintro ⟨h1, h2, _, h4⟩; exact ⟨⟨h4, h1⟩, h2⟩
  · rintro ⟨⟨h4, h1⟩, h2⟩; exact ⟨h1, h2, hss, h4⟩

theorem integral_linear (A B x y : ℝ) :
    ∫ h in x..y, (A + B * h) = A * (y - x) + B * (y ^ 2 - x ^ 2) / 2 := by
  rw [intervalIntegral.integral_add (by simp) (by
    apply Continuous.intervalIntegrable; fun_prop)]
  rw [intervalIntegral.integral_const, intervalIntegral.integral_const_mul, integral_id]
  simp only [smul_eq_mul]; ring

/-- **C05.** The gallons per 100-gallon tank used in sizing are the integral of the mixing yield over
the usable heights of the assumed profile. -/
theorem C05_supply_gallons_is_integral (c : SysCfg ℝ) (onFract onTemp slope inlet : ℝ)
    (hs : 0 < slope) (hin : inlet < c.supply) (hss : c.supply ≤ c.storage)
    (hon : onTemp ≤ c.storage) :
    supplyGalPer100 c onFract onTemp slope inlet = .ok (Spec.supplyGallons
      (Spec.sizingProfile (onFract * 100) onTemp slope c.storage) (onFract * 100) c.supply inlet) := by
  unfold supplyGalPer100 Spec.supplyGallons
  rw [usable_heights hs hss]
  set onPct := onFract * 100 with hP
  set supplyH := max (onPct + (c.supply - onTemp) / slope) onPct with hSup
  set storageH0 := onPct + (c.storage - onTemp) / slope with hSto0
  have hdelta : c.supply - inlet ≠ 0 := by linarith [sub_pos.mpr hin]
  simp only [hs.ne', if_false, hdelta]
  simp only [← hSup, ← hSto0]
  split
  · rename_i h100
    congr 1
    rcases h100.lt_or_eq with hlt | heq
    · rw [Set.Icc_eq_empty (not_le.mpr hlt)]; simp
    · rw [← heq]; simp
  · rename_i h100
    push Not at h100
    congr 1
    have h1 : supplyH ≤ storageH0 := by
      apply max_le
      · have : (c.supply - onTemp) / slope ≤ (c.storage - onTemp) / slope :=
          div_le_div_of_nonneg_right (by linarith) hs.le
        linarith
      · have : 0 ≤ (c.storage - onTemp) / slope := div_nonneg (by linarith) hs.le
        linarith
    set storageH := min storageH0 100 with hSto
    have h2 : supplyH ≤ storageH := le_min h1 h100.le
    have h3 : storageH ≤ 100 := min_le_right _ _
    rw [integral_Icc_eq_integral_Ioc, ← intervalIntegral.integral_of_le h100.le]
    have hcont : Continuous fun h =>
        Spec.mixYield c.supply inlet (Spec.sizingProfile onPct onTemp slope c.storage h) := by
      unfold Spec.mixYield Spec.sizingProfile; fun_prop
    rw [← intervalIntegral.integral_add_adjacent_intervals (b := storageH)
      (hcont.intervalIntegrable _ _) (hcont.intervalIntegrable _ _)]
    have e1 : ∫ h in supplyH..storageH,
        Spec.mixYield c.supply inlet (Spec.sizingProfile onPct onTemp slope c.storage h) =
        ∫ h in supplyH..storageH, ((onTemp - slope * onPct - inlet) / (c.supply - inlet)
          + slope / (c.supply - inlet) * h) := by
      apply intervalIntegral.integral_congr
      intro h hh
      rw [Set.uIcc_of_le h2] at hh
      have hle : h ≤ storageH0 := le_trans hh.2 (min_le_left _ _)
      have : onTemp + slope * (h - onPct) ≤ c.storage := by
        have : h - onPct ≤ (c.storage - onTemp) / slope := by linarith
        rw [le_div_iff₀ hs] at this; linarith
      simp only [Spec.mixYield, Spec.sizingProfile, min_eq_right this]
      field_simp; ring
    have e2 : ∫ h in storageH..100,
        Spec.mixYield c.supply inlet (Spec.sizingProfile onPct onTemp slope c.storage h) =
        ∫ h in storageH..100, (c.storage - inlet) / (c.supply - inlet) := by
      rcases le_total storageH0 100 with hc | hc
      · apply intervalIntegral.integral_congr
        intro h hh
        rw [Set.uIcc_of_le h3, show storageH = storageH0 from min_eq_left hc] at hh
        have : c.storage ≤ onTemp + slope * (h - onPct) := by
          have : (c.storage - onTemp) / slope ≤ h - onPct := by linarith [hh.1]
          rw [div_le_iff₀ hs] at this; linarith
        simp only [Spec.mixYield, Spec.sizingProfile, min_eq_left this]
      · rw [show storageH = 100 from min_eq_right hc]; simp
    rw [e1, e2, integral_linear, intervalIntegral.integral_const]
    rw [max_eq_right (by linarith : (0:ℝ) ≤ 100 - storageH)]
    simp only [smul_eq_mul]
    field_simp
    ring

section bounds
variable {K : Type} [Field K] [LinearOrder K] [IsStrictOrderedRing K]

/-- The height [%] from which on the assumed profile is at supply temperature, not below the sensor. -/
def usableFrom (onPct onTemp slope supply : K) : K := max (onPct + (supply - onTemp) / slope) onPct

/-- **C05 (bounds).** Every usable gallon yields at least one and at most
`(storage - inlet)/(supply - inlet)` supply-temperature gallons. -/
theorem C05_supply_gallons_bounds (c : SysCfg K) (onFract onTemp slope inlet : K)
    (hs : 0 < slope) (hin : inlet < c.supply) (hss : c.supply ≤ c.storage)
    (hon : onTemp ≤ c.storage) :
    ∃ g, supplyGalPer100 c onFract onTemp slope inlet = .ok g ∧
      max 0 (100 - usableFrom (onFract * 100) onTemp slope c.supply) ≤ g ∧
      g ≤ max 0 (100 - usableFrom (onFract * 100) onTemp slope c.supply) *
        ((c.storage - inlet) / (c.supply - inlet)) := by
  unfold supplyGalPer100 usableFrom
  have hd : 0 < c.supply - inlet := sub_pos.mpr hin
  simp only [hs.ne', if_false, hd.ne']
  set onPct := onFract * 100 with hP
  obtain ⟨u, hu⟩ : ∃ u, u = max (onPct + (c.supply - onTemp) / slope) onPct := ⟨_, rfl⟩
  obtain ⟨w, hw⟩ : ∃ w, w = onPct + (c.storage - onTemp) / slope := ⟨_, rfl⟩
  rw [← hu, ← hw]
  split
  · rename_i h
    refine ⟨0, rfl, ?_, ?_⟩ <;> rw [max_eq_left (by linarith)]
    simp
  · rename_i h
    push Not at h
    refine ⟨_, rfl, ?_⟩
    rw [max_eq_right (by linarith : (0 : K) ≤ 100 - u)]
    have huw : u ≤ w := by
      rw [hu, hw]
      apply max_le
      · have : (c.supply - onTemp) / slope ≤ (c.storage - onTemp) / slope :=
          div_le_div_of_nonneg_right (by linarith) hs.le
        linarith
      · have : 0 ≤ (c.storage - onTemp) / slope := div_nonneg (by linarith) hs.le
        linarith
    obtain ⟨v, hv⟩ : ∃ v, v = min w 100 := ⟨_, rfl⟩
    rw [← hv]
    have huv : u ≤ v := by rw [hv]; exact le_min huw h.le
    have hv100 : v ≤ 100 := by rw [hv]; exact min_le_right _ _
    have hvw : v ≤ w := by rw [hv]; exact min_le_left _ _
    rw [max_eq_right (by linarith : (0 : K) ≤ 100 - v)]
    have hlow : c.supply - inlet ≤ (onTemp - inlet) + slope * (u - onPct) := by
      have : (c.supply - onTemp) / slope ≤ u - onPct := by
        have := le_max_left (onPct + (c.supply - onTemp) / slope) onPct
        rw [← hu] at this; linarith
      rw [div_le_iff₀ hs] at this; linarith
    have hhigh : (onTemp - inlet) + slope * (v - onPct) ≤ c.storage - inlet := by
      have : v - onPct ≤ (c.storage - onTemp) / slope := by linarith
      rw [le_div_iff₀ hs] at this; linarith
    have hexp : (onTemp - inlet) * (v - onPct - (u - onPct)) +
        slope * ((v - onPct) ^ 2 - (u - onPct) ^ 2) / 2 =
        (v - u) * ((((onTemp - inlet) + slope * (u - onPct)) +
          ((onTemp - inlet) + slope * (v - onPct))) / 2) := by ring
    rw [hexp]
    have hmono : slope * (u - onPct) ≤ slope * (v - onPct) :=
      mul_le_mul_of_nonneg_left (by linarith) hs.le
    constructor
    · rw [← add_div, le_div_iff₀ hd]
      nlinarith [mul_nonneg (sub_nonneg.mpr huv) (sub_nonneg.mpr hlow),
        mul_nonneg (sub_nonneg.mpr hv100) (by linarith : 0 ≤ c.storage - c.supply),
        mul_nonneg (sub_nonneg.mpr huv) (sub_nonneg.mpr hmono)]
    · rw [← add_div, ← mul_div_assoc (100 - u), div_le_div_iff_of_pos_right hd]
      nlinarith [mul_nonneg (sub_nonneg.mpr huv) (sub_nonneg.mpr hhigh),
        mul_nonneg (sub_nonneg.mpr huv) (sub_nonneg.mpr hmono)]

/-- **C05 (zero).** No supply-temperature water is obtained exactly if the profile reaches supply
temperature at the top of the tank at the earliest; otherwise the amount is positive. -/
theorem C05_supply_gallons_zero_iff (c : SysCfg K) (onFract onTemp slope inlet : K)
    (hs : 0 < slope) (hin : inlet < c.supply) (hss : c.supply ≤ c.storage)
    (hon : onTemp ≤ c.storage) :
    supplyGalPer100 c onFract onTemp slope inlet = .ok 0 ↔
      100 ≤ usableFrom (onFract * 100) onTemp slope c.supply := by
  obtain ⟨g, hg, h1, h2⟩ := C05_supply_gallons_bounds c onFract onTemp slope inlet hs hin hss hon
  rw [hg]
  constructor
  · intro h
    obtain rfl : g = 0 := by injection h
    have := le_trans (le_max_right _ _) h1
    linarith
  · intro h
    rw [max_eq_left (by linarith)] at h1 h2
    congr 1
    apply le_antisymm _ h1
    simpa using h2

/-- **C05 (storage).** With a usable aquastat, a normal-mode sizing yields a storage volume that is
not negative and at least the running volume divided by the best possible mixing ratio. -/
theorem C05_storage_volume_ok (c : SysCfg K) (ctrl : Controls K) (rest : ControlMap K)
    (slope inlet rv : K)
    (hs : 0 < slope) (hin : inlet < c.supply) (hss : c.supply ≤ c.storage)
    (hon : ctrl.onTrig ≤ c.storage) (hf0 : 0 ≤ ctrl.onFract)
    (hus : usableFrom (ctrl.onFract * 100) ctrl.onTrig slope c.supply < 100) (hrv : 0 ≤ rv) :
    ∃ f st, stratFactor c (some (("normal", ctrl) :: rest)) slope inlet = .ok f ∧ 0 < f ∧
      f ≤ (c.storage - inlet) / (c.supply - inlet) ∧
      storageVolume rv f = .ok st ∧ 0 ≤ st ∧ st * f = rv := by
  obtain ⟨g, hg, h1, h2⟩ := C05_supply_gallons_bounds c ctrl.onFract ctrl.onTrig slope inlet hs hin hss hon
  rw [max_eq_right (by linarith)] at h1 h2
  have hgpos : 0 < g := lt_of_lt_of_le (by linarith) h1
  have hfpos : (0 : K) < g / 100 := by positivity
  refine ⟨g / 100, rv / (g / 100), ?_, hfpos, ?_, ?_, ?_, ?_⟩
  · simp [stratFactor, dictGet?, hg, bind, Except.bind, pure, Except.pure]
  · have hu0 : 0 ≤ usableFrom (ctrl.onFract * 100) ctrl.onTrig slope c.supply :=
      le_trans (by positivity) (le_max_right _ _)
    have hr : 0 ≤ (c.storage - inlet) / (c.supply - inlet) :=
      div_nonneg (by linarith) (by linarith)
    rw [div_le_iff₀ (by norm_num)]
    nlinarith
  · simp [storageVolume, fdiv, hfpos.ne']
  · positivity
  · field_simp

end bounds

/-- Non-vacuity of C05: sensor at 40 %, trigger 110 °F, slope 2.8, 120/150/50 °F. -/
example : supplyGalPer100 (⟨120, 150, 16, 1⟩ : SysCfg ℚ) (4/10) 110 (28/10) 50 = .ok (7675/98) ∧
    usableFrom (K := ℚ) 40 110 (28/10) 120 = 305/7 := by
  norm_num [supplyGalPer100, usableFrom]

/-- The restriction to triggers not above storage temperature is needed: with the trigger at 160 °F
and storage at 150 °F the code subtracts water it did not count. -/
example : supplyGalPer100 (⟨120, 150, 16, 1⟩ : SysCfg ℚ) 0 160 2 50 = .ok (285/2) ∧
    (285/2 : ℚ) < 100 * ((150 - 50) / (120 - 50)) := by
  norm_num [supplyGalPer100]

end Eco
