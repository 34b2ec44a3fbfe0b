import Verif.Props.SlugTank
import Verif.Spec.TankHeat

/-! C77: a heating cycle of the slug tank conserves heat. -/

namespace Eco
set_option linter.unusedSectionVars false
open Spec

theorem integral_Ioo_congr {f g : ℝ → ℝ} {a b : ℝ} (hab : a ≤ b) (hg : Continuous g)
    (h : ∀ x, a < x → x < b → f x = g x) :
    IntervalIntegrable f MeasureTheory.volume a b ∧ (∫ x in a..b, f x) = ∫ x in a..b, g x := by
  have hne : ∀ᵐ x : ℝ, x ≠ b := by
    rw [MeasureTheory.ae_iff]; simp
  constructor
  · apply (hg.intervalIntegrable a b).congr_ae
    rw [Filter.EventuallyEq, MeasureTheory.ae_restrict_iff' measurableSet_uIoc]
    filter_upwards [hne] with x hx hmem
    rw [Set.uIoc_of_le hab] at hmem
    exact (h x hmem.1 (lt_of_le_of_ne hmem.2 hx)).symm
  · apply intervalIntegral.integral_congr_ae
    filter_upwards [hne] with x hx hmem
    rw [Set.uIoc_of_le hab] at hmem
    exact h x hmem.1 (lt_of_le_of_ne hmem.2 hx)

/-- The zone average of the energy tank is the mean of its profile over the zone. -/
theorem zone_mean (s : EnergyTank ℝ) (hs : 0 < s.slope) (hcs : s.cold < s.storage) {lo hi : ℝ} (h0 : 0 ≤ lo)
    (hlh : lo < hi) (h1 : hi ≤ 100) :
    s.zoneAvg lo hi - s.cold = (∫ x in lo..hi, above (s.storage - s.cold) s.slope s.shift x) / (hi - lo) := by
  set dT := s.storage - s.cold with hdT
  have hd : 0 < dT := by linarith
  set sh := s.shift with hsh
  set φ : ℝ → ℝ := fun x => above dT s.slope sh x with hφ
  have hcont : Continuous φ := by simp only [hφ, above]; fun_prop
  set xC := max 0 (min 100 (-sh)) with hxC
  set xH := max 0 (min 100 (dT / s.slope - sh)) with hxH
  have hr : 0 ≤ dT / s.slope := div_nonneg hd.le hs.le
  have hCH : xC ≤ xH := max_le_max_left _ (min_le_min_left _ (by linarith))
  have hC0 : 0 ≤ xC := le_max_left _ _
  have hH1 : xH ≤ 100 := max_le (by norm_num) (min_le_left _ _)
  have hcold : ∀ x, x ≤ -sh → φ x = 0 := by
    intro x hx
    apply max_eq_left
    exact (min_le_right _ _).trans (mul_nonpos_of_nonneg_of_nonpos hs.le (by linarith))
  have hhot : ∀ x, dT / s.slope - sh ≤ x → φ x = dT := by
    intro x hx
    have : dT ≤ s.slope * (x + sh) := by
      rw [sub_le_iff_le_add, div_le_iff₀ hs] at hx
      linarith
    simp only [hφ, above]
    rw [min_eq_left this, max_eq_right hd.le]
  have hmid : ∀ x, -sh ≤ x → x ≤ dT / s.slope - sh → φ x = s.slope * sh + s.slope * x := by
    intro x h1 h2
    rw [le_sub_iff_add_le, le_div_iff₀ hs] at h2
    simp only [hφ, above]
    rw [min_eq_right (by linarith), max_eq_right (mul_nonneg hs.le (by linarith))]
    ring
  set p := max lo (min hi xC) with hp
  set q := max lo (min hi xH) with hq
  have hlp : lo ≤ p := le_max_left _ _
  have hpq : p ≤ q := max_le_max_left _ (min_le_min_left _ hCH)
  have hqh : q ≤ hi := max_le hlh.le (min_le_left _ _)
  have i (x y : ℝ) : IntervalIntegrable φ MeasureTheory.volume x y := hcont.intervalIntegrable x y
  have hsplit : ∫ x in lo..hi, φ x = (∫ x in lo..p, φ x) + (∫ x in p..q, φ x) + ∫ x in q..hi, φ x := by
    rw [intervalIntegral.integral_add_adjacent_intervals (i _ _) (i _ _),
      intervalIntegral.integral_add_adjacent_intervals (i _ _) (i _ _)]
  have e1 : ∫ x in lo..p, φ x = 0 := by
    rcases hlp.lt_or_eq with hlt | heq
    · have h2 : lo < min hi xC := by
        rcases lt_max_iff.mp hlt with h | h
        · exact absurd h (lt_irrefl _)
        · exact h
      have h3 : 0 < xC := lt_of_le_of_lt h0 (lt_of_lt_of_le h2 (min_le_right _ _))
      have h4 : xC ≤ -sh := by
        rcases lt_max_iff.mp h3 with h | h
        · exact absurd h (lt_irrefl _)
        · rw [hxC, max_eq_right h.le]; exact min_le_right _ _
      rw [intervalIntegral.integral_congr (g := fun _ => (0 : ℝ))]
      · simp
      · intro x hx
        rw [Set.uIcc_of_le hlp] at hx
        apply hcold
        refine hx.2.trans ?_
        rw [hp, max_eq_right h2.le]
        exact (min_le_right _ _).trans h4
    · rw [← heq]; simp
  have e3 : ∫ x in q..hi, φ x = dT * max 0 (hi - max lo xH) := by
    rcases hqh.lt_or_eq with hlt | heq
    · have h2 : xH < hi := by
        by_contra hc
        rw [not_lt] at hc
        rw [hq, min_eq_left hc, max_eq_right hlh.le] at hlt
        exact lt_irrefl _ hlt
      have h3 : q = max lo xH := by rw [hq, min_eq_right h2.le]
      have h4 : dT / s.slope - sh ≤ xH := by
        rcases le_total 100 (dT / s.slope - sh) with h | h
        · rw [hxH, min_eq_left h, max_eq_right (by norm_num)] at h2; linarith
        · rw [hxH, min_eq_right h]; exact le_max_right _ _
      rw [max_eq_right (by rw [← h3]; linarith), ← h3, intervalIntegral.integral_congr (g := fun _ => dT)]
      · simp; ring
      · intro x hx
        rw [Set.uIcc_of_le hqh] at hx
        apply hhot
        rw [h3] at hx
        exact h4.trans ((le_max_right _ _).trans hx.1)
    · have h2 : hi ≤ xH := by
        by_contra hc
        rw [not_le] at hc
        rw [hq, min_eq_right hc.le] at heq
        exact absurd heq (max_lt hlh hc).ne
      rw [heq, max_eq_left (by linarith [le_max_right lo xH])]
      simp
  have e2 : ∫ x in p..q, φ x = if max lo xC < min hi xH then
      s.slope / 2 * ((min hi xH + sh) ^ 2 - (max lo xC + sh) ^ 2) else 0 := by
    split
    · rename_i hlt
      have h2 : xC < hi := lt_of_le_of_lt (le_max_right _ _) (lt_of_lt_of_le hlt (min_le_left _ _))
      have h3 : p = max lo xC := by rw [hp, min_eq_right h2.le]
      have h4 : q = min hi xH := by
        rw [hq, max_eq_right]
        exact (le_max_left _ _).trans hlt.le
      have h5 : -sh ≤ xC := by
        rcases le_total 100 (-sh) with h | h
        · rw [hxC, min_eq_left h, max_eq_right (by norm_num)] at h2; linarith
        · rw [hxC, min_eq_right h]; exact le_max_right _ _
      have h6 : xH ≤ dT / s.slope - sh := by
        have : 0 < xH := lt_of_le_of_lt (h0.trans (le_max_left _ _)) (lt_of_lt_of_le hlt (min_le_right _ _))
        rcases lt_max_iff.mp this with h | h
        · exact absurd h (lt_irrefl _)
        · rw [hxH, max_eq_right h.le]; exact min_le_right _ _
      rw [intervalIntegral.integral_congr (g := fun x => s.slope * sh + s.slope * x)]
      · rw [integral_linear, h3, h4]; ring
      · intro x hx
        rw [Set.uIcc_of_le hpq] at hx
        apply hmid
        · rw [h3] at hx
          exact h5.trans ((le_max_right _ _).trans hx.1)
        · rw [h4] at hx
          exact hx.2.trans ((min_le_right _ _).trans h6)
    · rename_i hlt
      rw [not_lt] at hlt
      have : q ≤ p := by
        apply max_le hlp
        rcases le_total xC lo with h | h
        · rw [max_eq_left h] at hlt; exact hlt.trans hlp
        · rw [max_eq_right h] at hlt
          exact (le_min (min_le_left _ _) hlt).trans (le_max_right _ _)
      rw [le_antisymm hpq this]; simp
  have hw : 0 < hi - lo := by linarith
  rw [eq_div_iff hw.ne', hsplit, e1, e2, e3]
  unfold EnergyTank.zoneAvg
  simp only
  rw [if_neg (not_le.mpr hlh), ← hdT, if_pos hd, ← hsh, ← hxC, ← hxH, sub_mul, div_mul_cancel₀ _ hw.ne',
    min_eq_left h1, max_eq_left h0]
  have hst : s.storage = dT + s.cold := by linarith
  rw [hst]
  have hsum : max 0 (min hi xC - lo) + (if max lo xC < min hi xH then min hi xH - max lo xC else 0) +
      max 0 (hi - max lo xH) = hi - lo := by
    split
    · rename_i hlt
      have h2 : xC < hi := lt_of_le_of_lt (le_max_right _ _) (lt_of_lt_of_le hlt (min_le_left _ _))
      have h3 : lo < xH := lt_of_le_of_lt (le_max_left _ _) (lt_of_lt_of_le hlt (min_le_right _ _))
      rw [min_eq_right h2.le, max_eq_right h3.le]
      have a1 : max 0 (xC - lo) = max lo xC - lo := by
        rcases le_total xC lo with h | h
        · rw [max_eq_left h, max_eq_left (by linarith)]; ring
        · rw [max_eq_right h, max_eq_right (by linarith)]
      have a2 : max 0 (hi - xH) = hi - min hi xH := by
        rcases le_total xH hi with h | h
        · rw [min_eq_right h, max_eq_right (by linarith)]
        · rw [min_eq_left h, max_eq_left (by linarith)]; ring
      rw [a1, a2]; ring
    · rename_i hlt
      rw [not_lt] at hlt
      rcases le_total hi xC with h | h
      · rw [min_eq_left h, max_eq_right (by linarith), max_eq_left]
        · ring
        · linarith [le_max_right lo xH]
      · rw [min_eq_right h]
        rcases le_total xC lo with h5 | h5
        · rw [max_eq_left (by linarith)]
          rw [max_eq_left h5] at hlt
          have : xH ≤ lo := by
            rcases le_total hi xH with h6 | h6
            · rw [min_eq_left h6] at hlt; linarith
            · rw [min_eq_right h6] at hlt; exact hlt
          rw [max_eq_left this, max_eq_right (by linarith)]; ring
        · rw [max_eq_right h5] at hlt
          rw [max_eq_right (by linarith)]
          rcases le_total hi xH with h6 | h6
          · rw [min_eq_left h6] at hlt
            rw [max_eq_right (by linarith : lo ≤ xH), max_eq_left (by linarith)]; linarith
          · rw [min_eq_right h6] at hlt
            rw [le_antisymm hlt hCH, max_eq_right h5, max_eq_right (by linarith)]; ring
  by_cases hlt : max lo xC < min hi xH
  · rw [if_pos hlt] at hsum ⊢
    rw [if_pos hlt]
    linear_combination s.cold * hsum
  · rw [if_neg hlt] at hsum ⊢
    rw [if_neg hlt]
    linear_combination s.cold * hsum

/-- The height [%] of the slug top at the start of the cycle. -/
noncomputable def SlugTank.bottom (s : SlugTank ℝ) : ℝ := s.base.coldPct + s.orig / s.base.vol * 100

/-- The height [%] by which the slug has grown. -/
noncomputable def SlugTank.growth (s : SlugTank ℝ) : ℝ := (s.slugVol - s.orig) / s.base.vol * 100

/-- A slug tank in a heating cycle, with its slug between cold and storage temperature. -/
structure SlugTank.Cycle (s : SlugTank ℝ) : Prop where
  ok : s.Ok
  slopeOk : 0 < s.base.slope
  coldOk : s.base.cold < s.base.storage
  activeOk : s.active = true
  lowOk : s.base.cold ≤ s.slugTemp
  highOk : s.slugTemp ≤ s.base.storage

/-- The profile above cold of the base tank. -/
noncomputable def SlugTank.phi (s : SlugTank ℝ) (x : ℝ) : ℝ :=
  above (s.base.storage - s.base.cold) s.base.slope s.base.shift x

theorem phi_continuous (s : SlugTank ℝ) : Continuous s.phi := by
  have : s.phi = fun x => above (s.base.storage - s.base.cold) s.base.slope s.base.shift x := rfl
  rw [this]; unfold above; fun_prop

theorem base_tempAt_phi (s : SlugTank ℝ) {f : ℝ} (hf : s.base.coldPct ≤ f * 100) :
    s.base.tempAt f - s.base.cold = s.phi (f * 100) := by
  unfold EnergyTank.tempAt SlugTank.phi above
  simp only
  rw [if_neg (not_lt.mpr hf), ← max_sub_sub_right, ← min_sub_sub_right, sub_self, add_sub_cancel_right]

theorem cycle_geometry (s : SlugTank ℝ) (h : s.Cycle) :
    0 ≤ s.base.coldPct ∧ s.base.coldPct ≤ s.bottom ∧ s.slugTop = s.bottom + s.growth ∧ 0 ≤ s.growth ∧
    s.slugTop ≤ 100 ∧ s.slugTop - s.base.coldPct = s.slugVol / s.base.vol * 100 ∧
    100 - s.slugTop = (s.maxUsable - s.slugVol) / s.base.vol * 100 := by
  obtain ⟨o1, o2, o3, o4⟩ := h.ok.slugOk h.activeOk
  have hv := h.ok.volOk
  have ht := top_full s h.ok
  have hg : 0 ≤ s.growth := by
    unfold SlugTank.growth
    exact mul_nonneg (div_nonneg (by linarith) hv.le) (by norm_num)
  refine ⟨?_, ?_, ?_, hg, ?_, ?_, ?_⟩
  · rw [h.ok.coldPctOk]; nlinarith [h.ok.puOk']
  · unfold SlugTank.bottom
    have : 0 ≤ s.orig / s.base.vol * 100 := mul_nonneg (div_nonneg o1 hv.le) (by norm_num)
    linarith
  · rw [o4]; unfold SlugTank.bottom SlugTank.growth; ring
  · rw [o4]
    have : s.slugVol / s.base.vol ≤ s.maxUsable / s.base.vol := div_le_div_of_nonneg_right o3 hv.le
    linarith
  · rw [o4]; ring
  · rw [o4]; linear_combination -ht

theorem tempAt_low (s : SlugTank ℝ) (h : s.Cycle) {x : ℝ} (hx : x < s.base.coldPct) :
    s.tempAt (x * (1 / 100)) - s.base.cold = 0 := by
  unfold SlugTank.tempAt
  simp only [h.activeOk, Bool.not_true, Bool.false_eq_true, if_false]
  rw [show x * (1 / 100) * 100 = x by ring, if_pos hx, sub_self]

theorem tempAt_mid (s : SlugTank ℝ) (h : s.Cycle) {x : ℝ} (h1 : s.base.coldPct ≤ x) (h2 : x ≤ s.slugTop) :
    s.tempAt (x * (1 / 100)) - s.base.cold = s.slugTemp - s.base.cold := by
  unfold SlugTank.tempAt
  simp only [h.activeOk, Bool.not_true, Bool.false_eq_true, if_false]
  rw [show x * (1 / 100) * 100 = x by ring, if_neg (not_lt.mpr h1), if_pos h2, min_eq_right h.highOk,
    max_eq_right h.lowOk]

theorem tempAt_high (s : SlugTank ℝ) (h : s.Cycle) {x : ℝ} (h2 : s.slugTop < x) :
    s.tempAt (x * (1 / 100)) - s.base.cold = s.phi (x - s.growth) := by
  obtain ⟨g1, g2, g3, g4, g5, _, _⟩ := cycle_geometry s h
  have e : (x * (1 / 100) - (s.slugVol - s.orig) / s.base.vol) * 100 = x - s.growth := by
    unfold SlugTank.growth; ring
  unfold SlugTank.tempAt
  simp only [h.activeOk, Bool.not_true, Bool.false_eq_true, if_false]
  rw [show x * (1 / 100) * 100 = x by ring, if_neg (by linarith), if_neg (not_le.mpr h2),
    base_tempAt_phi _ (by rw [e]; linarith), e]

theorem scaled (F : ℝ → ℝ) (a b : ℝ) :
    (∫ f in a..b, F f) = 1 / 100 * ∫ x in (a * 100)..(b * 100), F (x * (1 / 100)) := by
  rw [intervalIntegral.integral_comp_mul_right F (by norm_num : (1 / 100 : ℝ) ≠ 0), smul_eq_mul]
  norm_num
  ring_nf

/-- The heat content of the reported profile in a cycle: the slug's heat and the heat of the water above it. -/
theorem cycle_content (s : SlugTank ℝ) (h : s.Cycle) :
    tankHeat s.base.vol s.base.cold s.tempAt = rhoCp ℝ * s.slugVol * (s.slugTemp - s.base.cold) +
      rhoCp ℝ * s.base.vol / 100 * ∫ x in s.bottom..(100 - s.growth), s.phi x := by
  obtain ⟨g1, g2, g3, g4, g5, g6, _⟩ := cycle_geometry s h
  have hv := h.ok.volOk
  unfold tankHeat
  rw [scaled, zero_mul, one_mul]
  have j1 := integral_Ioo_congr (f := fun x => s.tempAt (x * (1 / 100)) - s.base.cold) g1
    (continuous_const (y := (0 : ℝ))) (fun x _ hx => tempAt_low s h hx)
  have j2 := integral_Ioo_congr (f := fun x => s.tempAt (x * (1 / 100)) - s.base.cold)
    (show s.base.coldPct ≤ s.slugTop by linarith)
    (continuous_const (y := s.slugTemp - s.base.cold)) (fun x h1 h2 => tempAt_mid s h h1.le h2.le)
  have j3 := integral_Ioo_congr (f := fun x => s.tempAt (x * (1 / 100)) - s.base.cold) (g := fun x => s.phi (x - s.growth))
    g5 ((phi_continuous s).comp (continuous_id.sub continuous_const)) (fun x h1 _ => tempAt_high s h h1)
  rw [← intervalIntegral.integral_add_adjacent_intervals (j1.1.trans j2.1) j3.1,
    ← intervalIntegral.integral_add_adjacent_intervals j1.1 j2.1, j1.2, j2.2, j3.2,
    intervalIntegral.integral_comp_sub_right (fun y => s.phi y), g3, add_sub_cancel_right]
  simp only [intervalIntegral.integral_zero, intervalIntegral.integral_const, smul_eq_mul, zero_add]
  rw [← g3, g6]
  field_simp

/-- The heat of the water on top of the tank in a cycle, when the draw stays above the slug. -/
theorem top_above (s : SlugTank ℝ) (h : s.Cycle) (gal : ℝ) (hg : 0 ≤ gal) (hle : gal ≤ s.maxUsable - s.slugVol) :
    (∫ f in (1 - gal / s.base.vol)..1, (s.tempAt f - s.base.cold)) =
      1 / 100 * ∫ x in (100 - s.growth - gal / s.base.vol * 100)..(100 - s.growth), s.phi x := by
  obtain ⟨g1, g2, g3, g4, g5, g6, g7⟩ := cycle_geometry s h
  have hv := h.ok.volOk
  have hgv : gal / s.base.vol * 100 ≤ 100 - s.slugTop := by
    rw [g7]
    have : gal / s.base.vol ≤ (s.maxUsable - s.slugVol) / s.base.vol := div_le_div_of_nonneg_right hle hv.le
    linarith
  have hg0 : 0 ≤ gal / s.base.vol := div_nonneg hg hv.le
  rw [scaled]
  have j3 := integral_Ioo_congr (f := fun x => s.tempAt (x * (1 / 100)) - s.base.cold) (g := fun x => s.phi (x - s.growth))
    (show (1 - gal / s.base.vol) * 100 ≤ 1 * 100 by linarith)
    ((phi_continuous s).comp (continuous_id.sub continuous_const)) (fun x h1 _ => tempAt_high s h (by linarith))
  rw [j3.2, intervalIntegral.integral_comp_sub_right (fun y => s.phi y)]
  congr 2 <;> ring

/-- The same when the draw reaches into the slug. -/
theorem top_into_slug (s : SlugTank ℝ) (h : s.Cycle) (gal : ℝ) (hlt : s.maxUsable - s.slugVol < gal)
    (hle : gal ≤ s.maxUsable) :
    (∫ f in (1 - gal / s.base.vol)..1, (s.tempAt f - s.base.cold)) =
      (gal - (s.maxUsable - s.slugVol)) / s.base.vol * (s.slugTemp - s.base.cold) +
      1 / 100 * ∫ x in s.bottom..(100 - s.growth), s.phi x := by
  obtain ⟨g1, g2, g3, g4, g5, g6, g7⟩ := cycle_geometry s h
  have hv := h.ok.volOk
  have hgv : 100 - s.slugTop ≤ gal / s.base.vol * 100 := by
    rw [g7]
    have : (s.maxUsable - s.slugVol) / s.base.vol ≤ gal / s.base.vol := div_le_div_of_nonneg_right hlt.le hv.le
    linarith
  have hgm : gal / s.base.vol * 100 ≤ 100 - s.base.coldPct := by
    have ht := top_full s h.ok
    have : gal / s.base.vol ≤ s.maxUsable / s.base.vol := div_le_div_of_nonneg_right hle hv.le
    linarith
  rw [scaled]
  have j2 := integral_Ioo_congr (f := fun x => s.tempAt (x * (1 / 100)) - s.base.cold)
    (show (1 - gal / s.base.vol) * 100 ≤ s.slugTop by linarith)
    (continuous_const (y := s.slugTemp - s.base.cold)) (fun x h1 h2 => tempAt_mid s h (by linarith) h2.le)
  have j3 := integral_Ioo_congr (f := fun x => s.tempAt (x * (1 / 100)) - s.base.cold) (g := fun x => s.phi (x - s.growth))
    (show s.slugTop ≤ 1 * 100 by linarith)
    ((phi_continuous s).comp (continuous_id.sub continuous_const)) (fun x h1 _ => tempAt_high s h h1)
  rw [← intervalIntegral.integral_add_adjacent_intervals j2.1 j3.1, j2.2, j3.2,
    intervalIntegral.integral_comp_sub_right (fun y => s.phi y), one_mul]
  have e : s.slugTop - s.growth = s.bottom := by rw [g3]; ring
  rw [e]
  simp only [intervalIntegral.integral_const, smul_eq_mul]
  have e2 : s.slugTop - (1 - gal / s.base.vol) * 100 = (gal - (s.maxUsable - s.slugVol)) / s.base.vol * 100 := by
    rw [sub_div]; linarith
  rw [e2]; ring

/-- The mean temperature of the top of the tank, relative to cold, times its volume. -/
theorem topMean_eq (vol cold gal : ℝ) (hv : 0 < vol) (hg : 0 < gal) (temp : ℝ → ℝ)
    (hi : IntervalIntegrable (fun f => temp f - cold) MeasureTheory.volume (1 - gal / vol) 1) :
    gal * (topMean vol temp gal - cold) = vol * ∫ f in (1 - gal / vol)..1, (temp f - cold) := by
  have e : (∫ f in (1 - gal / vol)..1, temp f) = (∫ f in (1 - gal / vol)..1, (temp f - cold)) + gal / vol * cold := by
    have h1 : (∫ f in (1 - gal / vol)..1, temp f) = ∫ f in (1 - gal / vol)..1, ((temp f - cold) + cold) := by simp
    rw [h1, intervalIntegral.integral_add hi (intervalIntegrable_const (μ := MeasureTheory.volume))]
    simp only [intervalIntegral.integral_const, smul_eq_mul]
    ring
  unfold topMean
  rw [e]
  field_simp
  ring

/-- **C56 (physical draw).** A physical draw that does not reach the inlet pipe takes out the heat of the water on top
of the tank's reported temperature profile, relative to the make-up water, and never more than the tank holds. -/
theorem C56_physical_draw (s : EnergyTank ℝ) (h : s.Phys) (hcs : s.cold < s.storage) (gal inlet : ℝ) (u : Bool)
    (hu : u = true → inlet = s.cold) (hg : 0 < gal) (hgv : gal ≤ (1 - s.coldPct / 100) * s.vol) :
    (s.drawPhysical gal inlet u).energy =
      max 0 (s.energy - gal * rhoCp ℝ * max 0 (topMean s.vol s.tempAt gal - inlet)) := by
  have hv := h.volOk
  have hq0 : 0 < gal / s.vol := div_pos hg hv
  have hq1 : gal / s.vol ≤ 1 - s.coldPct / 100 := by rwa [div_le_iff₀ hv]
  have hp0 := h.pctOk
  have hgv' : gal ≤ s.vol := by
    refine hgv.trans ?_
    nlinarith
  set a := 100 - gal / s.vol * 100 with ha
  have ha0 : s.coldPct ≤ a := by rw [ha]; linarith
  have ha1 : a < 100 := by rw [ha]; linarith
  have hmean : topMean s.vol s.tempAt gal = s.avgDraw gal := by
    have hz : s.avgDraw gal = s.zoneAvg a 100 := by
      unfold EnergyTank.avgDraw
      simp only [min_eq_left hgv']
      rw [if_neg (not_le.mpr hg), max_eq_right (by linarith)]
    have hmz := zone_mean s h.slopeOk hcs (lo := a) (hi := 100) (by linarith) ha1 le_rfl
    rw [← hz] at hmz
    have hcont : Continuous fun f : ℝ => above (s.storage - s.cold) s.slope s.shift (f * 100) := by
      unfold above; fun_prop
    have hj := integral_Ioo_congr (f := fun f => s.tempAt f - s.cold) (a := 1 - gal / s.vol) (b := 1) (by linarith) hcont
      (fun f h1 _ => by
        have hn : ¬ f * 100 < s.coldPct := not_lt.mpr (by linarith)
        simp only [EnergyTank.tempAt, above]
        rw [if_neg hn, ← max_sub_sub_right, ← min_sub_sub_right, sub_self, add_sub_cancel_right])
    have ht := topMean_eq s.vol s.cold gal hv hg s.tempAt hj.1
    rw [hj.2, intervalIntegral.integral_comp_mul_right (fun x => above (s.storage - s.cold) s.slope s.shift x)
      (by norm_num : (100:ℝ) ≠ 0), one_mul, smul_eq_mul, show (1 - gal / s.vol) * 100 = a by rw [ha]; ring] at ht
    have hw : (100 : ℝ) - a = gal / s.vol * 100 := by rw [ha]; ring
    rw [hw] at hmz
    have h2 : gal * (topMean s.vol s.tempAt gal - s.cold) = gal * (s.avgDraw gal - s.cold) := by
      rw [ht, hmz]; field_simp
    linarith [mul_left_cancel₀ hg.ne' h2]
  have hs : (if u then { s with cold := inlet } else s) = s := by
    cases u
    · rfl
    · rw [hu rfl]; rfl
  unfold EnergyTank.drawPhysical
  simp only [hs]
  rw [if_neg (not_le.mpr hg), hmean]

/-- Non-vacuity of C56 (physical draw). -/
example : (EnergyTank.new (100 : ℝ) 50 150 (28 / 10)).Phys ∧
    (30 : ℝ) ≤ (1 - (EnergyTank.new (100 : ℝ) 50 150 (28 / 10)).coldPct / 100) * (EnergyTank.new (100 : ℝ) 50 150 (28 / 10)).vol := by
  refine ⟨⟨?_, ?_, ?_, ?_, ?_⟩, ?_⟩ <;> norm_num [EnergyTank.new]

/-- The reported profile of a cycle can be integrated over any part above the inlet pipe. -/
theorem cycle_integrable (s : SlugTank ℝ) (h : s.Cycle) {a : ℝ} (ha : s.base.coldPct ≤ a * 100) (ha1 : a ≤ 1) :
    IntervalIntegrable (fun f => s.tempAt f - s.base.cold) MeasureTheory.volume a 1 := by
  obtain ⟨g1, g2, g3, g4, g5, g6, g7⟩ := cycle_geometry s h
  have hcomp : Continuous fun f : ℝ => s.phi (f * 100 - s.growth) :=
    (phi_continuous s).comp ((continuous_id.mul continuous_const).sub continuous_const)
  have hhigh : ∀ f : ℝ, s.slugTop < f * 100 → s.tempAt f - s.base.cold = s.phi (f * 100 - s.growth) := by
    intro f hf
    have := tempAt_high s h hf
    rwa [show f * 100 * (1 / 100) = f by ring] at this
  have hmid : ∀ f : ℝ, s.base.coldPct ≤ f * 100 → f * 100 ≤ s.slugTop →
      s.tempAt f - s.base.cold = s.slugTemp - s.base.cold := by
    intro f h1 h2
    have := tempAt_mid s h h1 h2
    rwa [show f * 100 * (1 / 100) = f by ring] at this
  rcases le_total (s.slugTop / 100) a with hc | hc
  · exact (integral_Ioo_congr (f := fun f => s.tempAt f - s.base.cold) ha1 hcomp
      (fun f h1 _ => hhigh f (by linarith))).1
  · have j2 := (integral_Ioo_congr (f := fun f => s.tempAt f - s.base.cold) hc
      (continuous_const (y := s.slugTemp - s.base.cold)) (fun f h1 h2 => hmid f (by linarith) (by linarith))).1
    have j3 := (integral_Ioo_congr (f := fun f => s.tempAt f - s.base.cold) (show s.slugTop / 100 ≤ 1 by linarith) hcomp
      (fun f h1 _ => hhigh f (by linarith))).1
    exact j2.trans j3

/-! ## C77 -/

/-- **C77 (start).** Starting a heating cycle does not change the heat content of the tank. -/
theorem C77_activate (s : SlugTank ℝ) (h : s.Ok) (hs : 0 < s.base.slope) (hcs : s.base.cold < s.base.storage)
    (ha : s.active = false) (t : ℝ) :
    (s.activate t).Cycle ∧
    tankHeat s.base.vol s.base.cold (s.activate t).tempAt = tankHeat s.base.vol s.base.cold s.tempAt := by
  have hv := h.volOk
  have hcp : 0 ≤ s.base.coldPct ∧ s.base.coldPct ≤ 100 := by
    rw [h.coldPctOk]; constructor <;> nlinarith [h.puOk, h.puOk']
  set x := max s.base.coldPct (min 100 ((t - s.base.cold) / s.base.slope - s.base.shift)) with hx
  have hx0 : s.base.coldPct ≤ x := le_max_left _ _
  have hx1 : x ≤ 100 := max_le hcp.2 (min_le_left _ _)
  have hvx : max 0 ((x - s.base.coldPct) / 100 * s.base.vol) = (x - s.base.coldPct) / 100 * s.base.vol :=
    max_eq_right (mul_nonneg (div_nonneg (by linarith) (by norm_num)) hv.le)
  have hact : s.activate t = { s with
      active := true
      slugVol := (x - s.base.coldPct) / 100 * s.base.vol
      slugTemp := if 0 < (x - s.base.coldPct) / 100 * s.base.vol then s.base.zoneAvg s.base.coldPct x else s.base.cold
      slugTop := s.topOf ((x - s.base.coldPct) / 100 * s.base.vol)
      orig := (x - s.base.coldPct) / 100 * s.base.vol } := by
    unfold SlugTank.activate
    simp only [ha, Bool.false_eq_true, if_false, ← hx, hvx]
  have hphi0 : ∀ y, 0 ≤ s.phi y := fun y => le_max_left _ _
  have hphi1 : ∀ y, s.phi y ≤ s.base.storage - s.base.cold := fun y => max_le (by linarith) (min_le_left _ _)
  have i (a b : ℝ) : IntervalIntegrable s.phi MeasureTheory.volume a b := (phi_continuous s).intervalIntegrable a b
  have hmean : s.base.coldPct < x →
      s.base.zoneAvg s.base.coldPct x - s.base.cold = (∫ y in s.base.coldPct..x, s.phi y) / (x - s.base.coldPct) :=
    fun hlt => zone_mean s.base hs hcs hcp.1 hlt hx1
  have hpos : 0 < (x - s.base.coldPct) / 100 * s.base.vol ↔ s.base.coldPct < x := by
    rw [mul_pos_iff_of_pos_right hv, div_pos_iff_of_pos_right (by norm_num), sub_pos]
  have hslug : ((x - s.base.coldPct) / 100 * s.base.vol) * ((if 0 < (x - s.base.coldPct) / 100 * s.base.vol then
      s.base.zoneAvg s.base.coldPct x else s.base.cold) - s.base.cold) =
      s.base.vol / 100 * ∫ y in s.base.coldPct..x, s.phi y := by
    rcases hx0.lt_or_eq with hlt | heq
    · have hw : x - s.base.coldPct ≠ 0 := by linarith
      rw [if_pos (hpos.mpr hlt), hmean hlt]
      field_simp
    · rw [← heq]; simp
  have hcyc : (s.activate t).Cycle := by
    refine ⟨activate_ok s h t, ?_, ?_, ?_, ?_, ?_⟩
    · rw [hact]; exact hs
    · rw [hact]; exact hcs
    · rw [hact]
    · rw [hact]
      simp only
      split
      · rename_i hp
        rw [hpos] at hp
        have h2 := hmean hp
        have h3 : 0 ≤ (∫ y in s.base.coldPct..x, s.phi y) / (x - s.base.coldPct) :=
          div_nonneg (intervalIntegral.integral_nonneg hx0 (fun y _ => hphi0 y)) (by linarith)
        linarith
      · exact le_rfl
    · rw [hact]
      simp only
      split
      · rename_i hp
        rw [hpos] at hp
        have h2 := hmean hp
        have h3 : (∫ y in s.base.coldPct..x, s.phi y) / (x - s.base.coldPct) ≤ s.base.storage - s.base.cold := by
          rw [div_le_iff₀ (by linarith)]
          have := intervalIntegral.integral_mono_on hx0 (i _ _)
            (intervalIntegrable_const (c := s.base.storage - s.base.cold) (μ := MeasureTheory.volume)) (fun y _ => hphi1 y)
          simp only [intervalIntegral.integral_const, smul_eq_mul] at this
          linarith
        linarith
      · exact hcs.le
  refine ⟨hcyc, ?_⟩
  have hc := cycle_content _ hcyc
  have hb : (s.activate t).base = s.base := by rw [hact]
  have hbot : (s.activate t).bottom = x := by
    unfold SlugTank.bottom; rw [hact]; simp only; field_simp; ring
  have hgr : (s.activate t).growth = 0 := by
    unfold SlugTank.growth; rw [hact]; simp
  have hph : (s.activate t).phi = s.phi := by unfold SlugTank.phi; rw [hb]
  have hsv : rhoCp ℝ * (s.activate t).slugVol * ((s.activate t).slugTemp - s.base.cold) =
      rhoCp ℝ * (s.base.vol / 100 * ∫ y in s.base.coldPct..x, s.phi y) := by
    rw [← hslug, hact]; ring
  rw [hb, hbot, hgr, hph, hsv, sub_zero] at hc
  rw [hc]
  have hin : tankHeat s.base.vol s.base.cold s.tempAt =
      rhoCp ℝ * s.base.vol / 100 * ∫ y in s.base.coldPct..100, s.phi y := by
    have hphys : s.base.Phys := ⟨hv, hs, hcs.le, hcp.1, hcp.2⟩
    have e : s.tempAt = s.base.tempAt := by
      funext f; unfold SlugTank.tempAt; simp [ha]
    unfold tankHeat
    rw [e, profile_content s.base hphys, C57_energy_is_integral s.base hphys]
    rfl
  rw [hin, ← intervalIntegral.integral_add_adjacent_intervals (i s.base.coldPct x) (i x 100)]
  ring

/-- **C77 (heating).** A heating step in a cycle adds exactly its heat to the heat content of the tank, as long as
the slug holds water and stays at or below storage temperature. -/
theorem C77_heat (s : SlugTank ℝ) (h : s.Cycle) (hv : 0 < s.slugVol) (kbtuh dur : ℝ) (hk : 0 ≤ kbtuh) (hd : 0 ≤ dur)
    (hcool : (s.heatSlug kbtuh dur).slugTemp ≤ s.base.storage) :
    (s.heatSlug kbtuh dur).Cycle ∧ tankHeat s.base.vol s.base.cold (s.heatSlug kbtuh dur).tempAt =
      tankHeat s.base.vol s.base.cold s.tempAt + 1000 * kbtuh * (dur / 60) := by
  obtain ⟨e1, e2⟩ := C62_add_heat s h.activeOk hv kbtuh dur hk
  have hr := rhoCp_pos (K := ℝ)
  have hsame : (s.heatSlug kbtuh dur).base = s.base ∧ (s.heatSlug kbtuh dur).active = s.active ∧
      (s.heatSlug kbtuh dur).orig = s.orig := by
    unfold SlugTank.heatSlug; split <;> simp
  obtain ⟨b1, b2, b3⟩ := hsame
  have hup : s.slugTemp ≤ (s.heatSlug kbtuh dur).slugTemp := by
    have h1 : 0 ≤ 1000 * kbtuh * (dur / 60) := by positivity
    rw [e1] at e2
    have hp : 0 < s.slugVol * rhoCp ℝ := mul_pos hv hr
    nlinarith
  have hcyc : (s.heatSlug kbtuh dur).Cycle :=
    ⟨heat_ok s h.ok kbtuh dur, by rw [b1]; exact h.slopeOk, by rw [b1]; exact h.coldOk, by rw [b2]; exact h.activeOk,
      by rw [b1]; exact h.lowOk.trans hup, by rw [b1]; exact hcool⟩
  refine ⟨hcyc, ?_⟩
  have c1 := cycle_content _ hcyc
  have c2 := cycle_content _ h
  have f1 : (s.heatSlug kbtuh dur).bottom = s.bottom := by unfold SlugTank.bottom; rw [b1, b3]
  have f2 : (s.heatSlug kbtuh dur).growth = s.growth := by unfold SlugTank.growth; rw [b1, b3, e1]
  have f3 : (s.heatSlug kbtuh dur).phi = s.phi := by unfold SlugTank.phi; rw [b1]
  rw [b1, f1, f2, f3] at c1
  rw [c1, c2]
  rw [e1] at e2 ⊢
  linear_combination e2

/-- **C77 (draw).** A draw in a cycle of at most the usable tank removes exactly the heat of the water on top of
the tank and brings in the heat of the make-up water. -/
theorem C77_draw (s : SlugTank ℝ) (h : s.Cycle) (gal inlet : ℝ) (u : Bool) (hg : 0 < gal) (hgm : gal ≤ s.maxUsable)
    (hi0 : s.base.cold ≤ inlet) (hi1 : inlet ≤ s.base.storage) :
    (s.drawPhysical gal inlet u).Cycle ∧ tankHeat s.base.vol s.base.cold (s.drawPhysical gal inlet u).tempAt =
      tankHeat s.base.vol s.base.cold s.tempAt - gal * rhoCp ℝ * (topMean s.base.vol s.tempAt gal - inlet) := by
  obtain ⟨o1, o2, o3, o4⟩ := h.ok.slugOk h.activeOk
  obtain ⟨g1, g2, g3, g4, g5, g6, g7⟩ := cycle_geometry s h
  have hv := h.ok.volOk
  have hok := draw_ok s h.ok gal inlet u
  have i (a b : ℝ) : IntervalIntegrable s.phi MeasureTheory.volume a b := (phi_continuous s).intervalIntegrable a b
  have hgm' : gal / s.base.vol * 100 ≤ 100 - s.base.coldPct := by
    have ht := top_full s h.ok
    have : gal / s.base.vol ≤ s.maxUsable / s.base.vol := div_le_div_of_nonneg_right hgm hv.le
    linarith
  have htop := topMean_eq s.base.vol s.base.cold gal hv hg s.tempAt
    (cycle_integrable s h (by linarith) (by linarith [div_nonneg hg.le hv.le]))
  have c2 := cycle_content _ h
  rcases draw_active s h.ok h.activeOk gal inlet u with ⟨hz, _⟩ | ⟨_, hle, e⟩ | ⟨_, hlt, e⟩
  · linarith
  · have hsv : 0 < s.slugVol + gal := by linarith
    have hT : s.base.cold ≤ (s.slugVol * s.slugTemp + gal * inlet) / (s.slugVol + gal) ∧
        (s.slugVol * s.slugTemp + gal * inlet) / (s.slugVol + gal) ≤ s.base.storage := by
      have hsv0 : 0 ≤ s.slugVol := by linarith
      constructor
      · rw [le_div_iff₀ hsv]; nlinarith [mul_le_mul_of_nonneg_left h.lowOk hsv0]
      · rw [div_le_iff₀ hsv]; nlinarith [mul_le_mul_of_nonneg_left h.highOk hsv0]
    rw [e] at hok ⊢
    have hcyc : SlugTank.Cycle { s with
        slugTemp := (s.slugVol * s.slugTemp + gal * inlet) / (s.slugVol + gal)
        slugVol := s.slugVol + gal
        slugTop := s.base.coldPct + (s.slugVol + gal) / s.base.vol * 100 } :=
      ⟨hok, h.slopeOk, h.coldOk, h.activeOk, hT.1, hT.2⟩
    refine ⟨hcyc, ?_⟩
    have c1 := cycle_content _ hcyc
    have f2 : SlugTank.growth { s with
        slugTemp := (s.slugVol * s.slugTemp + gal * inlet) / (s.slugVol + gal)
        slugVol := s.slugVol + gal
        slugTop := s.base.coldPct + (s.slugVol + gal) / s.base.vol * 100 } = s.growth + gal / s.base.vol * 100 := by
      unfold SlugTank.growth; simp only; ring
    rw [f2] at c1
    have f1 : SlugTank.bottom { s with
        slugTemp := (s.slugVol * s.slugTemp + gal * inlet) / (s.slugVol + gal)
        slugVol := s.slugVol + gal
        slugTop := s.base.coldPct + (s.slugVol + gal) / s.base.vol * 100 } = s.bottom := rfl
    have f3 : SlugTank.phi { s with
        slugTemp := (s.slugVol * s.slugTemp + gal * inlet) / (s.slugVol + gal)
        slugVol := s.slugVol + gal
        slugTop := s.base.coldPct + (s.slugVol + gal) / s.base.vol * 100 } = s.phi := rfl
    rw [f1, f3] at c1
    simp only at c1
    rw [c1, c2]
    rw [top_above s h gal hg.le hle] at htop
    have hadd := intervalIntegral.integral_add_adjacent_intervals (i s.bottom (100 - s.growth - gal / s.base.vol * 100))
      (i (100 - s.growth - gal / s.base.vol * 100) (100 - s.growth))
    rw [← hadd]
    have e3 : (s.slugVol + gal) * ((s.slugVol * s.slugTemp + gal * inlet) / (s.slugVol + gal) - s.base.cold) =
        s.slugVol * s.slugTemp + gal * inlet - (s.slugVol + gal) * s.base.cold := by
      rw [mul_sub, mul_div_cancel₀ _ hsv.ne']
    rw [show 100 - (s.growth + gal / s.base.vol * 100) = 100 - s.growth - gal / s.base.vol * 100 by ring]
    linear_combination rhoCp ℝ * e3 + rhoCp ℝ * htop
  · have hm : 0 < s.maxUsable := by linarith
    set T := (if s.maxUsable ≤ gal then inlet else ((s.maxUsable - gal) * s.slugTemp + gal * inlet) / s.maxUsable) with hT
    have e3 : s.maxUsable * T = (s.maxUsable - gal) * s.slugTemp + gal * inlet := by
      rw [hT]
      split
      · rename_i hx
        rw [le_antisymm hgm hx]; ring
      · rw [mul_div_cancel₀ _ hm.ne']
    have hT2 : s.base.cold ≤ T ∧ T ≤ s.base.storage := by
      have hsv0 : 0 ≤ s.maxUsable - gal := by linarith
      constructor
      · rw [← mul_le_mul_iff_right₀ hm, e3]
        nlinarith [mul_le_mul_of_nonneg_left h.lowOk hsv0]
      · rw [← mul_le_mul_iff_right₀ hm, e3]
        nlinarith [mul_le_mul_of_nonneg_left h.highOk hsv0]
    rw [e] at hok ⊢
    have hcyc : SlugTank.Cycle { s with slugTemp := T, slugVol := s.maxUsable, slugTop := 100 } :=
      ⟨hok, h.slopeOk, h.coldOk, h.activeOk, hT2.1, hT2.2⟩
    refine ⟨hcyc, ?_⟩
    have c1 := cycle_content _ hcyc
    have f2 : 100 - SlugTank.growth { s with slugTemp := T, slugVol := s.maxUsable, slugTop := 100 } = s.bottom := by
      have ht := top_full s h.ok
      unfold SlugTank.growth SlugTank.bottom
      simp only
      rw [sub_div]
      linarith
    have f1 : SlugTank.bottom { s with slugTemp := T, slugVol := s.maxUsable, slugTop := 100 } = s.bottom := rfl
    rw [f1, f2, intervalIntegral.integral_same, mul_zero, add_zero] at c1
    simp only at c1
    rw [c1, c2]
    rw [top_into_slug s h gal hlt hgm] at htop
    have e4 : s.base.vol * ((gal - (s.maxUsable - s.slugVol)) / s.base.vol * (s.slugTemp - s.base.cold) +
        1 / 100 * ∫ x in s.bottom..(100 - s.growth), s.phi x) =
        (gal - (s.maxUsable - s.slugVol)) * (s.slugTemp - s.base.cold) +
        s.base.vol / 100 * ∫ x in s.bottom..(100 - s.growth), s.phi x := by
      field_simp
    rw [e4] at htop
    linear_combination rhoCp ℝ * e3 + rhoCp ℝ * htop

/-- **C77 (end).** Ending a cycle stores exactly the heat content of the tank. -/
theorem C77_deactivate (s : SlugTank ℝ) (h : s.Cycle) :
    s.deactivate.base.energy = tankHeat s.base.vol s.base.cold s.tempAt := by
  obtain ⟨o1, o2, o3, o4⟩ := h.ok.slugOk h.activeOk
  obtain ⟨g1, g2, g3, g4, g5, g6, g7⟩ := cycle_geometry s h
  have hv := h.ok.volOk
  have hr := rhoCp_pos (K := ℝ)
  rw [cycle_content s h]
  have hslug : max 0 (s.slugVol * rhoCp ℝ * (s.slugTemp - s.base.cold)) =
      rhoCp ℝ * s.slugVol * (s.slugTemp - s.base.cold) := by
    rw [max_eq_right]
    · ring
    · exact mul_nonneg (mul_nonneg (by linarith) hr.le) (by linarith [h.lowOk])
  unfold SlugTank.deactivate
  simp only [h.activeOk, Bool.not_true, Bool.false_eq_true, if_false]
  rw [hslug]
  split
  · rename_i hx
    have : s.bottom = 100 - s.growth := by linarith
    rw [this]; simp
  · rename_i hx
    rw [not_le] at hx
    have hgr : (s.slugVol - s.orig) / s.base.vol * 100 = s.growth := rfl
    rw [hgr]
    have hlo : 100 - s.growth - (100 - s.slugTop) = s.bottom := by rw [g3]; ring
    rw [hlo]
    have hlt : s.bottom < 100 - s.growth := by linarith
    have hm := zone_mean s.base h.slopeOk h.coldOk (g1.trans g2) hlt (by linarith)
    have e2 : (∫ x in s.bottom..(100 - s.growth), above (s.base.storage - s.base.cold) s.base.slope s.base.shift x) =
        ∫ x in s.bottom..(100 - s.growth), s.phi x := rfl
    rw [e2] at hm
    have hI : 0 ≤ ∫ x in s.bottom..(100 - s.growth), s.phi x :=
      intervalIntegral.integral_nonneg hlt.le (fun y _ => le_max_left _ _)
    have hmu : max 0 (s.maxUsable - s.slugVol) = s.base.vol / 100 * (100 - s.growth - s.bottom) := by
      rw [max_eq_right (by linarith)]
      have : 100 - s.growth - s.bottom = (s.maxUsable - s.slugVol) / s.base.vol * 100 := by rw [← g7, g3]; ring
      rw [this]; field_simp
    have hw : 100 - s.growth - s.bottom ≠ 0 := by linarith
    rw [hmu, hm]
    have e3 : s.base.vol / 100 * (100 - s.growth - s.bottom) * rhoCp ℝ *
        ((∫ x in s.bottom..(100 - s.growth), s.phi x) / (100 - s.growth - s.bottom)) =
        rhoCp ℝ * s.base.vol / 100 * ∫ x in s.bottom..(100 - s.growth), s.phi x := by
      field_simp
    rw [e3, max_eq_right]
    · ring
    · exact mul_nonneg (div_nonneg (mul_nonneg hr.le hv.le) (by norm_num)) hI

/-- The heat the calls of a cycle bring in, each judged by the temperatures the tank reports at that moment. -/
noncomputable def cycleBtu (s : SlugTank ℝ) : List (CycleOp ℝ) → ℝ
  | [] => 0
  | .heat kbtuh dur :: ops => 1000 * kbtuh * (dur / 60) + cycleBtu (s.heatSlug kbtuh dur) ops
  | .draw gal inlet :: ops =>
    -(gal * rhoCp ℝ * (topMean s.base.vol s.tempAt gal - inlet)) + cycleBtu (s.drawPhysical gal inlet true) ops

/-- Sensible calls in a cycle: the slug stays at or below storage temperature, draws fit the usable tank. -/
def cycleFits (s : SlugTank ℝ) : List (CycleOp ℝ) → Prop
  | [] => True
  | .heat kbtuh dur :: ops => 0 ≤ kbtuh ∧ 0 ≤ dur ∧ (s.heatSlug kbtuh dur).slugTemp ≤ s.base.storage ∧
      cycleFits (s.heatSlug kbtuh dur) ops
  | .draw gal inlet :: ops => 0 < gal ∧ gal ≤ s.maxUsable ∧ s.base.cold ≤ inlet ∧ inlet ≤ s.base.storage ∧
      cycleFits (s.drawPhysical gal inlet true) ops

/-- **C77.** After a whole heating cycle of any length the stored energy is the heat content of the tank before the
cycle plus all heat supplied, plus the heat of the make-up water, minus the heat of the water drawn. -/
theorem C77_cycle (s : SlugTank ℝ) (h : s.Ok) (hs : 0 < s.base.slope) (hcs : s.base.cold < s.base.storage)
    (ha : s.active = false) (t : ℝ) (hvol : 0 < (s.activate t).slugVol) (ops : List (CycleOp ℝ))
    (hfit : cycleFits (s.activate t) ops) :
    (ops.foldl CycleOp.run (s.activate t)).deactivate.base.energy =
      tankHeat s.base.vol s.base.cold s.tempAt + cycleBtu (s.activate t) ops := by
  obtain ⟨hcyc, e⟩ := C77_activate s h hs hcs ha t
  have hb : (s.activate t).base = s.base := by unfold SlugTank.activate; simp [ha]
  rw [← e]
  generalize hA : s.activate t = A at hcyc e hvol hfit hb ⊢
  have key : ∀ A : SlugTank ℝ, A.Cycle → 0 < A.slugVol → cycleFits A ops →
      (ops.foldl CycleOp.run A).deactivate.base.energy =
        tankHeat A.base.vol A.base.cold A.tempAt + cycleBtu A ops := by
    clear hfit hvol hcyc hb hA e A
    induction ops with
    | nil => intro A hc hv hf; rw [List.foldl_nil, C77_deactivate A hc, cycleBtu, add_zero]
    | cons op ops ih =>
      intro A hc hv hf
      rw [List.foldl_cons]
      cases op with
      | heat kbtuh dur =>
        obtain ⟨f1, f2, f3, f4⟩ := hf
        obtain ⟨c1, c2⟩ := C77_heat A hc hv kbtuh dur f1 f2 f3
        have hb : (A.heatSlug kbtuh dur).base = A.base := by unfold SlugTank.heatSlug; split <;> simp
        have := ih (A.heatSlug kbtuh dur) c1 (by rw [(C62_add_heat A hc.activeOk hv kbtuh dur f1).1]; exact hv) f4
        rw [hb, c2] at this
        simp only [CycleOp.run, cycleBtu]
        rw [this]; ring
      | draw gal inlet =>
        obtain ⟨f1, f2, f3, f4, f5⟩ := hf
        obtain ⟨c1, c2⟩ := C77_draw A hc gal inlet true f1 f2 f3 f4
        have hb : (A.drawPhysical gal inlet true).base = A.base ∧ 0 < (A.drawPhysical gal inlet true).slugVol := by
          rcases draw_active A hc.ok hc.activeOk gal inlet true with ⟨_, e⟩ | ⟨_, _, e⟩ | ⟨_, _, e⟩ <;> rw [e]
          · exact ⟨rfl, hv⟩
          · exact ⟨rfl, by simp only; linarith⟩
          · exact ⟨rfl, by simp only; linarith⟩
        have := ih (A.drawPhysical gal inlet true) c1 hb.2 f5
        rw [hb.1, c2] at this
        simp only [CycleOp.run, cycleBtu]
        rw [this]; ring
  have := key A hcyc hvol hfit
  rw [hb] at this
  exact this

/-- **C77 limit.** Heat supplied to an empty slug is lost. -/
theorem C77_empty_slug_loses_heat (s : SlugTank ℝ) (h : s.slugVol ≤ 0) (kbtuh dur : ℝ) :
    s.heatSlug kbtuh dur = s := by
  unfold SlugTank.heatSlug
  rw [if_pos (Or.inr (Or.inl h))]

/-- What the base tank's average says about the part of the tank above height `a`. -/
theorem base_avg (s : SlugTank ℝ) (h : s.Cycle) (gal a : ℝ) (hg : 0 < gal) (ha : a = 100 - gal / s.base.vol * 100)
    (ha0 : 0 ≤ a) :
    gal / s.base.vol * 100 * (s.base.avgDraw gal - s.base.cold) = ∫ x in a..100, s.phi x := by
  have hv := h.ok.volOk
  have hq0 : 0 < gal / s.base.vol := div_pos hg hv
  have hgv : gal ≤ s.base.vol := by
    have : gal / s.base.vol ≤ 1 := by linarith
    rwa [div_le_one hv] at this
  have hz : s.base.avgDraw gal = s.base.zoneAvg a 100 := by
    unfold EnergyTank.avgDraw
    simp only [min_eq_left hgv]
    rw [if_neg (not_le.mpr hg), max_eq_right (by linarith), ← ha]
  have hmz := zone_mean s.base h.slopeOk h.coldOk (lo := a) (hi := 100) ha0 (by linarith) le_rfl
  rw [← hz, show (100 : ℝ) - a = gal / s.base.vol * 100 by rw [ha]; ring] at hmz
  rw [hmz, mul_div_cancel₀ _ (by positivity : gal / s.base.vol * 100 ≠ 0)]
  rfl

/-- **C77 (average temperature), partial.** As long as the slug has not grown since the cycle began, the reported average
draw temperature is the mean temperature of the water on top. Missing: after a draw (`C77_average_ignores_growth`). -/
theorem C77_average_partial (s : SlugTank ℝ) (h : s.Cycle) (hno : s.slugVol = s.orig) (gal : ℝ) (hg : 0 < gal)
    (hgm : gal ≤ s.maxUsable) : s.avgDraw gal = topMean s.base.vol s.tempAt gal := by
  obtain ⟨g1, g2, g3, g4, g5, g6, g7⟩ := cycle_geometry s h
  have hv := h.ok.volOk
  have hgr : s.growth = 0 := by unfold SlugTank.growth; rw [hno]; simp
  have hq0 : 0 < gal / s.base.vol := div_pos hg hv
  have hgm' : gal / s.base.vol * 100 ≤ 100 - s.base.coldPct := by
    have ht := top_full s h.ok
    have : gal / s.base.vol ≤ s.maxUsable / s.base.vol := div_le_div_of_nonneg_right hgm hv.le
    linarith
  have htop := topMean_eq s.base.vol s.base.cold gal hv hg s.tempAt
    (cycle_integrable s h (by linarith) (by linarith))
  have key : gal * (s.avgDraw gal - s.base.cold) = gal * (topMean s.base.vol s.tempAt gal - s.base.cold) := by
    rw [htop]
    unfold SlugTank.avgDraw
    rw [if_neg (by simp [h.activeOk])]
    simp only
    split
    · rename_i hc
      have hle : gal ≤ s.maxUsable - s.slugVol := by
        have : gal / s.base.vol * 100 ≤ (s.maxUsable - s.slugVol) / s.base.vol * 100 := by rw [← g7]; linarith
        have : gal / s.base.vol ≤ (s.maxUsable - s.slugVol) / s.base.vol := by linarith
        rwa [div_le_div_iff_of_pos_right hv] at this
      rw [top_above s h gal hg.le hle, hgr, sub_zero, ← base_avg s h gal _ hg rfl (by linarith)]
      field_simp
    · rename_i hc
      have hlt : s.maxUsable - s.slugVol < gal := by
        have : (s.maxUsable - s.slugVol) / s.base.vol * 100 < gal / s.base.vol * 100 := by rw [← g7]; linarith
        have : (s.maxUsable - s.slugVol) / s.base.vol < gal / s.base.vol := by linarith
        rwa [div_lt_div_iff_of_pos_right hv] at this
      have hb : (100 - s.slugTop) * (s.base.avgDraw (s.base.vol * ((100 - s.slugTop) / 100)) - s.base.cold) =
          ∫ x in s.bottom..100, s.phi x := by
        have e : s.slugTop = s.bottom := by rw [g3, hgr, add_zero]
        rcases eq_or_lt_of_le g5 with hz | hz
        · rw [← e, hz]; simp
        · have := base_avg s h (s.base.vol * ((100 - s.slugTop) / 100)) s.bottom
            (mul_pos hv (div_pos (by linarith) (by norm_num))) (by rw [← e]; field_simp; ring) (by rw [← e]; linarith)
          rw [← this]
          congr 1
          field_simp
      rw [top_into_slug s h gal hlt hgm, hgr, sub_zero, ← hb, g7]
      field_simp
      ring
  linarith [mul_left_cancel₀ hg.ne' key]

/-- **C77 limit.** Once the slug has grown, the reported average draw temperature is not that of the water on
top: it can be above the temperature at the very top of the tank, because the growth is not
taken into account. -/
theorem C77_average_ignores_growth :
    let s := (Demo.slug.activate 120).drawPhysical 40 50 true
    (∀ f, s.tempAt f ≤ s.tempAt 1 ∨ 1 < f) ∧ s.tempAt 1 < s.avgDraw 5 := by
  intro s
  have h : s.active = true ∧ s.slugTop < 100 ∧ s.base.coldPct ≤ 100 ∧ s.base.cold < s.base.storage ∧ 0 < s.base.slope ∧
      min s.base.storage s.slugTemp ≤ s.tempAt 1 ∧ s.base.cold ≤ s.tempAt 1 ∧
      s.base.coldPct ≤ (1 - (s.slugVol - s.orig) / s.base.vol) * 100 ∧ s.tempAt 1 < s.avgDraw 5 := by
    decide +kernel
  obtain ⟨h1, h2, h3, h4, h5, h6, h7, h9, h8⟩ := h
  refine ⟨?_, h8⟩
  intro f
  by_cases hf : 1 < f
  · exact Or.inr hf
  · left
    rw [not_lt] at hf
    by_cases hc : f * 100 < s.base.coldPct
    · have : s.tempAt f = s.base.cold := by
        unfold SlugTank.tempAt
        simp only [h1, Bool.not_true, Bool.false_eq_true, if_false, hc, if_true]
      rw [this]; exact h7
    · by_cases ht : f * 100 ≤ s.slugTop
      · have : s.tempAt f = max s.base.cold (min s.base.storage s.slugTemp) := by
          unfold SlugTank.tempAt
          simp only [h1, Bool.not_true, Bool.false_eq_true, if_false, hc, ht, if_true]
        rw [this]; exact max_le h7 h6
      · have e1 : s.tempAt f = s.base.tempAt (f - (s.slugVol - s.orig) / s.base.vol) := by
          unfold SlugTank.tempAt
          simp only [h1, Bool.not_true, Bool.false_eq_true, if_false, hc, ht]
        have e2 : s.tempAt 1 = s.base.tempAt (1 - (s.slugVol - s.orig) / s.base.vol) := by
          unfold SlugTank.tempAt
          simp only [h1, Bool.not_true, Bool.false_eq_true, if_false]
          rw [if_neg (by linarith), if_neg (by linarith)]
        rw [e1, e2]
        unfold EnergyTank.tempAt
        simp only
        rw [if_neg (not_lt.mpr h9)]
        split
        · exact le_max_left _ _
        · apply max_le_max_left
          apply min_le_min_left
          have := mul_le_mul_of_nonneg_left (show f ≤ 1 from hf) h5.le
          nlinarith

/-- Non-vacuity of C77 (average temperature): every cycle begins without growth. -/
example : let s := (SlugTank.new (200 : ℝ) 50 150 120 (9 / 10) (8 / 10)).activate 120
    s.Cycle ∧ s.slugVol = s.orig ∧ (20 : ℝ) ≤ s.maxUsable := by
  refine ⟨(C77_activate _ (slug_new_ok 200 50 150 120 (9 / 10) (8 / 10) (by norm_num) (by norm_num) (by norm_num)) ?_ ?_
    rfl 120).1, rfl, ?_⟩
  · norm_num [SlugTank.new, EnergyTank.new]
  · norm_num [SlugTank.new, EnergyTank.new]
  · norm_num [SlugTank.activate, SlugTank.new, EnergyTank.new]

/-- Non-vacuity of C77: an empty 200-gallon tank, a heating step and a draw. -/
example : let s := SlugTank.new (200 : ℝ) 50 150 120 (9 / 10) (8 / 10)
    s.Ok ∧ 0 < s.base.slope ∧ s.base.cold < s.base.storage ∧ s.active = false ∧ 0 < (s.activate 120).slugVol ∧
    cycleFits (s.activate 120) [.heat 100 10, .draw 20 50] := by
  intro s
  have hs : s.base.shift = -100 := by
    norm_num [s, SlugTank.new, EnergyTank.new, EnergyTank.shift, EnergyTank.maxEnergy, rhoCp]
  have hz : s.base.zoneAvg 10 100 = 50 := by
    unfold EnergyTank.zoneAvg
    rw [hs]
    norm_num [s, SlugTank.new, EnergyTank.new]
  have ha : s.activate 120 = ⟨s.base, 120, 9 / 10, 180, true, 180, 50, 100, 180⟩ := by
    unfold SlugTank.activate SlugTank.topOf
    rw [hs]
    have : s.base.coldPct = 10 := by norm_num [s, SlugTank.new]
    simp only [this]
    norm_num [s, SlugTank.new, EnergyTank.new] at hz ⊢
    exact hz
  refine ⟨slug_new_ok 200 50 150 120 (9 / 10) (8 / 10) (by norm_num) (by norm_num) (by norm_num), ?_, ?_, rfl, ?_, ?_⟩
  · norm_num [s, SlugTank.new, EnergyTank.new]
  · norm_num [s, SlugTank.new, EnergyTank.new]
  · rw [ha]; norm_num
  · rw [ha]
    refine ⟨by norm_num, by norm_num, ?_, by norm_num, ?_, ?_, ?_, trivial⟩
    · norm_num [SlugTank.heatSlug, rhoCp, s, SlugTank.new, EnergyTank.new]
    · norm_num [SlugTank.heatSlug]
    · norm_num [SlugTank.heatSlug, s, SlugTank.new, EnergyTank.new]
    · norm_num [SlugTank.heatSlug, s, SlugTank.new, EnergyTank.new]

end Eco
