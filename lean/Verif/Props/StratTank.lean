import Verif.Spec.Tank
import Verif.Props.StratFactor
import Mathlib.Analysis.SpecialFunctions.Integrals.Basic
import Mathlib.Algebra.Order.Field.Rat
import Mathlib.Tactic.Linarith
import Mathlib.Tactic.Positivity
import Mathlib.Tactic.FieldSimp
import Mathlib.Tactic.NormNum

/-! C49 to C54: the stratified tank. -/

namespace Eco
set_option linter.unusedSectionVars false
open Spec

section general
variable {K : Type} [Field K] [LinearOrder K] [IsStrictOrderedRing K]

namespace StratTank

theorem run_vol_slope (s : StratTank K) (op : StratOp K) : (op.run s).vol = s.vol ∧ (op.run s).slope = s.slope := by
  cases op <;> simp only [StratOp.run, init, draw, heat, recirc, drawPhysical] <;> repeat' split
  all_goals simp

theorem after_vol_slope (vol slope : K) (ops : List (StratOp K)) :
    (stratAfter vol slope ops).vol = vol ∧ (stratAfter vol slope ops).slope = slope := by
  have : ∀ s : StratTank K, (ops.foldl StratOp.run s).vol = s.vol ∧ (ops.foldl StratOp.run s).slope = s.slope := by
    induction ops with
    | nil => intro s; exact ⟨rfl, rfl⟩
    | cons op ops ih =>
      intro s
      rw [List.foldl_cons]
      obtain ⟨h1, h2⟩ := ih (op.run s)
      obtain ⟨h3, h4⟩ := run_vol_slope s op
      exact ⟨h1.trans h3, h2.trans h4⟩
  exact this _

theorem tempAt_mono (s : StratTank K) (hs : 0 ≤ s.slope) {f g : K} (h : f ≤ g) : s.tempAt f ≤ s.tempAt g := by
  unfold tempAt
  apply max_le_max_left
  apply min_le_min_left
  have : s.slope * (f * 100 + s.shift) ≤ s.slope * (g * 100 + s.shift) :=
    mul_le_mul_of_nonneg_left (by linarith) hs
  linarith

theorem tempAt_bounds (s : StratTank K) (h : s.inlet ≤ s.outlet) (f : K) :
    s.inlet ≤ s.tempAt f ∧ s.tempAt f ≤ s.outlet :=
  ⟨le_max_left _ _, max_le h (min_le_left _ _)⟩

end StratTank

open StratTank

/-- **C49.** After any history of calls on a tank with positive slope, the temperature does not decrease with
height and lies between the current inlet and outlet temperatures; if the inlet is warmer than the outlet, the
whole tank reads the inlet temperature. -/
theorem C49_profile (vol slope : K) (hs : 0 < slope) (ops : List (StratOp K)) :
    (∀ f g, f ≤ g → (stratAfter vol slope ops).tempAt f ≤ (stratAfter vol slope ops).tempAt g) ∧
    ((stratAfter vol slope ops).inlet ≤ (stratAfter vol slope ops).outlet → ∀ f,
      (stratAfter vol slope ops).inlet ≤ (stratAfter vol slope ops).tempAt f ∧
      (stratAfter vol slope ops).tempAt f ≤ (stratAfter vol slope ops).outlet) ∧
    ((stratAfter vol slope ops).outlet ≤ (stratAfter vol slope ops).inlet → ∀ f,
      (stratAfter vol slope ops).tempAt f = (stratAfter vol slope ops).inlet) := by
  refine ⟨fun f g h => tempAt_mono _ (by rw [(after_vol_slope vol slope ops).2]; exact hs.le) h,
    fun h f => tempAt_bounds _ h f, fun h f => ?_⟩
  exact max_eq_left (le_trans (min_le_left _ _) h)

/-- **C49 (what inlet and outlet are).** A draw and a heating step set the temperatures they are given. -/
theorem C49_limits (s : StratTank K) (vol cold supply outlet kbtuh dur : K) :
    (s.draw vol cold supply outlet).inlet = cold ∧ (s.draw vol cold supply outlet).outlet = outlet ∧
    (s.heat kbtuh dur outlet).outlet = outlet ∧ (s.heat kbtuh dur outlet).inlet = s.inlet ∧
    (s.init outlet cold vol).inlet = cold ∧ (s.init outlet cold vol).outlet = outlet := by
  unfold draw heat init
  refine ⟨?_, ?_, ?_, ?_, rfl, rfl⟩ <;> simp only <;> split <;> rfl

/-- **C49 (start).** A freshly initialised tank has the cold temperature up to height `1 - pu`, and the storage
temperature from `(storage - cold) / slope` percent above that height on. -/
theorem C49_start (s : StratTank K) (hs : 0 < s.slope) (storage cold pu f : K) (h : cold ≤ storage) :
    (f ≤ 1 - pu → (s.init storage cold pu).tempAt f = cold) ∧
    (1 - pu + (storage - cold) / s.slope / 100 ≤ f → (s.init storage cold pu).tempAt f = storage) := by
  unfold tempAt init shift
  simp only [zero_div, zero_mul, add_zero]
  constructor
  · intro hf
    apply max_eq_left
    apply le_trans (min_le_right _ _)
    have : s.slope * (f * 100) ≤ s.slope * ((1 - pu) * 100) := mul_le_mul_of_nonneg_left (by linarith) hs.le
    linarith
  · intro hf
    have h1 : (storage - cold) / s.slope ≤ (f - (1 - pu)) * 100 := by linarith
    rw [div_le_iff₀ hs] at h1
    rw [min_eq_left (by linarith), max_eq_right h]

/-! ## C50 -/

/-- The usable volume is within the tank. -/
theorem usable_bounds (s : StratTank K) (hv : 0 < s.vol) (supply : K) :
    0 ≤ s.usable supply ∧ s.usable supply ≤ s.vol := by
  unfold usable
  simp only
  have h1 : (0 : K) ≤ max 0 (min 100 ((supply - s.inter) / s.slope - s.shift)) := le_max_left _ _
  have h2 : max 0 (min 100 ((supply - s.inter) / s.slope - s.shift)) ≤ (100 : K) :=
    max_le (by norm_num) (min_le_left _ _)
  generalize max 0 (min 100 ((supply - s.inter) / s.slope - s.shift)) = x at h1 h2
  constructor
  · apply mul_nonneg _ hv.le
    apply div_nonneg <;> linarith
  · have : (100 - x) / 100 ≤ 1 := by rw [div_le_one (by norm_num)]; linarith
    calc _ ≤ 1 * s.vol := mul_le_mul_of_nonneg_right this hv.le
      _ = s.vol := one_mul _

theorem height_iff (s : StratTank K) (hs : 0 < s.slope) {supply : K} (hin : s.inlet < supply)
    (hout : supply ≤ s.outlet) (f : K) :
    supply ≤ s.tempAt f ↔ (supply - s.inter) / s.slope - s.shift ≤ f * 100 := by
  unfold tempAt
  rw [le_max_iff, le_min_iff, sub_le_iff_le_add, div_le_iff₀ hs]
  constructor
  · rintro (h | ⟨_, h⟩)
    · exact absurd hin (not_lt.mpr h)
    · linarith
  · intro h; right; exact ⟨hout, by linarith⟩

/-- **C50.** For a supply temperature above the inlet and up to the outlet temperature, the water at or above it
is exactly the water in the top `usable / volume` fraction of the tank (up to the boundary
height itself). -/
theorem C50_usable_exact (s : StratTank K) (hv : 0 < s.vol) (hs : 0 < s.slope) (supply : K)
    (hin : s.inlet < supply) (hout : supply ≤ s.outlet) :
    0 ≤ s.usable supply ∧ s.usable supply ≤ s.vol ∧ ∀ f, 0 ≤ f → f ≤ 1 →
      (1 - s.usable supply / s.vol < f → supply ≤ s.tempAt f) ∧
      (f < 1 - s.usable supply / s.vol → s.tempAt f < supply) := by
  refine ⟨(usable_bounds s hv supply).1, (usable_bounds s hv supply).2, ?_⟩
  intro f h0 h1
  rw [← not_le (a := supply), height_iff s hs hin hout]
  unfold usable
  simp only
  rw [mul_div_assoc, div_self hv.ne', mul_one]
  generalize (supply - s.inter) / s.slope - s.shift = x
  constructor
  · intro h
    rcases le_total 100 x with hx | hx
    · rw [min_eq_left hx, max_eq_right (by norm_num)] at h; linarith
    · rw [min_eq_right hx] at h
      have := le_max_right 0 x
      linarith
  · intro h hx
    rcases le_total x 0 with hx0 | hx0
    · rw [min_eq_right (by linarith), max_eq_left hx0] at h; linarith
    · rcases le_total 100 x with hx1 | hx1
      · rw [min_eq_left hx1, max_eq_right (by norm_num)] at h; linarith
      · rw [min_eq_right hx1, max_eq_right hx0] at h; linarith

/-- **C50 (monotone).** A higher requested temperature never gives more usable water. -/
theorem C50_antitone (s : StratTank K) (hv : 0 < s.vol) (hs : 0 < s.slope) {t u : K} (h : t ≤ u) :
    s.usable u ≤ s.usable t := by
  unfold usable
  simp only
  apply mul_le_mul_of_nonneg_right _ hv.le
  apply div_le_div_of_nonneg_right _ (by norm_num)
  apply sub_le_sub_left
  apply max_le_max_left
  apply min_le_min_left
  apply sub_le_sub_right
  apply div_le_div_of_nonneg_right _ hs.le
  linarith

/-- The usable volume does not decrease with the position of the thermocline. -/
theorem usable_mono_delta (s : StratTank K) (hv : 0 < s.vol) {d d' : K} (h : d ≤ d') (supply : K) :
    ({ s with delta := d } : StratTank K).usable supply ≤ ({ s with delta := d' } : StratTank K).usable supply := by
  unfold usable shift
  simp only
  apply mul_le_mul_of_nonneg_right _ hv.le
  apply div_le_div_of_nonneg_right _ (by norm_num)
  apply sub_le_sub_left
  apply max_le_max_left
  apply min_le_min_left
  apply sub_le_sub_left
  apply mul_le_mul_of_nonneg_right _ (by norm_num)
  exact div_le_div_of_nonneg_right h hv.le

/-- At or below the floor nothing is usable. -/
theorem usable_floor (s : StratTank K) (hv : 0 < s.vol) {d supply : K} (h : d ≤ s.deltaFloor (some supply)) :
    ({ s with delta := d } : StratTank K).usable supply = 0 := by
  unfold usable shift
  unfold deltaFloor at h
  simp only [Option.getD_some] at h ⊢
  have h1 : d / s.vol * 100 ≤ (supply - s.inter) / s.slope - 100 := by
    rw [le_div_iff₀ (by norm_num)] at h
    rw [div_mul_eq_mul_div, div_le_iff₀ hv]
    linarith
  rw [min_eq_left (by linarith), max_eq_right (by norm_num)]
  simp

/-- At or above the cap the whole tank is usable, for temperatures up to the outlet temperature. -/
theorem usable_cap (s : StratTank K) (hv : 0 < s.vol) (hs : 0 < s.slope) {d supply : K} (hsup : supply ≤ s.outlet)
    (h : (s.outlet - s.inter) / s.slope * s.vol / 100 ≤ d) :
    ({ s with delta := d } : StratTank K).usable supply = s.vol := by
  unfold usable shift
  simp only
  have h1 : (s.outlet - s.inter) / s.slope ≤ d / s.vol * 100 := by
    rw [div_le_iff₀ (by norm_num)] at h
    rw [div_mul_eq_mul_div, le_div_iff₀ hv]
    exact h
  have h2 : (supply - s.inter) / s.slope ≤ (s.outlet - s.inter) / s.slope :=
    div_le_div_of_nonneg_right (by linarith) hs.le
  rw [min_eq_right (by linarith), max_eq_left (by linarith)]
  simp

namespace Demo
/-- A half charged 100-gallon tank, 50 °F to 150 °F. -/
def tank : StratTank ℚ := (StratTank.new 100 (28 / 10)).init 150 50 (1 / 2)
end Demo

/-- Non-vacuity of C50: 39.28… gallons at 80 °F and above, 25 at 120 °F. -/
example : Demo.tank.inlet < 120 ∧ 120 ≤ Demo.tank.outlet ∧ Demo.tank.usable 120 = 25 ∧
    Demo.tank.tempAt 1 = 150 ∧ Demo.tank.tempAt (3 / 4) = 120 := by decide +kernel

/-- **C50 fails above the outlet temperature.** If the outlet set point is lowered to 110 °F, the tank still
reports 25 gallons at 120 °F, although its own temperatures nowhere exceed 110 °F. -/
theorem C50_above_outlet : (Demo.tank.heat 0 1 110).usable 120 = 25 ∧
    ∀ f, (Demo.tank.heat 0 1 110).tempAt f ≤ 110 := by
  refine ⟨by decide +kernel, fun f => ?_⟩
  exact (tempAt_bounds _ (by decide +kernel) f).2

/-! ## C51 -/

theorem search_ge (s : StratTank K) (vol cold supply m : K) (n : ℕ) (lo hi : K) (h1 : m ≤ lo) (h2 : m ≤ hi) :
    m ≤ (s.search vol cold supply n lo hi).1 ∧ m ≤ (s.search vol cold supply n lo hi).2 := by
  induction n generalizing lo hi with
  | zero => exact ⟨h1, h2⟩
  | succ n ih =>
    unfold search
    simp only
    have hm : m ≤ (lo + hi) * (1 / 2) := by linarith
    repeat' split
    all_goals first | exact ⟨by assumption, by assumption⟩ | (apply ih <;> assumption)

/-- The volume taken is never negative. -/
theorem drawVol_nonneg (s : StratTank K) (hv : 0 < s.vol) {vol cold supply outlet : K} (h1 : cold ≤ supply)
    (h2 : cold < outlet) (h3 : 0 < vol) : 0 ≤ s.drawVol vol cold supply outlet := by
  have hp : 0 ≤ vol * (supply - cold) / (outlet - cold) :=
    div_nonneg (mul_nonneg h3.le (by linarith)) (by linarith)
  unfold drawVol
  simp only
  split
  · exact hp
  · obtain ⟨a, b⟩ := search_ge s vol cold supply 0 52 _ s.vol hp hv.le
    apply le_min _ hv.le
    linarith

/-- **C51 (draw).** A draw never increases the water usable at its supply temperature. -/
theorem C51_draw (s : StratTank K) (hv : 0 < s.vol) (vol cold supply outlet : K) (h1 : cold ≤ supply) :
    (s.draw vol cold supply outlet).usable supply ≤ s.usable supply := by
  unfold draw
  simp only
  split
  · exact le_rfl
  · rename_i h
    rw [not_or, not_le, not_le] at h
    set s0 : StratTank K := { s with inlet := cold, outlet := outlet } with hs0
    have hn : 0 ≤ s0.drawVol vol cold supply outlet := drawVol_nonneg s0 hv h1 h.1 h.2
    have hu : s.usable supply = s0.usable supply := rfl
    rw [hu]
    rcases le_total (s0.delta - s0.drawVol vol cold supply outlet) (s0.deltaFloor (some supply)) with hc | hc
    · rw [max_eq_right hc, usable_floor s0 hv le_rfl]
      exact (usable_bounds s0 hv supply).1
    · rw [max_eq_left hc]
      exact usable_mono_delta s0 hv (by linarith) supply

/-- **C51 (physical draw).** The same for a draw of physical gallons with its supply temperature. -/
theorem C51_draw_physical (s : StratTank K) (hv : 0 < s.vol) (gal inlet supply : K) :
    (s.drawPhysical gal inlet (some supply)).usable supply ≤ s.usable supply := by
  unfold drawPhysical
  simp only
  split
  · rename_i hg
    set s0 : StratTank K := { s with inlet := inlet } with hs0
    have hu : s.usable supply = s0.usable supply := rfl
    rw [hu]
    rcases le_total (s0.delta - gal) (s0.deltaFloor (some supply)) with hc | hc
    · rw [max_eq_right hc, usable_floor s0 hv le_rfl]
      exact (usable_bounds s0 hv supply).1
    · rw [max_eq_left hc]
      exact usable_mono_delta s0 hv (by linarith) supply
  · exact le_rfl

/-- **C51 (heat).** A heating step never decreases the water usable at a supply temperature up to the outlet
temperature, whatever the state. -/
theorem C51_heat (s : StratTank K) (hv : 0 < s.vol) (hs : 0 < s.slope) (kbtuh dur outlet supply : K) (hd : 0 ≤ dur)
    (h : supply ≤ outlet) : s.usable supply ≤ (s.heat kbtuh dur outlet).usable supply := by
  unfold heat
  simp only
  split
  · exact le_rfl
  · rename_i hc
    rw [not_or, not_le, not_le] at hc
    set s0 : StratTank K := { s with outlet := outlet } with hs0
    have hu : s.usable supply = s0.usable supply := rfl
    rw [hu]
    have hr : (0 : K) < rhoCp K := by unfold rhoCp; positivity
    have hh : 0 ≤ kbtuh * dur / 60 * 1000 / (rhoCp K * (outlet - s.inlet)) := by
      apply div_nonneg
      · have := mul_nonneg hc.1.le hd
        positivity
      · exact mul_nonneg hr.le (by linarith)
    rcases le_total (s.delta + kbtuh * dur / 60 * 1000 / (rhoCp K * (outlet - s.inlet)))
      ((outlet - s.inter) / s.slope * s.vol / 100) with hm | hm
    · rw [min_eq_left hm]
      exact usable_mono_delta s0 hv (by linarith) supply
    · rw [min_eq_right hm]
      rw [usable_cap s0 hv hs h le_rfl]
      exact (usable_bounds s0 hv supply).2

/-- Non-vacuity of C51: a draw of 10 gallons at 120 °F and a heating step of 100 kBTU/h for 10 minutes. -/
example : (Demo.tank.draw 10 50 120 150).usable 120 = 18 ∧ 25 < (Demo.tank.heat 100 10 150).usable 120 := by
  decide +kernel

/-- **C51 is limited to the draw's own supply temperature.** The floor of `draw` lifts a thermocline that
recirculation has pushed above the tank: here a tank without any water at 100 °F reports over 7 gallons of it after
a draw of one gallon. -/
theorem C51_draw_adds_lukewarm :
    ((Demo.tank.recirc 100 110 10 (some 150)).usable 100 = 0) ∧
    7 < ((Demo.tank.recirc 100 110 10 (some 150)).draw 1 50 120 150).usable 100 := by
  decide +kernel

/-! ## C54 -/

/-- **C54.** As long as the tank had some usable water before and is not fully usable after the heating step, the
gain in usable water times the temperature rise is the heat supplied. -/
theorem C54_heat_stored (s : StratTank K) (hv : 0 < s.vol) (hs : 0 < s.slope) (kbtuh dur outlet supply : K)
    (hk : 0 < kbtuh) (hd : 0 ≤ dur) (hio : s.inlet < outlet) (hso : supply ≤ outlet)
    (h0 : 0 < s.usable supply) (h1 : (s.heat kbtuh dur outlet).usable supply < s.vol) :
    ((s.heat kbtuh dur outlet).usable supply - s.usable supply) * (rhoCp K * (outlet - s.inlet)) =
      1000 * (kbtuh * (dur / 60)) := by
  have hr : (0 : K) < rhoCp K := by unfold rhoCp; positivity
  have hw : 0 < rhoCp K * (outlet - s.inlet) := mul_pos hr (by linarith)
  have hmono := C51_heat s hv hs kbtuh dur outlet supply hd hso
  unfold heat at h1 hmono ⊢
  simp only at h1 hmono ⊢
  rw [if_neg (by rw [not_or, not_le, not_le]; exact ⟨hk, hio⟩)] at h1 hmono ⊢
  set s0 : StratTank K := { s with outlet := outlet } with hs0
  have hu : s.usable supply = s0.usable supply := rfl
  rcases le_total (s.delta + kbtuh * dur / 60 * 1000 / (rhoCp K * (outlet - s.inlet)))
    ((outlet - s.inter) / s.slope * s.vol / 100) with hm | hm
  · rw [min_eq_left hm] at h1 hmono ⊢
    generalize hheat : kbtuh * dur / 60 * 1000 / (rhoCp K * (outlet - s.inlet)) = w at *
    have hlin : ∀ d, 0 < ({ s0 with delta := d } : StratTank K).usable supply →
        ({ s0 with delta := d } : StratTank K).usable supply < s.vol →
        ({ s0 with delta := d } : StratTank K).usable supply =
          s.vol - ((supply - s.inter) / s.slope) / 100 * s.vol + d := by
      intro d a b
      unfold usable shift at a b ⊢
      simp only [hs0] at a b ⊢
      generalize (supply - s.inter) / s.slope = x at a b ⊢
      have hxd : 0 < x - d / s.vol * 100 := by
        by_contra hc
        rw [not_lt] at hc
        rw [min_eq_right (by linarith), max_eq_left hc] at b
        simp at b
      have hxd' : x - d / s.vol * 100 < 100 := by
        by_contra hc
        rw [not_lt] at hc
        rw [min_eq_left hc, max_eq_right (by norm_num)] at a
        simp at a
      rw [min_eq_right hxd'.le, max_eq_right hxd.le]
      field_simp
      ring
    have e1 := hlin (s.delta + w) (lt_of_lt_of_le h0 hmono) h1
    have e2 := hlin s.delta h0 (lt_of_le_of_lt hmono h1)
    have e3 : s.usable supply = ({ s0 with delta := s.delta } : StratTank K).usable supply := rfl
    rw [e3, e2, e1, ← hheat]
    field_simp
    ring
  · rw [min_eq_right hm, usable_cap s0 hv hs hso le_rfl] at h1
    exact absurd h1 (lt_irrefl _)

/-- Non-vacuity of C54. -/
example : 0 < Demo.tank.usable 120 ∧ (Demo.tank.heat 100 10 150).usable 120 < Demo.tank.vol ∧
    Demo.tank.inlet < 150 := by decide +kernel

end general

/-! ## C52, C53: integrals -/

section real

theorem tempAt_continuous (s : StratTank ℝ) : Continuous s.tempAt := by
  unfold StratTank.tempAt; fun_prop

/-- The profile as a function of the height in percent. -/
theorem pct_integral (s : StratTank ℝ) (hs : 0 < s.slope) (hio : s.inlet ≤ s.outlet) (D : ℝ) (hD0 : 0 ≤ D)
    (hD : D ≤ 100) :
    let xCold := max 0 (min 100 ((s.inlet - s.inter) / s.slope - s.shift))
    let xHot := max 0 (min 100 ((s.outlet - s.inter) / s.slope - s.shift))
    ∫ x in D..100, max s.inlet (min s.outlet (s.slope * (x + s.shift) + s.inter)) =
      s.inlet * max 0 (min 100 xCold - max D 0) +
      (if max D xCold < min 100 xHot then
        s.slope / 2 * ((min 100 xHot + s.shift) ^ 2 - (max D xCold + s.shift) ^ 2)
          + s.inter * (min 100 xHot - max D xCold) else 0) +
      s.outlet * max 0 (100 - max D xHot) := by
  intro xCold xHot
  set c := (s.inlet - s.inter) / s.slope - s.shift with hc
  set h := (s.outlet - s.inter) / s.slope - s.shift with hh
  have hch : c ≤ h := by
    have : (s.inlet - s.inter) / s.slope ≤ (s.outlet - s.inter) / s.slope :=
      div_le_div_of_nonneg_right (by linarith) hs.le
    linarith
  have hCH : xCold ≤ xHot := max_le_max_left _ (min_le_min_left _ hch)
  have hC0 : 0 ≤ xCold := le_max_left _ _
  have hH0 : 0 ≤ xHot := le_max_left _ _
  have hC1 : xCold ≤ 100 := max_le (by norm_num) (min_le_left _ _)
  have hH1 : xHot ≤ 100 := max_le (by norm_num) (min_le_left _ _)
  set T : ℝ → ℝ := fun x => max s.inlet (min s.outlet (s.slope * (x + s.shift) + s.inter)) with hT
  have hcont : Continuous T := by rw [hT]; fun_prop
  have hTc : ∀ x, x ≤ c → T x = s.inlet := by
    intro x hx
    apply max_eq_left
    apply le_trans (min_le_right _ _)
    rw [hc, le_sub_iff_add_le, le_div_iff₀ hs] at hx
    linarith
  have hTh : ∀ x, h ≤ x → T x = s.outlet := by
    intro x hx
    rw [hh, sub_le_iff_le_add, div_le_iff₀ hs] at hx
    simp only [hT]
    rw [min_eq_left (by linarith), max_eq_right hio]
  have hTm : ∀ x, c ≤ x → x ≤ h → T x = s.slope * (x + s.shift) + s.inter := by
    intro x h1 h2
    rw [hh, le_sub_iff_add_le, le_div_iff₀ hs] at h2
    rw [hc, sub_le_iff_le_add, div_le_iff₀ hs] at h1
    simp only [hT]
    rw [min_eq_right (by linarith), max_eq_right (by linarith)]
  have hsplit : ∫ x in D..100, T x = (∫ x in D..max D xCold, T x) + (∫ x in max D xCold..max D xHot, T x) +
      ∫ x in max D xHot..100, T x := by
    rw [intervalIntegral.integral_add_adjacent_intervals (hcont.intervalIntegrable _ _)
      (hcont.intervalIntegrable _ _), intervalIntegral.integral_add_adjacent_intervals
      (hcont.intervalIntegrable _ _) (hcont.intervalIntegrable _ _)]
  have e1 : ∫ x in D..max D xCold, T x = s.inlet * max 0 (min 100 xCold - max D 0) := by
    rw [min_eq_right hC1, max_eq_left hD0]
    rcases le_total xCold D with hd | hd
    · rw [max_eq_left hd, max_eq_left (by linarith)]; simp
    · rw [max_eq_right hd, max_eq_right (by linarith)]
      rcases hd.lt_or_eq with hd' | hd'
      · have hxc : xCold ≤ c := by
          have hpos : 0 < xCold := lt_of_le_of_lt hD0 hd'
          rcases lt_max_iff.mp hpos with hx | hx
          · exact absurd hx (lt_irrefl _)
          · exact max_le ((lt_min_iff.mp hx).2.le) (min_le_right _ _)
        rw [intervalIntegral.integral_congr (g := fun _ => s.inlet)]
        · simp; ring
        · intro x hx
          rw [Set.uIcc_of_le hd] at hx
          exact hTc x (hx.2.trans hxc)
      · rw [hd']; simp
  have e3 : ∫ x in max D xHot..100, T x = s.outlet * max 0 (100 - max D xHot) := by
    have hle : max D xHot ≤ 100 := max_le hD hH1
    rw [max_eq_right (by linarith : (0:ℝ) ≤ 100 - max D xHot)]
    rcases hH1.lt_or_eq with hlt | heq
    · have hxh : h ≤ xHot := by
        rcases le_total 100 h with hx | hx
        · exfalso
          have : xHot = 100 := by
            simp only [xHot]; rw [min_eq_left hx, max_eq_right (by norm_num)]
          linarith
        · simp only [xHot]; rw [min_eq_right hx]; exact le_max_right _ _
      rw [intervalIntegral.integral_congr (g := fun _ => s.outlet)]
      · simp; ring
      · intro x hx
        rw [Set.uIcc_of_le hle] at hx
        exact hTh x (hxh.trans ((le_max_right _ _).trans hx.1))
    · rw [heq, max_eq_right hD]; simp
  have e2 : ∫ x in max D xCold..max D xHot, T x = (if max D xCold < min 100 xHot then
        s.slope / 2 * ((min 100 xHot + s.shift) ^ 2 - (max D xCold + s.shift) ^ 2)
          + s.inter * (min 100 xHot - max D xCold) else 0) := by
    rw [min_eq_right hH1]
    split
    · rename_i hlt
      have hDH : D < xHot := lt_of_le_of_lt (le_max_left _ _) hlt
      rw [max_eq_right hDH.le]
      have hxh : xHot ≤ h := by
        have hpos : 0 < xHot := lt_of_le_of_lt hD0 hDH
        rcases lt_max_iff.mp hpos with hx | hx
        · exact absurd hx (lt_irrefl _)
        · exact max_le ((lt_min_iff.mp hx).2.le) (min_le_right _ _)
      have hxc : c ≤ xCold := by
        have hl : xCold < 100 := lt_of_le_of_lt (le_max_right _ _) (hlt.trans_le hH1)
        rcases le_total 100 c with hx | hx
        · exfalso
          have : xCold = 100 := by
            simp only [xCold]; rw [min_eq_left hx, max_eq_right (by norm_num)]
          linarith
        · simp only [xCold]; rw [min_eq_right hx]; exact le_max_right _ _
      rw [intervalIntegral.integral_congr (g := fun x => (s.slope * s.shift + s.inter) + s.slope * x)]
      · rw [integral_linear]; ring
      · intro x hx
        rw [Set.uIcc_of_le hlt.le] at hx
        simp only
        rw [hTm x (hxc.trans ((le_max_right _ _).trans hx.1)) (hx.2.trans hxh)]
        ring
    · rename_i hlt
      rw [not_lt] at hlt
      have : max D xHot = max D xCold := by
        apply le_antisymm
        · exact max_le (le_max_left _ _) hlt
        · exact max_le_max_left _ hCH
      rw [this]; simp
  rw [hsplit, e1, e2, e3]

/-- **C52.** The average temperature of a draw is the mean of the temperature profile over the drawn top part of
the tank; a draw of more than the tank counts as the whole tank. -/
theorem C52_mean (s : StratTank ℝ) (hv : 0 < s.vol) (hs : 0 < s.slope) (hio : s.inlet ≤ s.outlet) (gal : ℝ)
    (hg : 0 < gal) :
    s.avgDraw gal = (∫ f in (1 - min gal s.vol / s.vol)..1, s.tempAt f) / (min gal s.vol / s.vol) := by
  have hd : 0 < min gal s.vol := lt_min hg hv
  set d := min gal s.vol with hdd
  have hd1 : d / s.vol ≤ 1 := by rw [div_le_one hv]; exact min_le_right _ _
  have hd0 : 0 < d / s.vol := div_pos hd hv
  set D := 100 - d / s.vol * 100 with hD
  have hD0 : 0 ≤ D := by linarith
  have hD1 : D < 100 := by linarith
  have hint : (∫ f in (1 - d / s.vol)..1, s.tempAt f) =
      (100 : ℝ)⁻¹ * ∫ x in D..100, max s.inlet (min s.outlet (s.slope * (x + s.shift) + s.inter)) := by
    have := intervalIntegral.integral_comp_mul_right (a := 1 - d / s.vol) (b := 1)
      (fun x => max s.inlet (min s.outlet (s.slope * (x + s.shift) + s.inter))) (c := (100 : ℝ)) (by norm_num)
    unfold StratTank.tempAt
    rw [this, smul_eq_mul, one_mul, sub_mul, one_mul]
  rw [hint, pct_integral s hs hio D hD0 hD1.le]
  unfold StratTank.avgDraw
  simp only
  rw [← hdd, if_neg (not_le.mpr hd), ← hD, max_eq_right hD0, if_neg (by linarith)]
  rw [show 100 - D = d / s.vol * 100 by rw [hD]; ring, inv_mul_eq_div, div_div, mul_comm (100 : ℝ) (d / s.vol)]

/-- The heat drawn from the top `d` gallons above a reference temperature. -/
theorem avg_mul (s : StratTank ℝ) (hv : 0 < s.vol) (hs : 0 < s.slope) (hio : s.inlet ≤ s.outlet) (d cold : ℝ)
    (hd : 0 < d) (hdv : d ≤ s.vol) :
    d * (s.avgDraw d - cold) = s.vol * ∫ f in (1 - d / s.vol)..1, (s.tempAt f - cold) := by
  rw [C52_mean s hv hs hio d hd, min_eq_left hdv, intervalIntegral.integral_sub
    ((tempAt_continuous s).intervalIntegrable _ _) (by simp)]
  rw [intervalIntegral.integral_const, smul_eq_mul]
  field_simp
  ring

/-- **C52 (bounds).** The average draw temperature lies between inlet and outlet temperature. -/
theorem C52_bounds (s : StratTank ℝ) (hv : 0 < s.vol) (hs : 0 < s.slope) (hio : s.inlet ≤ s.outlet) (gal : ℝ) :
    s.inlet ≤ s.avgDraw gal ∧ s.avgDraw gal ≤ s.outlet := by
  rcases le_or_gt gal 0 with hg | hg
  · have : s.avgDraw gal = s.outlet := by
      unfold StratTank.avgDraw
      simp only
      rw [if_pos ((min_le_left _ _).trans hg)]
    rw [this]
    exact ⟨hio, le_rfl⟩
  · rw [C52_mean s hv hs hio gal hg]
    have hd0 : 0 < min gal s.vol / s.vol := div_pos (lt_min hg hv) hv
    set w := min gal s.vol / s.vol
    have hle : 1 - w ≤ 1 := by linarith
    constructor
    · rw [le_div_iff₀ hd0]
      have := intervalIntegral.integral_mono_on hle (f := fun _ => s.inlet) (g := s.tempAt)
        (intervalIntegrable_const (μ := MeasureTheory.volume))
        ((tempAt_continuous s).intervalIntegrable _ _) (fun x _ => (StratTank.tempAt_bounds s hio x).1)
      simp at this
      linarith
    · rw [div_le_iff₀ hd0]
      have := intervalIntegral.integral_mono_on hle (g := fun _ => s.outlet) (f := s.tempAt)
        ((tempAt_continuous s).intervalIntegrable _ _) (intervalIntegrable_const (μ := MeasureTheory.volume)) (fun x _ => (StratTank.tempAt_bounds s hio x).2)
      simp at this
      linarith

/-- Heat above `cold` in the top `d` gallons. -/
noncomputable def topHeat (s : StratTank ℝ) (cold d : ℝ) : ℝ :=
  s.vol * ∫ f in (1 - d / s.vol)..1, (s.tempAt f - cold)

theorem topHeat_sub (s : StratTank ℝ) (hv : 0 < s.vol) (hio : s.inlet ≤ s.outlet) {a b : ℝ} (hab : a ≤ b) :
    topHeat s s.inlet a ≤ topHeat s s.inlet b ∧
    topHeat s s.inlet b - topHeat s s.inlet a ≤ (b - a) * (s.outlet - s.inlet) := by
  have hcont : Continuous fun f => s.tempAt f - s.inlet := (tempAt_continuous s).sub continuous_const
  have hle : 1 - b / s.vol ≤ 1 - a / s.vol := by
    have : a / s.vol ≤ b / s.vol := div_le_div_of_nonneg_right hab hv.le
    linarith
  have hsum : (∫ f in (1 - b / s.vol)..1, (s.tempAt f - s.inlet)) =
      (∫ f in (1 - b / s.vol)..(1 - a / s.vol), (s.tempAt f - s.inlet)) +
      ∫ f in (1 - a / s.vol)..1, (s.tempAt f - s.inlet) :=
    (intervalIntegral.integral_add_adjacent_intervals (hcont.intervalIntegrable _ _)
      (hcont.intervalIntegrable _ _)).symm
  have h0 : 0 ≤ ∫ f in (1 - b / s.vol)..(1 - a / s.vol), (s.tempAt f - s.inlet) :=
    intervalIntegral.integral_nonneg hle (fun x _ => by
      have := (StratTank.tempAt_bounds s hio x).1; linarith)
  have h1 : ∫ f in (1 - b / s.vol)..(1 - a / s.vol), (s.tempAt f - s.inlet) ≤
      (b - a) / s.vol * (s.outlet - s.inlet) := by
    have := intervalIntegral.integral_mono_on hle (g := fun _ => s.outlet - s.inlet)
      (f := fun f => s.tempAt f - s.inlet) (hcont.intervalIntegrable _ _) (intervalIntegrable_const (μ := MeasureTheory.volume)) (fun x _ => by
        have := (StratTank.tempAt_bounds s hio x).2; linarith)
    simp only [intervalIntegral.integral_const, smul_eq_mul] at this
    calc _ ≤ _ := this
      _ = _ := by field_simp; ring
  unfold topHeat
  rw [hsum]
  constructor
  · have := mul_nonneg hv.le h0
    rw [mul_add]; linarith
  · have := mul_le_mul_of_nonneg_left h1 hv.le
    have e : s.vol * ((b - a) / s.vol * (s.outlet - s.inlet)) = (b - a) * (s.outlet - s.inlet) := by field_simp
    rw [mul_add]; linarith

/-- The yield used in the search is the heat of the block. -/
theorem yield_eq (s : StratTank ℝ) (hv : 0 < s.vol) (hs : 0 < s.slope) (hio : s.inlet ≤ s.outlet) (supply d : ℝ)
    (hd : 0 < d) (hdv : d ≤ s.vol) :
    s.yieldAt s.inlet supply d = topHeat s s.inlet d / (supply - s.inlet) := by
  unfold topHeat
  rw [← avg_mul s hv hs hio d s.inlet hd hdv]
  unfold StratTank.yieldAt
  simp only
  split
  · rfl
  · rename_i h
    have := (C52_bounds s hv hs hio d).1
    have e : s.avgDraw d = s.inlet := le_antisymm (not_lt.mp h) this
    rw [e]; simp

/-- The search keeps the demand between its two ends and narrows them. -/
theorem search_spec (s : StratTank ℝ) (hv : 0 < s.vol) (hs : 0 < s.slope) (hio : s.inlet ≤ s.outlet)
    (vol supply : ℝ) (hsup : s.inlet < supply) (n : ℕ) (lo hi : ℝ) (h0 : 0 < lo) (h1 : lo ≤ hi) (h2 : hi ≤ s.vol)
    (h3 : topHeat s s.inlet lo ≤ vol * (supply - s.inlet)) (h4 : vol * (supply - s.inlet) ≤ topHeat s s.inlet hi) :
    let r := s.search vol s.inlet supply n lo hi
    0 < r.1 ∧ r.1 ≤ r.2 ∧ r.2 ≤ s.vol ∧ topHeat s s.inlet r.1 ≤ vol * (supply - s.inlet) ∧
      vol * (supply - s.inlet) ≤ topHeat s s.inlet r.2 ∧ r.2 - r.1 ≤ max (1 / 1000000) ((hi - lo) / 2 ^ n) := by
  have hd : 0 < supply - s.inlet := by linarith
  induction n generalizing lo hi with
  | zero =>
    refine ⟨h0, h1, h2, h3, h4, ?_⟩
    simp [StratTank.search]
  | succ n ih =>
    unfold StratTank.search
    simp only
    set mid := (lo + hi) * (1 / 2) with hm
    have m1 : lo ≤ mid := by linarith
    have m2 : mid ≤ hi := by linarith
    have hy := yield_eq s hv hs hio supply mid (by linarith) (by linarith)
    by_cases hlt : s.yieldAt s.inlet supply mid < vol
    · rw [if_pos hlt]
      have h3' : topHeat s s.inlet mid ≤ vol * (supply - s.inlet) := by
        rw [hy, div_lt_iff₀ hd] at hlt; exact hlt.le
      simp only
      split
      · rename_i hs'
        exact ⟨by linarith, m2, h2, h3', h4, le_trans hs'.le (le_max_left _ _)⟩
      · obtain ⟨a, b, c, d, e, f⟩ := ih mid hi (by linarith) m2 h2 h3' h4
        refine ⟨a, b, c, d, e, f.trans (max_le_max_left _ ?_)⟩
        rw [pow_succ', ← div_div]
        apply div_le_div_of_nonneg_right _ (by positivity)
        linarith
    · rw [if_neg hlt]
      have h4' : vol * (supply - s.inlet) ≤ topHeat s s.inlet mid := by
        rw [not_lt, hy, le_div_iff₀ hd] at hlt; exact hlt
      simp only
      split
      · rename_i hs'
        exact ⟨h0, m1, by linarith, h3, h4', le_trans hs'.le (le_max_left _ _)⟩
      · obtain ⟨a, b, c, d, e, f⟩ := ih lo mid h0 m1 (by linarith) h3 h4'
        refine ⟨a, b, c, d, e, f.trans (max_le_max_left _ ?_)⟩
        rw [pow_succ', ← div_div]
        apply div_le_div_of_nonneg_right _ (by positivity)
        linarith

/-- The tank as it reads with given inlet and outlet temperatures. -/
def StratTank.refresh (s : StratTank ℝ) (cold outlet : ℝ) : StratTank ℝ := { s with inlet := cold, outlet := outlet }

/-- **C53, partial.** If the tank covers the demand (its whole heat above cold is at least the demanded heat) and
some water is still usable after the draw, then the block of `d` gallons by which the thermocline moved carries
the demanded heat, up to the tolerances of the search: a millionth of a degree over the tank in the direct
case, and a millionth of a gallon (or `vol / 2^52`) at outlet temperature in the search. Missing: draws that
exhaust the usable water are cut off by the floor (`C53_floor`), and a tank heated to the bottom keeps a
hot zone even if its whole volume is drawn (`C53_full_draw_leaves_hot_water`). -/
theorem C53_draw_partial (s : StratTank ℝ) (hv : 0 < s.vol) (hs : 0 < s.slope) (vol cold supply outlet : ℝ)
    (h1 : 0 < vol) (h2 : cold < supply) (h3 : supply ≤ outlet)
    (hcover : vol * (supply - cold) ≤ s.vol * ∫ f in (0:ℝ)..1, ((s.refresh cold outlet).tempAt f - cold))
    (hleft : 0 < (s.draw vol cold supply outlet).usable supply) :
    let d := s.delta - (s.draw vol cold supply outlet).delta
    0 < d ∧ d ≤ s.vol ∧
    |s.vol * (∫ f in (1 - d / s.vol)..1, ((s.refresh cold outlet).tempAt f - cold)) - vol * (supply - cold)| ≤
      s.vol / 1000000 + (1 / 1000000 + s.vol / 2 ^ 52) * (outlet - cold) := by
  set s0 := s.refresh cold outlet with hs0
  have hv0 : 0 < s0.vol := hv
  have hs0' : 0 < s0.slope := hs
  have hio : s0.inlet ≤ s0.outlet := by show cold ≤ outlet; linarith
  have hoc : 0 < outlet - cold := by linarith
  have hsc : 0 < supply - cold := by linarith
  have hdel : (s.draw vol cold supply outlet).delta = s.delta - s0.drawVol vol cold supply outlet := by
    have hd : s.draw vol cold supply outlet = { s0 with
        delta := max (s0.delta - s0.drawVol vol cold supply outlet) (s0.deltaFloor (some supply)) } := by
      unfold StratTank.draw
      simp only
      rw [if_neg (by rw [not_or, not_le, not_le]; exact ⟨by linarith, h1⟩)]
      rfl
    rw [hd] at hleft ⊢
    rcases le_total (s0.delta - s0.drawVol vol cold supply outlet) (s0.deltaFloor (some supply)) with hc | hc
    · rw [max_eq_right hc, usable_floor s0 hv le_rfl] at hleft
      exact absurd hleft (lt_irrefl _)
    · simp only
      rw [max_eq_left hc]
      rfl
  intro d
  have hd : d = s0.drawVol vol cold supply outlet := by simp only [d]; rw [hdel]; ring
  rw [hd]
  set phys := vol * (supply - cold) / (outlet - cold) with hphys
  have hp0 : 0 < phys := div_pos (mul_pos h1 hsc) hoc
  have hpe : phys * (outlet - cold) = vol * (supply - cold) := by rw [hphys]; field_simp
  have hwhole : topHeat s0 s0.inlet s0.vol = s.vol * ∫ f in (0:ℝ)..1, (s0.tempAt f - cold) := by
    unfold topHeat
    rw [div_self hv0.ne', sub_self]
    rfl
  have htop0 : topHeat s0 s0.inlet 0 = 0 := by unfold topHeat; simp
  have hpv : phys ≤ s.vol := by
    have h := (topHeat_sub s0 hv0 hio hv0.le).2
    rw [htop0, hwhole, sub_zero, sub_zero] at h
    have : phys * (outlet - cold) ≤ s.vol * (outlet - cold) := by rw [hpe]; exact hcover.trans h
    exact le_of_mul_le_mul_right this hoc
  have hle : topHeat s0 s0.inlet phys ≤ vol * (supply - cold) := by
    have h := (topHeat_sub s0 hv0 hio hp0.le).2
    rw [htop0, sub_zero, sub_zero] at h
    rw [← hpe]; exact h
  have hpow : (0:ℝ) < s.vol / 2 ^ 52 := by positivity
  show 0 < s0.drawVol vol cold supply outlet ∧ s0.drawVol vol cold supply outlet ≤ s.vol ∧
    |topHeat s0 s0.inlet (s0.drawVol vol cold supply outlet) - vol * (supply - cold)| ≤ _
  unfold StratTank.drawVol
  simp only
  rw [← hphys]
  split
  · rename_i hfast
    refine ⟨hp0, hpv, ?_⟩
    have havg := avg_mul s0 hv0 hs0' hio phys s0.inlet hp0 hpv
    rw [abs_sub_comm, abs_of_nonneg (by linarith)]
    have e : topHeat s0 s0.inlet phys = phys * (s0.avgDraw phys - s0.inlet) := by rw [havg]; rfl
    have hin : s0.inlet = cold := rfl
    rw [e, hin, ← hpe]
    have : phys * (outlet - s0.avgDraw phys) ≤ s.vol * (1 / 1000000) :=
      mul_le_mul hpv (by linarith) (by
        have h := (C52_bounds s0 hv0 hs0' hio phys).2
        have : s0.outlet = outlet := rfl
        linarith) hv.le
    have h2 : 0 ≤ (1 / 1000000 + s.vol / 2 ^ 52) * (outlet - cold) := mul_nonneg (by positivity) hoc.le
    nlinarith
  · obtain ⟨a, b, c, d1, d2, e⟩ := search_spec s0 hv0 hs0' hio vol supply h2 52 phys s0.vol hp0 hpv le_rfl hle
      (by rw [hwhole]; exact hcover)
    have hin : s0.inlet = cold := rfl
    rw [hin] at a b c d1 d2 e
    set r := s0.search vol cold supply 52 phys s0.vol with hr
    have hmid : min ((r.1 + r.2) * (1 / 2)) s0.vol = (r.1 + r.2) * (1 / 2) := min_eq_left (by linarith)
    rw [hmid]
    refine ⟨by linarith, by
      have : s0.vol = s.vol := rfl
      linarith, ?_⟩
    have t1 := topHeat_sub s0 hv0 hio (show r.1 ≤ (r.1 + r.2) * (1 / 2) by linarith)
    have t2 := topHeat_sub s0 hv0 hio (show (r.1 + r.2) * (1 / 2) ≤ r.2 by linarith)
    rw [hin] at t1 t2
    have ho : s0.outlet = outlet := rfl
    rw [ho] at t1 t2
    have hw : r.2 - r.1 ≤ 1 / 1000000 + s.vol / 2 ^ 52 := by
      apply e.trans
      apply max_le
      · linarith
      · have : (s0.vol - phys) / 2 ^ 52 ≤ s.vol / 2 ^ 52 :=
          div_le_div_of_nonneg_right (by have : s0.vol = s.vol := rfl; linarith) (by positivity)
        linarith
    have hw' : (r.2 - r.1) * (outlet - cold) ≤ (1 / 1000000 + s.vol / 2 ^ 52) * (outlet - cold) :=
      mul_le_mul_of_nonneg_right hw hoc.le
    have hwn : 0 ≤ s.vol / 1000000 := by positivity
    have hhalf : 0 ≤ (r.2 - r.1) * (outlet - cold) := mul_nonneg (by linarith) hoc.le
    rw [hin, abs_le]
    constructor <;> nlinarith [t1.1, t1.2, t2.1, t2.2]

/-- **C53 (floor).** The thermocline never moves up beyond the point where the top of the tank is at supply
temperature, whatever the demand: a draw that exhausts the usable water removes at most that much. -/
theorem C53_floor (s : StratTank ℝ) (hv : 0 < s.vol) (hs : 0 < s.slope) (vol cold supply outlet : ℝ)
    (h1 : 0 < vol) (h2 : cold < supply) (h3 : supply ≤ outlet) :
    supply ≤ (s.draw vol cold supply outlet).tempAt 1 := by
  unfold StratTank.draw
  simp only
  rw [if_neg (by rw [not_or, not_le, not_le]; exact ⟨by linarith, h1⟩)]
  generalize hx : StratTank.drawVol _ vol cold supply outlet = x
  have hfl : ((supply - s.inter) / s.slope - 100) * s.vol / 100 ≤ max (s.delta - x)
      (StratTank.deltaFloor { s with inlet := cold, outlet := outlet } (some supply)) := le_max_right _ _
  generalize max (s.delta - x)
    (StratTank.deltaFloor { s with inlet := cold, outlet := outlet } (some supply)) = d at hfl
  unfold StratTank.tempAt StratTank.shift
  simp only
  apply le_max_of_le_right
  apply le_min h3
  have : (supply - s.inter) / s.slope - 100 ≤ d / s.vol * 100 := by
    rw [div_mul_eq_mul_div, le_div_iff₀ hv]
    linarith
  have h4 : (supply - s.inter) / s.slope ≤ 1 * 100 + d / s.vol * 100 := by linarith
  rw [div_le_iff₀ hs] at h4
  linarith

/-- **C53 (heat balance).** If the bottom of the tank is cold before the draw, then moving the thermocline up by
`d` gallons removes exactly the heat of the top `d` gallons: what is drawn leaves the tank, and cold water
takes its place. -/
theorem C53_heat_balance (s : StratTank ℝ) (hv : 0 < s.vol) (hs : 0 < s.slope) (d : ℝ) (hd : 0 ≤ d)
    (hcold : s.tempAt 0 = s.inlet) :
    s.vol * (∫ f in (0:ℝ)..1, (({ s with delta := s.delta - d } : StratTank ℝ).tempAt f - s.inlet)) =
      s.vol * (∫ f in (0:ℝ)..1, (s.tempAt f - s.inlet)) -
      s.vol * ∫ f in (1 - d / s.vol)..1, (s.tempAt f - s.inlet) := by
  have hcont : Continuous fun f => s.tempAt f - s.inlet := (tempAt_continuous s).sub continuous_const
  have hshift : ∀ f, ({ s with delta := s.delta - d } : StratTank ℝ).tempAt f = s.tempAt (f - d / s.vol) := by
    intro f
    unfold StratTank.tempAt StratTank.shift
    simp only
    congr 3
    field_simp
    ring
  have h1 : (∫ f in (0:ℝ)..1, (({ s with delta := s.delta - d } : StratTank ℝ).tempAt f - s.inlet)) =
      ∫ f in (0 - d / s.vol)..(1 - d / s.vol), (s.tempAt f - s.inlet) := by
    rw [← intervalIntegral.integral_comp_sub_right (fun f => s.tempAt f - s.inlet)]
    apply intervalIntegral.integral_congr
    intro f _
    simp only [hshift]
  have hd0 : 0 ≤ d / s.vol := div_nonneg hd hv.le
  have hz : (∫ f in (0 - d / s.vol)..0, (s.tempAt f - s.inlet)) = 0 := by
    rw [intervalIntegral.integral_congr (g := fun _ => (0:ℝ))]
    · simp
    · intro f hf
      rw [Set.uIcc_of_le (by linarith)] at hf
      have a := StratTank.tempAt_mono s hs.le hf.2
      have b : s.inlet ≤ s.tempAt f := le_max_left _ _
      simp only
      rw [hcold] at a
      linarith
  have h2 : (∫ f in (0:ℝ)..1, (s.tempAt f - s.inlet)) = (∫ f in (0:ℝ)..(1 - d / s.vol), (s.tempAt f - s.inlet)) +
      ∫ f in (1 - d / s.vol)..1, (s.tempAt f - s.inlet) :=
    (intervalIntegral.integral_add_adjacent_intervals (hcont.intervalIntegrable _ _)
      (hcont.intervalIntegrable _ _)).symm
  have h3 : (∫ f in (0 - d / s.vol)..(1 - d / s.vol), (s.tempAt f - s.inlet)) =
      (∫ f in (0 - d / s.vol)..0, (s.tempAt f - s.inlet)) + ∫ f in (0:ℝ)..(1 - d / s.vol), (s.tempAt f - s.inlet) :=
    (intervalIntegral.integral_add_adjacent_intervals (hcont.intervalIntegrable _ _)
      (hcont.intervalIntegrable _ _)).symm
  rw [h1, h2, h3, hz]
  ring

/-- **C54 (heat content).** If the top of the tank is at outlet temperature before, and its bottom still cold
after the heating step, the heat content rises by exactly the heat supplied. -/
theorem C54_heat_content (s : StratTank ℝ) (hv : 0 < s.vol) (hs : 0 < s.slope) (kbtuh dur : ℝ) (hk : 0 < kbtuh)
    (hd : 0 ≤ dur) (hio : s.inlet < s.outlet) (htop : s.tempAt 1 = s.outlet)
    (hbot : (s.heat kbtuh dur s.outlet).tempAt 0 = s.inlet) :
    rhoCp ℝ * s.vol * (∫ f in (0:ℝ)..1, (s.heat kbtuh dur s.outlet).tempAt f) =
      rhoCp ℝ * s.vol * (∫ f in (0:ℝ)..1, s.tempAt f) + 1000 * (kbtuh * (dur / 60)) := by
  have hr : (0 : ℝ) < rhoCp ℝ := by unfold rhoCp; positivity
  have hcont := tempAt_continuous s
  set w := kbtuh * dur / 60 * 1000 / (rhoCp ℝ * (s.outlet - s.inlet)) with hw
  have hw0 : 0 ≤ w := by
    apply div_nonneg
    · have := mul_nonneg hk.le hd
      positivity
    · exact mul_nonneg hr.le (by linarith)
  have hdel : s.heat kbtuh dur s.outlet = { s with delta := s.delta + w } := by
    have he : s.heat kbtuh dur s.outlet =
        { s with delta := min (s.delta + w) ((s.outlet - s.inter) / s.slope * s.vol / 100) } := by
      unfold StratTank.heat
      simp only
      rw [if_neg (by rw [not_or, not_le, not_le]; exact ⟨hk, hio⟩)]
    rw [he]
    rcases le_total (s.delta + w) ((s.outlet - s.inter) / s.slope * s.vol / 100) with hm | hm
    · rw [min_eq_left hm]
    · exfalso
      rw [he, min_eq_right hm] at hbot
      unfold StratTank.tempAt StratTank.shift at hbot
      simp only at hbot
      have e : s.slope * (0 * 100 + (s.outlet - s.inter) / s.slope * s.vol / 100 / s.vol * 100) + s.inter =
          s.outlet := by field_simp; ring
      rw [e, min_self, max_eq_right hio.le] at hbot
      linarith
  have hshift : ∀ f, ({ s with delta := s.delta + w } : StratTank ℝ).tempAt f = s.tempAt (f + w / s.vol) := by
    intro f
    unfold StratTank.tempAt StratTank.shift
    simp only
    congr 3
    field_simp
    ring
  rw [hdel] at hbot ⊢
  have hw1 : 0 ≤ w / s.vol := div_nonneg hw0 hv.le
  have h1 : (∫ f in (0:ℝ)..1, ({ s with delta := s.delta + w } : StratTank ℝ).tempAt f) =
      ∫ f in (0 + w / s.vol)..(1 + w / s.vol), s.tempAt f := by
    rw [← intervalIntegral.integral_comp_add_right]
    apply intervalIntegral.integral_congr
    intro f _
    exact hshift f
  have h2 : (∫ f in (0 + w / s.vol)..(1 + w / s.vol), s.tempAt f) = (∫ f in (0:ℝ)..1, s.tempAt f) +
      (∫ f in (1:ℝ)..(1 + w / s.vol), s.tempAt f) - ∫ f in (0:ℝ)..(0 + w / s.vol), s.tempAt f := by
    have a := intervalIntegral.integral_add_adjacent_intervals
      (hcont.intervalIntegrable (μ := MeasureTheory.volume) 0 (0 + w / s.vol)) (hcont.intervalIntegrable (0 + w / s.vol) (1 + w / s.vol))
    have b := intervalIntegral.integral_add_adjacent_intervals
      (hcont.intervalIntegrable (μ := MeasureTheory.volume) 0 1) (hcont.intervalIntegrable 1 (1 + w / s.vol))
    linarith
  have h3 : (∫ f in (1:ℝ)..(1 + w / s.vol), s.tempAt f) = w / s.vol * s.outlet := by
    rw [intervalIntegral.integral_congr (g := fun _ => s.outlet)]
    · simp
    · intro f hf
      rw [Set.uIcc_of_le (by linarith)] at hf
      exact le_antisymm (StratTank.tempAt_bounds s hio.le f).2 (htop ▸ StratTank.tempAt_mono s hs.le hf.1)
  have h4 : (∫ f in (0:ℝ)..(0 + w / s.vol), s.tempAt f) = w / s.vol * s.inlet := by
    rw [intervalIntegral.integral_congr (g := fun _ => s.inlet)]
    · simp
    · intro f hf
      rw [Set.uIcc_of_le (by linarith)] at hf
      have hb : s.tempAt (0 + w / s.vol) = s.inlet := by rw [← hshift]; exact hbot
      exact le_antisymm (hb ▸ StratTank.tempAt_mono s hs.le hf.2) (StratTank.tempAt_bounds s hio.le f).1
  rw [h1, h2, h3, h4, hw]
  have : s.outlet - s.inlet ≠ 0 := by linarith
  field_simp
  ring

end real

/-- **C53 fails for a fully charged tank.** Heat the demonstration tank until it is full and then draw more than it
can hold: its whole volume is replaced by cold water, yet over 10 of 100 gallons are still reported usable, because
the thermocline is only moved by one tank volume. -/
theorem C53_full_draw_leaves_hot_water :
    (Demo.tank.heat 1000 60 150).usable 120 = 100 ∧
    (Demo.tank.heat 1000 60 150).tempAt 0 = 150 ∧
    ((Demo.tank.heat 1000 60 150).drawPhysical 100 50 (some 120)).tempAt 1 = 150 ∧
    10 < ((Demo.tank.heat 1000 60 150).drawPhysical 100 50 (some 120)).usable 120 := by
  decide +kernel

end Eco
