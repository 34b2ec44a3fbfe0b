import Verif.Spec.Mixed
import Mathlib.Algebra.Order.Field.Basic
import Mathlib.Algebra.Order.Field.Rat
import Mathlib.Tactic.Linarith
import Mathlib.Tactic.FieldSimp
import Mathlib.Tactic.Positivity
import Mathlib.Tactic.NormNum
import Mathlib.Tactic.Ring
import Mathlib.Tactic.LinearCombination

/-! C58 to C60: the fully mixed tank. -/

namespace Eco
set_option linter.unusedSectionVars false
open Spec

variable {K : Type} [Field K] [LinearOrder K] [IsStrictOrderedRing K]

theorem rho_pos : (0 : K) < rhoCp K := by unfold rhoCp; positivity

/-! ## C58 -/

/-- **C58 (draw).** A draw of supply-temperature water takes out exactly the demanded heat whenever the tank holds
it (and is at least a millionth of a degree above the cold water). -/
theorem C58_draw (s : MixedTank K) (hv : 0 < s.vol) (vol cold supply : K) (h0 : 0 ≤ vol)
    (ht : cold + 1 / 1000000 ≤ s.temp) (hfit : vol * (supply - cold) ≤ s.vol * (s.temp - cold)) :
    heatContent (s.draw vol cold supply) = heatContent s - vol * rhoCp K * (supply - cold) := by
  have hr := rho_pos (K := K)
  have hT : 0 < s.temp - cold := by
    have : (0 : K) < 1 / 1000000 := by positivity
    linarith
  unfold heatContent MixedTank.draw MixedTank.tempAt
  simp only
  split
  · rename_i hc
    rcases hc with hc | hc
    · linarith
    · have : vol = 0 := le_antisymm hc h0
      rw [this]; simp
  · rw [max_eq_left (by linarith)]
    split
    · rename_i hrem
      have hge : s.vol * (s.temp - cold) ≤ vol * (supply - cold) := by
        rw [sub_nonpos, le_div_iff₀ hT] at hrem
        exact hrem
      have := le_antisymm hfit hge
      simp only
      linear_combination rhoCp K * this
    · simp only
      field_simp
      ring

/-- **C58 (overdraw).** A draw of more heat than the tank holds above the cold water leaves it cold. -/
theorem C58_draw_empty (s : MixedTank K) (vol cold supply : K) (ht : cold + 1 / 1000000 ≤ s.temp)
    (h0 : 0 < vol) (hfit : s.vol * (s.temp - cold) ≤ vol * (supply - cold)) :
    (s.draw vol cold supply).tempAt 0 = cold := by
  have hT : 0 < s.temp - cold := by
    have : (0 : K) < 1 / 1000000 := by positivity
    linarith
  unfold MixedTank.draw MixedTank.tempAt
  simp only
  rw [if_neg (by rw [not_or, not_le, not_le]; exact ⟨by linarith, h0⟩), max_eq_left (by linarith), if_pos]
  rw [sub_nonpos, le_div_iff₀ hT]
  exact hfit

/-- **C58 (heating).** -/
theorem C58_heat (s : MixedTank K) (hv : 0 < s.vol) (kbtuh dur outlet : K) (h0 : 0 ≤ kbtuh) :
    heatContent (s.heat kbtuh dur outlet) = heatContent s + 1000 * kbtuh * (dur / 60) := by
  have hr := rho_pos (K := K)
  unfold heatContent MixedTank.heat MixedTank.tempAt
  split
  · rename_i hc
    rw [le_antisymm hc h0]; simp
  · simp only
    field_simp

/-- **C58 (recirculation).** The loop takes out `flow × minutes` gallons at tank temperature and brings them back at
the return temperature. -/
theorem C58_recirc (s : MixedTank K) (hv : 0 < s.vol) (flow ret dur : K) :
    heatContent (s.recirc flow ret dur) = heatContent s + flow * dur * rhoCp K * (ret - s.tempAt 0) := by
  unfold heatContent MixedTank.recirc MixedTank.tempAt
  simp only
  field_simp

/-- **C58 (fixed loss).** -/
theorem C58_loss (s : MixedTank K) (hv : 0 < s.vol) (kbtuh dur : K) (h0 : 0 ≤ kbtuh) (h1 : 0 ≤ dur) :
    heatContent (s.loss kbtuh dur) = heatContent s - 1000 * kbtuh * (dur / 60) := by
  have hr := rho_pos (K := K)
  unfold heatContent MixedTank.loss MixedTank.tempAt
  split
  · rename_i hc
    rcases hc with hc | hc
    · rw [le_antisymm hc h0]; simp
    · rw [le_antisymm hc h1]; simp
  · simp only
    field_simp

/-- **C58 (inflow).** -/
theorem C58_mix (s : MixedTank K) (hv : 0 < s.vol) (gal primary : K) (h0 : 0 ≤ gal) (h1 : gal ≤ s.vol) :
    heatContent (s.mix gal primary) = heatContent s + gal * rhoCp K * (primary - s.tempAt 0) := by
  have hr := rho_pos (K := K)
  unfold heatContent MixedTank.mix MixedTank.tempAt
  split
  · rename_i hc
    rw [le_antisymm hc h0]; simp
  · simp only
    split
    · rename_i hc
      have : gal = s.vol := le_antisymm h1 (by linarith)
      simp only
      rw [this]; ring
    · simp only
      field_simp
      ring

/-- **C58 (physical draw).** -/
theorem C58_draw_physical (s : MixedTank K) (hv : 0 < s.vol) (gal inlet : K) (h0 : 0 ≤ gal) (h1 : gal ≤ s.vol) :
    heatContent (s.drawPhysical gal inlet) = heatContent s + gal * rhoCp K * (inlet - s.tempAt 0) := by
  have hr := rho_pos (K := K)
  unfold heatContent MixedTank.drawPhysical MixedTank.tempAt
  split
  · rename_i hc
    rw [le_antisymm hc h0]; simp
  · simp only
    split
    · rename_i hc
      have : gal = s.vol := le_antisymm h1 (by linarith)
      simp only
      rw [this]; ring
    · simp only
      field_simp
      ring

/-- **C58 limit.** A tank that is colder than the make-up water is left alone by a draw of supply-temperature
water, although warmer water enters: nothing is booked. -/
theorem C58_cold_tank_unchanged (s : MixedTank K) (vol cold supply : K) (h : s.temp ≤ cold) :
    heatContent (s.draw vol cold supply) = heatContent s := by
  unfold heatContent MixedTank.draw MixedTank.tempAt
  simp [h]

namespace Demo
/-- An 80-gallon mixed tank at 125 °F. -/
def mixed : MixedTank ℚ := ⟨80, 125, 50⟩
end Demo

/-- Non-vacuity of C58: a 20-gallon draw at 120 °F from 50 °F water. -/
example : (0 : ℚ) < Demo.mixed.vol ∧ (50 : ℚ) + 1 / 1000000 ≤ Demo.mixed.temp ∧
    (20 : ℚ) * (120 - 50) ≤ Demo.mixed.vol * (Demo.mixed.temp - 50) ∧
    (Demo.mixed.draw 20 50 120).temp = 215 / 2 := by
  norm_num [Demo.mixed, MixedTank.draw, rhoCp]

/-! ## C59 -/

theorem combo_mem {a b w x y : K} (hw0 : 0 ≤ w) (hw1 : w ≤ 1) (hx : a ≤ x ∧ x ≤ b) (hy : a ≤ y ∧ y ≤ b) :
    a ≤ (1 - w) * x + w * y ∧ (1 - w) * x + w * y ≤ b := by
  constructor
  · have h1 := mul_le_mul_of_nonneg_left hx.1 (show 0 ≤ 1 - w by linarith)
    have h2 := mul_le_mul_of_nonneg_left hy.1 hw0
    linarith
  · have h1 := mul_le_mul_of_nonneg_left hx.2 (show 0 ≤ 1 - w by linarith)
    have h2 := mul_le_mul_of_nonneg_left hy.2 hw0
    linarith

theorem water_step (s : MixedTank K) (hv : 0 < s.vol) (op : WaterOp K) (hop : op.Sensible s.vol) {a b : K}
    (ht : a ≤ s.temp ∧ s.temp ≤ b) (hi : a ≤ op.incoming ∧ op.incoming ≤ b) :
    (op.run s).vol = s.vol ∧ a ≤ (op.run s).temp ∧ (op.run s).temp ≤ b := by
  have hr := rho_pos (K := K)
  cases op with
  | draw vol cold supply =>
    unfold WaterOp.run MixedTank.draw
    simp only
    have hi' : a ≤ cold ∧ cold ≤ b := hi
    split
    · exact ⟨rfl, ht⟩
    · rename_i hc
      rw [not_or, not_le, not_le] at hc
      set p := vol * (supply - cold) / max (s.temp - cold) (1 / 1000000) with hp
      have hp0 : 0 ≤ p := by
        apply div_nonneg (mul_nonneg hc.2.le (sub_nonneg.mpr hop))
        exact le_max_of_le_right (by positivity)
      split
      · exact ⟨rfl, hi'⟩
      · rename_i hrem
        rw [not_le] at hrem
        refine ⟨rfl, ?_⟩
        have e : ((s.vol - p) * rhoCp K * s.temp + p * rhoCp K * cold) / (s.vol * rhoCp K) =
            (1 - p / s.vol) * s.temp + p / s.vol * cold := by field_simp
        simp only
        rw [e]
        exact combo_mem (div_nonneg hp0 hv.le) (by rw [div_le_one hv]; linarith) ht hi'
  | drawPhysical gal inlet =>
    unfold WaterOp.run MixedTank.drawPhysical
    simp only
    have hi' : a ≤ inlet ∧ inlet ≤ b := hi
    split
    · exact ⟨rfl, ht⟩
    · rename_i hc
      rw [not_le] at hc
      split
      · exact ⟨rfl, hi'⟩
      · rename_i hrem
        rw [not_le] at hrem
        refine ⟨rfl, ?_⟩
        have e : ((s.vol - gal) * rhoCp K * s.temp + gal * rhoCp K * inlet) / (s.vol * rhoCp K) =
            (1 - gal / s.vol) * s.temp + gal / s.vol * inlet := by field_simp
        simp only
        rw [e]
        exact combo_mem (div_nonneg hc.le hv.le) (by rw [div_le_one hv]; linarith) ht hi'
  | mix gal primary =>
    unfold WaterOp.run MixedTank.mix
    simp only
    have hi' : a ≤ primary ∧ primary ≤ b := hi
    split
    · exact ⟨rfl, ht⟩
    · rename_i hc
      rw [not_le] at hc
      split
      · exact ⟨rfl, hi'⟩
      · rename_i hrem
        rw [not_le] at hrem
        refine ⟨rfl, ?_⟩
        have e : (gal * rhoCp K * primary + (s.vol - gal) * rhoCp K * s.temp) / (s.vol * rhoCp K) =
            (1 - gal / s.vol) * s.temp + gal / s.vol * primary := by field_simp; ring
        simp only
        rw [e]
        exact combo_mem (div_nonneg hc.le hv.le) (by rw [div_le_one hv]; linarith) ht hi'
  | recirc flow ret dur =>
    unfold WaterOp.run MixedTank.recirc
    have hi' : a ≤ ret ∧ ret ≤ b := hi
    have hop' : 0 ≤ flow * dur ∧ flow * dur ≤ s.vol := hop
    refine ⟨rfl, ?_⟩
    have e : s.temp + flow * dur * (ret - s.temp) / s.vol =
        (1 - flow * dur / s.vol) * s.temp + flow * dur / s.vol * ret := by field_simp; ring
    simp only
    rw [e]
    exact combo_mem (div_nonneg hop'.1 hv.le) (by rw [div_le_one hv]; exact hop'.2) ht hi'

/-- **C59.** After any history of water movements the tank temperature lies in every range that contains the
initial temperature and the temperatures of all incoming water. -/
theorem C59_range (s : MixedTank K) (hv : 0 < s.vol) (ops : List (WaterOp K)) (a b : K)
    (ht : a ≤ s.tempAt 0 ∧ s.tempAt 0 ≤ b)
    (hops : ∀ op ∈ ops, op.Sensible s.vol ∧ a ≤ op.incoming ∧ op.incoming ≤ b) (f : K) :
    a ≤ (ops.foldl WaterOp.run s).tempAt f ∧ (ops.foldl WaterOp.run s).tempAt f ≤ b := by
  induction ops generalizing s with
  | nil => exact ht
  | cons op ops ih =>
    rw [List.foldl_cons]
    have h1 := hops op (by simp)
    obtain ⟨e, b1, b2⟩ := water_step s hv op h1.1 ht h1.2
    exact ih (op.run s) (by rw [e]; exact hv) ⟨b1, b2⟩ (fun o ho => by rw [e]; exact hops o (by simp [ho]))

/-- **C59 limit.** If the loop circulates more than the tank volume in one step, the tank gets colder than both its
own and the return temperature. -/
theorem C59_needs_volume (s : MixedTank K) (hv : 0 < s.vol) (flow ret dur : K) (h : s.vol < flow * dur)
    (ht : ret < s.tempAt 0) : (s.recirc flow ret dur).tempAt 0 < ret := by
  unfold MixedTank.recirc MixedTank.tempAt at *
  simp only
  rw [← sub_pos]
  have e : ret - (s.temp + flow * dur * (ret - s.temp) / s.vol) = (flow * dur - s.vol) * (s.temp - ret) / s.vol := by
    field_simp; ring
  rw [e]
  exact div_pos (mul_pos (by linarith) (by linarith)) hv

/-- Non-vacuity of C59. -/
example : ∀ op ∈ [WaterOp.draw (20 : ℚ) 50 120, .mix 5 150, .recirc 2 110 10],
    op.Sensible Demo.mixed.vol ∧ 50 ≤ op.incoming ∧ op.incoming ≤ 150 := by
  intro op hop
  simp only [List.mem_cons, List.not_mem_nil, or_false] at hop
  rcases hop with rfl | rfl | rfl <;> norm_num [WaterOp.Sensible, WaterOp.incoming, Demo.mixed]

/-! ## C60 -/

/-- **C60, partial.** A heating step leaves the tank at or below the outlet temperature exactly when the heat
supplied is at most what the tank can take up to the outlet temperature. The full property (never above the
outlet temperature) is false: `C60_exceeds_outlet`. -/
theorem C60_cap_partial (s : MixedTank K) (hv : 0 < s.vol) (kbtuh dur outlet : K) (h0 : 0 ≤ kbtuh) :
    (s.heat kbtuh dur outlet).tempAt 0 ≤ outlet ↔
      1000 * kbtuh * (dur / 60) ≤ s.vol * rhoCp K * (outlet - s.tempAt 0) := by
  have hb := C58_heat s hv kbtuh dur outlet h0
  have hvr : 0 < s.vol * rhoCp K := mul_pos hv rho_pos
  have hvol : (s.heat kbtuh dur outlet).vol = s.vol := by unfold MixedTank.heat; split <;> rfl
  unfold heatContent at hb
  rw [hvol] at hb
  rw [← mul_le_mul_iff_right₀ hvr, hb, mul_sub]
  constructor <;> intro h <;> linarith

/-- **C60 is false for every tank.** Whatever the tank, outlet temperature and step length, some heating rate
lifts the tank above the outlet temperature. -/
theorem C60_exceeds_outlet (s : MixedTank K) (hv : 0 < s.vol) (dur outlet : K) (hd : 0 < dur) :
    ∃ kbtuh, 0 < kbtuh ∧ outlet < (s.heat kbtuh dur outlet).tempAt 0 := by
  refine ⟨(max 0 (s.vol * rhoCp K * (outlet - s.tempAt 0)) + 1) * 60 / dur / 1000, ?_, ?_⟩
  · have : 0 < max 0 (s.vol * rhoCp K * (outlet - s.tempAt 0)) + 1 :=
      lt_of_lt_of_le one_pos (by linarith [le_max_left 0 (s.vol * rhoCp K * (outlet - s.tempAt 0))])
    positivity
  · rw [← not_le, C60_cap_partial s hv]
    · rw [not_le]
      have e : 1000 * ((max 0 (s.vol * rhoCp K * (outlet - s.tempAt 0)) + 1) * 60 / dur / 1000) * (dur / 60) =
          max 0 (s.vol * rhoCp K * (outlet - s.tempAt 0)) + 1 := by field_simp
      rw [e]
      have := le_max_right 0 (s.vol * rhoCp K * (outlet - s.tempAt 0))
      linarith
    · have : 0 < max 0 (s.vol * rhoCp K * (outlet - s.tempAt 0)) + 1 :=
        lt_of_lt_of_le one_pos (by linarith [le_max_left 0 (s.vol * rhoCp K * (outlet - s.tempAt 0))])
      positivity

/-- A realistic case: ten minutes at 60 kBTU/h lift the 80-gallon tank from 125 °F to above 128 °F. -/
example : (128 : ℚ) < (Demo.mixed.heat 60 10 128).tempAt 0 := by
  norm_num [Demo.mixed, MixedTank.heat, MixedTank.tempAt, rhoCp]

/-! ## C111 -/

/-- **C111.** The usable volume of a mixed tank is the part of the tank that is at least as warm as asked for: everything
above that part's lower edge is warm enough, everything below is not. -/
theorem C111_usable_exact (s : MixedTank K) (hv : 0 < s.vol) (t f : K) (f0 : 0 ≤ f) (f1 : f ≤ 1) :
    (1 - s.usable t / s.vol < f → t ≤ s.tempAt f) ∧ (f < 1 - s.usable t / s.vol → s.tempAt f < t) ∧
    (t ≤ s.tempAt f ↔ s.usable t = s.vol) := by
  unfold MixedTank.usable MixedTank.tempAt
  split
  · rename_i h
    rw [div_self hv.ne']
    exact ⟨fun _ => h, fun hf => by linarith, by simp [h]⟩
  · rename_i h
    rw [zero_div]
    exact ⟨fun hf => by linarith, fun _ => not_le.1 h, by simp only [h, false_iff]; exact hv.ne⟩

/-- A tank exactly at supply temperature is usable as a whole, and after one draw not at all. -/
example : (MixedTank.mk (100 : ℚ) 120 50).usable 120 = 100 ∧ ((MixedTank.mk (100 : ℚ) 120 50).draw 1 50 120).usable 120 = 0 := by
  decide +kernel

end Eco
