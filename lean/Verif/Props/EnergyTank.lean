import Verif.Props.StratTank

/-! C55 to C57: the energy tank. -/

namespace Eco
set_option linter.unusedSectionVars false
open Spec

section general
variable {K : Type} [Field K] [LinearOrder K] [IsStrictOrderedRing K]

theorem rhoCp_pos : (0 : K) < rhoCp K := by unfold rhoCp; positivity

/-- A physical energy tank: positive volume and slope, cold not above storage, inlet pipe within the tank. -/
structure EnergyTank.Phys (s : EnergyTank K) : Prop where
  volOk : 0 < s.vol
  slopeOk : 0 < s.slope
  tempOk : s.cold ≤ s.storage
  pctOk : 0 ≤ s.coldPct
  pctOk' : s.coldPct ≤ 100

theorem maxEnergy_nonneg (s : EnergyTank K) (h : s.Phys) : 0 ≤ s.maxEnergy := by
  unfold EnergyTank.maxEnergy
  have h1 : 0 ≤ 1 - s.coldPct / 100 := by
    have : s.coldPct / 100 ≤ 1 := by rw [div_le_one (by norm_num)]; exact h.pctOk'
    linarith
  exact mul_nonneg (mul_nonneg (mul_nonneg h1 h.volOk.le) rhoCp_pos.le) (by linarith [h.tempOk])

theorem energyAt_bounds (s : EnergyTank K) (h : s.Phys) (sh : K) : 0 ≤ s.energyAt sh ∧ s.energyAt sh ≤ s.maxEnergy := by
  unfold EnergyTank.energyAt
  simp only
  split
  · exact ⟨le_rfl, maxEnergy_nonneg s h⟩
  · rename_i hdT
    rw [not_le] at hdT
    set dT := s.storage - s.cold with hd
    set a := max s.coldPct (min 100 (-sh)) with ha
    set b := max s.coldPct (min 100 (dT / s.slope - sh)) with hb
    have hs := h.slopeOk
    have hab : a ≤ b := by
      apply max_le_max_left
      apply min_le_min_left
      have : 0 ≤ dT / s.slope := div_nonneg hdT.le hs.le
      linarith
    have hb100 : b ≤ 100 := max_le h.pctOk' (min_le_left _ _)
    have hca : s.coldPct ≤ a := le_max_left _ _
    have hI : 0 ≤ s.slope / 2 * ((b + sh) ^ 2 - (a + sh) ^ 2) ∧
        s.slope / 2 * ((b + sh) ^ 2 - (a + sh) ^ 2) ≤ dT * (b - a) := by
      rcases hab.lt_or_eq with hlt | heq
      · have ha0 : 0 ≤ a + sh := by
          have : a < 100 := hlt.trans_le hb100
          have hm : min 100 (-sh) ≤ a := le_max_right _ _
          rcases le_total 100 (-sh) with hx | hx
          · rw [min_eq_left hx] at hm; linarith
          · rw [min_eq_right hx] at hm; linarith
        have hbr : b + sh ≤ dT / s.slope := by
          have hcb : s.coldPct < b := hca.trans_lt hlt
          have : b ≤ dT / s.slope - sh := by
            rcases le_total (min 100 (dT / s.slope - sh)) s.coldPct with hx | hx
            · rw [hb, max_eq_left hx] at hcb; exact absurd hcb (lt_irrefl _)
            · rw [hb, max_eq_right hx]; exact min_le_right _ _
          linarith
        rw [le_div_iff₀ hs] at hbr
        constructor
        · apply mul_nonneg (by positivity)
          nlinarith
        · have e : s.slope / 2 * ((b + sh) ^ 2 - (a + sh) ^ 2) =
              (b - a) * ((b + sh) * s.slope / 2 + (a + sh) * s.slope / 2) := by ring
          rw [e, mul_comm dT]
          apply mul_le_mul_of_nonneg_left _ (by linarith)
          have : (a + sh) * s.slope ≤ (b + sh) * s.slope := mul_le_mul_of_nonneg_right (by linarith) hs.le
          linarith
      · rw [heq]; simp
    have hV : 0 ≤ rhoCp K * s.vol / 100 := by
      have := mul_pos (rhoCp_pos (K := K)) h.volOk
      positivity
    constructor
    · apply mul_nonneg hV
      have := mul_nonneg hdT.le (show 0 ≤ 100 - b by linarith)
      linarith [hI.1]
    · have hle : s.slope / 2 * ((b + sh) ^ 2 - (a + sh) ^ 2) + dT * (100 - b) ≤ dT * (100 - s.coldPct) := by
        have := mul_le_mul_of_nonneg_left hca hdT.le
        nlinarith [hI.2]
      calc _ ≤ rhoCp K * s.vol / 100 * (dT * (100 - s.coldPct)) := mul_le_mul_of_nonneg_left hle hV
        _ = s.maxEnergy := by unfold EnergyTank.maxEnergy; rw [← hd]; ring

/-! ## C55 -/

/-- **C55 (start).** A freshly initialised tank holds between no and the full energy, for every charge. -/
theorem C55_init (s : EnergyTank K) (h : s.Phys) (storage cold pu : K) (hc : cold ≤ storage) :
    0 ≤ (s.init storage cold pu).energy ∧ (s.init storage cold pu).energy ≤ (s.init storage cold pu).maxEnergy := by
  unfold EnergyTank.init
  exact energyAt_bounds { s with cold := cold, storage := storage } ⟨h.volOk, h.slopeOk, hc, h.pctOk, h.pctOk'⟩ _

/-- **C55 (never negative).** No operation makes the stored energy negative, whatever its arguments, as long as the
inlet is not above storage temperature. -/
theorem C55_nonneg (s : EnergyTank K) (h : s.Phys) (h0 : 0 ≤ s.energy) :
    (∀ vol cold supply, 0 ≤ (s.draw vol cold supply).energy) ∧
    (∀ btu, 0 ≤ (s.addEnergy btu).energy) ∧
    (∀ kbtuh dur outlet, 0 ≤ dur → 0 ≤ (s.heat kbtuh dur outlet).energy) ∧
    (∀ flow ret dur supply, 0 ≤ (s.recirc flow ret dur supply).energy) ∧
    (∀ gal inlet u, 0 ≤ (s.drawPhysical gal inlet u).energy) := by
  have hm := maxEnergy_nonneg s h
  refine ⟨?_, ?_, ?_, ?_, ?_⟩
  · intro vol cold supply
    unfold EnergyTank.draw
    simp only
    split
    · exact h0
    · exact le_max_left _ _
  · intro btu
    unfold EnergyTank.addEnergy
    split
    · exact le_min (by linarith) hm
    · exact h0
  · intro kbtuh dur outlet hd
    unfold EnergyTank.heat
    split
    · exact h0
    · rename_i hc
      rw [not_or, not_le, not_le] at hc
      refine le_min ?_ hm
      have := mul_nonneg hc.1.le hd
      have : 0 ≤ kbtuh * 1000 * dur / 60 := by
        have : kbtuh * 1000 * dur / 60 = kbtuh * dur * (1000 / 60) := by ring
        rw [this]; positivity
      linarith
  · intro flow ret dur supply
    exact le_max_left _ _
  · intro gal inlet u
    unfold EnergyTank.drawPhysical
    cases u <;> simp only [if_true, Bool.false_eq_true, if_false] <;> split
    · exact h0
    · exact le_max_left _ _
    · exact h0
    · exact le_max_left _ _

/-- **C55, partial.** After any history of sensible calls at a constant inlet temperature the stored energy lies
between 0 and the fully charged energy. Missing: histories in which the inlet temperature rises
(`C55_rising_inlet`). -/
theorem C55_bounds_partial (s : EnergyTank K) (h : s.Phys) (h0 : 0 ≤ s.energy) (h1 : s.energy ≤ s.maxEnergy)
    (ops : List (EnergyOp K)) (hops : ∀ op ∈ ops, op.Sensible s.cold) :
    (ops.foldl EnergyOp.run s).maxEnergy = s.maxEnergy ∧ 0 ≤ (ops.foldl EnergyOp.run s).energy ∧
      (ops.foldl EnergyOp.run s).energy ≤ s.maxEnergy := by
  induction ops generalizing s with
  | nil => exact ⟨rfl, h0, h1⟩
  | cons op ops ih =>
    rw [List.foldl_cons]
    have hop := hops op (by simp)
    obtain ⟨n1, n2, n3, n4, _⟩ := C55_nonneg s h h0
    have hrest : (op.run s).vol = s.vol ∧ (op.run s).slope = s.slope ∧ (op.run s).cold = s.cold ∧
        (op.run s).storage = s.storage ∧ (op.run s).coldPct = s.coldPct := by
      cases op with
      | draw vol cold supply =>
        obtain ⟨_, rfl, _⟩ := hop
        unfold EnergyOp.run EnergyTank.draw
        simp only
        split <;> simp
      | heat a b c => unfold EnergyOp.run EnergyTank.heat; simp only; split <;> simp
      | addEnergy a => unfold EnergyOp.run EnergyTank.addEnergy; simp only; split <;> simp
      | recirc a b c d => unfold EnergyOp.run EnergyTank.recirc; simp
    obtain ⟨e1, e2, e3, e4, e5⟩ := hrest
    have hmax : (op.run s).maxEnergy = s.maxEnergy := by
      unfold EnergyTank.maxEnergy; rw [e1, e3, e4, e5]
    have hphys : (op.run s).Phys :=
      ⟨by rw [e1]; exact h.volOk, by rw [e2]; exact h.slopeOk, by rw [e3, e4]; exact h.tempOk,
        by rw [e5]; exact h.pctOk, by rw [e5]; exact h.pctOk'⟩
    have hm := maxEnergy_nonneg s h
    have hen : 0 ≤ (op.run s).energy ∧ (op.run s).energy ≤ s.maxEnergy := by
      cases op with
      | draw vol cold supply =>
        refine ⟨n1 _ _ _, ?_⟩
        obtain ⟨hv, rfl, hsup⟩ := hop
        unfold EnergyOp.run EnergyTank.draw
        simp only
        split
        · exact h1
        · apply max_le hm
          have : 0 ≤ vol * rhoCp K * (supply - s.cold) :=
            mul_nonneg (mul_nonneg hv rhoCp_pos.le) (by linarith)
          linarith
      | heat a b c =>
        refine ⟨n3 _ _ _ hop.2.1, ?_⟩
        unfold EnergyOp.run EnergyTank.heat
        simp only
        split
        · exact h1
        · exact min_le_right _ _
      | addEnergy a =>
        refine ⟨n2 _, ?_⟩
        unfold EnergyOp.run EnergyTank.addEnergy
        simp only
        split
        · exact min_le_right _ _
        · exact h1
      | recirc a b c d =>
        refine ⟨n4 _ _ _ _, ?_⟩
        unfold EnergyOp.run EnergyTank.recirc
        simp only [Option.getD_some]
        apply max_le hm
        have : 0 ≤ a * c * rhoCp K * (d - b) :=
          mul_nonneg (mul_nonneg (mul_nonneg hop.1 hop.2.1) rhoCp_pos.le) (by linarith [hop.2.2])
        linarith
    obtain ⟨r1, r2, r3⟩ := ih (op.run s) hphys hen.1 (by rw [hmax]; exact hen.2)
      (fun o ho => by rw [e3]; exact hops o (by simp [ho]))
    rw [hmax] at r1 r3
    exact ⟨r1, r2, r3⟩

namespace Demo
/-- A fully charged 100-gallon energy tank, 50 °F to 150 °F. -/
def etank : EnergyTank ℚ := ((EnergyTank.new 100 50 150 (28 / 10)).init 150 50 1).heat 1000 60 150
end Demo

/-- **C55 fails when the inlet gets warmer.** After a small draw at an inlet temperature of 60 °F, the
fully charged tank holds more than its full energy, because the stored energy is not re-based. -/
theorem C55_rising_inlet : Demo.etank.energy = Demo.etank.maxEnergy ∧
    (Demo.etank.draw 1 60 120).maxEnergy < (Demo.etank.draw 1 60 120).energy := by
  decide +kernel

/-- Non-vacuity of C55: the demonstration tank and a history. -/
example : Demo.etank.Phys ∧ 0 ≤ Demo.etank.energy ∧ Demo.etank.energy ≤ Demo.etank.maxEnergy ∧
    (∀ op ∈ [EnergyOp.draw (20 : ℚ) 50 120, .heat 30 10 150, .recirc 2 110 10 120], op.Sensible Demo.etank.cold) := by
  refine ⟨⟨by decide +kernel, by decide +kernel, by decide +kernel, by decide +kernel, by decide +kernel⟩,
    by decide +kernel, by decide +kernel, ?_⟩
  intro op hop
  simp only [List.mem_cons, List.not_mem_nil, or_false] at hop
  rcases hop with rfl | rfl | rfl <;> refine ⟨?_, ?_, ?_⟩ <;> decide +kernel

/-! ## C56 -/

/-- One sensible call changes the stored energy by exactly its heat, cut off at empty and full. -/
theorem C56_one (s : EnergyTank K) (h : s.Phys) (h0 : 0 ≤ s.energy) (h1 : s.energy ≤ s.maxEnergy) (op : EnergyOp K)
    (hop : op.Sensible s.cold) :
    (op.run s).energy = max 0 (min s.maxEnergy (s.energy + op.btu)) := by
  have hm := maxEnergy_nonneg s h
  cases op with
  | draw vol cold supply =>
    obtain ⟨hv, rfl, hsup⟩ := hop
    have hq : 0 ≤ vol * rhoCp K * (supply - s.cold) := mul_nonneg (mul_nonneg hv rhoCp_pos.le) (by linarith)
    unfold EnergyOp.run EnergyTank.draw EnergyOp.btu
    simp only
    split
    · rename_i hc
      have : vol = 0 := by
        rcases hc with hc | hc
        · linarith
        · linarith
      rw [this]
      simp only [zero_mul, neg_zero, add_zero]
      rw [min_eq_right h1, max_eq_right h0]
    · simp only
      rw [min_eq_right (by linarith), sub_eq_add_neg]
  | heat kbtuh dur outlet =>
    obtain ⟨hk, hd, ho⟩ := hop
    have hq : 0 ≤ 1000 * kbtuh * (dur / 60) := by positivity
    unfold EnergyOp.run EnergyTank.heat EnergyOp.btu
    simp only
    split
    · rename_i hc
      have : kbtuh = 0 := by
        rcases hc with hc | hc
        · linarith
        · linarith
      rw [this]
      simp only [mul_zero, zero_mul, add_zero]
      rw [min_eq_right h1, max_eq_right h0]
    · simp only
      rw [show kbtuh * 1000 * dur / 60 = 1000 * kbtuh * (dur / 60) by ring, min_comm,
        max_eq_right (le_min hm (by linarith))]
  | addEnergy b =>
    have hb : 0 ≤ b := hop
    unfold EnergyOp.run EnergyTank.addEnergy EnergyOp.btu
    simp only
    split
    · simp only
      rw [min_comm, max_eq_right (le_min hm (by linarith))]
    · have : b = 0 := by linarith
      rw [this, add_zero, min_eq_right h1, max_eq_right h0]
  | recirc flow ret dur supply =>
    obtain ⟨hf, hd, hr⟩ := hop
    have hq : 0 ≤ flow * dur * rhoCp K * (supply - ret) :=
      mul_nonneg (mul_nonneg (mul_nonneg hf hd) rhoCp_pos.le) (by linarith)
    unfold EnergyOp.run EnergyTank.recirc EnergyOp.btu
    simp only [Option.getD_some]
    rw [min_eq_right (by linarith), sub_eq_add_neg]

/-- **C56.** If the running total of heat stays between empty and full, the stored energy after a history of
sensible calls is the initial energy plus all heat brought in minus all heat taken out. -/
theorem C56_total (s : EnergyTank K) (h : s.Phys) (h0 : 0 ≤ s.energy) (h1 : s.energy ≤ s.maxEnergy)
    (ops : List (EnergyOp K)) (hops : ∀ op ∈ ops, op.Sensible s.cold)
    (hlim : ∀ n ≤ ops.length, 0 ≤ s.energy + ((ops.take n).map EnergyOp.btu).sum ∧
      s.energy + ((ops.take n).map EnergyOp.btu).sum ≤ s.maxEnergy) :
    (ops.foldl EnergyOp.run s).energy = s.energy + (ops.map EnergyOp.btu).sum := by
  induction ops using List.reverseRecOn with
  | nil => simp
  | append_singleton ops op ih =>
    have hops' : ∀ o ∈ ops, o.Sensible s.cold := fun o ho => hops o (by simp [ho])
    have hlim' : ∀ n ≤ ops.length, 0 ≤ s.energy + ((ops.take n).map EnergyOp.btu).sum ∧
        s.energy + ((ops.take n).map EnergyOp.btu).sum ≤ s.maxEnergy := by
      intro n hn
      have := hlim n (by simp; omega)
      rwa [List.take_append_of_le_length hn] at this
    have e := ih hops' hlim'
    obtain ⟨b1, b2, b3⟩ := C55_bounds_partial s h h0 h1 ops hops'
    have hcold : (ops.foldl EnergyOp.run s).cold = s.cold ∧ (ops.foldl EnergyOp.run s).Phys := by
      clear ih e b1 b2 b3 hlim hlim'
      have : ∀ s : EnergyTank K, s.Phys → (∀ o ∈ ops, o.Sensible s.cold) →
          (ops.foldl EnergyOp.run s).cold = s.cold ∧ (ops.foldl EnergyOp.run s).Phys := by
        intro s hp ho
        clear hops hops' h h0 h1
        induction ops generalizing s with
        | nil => exact ⟨rfl, hp⟩
        | cons op ops ih =>
          rw [List.foldl_cons]
          have hop := ho op (by simp)
          have hrest : (op.run s).vol = s.vol ∧ (op.run s).slope = s.slope ∧ (op.run s).cold = s.cold ∧
              (op.run s).storage = s.storage ∧ (op.run s).coldPct = s.coldPct := by
            cases op with
            | draw vol cold supply =>
              obtain ⟨_, rfl, _⟩ := hop
              unfold EnergyOp.run EnergyTank.draw
              simp only
              split <;> simp
            | heat a b c => unfold EnergyOp.run EnergyTank.heat; simp only; split <;> simp
            | addEnergy a => unfold EnergyOp.run EnergyTank.addEnergy; simp only; split <;> simp
            | recirc a b c d => unfold EnergyOp.run EnergyTank.recirc; simp
          obtain ⟨e1, e2, e3, e4, e5⟩ := hrest
          have hphys : (op.run s).Phys :=
            ⟨by rw [e1]; exact hp.volOk, by rw [e2]; exact hp.slopeOk, by rw [e3, e4]; exact hp.tempOk,
              by rw [e5]; exact hp.pctOk, by rw [e5]; exact hp.pctOk'⟩
          obtain ⟨r1, r2⟩ := ih (op.run s) hphys (fun o h => by rw [e3]; exact ho o (by simp [h]))
          exact ⟨r1.trans e3, r2⟩
      exact this s h hops'
    rw [List.foldl_append, List.foldl_cons, List.foldl_nil, List.map_append, List.sum_append]
    rw [C56_one _ hcold.2 b2 (by rw [b1]; exact b3) op (by rw [hcold.1]; exact hops op (by simp)), b1, e]
    have hl := hlim (ops.length + 1) (by simp)
    rw [List.take_of_length_le (by simp), List.map_append, List.sum_append] at hl
    simp only [List.map_cons, List.map_nil, List.sum_cons, List.sum_nil, add_zero] at hl ⊢
    rw [← add_assoc] at hl
    rw [min_eq_right hl.2, max_eq_right hl.1, add_assoc]

/-- Non-vacuity of C56. -/
example : ∀ n ≤ 2, 0 ≤ Demo.etank.energy + (([EnergyOp.draw (20 : ℚ) 50 120, .heat 30 10 150].take n).map
      EnergyOp.btu).sum ∧ Demo.etank.energy + (([EnergyOp.draw (20 : ℚ) 50 120, .heat 30 10 150].take n).map
      EnergyOp.btu).sum ≤ Demo.etank.maxEnergy := by
  intro n hn
  rcases n with _ | _ | _ | n
  · decide +kernel
  · decide +kernel
  · decide +kernel
  · omega

end general

/-! ## C57 -/

section real

/-- The temperature above cold at a height [%] for a thermocline position. -/
noncomputable def above (dT slope sh x : ℝ) : ℝ := max 0 (min dT (slope * (x + sh)))

theorem above_continuous (dT slope : ℝ) : Continuous fun y => above dT slope 0 y := by unfold above; fun_prop

theorem above_shift (dT slope sh x : ℝ) : above dT slope sh x = above dT slope 0 (x + sh) := by
  unfold above; rw [add_zero]

/-- **C57 (forward).** The energy of a thermocline position is the heat content of its temperature profile above
the inlet pipe. -/
theorem C57_energy_is_integral (s : EnergyTank ℝ) (h : s.Phys) (sh : ℝ) :
    s.energyAt sh = rhoCp ℝ * s.vol / 100 * ∫ x in s.coldPct..100, above (s.storage - s.cold) s.slope sh x := by
  unfold EnergyTank.energyAt
  simp only
  split
  · rename_i hd
    have : ∀ x, above (s.storage - s.cold) s.slope sh x = 0 := by
      intro x
      exact max_eq_left ((min_le_left _ _).trans hd)
    simp only [this, intervalIntegral.integral_zero, mul_zero]
  · rename_i hd
    rw [not_le] at hd
    set dT := s.storage - s.cold with hdT
    have key := pct_integral ⟨1, s.slope, sh / 100, 0, 0, dT⟩ h.slopeOk hd.le s.coldPct h.pctOk h.pctOk'
    have hsh : StratTank.shift (⟨1, s.slope, sh / 100, 0, 0, dT⟩ : StratTank ℝ) = sh := by
      unfold StratTank.shift; field_simp
    simp only [hsh, add_zero, zero_mul, zero_add, sub_zero, zero_div, zero_sub] at key
    have hI : (∫ x in s.coldPct..100, above dT s.slope sh x) = ∫ x in s.coldPct..100, max 0 (min dT (s.slope * (x + sh))) := rfl
    rw [hI, key]
    set xC := max 0 (min 100 (-sh)) with hxC
    set xH := max 0 (min 100 (dT / s.slope - sh)) with hxH
    have ha : max s.coldPct (min 100 (-sh)) = max s.coldPct xC := by
      rw [hxC, ← max_assoc, max_eq_left h.pctOk]
    have hb : max s.coldPct (min 100 (dT / s.slope - sh)) = max s.coldPct xH := by
      rw [hxH, ← max_assoc, max_eq_left h.pctOk]
    have hCH : xC ≤ xH := by
      apply max_le_max_left
      apply min_le_min_left
      have : 0 ≤ dT / s.slope := div_nonneg hd.le h.slopeOk.le
      linarith
    have hH1 : xH ≤ 100 := max_le (by norm_num) (min_le_left _ _)
    rw [ha, hb, min_eq_right hH1, max_eq_right (by linarith [max_le h.pctOk' hH1] : 0 ≤ 100 - max s.coldPct xH)]
    congr 2
    split
    · rename_i hlt
      rw [max_eq_right ((le_max_left _ _).trans hlt.le)]
    · rename_i hlt
      rw [not_lt] at hlt
      have : max s.coldPct xH = max s.coldPct xC :=
        le_antisymm (max_le (le_max_left _ _) hlt) (max_le_max_left _ hCH)
      rw [this]; simp

/-- Moving the thermocline by `δ` changes the energy by at least 0 and at most `δ` percent of the tank at full
temperature. -/
theorem energyAt_step (s : EnergyTank ℝ) (h : s.Phys) {a b : ℝ} (hab : a ≤ b) :
    s.energyAt a ≤ s.energyAt b ∧
    s.energyAt b - s.energyAt a ≤ rhoCp ℝ * s.vol / 100 * ((s.storage - s.cold) * (b - a)) := by
  have hV : 0 ≤ rhoCp ℝ * s.vol / 100 := by
    have := mul_pos (rhoCp_pos (K := ℝ)) h.volOk
    positivity
  set dT := s.storage - s.cold with hdT
  have hd0 : 0 ≤ dT := by linarith [h.tempOk]
  set φ : ℝ → ℝ := fun y => above dT s.slope 0 y with hφ
  have hc : Continuous φ := above_continuous _ _
  have hmono : ∀ x y, x ≤ y → φ x ≤ φ y := by
    intro x y hxy
    apply max_le_max_left
    apply min_le_min_left
    exact mul_le_mul_of_nonneg_left (by linarith) h.slopeOk.le
  have hG : ∀ sh, s.energyAt sh = rhoCp ℝ * s.vol / 100 * ∫ y in (s.coldPct + sh)..(100 + sh), φ y := by
    intro sh
    rw [C57_energy_is_integral s h sh, ← intervalIntegral.integral_comp_add_right]
    congr 1
    apply intervalIntegral.integral_congr
    intro x _
    exact above_shift _ _ _ _
  rw [hG a, hG b]
  have i (x y : ℝ) : IntervalIntegrable φ MeasureTheory.volume x y := hc.intervalIntegrable x y
  have e1 := intervalIntegral.integral_add_adjacent_intervals (i (s.coldPct + a) (100 + a)) (i (100 + a) (100 + b))
  have e2 := intervalIntegral.integral_add_adjacent_intervals (i (s.coldPct + a) (s.coldPct + b))
    (i (s.coldPct + b) (100 + b))
  have hlow : (∫ y in (s.coldPct + a)..(100 + a), φ y) ≤ ∫ y in (s.coldPct + b)..(100 + b), φ y := by
    rw [← intervalIntegral.integral_comp_add_right φ a, ← intervalIntegral.integral_comp_add_right φ b]
    apply intervalIntegral.integral_mono_on h.pctOk'
    · exact (hc.comp (continuous_id.add continuous_const)).intervalIntegrable _ _
    · exact (hc.comp (continuous_id.add continuous_const)).intervalIntegrable _ _
    · intro x _
      exact hmono _ _ (by linarith)
  have hup : (∫ y in (100 + a)..(100 + b), φ y) ≤ dT * (b - a) := by
    have := intervalIntegral.integral_mono_on (show 100 + a ≤ 100 + b by linarith) (f := φ) (g := fun _ => dT)
      (i _ _) (intervalIntegrable_const (μ := MeasureTheory.volume)) (fun x _ => max_le hd0 (min_le_left _ _))
    simp only [intervalIntegral.integral_const, smul_eq_mul] at this
    linarith
  have hnn : 0 ≤ ∫ y in (s.coldPct + a)..(s.coldPct + b), φ y :=
    intervalIntegral.integral_nonneg (by linarith) (fun x _ => le_max_left _ _)
  constructor
  · exact mul_le_mul_of_nonneg_left hlow hV
  · rw [← mul_sub]
    apply mul_le_mul_of_nonneg_left _ hV
    linarith

/-- **C57 (monotone).** A lower thermocline (larger position) never has less energy. -/
theorem C57_mono (s : EnergyTank ℝ) (h : s.Phys) {a b : ℝ} (hab : a ≤ b) : s.energyAt a ≤ s.energyAt b :=
  (energyAt_step s h hab).1

theorem bisect_spec (s : EnergyTank ℝ) (h : s.Phys) (e tol : ℝ) (ht : 0 ≤ tol) (n : ℕ) (lo hi : ℝ) (hlh : lo ≤ hi)
    (h1 : s.energyAt lo ≤ e) (h2 : e ≤ s.energyAt hi) :
    lo ≤ s.bisect e tol n lo hi ∧ s.bisect e tol n lo hi ≤ hi ∧
    |s.energyAt (s.bisect e tol n lo hi) - e| ≤
      tol + rhoCp ℝ * s.vol / 100 * ((s.storage - s.cold) * ((hi - lo) / 2 ^ n)) := by
  have hV : 0 ≤ rhoCp ℝ * s.vol / 100 := by
    have := mul_pos (rhoCp_pos (K := ℝ)) h.volOk
    positivity
  have hd0 : 0 ≤ s.storage - s.cold := by linarith [h.tempOk]
  induction n generalizing lo hi with
  | zero =>
    unfold EnergyTank.bisect
    set mid := (lo + hi) * (1 / 2) with hm
    have m1 : lo ≤ mid := by linarith
    have m2 : mid ≤ hi := by linarith
    refine ⟨m1, m2, ?_⟩
    have a := energyAt_step s h m1
    have b := energyAt_step s h m2
    have c1 : (s.storage - s.cold) * (mid - lo) ≤ (s.storage - s.cold) * (hi - lo) :=
      mul_le_mul_of_nonneg_left (by linarith) hd0
    have c2 : (s.storage - s.cold) * (hi - mid) ≤ (s.storage - s.cold) * (hi - lo) :=
      mul_le_mul_of_nonneg_left (by linarith) hd0
    have d1 := mul_le_mul_of_nonneg_left c1 hV
    have d2 := mul_le_mul_of_nonneg_left c2 hV
    rw [pow_zero, div_one, abs_le]
    constructor
    · linarith [a.1, b.2]
    · linarith [a.2, b.1]
  | succ n ih =>
    unfold EnergyTank.bisect
    simp only
    set mid := (lo + hi) * (1 / 2) with hm
    have m1 : lo ≤ mid := by linarith
    have m2 : mid ≤ hi := by linarith
    have hrest : 0 ≤ rhoCp ℝ * s.vol / 100 * ((s.storage - s.cold) * ((hi - lo) / 2 ^ (n + 1))) :=
      mul_nonneg hV (mul_nonneg hd0 (div_nonneg (by linarith) (by positivity)))
    split
    · rename_i hb
      exact ⟨m1, m2, by linarith⟩
    · split
      · rename_i hlt
        obtain ⟨a, b, c⟩ := ih mid hi m2 hlt.le h2
        refine ⟨m1.trans a, b, c.trans (le_of_eq ?_)⟩
        rw [pow_succ', ← div_div, show hi - mid = (hi - lo) / 2 by linarith]
      · rename_i hlt
        obtain ⟨a, b, c⟩ := ih lo mid m1 h1 (not_lt.mp hlt)
        refine ⟨a, b.trans m2, c.trans (le_of_eq ?_)⟩
        rw [pow_succ', ← div_div, show mid - lo = (hi - lo) / 2 by linarith]

theorem energyAt_empty (s : EnergyTank ℝ) (h : s.Phys) : s.energyAt (-100) = 0 := by
  unfold EnergyTank.energyAt
  simp only
  split
  · rfl
  · rename_i hd
    rw [not_le] at hd
    have : 0 ≤ (s.storage - s.cold) / s.slope := div_nonneg hd.le h.slopeOk.le
    rw [neg_neg, min_self, max_eq_right h.pctOk', min_eq_left (by linarith), max_eq_right h.pctOk']
    ring

theorem energyAt_full (s : EnergyTank ℝ) (h : s.Phys) (hd : s.cold < s.storage) :
    s.energyAt ((s.storage - s.cold) / s.slope) = s.maxEnergy := by
  unfold EnergyTank.energyAt EnergyTank.maxEnergy
  simp only
  have : 0 ≤ (s.storage - s.cold) / s.slope := div_nonneg (by linarith) h.slopeOk.le
  have e1 : max s.coldPct (min 100 (-((s.storage - s.cold) / s.slope))) = s.coldPct := by
    rw [min_eq_right (by linarith), max_eq_left (by linarith [h.pctOk])]
  have e2 : max s.coldPct (min 100 (0 : ℝ)) = s.coldPct := by
    rw [min_eq_right (by norm_num), max_eq_left h.pctOk]
  rw [if_neg (by linarith), sub_self, e1, e2]
  ring

/-- **C57 (inverse).** The position found from the stored energy reproduces that energy (limited to what the tank
can hold): to within a millionth (of the energy, or of a BTU if it is below 1 BTU) plus the
resolution of 30 halvings. -/
theorem C57_inverse (s : EnergyTank ℝ) (h : s.Phys) (hd : s.cold < s.storage) :
    |s.energyAt s.shift - max 0 (min s.energy s.maxEnergy)| ≤
      1 / 1000000 * max (max 0 (min s.energy s.maxEnergy)) 1 +
      rhoCp ℝ * s.vol / 100 * ((s.storage - s.cold) * ((100 + (s.storage - s.cold) / s.slope) / 2 ^ 30)) := by
  have hV : 0 ≤ rhoCp ℝ * s.vol / 100 := by
    have := mul_pos (rhoCp_pos (K := ℝ)) h.volOk
    positivity
  have hd0 : 0 ≤ s.storage - s.cold := by linarith
  have hr : 0 ≤ (s.storage - s.cold) / s.slope := div_nonneg hd0 h.slopeOk.le
  set e := max 0 (min s.energy s.maxEnergy) with he
  have hm := maxEnergy_nonneg s h
  have hem : e ≤ s.maxEnergy := max_le hm (min_le_right _ _)
  have he0 : 0 ≤ e := le_max_left _ _
  have htol : 0 ≤ 1 / 1000000 * max e 1 := by positivity
  have hres : 0 ≤ rhoCp ℝ * s.vol / 100 * ((s.storage - s.cold) * ((100 + (s.storage - s.cold) / s.slope) / 2 ^ 30)) :=
    mul_nonneg hV (mul_nonneg hd0 (by positivity))
  unfold EnergyTank.shift
  simp only
  rw [if_neg (by linarith), ← he]
  split
  · rename_i hz
    rw [energyAt_empty s h, le_antisymm hz he0]
    simp only [sub_zero, abs_zero]
    rw [le_antisymm hz he0] at htol
    linarith
  · split
    · rename_i hz
      rw [energyAt_full s h hd, le_antisymm hem hz]
      simp only [sub_self, abs_zero]
      rw [le_antisymm hem hz] at htol
      linarith
    · obtain ⟨_, _, c⟩ := bisect_spec s h e (1 / 1000000 * max e 1) htol 30 (-100) ((s.storage - s.cold) / s.slope)
        (by linarith) (by rw [energyAt_empty s h]; exact he0) (by rw [energyAt_full s h hd]; exact hem)
      rw [show (s.storage - s.cold) / s.slope - -100 = 100 + (s.storage - s.cold) / s.slope by ring] at c
      exact c

/-- The heat content of the reported temperatures is the energy of the thermocline position. -/
theorem profile_content (s : EnergyTank ℝ) (h : s.Phys) :
    rhoCp ℝ * s.vol * (∫ f in (0:ℝ)..1, (s.tempAt f - s.cold)) = s.energyAt s.shift := by
  rw [C57_energy_is_integral s h]
  set ψ : ℝ → ℝ := fun x => if x < s.coldPct then 0 else above (s.storage - s.cold) s.slope s.shift x with hψ
  have h1 : (∫ f in (0:ℝ)..1, (s.tempAt f - s.cold)) = ∫ f in (0:ℝ)..1, ψ (f * 100) := by
    apply intervalIntegral.integral_congr
    intro f _
    simp only [hψ, EnergyTank.tempAt, above]
    split
    · simp
    · rw [← max_sub_sub_right, ← min_sub_sub_right, sub_self, add_sub_cancel_right]
  rw [h1, intervalIntegral.integral_comp_mul_right ψ (by norm_num : (100:ℝ) ≠ 0), zero_mul, one_mul, smul_eq_mul]
  have h3 : (∫ x in (0:ℝ)..s.coldPct, ψ x) = 0 := by
    have hz : (∫ x in (0:ℝ)..s.coldPct, ψ x) = ∫ x in (0:ℝ)..s.coldPct, (0:ℝ) := by
      apply intervalIntegral.integral_congr_ae
      have hne : ∀ᵐ x : ℝ, x ≠ s.coldPct := by
        rw [MeasureTheory.ae_iff]; simp
      filter_upwards [hne] with x hx hmem
      rw [Set.uIoc_of_le h.pctOk] at hmem
      simp only [hψ]
      rw [if_pos (lt_of_le_of_ne hmem.2 hx)]
    rw [hz]; simp
  have hcont : Continuous fun x => above (s.storage - s.cold) s.slope s.shift x := by unfold above; fun_prop
  have h4 : (∫ x in s.coldPct..100, ψ x) = ∫ x in s.coldPct..100, above (s.storage - s.cold) s.slope s.shift x := by
    apply intervalIntegral.integral_congr
    intro x hx
    rw [Set.uIcc_of_le h.pctOk'] at hx
    simp only [hψ]
    rw [if_neg (not_lt.mpr hx.1)]
  have hi1 : IntervalIntegrable ψ MeasureTheory.volume 0 s.coldPct := by
    apply (intervalIntegrable_const (c := (0:ℝ)) (μ := MeasureTheory.volume) (a := 0) (b := s.coldPct)).congr_ae
    rw [Filter.EventuallyEq, MeasureTheory.ae_restrict_iff' measurableSet_uIoc]
    have hne : ∀ᵐ x : ℝ, x ≠ s.coldPct := by
      rw [MeasureTheory.ae_iff]; simp
    filter_upwards [hne] with x hx hmem
    rw [Set.uIoc_of_le h.pctOk] at hmem
    simp only [hψ]
    rw [if_pos (lt_of_le_of_ne hmem.2 hx)]
  have hi2 : IntervalIntegrable ψ MeasureTheory.volume s.coldPct 100 := by
    apply (hcont.intervalIntegrable s.coldPct 100).congr
    intro x hx
    rw [Set.uIoc_of_le h.pctOk'] at hx
    simp only [hψ]
    rw [if_neg (not_lt.mpr hx.1.le)]
  rw [← intervalIntegral.integral_add_adjacent_intervals hi1 hi2, h3, h4]
  ring

/-- **C57 (profile).** The temperatures the tank reports hold the stored energy, to the same accuracy. -/
theorem C57_profile_energy (s : EnergyTank ℝ) (h : s.Phys) (hd : s.cold < s.storage) :
    |rhoCp ℝ * s.vol * (∫ f in (0:ℝ)..1, (s.tempAt f - s.cold)) - max 0 (min s.energy s.maxEnergy)| ≤
      1 / 1000000 * max (max 0 (min s.energy s.maxEnergy)) 1 +
      rhoCp ℝ * s.vol / 100 * ((s.storage - s.cold) * ((100 + (s.storage - s.cold) / s.slope) / 2 ^ 30)) := by
  rw [profile_content s h]
  exact C57_inverse s h hd

/-- Non-vacuity of C57. -/
example : (EnergyTank.new (100 : ℝ) 50 150 (28 / 10)).Phys ∧ (50 : ℝ) < 150 := by
  refine ⟨⟨?_, ?_, ?_, ?_, ?_⟩, by norm_num⟩ <;> norm_num [EnergyTank.new]

end real

end Eco
