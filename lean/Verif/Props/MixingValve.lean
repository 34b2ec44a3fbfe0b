import Verif.Model.MixingValve
import Verif.Spec.Valve
import Verif.Lemmas.Py
import Verif.Props.MixedTank
import Mathlib.Tactic.Linarith
import Mathlib.Tactic.Ring
import Mathlib.Tactic.FieldSimp
import Mathlib.Tactic.LinearCombination
import Mathlib.Tactic.NormNum
import Mathlib.Algebra.Order.Field.Rat

set_option linter.unusedSectionVars false

/-! C63: the mixing valve conserves mass and heat. -/

namespace Eco
variable {K : Type} [Field K] [LinearOrder K] [IsStrictOrderedRing K]

/-- The temperatures and quantities the property speaks about. -/
structure ValveOk (load flow cold supply ret storage : K) : Prop where
  load_nonneg : 0 ≤ load
  flow_nonneg : 0 ≤ flow
  cold_ret : cold < ret
  ret_supply : ret ≤ supply
  supply_storage : supply < storage

theorem fdiv_of_ne {a b : K} (h : b ≠ 0) : fdiv a b = .ok (a / b) := if_neg h

/-- What the valve computes when it does not raise, without the code's intermediate values. -/
theorem valve_cases {load flow cold supply ret storage : K}
    (h : ValveOk load flow cold supply ret storage) :
    (flow * (supply - ret) < load * (storage - supply) ∧
      mixingValve load flow cold supply ret storage
        = .ok ((load * (supply - cold) + flow * (supply - ret)) / (storage - cold), cold)) ∨
    (load * (storage - supply) ≤ flow * (supply - ret) ∧
      mixingValve load flow cold supply ret storage
        = (fdiv (load * cold + ((load + flow) * ((supply - ret) / (storage - ret)) - load) * ret)
            ((load + flow) * ((supply - ret) / (storage - ret)))).map
            (fun t => ((load + flow) * ((supply - ret) / (storage - ret)), t))) := by
  obtain ⟨hl, hf, h1, h2, h3⟩ := h
  have hr := rho_pos (K := K)
  have hs : 0 < storage - supply := by linarith
  have hc : storage - cold ≠ 0 := by linarith
  have ht : storage - ret ≠ 0 := by linarith
  have hd : rhoCp K * (storage - supply) ≠ 0 := (mul_pos hr hs).ne'
  have e : flow * rhoCp K * (supply - ret) / (rhoCp K * (storage - supply))
      = flow * (supply - ret) / (storage - supply) := by
    rw [show flow * rhoCp K * (supply - ret) = rhoCp K * (flow * (supply - ret)) by ring,
      mul_div_mul_left _ _ hr.ne']
  have e2 : flow * (supply - ret) / (storage - supply) < load ↔
      flow * (supply - ret) < load * (storage - supply) := div_lt_iff₀ hs
  simp only [mixingValve, fdiv_of_ne hd, fdiv_of_ne hc, fdiv_of_ne ht, ok_bind, e]
  by_cases hlt : flow * (supply - ret) / (storage - supply) < load
  · left
    refine ⟨e2.1 hlt, ?_⟩
    simp only [if_pos hlt, pure_eq_ok]
    congr 2
    field_simp
  · right
    refine ⟨not_lt.1 (fun hh => hlt (e2.2 hh)), ?_⟩
    simp only [if_neg hlt]
    rfl

/-- **C63** (partial). When anything at all has to be taken from storage the valve answers, and its answer is a balanced
distribution of the water: there are forward flows that balance in mass and heat, of which the
storage draw is the reported one, and the reported inlet temperature is that of the water entering
the tank. No return water goes to the tank while the load is above the switch-over point, and no cold
water goes to the valve below it. Missing: the case of no load and no loop loss, which raises (`C63_idle_raises`). -/
theorem C63_balanced_partial {load flow cold supply ret storage : K}
    (h : ValveOk load flow cold supply ret storage)
    (hneed : 0 < load ∨ 0 < flow * (supply - ret)) :
    ∃ draw inlet, mixingValve load flow cold supply ret storage = .ok (draw, inlet) ∧
      (∃ f : Spec.ValveFlows K, f.hot = draw ∧
        f.Balanced load flow cold supply ret storage inlet ∧
        (flow * (supply - ret) < load * (storage - supply) → f.retToTank = 0) ∧
        (load * (storage - supply) ≤ flow * (supply - ret) → f.coldToValve = 0)) ∧
      cold ≤ inlet ∧ inlet ≤ ret := by
  have h' := h
  obtain ⟨hl, hf, h1, h2, h3⟩ := h
  have hs : 0 < storage - supply := by linarith
  have hc : 0 < storage - cold := by linarith
  have ht : 0 < storage - ret := by linarith
  have hsc : 0 < supply - cold := by linarith
  have hsr : 0 ≤ supply - ret := by linarith
  rcases valve_cases h' with ⟨hlt, hv⟩ | ⟨hle, hv⟩
  · refine ⟨_, _, hv, ⟨⟨_, load - (load * (supply - cold) + flow * (supply - ret)) / (storage - cold),
      flow, (load * (supply - cold) + flow * (supply - ret)) / (storage - cold), 0⟩, rfl, ?_,
      fun _ => rfl, fun hh => absurd hlt (not_lt.2 hh)⟩, le_refl _, h1.le⟩
    set D := (load * (supply - cold) + flow * (supply - ret)) / (storage - cold) with hD
    have hDe : D * (storage - cold) = load * (supply - cold) + flow * (supply - ret) := by
      rw [hD]; exact div_mul_cancel₀ _ hc.ne'
    have hD0 : 0 ≤ D := by
      rw [hD]; exact div_nonneg (by nlinarith [mul_nonneg hl hsc.le, mul_nonneg hf hsr]) hc.le
    have hDl : D ≤ load := by
      rw [hD, div_le_iff₀ hc]
      nlinarith
    exact { hot_nonneg := hD0, coldToValve_nonneg := by simpa using hDl, retToValve_nonneg := hf,
            coldToTank_nonneg := hD0, retToTank_nonneg := le_refl _,
            valve_mass := by simp, valve_heat := by simp; linear_combination hDe,
            tank_mass := by simp, tank_heat := by simp, return_used := by simp, makeup := by simp }
  · set D := (load + flow) * ((supply - ret) / (storage - ret)) with hD
    have hDe : D * (storage - ret) = (load + flow) * (supply - ret) := by
      rw [hD, mul_assoc, div_mul_cancel₀ _ ht.ne']
    have hDl : load ≤ D := by
      have : load * (storage - ret) ≤ D * (storage - ret) := by rw [hDe]; nlinarith
      exact le_of_mul_le_mul_right this ht
    have hDf : D - load ≤ flow := by
      have : D * (storage - ret) ≤ (load + flow) * (storage - ret) := by
        rw [hDe]; exact mul_le_mul_of_nonneg_left (by linarith) (by linarith)
      have := le_of_mul_le_mul_right this ht
      linarith
    have hDp : 0 < D := by
      rcases hneed with hp | hp
      · linarith
      · have hfp : 0 < flow := by
          rcases hf.lt_or_eq with h | h
          · exact h
          · rw [← h] at hp; simp at hp
        have : 0 < D * (storage - ret) := by
          rw [hDe]
          nlinarith [mul_nonneg hl hsr]
        exact pos_of_mul_pos_left this ht.le
    rw [fdiv_of_ne hDp.ne'] at hv
    refine ⟨D, (load * cold + (D - load) * ret) / D, hv, ⟨⟨D, 0, flow - (D - load), load, D - load⟩,
      rfl, ?_, fun hh => absurd hh (not_lt.2 hle), fun _ => rfl⟩, ?_, ?_⟩
    · exact { hot_nonneg := hDp.le, coldToValve_nonneg := le_refl _,
              retToValve_nonneg := by simpa using hDf,
              coldToTank_nonneg := hl, retToTank_nonneg := by simpa using hDl,
              valve_mass := by simp; ring, valve_heat := by simp; linear_combination hDe,
              tank_mass := by simp, tank_heat := by simp; rw [mul_div_cancel₀ _ hDp.ne'],
              return_used := by simp, makeup := by simp }
    · rw [le_div_iff₀ hDp]; nlinarith
    · rw [div_le_iff₀ hDp]; nlinarith

/-- A balanced distribution with the reported draw is the only one of its regime: given the loop's and
the building's quantities, mass and heat balance leave no freedom once it is known that no return water
goes to the tank, or that no cold water goes to the valve. So C63's answer is the physical one. -/
theorem C63_unique {load flow cold supply ret storage i₁ i₂ : K}
    (h : ValveOk load flow cold supply ret storage) (f g : Spec.ValveFlows K)
    (hf : f.Balanced load flow cold supply ret storage i₁)
    (hg : g.Balanced load flow cold supply ret storage i₂)
    (hr : (f.retToTank = 0 ∧ g.retToTank = 0) ∨ (f.coldToValve = 0 ∧ g.coldToValve = 0)) :
    f.hot = g.hot := by
  obtain ⟨hl, hfl, h1, h2, h3⟩ := h
  have a1 := hf.valve_mass
  have a2 := hf.valve_heat
  have a3 := hf.return_used
  have b1 := hg.valve_mass
  have b2 := hg.valve_heat
  have b3 := hg.return_used
  rcases hr with ⟨h5, h6⟩ | ⟨h5, h6⟩
  · have e : (f.hot - g.hot) * (storage - cold) = 0 := by
      linear_combination a2 - b2 - cold * (a1 - b1) - (ret - cold) * (a3 - b3) + (ret - cold) * (h5 - h6)
    rcases mul_eq_zero.1 e with h | h
    · linarith
    · linarith
  · have e : (f.hot - g.hot) * (storage - ret) = 0 := by
      linear_combination a2 - b2 - ret * (a1 - b1) + (ret - cold) * (h5 - h6)
    rcases mul_eq_zero.1 e with h | h
    · linarith
    · linarith

/-- **C63**. At the switch-over point, where the loop's loss is exactly what the load's excess heat can
make up, the formula of the other regime gives the same draw and inlet temperature: the draw is the load
and the inlet is cold water. -/
theorem C63_switch {load flow cold supply ret storage : K}
    (h : ValveOk load flow cold supply ret storage) (hl : 0 < load)
    (hsw : load * (storage - supply) = flow * (supply - ret)) :
    mixingValve load flow cold supply ret storage = .ok (load, cold) ∧
      (load * (supply - cold) + flow * (supply - ret)) / (storage - cold) = load := by
  have h' := h
  obtain ⟨_, hf, h1, h2, h3⟩ := h
  have hc : 0 < storage - cold := by linarith
  have ht : 0 < storage - ret := by linarith
  have e1 : (load + flow) * ((supply - ret) / (storage - ret)) = load := by
    rw [← mul_div_assoc, div_eq_iff ht.ne']
    linear_combination -hsw
  refine ⟨?_, ?_⟩
  · rcases valve_cases h' with ⟨hlt, hv⟩ | ⟨hle, hv⟩
    · exact absurd hlt (by rw [hsw]; exact lt_irrefl _)
    · rw [hv, e1, fdiv_of_ne hl.ne']
      simp [Except.map, hl.ne']
  · rw [div_eq_iff hc.ne']
    linear_combination -hsw

/-- **C63**. What the storage gives up is the building's heat plus the loop's heat, in both regimes. -/
theorem C63_heat {load flow cold supply ret storage draw inlet : K}
    (h : ValveOk load flow cold supply ret storage)
    (hv : mixingValve load flow cold supply ret storage = .ok (draw, inlet)) :
    draw * (storage - inlet) = load * (supply - cold) + flow * (supply - ret) := by
  have h' := h
  obtain ⟨hl, hf, h1, h2, h3⟩ := h
  have hc : storage - cold ≠ 0 := by linarith
  have ht : storage - ret ≠ 0 := by linarith
  rcases valve_cases h' with ⟨-, e⟩ | ⟨-, e⟩
  · rw [e] at hv
    injection hv with hv
    injection hv with hd hi
    rw [← hd, ← hi, div_mul_cancel₀ _ hc]
  · rw [e] at hv
    set D := (load + flow) * ((supply - ret) / (storage - ret)) with hD
    have hDe : D * (storage - ret) = (load + flow) * (supply - ret) := by
      rw [hD, mul_assoc, div_mul_cancel₀ _ ht]
    unfold fdiv at hv
    split at hv
    · simp [Except.map] at hv
    · rename_i hD0
      injection hv with hv
      injection hv with hd hi
      rw [← hd, ← hi, mul_sub, mul_div_cancel₀ _ hD0]
      linear_combination hDe

/-- **C63** is false at rest: with nothing drawn and no loop loss (no flow, or return water as warm as
supply water) the valve divides by a draw of zero. -/
theorem C63_idle_raises {flow cold supply ret storage : K}
    (h : ValveOk 0 flow cold supply ret storage) (h0 : flow * (supply - ret) = 0) :
    mixingValve 0 flow cold supply ret storage = .error .zeroDivision := by
  rcases valve_cases h with ⟨hlt, hv⟩ | ⟨hle, hv⟩
  · rw [h0] at hlt; simp at hlt
  · rw [hv]
    have : ((0:K) + flow) * ((supply - ret) / (storage - ret)) = 0 := by
      rw [← mul_div_assoc, zero_add, h0, zero_div]
    rw [this]
    simp [fdiv, Except.map]

/-- Outside C63's range: a storage at exactly supply temperature divides by zero, for every load. -/
theorem C63_storage_at_supply_raises (load flow cold supply ret : K) :
    mixingValve load flow cold supply ret supply = .error .zeroDivision := by
  simp [mixingValve, fdiv, error_bind]

example : ValveOk (1 : ℚ) 2 50 120 115 150 := by constructor <;> norm_num
-- above the switch-over point
example : mixingValve (1 : ℚ) 2 50 120 115 150 = .ok (4 / 5, 50) := by decide +kernel
-- below it, with return water going to the tank
example : mixingValve (1 / 10 : ℚ) 2 50 120 115 150 = .ok (3 / 10, 280 / 3) := by decide +kernel
-- at it
example : mixingValve (1 / 3 : ℚ) 2 50 120 115 150 = .ok (1 / 3, 50) := by decide +kernel

end Eco
