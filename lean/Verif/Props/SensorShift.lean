import Verif.Props.Shared
import Verif.Props.HarderShift
set_option linter.unusedSectionVars false

/-! C129: the normal ON sensor and its trigger, with load shifting. -/

namespace Eco
open Spec

section
variable {K : Type} [Field K] [LinearOrder K] [IsStrictOrderedRing K]

theorem stratPct_value {c : SysCfg K} {f t slope p : K} (h : stratPctOfTank c f t slope = .ok p) :
    p = (100 - (min (f * 100 + (c.storage - t) / slope) 100 + max (f * 100 + (c.supply - t) / slope) (f * 100)) / 2) / 100 := by
  simp only [stratPctOfTank, stratFactorForOnParams, bind_eq_ok, pure_eq_ok, Except.ok.injEq] at h
  obtain ⟨x, hx, rfl⟩ := h
  split at hx
  · simp at hx
  · rw [fdiv_eq_ok] at hx
    obtain ⟨h0, rfl⟩ := hx
    generalize min (f * 100 + (c.storage - t) / slope) 100 = a
    generalize max (f * 100 + (c.supply - t) / slope) (f * 100) = e
    have h1 : c.storage - c.supply ≠ 0 := right_ne_zero_of_mul h0
    have h2 : 1 - f ≠ 0 := fun h => left_ne_zero_of_mul h0 (by linear_combination 100 * h)
    have h3 : 100 - f * 100 = 100 * (1 - f) := by ring
    rw [h3]
    field_simp
    ring

/-- A higher sensor with a colder trigger leaves less hot water above it. -/
theorem stratPct_anti {c : SysCfg K} {f f' t t' slope p p' : K} (hs : 0 < slope) (hf : f ≤ f') (ht : t' ≤ t)
    (h : stratPctOfTank c f t slope = .ok p) (h' : stratPctOfTank c f' t' slope = .ok p') : p' ≤ p := by
  rw [stratPct_value h, stratPct_value h']
  have h1 : (c.storage - t) / slope ≤ (c.storage - t') / slope := div_le_div_of_nonneg_right (by linarith) hs.le
  have h2 : (c.supply - t) / slope ≤ (c.supply - t') / slope := div_le_div_of_nonneg_right (by linarith) hs.le
  have h3 : min (f * 100 + (c.storage - t) / slope) 100 ≤ min (f' * 100 + (c.storage - t') / slope) 100 :=
    min_le_min (by linarith) le_rfl
  have h4 : max (f * 100 + (c.supply - t) / slope) (f * 100) ≤ max (f' * 100 + (c.supply - t') / slope) (f' * 100) :=
    max_le_max (by linarith) (by linarith)
  linarith

theorem avgUse_nonneg {b : Building K} (hg : 0 ≤ b.dailyGal) (h : ∀ f ∈ b.avgShape, 0 ≤ f) (t : ℕ) : 0 ≤ use b.dailyGal b.avgShape t := by
  unfold use
  apply mul_nonneg hg
  rw [List.getD]
  cases e : b.avgShape[t % b.avgShape.length]? with
  | none => simp
  | some x => exact h x (List.mem_of_getElem? e)

/-- The generation rate of load shifting grows with the normal ON sensor. -/
theorem genRate_sensor {c : SysCfg K} {sched : List String} {m m' : ControlMap K} {b : Building K} {slope fract g g' : K}
    {n n' lu sh : Controls K} (hg0 : 0 ≤ b.dailyGal) (havg : ∀ f ∈ b.avgShape, 0 ≤ f) (hs : 0 < slope) (hf : 0 ≤ fract)
    (hn : dictGet? m "normal" = some n) (hn' : dictGet? m' "normal" = some n')
    (hlu : dictGet? m "loadUp" = some lu) (hlu' : dictGet? m' "loadUp" = some lu)
    (hsh : dictGet? m "shed" = some sh) (hsh' : dictGet? m' "shed" = some sh)
    (kon : n.onFract ≤ n'.onFract) (ktrig : n'.onTrig ≤ n.onTrig)
    (h : genRateLs c sched m b slope fract = .ok g) (h' : genRateLs c sched m' b slope fract = .ok g') : g ≤ g' := by
  have c1 : lsControls m = .ok (n, lu, sh) := by simp [lsControls, dictGet, hn, hlu, hsh, ok_bind]
  have c2 : lsControls m' = .ok (n', lu, sh) := by simp [lsControls, dictGet, hn', hlu', hsh', ok_bind]
  simp only [genRateLs, bind_eq_ok] at h h'
  obtain ⟨r, hr, ⟨block, k⟩, hb, h⟩ := h
  obtain ⟨r', hr', ⟨block', k'⟩, hb', h'⟩ := h'
  obtain rfl : r = r' := Except.ok.inj (hr.symm.trans hr')
  have e := Except.ok.inj (hb.symm.trans hb')
  simp only [Prod.mk.injEq] at e
  obtain ⟨rfl, rfl⟩ := e
  by_cases hk : k = 0
  · simp only [hk, if_true, pure_eq_ok, Except.ok.injEq] at h h'
    rw [← h, ← h']
  · simp only [if_neg hk, c1, c2, ok_bind, bind_eq_ok] at h h'
    obtain ⟨⟨v, w⟩, hv, nP, e1, luP, e2, sP, e3, h⟩ := h
    obtain ⟨⟨v', w'⟩, hv', nP', e1', luP', e2', sP', e3', h'⟩ := h'
    have e := Except.ok.inj (hv.symm.trans hv')
    simp only [Prod.mk.injEq] at e
    obtain ⟨rfl, rfl⟩ := e
    obtain rfl : luP = luP' := Except.ok.inj (e2.symm.trans e2')
    obtain rfl : sP = sP' := Except.ok.inj (e3.symm.trans e3')
    by_cases h3 : luP - sP ≤ 0
    · simp only [if_pos h3, pure_eq_ok, Except.ok.injEq] at h h'
      rw [← h, ← h']
    · simp only [if_neg h3, pure_eq_ok, Except.ok.injEq] at h h'
      rw [← h, ← h']
      have hp := stratPct_anti hs kon ktrig e1 e1'
      have hv0 : 0 ≤ v := by
        simp only [prelimVols, hb, ok_bind, bind_eq_ok] at hv
        obtain ⟨x, hx, hv⟩ := hv
        cases block with
        | nil => simp at hv
        | cons a rest =>
          simp only [bind_eq_ok, pure_eq_ok, Except.ok.injEq, Prod.mk.injEq] at hv
          obtain ⟨y, -, rfl, -⟩ := hv
          rw [sumHours_use hx]
          refine mul_nonneg (List.sum_nonneg ?_) hf
          simp only [List.mem_map]
          rintro _ ⟨t, -, rfl⟩
          exact avgUse_nonneg hg0 havg t
      apply max_le_max le_rfl
      apply div_le_div_of_nonneg_right _ (Nat.cast_nonneg k)
      have : v * (luP - nP) / (luP - sP) ≤ v * (luP - nP') / (luP - sP) :=
        div_le_div_of_nonneg_right (mul_le_mul_of_nonneg_left (by linarith) hv0) (not_le.1 h3).le
      linarith

/-- **C129, the normal ON sensor with load shifting (partial).** Two sizings with load shifting that differ in the settings for
normal operation only: if the ON sensor of the second is at least as high in the tank, with a trigger at most as warm, its heating
capacity is at least as large. The storage can be smaller (`C129_load_shift_sensor_smaller`). -/
theorem C129_load_shift_sensor_partial {b : Building K} (hb : FullDay b) {db : ShapeFiles K} {s : DhwSys K} {sched : List String}
    {m m' : ControlMap K} {slope fract : K} {n n' lu sh : Controls K} {x x' : K × K}
    (h : SizedAs baseMethods db s (some sched) (some m) slope fract b x)
    (h' : SizedAs baseMethods db s (some sched) (some m') slope fract b x')
    (hn : dictGet? m "normal" = some n) (hn' : dictGet? m' "normal" = some n')
    (hlu : dictGet? m "loadUp" = some lu) (hlu' : dictGet? m' "loadUp" = some lu)
    (hsh : dictGet? m "shed" = some sh) (hsh' : dictGet? m' "shed" = some sh)
    -- sensible settings
    (hcold : ∀ t, b.getDesignInlet = .ok (some t) → t ≤ s.cfg.supply) (hd : 0 ≤ s.cfg.defrost) (hs : 0 < slope) (hf : 0 ≤ fract)
    (havg : ∀ f ∈ b.avgShape, 0 ≤ f)
    -- the second is harder
    (kon : n.onFract ≤ n'.onFract) (ktrig : n'.onTrig ≤ n.onTrig) : x.1 ≤ x'.1 := by
  replace h := sized_core hb h
  replace h' := sized_core hb h'
  have i1 : lsInputs (some sched) (some m) = (truthySched (some sched)).map (fun q => (q, m)) := by
    unfold lsInputs
    cases truthySched (some sched) <;> simp [dictHas, hsh]
  have i2 : lsInputs (some sched) (some m') = (truthySched (some sched)).map (fun q => (q, m')) := by
    unfold lsInputs
    cases truthySched (some sched) <;> simp [dictHas, hsh']
  rw [i1] at h
  rw [i2] at h'
  obtain ⟨x1, x2⟩ := x
  obtain ⟨y1, y2⟩ := x'
  cases ht : truthySched (some sched) with
  | none =>
    simp only [ht, Option.map_none, sizeCore, bind_eq_ok, pure_eq_ok, Except.ok.injEq, Prod.mk.injEq] at h h'
    obtain ⟨_, _, q, hq, _, _, _, _, _, _, rfl, rfl⟩ := h
    obtain ⟨_, _, q', hq', _, _, _, _, _, _, rfl, rfl⟩ := h'
    exact (Except.ok.inj (hq.symm.trans hq')).le
  | some sc =>
    simp only [ht, Option.map_some] at h h'
    have ec : cappedCfg s.cfg (some (sc, m')) = cappedCfg s.cfg (some (sc, m)) := rfl
    rw [ec] at h'
    have hc1 : (cappedCfg s.cfg (some (sc, m))).supply = s.cfg.supply := rfl
    have hc2 : (cappedCfg s.cfg (some (sc, m))).defrost = s.cfg.defrost := rfl
    rw [← hc1] at hcold
    rw [← hc2] at hd
    generalize cappedCfg s.cfg (some (sc, m)) = c at h h' hcold hd
    have val : ∀ {m : ControlMap K} {y : K × K}, sizeCore baseMethods c b (some (sc, m)) (some m) slope fract = .ok y →
        ∃ q g i, requireDesignInlet b = .ok i ∧ requiredCapacity c b = .ok q ∧ genRateLs c sc m b slope fract = .ok g ∧
          y.1 = max q (g * rhoCp K * (c.supply - i) / c.defrost / 1000) := by
      intro m y h
      obtain ⟨y1, y2⟩ := y
      simp only [sizeCore, bind_eq_ok, pure_eq_ok, Except.ok.injEq, Prod.mk.injEq] at h
      obtain ⟨i, hi, q, hq, _, _, _, _, _, _, t, ht, g, hg, _, _, _, _, rfl, rfl⟩ := h
      have hg : genRateLs c sc m b slope fract = .ok g := hg
      have ht : requiredCapacityLs genRateLs c sc m b slope fract = .ok t := ht
      simp only [requiredCapacityLs, hi, hg, ok_bind, capacityOfGenRate, bind_eq_ok, fdiv_eq_ok, Except.ok.injEq] at ht
      obtain ⟨_, ⟨-, rfl⟩, rfl⟩ := ht
      exact ⟨q, g, i, hi, hq, hg, rfl⟩
    obtain ⟨q, g, i, hi, hq, hg, e1⟩ := val h
    obtain ⟨q', g', i', hi', hq', hg', e2⟩ := val h'
    obtain rfl : q = q' := Except.ok.inj (hq.symm.trans hq')
    obtain rfl : i = i' := Except.ok.inj (hi.symm.trans hi')
    have hi0 : i ≤ c.supply := by
      apply hcold
      unfold requireDesignInlet at hi
      rw [bind_eq_ok] at hi
      obtain ⟨o, ho, hi⟩ := hi
      cases o with
      | none => simp at hi
      | some t =>
        simp only [pure_eq_ok, Except.ok.injEq] at hi
        rw [ho, hi]
    rw [e1, e2]
    apply max_le_max le_rfl
    apply div_le_div_of_nonneg_right _ (by norm_num)
    apply div_le_div_of_nonneg_right _ hd
    apply mul_le_mul_of_nonneg_right _ (by linarith)
    exact mul_le_mul_of_nonneg_right (genRate_sensor hb.gal havg hs hf hn hn' hlu hlu' hsh hsh' kon ktrig hg hg') (rhoCp_pos (K := K)).le

end

namespace Demo

/-- The demo controls with another normal ON sensor. -/
def sensorMap (f t : ℚ) : ControlMap ℚ := [("normal", ⟨f, t, 2/10, 120, 150⟩), ("loadUp", loadUp), ("shed", shed)]

/-- A building whose average day has a busy hour in the shed block and a busier one right after it. -/
def busyEvening : Building ℚ :=
  { building with peakShape := List.replicate 24 (1/24)
                  avgShape := List.replicate 17 (1/50) ++ [1/5, 1/50, 1/50, 9/25, 1/50, 1/50, 1/50] }

/-- Its sizing with load shifting. -/
def eveningSized (f t : ℚ) : (DhwSys ℚ × Building ℚ) × Py Warnings :=
  size baseMethods noFiles { cfg := cfg } busyEvening (some sched) (some (sensorMap f t)) (28/10) 1

end Demo

/-- **C129 with load shifting fails for the normal ON sensor.** A higher sensor, or a colder trigger, leads to a smaller storage:
the heating capacity grows, and with it what is generated after the shed. -/
theorem C129_load_shift_sensor_smaller :
    Demo.aboveShed (Demo.sensorMap (4/10) 110) (28/10) = true ∧ (Demo.eveningSized (4/10) 110).2.isOk = true ∧
    (Demo.eveningSized (5/10) 110).2.isOk = true ∧ (Demo.eveningSized (4/10) 80).2.isOk = true ∧
    getMinStorage (Demo.eveningSized (4/10) 110).1.1 = .ok (52675/103) ∧
    getMinStorage (Demo.eveningSized (5/10) 110).1.1 = .ok (50960/103) ∧
    getMinStorage (Demo.eveningSized (4/10) 80).1.1 = .ok (50820/103) ∧
    (50960/103 : ℚ) < 52675/103 ∧ (50820/103 : ℚ) < 52675/103 := by
  decide +kernel

/-- Non-vacuity: the same building, with a higher sensor; the capacity grows. -/
example : (11694949/320000 : ℚ) ≤ 11694949/250000 := by
  have fd : FullDay Demo.busyEvening := ⟨by decide +kernel, by decide +kernel, by decide +kernel⟩
  exact C129_load_shift_sensor_partial (m := Demo.sensorMap (4/10) 110) (m' := Demo.sensorMap (5/10) 110) (db := Demo.noFiles)
    (s := { cfg := Demo.cfg }) (sched := Demo.sched) (slope := 28/10) (fract := 1) (x := (11694949/320000, 52675/103))
    (x' := (11694949/250000, 50960/103)) fd
    (sizedAs_of (by decide +kernel) (by decide +kernel) (by decide +kernel))
    (sizedAs_of (by decide +kernel) (by decide +kernel) (by decide +kernel)) rfl rfl rfl rfl rfl rfl
    (fun t ht => by
      have e : Demo.busyEvening.getDesignInlet = .ok (some 50) := by decide +kernel
      rw [e] at ht
      simp only [Except.ok.injEq, Option.some.injEq] at ht
      rw [← ht]
      decide +kernel)
    (by decide +kernel) (by norm_num) (by norm_num) (by decide +kernel) (by norm_num) (by norm_num)

end Eco
