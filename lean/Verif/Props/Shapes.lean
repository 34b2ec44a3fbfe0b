import Verif.Spec.Shapes
import Verif.Props.DesignDay
import Verif.Props.Unused
set_option linter.unusedSectionVars false

/-! C141: the average day counts for load shifting only, and a load-shifting simulation does not see the peak day. -/

namespace Eco
open Spec
variable {K : Type} [Field K] [LinearOrder K] [IsStrictOrderedRing K]

/-! ### Sizing -/

theorem lsInputs_none {sched : Option (List String)} {cmap : Option (ControlMap K)} (h : ¬ AsksShift sched cmap) :
    lsInputs sched cmap = none := by
  unfold lsInputs truthySched
  rcases sched with _ | _ | ⟨x, xs⟩
  · rfl
  · rfl
  · cases cmap with
    | none => rfl
    | some m =>
      simp only
      rw [if_neg]
      rintro hm
      exact h ⟨_, m, rfl, by simp, rfl, (dictHas_iff_mem m "shed").1 hm⟩

/-- What the sizing steps read without load shifting. -/
structure AlikePeak (b b' : Building K) : Prop where
  daily : b'.dailyGal = b.dailyGal
  peak : b'.peakShape = b.peakShape
  inlet : requireDesignInlet b' = requireDesignInlet b

theorem alikePeak_average (a : List K) (b : Building K) : AlikePeak b (withAverage a b) := ⟨rfl, rfl, rfl⟩

/-- Capacity and volume read nothing else. -/
structure ReadsPeak (M : SizingMethods K) : Prop where
  cap : ∀ c (b b' : Building K), AlikePeak b b' → M.reqCapacity c b' = M.reqCapacity c b
  vol : ∀ c (b b' : Building K) x, AlikePeak b b' → M.runVol c b' x = M.runVol c b x

theorem reqCap_peak {b b' : Building K} (h : AlikePeak b b') (c : SysCfg K) : requiredCapacity c b' = requiredCapacity c b := by
  simp only [requiredCapacity, h.inlet, h.daily]

theorem base_readsPeak : ReadsPeak (baseMethods (K := K)) where
  cap c b b' h := reqCap_peak h c
  vol c b b' x h := by simp only [baseMethods, h.daily, h.peak]

theorem sp_readsPeak (l : RtpLoop K) : ReadsPeak (spMethods l) where
  cap c b b' h := by simp only [spMethods, rtpRequiredCapacity, reqCap_peak h]
  vol c b b' x h := by simp only [spMethods, spRunVol, recircDaily, h.inlet, h.daily, h.peak]

theorem sizeCore_peak {M : SizingMethods K} (hM : ReadsPeak M) {b b' : Building K} (h : AlikePeak b b') (c : SysCfg K)
    (cmap : Option (ControlMap K)) (slope fract : K) :
    sizeCore M c b' none cmap slope fract = sizeCore M c b none cmap slope fract := by
  simp only [sizeCore, h.inlet, hM.cap _ _ _ h, hM.vol _ _ _ _ h]

section
variable {a : List K} {b : Building K}

theorem toDaily_average (db : ShapeFiles K) : (withAverage a b).setToDaily db = b.setToDaily db := rfl

/-- Two calls with the same object and the same outcome. -/
theorem size_average {M : SizingMethods K} (hM : ReadsPeak M) (db : ShapeFiles K) (s : DhwSys K) {sched : Option (List String)}
    {cmap : Option (ControlMap K)} (hs : ¬ AsksShift sched cmap) (slope fract : K) :
    (size M db s (withAverage a b) sched cmap slope fract).1.1 = (size M db s b sched cmap slope fract).1.1 ∧
    (size M db s (withAverage a b) sched cmap slope fract).2 = (size M db s b sched cmap slope fract).2 := by
  simp only [size, lsInputs_none hs, show (withAverage a b).isAnnual = b.isAnnual from rfl]
  by_cases h : b.isAnnual = true
  · simp only [h, if_true, toDaily_average]
    cases b.setToDaily db <;> exact ⟨rfl, rfl⟩
  · simp only [h, if_false, Bool.false_eq_true, sizeCore_peak hM (alikePeak_average a b)]
    split <;> exact ⟨rfl, rfl⟩

/-- **C141, sizing a primary system.** Without load shifting the average day has no influence on the sized system, the warnings
or the exception. -/
theorem C141_size_primary (db : ShapeFiles K) (s : DhwSys K) {sched : Option (List String)}
    {cmap : Option (ControlMap K)} (hs : ¬ AsksShift sched cmap) (slope fract : K) :
    (size baseMethods db s (withAverage a b) sched cmap slope fract).1.1 = (size baseMethods db s b sched cmap slope fract).1.1 ∧
    (size baseMethods db s (withAverage a b) sched cmap slope fract).2 = (size baseMethods db s b sched cmap slope fract).2 :=
  size_average base_readsPeak db s hs slope fract

/-- **C141, sizing a single-pass system.** -/
theorem C141_size_single_pass (db : ShapeFiles K) (s : SpSys K) {sched : Option (List String)}
    {cmap : Option (ControlMap K)} (hs : ¬ AsksShift sched cmap) (slope fract : K) :
    (s.size db (withAverage a b) sched cmap slope fract).1.1 = (s.size db b sched cmap slope fract).1.1 ∧
    (s.size db (withAverage a b) sched cmap slope fract).2 = (s.size db b sched cmap slope fract).2 := by
  obtain ⟨h1, h2⟩ := size_average (a := a) (b := b) (sp_readsPeak s.loop) db s.base hs slope fract
  simp only [SpSys.size]
  generalize size (spMethods s.loop) db s.base b sched cmap slope fract = r at *
  generalize size (spMethods s.loop) db s.base (withAverage a b) sched cmap slope fract = q at *
  obtain ⟨⟨d', b1⟩, w'⟩ := r
  obtain ⟨⟨d, b1'⟩, w⟩ := q
  simp only at h1 h2
  subst h1 h2
  cases w with
  | error e => exact ⟨rfl, rfl⟩
  | ok w => simp only; cases rtpRecircCap d.cfg s.loop <;> exact ⟨rfl, rfl⟩

/-- **C141, sizing a parallel-loop system.** -/
theorem C141_size_parallel (db : ShapeFiles K) (s : ParSys K) {sched : Option (List String)}
    {cmap : Option (ControlMap K)} (hs : ¬ AsksShift sched cmap) (slope fract : K) :
    (s.size baseMethods db (withAverage a b) sched cmap slope fract).1.1 = (s.size baseMethods db b sched cmap slope fract).1.1 ∧
    (s.size baseMethods db (withAverage a b) sched cmap slope fract).2 = (s.size baseMethods db b sched cmap slope fract).2 := by
  obtain ⟨h1, h2⟩ := size_average (a := a) (b := b) base_readsPeak db s.base hs slope fract
  simp only [ParSys.size]
  generalize size baseMethods db s.base b sched cmap slope fract = r at *
  generalize size baseMethods db s.base (withAverage a b) sched cmap slope fract = q at *
  obtain ⟨⟨d', b1⟩, w'⟩ := r
  obtain ⟨⟨d, b1'⟩, w⟩ := q
  simp only at h1 h2
  subst h1 h2
  cases validateTm s.tm with
  | error e => exact ⟨rfl, rfl⟩
  | ok u =>
    cases w with
    | error e => exact ⟨rfl, rfl⟩
    | ok w => simp only; cases sizeTm d.cfg.supply s.tm <;> exact ⟨rfl, rfl⟩

theorem swing_body_average (s : SwingSys K) (cmap : Option (ControlMap K)) (slope fract : K) :
    sizeSwingBody s (withAverage a b) none cmap slope fract = sizeSwingBody s b none cmap slope fract := rfl

theorem swing_average (db : ShapeFiles K) (s : SwingSys K) {sched : Option (List String)}
    {cmap : Option (ControlMap K)} (hs : ¬ AsksShift sched cmap) (slope fract : K) :
    (s.size db (withAverage a b) sched cmap slope fract).1.1 = (s.size db b sched cmap slope fract).1.1 ∧
    (s.size db (withAverage a b) sched cmap slope fract).2 = (s.size db b sched cmap slope fract).2 ∧
    AlikePeak (s.size db b sched cmap slope fract).1.2 (s.size db (withAverage a b) sched cmap slope fract).1.2 := by
  simp only [SwingSys.size, lsInputs_none hs, show (withAverage a b).isAnnual = b.isAnnual from rfl]
  by_cases h : b.isAnnual = true
  · simp only [h, if_true, toDaily_average]
    cases b.setToDaily db with
    | error e => exact ⟨rfl, rfl, alikePeak_average a b⟩
    | ok b1 => exact ⟨rfl, rfl, rfl, rfl, rfl⟩
  · simp only [h, if_false, Bool.false_eq_true, swing_body_average]
    split <;> exact ⟨rfl, rfl, alikePeak_average a b⟩

/-- **C141, sizing a swing-tank system.** -/
theorem C141_size_swing (db : ShapeFiles K) (s : SwingSys K) {sched : Option (List String)}
    {cmap : Option (ControlMap K)} (hs : ¬ AsksShift sched cmap) (slope fract : K) :
    (s.size db (withAverage a b) sched cmap slope fract).1.1 = (s.size db b sched cmap slope fract).1.1 ∧
    (s.size db (withAverage a b) sched cmap slope fract).2 = (s.size db b sched cmap slope fract).2 :=
  ⟨(swing_average db s hs slope fract).1, (swing_average db s hs slope fract).2.1⟩

/-- **C141, sizing a swing-tank system with the electric-resistance trade-off.** -/
theorem C141_size_trade_off (db : ShapeFiles K) (e : ErSys K) {sched : Option (List String)}
    {cmap : Option (ControlMap K)} (hs : ¬ AsksShift sched cmap) (slope fract : K) :
    (e.size db (withAverage a b) sched cmap slope fract).1.1 = (e.size db b sched cmap slope fract).1.1 ∧
    (e.size db (withAverage a b) sched cmap slope fract).2 = (e.size db b sched cmap slope fract).2 := by
  obtain ⟨h1, h2, h3⟩ := swing_average (a := a) (b := b) db e.sw hs slope fract
  simp only [ErSys.size]
  generalize e.sw.size db b sched cmap slope fract = r at *
  generalize e.sw.size db (withAverage a b) sched cmap slope fract = q at *
  obtain ⟨⟨d', b1⟩, w'⟩ := r
  obtain ⟨⟨d, b1'⟩, w⟩ := q
  simp only at h1 h2 h3
  subst h1 h2
  cases w with
  | error e => exact ⟨rfl, rfl⟩
  | ok w =>
    have he : ErSys.sizeEr { e with sw := d } b1' = ErSys.sizeEr { e with sw := d } b1 := by
      simp only [ErSys.sizeEr, erCapacity, erHours, h3.inlet, h3.peak, h3.daily]
    simp only [he, and_self]

/-- **C141, sizing a multi-pass system.** It does not shift load. -/
theorem C141_size_multi_pass (db : ShapeFiles K) (s : MpSys K) (cmap : Option (ControlMap K)) (slope : K) :
    (s.size db (withAverage a b) cmap slope).1.1 = (s.size db b cmap slope).1.1 ∧
    (s.size db (withAverage a b) cmap slope).2 = (s.size db b cmap slope).2 := by
  have hl : ∀ (cfg : SysCfg K) l avg cold heat n t x m, slugLoop cfg l avg cold heat (withAverage a b) n t x m =
      slugLoop cfg l avg cold heat b n t x m := by
    intro cfg l avg cold heat n
    induction n with
    | zero => intro t x m; rfl
    | succ n ih =>
      intro t x m
      have hd : sizingValve cfg l avg cold (withAverage a b) t = sizingValve cfg l avg cold b t := rfl
      simp only [slugLoop, hd, ih]
  have hb : mpSizeBody s (withAverage a b) cmap slope = mpSizeBody s b cmap slope := by
    simp only [mpSizeBody, mpCalc, mpRunVol, hl, rtpRequiredCapacity, reqCap_peak (alikePeak_average a b),
      (alikePeak_average a b).inlet]
  simp only [MpSys.size, show (withAverage a b).isAnnual = b.isAnnual from rfl]
  split
  · exact ⟨rfl, rfl⟩
  by_cases h : b.isAnnual = true
  · simp only [h, if_true, toDaily_average]
    cases b.setToDaily db <;> exact ⟨rfl, rfl⟩
  · simp only [h, if_false, Bool.false_eq_true, hb, and_self]

/-- **C141, the sizing curve.** -/
theorem C141_curve [FloorRing K] (db : ShapeFiles K) (s : DhwSys K) (slope step : K) :
    (getSizingCurve baseMethods db s (withAverage a b) slope step).1.1 = (getSizingCurve baseMethods db s b slope step).1.1 ∧
    (getSizingCurve baseMethods db s (withAverage a b) slope step).2 = (getSizingCurve baseMethods db s b slope step).2 := by
  have hw : ∀ factor hs cfg, sweep baseMethods (withAverage a b) factor cfg hs = sweep baseMethods b factor cfg hs := by
    intro factor hs
    induction hs with
    | nil => intro cfg; rfl
    | cons x xs ih =>
      intro cfg
      have ha := alikePeak_average a b
      simp only [sweep, curvePoint, base_readsPeak.cap _ _ _ ha, base_readsPeak.vol _ _ _ _ ha, ih]
  simp only [getSizingCurve, show (withAverage a b).isAnnual = b.isAnnual from rfl]
  by_cases h : b.isAnnual = true
  · simp only [h, if_true, toDaily_average]
    cases b.setToDaily db <;> exact ⟨rfl, rfl⟩
  · simp only [h, if_false, Bool.false_eq_true, sizingCurveBody, curveSetup, hw, (alikePeak_average a b).inlet,
      (alikePeak_average a b).peak, and_self]

end

/-! ### Simulation -/

/-- Two step functions that agree as long as an invariant holds. -/
theorem loop_within {S : Type} (I : S → Prop) (step step' : S → ℕ → Py (S × StepOut K)) (ts : ℕ) (supply : K)
    (h : ∀ s i, I s → step' s i = step s i) (hI : ∀ s i s' o, I s → step s i = .ok (s', o) → I s') (n : ℕ) :
    ∀ i s r, I s → simLoop step' ts supply n i s r = simLoop step ts supply n i s r := by
  induction n with
  | zero => intro i s r _; rfl
  | succ n ih =>
    intro i s r hs
    simp only [simLoop, h s i hs]
    cases hx : step s i with
    | error e => rfl
    | ok x =>
      obtain ⟨s', o⟩ := x
      simp only [ok_bind]
      congr 1
      funext y
      simp only [ih _ _ _ (hI s i s' o hs hx)]

theorem from_within {S : Type} (I : S → Prop) (step step' : ℕ → S → ℕ → Py (S × StepOut K)) (supply : K) (tm : Bool) (thr : K)
    (maxMin : Int) (d : String) (s : S) (hs : I s) (h : ∀ ts s i, I s → step' ts s i = step ts s i)
    (hI : ∀ ts s i s' o, I s → step ts s i = .ok (s', o) → I s') :
    simulateFrom step' supply tm thr maxMin d s = simulateFrom step supply tm thr maxMin d s := by
  unfold simulateFrom
  cases simDuration d with
  | error e => rfl
  | ok x =>
    obtain ⟨dur, ts⟩ := x
    simp only [ok_bind]
    congr 1
    funext r
    exact loop_within I _ _ ts supply (h ts) (hI ts) _ _ _ _ hs

/-- Whether some heater can shift load. -/
theorem anyShift_iff (ws : List (Heater K)) : ws.any (·.isLoadShifting) = true ↔ ∃ w ∈ ws, Shifts w := by
  rw [List.any_eq_true]
  refine exists_congr fun w => and_congr_right fun _ => ?_
  unfold Heater.isLoadShifting Shifts
  cases w.cmap with
  | none => simp
  | some m => simp only [canShift_iff, Option.some.injEq, exists_eq_left']

/-- The building for a run of heaters that shift load (`v = true`) or not: only one of the shapes is read. -/
theorem inputs_shape {b b' : Building K} {v : Bool} (hd : ∀ t int, b'.getDhwLoad t int v = b.getDhwLoad t int v)
    (hc : b'.climate = b.climate) (s : Prim K) (hs : s.heaters.any (·.isLoadShifting) = v) (t int : ℕ) :
    s.inputs b' t int = s.inputs b t int := by
  simp only [Prim.inputs, hs, hd, Building.getOat, Building.getInlet, hc]

section
variable {b b' : Building K} {v : Bool} (hd : ∀ t int, b'.getDhwLoad t int v = b.getDhwLoad t int v) (hc : b'.climate = b.climate)
include hd hc

theorem primStep_shape (s : Prim K) (hs : s.heaters.any (·.isLoadShifting) = v) (t int : ℕ) :
    Prim.step b' int s t = Prim.step b int s t := by
  unfold Prim.step
  rw [inputs_shape hd hc s hs]

omit hd hc in
theorem primStep_shift {s s' : Prim K} {o : StepOut K} {int t : ℕ} (h : Prim.step b int s t = .ok (s', o)) :
    s'.heaters.any (·.isLoadShifting) = s.heaters.any (·.isLoadShifting) := by
  unfold Prim.step at h
  simp only [bind_eq_ok] at h
  obtain ⟨i, _, h⟩ := h
  split at h
  · simp only [pure_eq_ok, Except.ok.injEq, Prod.mk.injEq] at h
    rw [← h.1]
  · simp only [bind_eq_ok] at h
    obtain ⟨⟨ws, tk, q, kws⟩, h1, h⟩ := h
    simp only [pure_eq_ok, Except.ok.injEq, Prod.mk.injEq] at h
    rw [← h.1]
    exact anyShift_congr (updateAll_same (heatPrimary_ok h1).1)

theorem prim_shape (s : Prim K) (hs : s.heaters.any (·.isLoadShifting) = v) (thr : K) (maxMin : Int) (d : String) :
    s.simulate b' thr maxMin d = s.simulate b thr maxMin d := by
  have hi : s.init b' = s.init b := by
    simp only [Prim.init, designInletOr, Building.getDesignInlet, hc]
  unfold Prim.simulate
  rw [hi]
  cases simDuration d with
  | error e => rfl
  | ok x =>
    simp only [ok_bind]
    cases hx : s.init b with
    | error e => rfl
    | ok p =>
      have hp : p.heaters = s.heaters := by
        unfold Prim.init at hx
        simp only [bind_eq_ok, pure_eq_ok, Except.ok.injEq] at hx
        obtain ⟨_, _, rfl⟩ := hx
        rfl
      simp only [ok_bind]
      exact from_within (fun s => s.heaters.any (·.isLoadShifting) = v) _ _ _ _ _ _ _ _ (by rw [hp]; exact hs)
        (fun ts s i h => primStep_shape hd hc s h i ts) (fun ts s i s' o h hx => (primStep_shift hx).trans h)

theorem sp_shape (l : RtpLoop K) (s : Prim K) (hs : s.heaters.any (·.isLoadShifting) = v) (thr : K) (maxMin : Int) (d : String) :
    spSimulate l s b' thr maxMin d = spSimulate l s b thr maxMin d := by
  have hi : s.init b' = s.init b := by
    simp only [Prim.init, designInletOr, Building.getDesignInlet, hc]
  unfold spSimulate
  rw [hi]
  cases simDuration d with
  | error e => rfl
  | ok x =>
    simp only [ok_bind]
    cases hx : s.init b with
    | error e => rfl
    | ok p =>
      have hp : p.heaters = s.heaters := by
        unfold Prim.init at hx
        simp only [bind_eq_ok, pure_eq_ok, Except.ok.injEq] at hx
        obtain ⟨_, _, rfl⟩ := hx
        rfl
      simp only [ok_bind]
      refine from_within (fun s => s.heaters.any (·.isLoadShifting) = v) _ _ _ _ _ _ _ _ (by rw [hp]; exact hs)
        (fun ts s i h => ?_) (fun ts s i s' o h hx => ?_)
      · unfold spStep
        rw [primStep_shape hd hc s h]
      · unfold spStep at hx
        simp only [bind_eq_ok] at hx
        obtain ⟨⟨p', o'⟩, h1, hx⟩ := hx
        have hh := (primStep_shift h1).trans h
        dsimp only at hx
        split at hx
        · simp only [pure_eq_ok, Except.ok.injEq, Prod.mk.injEq] at hx
          rw [← hx.1]; exact hh
        · simp only [pure_eq_ok, Except.ok.injEq, Prod.mk.injEq] at hx
          rw [← hx.1]; exact hh

theorem par_shape (c : TmCfg K) (s : ParSim K) (hs : s.prim.heaters.any (·.isLoadShifting) = v) (thr : K) (maxMin : Int) (d : String) :
    parSimulate c s b' thr maxMin d = parSimulate c s b thr maxMin d := by
  have hi : s.prim.init b' = s.prim.init b := by
    simp only [Prim.init, designInletOr, Building.getDesignInlet, hc]
  have hj : designInletOr b' = designInletOr b := by simp only [designInletOr, Building.getDesignInlet, hc]
  unfold parSimulate
  rw [hi, hj]
  cases simDuration d with
  | error e => rfl
  | ok x =>
    simp only [ok_bind]
    cases hx : s.prim.init b with
    | error e => rfl
    | ok p =>
      have hp : p.heaters = s.prim.heaters := by
        unfold Prim.init at hx
        simp only [bind_eq_ok, pure_eq_ok, Except.ok.injEq] at hx
        obtain ⟨_, _, rfl⟩ := hx
        rfl
      simp only [ok_bind]
      cases designInletOr b with
      | error e => rfl
      | ok cold =>
        simp only [ok_bind]
        refine from_within (fun s => s.prim.heaters.any (·.isLoadShifting) = v) _ _ _ _ _ _ _ _ (by dsimp only; rw [hp]; exact hs)
          (fun ts s i h => ?_) (fun ts s i s' o h hx => ?_)
        · unfold parStep
          rw [primStep_shape hd hc s.prim h]
        · unfold parStep at hx
          simp only [bind_eq_ok] at hx
          obtain ⟨⟨p', o'⟩, h1, hx⟩ := hx
          have hh := (primStep_shift h1).trans h
          dsimp only at hx
          split at hx
          · simp at hx
          · simp only [pure_eq_ok, Except.ok.injEq, Prod.mk.injEq] at hx
            rw [← hx.1]; exact hh

theorem swing_shape (off : K) (s : SwingSim K) (hs : s.heaters.any (·.isLoadShifting) = v) (thr : K) (maxMin : Int) (d : String) :
    swingSimulate off s b' thr maxMin d = swingSimulate off s b thr maxMin d := by
  have hj : designInletOr b' = designInletOr b := by simp only [designInletOr, Building.getDesignInlet, hc]
  unfold swingSimulate
  rw [hj]
  cases simDuration d with
  | error e => rfl
  | ok x =>
    simp only [ok_bind]
    cases designInletOr b with
    | error e => rfl
    | ok cold =>
      simp only [ok_bind]
      refine from_within (fun s => s.heaters.any (·.isLoadShifting) = v) _ _ _ _ _ _ _ _ hs
        (fun ts s i h => ?_) (fun ts s i s' o h hx => ?_)
      · unfold swingSimStep
        rw [inputs_shape hd hc _ h]
      · unfold swingSimStep at hx
        simp only [bind_eq_ok] at hx
        obtain ⟨_, _, ⟨ws, tk, q, kws⟩, h1, _, _, hx⟩ := hx
        split at hx
        · simp at hx
        · simp only [bind_eq_ok, pure_eq_ok, Except.ok.injEq, Prod.mk.injEq] at hx
          obtain ⟨_, _, hx, _⟩ := hx
          rw [← hx]
          exact (anyShift_congr (updateAll_same (heatPrimary_ok h1).1)).trans h

end

/-- **C141, runs without load shifting.** If no heater has settings for shifting load, the average day has no influence on a
run of any system: the same records, the same final state, or the same exception. -/
theorem C141_normal_runs (a : List K) (b : Building K) (thr : K) (maxMin : Int) (d : String) :
    (∀ s : Prim K, (∀ w ∈ s.heaters, ¬ Shifts w) →
      s.simulate (withAverage a b) thr maxMin d = s.simulate b thr maxMin d ∧
      ∀ l, spSimulate l s (withAverage a b) thr maxMin d = spSimulate l s b thr maxMin d) ∧
    (∀ (c : TmCfg K) (s : ParSim K), (∀ w ∈ s.prim.heaters, ¬ Shifts w) →
      parSimulate c s (withAverage a b) thr maxMin d = parSimulate c s b thr maxMin d) ∧
    (∀ (off : K) (s : SwingSim K), (∀ w ∈ s.heaters, ¬ Shifts w) →
      swingSimulate off s (withAverage a b) thr maxMin d = swingSimulate off s b thr maxMin d) := by
  have hn : ∀ ws : List (Heater K), (∀ w ∈ ws, ¬ Shifts w) → ws.any (·.isLoadShifting) = false := by
    intro ws h
    rw [← Bool.not_eq_true, anyShift_iff]
    rintro ⟨w, hw, hs⟩
    exact h w hw hs
  have hd : ∀ t int, (withAverage a b).getDhwLoad t int false = b.getDhwLoad t int false := fun _ _ => rfl
  exact ⟨fun s h => ⟨prim_shape hd rfl s (hn _ h) thr maxMin d, fun l => sp_shape hd rfl l s (hn _ h) thr maxMin d⟩,
    fun c s h => par_shape hd rfl c s (hn _ h) thr maxMin d, fun off s h => swing_shape hd rfl off s (hn _ h) thr maxMin d⟩

/-- **C141, runs with load shifting.** If some heater has settings for shifting load, the peak day has no influence on a run
of any system: whatever the peak day is, the run is the same, and so is the verdict. -/
theorem C141_shifting_runs (p : List K) (b : Building K) (thr : K) (maxMin : Int) (d : String) :
    (∀ s : Prim K, (∃ w ∈ s.heaters, Shifts w) →
      s.simulate (withPeak p b) thr maxMin d = s.simulate b thr maxMin d ∧
      ∀ l, spSimulate l s (withPeak p b) thr maxMin d = spSimulate l s b thr maxMin d) ∧
    (∀ (c : TmCfg K) (s : ParSim K), (∃ w ∈ s.prim.heaters, Shifts w) →
      parSimulate c s (withPeak p b) thr maxMin d = parSimulate c s b thr maxMin d) ∧
    (∀ (off : K) (s : SwingSim K), (∃ w ∈ s.heaters, Shifts w) →
      swingSimulate off s (withPeak p b) thr maxMin d = swingSimulate off s b thr maxMin d) := by
  have hd : ∀ t int, (withPeak p b).getDhwLoad t int true = b.getDhwLoad t int true := fun _ _ => rfl
  exact ⟨fun s h => ⟨prim_shape hd rfl s ((anyShift_iff _).2 h) thr maxMin d,
      fun l => sp_shape hd rfl l s ((anyShift_iff _).2 h) thr maxMin d⟩,
    fun c s h => par_shape hd rfl c s ((anyShift_iff _).2 h) thr maxMin d,
    fun off s h => swing_shape hd rfl off s ((anyShift_iff _).2 h) thr maxMin d⟩

/-- **C141, multi-pass and tankless runs.** They follow the peak day at all times. -/
theorem C141_peak_runs (a : List K) (b : Building K) (thr : K) (maxMin : Int) (d : String) :
    (∀ s : MpSim K, mpSimulate s (withAverage a b) thr maxMin d = mpSimulate s b thr maxMin d) ∧
    (∀ s : Instant K, s.simulate (withAverage a b) thr maxMin d = s.simulate b thr maxMin d) :=
  ⟨fun _ => rfl, fun _ => rfl⟩

end Eco

namespace Eco.Demo
open Spec

/-- The demo settings have a `"shed"` mode; without a schedule, or with the normal settings alone, a call does not ask for load
shifting. -/
example : ¬ AsksShift none (some map) ∧ ¬ AsksShift (some sched) (some [("normal", normal)]) ∧ AsksShift (some sched) (some map) := by
  refine ⟨?_, ?_, sched, map, rfl, by decide, rfl, by decide⟩
  · rintro ⟨s, m, h, _⟩
    simp at h
  · rintro ⟨s, m, _, _, h, h2⟩
    injection h with h
    subst h
    revert h2
    decide

/-- A heater with the demo settings can shift load, one with normal settings cannot. -/
example (cap : ℚ) : Shifts (Heater.fromNominal cap (some sched) (some map)) ∧
    ¬ Shifts (Heater.fromNominal cap (some sched) (some [("normal", normal)])) := by
  refine ⟨⟨map, rfl, ("loadUp", loadUp), by simp [map], Or.inl rfl⟩, ?_⟩
  rintro ⟨m, h, p, hp, hs⟩
  injection h with h
  subst h
  simp only [List.mem_singleton] at hp
  subst hp
  revert hs
  decide

/-- Both buildings can be sized, and they are different. -/
example : (withAverage (List.replicate 24 (1 / 24)) building).avgShape ≠ building.avgShape ∧
    ((size baseMethods noFiles { cfg := cfg } building none (some map) (14 / 5) 1).2.toOption).isSome = true ∧
    ((size baseMethods noFiles { cfg := cfg } (withAverage (List.replicate 24 (1 / 24)) building) none (some map)
      (14 / 5) 1).2.toOption).isSome = true := by
  refine ⟨by decide +kernel, by decide +kernel, by decide +kernel⟩

end Eco.Demo
