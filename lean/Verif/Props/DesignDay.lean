import Verif.Spec.DesignDay
import Verif.Model.SwingEr
import Verif.Props.Cut
import Verif.Props.Demo
set_option linter.unusedSectionVars false

/-! C140: sizing depends on the climate only through the design inlet water temperature. -/

namespace Eco
open Spec
variable {K : Type} [Field K] [LinearOrder K] [IsStrictOrderedRing K]

/-! ### What the sizing steps read of a building -/

/-- Everything the sizing steps read. -/
structure Alike (b b' : Building K) : Prop where
  daily : b'.dailyGal = b.dailyGal
  peak : b'.peakShape = b.peakShape
  avg : b'.avgShape = b.avgShape
  inlet : b'.getDesignInlet = b.getDesignInlet

section
variable {b b' : Building K} (h : Alike b b')
include h

theorem requireInlet_alike : requireDesignInlet b' = requireDesignInlet b := by
  simp only [requireDesignInlet, h.inlet]

theorem load_alike (t int : ℕ) (avg : Bool) : b'.getDhwLoad t int avg = b.getDhwLoad t int avg := by
  simp only [Building.getDhwLoad, h.daily, h.peak, h.avg]

theorem requiredCapacity_alike (c : SysCfg K) : requiredCapacity c b' = requiredCapacity c b := by
  simp only [requiredCapacity, requireInlet_alike h, h.daily]

theorem prelimVols_alike (sched : List String) (fract : K) : prelimVols sched b' fract = prelimVols sched b fract := by
  simp only [prelimVols, h.avg, h.daily]

theorem genRateLs_alike (c : SysCfg K) (sched : List String) (m : ControlMap K) (slope fract : K) :
    genRateLs c sched m b' slope fract = genRateLs c sched m b slope fract := by
  simp only [genRateLs, h.daily, prelimVols_alike h]

theorem runningVolumeLs_alike (sched : List String) (gen fract : K) :
    runningVolumeLs sched b' gen fract = runningVolumeLs sched b gen fract := by
  simp only [runningVolumeLs, h.daily, h.avg, prelimVols_alike h]

theorem recircDaily_alike (c : SysCfg K) (l : RtpLoop K) : recircDaily c l b' = recircDaily c l b := by
  simp only [recircDaily, requireInlet_alike h]

theorem boosted_alike (r : K) (f : Building K → Py K) (hf : ∀ b b' : Building K, Alike b b' → f b' = f b) :
    (boosted b' r f).2 = (boosted b r f).2 := by
  simp only [boosted]
  exact hf _ _ ⟨by simp only [h.daily], h.peak, h.avg, h.inlet⟩

theorem spGenRateLs_alike (l : RtpLoop K) (c : SysCfg K) (sched : List String) (m : ControlMap K) (slope fract : K) :
    (spGenRateLs l c sched m b' slope fract).2 = (spGenRateLs l c sched m b slope fract).2 := by
  simp only [spGenRateLs, recircDaily_alike h]
  cases recircDaily c l b with
  | error e => rfl
  | ok r => exact boosted_alike h r _ (fun _ _ h => genRateLs_alike h _ _ _ _ _)

theorem spRunVolLs_alike (l : RtpLoop K) (c : SysCfg K) (sched : List String) (gen fract : K) :
    (spRunVolLs l c sched b' gen fract).2 = (spRunVolLs l c sched b gen fract).2 := by
  simp only [spRunVolLs, recircDaily_alike h]
  cases recircDaily c l b with
  | error e => rfl
  | ok r => exact boosted_alike h r _ (fun _ _ h => runningVolumeLs_alike h _ _ _)

end

/-- The methods of a system read nothing else. -/
structure ReadsAlike (M : SizingMethods K) : Prop where
  cap : ∀ c (b b' : Building K), Alike b b' → M.reqCapacity c b' = M.reqCapacity c b
  vol : ∀ c (b b' : Building K) x, Alike b b' → M.runVol c b' x = M.runVol c b x
  gen : ∀ c sched m (b b' : Building K) s f, Alike b b' → M.genRateLs c sched m b' s f = M.genRateLs c sched m b s f
  capLs : ∀ c sched m (b b' : Building K) s f, Alike b b' → M.reqCapacityLs c sched m b' s f = M.reqCapacityLs c sched m b s f
  volLs : ∀ c sched (b b' : Building K) g f, Alike b b' → M.runVolLs c sched b' g f = M.runVolLs c sched b g f

theorem base_readsAlike : ReadsAlike (baseMethods (K := K)) where
  cap c b b' h := requiredCapacity_alike h c
  vol c b b' x h := by simp only [baseMethods, h.daily, h.peak]
  gen c sched m b b' s f h := genRateLs_alike h c sched m s f
  capLs c sched m b b' s f h := by
    simp only [baseMethods, requiredCapacityLs, requireInlet_alike h, genRateLs_alike h]
  volLs c sched b b' g f h := runningVolumeLs_alike h sched g f

theorem sp_readsAlike (l : RtpLoop K) : ReadsAlike (spMethods l) where
  cap c b b' h := by simp only [spMethods, rtpRequiredCapacity, requiredCapacity_alike h]
  vol c b b' x h := by simp only [spMethods, spRunVol, recircDaily_alike h, h.daily, h.peak]
  gen c sched m b b' s f h := spGenRateLs_alike h l c sched m s f
  capLs c sched m b b' s f h := by
    simp only [spMethods, rtpRequiredCapacityLs, requiredCapacityLs, requireInlet_alike h, spGenRateLs_alike h]
  volLs c sched b b' g f h := spRunVolLs_alike h l c sched g f

theorem sizeCore_alike {M : SizingMethods K} (hM : ReadsAlike M) {b b' : Building K} (h : Alike b b') (c : SysCfg K)
    (ls : Option (List String × ControlMap K)) (cmap : Option (ControlMap K)) (slope fract : K) :
    sizeCore M c b' ls cmap slope fract = sizeCore M c b ls cmap slope fract := by
  simp only [sizeCore, requireInlet_alike h, hM.cap _ _ _ h, hM.vol _ _ _ _ h, hM.gen _ _ _ _ _ _ _ h,
    hM.capLs _ _ _ _ _ _ _ h, hM.volLs _ _ _ _ _ _ h]

/-! ### Moving a building -/

section
variable {c : Option (ClimateZone K)} {b : Building K}

theorem moved_toDaily (db : ShapeFiles K) : (moved c b).setToDaily db = (b.setToDaily db).map (moved c) := by
  simp only [Building.setToDaily]
  by_cases h : b.buildingType ≠ "multi_family"
  · rw [if_pos (show (moved c b).buildingType ≠ "multi_family" from h), if_pos h]; rfl
  · rw [if_neg (show ¬ (moved c b).buildingType ≠ "multi_family" from h), if_neg h]
    cases loadShapeJson db "multi_family" with
    | error e => rfl
    | ok d =>
      simp only [ok_bind]
      cases d.streamAvg <;> rfl

theorem moved_toAnnual (db : ShapeFiles K) : (moved c b).setToAnnual db = (b.setToAnnual db).map (moved c) := by
  simp only [Building.setToAnnual]
  by_cases h : b.buildingType ≠ "multi_family"
  · rw [if_pos (show (moved c b).buildingType ≠ "multi_family" from h), if_pos h]; rfl
  · rw [if_neg (show ¬ (moved c b).buildingType ≠ "multi_family" from h), if_neg h]
    cases loadShapeJson db "multi_family" <;> rfl

theorem toDaily_climate (db : ShapeFiles K) {b1 : Building K} (h : b.setToDaily db = .ok b1) : b1.climate = b.climate := by
  simp only [Building.setToDaily] at h
  split at h
  · simp at h
  · simp only [bind_eq_ok] at h
    obtain ⟨d, _, h⟩ := h
    split at h
    · simp at h
    · simp only [pure_eq_ok, Except.ok.injEq] at h
      rw [← h]

theorem toAnnual_climate (db : ShapeFiles K) {b1 : Building K} (h : b.setToAnnual db = .ok b1) : b1.climate = b.climate := by
  simp only [Building.setToAnnual] at h
  split at h
  · simp at h
  · simp only [bind_eq_ok, pure_eq_ok, Except.ok.injEq] at h
    obtain ⟨d, _, h⟩ := h
    rw [← h]

/-- The step with which every sizing call begins. -/
theorem moved_start (db : ShapeFiles K) :
    (if (moved c b).isAnnual then (moved c b).setToDaily db else .ok (moved c b)) =
      (if b.isAnnual then b.setToDaily db else .ok b).map (moved c) := by
  show (if b.isAnnual = true then _ else _) = _
  split
  · exact moved_toDaily db
  · rfl

theorem start_climate (db : ShapeFiles K) {b1 : Building K} (h : (if b.isAnnual then b.setToDaily db else .ok b) = .ok b1) :
    b1.climate = b.climate := by
  split at h
  · exact toDaily_climate db h
  · simp only [Except.ok.injEq] at h
    rw [h]

theorem alike_moved (hc : (moved c b).getDesignInlet = b.getDesignInlet) {b1 : Building K} (h1 : b1.climate = b.climate) :
    Alike b1 (moved c b1) := by
  refine ⟨rfl, rfl, rfl, ?_⟩
  simp only [Building.getDesignInlet, h1] at hc ⊢
  exact hc

end

variable {c : Option (ClimateZone K)} {b : Building K} (hc : (moved c b).getDesignInlet = b.getDesignInlet)
include hc

theorem size_moved {M : SizingMethods K} (hM : ReadsAlike M) (db : ShapeFiles K) (s : DhwSys K) (sched : Option (List String))
    (cmap : Option (ControlMap K)) (slope fract : K) :
    SameCall c (size M db s b sched cmap slope fract) (size M db s (moved c b) sched cmap slope fract) := by
  simp only [size, moved_start]
  cases hb : (if b.isAnnual then b.setToDaily db else .ok b) with
  | error e => exact ⟨rfl, rfl, rfl⟩
  | ok b1 =>
    have ha := alike_moved hc (start_climate db hb)
    simp only [Except.map, sizeCore_alike hM ha, show (moved c b).isAnnual = b.isAnnual from rfl]
    split
    · exact ⟨rfl, rfl, rfl⟩
    · split
      · rw [moved_toAnnual]
        cases b1.setToAnnual db <;> exact ⟨rfl, rfl, rfl⟩
      · exact ⟨rfl, rfl, rfl⟩

omit hc in
theorem sweep_alike {M : SizingMethods K} (hM : ReadsAlike M) {b b' : Building K} (h : Alike b b') (factor : K) (hs : List K) :
    ∀ cfg, sweep M b' factor cfg hs = sweep M b factor cfg hs := by
  induction hs with
  | nil => intro cfg; rfl
  | cons x xs ih =>
    intro cfg
    simp only [sweep, curvePoint, hM.cap _ _ _ h, hM.vol _ _ _ _ h, ih]

theorem curve_moved [FloorRing K] {M : SizingMethods K} (hM : ReadsAlike M) (db : ShapeFiles K) (s : DhwSys K) (slope step : K) :
    SameCall c (getSizingCurve M db s b slope step) (getSizingCurve M db s (moved c b) slope step) := by
  simp only [getSizingCurve, moved_start]
  cases hb : (if b.isAnnual then b.setToDaily db else .ok b) with
  | error e => exact ⟨rfl, rfl, rfl⟩
  | ok b1 =>
    have ha := alike_moved hc (start_climate db hb)
    simp only [Except.map, sizingCurveBody, curveSetup, requireInlet_alike ha, ha.peak, sweep_alike hM ha,
      show (moved c b).isAnnual = b.isAnnual from rfl]
    split
    · rw [moved_toAnnual]
      cases b1.setToAnnual db <;> exact ⟨rfl, rfl, rfl⟩
    · exact ⟨rfl, rfl, rfl⟩

theorem lsCurve_moved [FloorRing K] {M : SizingMethods K} (hM : ReadsAlike M) (db : ShapeFiles K) (s : DhwSys K)
    (sched : List String) (m : ControlMap K) (slope : K) (fractOf : K → Py K) (pct : K) :
    SameCall c (getLsSizingCurve M db s b sched m slope fractOf pct)
      (getLsSizingCurve M db s (moved c b) sched m slope fractOf pct) := by
  simp only [getLsSizingCurve, moved_start]
  split
  · exact ⟨rfl, rfl, rfl⟩
  cases hb : (if b.isAnnual then b.setToDaily db else .ok b) with
  | error e => exact ⟨rfl, rfl, rfl⟩
  | ok b1 =>
    have ha := alike_moved hc (start_climate db hb)
    have hp : ∀ cfg slope inlet capN stN, lsCurvePoint M cfg (moved c b1) sched m slope inlet capN stN fractOf =
        lsCurvePoint M cfg b1 sched m slope inlet capN stN fractOf := by
      intro cfg slope inlet capN stN
      funext pct
      simp only [lsCurvePoint, hM.gen _ _ _ _ _ _ _ ha, hM.capLs _ _ _ _ _ _ _ ha, hM.volLs _ _ _ _ _ _ ha]
    simp only [Except.map, lsCurveBody, requireInlet_alike ha, hM.cap _ _ _ ha, hM.vol _ _ _ _ ha, hp,
      show (moved c b).isAnnual = b.isAnnual from rfl]
    split
    · rw [moved_toAnnual]
      cases b1.setToAnnual db <;> exact ⟨rfl, rfl, rfl⟩
    · exact ⟨rfl, rfl, rfl⟩

/-- **C140, primary system.** Moving the building to a place with the same design inlet water temperature changes nothing:
the sized system, the warnings or the exception are the same, whatever the outdoor temperatures and the other months are. -/
theorem C140_primary (db : ShapeFiles K) (s : DhwSys K) (sched : Option (List String))
    (cmap : Option (ControlMap K)) (slope fract : K) :
    SameCall c (size baseMethods db s b sched cmap slope fract) (size baseMethods db s (moved c b) sched cmap slope fract) :=
  size_moved hc base_readsAlike db s sched cmap slope fract

/-- **C140, single-pass system.** -/
theorem C140_single_pass (db : ShapeFiles K) (s : SpSys K) (sched : Option (List String))
    (cmap : Option (ControlMap K)) (slope fract : K) :
    SameCall c (SpSys.size db s b sched cmap slope fract) (SpSys.size db s (moved c b) sched cmap slope fract) := by
  obtain ⟨h1, h2, h3⟩ := size_moved hc (sp_readsAlike s.loop) db s.base sched cmap slope fract
  simp only [SpSys.size]
  generalize size (spMethods s.loop) db s.base b sched cmap slope fract = r at *
  generalize size (spMethods s.loop) db s.base (moved c b) sched cmap slope fract = q at *
  obtain ⟨⟨d', b1⟩, w'⟩ := r
  obtain ⟨⟨d, b1'⟩, w⟩ := q
  simp only at h1 h2 h3
  subst h1 h2 h3
  cases w with
  | error e => exact ⟨rfl, rfl, rfl⟩
  | ok w => simp only; cases rtpRecircCap d.cfg s.loop <;> exact ⟨rfl, rfl, rfl⟩

/-- **C140, parallel-loop system.** -/
theorem C140_parallel (db : ShapeFiles K) (s : ParSys K) (sched : Option (List String))
    (cmap : Option (ControlMap K)) (slope fract : K) :
    SameCall c (ParSys.size baseMethods db s b sched cmap slope fract)
      (ParSys.size baseMethods db s (moved c b) sched cmap slope fract) := by
  obtain ⟨h1, h2, h3⟩ := size_moved hc base_readsAlike db s.base sched cmap slope fract
  simp only [ParSys.size]
  generalize size baseMethods db s.base b sched cmap slope fract = r at *
  generalize size baseMethods db s.base (moved c b) sched cmap slope fract = q at *
  obtain ⟨⟨d', b1⟩, w'⟩ := r
  obtain ⟨⟨d, b1'⟩, w⟩ := q
  simp only at h1 h2 h3
  subst h1 h2 h3
  cases validateTm s.tm with
  | error e => exact ⟨rfl, rfl, rfl⟩
  | ok u =>
    cases w with
    | error e => exact ⟨rfl, rfl, rfl⟩
    | ok w => simp only; cases sizeTm d.cfg.supply s.tm <;> exact ⟨rfl, rfl, rfl⟩

/-- **C140, the sizing curves of a primary system.** -/
theorem C140_curves [FloorRing K] (db : ShapeFiles K) (s : DhwSys K) (slope step pct : K) (sched : List String) (m : ControlMap K)
    (fractOf : K → Py K) :
    SameCall c (getSizingCurve baseMethods db s b slope step) (getSizingCurve baseMethods db s (moved c b) slope step) ∧
    SameCall c (getLsSizingCurve baseMethods db s b sched m slope fractOf pct)
      (getLsSizingCurve baseMethods db s (moved c b) sched m slope fractOf pct) :=
  ⟨curve_moved hc base_readsAlike db s slope step, lsCurve_moved hc base_readsAlike db s sched m slope fractOf pct⟩

/-- **C140, the sizing curves of a single-pass system.** -/
theorem C140_curves_single_pass [FloorRing K] (db : ShapeFiles K) (l : RtpLoop K) (s : DhwSys K) (slope step pct : K)
    (sched : List String) (m : ControlMap K) (fractOf : K → Py K) :
    SameCall c (getSizingCurve (spMethods l) db s b slope step) (getSizingCurve (spMethods l) db s (moved c b) slope step) ∧
    SameCall c (getLsSizingCurve (spMethods l) db s b sched m slope fractOf pct)
      (getLsSizingCurve (spMethods l) db s (moved c b) sched m slope fractOf pct) :=
  ⟨curve_moved hc (sp_readsAlike l) db s slope step, lsCurve_moved hc (sp_readsAlike l) db s sched m slope fractOf pct⟩

/-! ### Swing systems -/

omit hc in
theorem swing_alike {b b' : Building K} (h : Alike b b') (s : SwingSys K) :
    runVolSwing s b' = runVolSwing s b ∧ requiredCapacitySwing s b' = requiredCapacitySwing s b ∧
    (∀ sched fract, prelimVolsSwing s sched b' fract = prelimVolsSwing s sched b fract) ∧
    (∀ sched m slope fract, genRateLsSwing s sched m b' slope fract = genRateLsSwing s sched m b slope fract) ∧
    (∀ sched m slope fract, requiredCapacityLsSwing s sched m b' slope fract = requiredCapacityLsSwing s sched m b slope fract) ∧
    (∀ sched gen fract, runVolLsSwing s sched b' gen fract = runVolLsSwing s sched b gen fract) := by
  have hp : ∀ sched fract, prelimVolsSwing s sched b' fract = prelimVolsSwing s sched b fract := fun sched fract => by
    simp only [prelimVolsSwing, h.avg, h.daily, requireInlet_alike h]
  have hg : ∀ sched m slope fract, genRateLsSwing s sched m b' slope fract = genRateLsSwing s sched m b slope fract :=
    fun sched m slope fract => by simp only [genRateLsSwing, h.daily, hp]
  refine ⟨?_, ?_, hp, hg, fun sched m slope fract => ?_, fun sched gen fract => ?_⟩
  · have hw : swingWindow s b' = swingWindow s b := by
      funext inlet start
      simp only [swingWindow, h.peak, h.daily]
    simp only [runVolSwing, requireInlet_alike h, h.peak, hw]
  · simp only [requiredCapacitySwing, requireInlet_alike h, h.daily]
  · simp only [requiredCapacityLsSwing, requireInlet_alike h, hg]
  · simp only [runVolLsSwing, requireInlet_alike h, hp, h.avg, h.daily]

omit hc in
theorem sizeSwingBody_alike {b b' : Building K} (h : Alike b b') (s : SwingSys K) (ls : Option (List String × ControlMap K))
    (cmap : Option (ControlMap K)) (slope fract : K) :
    sizeSwingBody s b' ls cmap slope fract = sizeSwingBody s b ls cmap slope fract := by
  have hr : ∀ (s : SwingSys K) (inlet rv : K), sizeSwingRest s b' ls cmap slope fract inlet rv =
      sizeSwingRest s b ls cmap slope fract inlet rv := by
    intro s inlet rv
    obtain ⟨_, h2, _, h4, h5, h6⟩ := swing_alike h s
    have hl : ∀ sched m cap st, sizeSwingLs s sched m b' slope fract inlet cap st =
        sizeSwingLs s sched m b slope fract inlet cap st := fun sched m cap st => by
      simp only [sizeSwingLs, h4, h5, h6]
    simp only [sizeSwingRest, h2, hl]
  have ht : sizeSwingTm s.base.cfg.supply s.ret s.flow s.sf (some b') = sizeSwingTm s.base.cfg.supply s.ret s.flow s.sf (some b) := by
    simp only [sizeSwingTm, swingRequired, h.peak, h.daily]
  simp only [sizeSwingBody, requireInlet_alike h, ht, hr, fun s => (swing_alike h s).1]

/-- **C140, swing-tank system.** -/
theorem C140_swing (db : ShapeFiles K) (s : SwingSys K) (sched : Option (List String))
    (cmap : Option (ControlMap K)) (slope fract : K) :
    SameCall c (s.size db b sched cmap slope fract) (s.size db (moved c b) sched cmap slope fract) := by
  simp only [SwingSys.size, moved_start]
  cases hb : (if b.isAnnual then b.setToDaily db else .ok b) with
  | error e => exact ⟨rfl, rfl, rfl⟩
  | ok b1 =>
    have ha := alike_moved hc (start_climate db hb)
    simp only [Except.map, sizeSwingBody_alike ha, show (moved c b).isAnnual = b.isAnnual from rfl]
    split
    · exact ⟨rfl, rfl, rfl⟩
    · split
      · rw [moved_toAnnual]
        cases b1.setToAnnual db <;> exact ⟨rfl, rfl, rfl⟩
      · exact ⟨rfl, rfl, rfl⟩

omit hc in
theorem swingSweep_alike {b b' : Building K} (h : Alike b b') (factor : K) (hs : List K) :
    ∀ s, swingSweep b' factor s hs = swingSweep b factor s hs := by
  induction hs with
  | nil => intro s; rfl
  | cons x xs ih =>
    intro s
    simp only [swingSweep, swingCurvePoint, fun s => (swing_alike h s).1, fun s => (swing_alike h s).2.1, ih]

/-- **C140, the sizing curves of a swing-tank system.** -/
theorem C140_curves_swing [FloorRing K] (db : ShapeFiles K) (s : SwingSys K) (slope step pct : K) (sched : List String)
    (m : ControlMap K) (fractOf : K → Py K) :
    SameCall c (s.getSizingCurve db b slope step) (s.getSizingCurve db (moved c b) slope step) ∧
    SameCall c (s.getLsSizingCurve db b sched m slope fractOf pct)
      (s.getLsSizingCurve db (moved c b) sched m slope fractOf pct) := by
  constructor
  · simp only [SwingSys.getSizingCurve, moved_start]
    cases hb : (if b.isAnnual then b.setToDaily db else .ok b) with
    | error e => exact ⟨rfl, rfl, rfl⟩
    | ok b1 =>
      have ha := alike_moved hc (start_climate db hb)
      simp only [Except.map, curveSetup, requireInlet_alike ha, ha.peak, swingSweep_alike ha,
        show (moved c b).isAnnual = b.isAnnual from rfl]
      split
      · rw [moved_toAnnual]
        cases b1.setToAnnual db <;> exact ⟨rfl, rfl, rfl⟩
      · exact ⟨rfl, rfl, rfl⟩
  · simp only [SwingSys.getLsSizingCurve, moved_start]
    split
    · exact ⟨rfl, rfl, rfl⟩
    cases hb : (if b.isAnnual then b.setToDaily db else .ok b) with
    | error e => exact ⟨rfl, rfl, rfl⟩
    | ok b1 =>
      have ha := alike_moved hc (start_climate db hb)
      have hp : ∀ (s : SwingSys K) slope inlet capN stN, swingLsPoint s (moved c b1) sched m slope inlet capN stN fractOf =
          swingLsPoint s b1 sched m slope inlet capN stN fractOf := by
        intro s slope inlet capN stN
        obtain ⟨_, _, _, h4, h5, h6⟩ := swing_alike ha s
        funext pct
        simp only [swingLsPoint, h4, h5, h6]
      simp only [Except.map, swingLsBody, requireInlet_alike ha, fun s => (swing_alike ha s).1, fun s => (swing_alike ha s).2.1,
        hp, show (moved c b).isAnnual = b.isAnnual from rfl]
      split
      · rw [moved_toAnnual]
        cases b1.setToAnnual db <;> exact ⟨rfl, rfl, rfl⟩
      · exact ⟨rfl, rfl, rfl⟩

omit hc in
theorem swingSize_climate (db : ShapeFiles K) (s : SwingSys K) (sched : Option (List String))
    (cmap : Option (ControlMap K)) (slope fract : K) : (s.size db b sched cmap slope fract).1.2.climate = b.climate := by
  simp only [SwingSys.size]
  cases hb : (if b.isAnnual then b.setToDaily db else .ok b) with
  | error e => rfl
  | ok b1 =>
    have h1 := start_climate db hb
    simp only
    split
    · exact h1
    · split
      · split
        · exact h1
        · rename_i b2 h2
          exact (toAnnual_climate db h2).trans h1
      · exact h1

/-- **C140, swing-tank system with the electric-resistance trade-off.** -/
theorem C140_trade_off (db : ShapeFiles K) (e : ErSys K) (sched : Option (List String))
    (cmap : Option (ControlMap K)) (slope fract : K) :
    SameCall c (e.size db b sched cmap slope fract) (e.size db (moved c b) sched cmap slope fract) := by
  obtain ⟨h1, h2, h3⟩ := C140_swing hc db e.sw sched cmap slope fract
  have hk := swingSize_climate (b := b) db e.sw sched cmap slope fract
  simp only [ErSys.size]
  generalize e.sw.size db b sched cmap slope fract = r at *
  generalize e.sw.size db (moved c b) sched cmap slope fract = q at *
  obtain ⟨⟨d', b1⟩, w'⟩ := r
  obtain ⟨⟨d, b1'⟩, w⟩ := q
  simp only at h1 h2 h3 hk
  subst h1 h2 h3
  cases w with
  | error e => exact ⟨rfl, rfl, rfl⟩
  | ok w =>
    have ha := alike_moved hc hk
    have he : ErSys.sizeEr { e with sw := d } (moved c b1) = ErSys.sizeEr { e with sw := d } b1 := by
      have hh : ∀ cfg : SysCfg K, erHours cfg (moved c b1) = erHours cfg b1 := fun cfg => rfl
      have hcap : ∀ (cfg : SysCfg K) p x y z, erCapacity cfg p x y z (moved c b1) = erCapacity cfg p x y z b1 := by
        intro cfg p x y z
        simp only [erCapacity, requireInlet_alike ha, hh, ha.peak]
      simp only [ErSys.sizeEr, hcap, requireInlet_alike ha]
    simp only [he]
    exact ⟨rfl, rfl, rfl⟩

/-! ### Multi-pass systems -/

omit hc in
theorem slugLoop_alike {b b' : Building K} (h : Alike b b') (cfg : SysCfg K) (l : RtpLoop K) (avg cold heat : K) (n : ℕ) :
    ∀ t s m, slugLoop cfg l avg cold heat b' n t s m = slugLoop cfg l avg cold heat b n t s m := by
  induction n with
  | zero => intro t s m; rfl
  | succ n ih =>
    intro t s m
    simp only [slugLoop, sizingValve, load_alike h, ih]

omit hc in
theorem mpSizeBody_alike {b b' : Building K} (h : Alike b b') (s : MpSys K) (cmap : Option (ControlMap K)) (slope : K) :
    mpSizeBody s b' cmap slope = mpSizeBody s b cmap slope := by
  simp only [mpSizeBody, mpCalc, rtpRequiredCapacity, requiredCapacity_alike h, mpRunVol, requireInlet_alike h, slugLoop_alike h]

/-- **C140, multi-pass system, the call `size`.** -/
theorem C140_multi_pass (db : ShapeFiles K) (s : MpSys K) (cmap : Option (ControlMap K)) (slope : K) :
    SameCall c (s.size db b cmap slope) (s.size db (moved c b) cmap slope) := by
  simp only [MpSys.size, moved_start]
  split
  · exact ⟨rfl, rfl, rfl⟩
  cases hb : (if b.isAnnual then b.setToDaily db else .ok b) with
  | error e => exact ⟨rfl, rfl, rfl⟩
  | ok b1 =>
    have ha := alike_moved hc (start_climate db hb)
    simp only [Except.map, mpSizeBody_alike ha, show (moved c b).isAnnual = b.isAnnual from rfl]
    split
    · rw [moved_toAnnual]
      cases b1.setToAnnual db <;> exact ⟨rfl, rfl, rfl⟩
    · exact ⟨rfl, rfl, rfl⟩

omit hc in
theorem mpSize_climate (db : ShapeFiles K) (s : MpSys K) (cmap : Option (ControlMap K)) (slope : K) :
    (s.size db b cmap slope).1.2.climate = b.climate := by
  simp only [MpSys.size]
  split
  · rfl
  cases hb : (if b.isAnnual then b.setToDaily db else .ok b) with
  | error e => rfl
  | ok b1 =>
    have h1 := start_climate db hb
    simp only
    split
    · split
      · exact h1
      · rename_i b2 h2
        exact (toAnnual_climate db h2).trans h1
    · exact h1

omit hc in
theorem trialLoop_until {b b' : Building K} {m : ℕ} (h : SameUntil b b' m) (n : ℕ) :
    ∀ i s r, i + n ≤ m → trialLoop b' n i s r = trialLoop b n i s r := by
  induction n with
  | zero => intro i s r _; rfl
  | succ n ih =>
    intro i s r hi
    simp only [trialLoop, ← mpStep_until h 1 s i (by omega)]
    cases mpStep b 1 s i with
    | error e => rfl
    | ok x => simp only [ok_bind]; exact ih _ _ _ (by omega)

omit hc in
theorem boostLoop_until {b b' : Building K} {days : ℕ} (h : SameUntil b b' (24 * 60 * days)) (sched : Option (List String))
    (cmap : Option (ControlMap K)) (cold start pu : K) (n : ℕ) :
    ∀ s cap, boostLoop b' sched cmap cold start pu days n s cap = boostLoop b sched cmap cold start pu days n s cap := by
  induction n with
  | zero => intro s cap; rfl
  | succ n ih =>
    intro s cap
    simp only [boostLoop, fun s r => trialLoop_until h (24 * 60 * days) 0 s r (by omega), ih]

/-- **C140, partial, multi-pass system, the call `from_size`.** Missing: the condition on the weather. The constructor
runs trial simulations to raise the capacity, and those read the outdoor and mains temperatures of the first days of the
year. -/
theorem C140_multi_pass_built_partial (db : ShapeFiles K) (cfg : SysCfg K) (l : RtpLoop K) (sched : Option (List String))
    (cmap : Option (ControlMap K)) (slope pu : K) (days iterations : ℕ)
    (hw : SameWeather b (moved c b) (24 * 60 * days)) :
    (mpFromSize db cfg l (moved c b) sched cmap slope pu days iterations).2 =
      (mpFromSize db cfg l b sched cmap slope pu days iterations).2 ∧
    (mpFromSize db cfg l (moved c b) sched cmap slope pu days iterations).1 =
      moved c (mpFromSize db cfg l b sched cmap slope pu days iterations).1 := by
  simp only [mpFromSize]
  split
  · exact ⟨rfl, rfl⟩
  obtain ⟨h1, h2, h3⟩ := C140_multi_pass hc db { base := { cfg := cfg }, loop := l } cmap slope
  have hk := mpSize_climate (b := b) db { base := { cfg := cfg }, loop := l } cmap slope
  generalize MpSys.size db { base := { cfg := cfg }, loop := l } b cmap slope = r at *
  generalize MpSys.size db { base := { cfg := cfg }, loop := l } (moved c b) cmap slope = q at *
  obtain ⟨⟨d', b1⟩, w'⟩ := r
  obtain ⟨⟨d, b1'⟩, w⟩ := q
  simp only at h1 h2 h3 hk
  subst h1 h2 h3
  cases w with
  | error e => exact ⟨rfl, rfl⟩
  | ok w =>
    have ha := alike_moved hc hk
    have hs : SameUntil b1 (moved c b1) (24 * 60 * days) := by
      intro t int ht
      obtain ⟨ho, hi⟩ := hw t int ht
      refine ⟨fun avg => rfl, ?_, ?_⟩
      · simp only [Building.getOat, hk]; exact ho
      · simp only [Building.getInlet, hk]; exact hi
    simp only [requireInlet_alike ha, designInletOr, ha.inlet, boostLoop_until hs, and_self]

end Eco

namespace Eco.Demo
open Spec

/-- The mild place: mains between 50 and 70 °F by the month, no constant temperatures, 8760 hours of 30 °F. -/
def elsewhere : Option (ClimateZone ℚ) :=
  some ⟨none, some (List.replicate 8760 30), some [50, 51, 53, 56, 60, 65, 70, 69, 66, 60, 55, 52], none, none⟩

theorem elsewhere_inlet : (moved elsewhere building).getDesignInlet = .ok (some 50) := by
  have h : [(50 : ℚ), 51, 53, 56, 60, 65, 70, 69, 66, 60, 55, 52].min? = some 50 := by decide +kernel
  simp only [Building.getDesignInlet, moved, elsewhere, ClimateZone.getDesignInlet, h]
  rfl

/-- The demo building has mains of 50 °F and outdoor air of 20 °F at all times: the other place has other weather but the
same design inlet temperature, and the building can be sized. -/
example : (moved elsewhere building).getDesignInlet = building.getDesignInlet ∧
    (((moved elsewhere building).getOat 0 60).toOption, (building.getOat 0 60).toOption) = (some 30, some 20) ∧
    (((moved elsewhere building).getInlet 4000 60).toOption, (building.getInlet 4000 60).toOption) = (some 65, some 50) ∧
    ((size baseMethods noFiles { cfg := cfg } building none (some map) (14 / 5) 1).2.toOption).isSome = true :=
  ⟨elsewhere_inlet, by decide +kernel, by decide +kernel, by decide +kernel⟩

/-- Two places whose weather is the same in the first days. -/
example : SameWeather (lateMains 55) (moved (lateMains 60).climate (lateMains 55)) (24 * 60 * 3) := by
  intro t int ht
  obtain ⟨_, h2, h3⟩ := lateMains_same 55 60 t int (by omega)
  exact ⟨h2, h3⟩

end Eco.Demo
