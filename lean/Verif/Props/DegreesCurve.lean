import Verif.Props.Degrees
set_option linter.unusedSectionVars false

/-! C145 for the load-shift sizing curves. -/

namespace Eco
open Spec
variable {K : Type} [Field K] [LinearOrder K] [IsStrictOrderedRing K] {d : K} {b : Building K}

theorem lsPoint_hotter {M M' : SizingMethods K} (hM : ReadsDiff d M M') (c : SysCfg K) (sched : List String)
    (m : ControlMap K) (slope inlet capN stN : K) (fractOf : K → Py K) :
    lsCurvePoint M' (hotterCfg d c) (hotterBuilding d b) sched (hotterMap d m) slope (inlet + d) capN stN fractOf =
      lsCurvePoint M c b sched m slope inlet capN stN fractOf := by
  funext p
  unfold lsCurvePoint
  cases fractOf p with
  | error e => rfl
  | ok fract => simp only [ok_bind, hM.capLs, hM.gen, hM.volLs, storageLs_hotter]

theorem lsBody_hotter [FloorRing K] {M M' : SizingMethods K} (hM : ReadsDiff d M M') (c : SysCfg K) (sched : List String)
    (m : ControlMap K) (slope : K) (fractOf : K → Py K) (pct : K) :
    lsCurveBody M' (hotterCfg d c) (hotterBuilding d b) sched (hotterMap d m) slope fractOf pct =
      lsCurveBody M c b sched m slope fractOf pct := by
  unfold lsCurveBody
  rw [requireInlet_hotter, hM.cap]
  cases requireDesignInlet b with
  | error e => simp only [Except.map, ok_bind, error_bind]
  | ok inlet =>
    cases M.reqCapacity c b with
    | error e => simp only [Except.map, ok_bind, error_bind]
    | ok cap =>
      simp only [Except.map, ok_bind, hM.vol]
      cases M.runVol c b cap with
      | error e => simp only [Except.map, ok_bind, error_bind]
      | ok rv =>
        rw [show some (hotterMap d m) = (some m).map (hotterMap d) from rfl, stratFactor_hotter]
        simp only [ok_bind]
        cases stratFactor c (some m) slope inlet with
        | error e => simp only [Except.map, ok_bind, error_bind]
        | ok sf =>
          simp only [ok_bind]
          cases storageVolume rv sf with
          | error e => simp only [Except.map, ok_bind, error_bind]
          | ok st =>
            simp only [ok_bind]
            rw [lsPoint_hotter hM c sched m slope inlet cap st fractOf]

theorem lsCurve_hotter [FloorRing K] {M M' : SizingMethods K} (hM : ReadsDiff d M M') (db : ShapeFiles K) (s : DhwSys K)
    (sched : List String) (m : ControlMap K) (slope : K) (fractOf : K → Py K) (pct : K) :
    getLsSizingCurve M' db (hotterSys d s) (hotterBuilding d b) sched (hotterMap d m) slope fractOf pct =
      hotterOutcome (hotterSys d) d (getLsSizingCurve M db s b sched m slope fractOf pct) := by
  have pre : (if (hotterBuilding d b).isAnnual then (hotterBuilding d b).setToDaily db else .ok (hotterBuilding d b)) =
      (if b.isAnnual then b.setToDaily db else .ok b).map (hotterBuilding d) := by
    rw [isAnnual_hotter]
    split
    · exact toDaily_hotter db
    · rfl
  unfold getLsSizingCurve
  rw [dictHas_hotter]
  split
  · rfl
  simp only [pre]
  cases (if b.isAnnual then b.setToDaily db else .ok b : Py (Building K)) with
  | error e => rfl
  | ok b1 =>
    simp only [show (hotterSys d s).sizingSlope = s.sizingSlope from rfl,
      show ({ (hotterSys d s).cfg with maxRunHr := min (hotterSys d s).cfg.maxRunHr (nonShed sched : K) } : SysCfg K) =
        hotterCfg d { s.cfg with maxRunHr := min s.cfg.maxRunHr (nonShed sched : K) } from rfl]
    simp only [Except.map, isAnnual_hotter, lsBody_hotter hM]
    split
    · rw [toAnnual_hotter]
      cases b1.setToAnnual db <;> rfl
    · rfl

/-- **C145, the load-shift sizing curve** of a primary system. -/
theorem C145_primary_shift_curve [FloorRing K] (db : ShapeFiles K) (s : DhwSys K) (sched : List String) (m : ControlMap K)
    (slope : K) (fractOf : K → Py K) (pct : K) :
    getLsSizingCurve baseMethods db (hotterSys d s) (hotterBuilding d b) sched (hotterMap d m) slope fractOf pct =
      hotterOutcome (hotterSys d) d (getLsSizingCurve baseMethods db s b sched m slope fractOf pct) :=
  lsCurve_hotter base_readsDiff db s sched m slope fractOf pct

/-- **C145, the load-shift sizing curve** of a single-pass return-to-primary system. -/
theorem C145_single_pass_shift_curve [FloorRing K] (db : ShapeFiles K) (l : RtpLoop K) (s : DhwSys K) (sched : List String)
    (m : ControlMap K) (slope : K) (fractOf : K → Py K) (pct : K) :
    getLsSizingCurve (spMethods (hotterLoop d l)) db (hotterSys d s) (hotterBuilding d b) sched (hotterMap d m) slope fractOf pct =
      hotterOutcome (hotterSys d) d (getLsSizingCurve (spMethods l) db s b sched m slope fractOf pct) :=
  lsCurve_hotter (sp_readsDiff l) db s sched m slope fractOf pct

end Eco
