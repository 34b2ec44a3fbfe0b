import Verif.Spec.Degrees
import Verif.Props.Clock
set_option linter.unusedSectionVars false

/-! C145: only differences of temperature count. -/

namespace Eco
open Spec
variable {K : Type} [Field K] [LinearOrder K] [IsStrictOrderedRing K]

section
variable {d : K} {b : Building K}

theorem min?_add (l : List K) (d : K) : (l.map (· + d)).min? = l.min?.map (· + d) := by
  cases h : l.min? with
  | none =>
    rw [List.min?_eq_none_iff] at h
    simp [h]
  | some m =>
    rw [List.min?_eq_some_iff] at h
    simp only [Option.map_some]
    rw [List.min?_eq_some_iff]
    refine ⟨List.mem_map.2 ⟨m, h.1, rfl⟩, ?_⟩
    intro x hx
    obtain ⟨y, hy, rfl⟩ := List.mem_map.1 hx
    have := h.2 y hy
    linarith

theorem designInlet_hotter (c : ClimateZone K) : (hotterClimate d c).getDesignInlet = c.getDesignInlet.map (· + d) := by
  unfold ClimateZone.getDesignInlet hotterClimate
  cases c.constInlet with
  | some v => rfl
  | none =>
    cases c.inletByMonth with
    | none => rfl
    | some l =>
      simp only [Option.map_none, Option.map_some, min?_add]
      cases l.min? <;> rfl

theorem requireInlet_hotter : requireDesignInlet (hotterBuilding d b) = (requireDesignInlet b).map (· + d) := by
  unfold requireDesignInlet Building.getDesignInlet hotterBuilding
  cases b.climate with
  | none => rfl
  | some c =>
    simp only [Option.map_some, designInlet_hotter]
    cases c.getDesignInlet <;> rfl

theorem toDaily_hotter (db : ShapeFiles K) : (hotterBuilding d b).setToDaily db = (b.setToDaily db).map (hotterBuilding d) := by
  unfold Building.setToDaily
  by_cases h : b.buildingType ≠ "multi_family"
  · rw [if_pos (show (hotterBuilding d b).buildingType ≠ _ from h), if_pos h]; rfl
  · rw [if_neg (show ¬ (hotterBuilding d b).buildingType ≠ _ from h), if_neg h]
    cases loadShapeJson db "multi_family" with
    | error e => rfl
    | ok x =>
      simp only [ok_bind]
      cases x.streamAvg <;> rfl

theorem toAnnual_hotter (db : ShapeFiles K) : (hotterBuilding d b).setToAnnual db = (b.setToAnnual db).map (hotterBuilding d) := by
  unfold Building.setToAnnual
  by_cases h : b.buildingType ≠ "multi_family"
  · rw [if_pos (show (hotterBuilding d b).buildingType ≠ _ from h), if_pos h]; rfl
  · rw [if_neg (show ¬ (hotterBuilding d b).buildingType ≠ _ from h), if_neg h]
    cases loadShapeJson db "multi_family" <;> rfl

theorem isAnnual_hotter : (hotterBuilding d b).isAnnual = b.isAnnual := rfl

theorem capacityOf_hotter (c : SysCfg K) (gen inlet : K) :
    capacityOfGenRate (hotterCfg d c) gen (inlet + d) = capacityOfGenRate c gen inlet := by
  simp only [capacityOfGenRate, hotterCfg, add_sub_add_right_eq_sub]

theorem requiredCapacity_hotter (c : SysCfg K) :
    requiredCapacity (hotterCfg d c) (hotterBuilding d b) = requiredCapacity c b := by
  unfold requiredCapacity
  rw [requireInlet_hotter]
  cases requireDesignInlet b with
  | error e => rfl
  | ok inlet => simp only [Except.map, ok_bind, capacityOf_hotter]; rfl

theorem supplyGal_hotter (c : SysCfg K) (f t slope inlet : K) :
    supplyGalPer100 (hotterCfg d c) f (t + d) slope (inlet + d) = supplyGalPer100 c f t slope inlet := by
  simp only [supplyGalPer100, hotterCfg, add_sub_add_right_eq_sub]

theorem dictGet?_hotter (m : ControlMap K) (k : String) : dictGet? (hotterMap d m) k = (dictGet? m k).map (hotterControls d) := by
  unfold dictGet? hotterMap
  rw [List.find?_map]
  cases h : List.find? ((fun p : String × Controls K => decide (p.1 = k)) ∘ fun p => (p.1, hotterControls d p.2)) m <;>
    simp_all [Function.comp_def]
  assumption

theorem dictHas_hotter (m : ControlMap K) (k : String) : dictHas (hotterMap d m) k = dictHas m k := by
  simp [dictHas, dictGet?_hotter]

theorem dictGet_hotter (m : ControlMap K) (k : String) : dictGet (hotterMap d m) k = (dictGet m k).map (hotterControls d) := by
  unfold dictGet
  rw [dictGet?_hotter]
  cases dictGet? m k <;> rfl

theorem stratFactor_hotter (c : SysCfg K) (cmap : Option (ControlMap K)) (slope inlet : K) :
    stratFactor (hotterCfg d c) (cmap.map (hotterMap d)) slope (inlet + d) = stratFactor c cmap slope inlet := by
  have h0 : supplyGalPer100 (hotterCfg d c) 0 (hotterCfg d c).supply slope (inlet + d) = supplyGalPer100 c 0 c.supply slope inlet :=
    supplyGal_hotter c 0 c.supply slope inlet
  rcases cmap with _ | _ | ⟨p, ps⟩
  · simp only [stratFactor, Option.map_none, h0]
  · simp only [stratFactor, Option.map_some, hotterMap, List.map_nil, h0]
  · have e : stratFactor (hotterCfg d c) (some (hotterMap d (p :: ps))) slope (inlet + d) =
        match dictGet? (hotterMap d (p :: ps)) "normal" with
        | some ctrl => do return (← supplyGalPer100 (hotterCfg d c) ctrl.onFract ctrl.onTrig slope (inlet + d)) / 100
        | none => minOfPy ((hotterMap d (p :: ps)).map (fun p => do
            return (← supplyGalPer100 (hotterCfg d c) p.2.onFract p.2.onTrig slope (inlet + d)) / 100)) := rfl
    rw [Option.map_some, e, dictGet?_hotter, stratFactor]
    cases dictGet? (p :: ps) "normal" with
    | some q =>
      simp only [Option.map_some, hotterControls, supplyGal_hotter]
    | none =>
      simp only [Option.map_none, hotterMap, List.map_map, Function.comp_def, hotterControls, supplyGal_hotter]
    intro h
    simp at h

theorem stratPct_hotter (c : SysCfg K) (f t slope : K) : stratPctOfTank (hotterCfg d c) f (t + d) slope = stratPctOfTank c f t slope := by
  simp only [stratPctOfTank, stratFactorForOnParams, hotterCfg, add_sub_add_right_eq_sub]

theorem lsControls_hotter (m : ControlMap K) : lsControls (hotterMap d m) =
    (lsControls m).map (fun x => (hotterControls d x.1, hotterControls d x.2.1, hotterControls d x.2.2)) := by
  unfold lsControls
  rw [dictGet_hotter, dictGet?_hotter, dictGet_hotter]
  cases dictGet m "normal" with
  | error e => rfl
  | ok n =>
    simp only [Except.map, ok_bind]
    cases dictGet m "shed" with
    | error e => rfl
    | ok s =>
      simp only [Except.map, ok_bind, pure_eq_ok]
      cases dictGet? m "loadUp" <;> rfl

theorem genRateLs_hotter (c : SysCfg K) (sched : List String) (m : ControlMap K) (slope fract : K) :
    genRateLs (hotterCfg d c) sched (hotterMap d m) (hotterBuilding d b) slope fract = genRateLs c sched m b slope fract := by
  unfold genRateLs
  rw [lsControls_hotter, show prelimVols sched (hotterBuilding d b) fract = prelimVols sched b fract from rfl]
  cases lsControls m with
  | error e => rfl
  | ok x => simp only [Except.map, ok_bind, hotterControls, stratPct_hotter]; rfl

theorem storageLs_hotter (c : SysCfg K) (rv : K) (m : ControlMap K) (slope inlet : K) :
    storageVolumeLs (hotterCfg d c) rv (hotterMap d m) slope (inlet + d) = storageVolumeLs c rv m slope inlet := by
  unfold storageVolumeLs
  rw [lsControls_hotter]
  cases lsControls m with
  | error e => rfl
  | ok x => simp only [Except.map, ok_bind, hotterControls, supplyGal_hotter]

theorem reqCapacityLs_hotter {g g' : SysCfg K → List String → ControlMap K → Building K → K → K → Py K} (c : SysCfg K)
    (sched : List String) (m : ControlMap K) (slope fract : K)
    (hg : g' (hotterCfg d c) sched (hotterMap d m) (hotterBuilding d b) slope fract = g c sched m b slope fract) :
    requiredCapacityLs g' (hotterCfg d c) sched (hotterMap d m) (hotterBuilding d b) slope fract =
      requiredCapacityLs g c sched m b slope fract := by
  unfold requiredCapacityLs
  rw [requireInlet_hotter, hg]
  cases requireDesignInlet b with
  | error e => rfl
  | ok inlet => simp only [Except.map, ok_bind, capacityOf_hotter]

/-- Methods that read differences of temperature only. -/
structure ReadsDiff (d : K) (M M' : SizingMethods K) : Prop where
  cap : ∀ c b, M'.reqCapacity (hotterCfg d c) (hotterBuilding d b) = M.reqCapacity c b
  vol : ∀ c b x, M'.runVol (hotterCfg d c) (hotterBuilding d b) x = M.runVol c b x
  gen : ∀ c s m b sl f, M'.genRateLs (hotterCfg d c) s (hotterMap d m) (hotterBuilding d b) sl f = M.genRateLs c s m b sl f
  capLs : ∀ c s m b sl f, M'.reqCapacityLs (hotterCfg d c) s (hotterMap d m) (hotterBuilding d b) sl f = M.reqCapacityLs c s m b sl f
  volLs : ∀ c s b g f, M'.runVolLs (hotterCfg d c) s (hotterBuilding d b) g f = M.runVolLs c s b g f

theorem base_readsDiff : ReadsDiff d (baseMethods (K := K)) baseMethods where
  cap c b := requiredCapacity_hotter c
  vol _ _ _ := rfl
  gen c s m b sl f := genRateLs_hotter c s m sl f
  capLs c s m b sl f := reqCapacityLs_hotter c s m sl f (genRateLs_hotter c s m sl f)
  volLs _ _ _ _ _ := rfl

theorem rtpLoss_hotter (c : SysCfg K) (l : RtpLoop K) : rtpLossKbtuh (hotterCfg d c) (hotterLoop d l) = rtpLossKbtuh c l := by
  simp only [rtpLossKbtuh, hotterCfg, hotterLoop, add_sub_add_right_eq_sub]

theorem rtpRecircCap_hotter (c : SysCfg K) (l : RtpLoop K) : rtpRecircCap (hotterCfg d c) (hotterLoop d l) = rtpRecircCap c l := by
  unfold rtpRecircCap
  rw [rtpLoss_hotter]
  rfl

theorem rtpCapacity_hotter (c : SysCfg K) (l : RtpLoop K) :
    rtpRequiredCapacity (hotterLoop d l) (hotterCfg d c) (hotterBuilding d b) = rtpRequiredCapacity l c b := by
  unfold rtpRequiredCapacity
  rw [requiredCapacity_hotter, rtpRecircCap_hotter]

theorem recircDaily_hotter (c : SysCfg K) (l : RtpLoop K) :
    recircDaily (hotterCfg d c) (hotterLoop d l) (hotterBuilding d b) = recircDaily c l b := by
  unfold recircDaily
  rw [requireInlet_hotter, rtpLoss_hotter]
  cases requireDesignInlet b with
  | error e => rfl
  | ok inlet => simp only [Except.map, ok_bind, hotterCfg, add_sub_add_right_eq_sub]

theorem spGen_hotter (c : SysCfg K) (l : RtpLoop K) (sched : List String) (m : ControlMap K) (slope fract : K) :
    (spGenRateLs (hotterLoop d l) (hotterCfg d c) sched (hotterMap d m) (hotterBuilding d b) slope fract).2 =
      (spGenRateLs l c sched m b slope fract).2 := by
  unfold spGenRateLs
  rw [recircDaily_hotter]
  cases recircDaily c l b with
  | error e => rfl
  | ok r =>
    exact genRateLs_hotter (b := { b with dailyGal := b.dailyGal + r }) c sched m slope fract

theorem sp_readsDiff (l : RtpLoop K) : ReadsDiff d (spMethods l) (spMethods (hotterLoop d l)) where
  cap c b := rtpCapacity_hotter c l
  vol c b x := by
    show spRunVol _ _ _ = spRunVol _ _ _
    unfold spRunVol
    rw [recircDaily_hotter]
    rfl
  gen c s m b sl f := spGen_hotter c l s m sl f
  capLs c s m b sl f := by
    show rtpRequiredCapacityLs _ _ _ _ _ _ _ _ = rtpRequiredCapacityLs _ _ _ _ _ _ _ _
    unfold rtpRequiredCapacityLs
    rw [rtpRecircCap_hotter, reqCapacityLs_hotter (g := fun c s m b sl f => (spGenRateLs l c s m b sl f).2) c s m sl f
      (spGen_hotter c l s m sl f)]
  volLs c s b g f := by
    show (spRunVolLs _ _ _ _ _ _).2 = (spRunVolLs _ _ _ _ _ _).2
    unfold spRunVolLs
    rw [recircDaily_hotter]
    cases recircDaily c l b <;> rfl

theorem lsInputs_hotter (sched : Option (List String)) (cmap : Option (ControlMap K)) :
    lsInputs sched (cmap.map (hotterMap d)) = (lsInputs sched cmap).map (fun x => (x.1, hotterMap d x.2)) := by
  unfold lsInputs
  cases truthySched sched with
  | none => rfl
  | some s =>
    cases cmap with
    | none => rfl
    | some m =>
      simp only [Option.map_some, dictHas_hotter]
      split <;> rfl

theorem capped_hotter (c : SysCfg K) (ls : Option (List String × ControlMap K)) :
    cappedCfg (hotterCfg d c) (ls.map (fun x => (x.1, hotterMap d x.2))) = hotterCfg d (cappedCfg c ls) := by
  cases ls <;> rfl

theorem sizeCore_hotter {M M' : SizingMethods K} (hM : ReadsDiff d M M') (c : SysCfg K) (ls : Option (List String × ControlMap K))
    (cmap : Option (ControlMap K)) (slope fract : K) :
    sizeCore M' (hotterCfg d c) (hotterBuilding d b) (ls.map (fun x => (x.1, hotterMap d x.2))) (cmap.map (hotterMap d)) slope fract =
      sizeCore M c b ls cmap slope fract := by
  unfold sizeCore
  rw [requireInlet_hotter, hM.cap]
  cases requireDesignInlet b with
  | error e => rfl
  | ok inlet =>
    simp only [Except.map, ok_bind, hM.vol, stratFactor_hotter]
    cases ls with
    | none => rfl
    | some x =>
      simp only [Option.map_some, hM.capLs, hM.gen, hM.volLs, storageLs_hotter]

theorem warnStep_hotter (c : SysCfg K) (cmap : Option (ControlMap K)) (cap vol : K) :
    warnStep (hotterCfg d c) (cmap.map (hotterMap d)) cap vol = warnStep c cmap cap vol := by
  have h : ∀ m : ControlMap K, warnShortCycling (hotterCfg d c) (hotterMap d m) cap vol = warnShortCycling c m cap vol := by
    intro m
    simp only [warnShortCycling, hotterCfg, hotterMap, add_sub_add_right_eq_sub, List.foldlM_map, hotterControls]
  rcases cmap with _ | _ | ⟨p, ps⟩
  · rfl
  · rfl
  · exact h (p :: ps)

theorem size_hotter {M M' : SizingMethods K} (hM : ReadsDiff d M M') (db : ShapeFiles K) (s : DhwSys K)
    (sched : Option (List String)) (cmap : Option (ControlMap K)) (slope fract : K) :
    size M' db (hotterSys d s) (hotterBuilding d b) sched (cmap.map (hotterMap d)) slope fract =
      hotterOutcome (hotterSys d) d (size M db s b sched cmap slope fract) := by
  have key : ∀ b1 : Building K, sizeCore M' (cappedCfg (hotterSys d s).cfg (lsInputs sched (cmap.map (hotterMap d)))) (hotterBuilding d b1)
      (lsInputs sched (cmap.map (hotterMap d))) (cmap.map (hotterMap d)) slope fract =
      sizeCore M (cappedCfg s.cfg (lsInputs sched cmap)) b1 (lsInputs sched cmap) cmap slope fract := by
    intro b1
    rw [lsInputs_hotter, show (hotterSys d s).cfg = hotterCfg d s.cfg from rfl, capped_hotter, sizeCore_hotter hM]
  have cfg : cappedCfg (hotterSys d s).cfg (lsInputs sched (cmap.map (hotterMap d))) =
      hotterCfg d (cappedCfg s.cfg (lsInputs sched cmap)) := by
    rw [lsInputs_hotter]; exact capped_hotter _ _
  have pre : (if (hotterBuilding d b).isAnnual then (hotterBuilding d b).setToDaily db else .ok (hotterBuilding d b)) =
      (if b.isAnnual then b.setToDaily db else .ok b).map (hotterBuilding d) := by
    rw [isAnnual_hotter]
    split
    · exact toDaily_hotter db
    · rfl
  unfold size
  simp only [pre]
  cases (if b.isAnnual then b.setToDaily db else .ok b : Py (Building K)) with
  | error e => rfl
  | ok b1 =>
    simp only [Except.map, key, isAnnual_hotter]
    cases sizeCore M (cappedCfg s.cfg (lsInputs sched cmap)) b1 (lsInputs sched cmap) cmap slope fract with
    | error e =>
      simp only [hotterOutcome, cfg]
      rfl
    | ok x =>
      obtain ⟨cap, st⟩ := x
      simp only [cfg, warnStep_hotter]
      cases warnStep (cappedCfg s.cfg (lsInputs sched cmap)) cmap cap st with
      | error e => rfl
      | ok ws =>
        simp only
        split
        · rw [toAnnual_hotter]
          cases b1.setToAnnual db <;> rfl
        · rfl

/-- **C145, sizing a primary system.** If every water temperature is raised by the same number of degrees (supply, storage, the
cold water of all months and all control settings) the sizes, the warnings and the exceptions stay the same. -/
theorem C145_primary (db : ShapeFiles K) (s : DhwSys K) (sched : Option (List String)) (cmap : Option (ControlMap K))
    (slope fract : K) :
    size baseMethods db (hotterSys d s) (hotterBuilding d b) sched (cmap.map (hotterMap d)) slope fract =
      hotterOutcome (hotterSys d) d (size baseMethods db s b sched cmap slope fract) :=
  size_hotter base_readsDiff db s sched cmap slope fract

/-- **C145, sizing a single-pass return-to-primary system.** -/
theorem C145_single_pass (db : ShapeFiles K) (s : SpSys K) (sched : Option (List String)) (cmap : Option (ControlMap K))
    (slope fract : K) :
    SpSys.size db ⟨hotterSys d s.base, hotterLoop d s.loop, s.recircCap⟩ (hotterBuilding d b) sched (cmap.map (hotterMap d)) slope fract =
      hotterOutcome (fun s => ⟨hotterSys d s.base, hotterLoop d s.loop, s.recircCap⟩) d (s.size db b sched cmap slope fract) := by
  unfold SpSys.size
  rw [size_hotter (sp_readsDiff s.loop)]
  generalize size (spMethods s.loop) db s.base b sched cmap slope fract = r
  obtain ⟨⟨t, b1⟩, w⟩ := r
  cases w with
  | error e => rfl
  | ok w =>
    simp only [hotterOutcome, show (hotterSys d t).cfg = hotterCfg d t.cfg from rfl, rtpRecircCap_hotter]
    cases rtpRecircCap t.cfg s.loop <;> rfl

theorem recircLoss_hotter (supply ret flow : K) : recircLossKbtuh (supply + d) (ret + d) flow = recircLossKbtuh supply ret flow := by
  simp only [recircLossKbtuh, add_sub_add_right_eq_sub]

/-- **C145, sizing a parallel loop.** -/
theorem C145_parallel (db : ShapeFiles K) (s : ParSys K) (sched : Option (List String))
    (cmap : Option (ControlMap K)) (slope fract : K) :
    ParSys.size baseMethods db { s with base := hotterSys d s.base, tm := hotterTm d s.tm } (hotterBuilding d b) sched
        (cmap.map (hotterMap d)) slope fract =
      hotterOutcome (fun s => { s with base := hotterSys d s.base, tm := hotterTm d s.tm }) d
        (s.size baseMethods db b sched cmap slope fract) := by
  have hv : validateTm (hotterTm d s.tm) = validateTm s.tm := by
    unfold validateTm
    by_cases h : s.tm.off ≤ s.tm.on
    · have h' : (hotterTm d s.tm).off ≤ (hotterTm d s.tm).on := add_le_add_left h d
      simp only [if_pos h, if_pos h']; rfl
    · have h' : ¬ (hotterTm d s.tm).off ≤ (hotterTm d s.tm).on := fun q => h (le_of_add_le_add_right q)
      simp only [if_neg h, if_neg h']; rfl
  have ht : ∀ x, sizeTm (x + d) (hotterTm d s.tm) = sizeTm x s.tm := by
    intro x
    simp only [sizeTm, hotterTm, recircLoss_hotter, add_sub_add_right_eq_sub]
  unfold ParSys.size
  rw [hv, size_hotter base_readsDiff]
  cases validateTm s.tm with
  | error e => rfl
  | ok u =>
    generalize size baseMethods db s.base b sched cmap slope fract = r
    obtain ⟨⟨t, b1⟩, w⟩ := r
    cases w with
    | error e => rfl
    | ok w =>
      simp only [hotterOutcome, show (hotterSys d t).cfg.supply = t.cfg.supply + d from rfl, ht]
      cases sizeTm t.cfg.supply s.tm with
      | error e => rfl
      | ok x => rfl

/-- **C145, sizing a tankless system.** -/
theorem C145_tankless (s : Instant K) :
    Instant.size ⟨s.supply + d, s.storage + d, s.defrost⟩ (hotterBuilding d b) = s.size b := by
  unfold Instant.size
  rw [requireInlet_hotter]
  cases requireDesignInlet b with
  | error e => rfl
  | ok inlet => simp only [Except.map, ok_bind, add_sub_add_right_eq_sub]; rfl

theorem sweep_hotter {M M' : SizingMethods K} (hM : ReadsDiff d M M') (factor : K) (hs : List K) (c : SysCfg K) :
    sweep M' (hotterBuilding d b) factor (hotterCfg d c) hs =
      (hotterCfg d (sweep M b factor c hs).1, (sweep M b factor c hs).2) := by
  induction hs generalizing c with
  | nil => rfl
  | cons x xs ih =>
    have hp : curvePoint M' { hotterCfg d c with maxRunHr := x } (hotterBuilding d b) factor =
        curvePoint M { c with maxRunHr := x } b factor := by
      unfold curvePoint
      rw [show ({ hotterCfg d c with maxRunHr := x } : SysCfg K) = hotterCfg d { c with maxRunHr := x } from rfl]
      simp only [hM.cap, hM.vol]
      rfl
    simp only [sweep, hp]
    cases curvePoint M { c with maxRunHr := x } b factor with
    | error e => rfl
    | ok o =>
      cases o with
      | none => rfl
      | some q =>
        simp only
        rw [show ({ hotterCfg d c with maxRunHr := x } : SysCfg K) = hotterCfg d { c with maxRunHr := x } from rfl, ih]

theorem curveSetup_hotter [FloorRing K] (s : DhwSys K) (slope step : K) :
    curveSetup (hotterSys d s) (hotterBuilding d b) slope step = curveSetup s b slope step := by
  unfold curveSetup
  rw [requireInlet_hotter]
  cases requireDesignInlet b with
  | error e => rfl
  | ok inlet =>
    simp only [Except.map, ok_bind, hotterSys, stratFactor_hotter]
    rfl

theorem curve_hotter [FloorRing K] {M M' : SizingMethods K} (hM : ReadsDiff d M M') (db : ShapeFiles K) (s : DhwSys K)
    (slope step : K) :
    getSizingCurve M' db (hotterSys d s) (hotterBuilding d b) slope step =
      hotterOutcome (hotterSys d) d (getSizingCurve M db s b slope step) := by
  have body : ∀ (b : Building K) sl, sizingCurveBody M' (hotterSys d s) (hotterBuilding d b) sl step =
      (hotterSys d (sizingCurveBody M s b sl step).1, (sizingCurveBody M s b sl step).2) := by
    intro b sl
    unfold sizingCurveBody
    rw [curveSetup_hotter]
    cases curveSetup s b sl step with
    | error e => rfl
    | ok x =>
      obtain ⟨factor, a1, a2⟩ := x
      simp only [show (hotterSys d s).cfg = hotterCfg d s.cfg from rfl, sweep_hotter hM]
      cases (sweep M b factor s.cfg (a1 ++ a2)).2 <;> rfl
  have pre : (if (hotterBuilding d b).isAnnual then (hotterBuilding d b).setToDaily db else .ok (hotterBuilding d b)) =
      (if b.isAnnual then b.setToDaily db else .ok b).map (hotterBuilding d) := by
    rw [isAnnual_hotter]
    split
    · exact toDaily_hotter db
    · rfl
  unfold getSizingCurve
  simp only [pre]
  cases (if b.isAnnual then b.setToDaily db else .ok b : Py (Building K)) with
  | error e => rfl
  | ok b1 =>
    simp only [Except.map, body, isAnnual_hotter, show (hotterSys d s).sizingSlope = s.sizingSlope from rfl]
    split
    · rw [toAnnual_hotter]
      cases b1.setToAnnual db <;> rfl
    · rfl

/-- **C145, the sizing curve** of a primary system. -/
theorem C145_primary_curve [FloorRing K] (db : ShapeFiles K) (s : DhwSys K) (slope step : K) :
    getSizingCurve baseMethods db (hotterSys d s) (hotterBuilding d b) slope step =
      hotterOutcome (hotterSys d) d (getSizingCurve baseMethods db s b slope step) :=
  curve_hotter base_readsDiff db s slope step

/-- **C145, the sizing curve** of a single-pass return-to-primary system. -/
theorem C145_single_pass_curve [FloorRing K] (db : ShapeFiles K) (l : RtpLoop K) (s : DhwSys K) (slope step : K) :
    getSizingCurve (spMethods (hotterLoop d l)) db (hotterSys d s) (hotterBuilding d b) slope step =
      hotterOutcome (hotterSys d) d (getSizingCurve (spMethods l) db s b slope step) :=
  curve_hotter (sp_readsDiff l) db s slope step

/-! ### Swing tanks -/

theorem swingMixed_hotter (vol t hw primary : K) :
    swingMixed vol (t + d) hw (primary + d) = (swingMixed vol t hw primary).map (· + d) := by
  unfold swingMixed
  split
  · rename_i h0
    split
    · rfl
    · rename_i h1
      have hv : vol ≠ 0 := by
        rintro rfl
        apply h1
        linarith
      simp only [Except.map, Except.ok.injEq]
      field_simp
      ring
  · rfl

theorem swingElement_hotter (supply : K) (heating : Bool) (t dT : K) :
    swingElement (supply + d) heating (t + d) dT = (swingElement supply heating t dT).map (fun r => (r.1, r.2.1 + d, r.2.2)) := by
  unfold swingElement
  have e1 : t + d + dT - (supply + d + 8) = t + dT - (supply + 8) := by ring
  have e2 : supply + d - (t + d) = supply - t := by ring
  have h1 : supply + d + 8 < t + d + dT ↔ supply + 8 < t + dT := ⟨fun h => by linarith, fun h => by linarith⟩
  rw [e1, e2]
  cases heating with
  | true =>
    simp only [if_true]
    by_cases h : supply + 8 < t + dT
    · rw [if_pos h, if_pos (h1.2 h)]
      cases fdiv (t + dT - (supply + 8)) dT with
      | error e => rfl
      | ok q =>
        simp only [Except.map, Except.ok.injEq, Prod.mk.injEq, true_and, and_true]
        ring
    · rw [if_neg h, if_neg (fun q => h (h1.1 q))]
      simp only [Except.map, Except.ok.injEq, Prod.mk.injEq, true_and, and_true]
      ring
  | false =>
    simp only [Bool.false_eq_true, if_false]
    by_cases h : t ≤ supply
    · rw [if_pos h, if_pos (show t + d ≤ supply + d by linarith)]
      cases fdiv (supply - t) dT with
      | error e => rfl
      | ok q =>
        simp only [Except.map, Except.ok.injEq, Prod.mk.injEq, true_and, and_true]
        ring
    · rw [if_neg h, if_neg (show ¬ t + d ≤ supply + d by linarith)]
      rfl

/-- The settings of a swing tank with the supply temperature raised. -/
def hotterParams (d : K) (p : SwingParams K) : SwingParams K := ⟨p.vol, p.lossKbtuh, p.capKbtuh, p.supply + d⟩

theorem swingStep_hotter (p : SwingParams K) (heating : Bool) (t hw primary : K) :
    swingStep (hotterParams d p) heating (t + d) hw (primary + d) =
      (swingStep p heating t hw primary).map (fun r => (r.1, r.2.1 + d, r.2.2)) := by
  unfold swingStep hotterParams
  simp only [swingMixed_hotter]
  cases swingMixed p.vol t hw primary with
  | error e => rfl
  | ok m =>
    simp only [Except.map, ok_bind]
    rw [show m + d - p.lossKbtuh * 1000 / 60 / (rhoCp K * p.vol) = m - p.lossKbtuh * 1000 / 60 / (rhoCp K * p.vol) + d by ring,
      swingElement_hotter]
    cases swingElement p.supply heating (m - p.lossKbtuh * 1000 / 60 / (rhoCp K * p.vol))
      (p.capKbtuh * 1000 / 60 / (rhoCp K * p.vol)) with
    | error e => rfl
    | ok r =>
      simp only [Except.map, ok_bind]
      by_cases h : r.2.1 < p.supply
      · rw [if_pos h, if_pos (show r.2.1 + d < p.supply + d by linarith)]
      · rw [if_neg h, if_neg (show ¬ r.2.1 + d < p.supply + d by linarith)]
        rfl

theorem swingDraw_hotter (supply inlet t x : K) :
    swingDraw (supply + d) (inlet + d) (t + d) x = swingDraw supply inlet t x := by
  unfold swingDraw
  by_cases h : inlet < t
  · rw [if_pos h, if_pos (show inlet + d < t + d by linarith), add_sub_add_right_eq_sub, add_sub_add_right_eq_sub]
  · rw [if_neg h, if_neg (show ¬ inlet + d < t + d by linarith)]

/-- A minute of a swing simulation with the tank temperature raised. -/
def hotterMin (d : K) (r : SwingMin K) : SwingMin K := ⟨r.temp + d, r.run, r.hw⟩

theorem simSwingFrom_hotter (p : SwingParams K) (inlet storage : K) (heating : Bool) (t : K) (ds : List K) :
    simSwingFrom (hotterParams d p) (inlet + d) (storage + d) heating (t + d) ds =
      (simSwingFrom p inlet storage heating t ds).map (List.map (hotterMin d)) := by
  induction ds generalizing heating t with
  | nil => rfl
  | cons x xs ih =>
    unfold simSwingFrom
    simp only [show (hotterParams d p).supply = p.supply + d from rfl, swingDraw_hotter, swingStep_hotter]
    cases swingStep p heating t (swingDraw p.supply inlet t x) storage with
    | error e => rfl
    | ok r =>
      obtain ⟨h, t', r⟩ := r
      simp only [Except.map, ok_bind, ih]
      cases simSwingFrom p inlet storage h t' xs <;> rfl

theorem simSwing_hotter (p : SwingParams K) (inlet storage init : K) (ds : List K) :
    simSwing (hotterParams d p) (inlet + d) (storage + d) (init + d) ds =
      (simSwing p inlet storage init ds).map (List.map (hotterMin d)) := by
  cases ds with
  | nil => rfl
  | cons x xs =>
    simp only [simSwing, simSwingFrom_hotter]
    cases simSwingFrom p inlet storage false init xs <;> rfl

theorem params_hotter (s : SwingSys K) : (hotterSwing d s).params = s.params.map (hotterParams d) := by
  unfold SwingSys.params
  rw [show (hotterSwing d s).tmVol = s.tmVol from rfl, show (hotterSwing d s).tmCap = s.tmCap from rfl]
  cases s.tmVol with
  | none => rfl
  | some v =>
    cases s.tmCap with
    | none => rfl
    | some c =>
      simp only [Except.map, hotterParams, hotterSwing, hotterSys, hotterCfg, recircLoss_hotter]

theorem swingPrimary_hotter (s : SwingSys K) (inlet : K) (hourly : List K) :
    swingPrimary (hotterSwing d s) (inlet + d) hourly = swingPrimary s inlet hourly := by
  unfold swingPrimary
  rw [params_hotter]
  cases s.params with
  | error e => rfl
  | ok p =>
    simp only [Except.map, ok_bind, hotterSwing, hotterSys, hotterCfg]
    rw [show swingInit (s.base.cfg.supply + d) = swingInit s.base.cfg.supply + d by unfold swingInit; ring, simSwing_hotter]
    cases simSwing p inlet s.base.cfg.storage (swingInit s.base.cfg.supply) (perMinute hourly) with
    | error e => rfl
    | ok rows => simp [Except.map, hotterMin, Function.comp_def]

theorem runVolSwing_hotter (s : SwingSys K) : runVolSwing (hotterSwing d s) (hotterBuilding d b) = runVolSwing s b := by
  unfold runVolSwing
  rw [requireInlet_hotter]
  cases requireDesignInlet b with
  | error e => rfl
  | ok inlet =>
    have hw : ∀ st, swingWindow (hotterSwing d s) (hotterBuilding d b) (inlet + d) st = swingWindow s b inlet st := by
      intro st
      unfold swingWindow
      simp only [swingPrimary_hotter]
      rfl
    simp only [Except.map, ok_bind, hw, show (hotterSwing d s).base.cfg.storage = s.base.cfg.storage + d from rfl,
      show (hotterSwing d s).base.cfg.supply = s.base.cfg.supply + d from rfl, add_sub_add_right_eq_sub]
    rfl

theorem requiredSwing_hotter (s : SwingSys K) :
    requiredCapacitySwing (hotterSwing d s) (hotterBuilding d b) = requiredCapacitySwing s b := by
  unfold requiredCapacitySwing
  rw [requireInlet_hotter]
  cases requireDesignInlet b with
  | error e => rfl
  | ok inlet =>
    simp only [Except.map, ok_bind, show (hotterSwing d s).base.cfg.storage = s.base.cfg.storage + d from rfl,
      add_sub_add_right_eq_sub]
    rfl

theorem prelimSwing_hotter (s : SwingSys K) (sched : List String) (fract : K) :
    prelimVolsSwing (hotterSwing d s) sched (hotterBuilding d b) fract = prelimVolsSwing s sched b fract := by
  unfold prelimVolsSwing
  rw [requireInlet_hotter]
  cases firstShedBlock sched with
  | error e => rfl
  | ok x =>
    obtain ⟨block, lu⟩ := x
    simp only [ok_bind]
    rw [show (fun h => pyGet (hotterBuilding d b).avgShape h) = fun h => pyGet b.avgShape h from rfl]
    cases block.mapM (fun h => pyGet b.avgShape h) with
    | error e => rfl
    | ok hours =>
      simp only [ok_bind]
      cases requireDesignInlet b with
      | error e => rfl
      | ok inlet =>
        simp only [Except.map, ok_bind, swingPrimary_hotter]
        rfl

theorem genSwing_hotter (s : SwingSys K) (sched : List String) (m : ControlMap K) (slope fract : K) :
    genRateLsSwing (hotterSwing d s) sched (hotterMap d m) (hotterBuilding d b) slope fract =
      genRateLsSwing s sched m b slope fract := by
  unfold genRateLsSwing
  rw [prelimSwing_hotter, lsControls_hotter, show (hotterSwing d s).base.cfg = hotterCfg d s.base.cfg from rfl]
  cases lsControls m with
  | error e => rfl
  | ok x => simp only [Except.map, ok_bind, hotterControls, stratPct_hotter]; rfl

theorem requiredLsSwing_hotter (s : SwingSys K) (sched : List String) (m : ControlMap K) (slope fract : K) :
    requiredCapacityLsSwing (hotterSwing d s) sched (hotterMap d m) (hotterBuilding d b) slope fract =
      requiredCapacityLsSwing s sched m b slope fract := by
  unfold requiredCapacityLsSwing
  rw [requireInlet_hotter, genSwing_hotter]
  cases requireDesignInlet b with
  | error e => rfl
  | ok inlet =>
    simp only [Except.map, ok_bind, show (hotterSwing d s).base.cfg.storage = s.base.cfg.storage + d from rfl,
      add_sub_add_right_eq_sub]
    rfl

theorem runVolLsSwing_hotter (s : SwingSys K) (sched : List String) (gen fract : K) :
    runVolLsSwing (hotterSwing d s) sched (hotterBuilding d b) gen fract = runVolLsSwing s sched b gen fract := by
  unfold runVolLsSwing
  rw [requireInlet_hotter, prelimSwing_hotter]
  cases requireDesignInlet b with
  | error e => rfl
  | ok inlet =>
    simp only [Except.map, ok_bind, swingPrimary_hotter, show (hotterSwing d s).base.cfg.storage = s.base.cfg.storage + d from rfl,
      show (hotterSwing d s).base.cfg.supply = s.base.cfg.supply + d from rfl, add_sub_add_right_eq_sub]
    rfl

theorem restSwing_hotter (s : SwingSys K) (ls : Option (List String × ControlMap K)) (cmap : Option (ControlMap K))
    (slope fract inlet rv : K) :
    sizeSwingRest (hotterSwing d s) (hotterBuilding d b) (ls.map (fun x => (x.1, hotterMap d x.2))) (cmap.map (hotterMap d)) slope
      fract (inlet + d) rv = sizeSwingRest s b ls cmap slope fract inlet rv := by
  unfold sizeSwingRest
  rw [show (hotterSwing d s).base.cfg = hotterCfg d s.base.cfg from rfl, stratFactor_hotter, requiredSwing_hotter]
  cases ls with
  | none => rfl
  | some x =>
    simp only [Option.map_some, sizeSwingLs, genSwing_hotter, requiredLsSwing_hotter, runVolLsSwing_hotter,
      show (hotterSwing d s).base.cfg = hotterCfg d s.base.cfg from rfl, storageLs_hotter]
    rfl

theorem bodySwing_hotter (s : SwingSys K) (ls : Option (List String × ControlMap K)) (cmap : Option (ControlMap K))
    (slope fract : K) :
    sizeSwingBody (hotterSwing d s) (hotterBuilding d b) (ls.map (fun x => (x.1, hotterMap d x.2))) (cmap.map (hotterMap d)) slope
      fract = (hotterSwing d (sizeSwingBody s b ls cmap slope fract).1, (sizeSwingBody s b ls cmap slope fract).2) := by
  have htm : sizeSwingTm (hotterSwing d s).base.cfg.supply (hotterSwing d s).ret (hotterSwing d s).flow (hotterSwing d s).sf
      (some (hotterBuilding d b)) = sizeSwingTm s.base.cfg.supply s.ret s.flow s.sf (some b) := by
    simp only [sizeSwingTm, swingRequired, hotterSwing, hotterSys, hotterCfg, recircLoss_hotter]
    rfl
  unfold sizeSwingBody
  rw [requireInlet_hotter, htm]
  cases requireDesignInlet b with
  | error e => rfl
  | ok inlet =>
    simp only [Except.map]
    cases sizeSwingTm s.base.cfg.supply s.ret s.flow s.sf (some b) with
    | error e => rfl
    | ok x =>
      obtain ⟨vol, ca, cap⟩ := x
      simp only
      have hr := runVolSwing_hotter (d := d) (b := b)
        { s with tmVol := some (vol : K), tmCa := some ca, tmCap := some cap, effMix := 1 }
      rw [show ({ hotterSwing d s with tmVol := some (vol : K), tmCa := some ca, tmCap := some cap, effMix := 1 } : SwingSys K) =
        hotterSwing d { s with tmVol := some (vol : K), tmCa := some ca, tmCap := some cap, effMix := 1 } from rfl, hr]
      cases runVolSwing { s with tmVol := some (vol : K), tmCa := some ca, tmCap := some cap, effMix := 1 } b with
      | error e => rfl
      | ok y =>
        obtain ⟨rv, eff⟩ := y
        simp only
        have hq := restSwing_hotter (d := d) (b := b)
          { s with tmVol := some (vol : K), tmCa := some ca, tmCap := some cap, effMix := eff.getD 1 } ls cmap slope fract inlet rv
        have hq' : sizeSwingRest { hotterSwing d s with
              tmVol := some (vol : K), tmCa := some ca, tmCap := some cap, effMix := eff.getD 1 } (hotterBuilding d b)
            (ls.map (fun x => (x.1, hotterMap d x.2))) (cmap.map (hotterMap d)) slope fract (inlet + d) rv = _ := hq
        rw [hq']
        cases sizeSwingRest { s with tmVol := some (vol : K), tmCa := some ca, tmCap := some cap, effMix := eff.getD 1 } b ls cmap
          slope fract inlet rv <;> rfl

/-- **C145, sizing a swing tank system**, load shifting included. -/
theorem C145_swing (db : ShapeFiles K) (s : SwingSys K) (sched : Option (List String)) (cmap : Option (ControlMap K))
    (slope fract : K) :
    SwingSys.size db (hotterSwing d s) (hotterBuilding d b) sched (cmap.map (hotterMap d)) slope fract =
      hotterOutcome (hotterSwing d) d (s.size db b sched cmap slope fract) := by
  have pre : (if (hotterBuilding d b).isAnnual then (hotterBuilding d b).setToDaily db else .ok (hotterBuilding d b)) =
      (if b.isAnnual then b.setToDaily db else .ok b).map (hotterBuilding d) := by
    rw [isAnnual_hotter]
    split
    · exact toDaily_hotter db
    · rfl
  have key : ∀ b1 : Building K, sizeSwingBody { hotterSwing d s with base := { (hotterSwing d s).base with
        cfg := cappedCfg (hotterSwing d s).base.cfg (lsInputs sched (cmap.map (hotterMap d))) } } (hotterBuilding d b1)
      (lsInputs sched (cmap.map (hotterMap d))) (cmap.map (hotterMap d)) slope fract =
      (hotterSwing d (sizeSwingBody { s with base := { s.base with cfg := cappedCfg s.base.cfg (lsInputs sched cmap) } } b1
        (lsInputs sched cmap) cmap slope fract).1,
      (sizeSwingBody { s with base := { s.base with cfg := cappedCfg s.base.cfg (lsInputs sched cmap) } } b1
        (lsInputs sched cmap) cmap slope fract).2) := by
    intro b1
    rw [lsInputs_hotter, show (hotterSwing d s).base.cfg = hotterCfg d s.base.cfg from rfl, capped_hotter, ← bodySwing_hotter]
    rfl
  unfold SwingSys.size
  simp only [pre]
  cases (if b.isAnnual then b.setToDaily db else .ok b : Py (Building K)) with
  | error e => rfl
  | ok b1 =>
    simp only [Except.map, key, isAnnual_hotter]
    cases (sizeSwingBody { s with base := { s.base with cfg := cappedCfg s.base.cfg (lsInputs sched cmap) } } b1
        (lsInputs sched cmap) cmap slope fract).2 with
    | error e => rfl
    | ok u =>
      simp only
      split
      · rw [toAnnual_hotter]
        cases b1.setToAnnual db <;> rfl
      · rfl

/-! ### Multi-pass -/

theorem avgHot_hotter (c : SysCfg K) (on t slope : K) :
    avgHotAtTrigger (hotterCfg d c) on (t + d) slope = (avgHotAtTrigger c on t slope).map (· + d) := by
  unfold avgHotAtTrigger
  simp only [hotterCfg, add_sub_add_right_eq_sub]
  cases h1 : fdiv (c.supply - t) slope with
  | error e => rfl
  | ok a =>
    cases h2 : fdiv (c.storage - t) slope with
    | error e => rfl
    | ok q =>
      simp only [ok_bind]
      by_cases h3 : 100 ≤ on * 100 + a
      · rw [if_pos h3, if_pos h3]; rfl
      · rw [if_neg h3, if_neg h3]
        by_cases h4 : min 100 (on * 100 + q) - max 0 (on * 100 + a) + max 0 (100 - (on * 100 + q)) ≤ 0
        · rw [if_pos h4, if_pos h4]; rfl
        · rw [if_neg h4, if_neg h4]
          have ht : (if 100 < on * 100 + q then t + d + (100 - on * 100) * slope else c.storage + d) =
              (if 100 < on * 100 + q then t + (100 - on * 100) * slope else c.storage) + d := by
            split <;> ring
          have hb : (if on * 100 + a < 0 then t + d - on * 100 * slope else c.supply + d) =
              (if on * 100 + a < 0 then t - on * 100 * slope else c.supply) + d := by
            split <;> ring
          rw [ht, hb]
          generalize (if 100 < on * 100 + q then t + (100 - on * 100) * slope else c.storage) = top
          generalize (if on * 100 + a < 0 then t - on * 100 * slope else c.supply) = bot
          generalize min 100 (on * 100 + q) - max 0 (on * 100 + a) = x at h4 ⊢
          generalize max 0 (100 - (on * 100 + q)) = y at h4 ⊢
          have hne : x + y ≠ 0 := fun h => h4 h.le
          simp only [pure_eq_ok, Except.map, Except.ok.injEq]
          field_simp
          ring

theorem mapM_shift {α : Type} (m : List α) (f g : α → Py K) (h : ∀ x, g x = (f x).map (· + d)) :
    m.mapM g = (m.mapM f).map (List.map (· + d)) := by
  induction m with
  | nil => rfl
  | cons x xs ih =>
    simp only [List.mapM_cons, ih, h x]
    cases f x with
    | error e => rfl
    | ok y =>
      simp only [Except.map, ok_bind]
      cases List.mapM f xs <;> rfl

theorem mpAvg_hotter (c : SysCfg K) (cmap : Option (ControlMap K)) (slope : K) :
    mpAvgOutlet (hotterCfg d c) (cmap.map (hotterMap d)) slope = (mpAvgOutlet c cmap slope).map (· + d) := by
  cases cmap with
  | none => rfl
  | some m =>
    simp only [mpAvgOutlet, Option.map_some, hotterMap, List.mapM_map]
    have h : m.mapM ((fun p : String × Controls K => avgHotAtTrigger (hotterCfg d c) p.2.onFract p.2.onTrig slope) ∘
        fun p => (p.1, hotterControls d p.2)) = _ :=
      mapM_shift (d := d) m (fun p => avgHotAtTrigger c p.2.onFract p.2.onTrig slope) _ (fun p => avgHot_hotter c _ _ slope)
    rw [h]
    cases m.mapM (fun p => avgHotAtTrigger c p.2.onFract p.2.onTrig slope) with
    | error e => rfl
    | ok vs =>
      simp only [Except.map, ok_bind, min?_add]
      cases vs.min? <;> rfl

theorem valve_hotter (load flow cold supply ret storage : K) :
    mixingValve load flow (cold + d) (supply + d) (ret + d) (storage + d) =
      (mixingValve load flow cold supply ret storage).map (fun r => (r.1, r.2 + d)) := by
  unfold mixingValve
  simp only [add_sub_add_right_eq_sub]
  cases fdiv (flow * rhoCp K * (supply - ret)) (rhoCp K * (storage - supply)) with
  | error e => rfl
  | ok cr =>
    simp only [ok_bind]
    split
    · cases fdiv (supply - cold) (storage - cold) with
      | error e => rfl
      | ok x => 
        simp only [ok_bind]
        cases fdiv (supply - ret) (storage - cold) <;> rfl
    · cases fdiv (supply - ret) (storage - ret) with
      | error e => rfl
      | ok x =>
        simp only [ok_bind]
        generalize (load + flow) * x = y
        by_cases hy : y = 0
        · simp [fdiv, hy]; rfl
        · simp only [fdiv, if_neg hy, ok_bind, pure_eq_ok, Except.map, Except.ok.injEq, Prod.mk.injEq, true_and]
          field_simp
          ring

/-- A sizing slug with its temperature raised. -/
def hotterSlug (d : K) (s : SizingSlug K) : SizingSlug K := ⟨s.vol, s.temp + d⟩

theorem slugMinute_hotter (heat cold storage : K) (s : SizingSlug K) (draw inlet : K) :
    slugMinute heat (cold + d) (storage + d) (hotterSlug d s) draw (inlet + d) = hotterSlug d (slugMinute heat cold storage s draw inlet) := by
  unfold slugMinute
  have e1 : (if 0 < draw then if (hotterSlug d s).vol ≤ 0 then (⟨draw, inlet + d⟩ : SizingSlug K)
      else ⟨(hotterSlug d s).vol + draw, ((hotterSlug d s).vol * (hotterSlug d s).temp + draw * (inlet + d)) /
        ((hotterSlug d s).vol + draw)⟩ else hotterSlug d s) =
      hotterSlug d (if 0 < draw then if s.vol ≤ 0 then (⟨draw, inlet⟩ : SizingSlug K)
        else ⟨s.vol + draw, (s.vol * s.temp + draw * inlet) / (s.vol + draw)⟩ else s) := by
    by_cases h1 : 0 < draw
    · by_cases h2 : s.vol ≤ 0
      · rw [if_pos h1, if_pos h1, if_pos (show (hotterSlug d s).vol ≤ 0 from h2), if_pos h2]; rfl
      · rw [if_pos h1, if_pos h1, if_neg (show ¬ (hotterSlug d s).vol ≤ 0 from h2), if_neg h2]
        have hne : s.vol + draw ≠ 0 := ne_of_gt (by linarith [lt_of_not_ge h2])
        simp only [hotterSlug, SizingSlug.mk.injEq, true_and]
        field_simp
        ring
    · rw [if_neg h1, if_neg h1]
  simp only [e1]
  generalize (if 0 < draw then if s.vol ≤ 0 then (⟨draw, inlet⟩ : SizingSlug K)
        else ⟨s.vol + draw, (s.vol * s.temp + draw * inlet) / (s.vol + draw)⟩ else s) = s1
  have e2 : (if 0 < (hotterSlug d s1).vol then
      { hotterSlug d s1 with temp := (hotterSlug d s1).temp + heat * 1000 / ((hotterSlug d s1).vol * rhoCp K) } else hotterSlug d s1) =
      hotterSlug d (if 0 < s1.vol then { s1 with temp := s1.temp + heat * 1000 / (s1.vol * rhoCp K) } else s1) := by
    by_cases h1 : 0 < s1.vol
    · rw [if_pos h1, if_pos (show 0 < (hotterSlug d s1).vol from h1)]
      simp only [hotterSlug, SizingSlug.mk.injEq, true_and]
      ring
    · rw [if_neg h1, if_neg (show ¬ 0 < (hotterSlug d s1).vol from h1)]
  simp only [e2]
  generalize (if 0 < s1.vol then { s1 with temp := s1.temp + heat * 1000 / (s1.vol * rhoCp K) } else s1) = s2
  by_cases h : 0 < s2.vol ∧ storage ≤ s2.temp
  · rw [if_pos h, if_pos (show 0 < (hotterSlug d s2).vol ∧ storage + d ≤ (hotterSlug d s2).temp from
      ⟨h.1, by have := h.2; simp only [hotterSlug]; linarith⟩)]
    rfl
  · rw [if_neg h, if_neg (show ¬ (0 < (hotterSlug d s2).vol ∧ storage + d ≤ (hotterSlug d s2).temp) from
      fun q => h ⟨q.1, by have := q.2; simp only [hotterSlug] at this; linarith⟩)]

theorem slugLoop_hotter (c : SysCfg K) (l : RtpLoop K) (avg cold heat : K) (n t : Nat) (s : SizingSlug K) (m : K) :
    slugLoop (hotterCfg d c) (hotterLoop d l) (avg + d) (cold + d) heat (hotterBuilding d b) n t (hotterSlug d s) m =
      slugLoop c l avg cold heat b n t s m := by
  induction n generalizing t s m with
  | zero => rfl
  | succ n ih =>
    have hv : sizingValve (hotterCfg d c) (hotterLoop d l) (avg + d) (cold + d) (hotterBuilding d b) t =
        (sizingValve c l avg cold b t).map (fun r => (r.1, r.2 + d)) := by
      unfold sizingValve
      rw [show (hotterBuilding d b).getDhwLoad t 1 = b.getDhwLoad t 1 from rfl]
      cases b.getDhwLoad t 1 with
      | error e => rfl
      | ok x => exact valve_hotter ..
    unfold slugLoop
    rw [hv]
    cases sizingValve c l avg cold b t with
    | error e => rfl
    | ok r =>
      simp only [Except.map, ok_bind]
      rw [show (hotterCfg d c).storage = c.storage + d from rfl, slugMinute_hotter, ih]
      rfl

theorem slugRun_hotter (c : SysCfg K) (l : RtpLoop K) (avg cap : K) (n : Nat) :
    (requireDesignInlet (hotterBuilding d b) >>= fun cold => slugLoop (hotterCfg d c) (hotterLoop d l) (avg + d) cold (cap * 1 / 60)
      (hotterBuilding d b) n 0 ⟨0, cold⟩ 0) =
    requireDesignInlet b >>= fun cold => slugLoop c l avg cold (cap * 1 / 60) b n 0 ⟨0, cold⟩ 0 := by
  rw [requireInlet_hotter]
  cases requireDesignInlet b with
  | error e => rfl
  | ok inlet => exact slugLoop_hotter c l avg inlet (cap * 1 / 60) n 0 ⟨0, inlet⟩ 0

theorem mpRunVol_hotter (c : SysCfg K) (l : RtpLoop K) (avg cap : K) :
    mpRunVol (hotterCfg d c) (hotterLoop d l) (avg + d) (hotterBuilding d b) cap = mpRunVol c l avg b cap :=
  slugRun_hotter c l avg cap 2880

theorem mpCalc_hotter (c : SysCfg K) (l : RtpLoop K) (avg : K) (cmap : Option (ControlMap K)) (slope : K) :
    mpCalc (hotterCfg d c) (hotterLoop d l) (avg + d) (hotterBuilding d b) (cmap.map (hotterMap d)) slope =
      mpCalc c l avg b cmap slope := by
  unfold mpCalc
  rw [rtpCapacity_hotter, requireInlet_hotter]
  cases rtpRequiredCapacity l c b with
  | error e => rfl
  | ok cap =>
    simp only [ok_bind, mpRunVol_hotter]
    cases mpRunVol c l avg b cap with
    | error e => rfl
    | ok rv =>
      cases requireDesignInlet b with
      | error e => rfl
      | ok inlet => simp only [Except.map, ok_bind, stratFactor_hotter]

theorem mpBody_hotter (s : MpSys K) (cmap : Option (ControlMap K)) (slope : K) :
    mpSizeBody (hotterMp d s) (hotterBuilding d b) (cmap.map (hotterMap d)) slope =
      (hotterMp d (mpSizeBody s b cmap slope).1, (mpSizeBody s b cmap slope).2) := by
  unfold mpSizeBody
  rw [show (hotterMp d s).base.cfg = hotterCfg d s.base.cfg from rfl, mpAvg_hotter]
  cases mpAvgOutlet s.base.cfg cmap slope with
  | error e => rfl
  | ok avg =>
    simp only [Except.map]
    rw [show (hotterMp d s).loop = hotterLoop d s.loop from rfl, show (hotterMp d s).base.cfg = hotterCfg d s.base.cfg from rfl,
      mpCalc_hotter]
    cases mpCalc s.base.cfg s.loop avg b cmap slope <;> rfl

theorem isLoadShifting_hotter (cmap : Option (ControlMap K)) : isLoadShifting (cmap.map (hotterMap d)) = isLoadShifting cmap := by
  cases cmap with
  | none => rfl
  | some m =>
    simp only [isLoadShifting, Option.map_some, dictHas_hotter]

/-- **C145, sizing a multi-pass return-to-primary system.** The stored mean outlet temperature is `d` degrees higher. -/
theorem C145_multi_pass (db : ShapeFiles K) (s : MpSys K) (cmap : Option (ControlMap K)) (slope : K) :
    MpSys.size db (hotterMp d s) (hotterBuilding d b) (cmap.map (hotterMap d)) slope =
      hotterOutcome (hotterMp d) d (s.size db b cmap slope) := by
  have pre : (if (hotterBuilding d b).isAnnual then (hotterBuilding d b).setToDaily db else .ok (hotterBuilding d b)) =
      (if b.isAnnual then b.setToDaily db else .ok b).map (hotterBuilding d) := by
    rw [isAnnual_hotter]
    split
    · exact toDaily_hotter db
    · rfl
  unfold MpSys.size
  rw [isLoadShifting_hotter]
  split
  · rfl
  · simp only [pre]
    cases (if b.isAnnual then b.setToDaily db else .ok b : Py (Building K)) with
    | error e => rfl
    | ok b1 =>
      simp only [Except.map, mpBody_hotter, isAnnual_hotter]
      split
      · rw [toAnnual_hotter]
        cases b1.setToAnnual db <;> rfl
      · rfl

end

end Eco
