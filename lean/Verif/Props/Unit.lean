import Verif.Spec.Unit
import Verif.Props.Scale
import Verif.Props.ScaleSim
import Verif.Props.ParallelLoop
import Verif.Props.SwingSize
import Verif.Props.Demo
set_option linter.unusedSectionVars false

/-! C147: in sizing, capacities are proportional to the spread of the temperatures and volumes depend on ratios of
temperature differences only. -/

namespace Eco
open Spec
variable {K : Type} [Field K] [LinearOrder K] [IsStrictOrderedRing K]

section
variable {u : K} {b : Building K}

theorem min?_mul (hu : 0 < u) (l : List K) : (l.map (u * ·)).min? = l.min?.map (u * ·) := by
  cases h : l.min? with
  | none =>
    rw [List.min?_eq_none_iff] at h
    simp [h]
  | some m =>
    rw [List.min?_eq_some_iff] at h
    simp only [Option.map_some]
    rw [List.min?_eq_some_iff]
    refine ⟨List.mem_map.2 ⟨m, h.1, rfl⟩, ?_⟩
    intro x hx
    obtain ⟨y, hy, rfl⟩ := List.mem_map.1 hx
    exact mul_le_mul_of_nonneg_left (h.2 y hy) hu.le

theorem designInlet_unit (hu : 0 < u) (c : ClimateZone K) : (unitClimate u c).getDesignInlet = c.getDesignInlet.map (u * ·) := by
  unfold ClimateZone.getDesignInlet unitClimate
  cases c.constInlet with
  | some v => rfl
  | none =>
    cases c.inletByMonth with
    | none => rfl
    | some l =>
      simp only [Option.map_none, Option.map_some, min?_mul hu]
      cases l.min? <;> rfl

theorem requireInlet_unit (hu : 0 < u) : requireDesignInlet (unitBuilding u b) = (requireDesignInlet b).map (u * ·) := by
  unfold requireDesignInlet Building.getDesignInlet unitBuilding
  cases b.climate with
  | none => rfl
  | some c =>
    simp only [Option.map_some, designInlet_unit hu]
    cases c.getDesignInlet <;> rfl

theorem toDaily_unit (db : ShapeFiles K) : (unitBuilding u b).setToDaily db = (b.setToDaily db).map (unitBuilding u) := by
  unfold Building.setToDaily
  by_cases h : b.buildingType ≠ "multi_family"
  · rw [if_pos (show (unitBuilding u b).buildingType ≠ _ from h), if_pos h]; rfl
  · rw [if_neg (show ¬ (unitBuilding u b).buildingType ≠ _ from h), if_neg h]
    cases loadShapeJson db "multi_family" with
    | error e => rfl
    | ok x =>
      simp only [ok_bind]
      cases x.streamAvg <;> rfl

theorem toAnnual_unit (db : ShapeFiles K) : (unitBuilding u b).setToAnnual db = (b.setToAnnual db).map (unitBuilding u) := by
  unfold Building.setToAnnual
  by_cases h : b.buildingType ≠ "multi_family"
  · rw [if_pos (show (unitBuilding u b).buildingType ≠ _ from h), if_pos h]; rfl
  · rw [if_neg (show ¬ (unitBuilding u b).buildingType ≠ _ from h), if_neg h]
    cases loadShapeJson db "multi_family" <;> rfl

theorem isAnnual_unit : (unitBuilding u b).isAnnual = b.isAnnual := rfl

theorem capacityOf_unit (c : SysCfg K) (gen inlet : K) :
    capacityOfGenRate (unitCfg u c) gen (u * inlet) = (capacityOfGenRate c gen inlet).map (u * ·) := by
  simp only [capacityOfGenRate, unitCfg]
  rw [show gen * rhoCp K * (u * c.supply - u * inlet) = u * (gen * rhoCp K * (c.supply - inlet)) by ring, fdiv_scale]
  cases fdiv (gen * rhoCp K * (c.supply - inlet)) c.defrost with
  | error e => rfl
  | ok x => simp only [Except.map, ok_bind, mul_div_assoc]

theorem requiredCapacity_unit (hu : 0 < u) (c : SysCfg K) :
    requiredCapacity (unitCfg u c) (unitBuilding u b) = (requiredCapacity c b).map (u * ·) := by
  unfold requiredCapacity
  rw [requireInlet_unit hu]
  cases requireDesignInlet b with
  | error e => rfl
  | ok inlet =>
    simp only [Except.map, ok_bind, capacityOf_unit]
    show (fdiv b.dailyGal c.maxRunHr >>= _) = _
    cases fdiv b.dailyGal c.maxRunHr <;> rfl

theorem supplyGal_unit (hu : 0 < u) (c : SysCfg K) (f t slope inlet : K) :
    supplyGalPer100 (unitCfg u c) f (u * t) (u * slope) (u * inlet) = supplyGalPer100 c f t slope inlet := by
  have h0 := hu.ne'
  have q : ∀ x y : K, (u * x - u * y) / (u * slope) = (x - y) / slope := by
    intro x y; rw [← mul_sub, mul_div_mul_left _ _ h0]
  simp only [supplyGalPer100, unitCfg, q, mul_eq_zero, h0, false_or]
  by_cases hs : slope = 0
  · simp [hs]
  simp only [hs, if_false]
  generalize min (f * 100 + (c.storage - t) / slope) 100 = a
  generalize max (f * 100 + (c.supply - t) / slope) (f * 100) = e
  by_cases he : e ≥ 100
  · simp only [if_pos he]
  simp only [if_neg he, ← mul_sub, mul_eq_zero, h0, false_or]
  by_cases hd : c.supply - inlet = 0
  · simp only [if_pos hd]
  simp only [if_neg hd]
  congr 1
  field_simp

theorem dictGet?_unit (m : ControlMap K) (k : String) : dictGet? (unitMap u m) k = (dictGet? m k).map (unitControls u) := by
  unfold dictGet? unitMap
  rw [List.find?_map]
  cases h : List.find? ((fun p : String × Controls K => decide (p.1 = k)) ∘ fun p => (p.1, unitControls u p.2)) m <;>
    simp_all [Function.comp_def]
  assumption

theorem dictHas_unit (m : ControlMap K) (k : String) : dictHas (unitMap u m) k = dictHas m k := by
  simp [dictHas, dictGet?_unit]

theorem dictGet_unit (m : ControlMap K) (k : String) : dictGet (unitMap u m) k = (dictGet m k).map (unitControls u) := by
  unfold dictGet
  rw [dictGet?_unit]
  cases dictGet? m k <;> rfl

theorem stratFactor_unit (hu : 0 < u) (c : SysCfg K) (cmap : Option (ControlMap K)) (slope inlet : K) :
    stratFactor (unitCfg u c) (cmap.map (unitMap u)) (u * slope) (u * inlet) = stratFactor c cmap slope inlet := by
  have h0 : supplyGalPer100 (unitCfg u c) 0 (unitCfg u c).supply (u * slope) (u * inlet) = supplyGalPer100 c 0 c.supply slope inlet :=
    supplyGal_unit hu c 0 c.supply slope inlet
  rcases cmap with _ | _ | ⟨p, ps⟩
  · simp only [stratFactor, Option.map_none, h0]
  · simp only [stratFactor, Option.map_some, unitMap, List.map_nil, h0]
  · have e : stratFactor (unitCfg u c) (some (unitMap u (p :: ps))) (u * slope) (u * inlet) =
        match dictGet? (unitMap u (p :: ps)) "normal" with
        | some ctrl => do return (← supplyGalPer100 (unitCfg u c) ctrl.onFract ctrl.onTrig (u * slope) (u * inlet)) / 100
        | none => minOfPy ((unitMap u (p :: ps)).map (fun p => do
            return (← supplyGalPer100 (unitCfg u c) p.2.onFract p.2.onTrig (u * slope) (u * inlet)) / 100)) := rfl
    rw [Option.map_some, e, dictGet?_unit, stratFactor]
    cases dictGet? (p :: ps) "normal" with
    | some q =>
      simp only [Option.map_some, unitControls, supplyGal_unit hu]
    | none =>
      simp only [Option.map_none, unitMap, List.map_map, Function.comp_def, unitControls, supplyGal_unit hu]
    intro h
    simp at h

theorem stratPct_unit (hu : 0 < u) (c : SysCfg K) (f t slope : K) :
    stratPctOfTank (unitCfg u c) f (u * t) (u * slope) = stratPctOfTank c f t slope := by
  have h0 := hu.ne'
  have q : ∀ x y : K, (u * x - u * y) / (u * slope) = (x - y) / slope := by
    intro x y; rw [← mul_sub, mul_div_mul_left _ _ h0]
  simp only [stratPctOfTank, stratFactorForOnParams, unitCfg, q, mul_eq_zero, h0, false_or]
  by_cases hs : slope = 0
  · simp [hs]
  simp only [hs, if_false]
  generalize min (f * 100 + (c.storage - t) / slope) 100 = a
  generalize max (f * 100 + (c.supply - t) / slope) (f * 100) = e
  rw [show (100 - a) * (u * c.storage - u * c.supply) + (a - e) * (u * c.storage - u * c.supply) / 2 =
      u * ((100 - a) * (c.storage - c.supply) + (a - e) * (c.storage - c.supply) / 2) by ring,
    show (100 - f * 100) * (u * c.storage - u * c.supply) = u * ((100 - f * 100) * (c.storage - c.supply)) by ring,
    fdiv_times h0]

theorem lsControls_unit (m : ControlMap K) : lsControls (unitMap u m) =
    (lsControls m).map (fun x => (unitControls u x.1, unitControls u x.2.1, unitControls u x.2.2)) := by
  unfold lsControls
  rw [dictGet_unit, dictGet?_unit, dictGet_unit]
  cases dictGet m "normal" with
  | error e => rfl
  | ok n =>
    simp only [Except.map, ok_bind]
    cases dictGet m "shed" with
    | error e => rfl
    | ok s =>
      simp only [Except.map, ok_bind, pure_eq_ok]
      cases dictGet? m "loadUp" <;> rfl

theorem genRateLs_unit (hu : 0 < u) (c : SysCfg K) (sched : List String) (m : ControlMap K) (slope fract : K) :
    genRateLs (unitCfg u c) sched (unitMap u m) (unitBuilding u b) (u * slope) fract = genRateLs c sched m b slope fract := by
  unfold genRateLs
  rw [lsControls_unit, show prelimVols sched (unitBuilding u b) fract = prelimVols sched b fract from rfl]
  cases lsControls m with
  | error e => rfl
  | ok x => simp only [Except.map, ok_bind, unitControls, stratPct_unit hu]; rfl

theorem storageLs_unit (hu : 0 < u) (c : SysCfg K) (rv : K) (m : ControlMap K) (slope inlet : K) :
    storageVolumeLs (unitCfg u c) rv (unitMap u m) (u * slope) (u * inlet) = storageVolumeLs c rv m slope inlet := by
  unfold storageVolumeLs
  rw [lsControls_unit]
  cases lsControls m with
  | error e => rfl
  | ok x => simp only [Except.map, ok_bind, unitControls, supplyGal_unit hu]

theorem reqCapacityLs_unit (hu : 0 < u) {g g' : SysCfg K → List String → ControlMap K → Building K → K → K → Py K} (c : SysCfg K)
    (sched : List String) (m : ControlMap K) (slope fract : K)
    (hg : g' (unitCfg u c) sched (unitMap u m) (unitBuilding u b) (u * slope) fract = g c sched m b slope fract) :
    requiredCapacityLs g' (unitCfg u c) sched (unitMap u m) (unitBuilding u b) (u * slope) fract =
      (requiredCapacityLs g c sched m b slope fract).map (u * ·) := by
  unfold requiredCapacityLs
  rw [requireInlet_unit hu, hg]
  cases requireDesignInlet b with
  | error e => rfl
  | ok inlet =>
    simp only [Except.map, ok_bind, capacityOf_unit]
    cases g c sched m b slope fract <;> rfl

/-- Methods that follow a change of scale. -/
structure FollowsUnit (u : K) (M M' : SizingMethods K) : Prop where
  cap : ∀ c b, M'.reqCapacity (unitCfg u c) (unitBuilding u b) = (M.reqCapacity c b).map (u * ·)
  vol : ∀ c b x, M'.runVol (unitCfg u c) (unitBuilding u b) (u * x) = M.runVol c b x
  gen : ∀ c s m b sl f, M'.genRateLs (unitCfg u c) s (unitMap u m) (unitBuilding u b) (u * sl) f = M.genRateLs c s m b sl f
  capLs : ∀ c s m b sl f, M'.reqCapacityLs (unitCfg u c) s (unitMap u m) (unitBuilding u b) (u * sl) f =
    (M.reqCapacityLs c s m b sl f).map (u * ·)
  volLs : ∀ c s b g f, M'.runVolLs (unitCfg u c) s (unitBuilding u b) g f = M.runVolLs c s b g f

theorem base_followsUnit (hu : 0 < u) : FollowsUnit u (baseMethods (K := K)) baseMethods where
  cap c b := requiredCapacity_unit hu c
  vol _ _ _ := rfl
  gen c s m b sl f := genRateLs_unit hu c s m sl f
  capLs c s m b sl f := reqCapacityLs_unit hu c s m sl f (genRateLs_unit hu c s m sl f)
  volLs _ _ _ _ _ := rfl

theorem rtpLoss_unit (c : SysCfg K) (l : RtpLoop K) : rtpLossKbtuh (unitCfg u c) (unitLoop u l) = u * rtpLossKbtuh c l := by
  simp only [rtpLossKbtuh, unitCfg, unitLoop]
  ring

theorem rtpRecircCap_unit (c : SysCfg K) (l : RtpLoop K) :
    rtpRecircCap (unitCfg u c) (unitLoop u l) = (rtpRecircCap c l).map (u * ·) := by
  unfold rtpRecircCap
  rw [rtpLoss_unit, mul_assoc, fdiv_scale]
  show ((fdiv (rtpLossKbtuh c l * 24) c.maxRunHr).map _ >>= _) = _
  cases fdiv (rtpLossKbtuh c l * 24) c.maxRunHr with
  | error e => rfl
  | ok x => exact fdiv_scale u x c.defrost

theorem rtpCapacity_unit (hu : 0 < u) (c : SysCfg K) (l : RtpLoop K) :
    rtpRequiredCapacity (unitLoop u l) (unitCfg u c) (unitBuilding u b) = (rtpRequiredCapacity l c b).map (u * ·) := by
  unfold rtpRequiredCapacity
  rw [requiredCapacity_unit hu, rtpRecircCap_unit]
  cases requiredCapacity c b with
  | error e => rfl
  | ok x =>
    cases rtpRecircCap c l with
    | error e => rfl
    | ok y => simp only [Except.map, ok_bind, pure, Except.pure, mul_add]

theorem recircDaily_unit (hu : 0 < u) (c : SysCfg K) (l : RtpLoop K) :
    recircDaily (unitCfg u c) (unitLoop u l) (unitBuilding u b) = recircDaily c l b := by
  unfold recircDaily
  rw [requireInlet_unit hu, rtpLoss_unit]
  cases requireDesignInlet b with
  | error e => rfl
  | ok inlet =>
    simp only [Except.map, ok_bind, unitCfg]
    rw [mul_assoc, show rhoCp K * (u * c.supply - u * inlet) = u * (rhoCp K * (c.supply - inlet)) by ring, fdiv_times hu.ne']

theorem spGen_unit (hu : 0 < u) (c : SysCfg K) (l : RtpLoop K) (sched : List String) (m : ControlMap K) (slope fract : K) :
    (spGenRateLs (unitLoop u l) (unitCfg u c) sched (unitMap u m) (unitBuilding u b) (u * slope) fract).2 =
      (spGenRateLs l c sched m b slope fract).2 := by
  unfold spGenRateLs
  rw [recircDaily_unit hu]
  cases recircDaily c l b with
  | error e => rfl
  | ok r =>
    exact genRateLs_unit hu (b := { b with dailyGal := b.dailyGal + r }) c sched m slope fract

theorem sp_followsUnit (hu : 0 < u) (l : RtpLoop K) : FollowsUnit u (spMethods l) (spMethods (unitLoop u l)) where
  cap c b := rtpCapacity_unit hu c l
  vol c b x := by
    show spRunVol _ _ _ = spRunVol _ _ _
    unfold spRunVol
    rw [recircDaily_unit hu]
    rfl
  gen c s m b sl f := spGen_unit hu c l s m sl f
  capLs c s m b sl f := by
    show rtpRequiredCapacityLs _ _ _ _ _ _ _ _ = (rtpRequiredCapacityLs _ _ _ _ _ _ _ _).map _
    unfold rtpRequiredCapacityLs
    rw [rtpRecircCap_unit, reqCapacityLs_unit hu (g := fun c s m b sl f => (spGenRateLs l c s m b sl f).2) c s m sl f
      (spGen_unit hu c l s m sl f)]
    cases requiredCapacityLs (fun c s m b sl f => (spGenRateLs l c s m b sl f).2) c s m b sl f with
    | error e => rfl
    | ok x =>
      cases rtpRecircCap c l with
      | error e => rfl
      | ok y => simp only [Except.map, ok_bind, pure, Except.pure, mul_add]
  volLs c s b g f := by
    show (spRunVolLs _ _ _ _ _ _).2 = (spRunVolLs _ _ _ _ _ _).2
    unfold spRunVolLs
    rw [recircDaily_unit hu]
    cases recircDaily c l b <;> rfl

theorem lsInputs_unit (sched : Option (List String)) (cmap : Option (ControlMap K)) :
    lsInputs sched (cmap.map (unitMap u)) = (lsInputs sched cmap).map (fun x => (x.1, unitMap u x.2)) := by
  unfold lsInputs
  cases truthySched sched with
  | none => rfl
  | some s =>
    cases cmap with
    | none => rfl
    | some m =>
      simp only [Option.map_some, dictHas_unit]
      split <;> rfl

theorem capped_unit (c : SysCfg K) (ls : Option (List String × ControlMap K)) :
    cappedCfg (unitCfg u c) (ls.map (fun x => (x.1, unitMap u x.2))) = unitCfg u (cappedCfg c ls) := by
  cases ls <;> rfl

theorem sizeCore_unit (hu : 0 < u) {M M' : SizingMethods K} (hM : FollowsUnit u M M') (c : SysCfg K)
    (ls : Option (List String × ControlMap K)) (cmap : Option (ControlMap K)) (slope fract : K) :
    sizeCore M' (unitCfg u c) (unitBuilding u b) (ls.map (fun x => (x.1, unitMap u x.2))) (cmap.map (unitMap u)) (u * slope) fract =
      (sizeCore M c b ls cmap slope fract).map (fun x => (u * x.1, x.2)) := by
  unfold sizeCore
  rw [requireInlet_unit hu, hM.cap]
  cases requireDesignInlet b with
  | error e => rfl
  | ok inlet =>
    cases M.reqCapacity c b with
    | error e => rfl
    | ok cap =>
      simp only [Except.map, ok_bind, hM.vol, stratFactor_unit hu]
      cases M.runVol c b cap with
      | error e => rfl
      | ok rv =>
        simp only [ok_bind]
        cases stratFactor c cmap slope inlet with
        | error e => rfl
        | ok sf =>
          simp only [ok_bind]
          cases storageVolume rv sf with
          | error e => rfl
          | ok st =>
            simp only [ok_bind]
            cases ls with
            | none => rfl
            | some x =>
              simp only [Option.map_some, hM.capLs, hM.gen, hM.volLs, storageLs_unit hu]
              cases M.reqCapacityLs c x.1 x.2 b slope fract with
              | error e => rfl
              | ok cl =>
                simp only [Except.map, ok_bind]
                cases M.genRateLs c x.1 x.2 b slope fract with
                | error e => rfl
                | ok g =>
                  simp only [ok_bind]
                  cases M.runVolLs c x.1 b g fract with
                  | error e => rfl
                  | ok rl =>
                    simp only [ok_bind]
                    cases storageVolumeLs c rl x.2 slope inlet with
                    | error e => rfl
                    | ok sl =>
                      simp only [ok_bind, pure, Except.pure, mul_max_of_nonneg _ _ hu.le]

theorem warnStep_unit (hu : 0 < u) (c : SysCfg K) (cmap : Option (ControlMap K)) (cap vol : K) :
    warnStep (unitCfg u c) (cmap.map (unitMap u)) (u * cap) vol = warnStep c cmap cap vol := by
  have h : ∀ m : ControlMap K, warnShortCycling (unitCfg u c) (unitMap u m) (u * cap) vol = warnShortCycling c m cap vol := by
    intro m
    have hr : u * cap * 1000 / (rhoCp K * (u * c.storage - u * c.supply)) = cap * 1000 / (rhoCp K * (c.storage - c.supply)) := by
      rw [mul_assoc, show rhoCp K * (u * c.storage - u * c.supply) = u * (rhoCp K * (c.storage - c.supply)) by ring,
        mul_div_mul_left _ _ hu.ne']
    have hd : u * c.storage - u * c.supply ≤ 0 ↔ c.storage - c.supply ≤ 0 := by
      rw [← mul_sub]
      constructor
      · intro q; by_contra r; exact absurd (mul_pos hu (not_le.1 r)) (not_lt.2 q)
      · exact fun q => mul_nonpos_of_nonneg_of_nonpos hu.le q
    simp only [warnShortCycling, unitCfg, hr, hd, unitMap, List.foldlM_map, unitControls]
  rcases cmap with _ | _ | ⟨p, ps⟩
  · rfl
  · rfl
  · exact h (p :: ps)

theorem size_unit (hu : 0 < u) {M M' : SizingMethods K} (hM : FollowsUnit u M M') (db : ShapeFiles K) (s : DhwSys K)
    (sched : Option (List String)) (cmap : Option (ControlMap K)) (slope fract : K) :
    size M' db (unitSys u s) (unitBuilding u b) sched (cmap.map (unitMap u)) (u * slope) fract =
      unitOutcome (unitSys u) u (size M db s b sched cmap slope fract) := by
  have key : ∀ b1 : Building K, sizeCore M' (cappedCfg (unitSys u s).cfg (lsInputs sched (cmap.map (unitMap u)))) (unitBuilding u b1)
      (lsInputs sched (cmap.map (unitMap u))) (cmap.map (unitMap u)) (u * slope) fract =
      (sizeCore M (cappedCfg s.cfg (lsInputs sched cmap)) b1 (lsInputs sched cmap) cmap slope fract).map (fun x => (u * x.1, x.2)) := by
    intro b1
    rw [lsInputs_unit, show (unitSys u s).cfg = unitCfg u s.cfg from rfl, capped_unit, sizeCore_unit hu hM]
  have cfg : cappedCfg (unitSys u s).cfg (lsInputs sched (cmap.map (unitMap u))) =
      unitCfg u (cappedCfg s.cfg (lsInputs sched cmap)) := by
    rw [lsInputs_unit]; exact capped_unit _ _
  have pre : (if (unitBuilding u b).isAnnual then (unitBuilding u b).setToDaily db else .ok (unitBuilding u b)) =
      (if b.isAnnual then b.setToDaily db else .ok b).map (unitBuilding u) := by
    rw [isAnnual_unit]
    split
    · exact toDaily_unit db
    · rfl
  unfold size
  simp only [pre]
  cases (if b.isAnnual then b.setToDaily db else .ok b : Py (Building K)) with
  | error e => rfl
  | ok b1 =>
    simp only [Except.map, key, isAnnual_unit]
    cases sizeCore M (cappedCfg s.cfg (lsInputs sched cmap)) b1 (lsInputs sched cmap) cmap slope fract with
    | error e =>
      simp only [unitOutcome, cfg]
      rfl
    | ok x =>
      obtain ⟨cap, st⟩ := x
      simp only [cfg, warnStep_unit hu]
      cases warnStep (cappedCfg s.cfg (lsInputs sched cmap)) cmap cap st with
      | error e => rfl
      | ok ws =>
        simp only
        split
        · rw [toAnnual_unit]
          cases b1.setToAnnual db <;> rfl
        · rfl

/-- **C147, a primary system.** If every water temperature (supply, storage, the cold water of all months, all control
settings) and the gradient of the tank are multiplied by the same positive number, the capacity is multiplied by it, and the
storage volume, the warnings and the exceptions stay the same. -/
theorem C147_primary (hu : 0 < u) (db : ShapeFiles K) (s : DhwSys K) (sched : Option (List String))
    (cmap : Option (ControlMap K)) (slope fract : K) :
    size baseMethods db (unitSys u s) (unitBuilding u b) sched (cmap.map (unitMap u)) (u * slope) fract =
      unitOutcome (unitSys u) u (size baseMethods db s b sched cmap slope fract) :=
  size_unit hu (base_followsUnit hu) db s sched cmap slope fract

/-- **C147, a single-pass return-to-primary system.** The share of the capacity for the loop is multiplied too. -/
theorem C147_single_pass (hu : 0 < u) (db : ShapeFiles K) (s : SpSys K) (sched : Option (List String))
    (cmap : Option (ControlMap K)) (slope fract : K) :
    SpSys.size db (unitSp u s) (unitBuilding u b) sched (cmap.map (unitMap u)) (u * slope) fract =
      unitOutcome (unitSp u) u (s.size db b sched cmap slope fract) := by
  unfold SpSys.size
  rw [show (unitSp u s).loop = unitLoop u s.loop from rfl, show (unitSp u s).base = unitSys u s.base from rfl,
    size_unit hu (sp_followsUnit hu s.loop)]
  generalize size (spMethods s.loop) db s.base b sched cmap slope fract = r
  obtain ⟨⟨t, b1⟩, w⟩ := r
  cases w with
  | error e => rfl
  | ok w =>
    simp only [unitOutcome, show (unitSys u t).cfg = unitCfg u t.cfg from rfl, rtpRecircCap_unit]
    cases rtpRecircCap t.cfg s.loop <;> rfl

/-- **C147, a parallel loop.** The capacity of the loop heater is multiplied too; the volume of the loop tank is the same. -/
theorem C147_parallel (hu : 0 < u) (db : ShapeFiles K) (s : ParSys K) (sched : Option (List String))
    (cmap : Option (ControlMap K)) (slope fract : K) :
    ParSys.size baseMethods db (unitPar u s) (unitBuilding u b) sched (cmap.map (unitMap u)) (u * slope) fract =
      unitOutcome (unitPar u) u (s.size baseMethods db b sched cmap slope fract) := by
  have hv : validateTm (unitTm u s.tm) = validateTm s.tm := by
    unfold validateTm
    by_cases h : s.tm.off ≤ s.tm.on
    · have h' : (unitTm u s.tm).off ≤ (unitTm u s.tm).on := mul_le_mul_of_nonneg_left h hu.le
      simp only [if_pos h, if_pos h']; rfl
    · have h' : ¬ (unitTm u s.tm).off ≤ (unitTm u s.tm).on := fun q => h (le_of_mul_le_mul_left q hu)
      simp only [if_neg h, if_neg h']; rfl
  have ht : ∀ x, sizeTm (u * x) (unitTm u s.tm) = (sizeTm x s.tm).map (fun y => (y.1, u * y.2)) := by
    intro x
    simp only [sizeTm, unitTm, recircLossKbtuh, ← mul_sub]
    by_cases h : s.tm.off - s.tm.on = 0
    · simp [fdiv, h, error_bind, Except.map]
    · rw [fdiv_ok _ (mul_ne_zero hu.ne' h), fdiv_ok _ h]
      simp only [ok_bind, pure, Except.pure, Except.map, Except.ok.injEq, Prod.mk.injEq]
      have hu' := hu.ne'
      constructor
      · field_simp
      · ring
  unfold ParSys.size
  rw [show (unitPar u s).tm = unitTm u s.tm from rfl, show (unitPar u s).base = unitSys u s.base from rfl, hv,
    size_unit hu (base_followsUnit hu)]
  cases validateTm s.tm with
  | error e => rfl
  | ok v =>
    generalize size baseMethods db s.base b sched cmap slope fract = r
    obtain ⟨⟨t, b1⟩, w⟩ := r
    cases w with
    | error e => rfl
    | ok w =>
      simp only [unitOutcome, show (unitSys u t).cfg.supply = u * t.cfg.supply from rfl, ht]
      cases sizeTm t.cfg.supply s.tm with
      | error e => rfl
      | ok x => rfl

/-- **C147, a tankless system.** -/
theorem C147_tankless (hu : 0 < u) (s : Instant K) :
    Instant.size ⟨u * s.supply, u * s.storage, s.defrost⟩ (unitBuilding u b) = (s.size b).map (u * ·) := by
  unfold Instant.size
  rw [requireInlet_unit hu]
  cases requireDesignInlet b with
  | error e => rfl
  | ok inlet =>
    simp only [Except.map, ok_bind, show (unitBuilding u b).peakShape = b.peakShape from rfl,
      show (unitBuilding u b).dailyGal = b.dailyGal from rfl]
    cases b.peakShape.max? with
    | none => rfl
    | some m =>
      simp only
      rw [show b.dailyGal * m * 60 * rhoCp K * (u * s.supply - u * inlet) =
        u * (b.dailyGal * m * 60 * rhoCp K * (s.supply - inlet)) by ring, fdiv_scale]
      cases fdiv (b.dailyGal * m * 60 * rhoCp K * (s.supply - inlet)) s.defrost with
      | error e => rfl
      | ok x => simp only [Except.map, ok_bind, pure, Except.pure, mul_div_assoc]

/-! ### Sizing curves -/

theorem curvePoint_unit (_hu : 0 < u) {M M' : SizingMethods K} (hM : FollowsUnit u M M') (factor : K) (c : SysCfg K) :
    curvePoint M' (unitCfg u c) (unitBuilding u b) factor =
      (curvePoint M c b factor).map (Option.map (fun p => (p.1, u * p.2.1, p.2.2))) := by
  unfold curvePoint
  simp only [hM.cap]
  cases M.reqCapacity c b with
  | error e => cases e <;> rfl
  | ok cap =>
    simp only [Except.map, ok_bind, hM.vol]
    cases M.runVol c b cap with
    | error e => cases e <;> rfl
    | ok rv =>
      simp only [ok_bind]
      by_cases h : rv = 0
      · simp only [if_pos h]; rfl
      · simp only [if_neg h]
        cases storageVolume rv factor with
        | error e => cases e <;> rfl
        | ok st => rfl

theorem sweep_unit (hu : 0 < u) {M M' : SizingMethods K} (hM : FollowsUnit u M M') (factor : K) (hs : List K) (c : SysCfg K) :
    sweep M' (unitBuilding u b) factor (unitCfg u c) hs =
      (unitCfg u (sweep M b factor c hs).1, (sweep M b factor c hs).2.map (List.map (fun p => (p.1, u * p.2.1, p.2.2)))) := by
  induction hs generalizing c with
  | nil => rfl
  | cons x xs ih =>
    have hp := curvePoint_unit (b := b) hu hM factor { c with maxRunHr := x }
    simp only [sweep]
    rw [show ({ unitCfg u c with maxRunHr := x } : SysCfg K) = unitCfg u { c with maxRunHr := x } from rfl, hp]
    cases curvePoint M { c with maxRunHr := x } b factor with
    | error e => rfl
    | ok o =>
      cases o with
      | none => rfl
      | some q =>
        simp only [Except.map, Option.map_some]
        rw [ih]
        simp only [Prod.mk.injEq, true_and]
        cases (sweep M b factor { c with maxRunHr := x } xs).2 <;> rfl

theorem curveSetup_unit [FloorRing K] (hu : 0 < u) (s : DhwSys K) (slope step : K) :
    curveSetup (unitSys u s) (unitBuilding u b) (u * slope) step = curveSetup s b slope step := by
  unfold curveSetup
  rw [requireInlet_unit hu]
  cases requireDesignInlet b with
  | error e => rfl
  | ok inlet =>
    simp only [Except.map, ok_bind, unitSys, stratFactor_unit hu]
    rfl

theorem curve_unit [FloorRing K] (hu : 0 < u) {M M' : SizingMethods K} (hM : FollowsUnit u M M') (db : ShapeFiles K) (s : DhwSys K)
    (slope step : K) :
    getSizingCurve M' db (unitSys u s) (unitBuilding u b) (u * slope) step =
      (unitOutcome (unitSys u) u (getSizingCurve M db s b slope step)).map id (Except.map (unitCurve u)) := by
  have body : ∀ (b : Building K) sl, sizingCurveBody M' (unitSys u s) (unitBuilding u b) (u * sl) step =
      (unitSys u (sizingCurveBody M s b sl step).1, (sizingCurveBody M s b sl step).2.map (unitCurve u)) := by
    intro b sl
    unfold sizingCurveBody
    rw [curveSetup_unit hu]
    cases curveSetup s b sl step with
    | error e => rfl
    | ok x =>
      obtain ⟨factor, a1, a2⟩ := x
      simp only [show (unitSys u s).cfg = unitCfg u s.cfg from rfl, sweep_unit hu hM]
      cases (sweep M b factor s.cfg (a1 ++ a2)).2 with
      | error e => rfl
      | ok pts => simp only [Except.map, unitCurve, List.length_map]; rfl
  have pre : (if (unitBuilding u b).isAnnual then (unitBuilding u b).setToDaily db else .ok (unitBuilding u b)) =
      (if b.isAnnual then b.setToDaily db else .ok b).map (unitBuilding u) := by
    rw [isAnnual_unit]
    split
    · exact toDaily_unit db
    · rfl
  have hsl : (unitSys u s).sizingSlope.getD (u * slope) = u * s.sizingSlope.getD slope := by
    show (s.sizingSlope.map (u * ·)).getD (u * slope) = _
    cases s.sizingSlope <;> rfl
  unfold getSizingCurve
  simp only [pre]
  cases (if b.isAnnual then b.setToDaily db else .ok b : Py (Building K)) with
  | error e => rfl
  | ok b1 =>
    simp only [Except.map, hsl, body, isAnnual_unit]
    split
    · rw [toAnnual_unit]
      cases b1.setToAnnual db <;> rfl
    · rfl

/-- **C147, the sizing curve** of a primary system: the same run hours and storage volumes, the capacities multiplied, the same
recommended point. -/
theorem C147_primary_curve [FloorRing K] (hu : 0 < u) (db : ShapeFiles K) (s : DhwSys K) (slope step : K) :
    getSizingCurve baseMethods db (unitSys u s) (unitBuilding u b) (u * slope) step =
      (unitOutcome (unitSys u) u (getSizingCurve baseMethods db s b slope step)).map id (Except.map (unitCurve u)) :=
  curve_unit hu (base_followsUnit hu) db s slope step

/-- **C147, the sizing curve** of a single-pass return-to-primary system. -/
theorem C147_single_pass_curve [FloorRing K] (hu : 0 < u) (db : ShapeFiles K) (l : RtpLoop K) (s : DhwSys K) (slope step : K) :
    getSizingCurve (spMethods (unitLoop u l)) db (unitSys u s) (unitBuilding u b) (u * slope) step =
      (unitOutcome (unitSys u) u (getSizingCurve (spMethods l) db s b slope step)).map id (Except.map (unitCurve u)) :=
  curve_unit hu (sp_followsUnit hu l) db s slope step

/-! ### Load-shift sizing curves -/

theorem mapM_stretch {α β : Type} (l : List α) (f : α → Py β) (g : α → Py β) (k : β → β) (h : ∀ x, g x = (f x).map k) :
    l.mapM g = (l.mapM f).map (List.map k) := by
  induction l with
  | nil => rfl
  | cons x xs ih =>
    simp only [List.mapM_cons, ih, h x]
    cases f x with
    | error e => rfl
    | ok y =>
      simp only [Except.map, ok_bind]
      cases List.mapM f xs <;> rfl

theorem lsPoint_unit (hu : 0 < u) {M M' : SizingMethods K} (hM : FollowsUnit u M M') (c : SysCfg K) (sched : List String)
    (m : ControlMap K) (slope inlet capN stN : K) (fractOf : K → Py K) (pct : K) :
    lsCurvePoint M' (unitCfg u c) (unitBuilding u b) sched (unitMap u m) (u * slope) (u * inlet) (u * capN) stN fractOf pct =
      (lsCurvePoint M c b sched m slope inlet capN stN fractOf pct).map (fun p => (p.1, u * p.2.1, p.2.2)) := by
  unfold lsCurvePoint
  cases fractOf pct with
  | error e => rfl
  | ok fract =>
    simp only [ok_bind, hM.capLs, hM.gen, hM.volLs, storageLs_unit hu]
    cases M.reqCapacityLs c sched m b slope fract with
    | error e => rfl
    | ok cl =>
      simp only [Except.map, ok_bind]
      cases M.genRateLs c sched m b slope fract with
      | error e => rfl
      | ok g =>
        simp only [ok_bind]
        cases M.runVolLs c sched b g fract with
        | error e => rfl
        | ok rl =>
          simp only [ok_bind]
          cases storageVolumeLs c rl m slope inlet with
          | error e => rfl
          | ok sl => simp only [ok_bind, pure, Except.pure, mul_max_of_nonneg _ _ hu.le]

theorem lsBody_unit [FloorRing K] (hu : 0 < u) {M M' : SizingMethods K} (hM : FollowsUnit u M M') (c : SysCfg K) (sched : List String)
    (m : ControlMap K) (slope : K) (fractOf : K → Py K) (pct : K) :
    lsCurveBody M' (unitCfg u c) (unitBuilding u b) sched (unitMap u m) (u * slope) fractOf pct =
      (lsCurveBody M c b sched m slope fractOf pct).map (unitCurve u) := by
  unfold lsCurveBody
  rw [requireInlet_unit hu, hM.cap]
  cases requireDesignInlet b with
  | error e => rfl
  | ok inlet =>
    cases M.reqCapacity c b with
    | error e => rfl
    | ok cap =>
      simp only [Except.map, ok_bind, hM.vol, show some (unitMap u m) = (some m).map (unitMap u) from rfl, stratFactor_unit hu]
      cases M.runVol c b cap with
      | error e => rfl
      | ok rv =>
        simp only [ok_bind]
        cases stratFactor c (some m) slope inlet with
        | error e => rfl
        | ok sf =>
          simp only [ok_bind]
          cases storageVolume rv sf with
          | error e => rfl
          | ok st =>
            simp only [ok_bind]
            rw [mapM_stretch lsPercents (lsCurvePoint M c b sched m slope inlet cap st fractOf) _ _
              (lsPoint_unit hu hM c sched m slope inlet cap st fractOf)]
            cases List.mapM (lsCurvePoint M c b sched m slope inlet cap st fractOf) lsPercents <;> rfl

theorem lsCurve_unit [FloorRing K] (hu : 0 < u) {M M' : SizingMethods K} (hM : FollowsUnit u M M') (db : ShapeFiles K) (s : DhwSys K)
    (sched : List String) (m : ControlMap K) (slope : K) (fractOf : K → Py K) (pct : K) :
    getLsSizingCurve M' db (unitSys u s) (unitBuilding u b) sched (unitMap u m) (u * slope) fractOf pct =
      (unitOutcome (unitSys u) u (getLsSizingCurve M db s b sched m slope fractOf pct)).map id (Except.map (unitCurve u)) := by
  have pre : (if (unitBuilding u b).isAnnual then (unitBuilding u b).setToDaily db else .ok (unitBuilding u b)) =
      (if b.isAnnual then b.setToDaily db else .ok b).map (unitBuilding u) := by
    rw [isAnnual_unit]
    split
    · exact toDaily_unit db
    · rfl
  have hsl : (s.sizingSlope.map (u * ·)).getD (u * slope) = u * s.sizingSlope.getD slope := by
    cases s.sizingSlope <;> rfl
  unfold getLsSizingCurve
  rw [dictHas_unit]
  split
  · rfl
  simp only [pre]
  cases (if b.isAnnual then b.setToDaily db else .ok b : Py (Building K)) with
  | error e => rfl
  | ok b1 =>
    have body := lsBody_unit (b := b1) hu hM { s.cfg with maxRunHr := min s.cfg.maxRunHr (nonShed sched : K) } sched m
      (s.sizingSlope.getD slope) fractOf pct
    simp only [show (unitSys u s).sizingSlope = s.sizingSlope.map (u * ·) from rfl,
      show ({ (unitSys u s).cfg with maxRunHr := min (unitSys u s).cfg.maxRunHr (nonShed sched : K) } : SysCfg K) =
        unitCfg u { s.cfg with maxRunHr := min s.cfg.maxRunHr (nonShed sched : K) } from rfl]
    simp only [Except.map, isAnnual_unit, hsl, body]
    split
    · rw [toAnnual_unit]
      cases b1.setToAnnual db <;> rfl
    · rfl

/-- **C147, the load-shift sizing curve** of a primary system: the same percentiles and storage volumes, the capacities multiplied,
the same recommended point. -/
theorem C147_primary_shift_curve [FloorRing K] (hu : 0 < u) (db : ShapeFiles K) (s : DhwSys K) (sched : List String)
    (m : ControlMap K) (slope : K) (fractOf : K → Py K) (pct : K) :
    getLsSizingCurve baseMethods db (unitSys u s) (unitBuilding u b) sched (unitMap u m) (u * slope) fractOf pct =
      (unitOutcome (unitSys u) u (getLsSizingCurve baseMethods db s b sched m slope fractOf pct)).map id (Except.map (unitCurve u)) :=
  lsCurve_unit hu (base_followsUnit hu) db s sched m slope fractOf pct

/-- **C147, the load-shift sizing curve** of a single-pass return-to-primary system. -/
theorem C147_single_pass_shift_curve [FloorRing K] (hu : 0 < u) (db : ShapeFiles K) (l : RtpLoop K) (s : DhwSys K)
    (sched : List String) (m : ControlMap K) (slope : K) (fractOf : K → Py K) (pct : K) :
    getLsSizingCurve (spMethods (unitLoop u l)) db (unitSys u s) (unitBuilding u b) sched (unitMap u m) (u * slope) fractOf pct =
      (unitOutcome (unitSys u) u (getLsSizingCurve (spMethods l) db s b sched m slope fractOf pct)).map id (Except.map (unitCurve u)) :=
  lsCurve_unit hu (sp_followsUnit hu l) db s sched m slope fractOf pct

/-! ### Multi-pass -/

theorem avgHot_unit (hu : 0 < u) (c : SysCfg K) (on t slope : K) :
    avgHotAtTrigger (unitCfg u c) on (u * t) (u * slope) = (avgHotAtTrigger c on t slope).map (u * ·) := by
  unfold avgHotAtTrigger
  simp only [unitCfg, ← mul_sub, fdiv_times hu.ne']
  cases h1 : fdiv (c.supply - t) slope with
  | error e => rfl
  | ok a =>
    cases h2 : fdiv (c.storage - t) slope with
    | error e => rfl
    | ok q =>
      simp only [ok_bind]
      by_cases h3 : 100 ≤ on * 100 + a
      · rw [if_pos h3, if_pos h3]; rfl
      · rw [if_neg h3, if_neg h3]
        by_cases h4 : min 100 (on * 100 + q) - max 0 (on * 100 + a) + max 0 (100 - (on * 100 + q)) ≤ 0
        · rw [if_pos h4, if_pos h4]; rfl
        · rw [if_neg h4, if_neg h4]
          have ht : (if 100 < on * 100 + q then u * t + (100 - on * 100) * (u * slope) else u * c.storage) =
              u * (if 100 < on * 100 + q then t + (100 - on * 100) * slope else c.storage) := by
            split <;> ring
          have hb : (if on * 100 + a < 0 then u * t - on * 100 * (u * slope) else u * c.supply) =
              u * (if on * 100 + a < 0 then t - on * 100 * slope else c.supply) := by
            split <;> ring
          rw [ht, hb]
          generalize (if 100 < on * 100 + q then t + (100 - on * 100) * slope else c.storage) = top
          generalize (if on * 100 + a < 0 then t - on * 100 * slope else c.supply) = bot
          simp only [pure_eq_ok, Except.map, Except.ok.injEq]
          ring

theorem mapM_times {α : Type} (m : List α) (f g : α → Py K) (h : ∀ x, g x = (f x).map (u * ·)) :
    m.mapM g = (m.mapM f).map (List.map (u * ·)) := by
  induction m with
  | nil => rfl
  | cons x xs ih =>
    simp only [List.mapM_cons, ih, h x]
    cases f x with
    | error e => rfl
    | ok y =>
      simp only [Except.map, ok_bind]
      cases List.mapM f xs <;> rfl

theorem mpAvg_unit (hu : 0 < u) (c : SysCfg K) (cmap : Option (ControlMap K)) (slope : K) :
    mpAvgOutlet (unitCfg u c) (cmap.map (unitMap u)) (u * slope) = (mpAvgOutlet c cmap slope).map (u * ·) := by
  cases cmap with
  | none => rfl
  | some m =>
    simp only [mpAvgOutlet, Option.map_some, unitMap, List.mapM_map]
    have h : m.mapM ((fun p : String × Controls K => avgHotAtTrigger (unitCfg u c) p.2.onFract p.2.onTrig (u * slope)) ∘
        fun p => (p.1, unitControls u p.2)) = _ :=
      mapM_times (u := u) m (fun p => avgHotAtTrigger c p.2.onFract p.2.onTrig slope) _ (fun p => avgHot_unit hu c _ _ slope)
    rw [h]
    cases m.mapM (fun p => avgHotAtTrigger c p.2.onFract p.2.onTrig slope) with
    | error e => rfl
    | ok vs =>
      simp only [Except.map, ok_bind, min?_mul hu]
      cases vs.min? <;> rfl

theorem valve_unit (hu : 0 < u) (load flow cold supply ret storage : K) :
    mixingValve load flow (u * cold) (u * supply) (u * ret) (u * storage) =
      (mixingValve load flow cold supply ret storage).map (fun r => (r.1, u * r.2)) := by
  unfold mixingValve
  simp only [← mul_sub]
  rw [show flow * rhoCp K * (u * (supply - ret)) = u * (flow * rhoCp K * (supply - ret)) by ring,
    show rhoCp K * (u * (storage - supply)) = u * (rhoCp K * (storage - supply)) by ring]
  simp only [fdiv_times hu.ne']
  cases fdiv (flow * rhoCp K * (supply - ret)) (rhoCp K * (storage - supply)) with
  | error e => rfl
  | ok cr =>
    simp only [ok_bind]
    split
    · cases fdiv (supply - cold) (storage - cold) with
      | error e => rfl
      | ok x =>
        simp only [ok_bind]
        cases fdiv (supply - ret) (storage - cold) <;> rfl
    · cases fdiv (supply - ret) (storage - ret) with
      | error e => rfl
      | ok x =>
        simp only [ok_bind]
        generalize (load + flow) * x = y
        rw [show load * (u * cold) + (y - load) * (u * ret) = u * (load * cold + (y - load) * ret) by ring, fdiv_scale]
        cases fdiv (load * cold + (y - load) * ret) y <;> rfl

/-- A sizing slug stretched. -/
def unitSlug (u : K) (s : SizingSlug K) : SizingSlug K := ⟨s.vol, u * s.temp⟩

theorem slugMinute_unit (hu : 0 < u) (heat cold storage : K) (s : SizingSlug K) (draw inlet : K) :
    slugMinute (u * heat) (u * cold) (u * storage) (unitSlug u s) draw (u * inlet) =
      unitSlug u (slugMinute heat cold storage s draw inlet) := by
  unfold slugMinute
  have e1 : (if 0 < draw then if (unitSlug u s).vol ≤ 0 then (⟨draw, u * inlet⟩ : SizingSlug K)
      else ⟨(unitSlug u s).vol + draw, ((unitSlug u s).vol * (unitSlug u s).temp + draw * (u * inlet)) /
        ((unitSlug u s).vol + draw)⟩ else unitSlug u s) =
      unitSlug u (if 0 < draw then if s.vol ≤ 0 then (⟨draw, inlet⟩ : SizingSlug K)
        else ⟨s.vol + draw, (s.vol * s.temp + draw * inlet) / (s.vol + draw)⟩ else s) := by
    by_cases h1 : 0 < draw
    · by_cases h2 : s.vol ≤ 0
      · rw [if_pos h1, if_pos h1, if_pos (show (unitSlug u s).vol ≤ 0 from h2), if_pos h2]; rfl
      · rw [if_pos h1, if_pos h1, if_neg (show ¬ (unitSlug u s).vol ≤ 0 from h2), if_neg h2]
        simp only [unitSlug, SizingSlug.mk.injEq, true_and]
        ring
    · rw [if_neg h1, if_neg h1]
  simp only [e1]
  generalize (if 0 < draw then if s.vol ≤ 0 then (⟨draw, inlet⟩ : SizingSlug K)
        else ⟨s.vol + draw, (s.vol * s.temp + draw * inlet) / (s.vol + draw)⟩ else s) = s1
  have e2 : (if 0 < (unitSlug u s1).vol then
      { unitSlug u s1 with temp := (unitSlug u s1).temp + u * heat * 1000 / ((unitSlug u s1).vol * rhoCp K) } else unitSlug u s1) =
      unitSlug u (if 0 < s1.vol then { s1 with temp := s1.temp + heat * 1000 / (s1.vol * rhoCp K) } else s1) := by
    by_cases h1 : 0 < s1.vol
    · rw [if_pos h1, if_pos (show 0 < (unitSlug u s1).vol from h1)]
      simp only [unitSlug, SizingSlug.mk.injEq, true_and]
      ring
    · rw [if_neg h1, if_neg (show ¬ 0 < (unitSlug u s1).vol from h1)]
  simp only [e2]
  generalize (if 0 < s1.vol then { s1 with temp := s1.temp + heat * 1000 / (s1.vol * rhoCp K) } else s1) = s2
  by_cases h : 0 < s2.vol ∧ storage ≤ s2.temp
  · rw [if_pos h, if_pos (show 0 < (unitSlug u s2).vol ∧ u * storage ≤ (unitSlug u s2).temp from
      ⟨h.1, mul_le_mul_of_nonneg_left h.2 hu.le⟩)]
    rfl
  · rw [if_neg h, if_neg (show ¬ (0 < (unitSlug u s2).vol ∧ u * storage ≤ (unitSlug u s2).temp) from
      fun q => h ⟨q.1, le_of_mul_le_mul_left q.2 hu⟩)]

theorem slugLoop_unit (hu : 0 < u) (c : SysCfg K) (l : RtpLoop K) (avg cold heat : K) (n t : Nat) (s : SizingSlug K) (m : K) :
    slugLoop (unitCfg u c) (unitLoop u l) (u * avg) (u * cold) (u * heat) (unitBuilding u b) n t (unitSlug u s) m =
      slugLoop c l avg cold heat b n t s m := by
  induction n generalizing t s m with
  | zero => rfl
  | succ n ih =>
    have hv : sizingValve (unitCfg u c) (unitLoop u l) (u * avg) (u * cold) (unitBuilding u b) t =
        (sizingValve c l avg cold b t).map (fun r => (r.1, u * r.2)) := by
      unfold sizingValve
      rw [show (unitBuilding u b).getDhwLoad t 1 = b.getDhwLoad t 1 from rfl]
      cases b.getDhwLoad t 1 with
      | error e => rfl
      | ok x => exact valve_unit hu ..
    unfold slugLoop
    rw [hv]
    cases sizingValve c l avg cold b t with
    | error e => rfl
    | ok r =>
      simp only [Except.map, ok_bind]
      rw [show (unitCfg u c).storage = u * c.storage from rfl, slugMinute_unit hu, ih]
      rfl

theorem slugRun_unit (hu : 0 < u) (c : SysCfg K) (l : RtpLoop K) (avg cap : K) (n : Nat) :
    (requireDesignInlet (unitBuilding u b) >>= fun cold => slugLoop (unitCfg u c) (unitLoop u l) (u * avg) cold (u * cap * 1 / 60)
      (unitBuilding u b) n 0 ⟨0, cold⟩ 0) =
    requireDesignInlet b >>= fun cold => slugLoop c l avg cold (cap * 1 / 60) b n 0 ⟨0, cold⟩ 0 := by
  rw [requireInlet_unit hu, show u * cap * 1 / 60 = u * (cap * 1 / 60) by ring]
  cases requireDesignInlet b with
  | error e => rfl
  | ok inlet => exact slugLoop_unit hu c l avg inlet (cap * 1 / 60) n 0 ⟨0, inlet⟩ 0

theorem mpRunVol_unit (hu : 0 < u) (c : SysCfg K) (l : RtpLoop K) (avg cap : K) :
    mpRunVol (unitCfg u c) (unitLoop u l) (u * avg) (unitBuilding u b) (u * cap) = mpRunVol c l avg b cap :=
  slugRun_unit hu c l avg cap 2880

theorem mpCalc_unit (hu : 0 < u) (c : SysCfg K) (l : RtpLoop K) (avg : K) (cmap : Option (ControlMap K)) (slope : K) :
    mpCalc (unitCfg u c) (unitLoop u l) (u * avg) (unitBuilding u b) (cmap.map (unitMap u)) (u * slope) =
      (mpCalc c l avg b cmap slope).map (fun x => (u * x.1, x.2)) := by
  unfold mpCalc
  rw [rtpCapacity_unit hu, requireInlet_unit hu]
  cases rtpRequiredCapacity l c b with
  | error e => rfl
  | ok cap =>
    simp only [Except.map, ok_bind, mpRunVol_unit hu]
    cases mpRunVol c l avg b cap with
    | error e => rfl
    | ok rv =>
      cases requireDesignInlet b with
      | error e => rfl
      | ok inlet =>
        simp only [ok_bind, stratFactor_unit hu]
        cases stratFactor c cmap slope inlet with
        | error e => rfl
        | ok sf =>
          simp only [ok_bind]
          cases storageVolume rv sf <;> rfl

theorem mpBody_unit (hu : 0 < u) (s : MpSys K) (cmap : Option (ControlMap K)) (slope : K) :
    mpSizeBody (unitMp u s) (unitBuilding u b) (cmap.map (unitMap u)) (u * slope) =
      (unitMp u (mpSizeBody s b cmap slope).1, (mpSizeBody s b cmap slope).2) := by
  unfold mpSizeBody
  rw [show (unitMp u s).base.cfg = unitCfg u s.base.cfg from rfl, mpAvg_unit hu]
  cases mpAvgOutlet s.base.cfg cmap slope with
  | error e => rfl
  | ok avg =>
    simp only [Except.map]
    rw [show (unitMp u s).loop = unitLoop u s.loop from rfl, show (unitMp u s).base.cfg = unitCfg u s.base.cfg from rfl,
      mpCalc_unit hu]
    cases mpCalc s.base.cfg s.loop avg b cmap slope <;> rfl

theorem isLoadShifting_unit (cmap : Option (ControlMap K)) : isLoadShifting (cmap.map (unitMap u)) = isLoadShifting cmap := by
  cases cmap with
  | none => rfl
  | some m =>
    simp only [isLoadShifting, Option.map_some, dictHas_unit]

/-- **C147, a multi-pass return-to-primary system.** The stored mean outlet temperature is multiplied too. -/
theorem C147_multi_pass (hu : 0 < u) (db : ShapeFiles K) (s : MpSys K) (cmap : Option (ControlMap K)) (slope : K) :
    MpSys.size db (unitMp u s) (unitBuilding u b) (cmap.map (unitMap u)) (u * slope) =
      unitOutcome (unitMp u) u (s.size db b cmap slope) := by
  have pre : (if (unitBuilding u b).isAnnual then (unitBuilding u b).setToDaily db else .ok (unitBuilding u b)) =
      (if b.isAnnual then b.setToDaily db else .ok b).map (unitBuilding u) := by
    rw [isAnnual_unit]
    split
    · exact toDaily_unit db
    · rfl
  unfold MpSys.size
  rw [isLoadShifting_unit]
  split
  · rfl
  · simp only [pre]
    cases (if b.isAnnual then b.setToDaily db else .ok b : Py (Building K)) with
    | error e => rfl
    | ok b1 =>
      simp only [Except.map, mpBody_unit hu, isAnnual_unit]
      split
      · rw [toAnnual_unit]
        cases b1.setToAnnual db <;> rfl
      · rfl

end

/-- **C147 is false of swing tanks.** A swing-tank system that is sized with the temperatures as they are cannot be sized at all
when they are a hundred times larger: the volume of the swing tank is read from a table by the heat lost in the loop. -/
theorem C147_swing_fails : ∃ (s : SwingSys ℚ) (b : Building ℚ) (db : ShapeFiles ℚ) (m : ControlMap ℚ) (s1 : SwingSys ℚ),
    s.size db b none (some m) (28/10) 1 = ((s1, b), .ok ()) ∧
    (SwingSys.size db (unitSwing 100 s) (unitBuilding 100 b) none (some (unitMap 100 m)) (100 * (28/10)) 1).2 = .error .valueError := by
  have htm : sizeSwingTm (K := ℚ) Demo.swing.base.cfg.supply Demo.swing.ret Demo.swing.flow Demo.swing.sf
      (some Demo.building) = .ok (50, 80, 6/5 * recircLossKbtuh 120 110 3) := by decide +kernel
  obtain ⟨s1, h1, -⟩ := C67_size_never_fails (db := Demo.noFiles) (s := Demo.swing) (b := Demo.building)
    (sched := none) (cmap := some Demo.map) (slope := 28/10) (fract := 1) (inlet := 50)
    (factor := 307/392) (by simp [lsInputs, truthySched]) (by decide +kernel) (by decide +kernel)
    (by decide +kernel) (by decide +kernel) (by decide +kernel) (by decide +kernel) htm (by decide +kernel)
    (by decide +kernel) (by decide +kernel) (by decide +kernel) (by decide +kernel) (by decide +kernel)
    (by decide +kernel) (by norm_num)
  exact ⟨Demo.swing, Demo.building, Demo.noFiles, Demo.map, s1, h1, by decide +kernel⟩

/-- The demo building is sized, with load shifting, and the stretched building gets half of the capacity and the same storage. -/
example : ∃ cap st, (size baseMethods Demo.noFiles { cfg := Demo.cfg } Demo.building (some Demo.sched) (some Demo.map) 2 1).1.1.minCap = some cap ∧
    (size baseMethods Demo.noFiles { cfg := Demo.cfg } Demo.building (some Demo.sched) (some Demo.map) 2 1).1.1.minStorage = some st ∧
    0 < cap ∧ 0 < st ∧
    (size baseMethods Demo.noFiles (unitSys (1 / 2) { cfg := Demo.cfg }) (unitBuilding (1 / 2) Demo.building) (some Demo.sched)
      ((some Demo.map).map (unitMap (1 / 2))) ((1 / 2) * 2) 1).1.1.minCap = some (1 / 2 * cap) ∧
    (size baseMethods Demo.noFiles (unitSys (1 / 2) { cfg := Demo.cfg }) (unitBuilding (1 / 2) Demo.building) (some Demo.sched)
      ((some Demo.map).map (unitMap (1 / 2))) ((1 / 2) * 2) 1).1.1.minStorage = some st := by
  have h := C147_primary (u := (1 / 2 : ℚ)) (by norm_num) Demo.noFiles { cfg := Demo.cfg } (some Demo.sched) (some Demo.map) 2 1 (b := Demo.building)
  rw [h]
  have hc : (size baseMethods Demo.noFiles { cfg := Demo.cfg } Demo.building (some Demo.sched) (some Demo.map) 2 1).1.1.minCap.any (0 < ·) = true := by
    decide +kernel
  have hs : (size baseMethods Demo.noFiles { cfg := Demo.cfg } Demo.building (some Demo.sched) (some Demo.map) 2 1).1.1.minStorage.any (0 < ·) = true := by
    decide +kernel
  generalize size baseMethods Demo.noFiles { cfg := Demo.cfg } Demo.building (some Demo.sched) (some Demo.map) 2 1 = r at hc hs
  obtain ⟨⟨⟨_, cap, st, _, _⟩, _⟩, _⟩ := r
  cases cap with
  | none => simp at hc
  | some cap =>
    cases st with
    | none => simp at hs
    | some st => exact ⟨cap, st, rfl, rfl, by simpa using hc, by simpa using hs, rfl, rfl⟩

end Eco
