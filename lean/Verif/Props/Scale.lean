import Verif.Spec.Scale
import Verif.Lemmas.Sizing
import Verif.Lemmas.Windows
import Verif.Props.Larger
import Verif.Props.SwingSize
import Verif.Props.Rtp
import Verif.Props.ParallelLoop
import Verif.Props.MultiPassSim

/-! C128: the size of a system is proportional to the building. -/

namespace Eco
set_option linter.unusedSectionVars false
variable {K : Type} [Field K] [LinearOrder K] [IsStrictOrderedRing K]
open Spec

theorem cumsumFrom_scale (k : K) (l : List K) (a : K) : cumsumFrom (k * a) (l.map (k * ·)) = (cumsumFrom a l).map (k * ·) := by
  induction l generalizing a with
  | nil => rfl
  | cons x l ih => simp only [List.map_cons, cumsumFrom, ← mul_add, ih]

theorem cumsum_scale (k : K) (l : List K) : cumsum (l.map (k * ·)) = (cumsum l).map (k * ·) := by
  have := cumsumFrom_scale k l 0
  rwa [mul_zero] at this

theorem mul_neg_iff_pos {k : K} (hk : 0 < k) (x : K) : k * x < 0 ↔ x < 0 :=
  ⟨fun h => by
    by_contra hx
    exact absurd h (not_lt.2 (mul_nonneg hk.le (not_lt.1 hx))), fun h => mul_neg_of_pos_of_neg hk h⟩

theorem filterNeg_scale {k : K} (hk : 0 < k) (l : List K) :
    (l.map (k * ·)).filter (fun x => decide (x < 0)) = (l.filter (fun x => decide (x < 0))).map (k * ·) := by
  rw [List.filter_map]
  congr 1
  apply List.filter_congr
  intro x _
  simp only [Function.comp_apply, decide_eq_decide]
  exact mul_neg_iff_pos hk _

theorem foldl_min_scale {k : K} (hk : 0 < k) (l : List K) (a : K) :
    (l.map (k * ·)).foldl min (k * a) = k * l.foldl min a := by
  induction l generalizing a with
  | nil => rfl
  | cons x l ih => simp only [List.map_cons, List.foldl_cons, ← mul_min_of_nonneg _ _ hk.le, ih]

theorem min?_scale {k : K} (hk : 0 < k) (l : List K) : (l.map (k * ·)).min? = l.min?.map (k * ·) := by
  cases l with
  | nil => rfl
  | cons x l => simp only [List.map_cons, List.min?_cons', Option.map_some, foldl_min_scale hk]

theorem worstNegative_scale {k : K} (hk : 0 < k) (l : List K) : worstNegative (l.map (k * ·)) = k * worstNegative l := by
  unfold worstNegative
  rw [filterNeg_scale hk, min?_scale hk]
  cases (l.filter (fun x => decide (x < 0))).min? with
  | none => simp
  | some m => simp

theorem getD_scale (k : K) (l : List K) (i : ℕ) : (l.map (k * ·)).getD i 0 = k * l.getD i 0 := by
  simp only [List.getD_eq_getElem?_getD, List.getElem?_map]
  cases l[i]? <;> simp

theorem peakIndices_scale {k : K} (hk : 0 < k) (d : List K) : peakIndices (d.map (k * ·)) = peakIndices d := by
  unfold peakIndices
  simp only [List.length_map, getD_scale]
  apply List.filter_congr
  intro i _
  congr 1 <;> rw [decide_eq_decide]
  · exact mul_nonneg_iff_of_pos_left hk
  · exact mul_neg_iff_pos hk _

theorem runningVolumeOfDiff_scale {k : K} (hk : 0 < k) (d : List K) :
    runningVolumeOfDiff (d.map (k * ·)) = k * runningVolumeOfDiff d := by
  unfold runningVolumeOfDiff
  rw [peakIndices_scale hk]
  have step : ∀ (l : List ℕ) (a : K), l.foldl (fun rv idx =>
        match ((cumsum ((d.map (k * ·) ++ d.map (k * ·)).drop idx)).filter (fun x => decide (x < 0))).min? with
        | none => rv
        | some m => max rv (-m)) (k * a) =
      k * l.foldl (fun rv idx =>
        match ((cumsum ((d ++ d).drop idx)).filter (fun x => decide (x < 0))).min? with
        | none => rv
        | some m => max rv (-m)) a := by
    intro l
    induction l with
    | nil => intro a; rfl
    | cons i l ih =>
      intro a
      simp only [List.foldl_cons]
      rw [← ih]
      congr 1
      rw [← List.map_append, ← List.map_drop, cumsum_scale, filterNeg_scale hk, min?_scale hk]
      cases ((cumsum ((d ++ d).drop i)).filter (fun x => decide (x < 0))).min? with
      | none => rfl
      | some m => simp only [Option.map_some]; rw [mul_max_of_nonneg _ _ hk.le, mul_neg]
  have := step (peakIndices d) 0
  rwa [mul_zero] at this

theorem fdiv_scale (k x y : K) : fdiv (k * x) y = (fdiv x y).map (k * ·) := by
  unfold fdiv
  split
  · rfl
  · simp only [Except.map, mul_div_assoc]

theorem hourlyDiff_scale (k gen daily : K) (shape : List K) :
    hourlyDiff (k * gen) (k * daily) shape = (hourlyDiff gen daily shape).map (k * ·) := by
  unfold hourlyDiff
  rw [List.map_map]
  apply List.map_congr_left
  intro f _
  simp only [Function.comp_apply]
  ring

theorem runningVolume_scale {k : K} (hk : 0 < k) (daily r : K) (shape : List K) :
    runningVolume (k * daily) r shape = (runningVolume daily r shape).map (k * ·) := by
  unfold runningVolume
  rw [fdiv_scale]
  cases fdiv daily r with
  | error e => rfl
  | ok g =>
    simp only [Except.map, ok_bind, pure_eq_ok]
    rw [hourlyDiff_scale, runningVolumeOfDiff_scale hk]

theorem requireDesignInlet_times (k : K) (b : Building K) : requireDesignInlet (times k b) = requireDesignInlet b := rfl

theorem capacityOfGenRate_scale (k : K) (c : SysCfg K) (gen inlet : K) :
    capacityOfGenRate c (k * gen) inlet = (capacityOfGenRate c gen inlet).map (k * ·) := by
  unfold capacityOfGenRate
  rw [show k * gen * rhoCp K * (c.supply - inlet) = k * (gen * rhoCp K * (c.supply - inlet)) by ring, fdiv_scale]
  cases fdiv (gen * rhoCp K * (c.supply - inlet)) c.defrost with
  | error e => rfl
  | ok x => simp only [Except.map, ok_bind, mul_div_assoc]

theorem requiredCapacity_scale (k : K) (c : SysCfg K) (b : Building K) :
    requiredCapacity c (times k b) = (requiredCapacity c b).map (k * ·) := by
  unfold requiredCapacity
  rw [requireDesignInlet_times]
  cases requireDesignInlet b with
  | error e => rfl
  | ok inlet =>
    simp only [ok_bind, times]
    rw [fdiv_scale]
    cases fdiv b.dailyGal c.maxRunHr with
    | error e => rfl
    | ok g => exact capacityOfGenRate_scale k c g inlet

theorem sum_scale (k : K) (l : List K) : k * l.sum = (l.map (k * ·)).sum := by
  induction l with
  | nil => simp
  | cons x l ih => simp only [List.sum_cons, List.map_cons, mul_add, ih]

theorem sumHours_scale (k : K) (shape : List K) (daily : K) (hours : List ℕ) :
    sumHours shape (k * daily) hours = (sumHours shape daily hours).map (k * ·) := by
  unfold sumHours
  cases hours.mapM (fun h => pyGet shape h) with
  | error e => rfl
  | ok vs =>
    simp only [ok_bind, pure_eq_ok, Except.map]
    rw [Except.ok.injEq, sum_scale, List.map_map]
    congr 2
    funext f
    simp only [Function.comp_apply]
    ring

theorem prelimVols_scale (k : K) (sched : List String) (b : Building K) (fract : K) :
    prelimVols sched (times k b) fract = (prelimVols sched b fract).map (fun p => (k * p.1, k * p.2)) := by
  unfold prelimVols
  cases firstShedBlock sched with
  | error e => rfl
  | ok x =>
    obtain ⟨block, lu⟩ := x
    simp only [ok_bind, times]
    rw [sumHours_scale]
    cases sumHours b.avgShape b.dailyGal block with
    | error e => rfl
    | ok v =>
      cases block with
      | nil => rfl
      | cons h0 tl =>
        simp only [Except.map, ok_bind]
        rw [sumHours_scale]
        cases sumHours b.avgShape b.dailyGal (List.range' (h0 - lu) lu) with
        | error e => rfl
        | ok w => simp only [Except.map, ok_bind, pure_eq_ok, mul_assoc]

theorem genRateLs_scale {k : K} (hk : 0 < k) (c : SysCfg K) (sched : List String) (m : ControlMap K) (b : Building K)
    (slope fract : K) : genRateLs c sched m (times k b) slope fract = (genRateLs c sched m b slope fract).map (k * ·) := by
  unfold genRateLs
  rw [prelimVols_scale]
  simp only [times]
  rw [fdiv_scale]
  cases fdiv b.dailyGal c.maxRunHr with
  | error e => rfl
  | ok n =>
    simp only [Except.map, ok_bind]
    cases firstShedBlock sched with
    | error e => rfl
    | ok x =>
      obtain ⟨block, lu⟩ := x
      simp only [ok_bind]
      by_cases hl : lu = 0
      · simp only [if_pos hl]; rfl
      simp only [if_neg hl]
      cases prelimVols sched b fract with
      | error e => rfl
      | ok v =>
        obtain ⟨vs, vc⟩ := v
        simp only [Except.map, ok_bind]
        cases lsControls m with
        | error e => rfl
        | ok cs =>
          obtain ⟨nC, luC, sC⟩ := cs
          simp only [ok_bind]
          cases stratPctOfTank c nC.onFract nC.onTrig slope with
          | error e => rfl
          | ok nP =>
            simp only [ok_bind]
            cases stratPctOfTank c luC.onFract luC.onTrig slope with
            | error e => rfl
            | ok luP =>
              simp only [ok_bind]
              cases stratPctOfTank c sC.onFract sC.onTrig slope with
              | error e => rfl
              | ok sP =>
                simp only [ok_bind]
                by_cases hp : luP - sP ≤ 0
                · simp only [if_pos hp]; rfl
                simp only [if_neg hp, pure_eq_ok, Except.ok.injEq]
                rw [mul_max_of_nonneg _ _ hk.le]
                congr 1
                ring

theorem requiredCapacityLs_scale {k : K} (hk : 0 < k) (c : SysCfg K) (sched : List String) (m : ControlMap K)
    (b : Building K) (slope fract : K) : requiredCapacityLs genRateLs c sched m (times k b) slope fract =
      (requiredCapacityLs genRateLs c sched m b slope fract).map (k * ·) := by
  unfold requiredCapacityLs
  rw [requireDesignInlet_times, genRateLs_scale hk]
  cases requireDesignInlet b with
  | error e => rfl
  | ok inlet =>
    simp only [ok_bind]
    cases genRateLs c sched m b slope fract with
    | error e => rfl
    | ok g => exact capacityOfGenRate_scale k c g inlet

theorem lsDiff_scale (k : K) (sched : List String) (gen daily : K) (shape : List K) :
    lsDiff sched (k * gen) (k * daily) shape = (lsDiff sched gen daily shape).map (k * ·) := by
  unfold lsDiff
  apply List.ext_getElem?
  intro i
  simp only [List.getElem?_map, List.getElem?_mapIdx, Option.map_map]
  congr 1
  funext f
  simp only [Function.comp_apply]
  split <;> ring

theorem runningVolumeLs_scale {k : K} (hk : 0 < k) (sched : List String) (b : Building K) (gen fract : K) :
    runningVolumeLs sched (times k b) (k * gen) fract = (runningVolumeLs sched b gen fract).map (k * ·) := by
  unfold runningVolumeLs
  rw [prelimVols_scale]
  cases firstShedBlock sched with
  | error e => rfl
  | ok x =>
    obtain ⟨block, lu⟩ := x
    simp only [ok_bind]
    cases prelimVols sched b fract with
    | error e => rfl
    | ok v =>
      obtain ⟨vs, vc⟩ := v
      simp only [Except.map, ok_bind, times]
      by_cases hl : b.avgShape.length = 24
      swap
      · simp [hl]
      simp only [hl, ne_eq, not_true_eq_false, if_false]
      cases block.getLast? with
      | none => rfl
      | some e =>
        simp only [pure_eq_ok, Except.ok.injEq]
        rw [lsDiff_scale, ← List.map_append, ← List.map_drop, cumsum_scale, worstNegative_scale hk]
        ring

theorem storageVolume_scale (k rv f : K) : storageVolume (k * rv) f = (storageVolume rv f).map (k * ·) := fdiv_scale k rv f

theorem storageVolumeLs_scale (k : K) (c : SysCfg K) (rv : K) (m : ControlMap K) (slope inlet : K) :
    storageVolumeLs c (k * rv) m slope inlet = (storageVolumeLs c rv m slope inlet).map (k * ·) := by
  unfold storageVolumeLs
  cases lsControls m with
  | error e => rfl
  | ok cs =>
    obtain ⟨nC, luC, sC⟩ := cs
    simp only [ok_bind]
    cases supplyGalPer100 c luC.offFract luC.offTrig slope inlet with
    | error e => rfl
    | ok x =>
      simp only [ok_bind]
      cases supplyGalPer100 c sC.onFract sC.onTrig slope inlet with
      | error e => rfl
      | ok y => exact storageVolume_scale k rv _

/-- The methods `M'` answer for `k` times the hot water use with `k` times the answer of `M`. -/
structure ScaleMethods (k : K) (M M' : SizingMethods K) : Prop where
  cap : ∀ c b, M'.reqCapacity c (times k b) = (M.reqCapacity c b).map (k * ·)
  vol : ∀ c b cap, M'.runVol c (times k b) (k * cap) = (M.runVol c b cap).map (k * ·)
  gen : ∀ c sched m b slope fract, M'.genRateLs c sched m (times k b) slope fract = (M.genRateLs c sched m b slope fract).map (k * ·)
  capLs : ∀ c sched m b slope fract,
    M'.reqCapacityLs c sched m (times k b) slope fract = (M.reqCapacityLs c sched m b slope fract).map (k * ·)
  volLs : ∀ c sched b gen fract, M'.runVolLs c sched (times k b) (k * gen) fract = (M.runVolLs c sched b gen fract).map (k * ·)

theorem scale_base {k : K} (hk : 0 < k) : ScaleMethods k baseMethods baseMethods where
  cap := requiredCapacity_scale k
  vol := fun _ _ _ => runningVolume_scale hk _ _ _
  gen := genRateLs_scale hk
  capLs := requiredCapacityLs_scale hk
  volLs := fun _ _ _ _ _ => runningVolumeLs_scale hk _ _ _ _

theorem sizeCore_scale {k : K} (hk : 0 < k) {M M' : SizingMethods K} (hM : ScaleMethods k M M') (c : SysCfg K) (b : Building K) (ls : Option (List String × ControlMap K))
    (cmap : Option (ControlMap K)) (slope fract : K) : sizeCore M' c (times k b) ls cmap slope fract =
      (sizeCore M c b ls cmap slope fract).map (fun p => (k * p.1, k * p.2)) := by
  unfold sizeCore
  simp only [requireDesignInlet_times, hM.cap]
  cases requireDesignInlet b with
  | error e => rfl
  | ok inlet =>
    simp only [ok_bind]
    cases M.reqCapacity c b with
    | error e => rfl
    | ok cap =>
      simp only [Except.map, ok_bind, hM.vol]
      cases M.runVol c b cap with
      | error e => rfl
      | ok rv =>
        simp only [Except.map, ok_bind]
        cases stratFactor c cmap slope inlet with
        | error e => rfl
        | ok sf =>
          simp only [ok_bind]
          rw [storageVolume_scale]
          cases storageVolume rv sf with
          | error e => rfl
          | ok st =>
            simp only [Except.map, ok_bind]
            cases ls with
            | none => rfl
            | some x =>
              obtain ⟨sched, m⟩ := x
              simp only
              rw [hM.capLs, hM.gen]
              cases M.reqCapacityLs c sched m b slope fract with
              | error e => rfl
              | ok capLs =>
                simp only [Except.map, ok_bind]
                cases M.genRateLs c sched m b slope fract with
                | error e => rfl
                | ok g =>
                  simp only [ok_bind]
                  rw [hM.volLs]
                  cases M.runVolLs c sched b g fract with
                  | error e => rfl
                  | ok rvLs =>
                    simp only [Except.map, ok_bind]
                    rw [storageVolumeLs_scale]
                    cases storageVolumeLs c rvLs m slope inlet with
                    | error e => rfl
                    | ok stLs =>
                      simp only [Except.map, ok_bind, pure_eq_ok]
                      rw [mul_max_of_nonneg _ _ hk.le, mul_max_of_nonneg _ _ hk.le]

theorem setToDaily_times (k : K) (db : ShapeFiles K) (b : Building K) :
    (times k b).setToDaily db = (b.setToDaily db).map (times k) := by
  unfold Building.setToDaily
  simp only [times]
  by_cases hm : b.buildingType = "multi_family"
  swap
  · simp [hm, Except.map]
  simp only [hm, ne_eq, not_true_eq_false, if_false]
  cases loadShapeJson db "multi_family" with
  | error e => rfl
  | ok d =>
    simp only [ok_bind]
    cases d.streamAvg with
    | none => rfl
    | some a => simp [Except.map, hm, times]

theorem setToAnnual_times (k : K) (db : ShapeFiles K) (b : Building K) :
    (times k b).setToAnnual db = (b.setToAnnual db).map (times k) := by
  unfold Building.setToAnnual
  simp only [times]
  by_cases hm : b.buildingType = "multi_family"
  swap
  · simp [hm, Except.map]
  simp only [hm, ne_eq, not_true_eq_false, if_false]
  cases loadShapeJson db "multi_family" with
  | error e => rfl
  | ok d => simp [Except.map, hm, times]

theorem warnShortCycling_scale {k : K} (hk : 0 < k) (c : SysCfg K) (m : ControlMap K) (cap vol : K) :
    warnShortCycling c m (k * cap) (k * vol) = warnShortCycling c m cap vol := by
  unfold warnShortCycling
  by_cases h : c.storage - c.supply ≤ 0
  · simp only [if_pos h]
  simp only [if_neg h]
  congr 1
  funext ws p
  split
  · rfl
  have e1 : (p.2.onFract - p.2.offFract) * (k * vol) = k * ((p.2.onFract - p.2.offFract) * vol) := by ring
  have e2 : k * cap * 1000 / (rhoCp K * (c.storage - c.supply)) = k * (cap * 1000 / (rhoCp K * (c.storage - c.supply))) := by
    ring
  rw [e1, e2]
  have : fdiv (k * ((p.2.onFract - p.2.offFract) * vol)) (k * (cap * 1000 / (rhoCp K * (c.storage - c.supply)))) =
      fdiv ((p.2.onFract - p.2.offFract) * vol) (cap * 1000 / (rhoCp K * (c.storage - c.supply))) := by
    unfold fdiv
    simp only [mul_eq_zero, hk.ne', false_or]
    split
    · rfl
    · rw [mul_div_mul_left _ _ hk.ne']
  rw [this]

theorem warnStep_scale {k : K} (hk : 0 < k) (c : SysCfg K) (cmap : Option (ControlMap K)) (cap vol : K) :
    warnStep c cmap (k * cap) (k * vol) = warnStep c cmap cap vol := by
  unfold warnStep
  split
  · exact warnShortCycling_scale hk _ _ _ _
  · rfl

theorem isAnnual_times (k : K) (b : Building K) : (times k b).isAnnual = b.isAnnual := rfl

/-- `size` after the building has been set to its daily shape. -/
def sizeRest (M : SizingMethods K) (db : ShapeFiles K) (s : DhwSys K) (sched : Option (List String)) (cmap : Option (ControlMap K)) (slope fract : K)
    (annual : Bool) (x : Building K) : (DhwSys K × Building K) × Py Warnings :=
  let ls := lsInputs sched cmap
  let original := s.cfg.maxRunHr
  let s1 : DhwSys K := { s with cfg := cappedCfg s.cfg ls }
  let body : DhwSys K × Py Warnings :=
    match sizeCore M s1.cfg x ls cmap slope fract with
    | .error e => (s1, .error e)
    | .ok (cap, st) =>
      let s2 := { s1 with minCap := some cap, minStorage := some st, sizingSlope := some slope }
      (s2, warnStep s2.cfg cmap cap st)
  let s3 : DhwSys K := { body.1 with cfg := { body.1.cfg with maxRunHr := original } }
  match body.2 with
  | .error e => ((s3, x), .error e)
  | .ok ws =>
    if annual then
      match x.setToAnnual db with
      | .error e => ((s3, x), .error e)
      | .ok b2 => ((s3, b2), .ok ws)
    else ((s3, x), .ok ws)

theorem size_rest (M : SizingMethods K) (db : ShapeFiles K) (s : DhwSys K) (b : Building K) (sched : Option (List String))
    (cmap : Option (ControlMap K)) (slope fract : K) : size M db s b sched cmap slope fract =
      match (if b.isAnnual then b.setToDaily db else .ok b) with
      | .error e => ((s, b), .error e)
      | .ok b1 => sizeRest M db s sched cmap slope fract b.isAnnual b1 := rfl

theorem sizeRest_scale {k : K} (hk : 0 < k) {M M' : SizingMethods K} (hM : ScaleMethods k M M') (db : ShapeFiles K) (s : DhwSys K) (sched : Option (List String))
    (cmap : Option (ControlMap K)) (slope fract : K) (annual : Bool) (b1 : Building K) :
    (sizeRest M' db s sched cmap slope fract annual (times k b1)).2 = (sizeRest M db s sched cmap slope fract annual b1).2 ∧
    (sizeRest M' db s sched cmap slope fract annual (times k b1)).1.2 =
      times k (sizeRest M db s sched cmap slope fract annual b1).1.2 ∧
    ∀ ws, (sizeRest M db s sched cmap slope fract annual b1).2 = .ok ws →
      (sizeRest M' db s sched cmap slope fract annual (times k b1)).1.1 =
        timesSys k (sizeRest M db s sched cmap slope fract annual b1).1.1 := by
  unfold sizeRest
  simp only [sizeCore_scale hk hM, setToAnnual_times]
  cases hc : sizeCore M (cappedCfg s.cfg (lsInputs sched cmap)) b1 (lsInputs sched cmap) cmap slope fract with
  | error e => exact ⟨rfl, rfl, fun ws h => by simp at h⟩
  | ok x =>
    obtain ⟨cap, st⟩ := x
    simp only [Except.map, warnStep_scale hk]
    cases warnStep (cappedCfg s.cfg (lsInputs sched cmap)) cmap cap st with
    | error e => exact ⟨rfl, rfl, fun ws h => by simp at h⟩
    | ok ws =>
      simp only
      cases annual with
      | false => exact ⟨rfl, rfl, fun _ _ => rfl⟩
      | true =>
        simp only [if_true]
        cases b1.setToAnnual db with
        | error e => exact ⟨rfl, rfl, fun ws h => by simp at h⟩
        | ok b2 => exact ⟨rfl, rfl, fun _ _ => rfl⟩

theorem size_scale (k : K) (hk : 0 < k) {M M' : SizingMethods K} (hM : ScaleMethods k M M') (db : ShapeFiles K) (s : DhwSys K) (b : Building K) (sched : Option (List String))
    (cmap : Option (ControlMap K)) (slope fract : K) :
    (size M' db s (times k b) sched cmap slope fract).2 = (size M db s b sched cmap slope fract).2 ∧
    (size M' db s (times k b) sched cmap slope fract).1.2 =
      times k (size M db s b sched cmap slope fract).1.2 ∧
    ∀ ws, (size M db s b sched cmap slope fract).2 = .ok ws →
      (size M' db s (times k b) sched cmap slope fract).1.1 =
        timesSys k (size M db s b sched cmap slope fract).1.1 := by
  rw [size_rest, size_rest, isAnnual_times]
  cases b.isAnnual with
  | false => exact sizeRest_scale hk hM db s sched cmap slope fract false b
  | true =>
    simp only [if_true, setToDaily_times]
    cases b.setToDaily db with
    | error e => exact ⟨rfl, rfl, fun ws h => by simp at h⟩
    | ok b1 => exact sizeRest_scale hk hM db s sched cmap slope fract true b1

/-! ## The curves -/

def timesPoint (k : K) (p : K × K × K) : K × K × K := (p.1, k * p.2.1, k * p.2.2)

theorem curvePoint_scale {k : K} (hk : 0 < k) {M M' : SizingMethods K} (hM : ScaleMethods k M M') (c : SysCfg K) (b : Building K) (factor : K) :
    curvePoint M' c (times k b) factor = (curvePoint M c b factor).map (Option.map (timesPoint k)) := by
  have key : (do
      let cap ← M'.reqCapacity c (times k b)
      let rv ← M'.runVol c (times k b) cap
      if rv = 0 then return none
      else do
        let st ← storageVolume rv factor
        return some (c.maxRunHr, cap, st) : Py (Option (K × K × K))) = (do
      let cap ← M.reqCapacity c b
      let rv ← M.runVol c b cap
      if rv = 0 then return none
      else do
        let st ← storageVolume rv factor
        return some (c.maxRunHr, cap, st) : Py (Option (K × K × K))).map (Option.map (timesPoint k)) := by
    rw [hM.cap]
    cases M.reqCapacity c b with
    | error e => rfl
    | ok cap =>
      simp only [Except.map, ok_bind]
      rw [hM.vol]
      cases M.runVol c b cap with
      | error e => rfl
      | ok rv =>
        simp only [Except.map, ok_bind]
        by_cases h0 : rv = 0
        · simp [h0]
        · have h1 : k * rv ≠ 0 := mul_ne_zero hk.ne' h0
          simp only [if_neg h0, if_neg h1]
          rw [storageVolume_scale]
          cases storageVolume rv factor <;> rfl
  unfold curvePoint
  rw [key]
  generalize (do
      let cap ← M.reqCapacity c b
      let rv ← M.runVol c b cap
      if rv = 0 then return none
      else do
        let st ← storageVolume rv factor
        return some (c.maxRunHr, cap, st) : Py (Option (K × K × K))) = r
  rcases r with e | x
  · cases e <;> rfl
  · rfl

theorem sweep_scale {k : K} (hk : 0 < k) {M M' : SizingMethods K} (hM : ScaleMethods k M M') (b : Building K) (factor : K) (hs : List K) (c : SysCfg K) :
    sweep M' (times k b) factor c hs =
      ((sweep M b factor c hs).1, (sweep M b factor c hs).2.map (List.map (timesPoint k))) := by
  induction hs generalizing c with
  | nil => rfl
  | cons h hs ih =>
    simp only [sweep, curvePoint_scale hk hM]
    cases curvePoint M { c with maxRunHr := h } b factor with
    | error e => rfl
    | ok o =>
      cases o with
      | none => rfl
      | some p =>
        simp only [Except.map, Option.map_some, ih]
        cases (sweep M b factor { c with maxRunHr := h } hs).2 <;> rfl

theorem curveBody_scale [FloorRing K] {k : K} (hk : 0 < k) {M M' : SizingMethods K} (hM : ScaleMethods k M M') (s : DhwSys K) (b : Building K) (slope step : K) :
    sizingCurveBody M' s (times k b) slope step =
      ((sizingCurveBody M s b slope step).1, (sizingCurveBody M s b slope step).2.map (timesCurve k)) := by
  unfold sizingCurveBody
  rw [show curveSetup s (times k b) slope step = curveSetup s b slope step from rfl]
  cases curveSetup s b slope step with
  | error e => rfl
  | ok x =>
    obtain ⟨f, a1, a2⟩ := x
    simp only [sweep_scale hk hM]
    cases (sweep M b f s.cfg (a1 ++ a2)).2 with
    | error e => rfl
    | ok pts => simp [Except.map, timesCurve, timesPoint]

theorem curve_scale [FloorRing K] (k : K) (hk : 0 < k) {M M' : SizingMethods K} (hM : ScaleMethods k M M') (db : ShapeFiles K) (s : DhwSys K) (b : Building K)
    (slope step : K) : getSizingCurve M' db s (times k b) slope step =
      (((getSizingCurve M db s b slope step).1.1, times k (getSizingCurve M db s b slope step).1.2),
        (getSizingCurve M db s b slope step).2.map (timesCurve k)) := by
  unfold getSizingCurve
  rw [isAnnual_times, setToDaily_times]
  cases b.isAnnual with
  | false =>
    simp only [Bool.false_eq_true, if_false, curveBody_scale hk hM]
  | true =>
    simp only [if_true]
    cases b.setToDaily db with
    | error e => rfl
    | ok b1 =>
      simp only [Except.map, curveBody_scale hk hM, setToAnnual_times]
      cases b1.setToAnnual db <;> rfl

theorem lsCurvePoint_scale {k : K} (hk : 0 < k) {M M' : SizingMethods K} (hM : ScaleMethods k M M') (c : SysCfg K) (b : Building K) (sched : List String) (m : ControlMap K)
    (slope inlet capN stN : K) (fractOf : K → Py K) (pct : K) :
    lsCurvePoint M' c (times k b) sched m slope inlet (k * capN) (k * stN) fractOf pct =
      (lsCurvePoint M c b sched m slope inlet capN stN fractOf pct).map (timesPoint k) := by
  unfold lsCurvePoint
  cases fractOf pct with
  | error e => rfl
  | ok fract =>
    simp only [ok_bind]
    rw [hM.capLs, hM.gen]
    cases M.reqCapacityLs c sched m b slope fract with
    | error e => rfl
    | ok capLs =>
      simp only [Except.map, ok_bind]
      cases M.genRateLs c sched m b slope fract with
      | error e => rfl
      | ok g =>
        simp only [ok_bind]
        rw [hM.volLs]
        cases M.runVolLs c sched b g fract with
        | error e => rfl
        | ok rvLs =>
          simp only [Except.map, ok_bind]
          rw [storageVolumeLs_scale]
          cases storageVolumeLs c rvLs m slope inlet with
          | error e => rfl
          | ok stLs =>
            simp only [Except.map, ok_bind, pure_eq_ok, timesPoint]
            rw [mul_max_of_nonneg _ _ hk.le, mul_max_of_nonneg _ _ hk.le]

theorem mapM_map {α β γ : Type} (f : α → Py β) (g : β → γ) (l : List α) :
    l.mapM (fun a => (f a).map g) = (l.mapM f).map (List.map g) := by
  induction l with
  | nil => rfl
  | cons a l ih =>
    rw [List.mapM_cons, List.mapM_cons, ih]
    cases f a with
    | error e => rfl
    | ok x =>
      simp only [Except.map, ok_bind]
      cases l.mapM f <;> rfl

theorem lsCurveBody_scale [FloorRing K] {k : K} (hk : 0 < k) {M M' : SizingMethods K} (hM : ScaleMethods k M M') (c : SysCfg K) (b : Building K) (sched : List String)
    (m : ControlMap K) (slope : K) (fractOf : K → Py K) (pct : K) :
    lsCurveBody M' c (times k b) sched m slope fractOf pct =
      (lsCurveBody M c b sched m slope fractOf pct).map (timesCurve k) := by
  unfold lsCurveBody
  simp only [requireDesignInlet_times]
  cases requireDesignInlet b with
  | error e => rfl
  | ok inlet =>
    simp only [ok_bind]
    rw [hM.cap]
    cases M.reqCapacity c b with
    | error e => rfl
    | ok cap =>
      simp only [Except.map, ok_bind]
      rw [hM.vol]
      cases M.runVol c b cap with
      | error e => rfl
      | ok rv =>
        simp only [Except.map, ok_bind]
        cases stratFactor c (some m) slope inlet with
        | error e => rfl
        | ok sf =>
          simp only [ok_bind]
          rw [storageVolume_scale]
          cases storageVolume rv sf with
          | error e => rfl
          | ok st =>
            simp only [Except.map, ok_bind]
            rw [show lsCurvePoint M' c (times k b) sched m slope inlet (k * cap) (k * st) fractOf =
              fun p => (lsCurvePoint M c b sched m slope inlet cap st fractOf p).map (timesPoint k) from
              funext fun p => lsCurvePoint_scale hk hM c b sched m slope inlet cap st fractOf p, mapM_map]
            cases lsPercents.mapM (lsCurvePoint M c b sched m slope inlet cap st fractOf) <;> rfl

theorem lsCurve_scale [FloorRing K] (k : K) (hk : 0 < k) {M M' : SizingMethods K} (hM : ScaleMethods k M M') (db : ShapeFiles K) (s : DhwSys K) (b : Building K)
    (sched : List String) (m : ControlMap K) (slope : K) (fractOf : K → Py K) (pct : K) :
    getLsSizingCurve M' db s (times k b) sched m slope fractOf pct =
      (((getLsSizingCurve M db s b sched m slope fractOf pct).1.1,
        times k (getLsSizingCurve M db s b sched m slope fractOf pct).1.2),
        (getLsSizingCurve M db s b sched m slope fractOf pct).2.map (timesCurve k)) := by
  unfold getLsSizingCurve
  rw [isAnnual_times, setToDaily_times]
  split
  · rfl
  cases b.isAnnual with
  | false => simp only [Bool.false_eq_true, if_false, lsCurveBody_scale hk hM]
  | true =>
    simp only [if_true]
    cases b.setToDaily db with
    | error e => rfl
    | ok b1 =>
      simp only [Except.map, lsCurveBody_scale hk hM, setToAnnual_times]
      cases b1.setToAnnual db <;> rfl

/-! ## Loops -/

theorem rtpLoss_scale (k : K) (c : SysCfg K) (l : RtpLoop K) : rtpLossKbtuh c (timesLoop k l) = k * rtpLossKbtuh c l := by
  unfold rtpLossKbtuh timesLoop; ring

theorem rtpRecircCap_scale (k : K) (c : SysCfg K) (l : RtpLoop K) :
    rtpRecircCap c (timesLoop k l) = (rtpRecircCap c l).map (k * ·) := by
  unfold rtpRecircCap
  rw [rtpLoss_scale, mul_assoc, fdiv_scale]
  cases fdiv (rtpLossKbtuh c l * 24) c.maxRunHr with
  | error e => rfl
  | ok a => simp only [Except.map, ok_bind]; rw [fdiv_scale]; rfl

theorem add_scale (k : K) (x y : Py K) :
    ((x.map (k * ·)) >>= fun a => (y.map (k * ·)) >>= fun b => (return a + b : Py K)) =
      (x >>= fun a => y >>= fun b => (return a + b : Py K)).map (k * ·) := by
  cases x with
  | error e => rfl
  | ok a =>
    cases y with
    | error e => rfl
    | ok b => simp only [Except.map, ok_bind, pure_eq_ok, mul_add]

theorem rtpRequiredCapacity_scale (k : K) (c : SysCfg K) (l : RtpLoop K) (b : Building K) :
    rtpRequiredCapacity (timesLoop k l) c (times k b) = (rtpRequiredCapacity l c b).map (k * ·) := by
  unfold rtpRequiredCapacity
  rw [requiredCapacity_scale, rtpRecircCap_scale, add_scale]

theorem recircDaily_scale (k : K) (c : SysCfg K) (l : RtpLoop K) (b : Building K) :
    recircDaily c (timesLoop k l) (times k b) = (recircDaily c l b).map (k * ·) := by
  unfold recircDaily
  rw [requireDesignInlet_times, rtpLoss_scale]
  cases requireDesignInlet b with
  | error e => rfl
  | ok inlet =>
    simp only [ok_bind]
    rw [mul_assoc, fdiv_scale]
    cases fdiv (rtpLossKbtuh c l * 1000) (rhoCp K * (c.supply - inlet)) with
    | error e => rfl
    | ok q => simp only [Except.map, ok_bind, pure_eq_ok, mul_assoc]

theorem times_more (k r : K) (b : Building K) :
    ({ times k b with dailyGal := (times k b).dailyGal + k * r } : Building K) = times k { b with dailyGal := b.dailyGal + r } := by
  unfold times; simp only [mul_add]

theorem spGenRateLs_scale {k : K} (hk : 0 < k) (l : RtpLoop K) (c : SysCfg K) (sched : List String) (m : ControlMap K) (b : Building K)
    (slope fract : K) : (spGenRateLs (timesLoop k l) c sched m (times k b) slope fract).2 =
      (spGenRateLs l c sched m b slope fract).2.map (k * ·) := by
  unfold spGenRateLs
  rw [recircDaily_scale]
  cases recircDaily c l b with
  | error e => rfl
  | ok r =>
    simp only [Except.map, boosted]
    rw [times_more, genRateLs_scale hk]
    rfl

theorem spRunVolLs_scale {k : K} (hk : 0 < k) (l : RtpLoop K) (c : SysCfg K) (sched : List String) (b : Building K)
    (gen fract : K) : (spRunVolLs (timesLoop k l) c sched (times k b) (k * gen) fract).2 =
      (spRunVolLs l c sched b gen fract).2.map (k * ·) := by
  unfold spRunVolLs
  rw [recircDaily_scale]
  cases recircDaily c l b with
  | error e => rfl
  | ok r =>
    simp only [Except.map, boosted]
    rw [times_more, runningVolumeLs_scale hk]
    rfl

theorem scale_sp {k : K} (hk : 0 < k) (l : RtpLoop K) : ScaleMethods k (spMethods l) (spMethods (timesLoop k l)) where
  cap := fun c b => rtpRequiredCapacity_scale k c l b
  vol := fun c b _ => by
    show spRunVol _ _ _ = (spRunVol _ _ _).map _
    unfold spRunVol
    rw [recircDaily_scale]
    cases recircDaily c l b with
    | error e => rfl
    | ok r => exact runningVolume_scale hk _ _ _
  gen := fun c sched m b slope fract => spGenRateLs_scale hk l c sched m b slope fract
  capLs := fun c sched m b slope fract => by
    show rtpRequiredCapacityLs _ _ _ _ _ _ _ _ = (rtpRequiredCapacityLs _ _ _ _ _ _ _ _).map _
    unfold rtpRequiredCapacityLs
    rw [rtpRecircCap_scale, ← add_scale]
    congr 1
    unfold requiredCapacityLs
    rw [requireDesignInlet_times]
    cases requireDesignInlet b with
    | error e => rfl
    | ok inlet =>
      simp only [ok_bind]
      rw [spGenRateLs_scale hk]
      cases (spGenRateLs l c sched m b slope fract).2 with
      | error e => rfl
      | ok g => simp only [Except.map, ok_bind]; exact capacityOfGenRate_scale _ _ _ _
  volLs := fun c sched b gen fract => spRunVolLs_scale hk l c sched b gen fract

theorem sizeTm_scale (k : K) (supply : K) (t : TmCfg K) :
    sizeTm supply (timesTm k t) = (sizeTm supply t).map (fun p => (k * p.1, k * p.2)) := by
  unfold sizeTm timesTm
  simp only
  cases fdiv t.offTime (t.off - t.on) with
  | error e => rfl
  | ok q =>
    simp only [ok_bind, pure_eq_ok, Except.map, recircLossKbtuh]
    congr 2 <;> ring

/-! ## The sizing run of a multi-pass system -/

theorem mixingValve_scale {k : K} (hk : 0 < k) (load flow cold supply ret storage : K) :
    mixingValve (k * load) (k * flow) cold supply ret storage =
      (mixingValve load flow cold supply ret storage).map (fun p => (k * p.1, p.2)) := by
  unfold mixingValve
  dsimp only
  rw [show k * flow * rhoCp K * (supply - ret) = k * (flow * rhoCp K * (supply - ret)) by ring, fdiv_scale]
  cases fdiv (flow * rhoCp K * (supply - ret)) (rhoCp K * (storage - supply)) with
  | error e => rfl
  | ok crit =>
    simp only [Except.map, ok_bind, mul_lt_mul_iff_right₀ hk]
    by_cases h : crit < load
    · simp only [if_pos h]
      cases fdiv (supply - cold) (storage - cold) with
      | error e => rfl
      | ok a =>
        cases fdiv (supply - ret) (storage - cold) with
        | error e => rfl
        | ok b => simp only [ok_bind, pure_eq_ok]; congr 2; ring
    · simp only [if_neg h]
      cases fdiv (supply - ret) (storage - ret) with
      | error e => rfl
      | ok a =>
        simp only [ok_bind]
        rw [show (k * load + k * flow) * a = k * ((load + flow) * a) by ring,
          show k * load * cold + (k * ((load + flow) * a) - k * load) * ret =
            k * (load * cold + ((load + flow) * a - load) * ret) by ring]
        generalize load * cold + ((load + flow) * a - load) * ret = n
        generalize (load + flow) * a = d
        unfold fdiv
        by_cases h0 : d = 0
        · simp [h0]
        · have h1 : k * d ≠ 0 := mul_ne_zero hk.ne' h0
          simp only [if_neg h0, if_neg h1, ok_bind, pure_eq_ok, mul_div_mul_left _ _ hk.ne']

theorem getDhwLoad_scale (k : K) (b : Building K) (t i : Nat) :
    (times k b).getDhwLoad t i = (b.getDhwLoad t i).map (k * ·) := by
  unfold Building.getDhwLoad times
  simp only [Bool.false_eq_true, if_false]
  split
  · rfl
  · cases pyGet b.peakShape (t * i / 60 % b.peakShape.length) with
    | error e => rfl
    | ok f => simp only [Except.map, ok_bind, pure_eq_ok]; congr 1; ring

def timesSlug (k : K) (s : SizingSlug K) : SizingSlug K := ⟨k * s.vol, s.temp⟩

theorem slugMinute_scale {k : K} (hk : 0 < k) (heat cold storage : K) (s : SizingSlug K) (draw inlet : K) :
    slugMinute (k * heat) cold storage (timesSlug k s) (k * draw) inlet =
      timesSlug k (slugMinute heat cold storage s draw inlet) := by
  have key1 : (if 0 < k * draw then
      if (timesSlug k s).vol ≤ 0 then (⟨k * draw, inlet⟩ : SizingSlug K)
      else ⟨(timesSlug k s).vol + k * draw, ((timesSlug k s).vol * (timesSlug k s).temp + k * draw * inlet) / ((timesSlug k s).vol + k * draw)⟩
    else timesSlug k s) = timesSlug k (if 0 < draw then
      if s.vol ≤ 0 then ⟨draw, inlet⟩
      else ⟨s.vol + draw, (s.vol * s.temp + draw * inlet) / (s.vol + draw)⟩
    else s) := by
    simp only [mul_pos_iff_of_pos_left hk]
    split
    · have h : (timesSlug k s).vol ≤ 0 ↔ s.vol ≤ 0 := by
        rw [← not_lt, ← not_lt]; exact not_congr (mul_pos_iff_of_pos_left hk)
      simp only [h]
      split
      · rfl
      · simp only [timesSlug, mul_add]
        congr 1
        rw [show k * s.vol * s.temp + k * draw * inlet = k * (s.vol * s.temp + draw * inlet) by ring, ← mul_add,
          mul_div_mul_left _ _ hk.ne']
    · rfl
  unfold slugMinute
  simp only [key1]
  generalize (if 0 < draw then
      if s.vol ≤ 0 then ⟨draw, inlet⟩
      else ⟨s.vol + draw, (s.vol * s.temp + draw * inlet) / (s.vol + draw)⟩
    else s) = s1
  have key2 : (if 0 < (timesSlug k s1).vol then
      { timesSlug k s1 with temp := (timesSlug k s1).temp + k * heat * 1000 / ((timesSlug k s1).vol * rhoCp K) } else timesSlug k s1) =
      timesSlug k (if 0 < s1.vol then { s1 with temp := s1.temp + heat * 1000 / (s1.vol * rhoCp K) } else s1) := by
    simp only [timesSlug, mul_pos_iff_of_pos_left hk]
    split
    · simp only [mul_assoc, mul_div_mul_left _ _ hk.ne']
    · rfl
  simp only [key2]
  generalize (if 0 < s1.vol then { s1 with temp := s1.temp + heat * 1000 / (s1.vol * rhoCp K) } else s1) = s2
  simp only [timesSlug, mul_pos_iff_of_pos_left hk]
  split
  · simp
  · rfl

theorem sizingValve_scale {k : K} (hk : 0 < k) (c : SysCfg K) (l : RtpLoop K) (avg cold : K) (b : Building K) (t : Nat) :
    sizingValve c (timesLoop k l) avg cold (times k b) t = (sizingValve c l avg cold b t).map (fun p => (k * p.1, p.2)) := by
  unfold sizingValve
  rw [getDhwLoad_scale]
  cases b.getDhwLoad t 1 with
  | error e => rfl
  | ok d =>
    simp only [Except.map, ok_bind]
    rw [show (timesLoop k l).flow * 1 = k * (l.flow * 1) by unfold timesLoop; ring, mixingValve_scale hk]
    rfl

theorem slugLoop_scale {k : K} (hk : 0 < k) (c : SysCfg K) (l : RtpLoop K) (avg cold heat : K) (b : Building K) (n : Nat) :
    ∀ t s m, slugLoop c (timesLoop k l) avg cold (k * heat) (times k b) n t (timesSlug k s) (k * m) =
      (slugLoop c l avg cold heat b n t s m).map (k * ·) := by
  induction n with
  | zero => intro t s m; rfl
  | succ n ih =>
    intro t s m
    unfold slugLoop
    rw [sizingValve_scale hk]
    cases sizingValve c l avg cold b t with
    | error e => rfl
    | ok p =>
      simp only [Except.map, ok_bind, slugMinute_scale hk]
      refine Eq.trans ?_ (ih (t + 1) (slugMinute heat cold c.storage s p.1 p.2)
        (if m < (slugMinute heat cold c.storage s p.1 p.2).vol then (slugMinute heat cold c.storage s p.1 p.2).vol else m))
      congr 1
      simp only [timesSlug, mul_lt_mul_iff_right₀ hk]
      split <;> rfl

theorem mpCalc_scale {k : K} (hk : 0 < k) (c : SysCfg K) (l : RtpLoop K) (avg : K) (b : Building K) (cmap : Option (ControlMap K))
    (slope : K) : mpCalc c (timesLoop k l) avg (times k b) cmap slope =
      (mpCalc c l avg b cmap slope).map (fun p => (k * p.1, k * p.2)) := by
  unfold mpCalc mpRunVol
  simp only [rtpRequiredCapacity_scale, requireDesignInlet_times]
  cases rtpRequiredCapacity l c b with
  | error e => rfl
  | ok cap =>
    simp only [Except.map, ok_bind]
    cases requireDesignInlet b with
    | error e => rfl
    | ok inlet =>
      simp only [ok_bind]
      have h := slugLoop_scale hk c l avg inlet (cap * 1 / 60) b 2880 0 ⟨0, inlet⟩ 0
      rw [show timesSlug k ⟨0, inlet⟩ = (⟨0, inlet⟩ : SizingSlug K) by simp [timesSlug], mul_zero,
        show k * (cap * 1 / 60) = k * cap * 1 / 60 by ring] at h
      rw [h]
      cases slugLoop c l avg inlet (cap * 1 / 60) b 2880 0 ⟨0, inlet⟩ 0 with
      | error e => rfl
      | ok rv =>
        simp only [Except.map, ok_bind]
        cases stratFactor c cmap slope inlet with
        | error e => rfl
        | ok sf =>
          simp only [ok_bind]
          rw [storageVolume_scale]
          cases storageVolume rv sf <;> rfl

theorem mpSizeBody_scale {k : K} (hk : 0 < k) (s : MpSys K) (b : Building K) (cmap : Option (ControlMap K)) (slope : K) :
    (mpSizeBody { s with loop := timesLoop k s.loop } (times k b) cmap slope).2 = (mpSizeBody s b cmap slope).2 ∧
    ((mpSizeBody s b cmap slope).2 = .ok () →
      (mpSizeBody { s with loop := timesLoop k s.loop } (times k b) cmap slope).1 = timesMp k (mpSizeBody s b cmap slope).1) := by
  unfold mpSizeBody
  simp only
  cases mpAvgOutlet s.base.cfg cmap slope with
  | error e => exact ⟨rfl, fun h => by simp at h⟩
  | ok avg =>
    simp only [mpCalc_scale hk]
    cases mpCalc s.base.cfg s.loop avg b cmap slope with
    | error e => exact ⟨rfl, fun h => by simp at h⟩
    | ok p => exact ⟨rfl, fun _ => rfl⟩

/-! ## C128 -/

/-- **C128.** Sizing a system without recirculation for the same building with `k` times the hot water use has the same outcome
(the same warnings, or the same exception), and a sizing that succeeds gives `k` times the capacity and `k` times the storage.
With or without load shifting, for daily and annual load shapes. -/
theorem C128_size_partial (k : K) (hk : 0 < k) (db : ShapeFiles K) (s : DhwSys K) (b : Building K) (sched : Option (List String))
    (cmap : Option (ControlMap K)) (slope fract : K) :
    (size baseMethods db s (times k b) sched cmap slope fract).2 = (size baseMethods db s b sched cmap slope fract).2 ∧
    (size baseMethods db s (times k b) sched cmap slope fract).1.2 =
      times k (size baseMethods db s b sched cmap slope fract).1.2 ∧
    ∀ ws, (size baseMethods db s b sched cmap slope fract).2 = .ok ws →
      (size baseMethods db s (times k b) sched cmap slope fract).1.1 =
        timesSys k (size baseMethods db s b sched cmap slope fract).1.1 :=
  size_scale k hk (scale_base hk) db s b sched cmap slope fract

/-- **C128, sizing curve.** The curve has the same run hours and the same recommended index; its capacities and storage volumes
are `k` times as large. -/
theorem C128_sizing_curve [FloorRing K] (k : K) (hk : 0 < k) (db : ShapeFiles K) (s : DhwSys K) (b : Building K)
    (slope step : K) : getSizingCurve baseMethods db s (times k b) slope step =
      (((getSizingCurve baseMethods db s b slope step).1.1, times k (getSizingCurve baseMethods db s b slope step).1.2),
        (getSizingCurve baseMethods db s b slope step).2.map (timesCurve k)) :=
  curve_scale k hk (scale_base hk) db s b slope step

/-- **C128, load-shift curve.** The same for the curve over the percentage of days. -/
theorem C128_ls_curve [FloorRing K] (k : K) (hk : 0 < k) (db : ShapeFiles K) (s : DhwSys K) (b : Building K)
    (sched : List String) (m : ControlMap K) (slope : K) (fractOf : K → Py K) (pct : K) :
    getLsSizingCurve baseMethods db s (times k b) sched m slope fractOf pct =
      (((getLsSizingCurve baseMethods db s b sched m slope fractOf pct).1.1,
        times k (getLsSizingCurve baseMethods db s b sched m slope fractOf pct).1.2),
        (getLsSizingCurve baseMethods db s b sched m slope fractOf pct).2.map (timesCurve k)) :=
  lsCurve_scale k hk (scale_base hk) db s b sched m slope fractOf pct

/-- **C128, single-pass return to primary.** With `k` times the hot water use and `k` times the loop flow, the sizing has the same
outcome, and a sizing that succeeds gives `k` times the capacity, the storage and the recirculation share. -/
theorem C128_single_pass (k : K) (hk : 0 < k) (db : ShapeFiles K) (s : SpSys K) (b : Building K) (sched : Option (List String))
    (cmap : Option (ControlMap K)) (slope fract : K) :
    (SpSys.size db { s with loop := timesLoop k s.loop } (times k b) sched cmap slope fract).2 =
      (SpSys.size db s b sched cmap slope fract).2 ∧
    ∀ ws, (SpSys.size db s b sched cmap slope fract).2 = .ok ws →
      (SpSys.size db { s with loop := timesLoop k s.loop } (times k b) sched cmap slope fract).1 =
        (timesSp k (SpSys.size db s b sched cmap slope fract).1.1, times k (SpSys.size db s b sched cmap slope fract).1.2) := by
  obtain ⟨h1, h2, h3⟩ := size_scale k hk (scale_sp hk s.loop) db s.base b sched cmap slope fract
  unfold SpSys.size
  simp only
  generalize Eco.size (spMethods (timesLoop k s.loop)) db s.base (times k b) sched cmap slope fract = R' at h1 h2 h3 ⊢
  generalize Eco.size (spMethods s.loop) db s.base b sched cmap slope fract = R at h1 h2 h3 ⊢
  obtain ⟨⟨base', b1'⟩, r'⟩ := R'
  obtain ⟨⟨base, b1⟩, r⟩ := R
  simp only at h1 h2 h3
  subst h1 h2
  cases r' with
  | error e => exact ⟨rfl, fun ws h => by simp at h⟩
  | ok ws =>
    obtain rfl := h3 ws rfl
    simp only [rtpRecircCap_scale, timesSys]
    cases rtpRecircCap base.cfg s.loop with
    | error e => exact ⟨rfl, fun ws h => by simp at h⟩
    | ok x => exact ⟨rfl, fun _ _ => rfl⟩

/-- **C128, single-pass sizing curve.** -/
theorem C128_single_pass_curve [FloorRing K] (k : K) (hk : 0 < k) (db : ShapeFiles K) (l : RtpLoop K) (s : DhwSys K) (b : Building K)
    (slope step : K) : (getSizingCurve (spMethods (timesLoop k l)) db s (times k b) slope step).2 =
      (getSizingCurve (spMethods l) db s b slope step).2.map (timesCurve k) := by
  rw [curve_scale k hk (scale_sp hk l)]

/-- **C128, parallel loop.** With `k` times the hot water use and `k` times the loop flow, the sizing has the same outcome, and a
sizing that succeeds gives `k` times the capacity and storage of the primary system and of the temperature maintenance system. -/
theorem C128_parallel (k : K) (hk : 0 < k) (db : ShapeFiles K) (s : ParSys K) (b : Building K) (sched : Option (List String))
    (cmap : Option (ControlMap K)) (slope fract : K) :
    (ParSys.size baseMethods db { s with tm := timesTm k s.tm } (times k b) sched cmap slope fract).2 =
      (ParSys.size baseMethods db s b sched cmap slope fract).2 ∧
    ∀ ws, (ParSys.size baseMethods db s b sched cmap slope fract).2 = .ok ws →
      (ParSys.size baseMethods db { s with tm := timesTm k s.tm } (times k b) sched cmap slope fract).1 =
        (timesPar k (ParSys.size baseMethods db s b sched cmap slope fract).1.1,
          times k (ParSys.size baseMethods db s b sched cmap slope fract).1.2) := by
  obtain ⟨h1, h2, h3⟩ := C128_size_partial k hk db s.base b sched cmap slope fract
  unfold ParSys.size
  simp only [show validateTm (timesTm k s.tm) = validateTm s.tm from rfl]
  cases validateTm s.tm with
  | error e => exact ⟨rfl, fun ws h => by simp at h⟩
  | ok u =>
    simp only
    generalize Eco.size baseMethods db s.base (times k b) sched cmap slope fract = R' at h1 h2 h3 ⊢
    generalize Eco.size baseMethods db s.base b sched cmap slope fract = R at h1 h2 h3 ⊢
    obtain ⟨⟨base', b1'⟩, r'⟩ := R'
    obtain ⟨⟨base, b1⟩, r⟩ := R
    simp only at h1 h2 h3
    subst h1 h2
    cases r' with
    | error e => exact ⟨rfl, fun ws h => by simp at h⟩
    | ok ws =>
      obtain rfl := h3 ws rfl
      simp only [sizeTm_scale, timesSys]
      cases sizeTm base.cfg.supply s.tm with
      | error e => exact ⟨rfl, fun ws h => by simp at h⟩
      | ok x => exact ⟨rfl, fun _ _ => rfl⟩

/-- **C128, multi-pass return to primary.** With `k` times the hot water use and `k` times the loop flow, the sizing has the same
outcome, and a sizing that succeeds gives `k` times the capacity and the storage and the same outlet temperature. -/
theorem C128_multi_pass (k : K) (hk : 0 < k) (db : ShapeFiles K) (s : MpSys K) (b : Building K)
    (cmap : Option (ControlMap K)) (slope : K) :
    (MpSys.size db { s with loop := timesLoop k s.loop } (times k b) cmap slope).2 = (MpSys.size db s b cmap slope).2 ∧
    ((MpSys.size db s b cmap slope).2 = .ok () →
      (MpSys.size db { s with loop := timesLoop k s.loop } (times k b) cmap slope).1 =
        (timesMp k (MpSys.size db s b cmap slope).1.1, times k (MpSys.size db s b cmap slope).1.2)) := by
  unfold MpSys.size
  split
  · exact ⟨rfl, fun h => by simp at h⟩
  · have ha : (times k b).isAnnual = b.isAnnual := isAnnual_times k b
    cases hb : b.isAnnual with
    | false =>
      rw [hb] at ha
      simp only [ha, Bool.false_eq_true, if_false]
      obtain ⟨h1, h2⟩ := mpSizeBody_scale hk s b cmap slope
      exact ⟨h1, fun h => by rw [h2 h]⟩
    | true =>
      rw [hb] at ha
      simp only [ha, if_true, setToDaily_times]
      cases b.setToDaily db with
      | error e => exact ⟨rfl, fun h => by simp at h⟩
      | ok b1 =>
        obtain ⟨h1, h2⟩ := mpSizeBody_scale hk s b1 cmap slope
        simp only [Except.map, setToAnnual_times]
        cases b1.setToAnnual db with
        | error e => exact ⟨rfl, fun h => by simp at h⟩
        | ok b2 => exact ⟨h1, fun h => by rw [h2 h]⟩

/-- **C128 is false with a swing tank.** The swing tank comes from a table: the demonstration system gets a tank of 50 gallons, and with
three times the hot water use and three times the loop flow one of 160 gallons instead of 150. -/
theorem C128_swing_not_proportional : ∃ s1 s2 : SwingSys ℚ,
    Demo.swing.size Demo.noFiles Demo.building none (some Demo.map) (28/10) 1 = ((s1, Demo.building), .ok ()) ∧
    SwingSys.size Demo.noFiles { Demo.swing with flow := 3 * Demo.swing.flow } (times 3 Demo.building) none (some Demo.map) (28/10) 1 =
      ((s2, times 3 Demo.building), .ok ()) ∧
    s1.tmVol = some 50 ∧ s2.tmVol = some 160 := by
  have htm : sizeSwingTm (K := ℚ) Demo.swing.base.cfg.supply Demo.swing.ret Demo.swing.flow Demo.swing.sf
      (some Demo.building) = .ok (50, 80, 6/5 * recircLossKbtuh 120 110 3) := by decide +kernel
  obtain ⟨s1, h1, h2, -⟩ := C67_size_never_fails (db := Demo.noFiles) (s := Demo.swing) (b := Demo.building)
    (sched := none) (cmap := some Demo.map) (slope := 28/10) (fract := 1) (inlet := 50)
    (factor := 307/392) (by simp [lsInputs, truthySched]) (by decide +kernel) (by decide +kernel)
    (by decide +kernel) (by decide +kernel) (by decide +kernel) (by decide +kernel) htm (by decide +kernel)
    (by decide +kernel) (by decide +kernel) (by decide +kernel) (by decide +kernel) (by decide +kernel)
    (by decide +kernel) (by norm_num)
  have htm2 : sizeSwingTm (K := ℚ) Demo.swing.base.cfg.supply Demo.swing.ret (3 * Demo.swing.flow) Demo.swing.sf
      (some (times 3 Demo.building)) = .ok (160, 168, 6/5 * recircLossKbtuh 120 110 9) := by decide +kernel
  obtain ⟨s2, h3, h4, -⟩ := C67_size_never_fails (db := Demo.noFiles) (s := { Demo.swing with flow := 3 * Demo.swing.flow })
    (b := times 3 Demo.building)
    (sched := none) (cmap := some Demo.map) (slope := 28/10) (fract := 1) (inlet := 50)
    (factor := 307/392) (by simp [lsInputs, truthySched]) (by decide +kernel) (by decide +kernel)
    (by decide +kernel) (by decide +kernel) (by decide +kernel) (by decide +kernel) htm2 (by decide +kernel)
    (by decide +kernel) (by decide +kernel) (by decide +kernel) (by decide +kernel) (by decide +kernel)
    (by decide +kernel) (by norm_num)
  exact ⟨s1, s2, h1, h3, h2, h4⟩

/-- **C128 is false with a swing tank, without bound.** From some size on a swing system cannot be sized at all, whatever table entry the
small building gets: the table ends at 1250 gallons. -/
theorem C128_swing_too_large (supply ret flow sf : K) (b : Building K) (k : K)
    (hbig : 1250 < k * (recircLossKbtuh supply ret flow * 1000 / (100 * wToKbtuh K))) :
    (sizeSwingTm supply ret (k * flow) sf (some (times k b))).isOk = false := by
  unfold sizeSwingTm swingRequired
  dsimp only
  cases npMax (times k b).peakShape with
  | error e => rfl
  | ok mx =>
    have h : (1250 : K) < max (recircLossKbtuh supply ret (k * flow) * 1000 / (100 * wToKbtuh K)) ((times k b).dailyGal * mx / 60) := by
      refine lt_of_lt_of_le hbig (le_trans (le_of_eq ?_) (le_max_left _ _))
      unfold recircLossKbtuh; ring
    simp only [ok_bind, pure_eq_ok, if_pos h]
    rfl

-- the demonstration building can be sized, also with load shifting, as a loop-less system and with each kind of loop
example : (size baseMethods Demo.noFiles { cfg := Demo.cfg } Demo.building (some Demo.sched) (some Demo.map) (17/10) 1).2.isOk = true ∧
    (SpSys.size Demo.noFiles Demo.sp Demo.building (some Demo.sched) (some Demo.map) (17 / 10) 1).2.isOk = true ∧
    (ParSys.size baseMethods Demo.noFiles { base := { cfg := Demo.cfg }, tm := Demo.tm } Demo.building (some Demo.sched) (some Demo.map)
      (17 / 10) 1).2.isOk = true := by decide +kernel

example : (Demo.mp.size Demo.noFiles Demo.building (some Demo.lowSensor) 2).2 = .ok () := by
  obtain ⟨s', b', cap, st, h1, -⟩ := Demo.mp_sizes
  rw [h1]

-- three times the use, three times the capacity and storage
example : (size baseMethods Demo.noFiles { cfg := Demo.cfg } (times 3 Demo.building) (some Demo.sched) (some Demo.map) (17/10) 1).1.1.minStorage =
    (size baseMethods Demo.noFiles { cfg := Demo.cfg } Demo.building (some Demo.sched) (some Demo.map) (17/10) 1).1.1.minStorage.map (3 * ·) := by
  decide +kernel

-- the curves are not empty
example : ((getSizingCurve baseMethods Demo.noFiles { cfg := Demo.cfg } Demo.building (17/10) 1).2.map (fun c => c.points.length)).isOk = true := by
  decide +kernel

-- a flow that is too large for the table
example : (1250 : ℚ) < 29 * (recircLossKbtuh 120 110 3 * 1000 / (100 * wToKbtuh ℚ)) := by decide +kernel

end Eco
