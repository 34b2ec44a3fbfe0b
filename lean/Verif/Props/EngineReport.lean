import Verif.Model.Report
import Verif.Props.Curves
import Verif.Props.Engine
import Verif.Props.Climate
import Verif.Props.Simulate

/-! C102-C106: the plotted sizing curve, the utility comparison, the temperature buckets, the model registry, and a sized
system that is simulated. -/

namespace Eco
variable {K : Type} [Field K] [LinearOrder K] [IsStrictOrderedRing K]

set_option linter.unusedSectionVars false

open Spec

/-! ## C102 -/

theorem plotSizingCurve_state [FloorRing K] (M : SizingMethods K) (db : ShapeFiles K) (s : DhwSys K) (b : Building K)
    (sched : List String) (m : ControlMap K) (slope : K) (fractOf : K → Py K) (pct : K) (hb : b.isAnnual = false) :
    (plotSizingCurve M db s b sched m slope fractOf pct).1 = (s, b) := by
  unfold plotSizingCurve
  split
  · obtain ⟨h1, h2, _⟩ := C12_curve_leaves_system M db s b sched m slope fractOf pct
    exact Prod.ext h1 (h2 hb)
  · obtain ⟨h1, h2, _⟩ := C10_curve_leaves_system M db s b slope (1 / 4)
    exact Prod.ext h1 (h2 hb)

/-- **C102, one curve.** The points that the engine returns beside the figure are those of the figure, although it
computes the curve a second time, and neither call changes the system or the building. -/
theorem C102_returned_points_are_plotted [FloorRing K] (M : SizingMethods K) (db : ShapeFiles K) (invCdf : K → K)
    (p : EngineParams K) (s s' : DhwSys K) (b b' : Building K) (slope : K) (fig pts : CurvePlot K)
    (hb : b.isAnnual = false) (h : enginePlot M db invCdf p s b slope = ((s', b'), .ok (fig, pts))) :
    pts = fig ∧ s' = s ∧ b' = b := by
  unfold enginePlot at h
  split at h
  · simp at h
  · rename_i sched m _
    have h0 := plotSizingCurve_state M db s b sched m slope (loadShiftFract invCdf) p.lsPercent hb
    split at h
    · simp at h
    · rename_i s1 b1 fig' hp
      rw [hp] at h0
      simp only [Prod.mk.injEq] at h0
      obtain ⟨rfl, rfl⟩ := h0
      rw [hp] at h
      simp only [Except.map, Prod.mk.injEq, Except.ok.injEq] at h
      obtain ⟨⟨rfl, rfl⟩, rfl, rfl⟩ := h
      exact ⟨rfl, rfl, rfl⟩

theorem pyGetSigned_rev {α : Type} (l : List α) (i : ℕ) (a : α) (h : l[i]? = some a) :
    pyGetSigned l.reverse ((l.length : Int) - 1 - i) = .ok a := by
  have hi : i < l.length := by
    by_contra hc
    rw [List.getElem?_eq_none (by omega)] at h; simp at h
  unfold pyGetSigned ClimateZone.pyGetInt
  rw [if_pos (by omega), pyGet_eq_ok, List.getElem?_reverse (by omega)]
  have : l.length - 1 - ((l.length : Int) - 1 - i).toNat = i := by omega
  rw [this, h]

/-- The marker of a curve without load shifting is its recommended point. -/
theorem plotOfCurve_marker (cv : Curve K) (h c v : K) (hp : cv.points[cv.recIndex]? = some (h, c, v)) :
    curveMarker (plotOfCurve cv).x (plotOfCurve cv).y (plotOfCurve cv).start = .ok (v, c) := by
  have h1 : (cv.points.map (·.2.2))[cv.recIndex]? = some v := by rw [List.getElem?_map, hp]; rfl
  have h2 : (cv.points.map (·.2.1))[cv.recIndex]? = some c := by rw [List.getElem?_map, hp]; rfl
  have e1 := pyGetSigned_rev _ _ _ h1
  have e2 := pyGetSigned_rev _ _ _ h2
  rw [List.length_map] at e1 e2
  unfold curveMarker plotOfCurve
  simp only [e1, e2, ok_bind, pure_eq_ok]

/-- **C102, the marker.** For a system sized without load shifting whose curve reaches its own run hours, the highlighted
point of its plot is its sized storage and capacity. -/
theorem C102_marker_is_sized_system [FloorRing K] (M : SizingMethods K) (db : ShapeFiles K) (c : SysCfg K)
    (b b' b'' : Building K) (sched : Option (List String)) (cmap : Option (ControlMap K)) (slope fract slope' : K)
    (s s' : DhwSys K) (pl : CurvePlot K) (sched' : List String) (m : ControlMap K) (fractOf : K → Py K) (pct : K)
    (hlen : ∀ f, db "multi_family" = some f → f.annual.length = 8760) (hnols : lsInputs sched cmap = none)
    (hsize : fromSize M db c b sched cmap slope fract = (b', .ok s)) (hm : dictHas m "shed" = false)
    (hplot : plotSizingCurve M db s b' sched' m slope' fractOf pct = ((s', b''), .ok pl))
    (hreach : ⌈(24 - c.maxRunHr) / (1 / 4)⌉₊ < pl.x.length) :
    ∃ cap st, getMinCapacity s = .ok cap ∧ getMinStorage s = .ok st ∧ curveMarker pl.x pl.y pl.start = .ok (st, cap) := by
  unfold plotSizingCurve at hplot
  simp only [hm, Bool.false_eq_true, if_false, Prod.mk.injEq] at hplot
  obtain ⟨e1, e2⟩ := hplot
  cases hcv : (getSizingCurve M db s b' slope' (1 / 4)).2 with
  | error e => rw [hcv] at e2; simp [Except.map] at e2
  | ok cv =>
    rw [hcv] at e2
    simp only [Except.map, Except.ok.injEq] at e2
    subst e2
    have hc : getSizingCurve M db s b' slope' (1 / 4) = ((s', b''), .ok cv) := Prod.ext e1 hcv
    have hr : ⌈(24 - c.maxRunHr) / (1 / 4)⌉₊ < cv.points.length := by simpa [plotOfCurve] using hreach
    obtain ⟨cap, st, g1, g2, g3⟩ := C11_recommended_point_is_sized_system M db c b b' b'' sched cmap slope fract slope'
      (1 / 4) s s' cv hlen hnols hsize hc hr
    exact ⟨cap, st, g1, g2, plotOfCurve_marker cv _ _ _ g3⟩

/-- **C102, direction.** Without load shifting the plotted storage increases from left to right and the capacity
decreases. -/
theorem C102_storage_ascending [FloorRing K] (db : ShapeFiles K) (s s' : DhwSys K) (b b' b1 : Building K)
    (sched : List String) (m : ControlMap K) (slope inlet factor : K) (fractOf : K → Py K) (pct : K) (pl : CurvePlot K)
    (hrun0 : 0 < s.cfg.maxRunHr) (hrun : s.cfg.maxRunHr ≤ 24) (hb1 : dailyView db b = .ok b1) (hday : GoodDay b1)
    (hin : requireDesignInlet b1 = .ok inlet) (hwarm : inlet ≤ s.cfg.supply) (hdef : 0 < s.cfg.defrost)
    (hfac : stratFactor s.cfg s.heaterMap (s.sizingSlope.getD slope) inlet = .ok factor) (hf0 : 0 ≤ factor)
    (hm : dictHas m "shed" = false)
    (hplot : plotSizingCurve baseMethods db s b sched m slope fractOf pct = ((s', b'), .ok pl)) :
    pl.x.length = pl.y.length ∧ pl.x.Pairwise (· ≤ ·) ∧ pl.y.Pairwise (· ≥ ·) := by
  unfold plotSizingCurve at hplot
  simp only [hm, Bool.false_eq_true, if_false, Prod.mk.injEq] at hplot
  obtain ⟨e1, e2⟩ := hplot
  cases hcv : (getSizingCurve baseMethods db s b slope (1 / 4)).2 with
  | error e => rw [hcv] at e2; simp [Except.map] at e2
  | ok cv =>
    rw [hcv] at e2
    simp only [Except.map, Except.ok.injEq] at e2
    subst e2
    have hc : getSizingCurve baseMethods db s b slope (1 / 4) = ((s', b'), .ok cv) := Prod.ext e1 hcv
    obtain ⟨h1, _⟩ := C10_capacity_up_storage_down db s s' b b' b1 slope (1 / 4) inlet factor cv (by norm_num) hrun0 hrun
      hb1 hday hin hwarm hdef hfac hf0 hc
    refine ⟨by simp [plotOfCurve], ?_, ?_⟩
    · unfold plotOfCurve
      simp only [List.pairwise_reverse, List.pairwise_map]
      exact h1.imp (fun h => h.2)
    · unfold plotOfCurve
      simp only [List.pairwise_reverse, List.pairwise_map]
      exact h1.imp (fun h => h.1)

/-- **C102, load shifting.** The load-shift plot has one point for every percent from 25 to 100, and for a configured
percentage in that range the highlighted point is at that percentage. -/
theorem C102_load_shift_plot [FloorRing K] (M : SizingMethods K) (db : ShapeFiles K) (s s' : DhwSys K)
    (b b' : Building K) (sched : List String) (m : ControlMap K) (slope : K) (fractOf : K → Py K) (pct : K)
    (pl : CurvePlot K) (hsched : sched ≠ []) (hm : dictHas m "shed" = true)
    (hplot : plotSizingCurve M db s b sched m slope fractOf pct = ((s', b'), .ok pl)) :
    pl.x = (List.range 76).map (fun i => ((25 + i : ℕ) : K)) ∧ pl.y.length = 76 ∧
    ∀ i : ℕ, 25 ≤ i → i ≤ 100 → pct = (i : K) / 100 →
      ∃ cap st fract, fractOf pct = .ok fract ∧ curveMarker pl.x pl.y pl.start = .ok ((i : K), st) ∧
        let r := size M db s b (some sched) (some m) (s.sizingSlope.getD slope) fract
        getMinCapacity r.1.1 = .ok cap ∧ getMinStorage r.1.1 = .ok st := by
  unfold plotSizingCurve at hplot
  simp only [hm, if_true, Prod.mk.injEq] at hplot
  obtain ⟨e1, e2⟩ := hplot
  cases hcv : (getLsSizingCurve M db s b sched m slope fractOf pct).2 with
  | error e => rw [hcv] at e2; simp [Except.map] at e2
  | ok cv =>
    rw [hcv] at e2
    simp only [Except.map, Except.ok.injEq] at e2
    subst e2
    have hc : getLsSizingCurve M db s b sched m slope fractOf pct = ((s', b'), .ok cv) := Prod.ext e1 hcv
    obtain ⟨h1, h2, h3⟩ := C12_points_are_ls_sizing M db s s' b b' sched m slope fractOf pct cv hsched hc
    have hx : (plotOfLsCurve cv).x = (List.range 76).map (fun i => ((25 + i : ℕ) : K)) := by
      apply List.ext_getElem?
      intro j
      by_cases hj : j < 76
      · obtain ⟨_, cap, st, _, hp, _⟩ := h3 j hj
        simp only [plotOfLsCurve, List.getElem?_map, hp, Option.map_some, List.getElem?_range hj]
        congr 1
        field_simp
      · rw [List.getElem?_eq_none (by simp [plotOfLsCurve, h1]; omega), List.getElem?_eq_none (by simp; omega)]
    refine ⟨hx, by simp [plotOfLsCurve, h1], ?_⟩
    intro i hi1 hi2 hpct
    have hrec : cv.recIndex = i - 25 := by
      rw [h2, hpct]; exact (C12_recommended_index pct).2 i hi1 hi2
    obtain ⟨fract, cap, st, g1, g2, g3, g4⟩ := h3 (i - 25) (by omega)
    have hi : 25 + (i - 25) = i := by omega
    rw [hi] at g1 g2
    refine ⟨cap, st, fract, by rw [hpct]; exact g1, ?_, g3, g4⟩
    have k1 : pyGetSigned (plotOfLsCurve cv).x (plotOfLsCurve cv).start = .ok (i : K) := by
      rw [hx]
      unfold plotOfLsCurve pyGetSigned ClimateZone.pyGetInt
      simp only
      rw [if_pos (by omega), hrec, pyGet_eq_ok, Int.toNat_natCast, List.getElem?_map,
        List.getElem?_range (by omega), Option.map_some, hi]
    have k2 : pyGetSigned (plotOfLsCurve cv).y (plotOfLsCurve cv).start = .ok st := by
      unfold plotOfLsCurve pyGetSigned ClimateZone.pyGetInt
      simp only
      rw [if_pos (by omega), hrec, pyGet_eq_ok, Int.toNat_natCast, List.getElem?_map, g2]
      rfl
    unfold curveMarker
    simp only [k1, k2, ok_bind, pure_eq_ok]

/-- **C102, no curve.** If the curve has no point, its start index is −1 and the stand-alone plot function raises
`IndexError` on it. -/
theorem C102_empty_curve (cv : Curve K) (h : cv.points = []) (hr : cv.recIndex = 0) :
    (plotOfCurve cv).start = -1 ∧
    curveMarker (plotOfCurve cv).x (plotOfCurve cv).y (plotOfCurve cv).start = .error .indexError := by
  unfold plotOfCurve curveMarker
  simp only [h, hr]
  constructor
  · rfl
  · rfl

namespace Demo

/-- The demo building with the same use in every hour. -/
def evenBuilding : Building ℚ :=
  { building with peakShape := List.replicate 24 (1 / 24), avgShape := List.replicate 24 (1 / 24) }

end Demo

/-- Non-vacuity of C102: a system sized for 16 hours is highlighted on its plot; a building with the same use in every
hour has no curve. -/
example : ((plotSizingCurve baseMethods Demo.noFiles
      ⟨Demo.cfg, some (11694949 / 320000), some (24500 / 83), some (28 / 10), some Demo.highSensor⟩
      Demo.building [] [] (28 / 10) (fun _ => .ok 1) 1).2.bind (fun pl => curveMarker pl.x pl.y pl.start)) =
    .ok (24500 / 83, 11694949 / 320000) ∧
    (getSizingCurve baseMethods Demo.noFiles
      ⟨Demo.cfg, some (11694949 / 320000), some 0, some (28 / 10), some Demo.highSensor⟩
      Demo.evenBuilding (28 / 10) (1 / 4)).2 = .ok ⟨[], 0⟩ := by
  constructor
  · decide +kernel
  · decide +kernel

/-! ## C103 -/

theorem interleave_getD (l : List K) (m : ℕ) :
    (interleave l false).getD (2 * m) 0 = l.getD m 0 ∧ (interleave l false).getD (2 * m + 1) 0 = 0 ∧
    (interleave l true).getD (2 * m) 0 = 0 ∧ (interleave l true).getD (2 * m + 1) 0 = l.getD m 0 := by
  unfold interleave
  induction l generalizing m with
  | nil => simp
  | cons a l ih =>
    cases m with
    | zero => simp
    | succ m =>
      obtain ⟨h1, h2, h3, h4⟩ := ih m
      have e : 2 * (m + 1) = 2 * m + 2 := by ring
      rw [e]
      refine ⟨?_, ?_, ?_, ?_⟩ <;> simpa using by assumption

theorem interleave_sum (l : List K) (odd : Bool) : (interleave l odd).sum = l.sum := by
  unfold interleave
  induction l with
  | nil => simp
  | cons a l ih => cases odd <;> simp_all

/-- The height of the stacked bar at position `x`. -/
def Spec.stackedAt (series : List (List K)) (x : ℕ) : K := (series.map (fun l => l.getD x 0)).sum

/-- What month `m` costs according to a detailed breakdown. -/
def Spec.monthBill (d : SimRun.Detailed K) (m : ℕ) : K :=
  d.base + d.energyPeak.getD m 0 + d.energyOff.getD m 0 + d.demandPeak.getD m 0 + d.demandOff.getD m 0

/-- **C103.** Runs that are not annual are rejected. For annual ones the bars alternate: at position `2m` stands the
bill of month `m` of the heat-pump run, at `2m + 1` that of the resistance run. -/
theorem C103_bars (hp iwh : SimRun K) (t : Tracker K) :
    (hp.duration ≠ 525600 ∨ iwh.duration ≠ 525600 → comparisonBars hp iwh t = .error .valueError) ∧
    ∀ A B, comparisonBars hp iwh t = .ok (A, B) → hp.duration = 525600 ∧ iwh.duration = 525600 ∧
      ∃ D D', hp.detailedCost t = .ok D ∧ iwh.detailedCost t = .ok D' ∧ ∀ m < 12,
        stackedAt (A ++ B) (2 * m) = monthBill D m ∧ stackedAt (A ++ B) (2 * m + 1) = monthBill D' m := by
  constructor
  · intro h
    unfold comparisonBars utilityComparison
    rw [if_pos h]; rfl
  · intro A B h
    unfold comparisonBars utilityComparison at h
    rw [bind_eq_ok] at h
    obtain ⟨⟨D, D'⟩, h1, h⟩ := h
    split at h1
    · simp at h1
    · rename_i hd
      push Not at hd
      simp only [bind_eq_ok, pure_eq_ok, Except.ok.injEq, Prod.mk.injEq] at h1 h
      obtain ⟨a, h2, b, h3, rfl, rfl⟩ := h1
      obtain ⟨rfl, rfl⟩ := h
      have base_eq : ∀ {r : SimRun K} {d : SimRun.Detailed K}, r.detailedCost t = .ok d → d.base = t.base := by
        intro r d hd
        unfold SimRun.detailedCost at hd
        simp only [bind_eq_ok, pure_eq_ok, Except.ok.injEq] at hd
        obtain ⟨_, _, _, _, _, _, rfl⟩ := hd
        rfl
      refine ⟨hd.1, hd.2, a, b, h2, h3, ?_⟩
      intro m hm
      have hrep : (List.replicate 12 t.base).getD m 0 = t.base := by
        rw [List.getD_eq_getElem?_getD, List.getElem?_replicate, if_pos hm]; rfl
      unfold stackedAt monthBill barSeries
      constructor
      · simp only [List.map_append, List.map_cons, List.map_nil, List.sum_append, List.sum_cons, List.sum_nil,
          (interleave_getD _ m).1, (interleave_getD _ m).2.2.1, hrep, base_eq h2]
        ring
      · simp only [List.map_append, List.map_cons, List.map_nil, List.sum_append, List.sum_cons, List.sum_nil,
          (interleave_getD _ m).2.1, (interleave_getD _ m).2.2.2, hrep, base_eq h3]
        ring

/-- **C103, total.** With rates built from the documented parameters, two annual runs can be compared, and the bars of
each run add up to its annual cost. -/
theorem C103_totals (q : RateParams K) (t : Tracker K) (hb : q.build = .ok t) (hn : 0 < q.n)
    (hd : q.includeDiscount = true → ∀ i < q.n, (∃ c, DiscountAt q q.dEnergy i (some c)) ∧
      ∃ c, DiscountAt q q.dDemand i (some c))
    (hp iwh : SimRun K) (h1 : 0 < hp.ts) (h2 : 0 < iwh.ts) (l1 : hp.power.length * hp.ts ≤ 525600)
    (l2 : iwh.power.length * iwh.ts ≤ 525600) (d1 : hp.duration = 525600) (d2 : iwh.duration = 525600) :
    ∃ A B c c', comparisonBars hp iwh t = .ok (A, B) ∧ hp.annualCost t = .ok c ∧ iwh.annualCost t = .ok c' ∧
      (A.map List.sum).sum = c ∧ (B.map List.sum).sum = c' := by
  obtain ⟨D, c, e1, e2, e3⟩ := C40_detailed_sum q t hb hn hd hp h1 l1
  obtain ⟨D', c', e1', e2', e3'⟩ := C40_detailed_sum q t hb hn hd iwh h2 l2
  have base_eq : ∀ {r : SimRun K} {d : SimRun.Detailed K}, r.detailedCost t = .ok d → d.base = t.base := by
    intro r d hd
    unfold SimRun.detailedCost at hd
    simp only [bind_eq_ok, pure_eq_ok, Except.ok.injEq] at hd
    obtain ⟨_, _, _, _, _, _, rfl⟩ := hd
    rfl
  refine ⟨barSeries t.base D false, barSeries t.base D' true, c, c', ?_, e2, e2', ?_, ?_⟩
  · unfold comparisonBars utilityComparison
    rw [if_neg (by push Not; exact ⟨d1, d2⟩)]
    simp only [e1, e1', ok_bind, pure_eq_ok]
  · rw [e3, base_eq e1]
    unfold barSeries
    simp only [List.map_cons, List.map_nil, List.sum_cons, List.sum_nil, interleave_sum, List.sum_replicate]
    rw [nsmul_eq_mul]; push_cast; ring
  · rw [e3', base_eq e1']
    unfold barSeries
    simp only [List.map_cons, List.map_nil, List.sum_cons, List.sum_nil, interleave_sum, List.sum_replicate]
    rw [nsmul_eq_mul]; push_cast; ring

/-- Non-vacuity of C103: the bars of two one-step runs. -/
example : stackedAt (barSeries (10 : ℚ) ⟨[1, 2], [3, 4], [5, 6], [7, 8], 10⟩ false ++
    barSeries 10 ⟨[0, 1], [0, 1], [0, 1], [0, 1], 10⟩ true) 2 = 30 := by decide +kernel

/-! ## C104 -/

/-- Column `z` of a table, counted from 1. -/
def Spec.IsColumn (rows : List (List K)) (z : Int) (col : List K) : Prop :=
  List.Forall₂ (fun row x => row[(z - 1).toNat]? = some x) rows col

theorem loadColumn_ok (rows : List (List K)) (z : Int) (n : ℕ) (hn : ∀ r ∈ rows, r.length = n) (h1 : 1 ≤ z)
    (h2 : z ≤ n) : ∃ col, ClimateZone.loadColumn rows z = .ok col ∧ IsColumn rows z col := by
  unfold ClimateZone.loadColumn
  obtain ⟨col, hc⟩ := mapM_total (f := fun r => ClimateZone.pyGetInt r (z - 1)) (l := rows) (by
    intro r hr
    unfold ClimateZone.pyGetInt
    rw [if_pos (by omega)]
    exact ⟨_, pyGet_of_lt (by rw [hn r hr]; omega)⟩)
  refine ⟨col, hc, ?_⟩
  rw [mapM_eq_ok] at hc
  refine hc.imp ?_
  intro r x hx
  unfold ClimateZone.pyGetInt at hx
  rw [if_pos (by omega), pyGet_eq_ok] at hx
  exact hx

/-- **C104.** Unless exactly one argument is given, `ValueError`. -/
theorem C104_exactly_one_partial [FloorRing K] (t : ClimateZone.Tables K) (zip : Option String) (zone : Option Int)
    (station : Option String) (h : zip.toList.length + zone.toList.length + station.toList.length ≠ 1) :
    engineOatBuckets t zip zone station = .error .valueError := by
  cases zip <;> cases zone <;> cases station <;> simp_all [engineOatBuckets]

/-- **C104.** With a zone number from 1 to the number of columns, the answer counts the days of that column by their
average temperature; a zip code or station name gives the answer for the zone it is listed with. -/
theorem C104_answer [FloorRing K] (t : ClimateZone.Tables K) (n : ℕ) (hn : ∀ r ∈ t.oatRows, r.length = n)
    (hn' : ∀ r ∈ t.inletRows, r.length = n) (hrows : t.oatRows.length = 8760) :
    (∀ z : Int, 1 ≤ z → z ≤ n → ∃ col bs, IsColumn t.oatRows z col ∧ col.length = 8760 ∧
      engineOatBuckets t none (some z) none = .ok bs ∧ (bs.map (·.2)).sum = 365 ∧ (bs.map (·.1)).Nodup ∧
      ∀ b c, (b, c) ∈ bs → 0 < c ∧ ∃ k : ℤ, b = 5 * k ∧
        c = ((Finset.range 365).filter (fun d => (5 * k : K) ≤ dayMean col d ∧ dayMean col d < 5 * k + 5)).card) ∧
    (∀ zip z, ClimateZone.lookupZone t.zipRows zip = .ok z →
      engineOatBuckets t (some zip) none none = engineOatBuckets t none (some z) none) ∧
    (∀ station z, ClimateZone.lookupZone t.stationRows station = .ok z →
      engineOatBuckets t none none (some station) = engineOatBuckets t none (some z) none) := by
  refine ⟨?_, ?_, ?_⟩
  · intro z h1 h2
    obtain ⟨col, c1, c2⟩ := loadColumn_ok t.oatRows z n hn h1 h2
    obtain ⟨col', c1', _⟩ := loadColumn_ok t.inletRows z n hn' h1 h2
    have hz : ClimateZone.fromZoneId t z = .ok ⟨some z, some col, some col', none, none⟩ := by
      unfold ClimateZone.fromZoneId
      simp only [c1, c1', ok_bind, pure_eq_ok]
    obtain ⟨bs, b1, b2, b3, b4, _⟩ := C48_buckets_partition_year (⟨some z, some col, some col', none, none⟩ :
      ClimateZone K) col rfl
    refine ⟨col, bs, c2, by rw [← c2.length_eq, hrows], ?_, b2, b3, b4⟩
    unfold engineOatBuckets
    simp only [hz, ok_bind]
    exact b1
  · intro zip z h
    unfold engineOatBuckets ClimateZone.fromZipCode
    simp only [h, ok_bind]
  · intro zip z h
    unfold engineOatBuckets ClimateZone.fromWeatherStation
    simp only [h, ok_bind]

/-- **C104 fails for zone 0.** The number is not checked: zone 0 gives the answer for the last zone. -/
theorem C104_zone_zero [FloorRing K] (t : ClimateZone.Tables K) (n : ℕ) (hn : ∀ r ∈ t.oatRows, r.length = n)
    (hn' : ∀ r ∈ t.inletRows, r.length = n) (h0 : 0 < n) :
    engineOatBuckets t none (some 0) none = engineOatBuckets t none (some (n : Int)) none := by
  have key : ∀ rows : List (List K), (∀ r ∈ rows, r.length = n) →
      ClimateZone.loadColumn rows 0 = ClimateZone.loadColumn rows n := by
    intro rows hr
    unfold ClimateZone.loadColumn
    induction rows with
    | nil => rfl
    | cons r rows ih =>
      have hl := hr r (List.mem_cons_self ..)
      have e : ClimateZone.pyGetInt r (0 - 1) = ClimateZone.pyGetInt r ((n : Int) - 1) := by
        unfold ClimateZone.pyGetInt
        rw [if_neg (by omega), if_pos (by omega), if_pos (by omega), hl]
        congr 1
      rw [List.mapM_cons, List.mapM_cons, e, ih (fun r h => hr r (List.mem_cons_of_mem _ h))]
  unfold engineOatBuckets ClimateZone.fromZoneId
  simp only [key _ hn, key _ hn']
  cases ClimateZone.loadColumn t.oatRows (n : Int) with
  | error e => rfl
  | ok a =>
    cases ClimateZone.loadColumn t.inletRows (n : Int) with
    | error e => rfl
    | ok b => rfl

/-! ## C105 -/

/-- **C105.** A model name is accepted exactly if it is registered with pickle files or a performance map, and everything
else is a `ValueError`. -/
theorem C105_known_models (reg : List (String × RegistryEntry K)) (name : String) (units : ℕ) (inlet : K)
    (nominal : Option K) :
    ((∃ pm, fromModelName reg name units inlet nominal = .ok pm) ↔
      ∃ e, dictGet? reg name = some e ∧ (e.pkl.isSome ∨ e.perfmap.isSome)) ∧
    ∀ err, fromModelName reg name units inlet nominal = .error err → err = .valueError := by
  unfold fromModelName
  cases h : dictGet? reg name with
  | none => exact ⟨by simp, fun err h => by simp only [Except.error.injEq] at h; exact h.symm⟩
  | some e =>
    cases hp : e.pkl with
    | some d => simp [hp]
    | none =>
      cases hq : e.perfmap with
      | some es => simp [hp, hq]
      | none => exact ⟨by simp [hp, hq], fun err h => by simp only [hp, hq, Except.error.injEq] at h; exact h.symm⟩

/-- **C105, what is loaded.** Pickle files are preferred to the performance map. The number of units, the design
cold-water temperature and the nominal capacity are those that were given, and the map reads two inputs instead of
three exactly for the documented names. -/
theorem C105_loaded (reg : List (String × RegistryEntry K)) (name : String) (units : ℕ) (inlet : K)
    (nominal : Option K) (e : RegistryEntry K) (pm : PerfMap K) (he : dictGet? reg name = some e)
    (h : fromModelName reg name units inlet nominal = .ok pm) :
    (∀ d, e.pkl = some d → ∃ c, pm = .pkl c ∧ c.outInterp = d.outInterp ∧ c.inInterp = d.inInterp ∧
      c.numUnits = units ∧ c.designInlet = inlet ∧ c.nominal = nominal ∧ c.secondaryHx = e.secondaryHx ∧
      (c.twoInput = true ↔ name ∈ ["MODELS_SANCO2_C_SP", "MODELS_COLMAC_R454B_C_SP", "MODELS_Droplet_C_SP"] ∨
        "MP".toList <:+ name.toList ∨ "Lochinvar".toList <:+: name.toList)) ∧
    (e.pkl = none → ∃ c, pm = .sim c ∧ e.perfmap = some c.entries ∧ c.numUnits = units ∧ c.designInlet = inlet ∧
      c.nominal = nominal ∧ (c.multipass = true ↔ "MP".toList <:+ name.toList)) := by
  unfold fromModelName at h
  simp only [he] at h
  constructor
  · intro d hd
    simp only [hd, Except.ok.injEq] at h
    subst h
    refine ⟨_, rfl, rfl, rfl, rfl, rfl, rfl, rfl, ?_⟩
    simp only [isTwoInput, endsWithMp, Bool.or_eq_true, decide_eq_true_eq, List.isSuffixOf_iff_suffix, or_assoc]
    rfl
  · intro hp
    simp only [hp] at h
    cases hq : e.perfmap with
    | none => simp [hq] at h
    | some es =>
      simp only [hq, Except.ok.injEq] at h
      subst h
      refine ⟨_, rfl, rfl, rfl, rfl, rfl, ?_⟩
      simp only [endsWithMp, List.isSuffixOf_iff_suffix]

/-- **C105, partial: pass type.** A code that the catalogue lists as multi-pass is loaded as multi-pass, and one that ends
in `_SP` is listed and loaded as single-pass. Missing: codes that end in `MP` without the underscore
(`C105_listed_single_loaded_multi`). -/
theorem C105_pass_type_partial (code : String) :
    (isMpCode code = true → endsWithMp code = true) ∧
    ("_SP".toList <:+ code.toList → isMpCode code = false ∧ endsWithMp code = false) := by
  unfold isMpCode endsWithMp
  refine ⟨?_, ?_⟩
  · rw [List.isSuffixOf_iff_suffix, List.isSuffixOf_iff_suffix]
    intro h
    exact List.IsSuffix.trans ⟨['_'], rfl⟩ h
  · rintro ⟨pre, h⟩
    rw [← h]
    refine ⟨?_, ?_⟩
    · rw [Bool.eq_false_iff, ne_eq, List.isSuffixOf_iff_suffix]
      intro hs
      have := (List.suffix_or_suffix_of_suffix hs ⟨pre, rfl⟩)
      revert this; decide
    · rw [Bool.eq_false_iff, ne_eq, List.isSuffixOf_iff_suffix]
      intro hs
      have := (List.suffix_or_suffix_of_suffix hs ⟨pre, rfl⟩)
      revert this; decide

/-- **C105 fails in general.** A code that ends in `MP` without an underscore is listed with the single-pass models and
loaded as multi-pass. No code of the shipped registry is of this form. -/
theorem C105_listed_single_loaded_multi :
    isMpCode "MODELS_XMP" = false ∧ endsWithMp "MODELS_XMP" = true := by decide

/-- Non-vacuity of C105: a registered multi-pass model with one entry. -/
example : (match fromModelName [("MODELS_X_C_MP", (⟨none, some [], false, 0⟩ : RegistryEntry ℚ))] "MODELS_X_C_MP" 2 50 none with
    | .ok (.sim c) => c.multipass && decide (c.numUnits = 2)
    | _ => false) = true := by decide

/-! ## C106 -/

theorem dhwFromSize_ok {db : ShapeFiles K} {b : Building K} {a : SizeArgs K} {s : DhwSys K} {p : Prim K}
    (h : dhwFromSize db b a = .ok (s, p)) : ∃ cap vol, getMinCapacity s = .ok cap ∧ getMinStorage s = .ok vol ∧
      p = Prim.ofSized ⟨a.supply, a.storage, a.maxRunHr.getD 24, a.defrost⟩ cap vol (28 / 10) (a.control.map (·.1))
        (a.control.map (·.2)) := by
  unfold dhwFromSize at h
  simp only [bind_eq_ok, pure_eq_ok, Except.ok.injEq, Prod.mk.injEq] at h
  obtain ⟨s0, _, cap, h1, vol, h2, rfl, rfl⟩ := h
  exact ⟨cap, vol, h1, h2, rfl⟩

/-- **C106, partial.** A primary system that the engine sizes can be simulated for three days and for a year without an
exception, if its storage is not zero, every load-up hour has controls and the building has weather data. Missing: a
storage of zero gallons (`C106_flat_use_crashes`) and load-up hours without controls (`C19_load_up_without_controls`). -/
theorem C106_sized_can_be_simulated_partial (q : EngineParams K) (sched : List String) (m : ControlMap K)
    (hc : q.buildControlMap = .ok (sched, m)) (hlu : q.loadUpFract.isSome ∨ q.loadUpHours ≤ 0)
    (db : ShapeFiles K) (b : Building K) (a : SizeArgs K) (ha : a.control = some (sched, m)) (s : DhwSys K) (p : Prim K)
    (h : dhwFromSize db b a = .ok (s, p)) (hb : Answers b) (h0 : getMinStorage s ≠ .ok 0) (thr : K) (maxMin : Int)
    (duration : String) (hd : duration = "3day" ∨ duration = "annual") :
    ∃ p' r, p.simulate b thr maxMin duration = .ok (p', r) := by
  obtain ⟨cap, vol, h1, h2, rfl⟩ := dhwFromSize_ok h
  apply C91_completes_partial _ b thr maxMin duration hd hb
  · intro w hw
    obtain rfl : w = Heater.fromNominal cap (some sched) (some m) := by simpa [Prim.ofSized, ha] using hw
    refine ⟨?_, ?_, ?_⟩
    · intro hour hh
      obtain ⟨hlen, hlab⟩ := sched_labels q sched m hc
      obtain ⟨c, hcc, _⟩ := C19_all_hours_have_controls_partial q sched m hc hlu
        (Heater.fromNominal cap (some sched) (some m)) rfl rfl hour hh
      unfold Heater.getControls at hcc
      simp only [Heater.fromNominal, bind_eq_ok, pure_eq_ok, Except.ok.injEq] at hcc
      obtain ⟨mode, hm1, hm2⟩ := hcc
      exact ⟨c, sched, m, mode, rfl, rfl, pyGet_eq_ok.mp hm1, hm2⟩
    · intro oat outlet inlet
      exact ⟨_, rfl⟩
    · intro oat outlet inlet
      exact ⟨_, rfl⟩
  · intro t ht
    have hv : vol ≠ 0 := fun hv => h0 (by rw [h2, hv])
    simp only [Prim.ofSized, Option.some.injEq] at ht
    subst ht
    exact ⟨hv, by show (28 / 10 : K) ≠ 0; norm_num⟩

namespace Demo

/-- The arguments the engine passes for the demo system. -/
def sizeArgs : SizeArgs ℚ := ⟨120, 150, 1, some 16, none, none, none, none, some (allNormal, highSensor), none⟩

end Demo

/-- **C106 fails.** For a building that uses the same in every hour the sized storage is zero gallons, and the simulation
of the sized system raises `ZeroDivisionError`. -/
theorem C106_flat_use_crashes : ∃ s p, dhwFromSize Demo.noFiles Demo.evenBuilding Demo.sizeArgs = .ok (s, p) ∧
    getMinStorage s = .ok 0 ∧ p.simulate Demo.evenBuilding 5 10 "3day" = .error .zeroDivision := by
  have h : (match dhwFromSize Demo.noFiles Demo.evenBuilding Demo.sizeArgs with
    | .ok (s, p) => decide (getMinStorage s = .ok 0) &&
        (match p.simulate Demo.evenBuilding 5 10 "3day" with
        | .error .zeroDivision => true
        | _ => false)
    | .error _ => false) = true := by decide +kernel
  split at h
  · rename_i s p hs
    simp only [Bool.and_eq_true, decide_eq_true_eq] at h
    refine ⟨s, p, hs, h.1, ?_⟩
    have h2 := h.2
    split at h2
    · assumption
    · simp at h2
  · simp at h

/-- Non-vacuity of C106: the demo building is sized with storage. -/
example : ∃ s p, dhwFromSize Demo.noFiles Demo.building Demo.sizeArgs = .ok (s, p) ∧
    getMinStorage s = .ok (24500 / 83) := by
  have h : (match dhwFromSize Demo.noFiles Demo.building Demo.sizeArgs with
    | .ok (s, _) => decide (getMinStorage s = .ok (24500 / 83))
    | .error _ => false) = true := by decide +kernel
  split at h
  · rename_i s p hs
    exact ⟨s, p, hs, by simpa using h⟩
  · simp at h

end Eco
