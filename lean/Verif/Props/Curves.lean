import Verif.Props.Size

/-! C10 to C12: the sizing curves. -/

namespace Eco
set_option linter.unusedSectionVars false
variable {K : Type} [Field K] [LinearOrder K] [IsStrictOrderedRing K]

/-! ## The sweep -/

/-- What direct sizing gives at run hours `h` with a given stratification factor. -/
def DirectPoint (M : SizingMethods K) (c : SysCfg K) (b : Building K) (factor : K)
    (p : K × K × K) : Prop :=
  ∃ rv, M.reqCapacity { c with maxRunHr := p.1 } b = .ok p.2.1 ∧
    M.runVol { c with maxRunHr := p.1 } b p.2.1 = .ok rv ∧ rv ≠ 0 ∧
    storageVolume rv factor = .ok p.2.2

theorem curvePoint_some {M : SizingMethods K} {c : SysCfg K} {b : Building K} {factor : K}
    {p : K × K × K} (h : curvePoint M c b factor = .ok (some p)) :
    p.1 = c.maxRunHr ∧ DirectPoint M c b factor p := by
  unfold curvePoint at h
  simp only at h
  generalize hr : (do
    let cap ← M.reqCapacity c b
    let rv ← M.runVol c b cap
    if rv = 0 then return none
    else do
      let st ← storageVolume rv factor
      return some (c.maxRunHr, cap, st) : Py (Option (K × K × K))) = r at h
  have hr' : r = .ok (some p) := by
    split at h
    · simp at h
    · simp at h
    · exact h
  rw [hr'] at hr
  simp only [bind_eq_ok] at hr
  obtain ⟨cap, h1, rv, h2, h3⟩ := hr
  split at h3
  · simp at h3
  · rename_i hrv
    simp only [bind_eq_ok, pure_eq_ok, Except.ok.injEq, Option.some.injEq] at h3
    obtain ⟨st, h4, rfl⟩ := h3
    exact ⟨rfl, rv, h1, h2, hrv, h4⟩

theorem sweep_cfg (M : SizingMethods K) (b : Building K) (factor : K) (c : SysCfg K) (hs : List K)
    (r : K) : { (sweep M b factor c hs).1 with maxRunHr := r } = { c with maxRunHr := r } := by
  induction hs generalizing c with
  | nil => rfl
  | cons h hs ih =>
    unfold sweep
    simp only
    split
    · rfl
    · rfl
    · simp only; rw [ih]

theorem sweep_prefix {M : SizingMethods K} {b : Building K} {factor : K} {c : SysCfg K}
    {hs : List K} {pts : List (K × K × K)} (h : (sweep M b factor c hs).2 = .ok pts) :
    pts.map (·.1) <+: hs ∧ ∀ p ∈ pts, DirectPoint M c b factor p := by
  induction hs generalizing c pts with
  | nil =>
    simp only [sweep, Except.ok.injEq] at h
    subst h; simp
  | cons x hs ih =>
    unfold sweep at h
    simp only at h
    split at h
    · simp at h
    · simp only [Except.ok.injEq] at h
      subst h; simp
    · rename_i p hp
      simp only [bind_eq_ok, Except.ok.injEq] at h
      obtain ⟨ps, h1, rfl⟩ := h
      obtain ⟨h2, h3⟩ := ih h1
      obtain ⟨h4, h5⟩ := curvePoint_some hp
      constructor
      · simp only [List.map_cons]
        rw [h4, List.cons_prefix_cons]
        exact ⟨rfl, h2⟩
      · intro q hq
        rcases List.mem_cons.mp hq with rfl | hq
        · exact h5
        · exact h3 q hq

/-! ## `np.arange` -/

theorem arangeDown_getElem? [FloorRing K] (start stop step : K) (i : Nat)
    (hi : i < ⌈(start - stop) / step⌉₊) :
    (arangeDown start stop step)[i]? = some (start - i * step) := by
  simp [arangeDown, hi]

theorem arangeDown_length [FloorRing K] (start stop step : K) :
    (arangeDown start stop step).length = ⌈(start - stop) / step⌉₊ := by simp [arangeDown]

theorem mem_arangeDown [FloorRing K] {start stop step x : K} (hs : 0 < step)
    (h : x ∈ arangeDown start stop step) : stop < x ∧ x ≤ start := by
  unfold arangeDown at h
  simp only [List.mem_map, List.mem_range] at h
  obtain ⟨i, hi, rfl⟩ := h
  rw [Nat.lt_ceil, lt_div_iff₀ hs] at hi
  constructor
  · linarith
  · have : 0 ≤ (i : K) * step := mul_nonneg (Nat.cast_nonneg _) hs.le
    linarith

theorem arangeDown_pairwise [FloorRing K] (start stop : K) {step : K} (hs : 0 < step) :
    (arangeDown start stop step).Pairwise (· > ·) := by
  unfold arangeDown
  rw [List.pairwise_map]
  apply List.Pairwise.imp _ List.pairwise_lt_range
  intro i j hij
  have : (i : K) < j := by exact_mod_cast hij
  have := mul_lt_mul_of_pos_right this hs
  show start - (j : K) * step < start - (i : K) * step
  linarith

/-! ## C10 -/

theorem stratFactor_maxRunHr (c : SysCfg K) (r : K) (cmap : Option (ControlMap K)) (slope inlet : K) :
    stratFactor { c with maxRunHr := r } cmap slope inlet = stratFactor c cmap slope inlet := by
  unfold stratFactor
  rcases cmap with _ | (_ | ⟨p, ps⟩) <;> rfl

theorem getSizingCurve_ok [FloorRing K] {M : SizingMethods K} {db : ShapeFiles K} {s s' : DhwSys K}
    {b b' : Building K} {slope step : K} {cv : Curve K}
    (h : getSizingCurve M db s b slope step = ((s', b'), .ok cv)) :
    ∃ b1 factor a1 a2, dailyView db b = .ok b1 ∧
      curveSetup s b1 (s.sizingSlope.getD slope) step = .ok (factor, a1, a2) ∧
      (sweep M b1 factor s.cfg (a1 ++ a2)).2 = .ok cv.points ∧
      cv.recIndex = min a1.length (cv.points.length - 1) := by
  unfold getSizingCurve at h
  cases hb : dailyView db b with
  | error e => rw [dailyView] at hb; simp [hb] at h
  | ok b1 =>
    rw [dailyView] at hb
    simp only [hb] at h
    have hr : (sizingCurveBody M s b1 (s.sizingSlope.getD slope) step).2 = .ok cv := by
      split at h
      · split at h
        · simp at h
        · simp only [Prod.mk.injEq] at h; exact h.2
      · simp only [Prod.mk.injEq] at h; exact h.2
    unfold sizingCurveBody at hr
    split at hr
    · simp at hr
    · rename_i factor a1 a2 hset
      simp only at hr
      split at hr
      · simp at hr
      · rename_i pts hp
        simp only [Except.ok.injEq] at hr
        subst hr
        exact ⟨b1, factor, a1, a2, rfl, hset, hp, rfl⟩

theorem curveSetup_ok [FloorRing K] {s : DhwSys K} {b : Building K} {slope step factor : K}
    {a1 a2 : List K} (h : curveSetup s b slope step = .ok (factor, a1, a2)) :
    ∃ inlet mx, requireDesignInlet b = .ok inlet ∧
      stratFactor s.cfg s.heaterMap slope inlet = .ok factor ∧ b.peakShape.max? = some mx ∧
      mx ≠ 0 ∧ a1 = arangeDown 24 s.cfg.maxRunHr step ∧
      a2 = arangeDown s.cfg.maxRunHr (1 / mx * (1001 / 1000)) step := by
  unfold curveSetup at h
  simp only [bind_eq_ok] at h
  obtain ⟨inlet, h1, f, h2, mx, h3, inv, h4, h5⟩ := h
  rw [fdiv_eq_ok] at h4
  split at h5
  · simp at h5
  · simp only [pure_eq_ok, Except.ok.injEq, Prod.mk.injEq] at h5
    obtain ⟨rfl, rfl, rfl⟩ := h5
    refine ⟨inlet, mx, h1, h2, ?_, h4.1, rfl, by rw [h4.2]⟩
    unfold npMax at h3
    split at h3 <;> simp_all

/-- **C10 (state).** However it ends, the curve leaves the system (run hours and results) as it was,
and a building on the daily shape too. -/
theorem C10_curve_leaves_system [FloorRing K] (M : SizingMethods K) (db : ShapeFiles K)
    (s : DhwSys K) (b : Building K) (slope step : K) :
    (getSizingCurve M db s b slope step).1.1 = s ∧
    (b.isAnnual = false → (getSizingCurve M db s b slope step).1.2 = b) ∧
    ((∀ f, db "multi_family" = some f → f.annual.length = 8760) →
      (getSizingCurve M db s b slope step).1.2.isAnnual = b.isAnnual) := by
  have hbody : ∀ b1 sl, (sizingCurveBody M s b1 sl step).1 = s := by
    intro b1 sl
    unfold sizingCurveBody
    split
    · rfl
    · simp only
      split
      · simp only; rw [sweep_cfg]
      · simp only; rw [sweep_cfg]
  unfold getSizingCurve
  cases hA : b.isAnnual with
  | false => simp [hbody, hA]
  | true =>
    cases hb : b.setToDaily db with
    | error e => simp [hA]
    | ok b1 =>
      obtain ⟨d, hd, _, h3, _⟩ := setToAnnual_of_setToDaily hb
      simp only [h3, hbody, if_true, true_and]
      refine ⟨by simp, fun hlen => ?_⟩
      simp [Building.isAnnual, hlen d hd]

/-- **C10 (points).** Every point of the curve is what `size` (without a schedule, with the control
map of the system's heater and the slope of the last sizing) stores for these run hours, whatever
run hours and results the system has. -/
theorem C10_points_are_direct_sizing [FloorRing K] (M : SizingMethods K) (db : ShapeFiles K)
    (s s' : DhwSys K) (b b' : Building K) (slope step fract : K) (cv : Curve K)
    (h : getSizingCurve M db s b slope step = ((s', b'), .ok cv)) (p : K × K × K)
    (hp : p ∈ cv.points) :
    let s0 : DhwSys K := { s with cfg := { s.cfg with maxRunHr := p.1 } }
    let r := size M db s0 b none s.heaterMap (s.sizingSlope.getD slope) fract
    getMinCapacity r.1.1 = .ok p.2.1 ∧ getMinStorage r.1.1 = .ok p.2.2 := by
  intro s0 r
  obtain ⟨b1, factor, a1, a2, hb, hset, hsw, _⟩ := getSizingCurve_ok h
  obtain ⟨inlet, mx, h1, h2, _⟩ := curveSetup_ok hset
  obtain ⟨rv, e1, e2, e3, e4⟩ := (sweep_prefix hsw).2 p hp
  have hls : lsInputs (K := K) none s.heaterMap = none := by simp [lsInputs, truthySched]
  have hcore : sizeCore M (cappedCfg s0.cfg (lsInputs none s.heaterMap)) b1
      (lsInputs none s.heaterMap) s.heaterMap (s.sizingSlope.getD slope) fract
      = .ok (p.2.1, p.2.2) := by
    rw [hls]
    unfold sizeCore
    have f1 : M.reqCapacity (cappedCfg s0.cfg none) b1 = .ok p.2.1 := e1
    have f2 : M.runVol (cappedCfg s0.cfg none) b1 p.2.1 = .ok rv := e2
    have f3 : stratFactor (cappedCfg s0.cfg none) s.heaterMap (s.sizingSlope.getD slope) inlet
        = .ok factor := by
      have := stratFactor_maxRunHr s.cfg p.1 s.heaterMap (s.sizingSlope.getD slope) inlet
      rw [← h2, ← this]; rfl
    simp only [h1, f1, f2, f3, e4, ok_bind, pure_eq_ok]
  rcases size_cases M db s0 b none s.heaterMap (s.sizingSlope.getD slope) fract with
    ⟨e, hd, _⟩ | ⟨b'', hb'', ⟨e, hd, _⟩ | ⟨c2, st2, hd, hrest⟩⟩
  · rw [hb] at hd; simp at hd
  · rw [hb] at hb''
    obtain rfl : b1 = b'' := by injection hb''
    rw [hcore] at hd; simp at hd
  · rw [hb] at hb''
    obtain rfl : b1 = b'' := by injection hb''
    rw [hcore] at hd
    simp only [Except.ok.injEq, Prod.mk.injEq] at hd
    obtain ⟨rfl, rfl⟩ := hd
    rcases hrest with ⟨e, _, hs⟩ | ⟨_, _, _, hs, _⟩ <;>
      simp [r, hs, getMinCapacity, getMinStorage]

/-- **C10 (shape of the lists).** For a positive step and at most 24 run hours: the recommended index
is inside the lists unless they are empty, run hours strictly decrease, none exceeds 24, and all
exceed the physical minimum `1.001 / (largest hourly fraction)` or the configured run hours,
whichever is less. -/
theorem C10_run_hours_decrease [FloorRing K] (M : SizingMethods K) (db : ShapeFiles K)
    (s s' : DhwSys K) (b b' b1 : Building K) (slope step : K) (cv : Curve K)
    (hstep : 0 < step) (hrun : s.cfg.maxRunHr ≤ 24) (hb1 : dailyView db b = .ok b1)
    (h : getSizingCurve M db s b slope step = ((s', b'), .ok cv)) :
    (cv.points ≠ [] → cv.recIndex < cv.points.length) ∧
    (cv.points.map (·.1)).Pairwise (· > ·) ∧
    ∃ mx, b1.peakShape.max? = some mx ∧
      ∀ p ∈ cv.points, p.1 ≤ 24 ∧ min s.cfg.maxRunHr (1 / mx * (1001 / 1000)) < p.1 := by
  obtain ⟨b1', factor, a1, a2, hb, hset, hsw, hrec⟩ := getSizingCurve_ok h
  rw [hb1] at hb
  obtain rfl : b1 = b1' := by injection hb
  obtain ⟨inlet, mx, h1, h2, h3, h4, h5, h6⟩ := curveSetup_ok hset
  have hpre := (sweep_prefix hsw).1
  refine ⟨?_, ?_, mx, h3, ?_⟩
  · intro hne
    have : 0 < cv.points.length := List.length_pos_iff.mpr hne
    rw [hrec]; omega
  · apply List.Pairwise.sublist hpre.sublist
    rw [List.pairwise_append]
    refine ⟨h5 ▸ arangeDown_pairwise _ _ hstep, h6 ▸ arangeDown_pairwise _ _ hstep, ?_⟩
    intro x hx y hy
    rw [h5] at hx; rw [h6] at hy
    have hx := mem_arangeDown hstep hx
    have hy := mem_arangeDown hstep hy
    exact lt_of_le_of_lt hy.2 hx.1
  · intro p hp
    have hm : p.1 ∈ a1 ++ a2 := hpre.subset (List.mem_map_of_mem hp)
    rcases List.mem_append.mp hm with hx | hx
    · rw [h5] at hx
      have hx := mem_arangeDown hstep hx
      exact ⟨hx.2, lt_of_le_of_lt (min_le_left _ _) hx.1⟩
    · rw [h6] at hx
      have hx := mem_arangeDown hstep hx
      exact ⟨le_trans hx.2 hrun, lt_of_le_of_lt (min_le_right _ _) hx.1⟩

/-- A day that can be sized: 24 hourly fractions, normalised, and a positive daily use. -/
structure GoodDay (b : Building K) : Prop where
  len : b.peakShape.length = 24
  sum : b.peakShape.sum = 1
  daily : 0 < b.dailyGal

theorem exists_pos_of_sum {l : List K} (h : 0 < l.sum) : ∃ f ∈ l, 0 < f := by
  by_contra hc
  push Not at hc
  have : ∀ m : List K, (∀ f ∈ m, f ≤ 0) → m.sum ≤ 0 := by
    intro m
    induction m with
    | nil => simp
    | cons x xs ih =>
      intro hm
      rw [List.sum_cons]
      have := hm x (by simp)
      have := ih (fun f hf => hm f (by simp [hf]))
      linarith
  have := this l hc
  linarith

theorem le_of_max? {l : List K} {m : K} (h : l.max? = some m) : ∀ x ∈ l, x ≤ m :=
  (List.max?_eq_some_iff.mp h).2

/-- **C10 (order).** For the base system on a normalised day, along the list the capacity never falls
and the storage never rises, and no point lies at or below the run hours at which generation meets
the peak hour. -/
theorem C10_capacity_up_storage_down [FloorRing K] (db : ShapeFiles K)
    (s s' : DhwSys K) (b b' b1 : Building K) (slope step inlet factor : K) (cv : Curve K)
    (hstep : 0 < step) (hrun0 : 0 < s.cfg.maxRunHr) (hrun : s.cfg.maxRunHr ≤ 24)
    (hb1 : dailyView db b = .ok b1) (hday : GoodDay b1)
    (hin : requireDesignInlet b1 = .ok inlet) (hwarm : inlet ≤ s.cfg.supply)
    (hdef : 0 < s.cfg.defrost)
    (hfac : stratFactor s.cfg s.heaterMap (s.sizingSlope.getD slope) inlet = .ok factor)
    (hf0 : 0 ≤ factor)
    (h : getSizingCurve baseMethods db s b slope step = ((s', b'), .ok cv)) :
    cv.points.Pairwise (fun p q => p.2.1 ≤ q.2.1 ∧ q.2.2 ≤ p.2.2) ∧
    ∀ p ∈ cv.points, ∃ f ∈ b1.peakShape, 1 < p.1 * f := by
  obtain ⟨-, hdec, mx, hmx, hbd⟩ :=
    C10_run_hours_decrease baseMethods db s s' b b' b1 slope step cv hstep hrun hb1 h
  obtain ⟨b1', factor', a1, a2, hb, hset, hsw, hrec⟩ := getSizingCurve_ok h
  rw [hb1] at hb
  obtain rfl : b1 = b1' := by injection hb
  obtain ⟨inlet', mx', g1, g2, g3, g4, g5, g6⟩ := curveSetup_ok hset
  rw [hin] at g1
  obtain rfl : inlet = inlet' := by injection g1
  rw [hfac] at g2
  obtain rfl : factor = factor' := by injection g2
  have hdirect := (sweep_prefix hsw).2
  have hne : b1.peakShape ≠ [] := by
    intro hh; have := hday.len; rw [hh] at this; simp at this
  have hmxpos : 0 < mx := by
    obtain ⟨f, hf, hpos⟩ := exists_pos_of_sum (l := b1.peakShape) (by rw [hday.sum]; norm_num)
    exact lt_of_lt_of_le hpos (le_of_max? hmx f hf)
  have hpos : ∀ p ∈ cv.points, 0 < p.1 := by
    intro p hp
    refine lt_trans ?_ (hbd p hp).2
    exact lt_min hrun0 (by positivity)
  have hcover : ∀ p ∈ cv.points,
      b1.dailyGal * b1.peakShape.sum ≤ b1.peakShape.length * (b1.dailyGal / p.1) := by
    intro p hp
    exact cover_of_normalised hday.daily.le hday.len hday.sum.le (hpos p hp) (hbd p hp).1
  constructor
  · rw [List.pairwise_map] at hdec
    refine List.Pairwise.imp_of_mem ?_ hdec
    intro p q hp hq hpq
    obtain ⟨rv, e1, e2, e3, e4⟩ := hdirect p hp
    obtain ⟨rv', e1', e2', e3', e4'⟩ := hdirect q hq
    have hf : 0 < factor := by
      rw [storageVolume, fdiv_eq_ok] at e4
      exact lt_of_le_of_ne hf0 (Ne.symm e4.1)
    exact C04_run_hours_tradeoff { s.cfg with maxRunHr := p.1 } q.1 b1 factor inlet p.2.1 q.2.1 rv rv'
      p.2.2 q.2.2 hne hday.daily.le (hpos q hq) hpq.le (hcover p hp) hin hwarm hdef hf e1 e1' e2 e2'
      e4 e4'
  · intro p hp
    obtain ⟨rv, e1, e2, e3, e4⟩ := hdirect p hp
    by_contra hc
    push Not at hc
    apply e3
    have h0 := (C01_zero_iff b1.dailyGal p.1 b1.peakShape hne (hpos p hp).ne' (hcover p hp)).mpr (by
      intro f hf
      rw [le_div_iff₀ (hpos p hp)]
      have := mul_le_mul_of_nonneg_left (hc f hf) hday.daily.le
      linarith)
    have e2' : runningVolume b1.dailyGal p.1 b1.peakShape = .ok rv := e2
    rw [h0] at e2'
    injection e2' with e; exact e.symm

/-! ## C11 -/

/-- **C11.** A system built by sizing without load shifting, whose curve goes on past the points
above the configured run hours: the recommended point has the configured run hours and the
capacity and storage the system reports. -/
theorem C11_recommended_point_is_sized_system [FloorRing K] (M : SizingMethods K)
    (db : ShapeFiles K) (c : SysCfg K) (b b' b'' : Building K) (sched : Option (List String))
    (cmap : Option (ControlMap K)) (slope fract slope' step : K) (s s' : DhwSys K) (cv : Curve K)
    (hlen : ∀ f, db "multi_family" = some f → f.annual.length = 8760)
    (hnols : lsInputs sched cmap = none)
    (hsize : fromSize M db c b sched cmap slope fract = (b', .ok s))
    (hcurve : getSizingCurve M db s b' slope' step = ((s', b''), .ok cv))
    (hreach : ⌈(24 - c.maxRunHr) / step⌉₊ < cv.points.length) :
    ∃ cap st, getMinCapacity s = .ok cap ∧ getMinStorage s = .ok st ∧
      cv.points[cv.recIndex]? = some (c.maxRunHr, cap, st) := by
  -- the sized system
  unfold fromSize at hsize
  split at hsize
  · simp at hsize
  · rename_i s1 b1 ws hs
    simp only [Prod.mk.injEq, Except.ok.injEq] at hsize
    obtain ⟨rfl, rfl⟩ := hsize
    rcases size_cases M db { cfg := c } b sched cmap slope fract with
      ⟨e', _, he⟩ | ⟨bd, hb', ⟨e', _, he⟩ | ⟨cap, st, hc, ⟨e', hw, he⟩ | ⟨ws', b3, hw, he, h1, h2⟩⟩⟩
    · rw [he] at hs; simp at hs
    · rw [he] at hs; simp at hs
    · rw [he] at hs; simp at hs
    rw [he] at hs
    simp only [Prod.mk.injEq, Except.ok.injEq] at hs
    obtain ⟨⟨rfl, rfl⟩, rfl⟩ := hs
    refine ⟨cap, st, rfl, rfl, ?_⟩
    -- the curve
    obtain ⟨b2, factor, a1, a2, hb2, hset, hsw, hrec⟩ := getSizingCurve_ok hcurve
    obtain ⟨inlet, mx, g1, g2, g3, g4, g5, g6⟩ := curveSetup_ok hset
    simp only [Option.getD_some] at g2 g5 g6 hsw
    have hbd : b2 = bd := by
      cases hA : b.isAnnual with
      | false =>
        rw [h1 hA] at hb2
        rw [hb'] at hb2; injection hb2 with h; exact h.symm
      | true =>
        have h3 := h2 hA
        have hb0 := hb'
        simp only [dailyView, hA, if_true] at hb0
        obtain ⟨d, hd, ht, h4, a, ha, hb1⟩ := setToAnnual_of_setToDaily hb0
        rw [h3] at h4
        obtain rfl : b3 = { b with peakShape := d.annual, avgShape := d.annual } := by injection h4
        have hA3 : ({ b with peakShape := d.annual, avgShape := d.annual } : Building K).isAnnual
            = true := by simp [Building.isAnnual, hlen d hd]
        rw [dailyView, if_pos hA3] at hb2
        simp [Building.setToDaily, ht, loadShapeJson, hd, ha] at hb2
        rw [← hb2, hb1, ht]
    subst hbd
    have hl1 : a1.length = ⌈(24 - c.maxRunHr) / step⌉₊ := by rw [g5, arangeDown_length]
    have hidx : cv.recIndex = a1.length := by rw [hrec]; omega
    obtain ⟨hpre, hdir⟩ := sweep_prefix hsw
    have hlt : a1.length < cv.points.length := by rw [hl1]; exact hreach
    have hlt2 : a1.length < (a1 ++ a2).length := by
      have := hpre.length_le
      simp only [List.length_map] at this
      omega
    have hpt : (cv.points[a1.length]).1 = c.maxRunHr := by
      have e1 : (cv.points.map (·.1))[a1.length]? = (a1 ++ a2)[a1.length]? := by
        obtain ⟨t, ht⟩ := hpre
        rw [← ht, List.getElem?_append_left (by simpa using hlt)]
      rw [List.getElem?_append_right (le_refl _), Nat.sub_self] at e1
      have h0 : 0 < ⌈(c.maxRunHr - 1 / mx * (1001 / 1000)) / step⌉₊ := by
        have : a2.length = ⌈(c.maxRunHr - 1 / mx * (1001 / 1000)) / step⌉₊ := by
          rw [g6, arangeDown_length]
        rw [← this]
        simp only [List.length_append] at hlt2
        omega
      rw [g6, arangeDown_getElem? _ _ _ _ h0] at e1
      simp only [List.getElem?_map, List.getElem?_eq_getElem hlt, Option.map_some,
        Option.some.injEq, Nat.cast_zero, zero_mul, sub_zero] at e1
      exact e1
    obtain ⟨rv, e1, e2, e3, e4⟩ := hdir _ (List.getElem_mem hlt)
    rw [hpt] at e1 e2
    rw [hnols] at hc
    unfold sizeCore at hc
    simp only [bind_eq_ok, pure_eq_ok] at hc
    obtain ⟨inlet', k1, cap', k2, rv', k3, sf, k4, st', k5, k6⟩ := hc
    simp only [Except.ok.injEq, Prod.mk.injEq] at k6
    obtain ⟨rfl, rfl⟩ := k6
    have hcc : cappedCfg c none = c := rfl
    simp only [hcc] at k2 k3 k4
    rw [g1] at k1
    obtain rfl : inlet = inlet' := by injection k1
    rw [k2] at e1
    have ec : cap' = cv.points[a1.length].2.1 := by injection e1
    rw [← ec, k3] at e2
    obtain rfl : rv' = rv := by injection e2
    rw [g2] at k4
    obtain rfl : factor = sf := by injection k4
    rw [k5] at e4
    have es : st' = cv.points[a1.length].2.2 := by injection e4
    rw [hidx, List.getElem?_eq_getElem hlt, ← hpt, ec, es]

theorem sweep_total {M : SizingMethods K} {b : Building K} {factor : K} {c : SysCfg K} {hs : List K}
    (h : ∀ x ∈ hs, ∃ o, curvePoint M { c with maxRunHr := x } b factor = .ok o) :
    ∃ pts, (sweep M b factor c hs).2 = .ok pts := by
  induction hs generalizing c with
  | nil => exact ⟨[], rfl⟩
  | cons x xs ih =>
    obtain ⟨o, ho⟩ := h x (by simp)
    obtain ⟨pts, hp⟩ := ih (c := { c with maxRunHr := x }) (fun y hy => h y (by simp [hy]))
    unfold sweep
    simp only [ho]
    cases o with
    | none => exact ⟨[], rfl⟩
    | some p => exact ⟨p :: pts, by simp [hp]⟩

theorem sweep_reach {M : SizingMethods K} {b : Building K} {factor : K} {c : SysCfg K}
    {l1 l2 : List K} {pts : List (K × K × K)}
    (h : ∀ x ∈ l1, ∃ p, curvePoint M { c with maxRunHr := x } b factor = .ok (some p))
    (hs : (sweep M b factor c (l1 ++ l2)).2 = .ok pts) : l1.length ≤ pts.length := by
  induction l1 generalizing c pts with
  | nil => simp
  | cons x xs ih =>
    obtain ⟨p, hp⟩ := h x (by simp)
    rw [List.cons_append] at hs
    unfold sweep at hs
    simp only [hp, bind_eq_ok, Except.ok.injEq] at hs
    obtain ⟨ps, h1, rfl⟩ := hs
    have := ih (c := { c with maxRunHr := x }) (fun y hy => h y (by simp [hy])) h1
    simp; omega

/-- **C11 (the sweep gets there).** On a normalised day, with run hours above 1.001 times the
physical minimum, the curve is computed without an error and goes past the recommended point, so
that `C11_recommended_point_is_sized_system` applies. -/
theorem C11_sweep_reaches_recommended_point [FloorRing K] (db : ShapeFiles K) (s : DhwSys K)
    (b b1 : Building K) (slope step inlet factor mx : K)
    (hstep : 0 < step) (hrun : s.cfg.maxRunHr ≤ 24)
    (hb1 : dailyView db b = .ok b1) (hday : GoodDay b1)
    (hin : requireDesignInlet b1 = .ok inlet) (hdef : s.cfg.defrost ≠ 0)
    (hfac : stratFactor s.cfg s.heaterMap (s.sizingSlope.getD slope) inlet = .ok factor)
    (hf0 : factor ≠ 0) (hmx : b1.peakShape.max? = some mx)
    (hmin : 1 / mx * (1001 / 1000) < s.cfg.maxRunHr) :
    ∃ cv, (getSizingCurve baseMethods db s b slope step).2 = .ok cv ∧
      ⌈(24 - s.cfg.maxRunHr) / step⌉₊ < cv.points.length := by
  have hne : b1.peakShape ≠ [] := by
    intro hh; have := hday.len; rw [hh] at this; simp at this
  have hmxpos : 0 < mx := by
    obtain ⟨f, hf, hpos⟩ := exists_pos_of_sum (l := b1.peakShape) (by rw [hday.sum]; norm_num)
    exact lt_of_lt_of_le hpos (le_of_max? hmx f hf)
  have hminpos : 0 < 1 / mx * (1001 / 1000) := by positivity
  set a1 := arangeDown 24 s.cfg.maxRunHr step with ha1
  set a2 := arangeDown s.cfg.maxRunHr (1 / mx * (1001 / 1000)) step with ha2
  have hset : curveSetup s b1 (s.sizingSlope.getD slope) step = .ok (factor, a1, a2) := by
    simp [curveSetup, hin, hfac, npMax, hmx, fdiv, hmxpos.ne', hstep.ne', ha1, ha2]
  have hcv : ∀ x, 0 < x → (∃ o, curvePoint baseMethods { s.cfg with maxRunHr := x } b1 factor = .ok o) ∧
      (runningVolume b1.dailyGal x b1.peakShape ≠ .ok 0 →
        ∃ p, curvePoint baseMethods { s.cfg with maxRunHr := x } b1 factor = .ok (some p)) := by
    intro x hx
    obtain ⟨cap, hcap, _⟩ := C03_capacity_delivers_daily_heat { s.cfg with maxRunHr := x } b1 inlet hin
      hx.ne' hdef
    have hrv := runningVolume_ok (daily := b1.dailyGal) (shape := b1.peakShape) hx.ne'
    set rv := runningVolumeOfDiff (hourlyDiff (b1.dailyGal / x) b1.dailyGal b1.peakShape)
    have k1 : (baseMethods (K := K)).reqCapacity { s.cfg with maxRunHr := x } b1 = .ok cap := hcap
    have k2 : (baseMethods (K := K)).runVol { s.cfg with maxRunHr := x } b1 cap = .ok rv := hrv
    have k3 : storageVolume rv factor = .ok (rv / factor) := fdiv_ok _ hf0
    by_cases h0 : rv = 0
    · refine ⟨⟨none, ?_⟩, ?_⟩
      · simp only [curvePoint, k1, k2, ok_bind]
        simp [h0]
      · intro h; rw [hrv, h0] at h; exact absurd rfl h
    · have : curvePoint baseMethods { s.cfg with maxRunHr := x } b1 factor
          = .ok (some (x, cap, rv / factor)) := by
        simp only [curvePoint, k1, k2, ok_bind, k3]
        simp [h0]
      exact ⟨⟨_, this⟩, fun _ => ⟨_, this⟩⟩
  have hpos : ∀ x ∈ a1 ++ a2, 0 < x := by
    intro x hx
    rcases List.mem_append.mp hx with h | h
    · have := mem_arangeDown hstep h; linarith [this.1]
    · have := mem_arangeDown hstep h; linarith [this.1]
  obtain ⟨pts, hpts⟩ := sweep_total (M := baseMethods) (b := b1) (factor := factor) (c := s.cfg)
    (hs := a1 ++ a2) (fun x hx => (hcv x (hpos x hx)).1)
  -- the second segment starts with the configured run hours
  have hn2 : 0 < ⌈(s.cfg.maxRunHr - 1 / mx * (1001 / 1000)) / step⌉₊ := by
    rw [Nat.ceil_pos]; apply div_pos _ hstep; linarith
  obtain ⟨r2, hr2⟩ : ∃ r2, a2 = s.cfg.maxRunHr :: r2 := by
    have h0 := arangeDown_getElem? s.cfg.maxRunHr (1 / mx * (1001 / 1000)) step 0 hn2
    rw [← ha2] at h0
    cases hc : a2 with
    | nil => rw [hc] at h0; simp at h0
    | cons y ys => rw [hc] at h0; simp at h0; exact ⟨ys, by rw [h0]⟩
  have hreach : (a1 ++ [s.cfg.maxRunHr]).length ≤ pts.length := by
    apply sweep_reach (M := baseMethods) (b := b1) (factor := factor) (c := s.cfg) (l2 := r2)
    · intro x hx
      have hxr : s.cfg.maxRunHr ≤ x ∧ x ≤ 24 := by
        rcases List.mem_append.mp hx with h | h
        · have := mem_arangeDown hstep h; exact ⟨this.1.le, this.2⟩
        · simp at h; rw [h]; exact ⟨le_refl _, hrun⟩
      have hx0 : 0 < x := by linarith
      apply (hcv x hx0).2
      intro h0
      have := (C01_zero_iff b1.dailyGal x b1.peakShape hne hx0.ne'
        (cover_of_normalised hday.daily.le hday.len hday.sum.le hx0 hxr.2)).mp h0 mx
        (List.max?_eq_some_iff.mp hmx).1
      rw [le_div_iff₀ hx0] at this
      have h1 : 1 / mx < x := by
        have : 1 / mx ≤ 1 / mx * (1001 / 1000) := by
          have : 0 < 1 / mx := by positivity
          linarith
        linarith [hxr.1]
      rw [div_lt_iff₀ hmxpos] at h1
      have := mul_lt_mul_of_pos_left h1 hday.daily
      linarith
    · rw [List.append_assoc, List.singleton_append, ← hr2]; exact hpts
  refine ⟨⟨pts, min a1.length (pts.length - 1)⟩, ?_, ?_⟩
  · have hbody : (sizingCurveBody baseMethods s b1 (s.sizingSlope.getD slope) step).2
        = .ok ⟨pts, min a1.length (pts.length - 1)⟩ := by
      unfold sizingCurveBody
      simp only [hset, hpts]
    unfold getSizingCurve
    unfold dailyView at hb1
    simp only [hb1]
    by_cases hA : b.isAnnual = true
    · rw [if_pos hA] at hb1
      obtain ⟨d, _, _, h3, _⟩ := setToAnnual_of_setToDaily hb1
      simp [hA, h3, hbody]
    · simp [hA, hbody]
  · simp only [List.length_append, List.length_singleton] at hreach
    rw [ha1, arangeDown_length] at hreach
    simp only
    omega

/-- Non-vacuity of C10 and C11: the demo building, step of 4 hours. -/
example :
    let s := (fromSize baseMethods Demo.noFiles Demo.cfg Demo.building none (some Demo.map) (28/10) 1).2
    (s >>= fun s => (getSizingCurve baseMethods Demo.noFiles s Demo.building 1 4).2).map
      (fun cv => (cv.points.map (fun p => p.1), cv.recIndex, cv.points[cv.recIndex]?)) =
      .ok ([24, 20, 16, 12], 2, some (16, 11694949 / 320000, 24500 / 307)) := by
  decide +kernel

/-! ## C12 -/

theorem pyRound_intCast [FloorRing K] (n : Int) : pyRound (n : K) = n := by
  simp [pyRound]

theorem lsRecIndex_le [FloorRing K] (pct : K) : lsRecIndex pct ≤ 75 := by
  unfold lsRecIndex
  simp only
  omega

/-- **C12 (recommended index).** It always names one of the 76 points, and the point of the
configured percentile when that is a whole number of percent between 25 and 100. -/
theorem C12_recommended_index [FloorRing K] (pct : K) :
    lsRecIndex pct < 76 ∧ ∀ i : ℕ, 25 ≤ i → i ≤ 100 → lsRecIndex ((i : K) / 100) = i - 25 := by
  refine ⟨by have := lsRecIndex_le pct; omega, ?_⟩
  intro i h1 h2
  have k1 : (25 : K) ≤ i := by exact_mod_cast h1
  have k2 : (i : K) ≤ 100 := by exact_mod_cast h2
  unfold lsRecIndex
  rw [min_eq_right (by rw [div_le_one (by norm_num)]; exact k2),
    max_eq_right (by rw [div_le_div_iff₀ (by norm_num) (by norm_num)]; linarith)]
  have : ((i : K) / 100 - 1 / 4) * 100 = (((i : ℤ) - 25 : ℤ) : K) := by
    push_cast; ring
  simp only [this, pyRound_intCast]
  omega

/-- **C12 (state).** However it ends, the load-shift curve leaves the system as it was. -/
theorem C12_curve_leaves_system [FloorRing K] (M : SizingMethods K) (db : ShapeFiles K)
    (s : DhwSys K) (b : Building K) (sched : List String) (m : ControlMap K) (slope : K)
    (fractOf : K → Py K) (pct : K) :
    (getLsSizingCurve M db s b sched m slope fractOf pct).1.1 = s ∧
    (b.isAnnual = false → (getLsSizingCurve M db s b sched m slope fractOf pct).1.2 = b) ∧
    ((∀ f, db "multi_family" = some f → f.annual.length = 8760) →
      (getLsSizingCurve M db s b sched m slope fractOf pct).1.2.isAnnual = b.isAnnual) := by
  unfold getLsSizingCurve
  split
  · simp
  · cases hA : b.isAnnual with
    | false => simp [hA]
    | true =>
      cases hb : b.setToDaily db with
      | error e => simp [hA]
      | ok b1 =>
        obtain ⟨d, hd, _, h3, _⟩ := setToAnnual_of_setToDaily hb
        simp only [h3, if_true, true_and]
        refine ⟨by simp, fun hlen => ?_⟩
        simp [Building.isAnnual, hlen d hd]

/-- **C12 (no load shifting).** Without a `shed` control the call raises `ValueError`. -/
theorem C12_requires_shed [FloorRing K] (M : SizingMethods K) (db : ShapeFiles K)
    (s : DhwSys K) (b : Building K) (sched : List String) (m : ControlMap K) (slope : K)
    (fractOf : K → Py K) (pct : K) (h : dictHas m "shed" = false) :
    (getLsSizingCurve M db s b sched m slope fractOf pct).2 = .error .valueError := by
  simp [getLsSizingCurve, h]

theorem forall₂_getElem? {α β : Type} {R : α → β → Prop} {l : List α} {l' : List β}
    (h : List.Forall₂ R l l') (i : Nat) (a : α) (ha : l[i]? = some a) :
    ∃ b, l'[i]? = some b ∧ R a b := by
  induction h generalizing i with
  | nil => simp at ha
  | cons hab _ ih =>
    cases i with
    | zero => simp at ha; subst ha; exact ⟨_, rfl, hab⟩
    | succ i => simp at ha; simpa using ih i ha

/-- **C12.** The load-shift curve has 76 points, one for each percentile from 25 % to 100 %, and each
point is what `size` stores for the coverage fraction of that percentile. -/
theorem C12_points_are_ls_sizing [FloorRing K] (M : SizingMethods K) (db : ShapeFiles K)
    (s s' : DhwSys K) (b b' : Building K) (sched : List String) (m : ControlMap K) (slope : K)
    (fractOf : K → Py K) (pct : K) (cv : Curve K) (hsched : sched ≠ [])
    (h : getLsSizingCurve M db s b sched m slope fractOf pct = ((s', b'), .ok cv)) :
    cv.points.length = 76 ∧ cv.recIndex = lsRecIndex pct ∧
    ∀ i < 76, ∃ fract cap st, fractOf (((25 + i : ℕ) : K) / 100) = .ok fract ∧
      cv.points[i]? = some (((25 + i : ℕ) : K) / 100, cap, st) ∧
      let r := size M db s b (some sched) (some m) (s.sizingSlope.getD slope) fract
      getMinCapacity r.1.1 = .ok cap ∧ getMinStorage r.1.1 = .ok st := by
  unfold getLsSizingCurve at h
  split at h
  · simp at h
  rename_i hshed
  simp only [Bool.not_eq_false] at hshed
  cases hb : dailyView db b with
  | error e => rw [dailyView] at hb; simp [hb] at h
  | ok b1 =>
    have hb0 := hb
    rw [dailyView] at hb0
    simp only [hb0] at h
    have hr : lsCurveBody M { s.cfg with maxRunHr := min s.cfg.maxRunHr (nonShed sched : K) } b1 sched
        m (s.sizingSlope.getD slope) fractOf pct = .ok cv := by
      split at h
      · split at h
        · simp at h
        · simp only [Prod.mk.injEq] at h; exact h.2
      · simp only [Prod.mk.injEq] at h; exact h.2
    unfold lsCurveBody at hr
    simp only [bind_eq_ok, pure_eq_ok, Except.ok.injEq] at hr
    obtain ⟨inlet, h1, capN, h2, rvN, h3, sf, h4, stN, h5, pts, h6, rfl⟩ := hr
    rw [mapM_eq_ok] at h6
    refine ⟨?_, rfl, ?_⟩
    · rw [← h6.length_eq]; simp [lsPercents]
    · intro i hi
      have hgi : (lsPercents : List K)[i]? = some (((25 + i : ℕ) : K) / 100) := by
        simp [lsPercents, hi]
      obtain ⟨p, hp, hpt⟩ := forall₂_getElem? h6 i _ hgi
      unfold lsCurvePoint at hpt
      simp only [bind_eq_ok, pure_eq_ok, Except.ok.injEq] at hpt
      obtain ⟨fract, e1, capLs, e2, gen, e3, rvLs, e4, stLs, e5, rfl⟩ := hpt
      refine ⟨fract, max capN capLs, max stN stLs, e1, hp, ?_⟩
      intro r
      have hls : lsInputs (some sched) (some m) = some (sched, m) := by
        obtain ⟨x, xs, rfl⟩ := List.exists_cons_of_ne_nil hsched
        simp [lsInputs, truthySched, hshed]
      have hcore : sizeCore M (cappedCfg s.cfg (lsInputs (some sched) (some m))) b1
          (lsInputs (some sched) (some m)) (some m) (s.sizingSlope.getD slope) fract
          = .ok (max capN capLs, max stN stLs) := by
        rw [hls]
        unfold sizeCore
        simp only [cappedCfg, h1, h2, h3, h4, h5, e2, e3, e4, e5, ok_bind, pure_eq_ok]
      rcases size_cases M db s b (some sched) (some m) (s.sizingSlope.getD slope) fract with
        ⟨e, hd, _⟩ | ⟨b'', hb'', ⟨e, hd, _⟩ | ⟨c2, st2, hd, hrest⟩⟩
      · rw [hb] at hd; simp at hd
      · rw [hb] at hb''
        obtain rfl : b1 = b'' := by injection hb''
        rw [hcore] at hd; simp at hd
      · rw [hb] at hb''
        obtain rfl : b1 = b'' := by injection hb''
        rw [hcore] at hd
        simp only [Except.ok.injEq, Prod.mk.injEq] at hd
        obtain ⟨rfl, rfl⟩ := hd
        rcases hrest with ⟨e, _, hs⟩ | ⟨_, _, _, hs, _⟩ <;>
          simp [r, hs, getMinCapacity, getMinStorage]

/-- Non-vacuity of C12, with a linear stand-in for the quantile function. -/
example :
    ((getLsSizingCurve baseMethods Demo.noFiles { cfg := Demo.cfg } Demo.building Demo.sched Demo.map
      (28/10) (loadShiftFract (fun p => (1 + p) / 2)) (95/100)).2).map
      (fun cv => (cv.points.length, cv.recIndex, cv.points[75]?)) =
      .ok (76, 70, some (1, 81864643 / 2000000, 20580 / 103)) := by
  decide +kernel

end Eco
