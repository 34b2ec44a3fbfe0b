import Verif.Spec.Slider
import Verif.Props.EngineReport
import Verif.Props.ErTradeoff
import Verif.Props.ErWitness

set_option linter.unusedSectionVars false

/-! C120: a figure with a slider shows the selected point. -/

namespace Eco
variable {K : Type} [Field K] [LinearOrder K] [IsStrictOrderedRing K]

open Spec

/-- Of the traces beside the curve exactly the selected one is drawn. -/
theorem pick_one {γ : Type} (l : List γ) (i : ℕ) (x : γ) (h : l[i]? = some x) :
    ((l.zip ((List.range l.length).map (fun j => decide (j = i)))).filter (·.2)).map (·.1) = [x] := by
  induction l using List.reverseRecOn with
  | nil => simp at h
  | append_singleton l a ih =>
    have hlen : l.length = ((List.range l.length).map (fun j => decide (j = i))).length := by simp
    rw [List.length_append, List.length_singleton, List.range_succ, List.map_append, List.zip_append hlen,
      List.filter_append, List.map_append]
    rcases lt_trichotomy i l.length with hi | hi | hi
    · rw [List.getElem?_append_left hi] at h
      rw [ih h]
      have : decide (l.length = i) = false := by simp; omega
      simp [this]
    · subst hi
      rw [List.getElem?_append_right le_rfl] at h
      simp only [Nat.sub_self, List.getElem?_cons_zero, Option.some.injEq] at h
      subst h
      have e : (l.zip ((List.range l.length).map (fun j => decide (j = l.length)))).filter (·.2) = [] := by
        rw [List.filter_eq_nil_iff]
        intro p hp
        have := (List.of_mem_zip hp).2
        obtain ⟨j, hj, hj'⟩ := List.mem_map.1 this
        rw [List.mem_range] at hj
        rw [← hj']
        simp; omega
      rw [e]
      simp
    · rw [List.getElem?_eq_none (by simp; omega)] at h
      simp at h

theorem mapM_range {γ : Type} {f : ℕ → Py γ} {n : ℕ} {l : List γ} (h : (List.range n).mapM f = .ok l) :
    l.length = n ∧ ∀ i < n, ∃ x, l[i]? = some x ∧ f i = .ok x := by
  have := mapM_eq_ok.1 h
  have hl := this.length_eq
  rw [List.length_range] at hl
  refine ⟨hl.symm, fun i hi => ?_⟩
  have hi' : i < l.length := by omega
  refine ⟨l[i], List.getElem?_eq_getElem hi', ?_⟩
  have := this.get (i := i) (by rw [List.length_range]; exact hi) hi'
  simpa using this

theorem markers_get {α β : Type} {x : List α} {y : List β} {ms : List (List (α × β))}
    (h : (List.range x.length).mapM (markerTrace x y) = .ok ms) :
    ms.length = x.length ∧ (x.zip y).length = x.length ∧
    ∀ (i : ℕ) (p : α × β), (x.zip y)[i]? = some p → ms[i]? = some [p] := by
  obtain ⟨h1, h2⟩ := mapM_range h
  have hy : x.length ≤ y.length := by
    by_contra hc
    obtain ⟨z, _, hz⟩ := h2 y.length (by omega)
    simp only [markerTrace, bind_eq_ok] at hz
    obtain ⟨a, _, b, hb, _⟩ := hz
    rw [pyGet_eq_ok, List.getElem?_eq_none le_rfl] at hb
    simp at hb
  have hl : (x.zip y).length = x.length := by rw [List.length_zip]; omega
  refine ⟨h1, hl, fun i p hp => ?_⟩
  have hi : i < x.length := by
    rw [← hl]
    exact (List.getElem?_eq_some_iff.1 hp).1
  obtain ⟨z, hz1, hz2⟩ := h2 i hi
  simp only [markerTrace, bind_eq_ok, pure_eq_ok, Except.ok.injEq] at hz2
  obtain ⟨a, ha, b, hb, rfl⟩ := hz2
  rw [hz1]
  rw [List.getElem?_zip_eq_some] at hp
  rw [pyGet_eq_ok] at ha hb
  rw [ha, hb] at hp
  simp only [Option.some.injEq] at hp
  rw [hp.1, hp.2]

theorem drawn_eq {α β : Type} {fig : SliderFig α β} {pts p : List (α × β)} {ms : List (List (α × β))} {i : ℕ}
    (ht : fig.traces = pts :: ms) (hi : ms[i]? = some p) :
    drawn fig (true :: (List.range ms.length).map (fun j => decide (j = i))) = [pts, p] := by
  have := pick_one ms i p hi
  unfold drawn
  rw [ht, List.zip_cons_cons, List.filter_cons_of_pos (by rfl), List.map_cons, this]

/-- **C120, sizing curves.** The figure of a sizing curve shows the point its slider stands at, at first the one at the start
index. -/
theorem C120_sizing_figure {pl : CurvePlot K} {extra : Option (List K)} {fig : SliderFig K K} {k : ℕ}
    (h : sizingFigure pl extra = .ok fig) (hs : pl.start = (k : Int)) (hk : k < pl.x.length) :
    SliderShows fig (pl.x.zip pl.y) k := by
  unfold sizingFigure at h
  simp only [bind_eq_ok, pure_eq_ok, Except.ok.injEq] at h
  obtain ⟨ms, hm, steps, hst, rfl⟩ := h
  obtain ⟨m1, m2, m3⟩ := markers_get hm
  obtain ⟨s1, s2⟩ := mapM_range hst
  refine ⟨by rw [m2]; exact hk, hs, ?_, by rw [m2]; exact s1, ?_⟩
  · have hp : (pl.x.zip pl.y)[k]? = some ((pl.x.zip pl.y)[k]'(by rw [m2]; exact hk)) := List.getElem?_eq_getElem _
    refine ⟨_, hp, ?_⟩
    have := drawn_eq (fig := ⟨pl.x.zip pl.y :: ms, true :: (List.range pl.x.length).map (fun i : Nat => decide ((i : Int) = pl.start)),
      steps, pl.start⟩) rfl (m3 _ _ hp)
    rw [m1] at this
    rw [hs] at this ⊢
    simpa only [Nat.cast_inj] using this
  · intro i p hp
    have hi : i < pl.x.length := by
      rw [← m2]
      exact (List.getElem?_eq_some_iff.1 hp).1
    obtain ⟨z, z1, z2⟩ := s2 i hi
    simp only [sizingStep, bind_eq_ok, pure_eq_ok, Except.ok.injEq] at z2
    obtain ⟨a, ha, b, hb, hh, _, rfl⟩ := z2
    rw [pyGet_eq_ok] at ha hb
    have hp' := hp
    rw [List.getElem?_zip_eq_some, ha, hb, Option.some.injEq, Option.some.injEq] at hp'
    refine ⟨_, _, _, z1, ?_, by rw [← hp'.1]; rfl, by rw [← hp'.2]; rfl⟩
    have := drawn_eq (fig := ⟨pl.x.zip pl.y :: ms, true :: (List.range pl.x.length).map (fun i : Nat => decide ((i : Int) = pl.start)),
      steps, pl.start⟩) rfl (m3 _ _ hp)
    rw [m1] at this
    exact this

theorem sizingFigure_total {pl : CurvePlot K} {extra : Option (List K)} (h1 : pl.y.length = pl.x.length)
    (h2 : ∀ l, extra = some l → l.length = pl.x.length) : ∃ fig, sizingFigure pl extra = .ok fig := by
  have hm : ∃ ms, (List.range pl.x.length).mapM (markerTrace pl.x pl.y) = .ok ms := by
    refine mapM_total fun i hi => ?_
    rw [List.mem_range] at hi
    unfold markerTrace
    simp only [pyGet_of_lt hi, pyGet_of_lt (h1 ▸ hi), ok_bind, pure_eq_ok]
    exact ⟨_, rfl⟩
  have hst : ∃ ms, (List.range pl.x.length).mapM (sizingStep pl.x pl.y extra) = .ok ms := by
    refine mapM_total fun i hi => ?_
    rw [List.mem_range] at hi
    unfold sizingStep
    simp only [pyGet_of_lt hi, pyGet_of_lt (h1 ▸ hi), ok_bind, pure_eq_ok]
    cases extra with
    | none => exact ⟨_, rfl⟩
    | some l =>
      have : pyGet l i = .ok _ := pyGet_of_lt (by rw [h2 l rfl]; exact hi)
      simp only [Option.mapM_some, this, Functor.map, Except.map, ok_bind]
      exact ⟨_, rfl⟩
  obtain ⟨ms, hm⟩ := hm
  obtain ⟨st, hst⟩ := hst
  unfold sizingFigure
  simp only [hm, hst, ok_bind, pure_eq_ok]
  exact ⟨_, rfl⟩

/-- **C120, curve without load shifting.** A curve whose recommended index is one of its points is drawn from small to large
storage, and the figure shows the selected point. -/
theorem C120_curve {cv : Curve K} (hk : cv.recIndex < cv.points.length) :
    ∃ fig, curveFigure cv = .ok fig ∧
      SliderShows fig (cv.points.reverse.map (fun p => (p.2.2, p.2.1))) (cv.points.length - 1 - cv.recIndex) := by
  obtain ⟨fig, h⟩ := sizingFigure_total (pl := plotOfCurve cv) (extra := some (cv.points.map (·.1)).reverse)
    (by simp [plotOfCurve]) (by intro l hl; injection hl with hl; subst hl; simp [plotOfCurve])
  refine ⟨fig, h, ?_⟩
  have := C120_sizing_figure h (k := cv.points.length - 1 - cv.recIndex) (by simp only [plotOfCurve]; omega)
    (by simp [plotOfCurve]; omega)
  have e : (plotOfCurve cv).x.zip (plotOfCurve cv).y = cv.points.reverse.map (fun p => (p.2.2, p.2.1)) := by
    simp only [plotOfCurve, ← List.map_reverse]
    rw [List.zip_map']
  rwa [e] at this

/-- **C120, load-shift curve.** -/
theorem C120_ls_curve {cv : Curve K} (hk : cv.recIndex < cv.points.length) :
    ∃ fig, lsCurveFigure cv = .ok fig ∧ SliderShows fig (cv.points.map (fun p => (p.1 * 100, p.2.2))) cv.recIndex := by
  obtain ⟨fig, h⟩ := sizingFigure_total (pl := plotOfLsCurve cv) (extra := none)
    (by simp [plotOfLsCurve]) (by simp)
  refine ⟨fig, h, ?_⟩
  have := C120_sizing_figure h (k := cv.recIndex) (by simp only [plotOfLsCurve]) (by simp [plotOfLsCurve]; omega)
  have e : (plotOfLsCurve cv).x.zip (plotOfLsCurve cv).y = cv.points.map (fun p => (p.1 * 100, p.2.2)) := by
    simp only [plotOfLsCurve]
    rw [List.zip_map']
  rwa [e] at this

theorem set_replicate (n i : ℕ) :
    (List.replicate n false).set i true = (List.range n).map (fun j => decide (j = i)) := by
  apply List.ext_getElem
  · simp
  · intro j h1 h2
    rw [List.getElem_set, List.getElem_map, List.getElem_range, List.getElem_replicate]
    by_cases h : i = j
    · simp [h]
    · simp [h, Ne.symm h]

theorem erFigure_shows {c : ErCurve K} (hl : c.kw.length = c.percents.length) (hs : c.start < c.percents.length) :
    ∃ fig, erFigure c = .ok fig ∧ SliderShows fig (c.percents.zip c.kw) c.start := by
  obtain ⟨ms, hm⟩ : ∃ ms, (List.range c.percents.length).mapM (markerTrace c.percents c.kw) = .ok ms := by
    refine mapM_total fun i hi => ?_
    rw [List.mem_range] at hi
    unfold markerTrace
    simp only [pyGet_of_lt hi, pyGet_of_lt (hl ▸ hi), ok_bind, pure_eq_ok]
    exact ⟨_, rfl⟩
  obtain ⟨m1, m2, m3⟩ := markers_get hm
  obtain ⟨steps, hst⟩ : ∃ st, (List.range c.percents.length).mapM (erFigureStep c.percents c.kw (c.percents.length + 1))
      = .ok st := by
    refine mapM_total fun i hi => ?_
    rw [List.mem_range] at hi
    unfold erFigureStep
    simp only [pyGet_of_lt hi, pyGet_of_lt (hl ▸ hi), ok_bind, pure_eq_ok]
    exact ⟨_, rfl⟩
  obtain ⟨s1, s2⟩ := mapM_range hst
  refine ⟨⟨c.percents.zip c.kw :: ms, (true :: List.replicate c.percents.length false).set (c.start + 1) true, steps,
    c.start⟩, ?_, ?_⟩
  · unfold erFigure
    simp only [hm, ok_bind, m1, Nat.add_sub_cancel, hst, pure_eq_ok]
    rw [if_neg (by omega)]
  have hshow : ∀ (i : ℕ), (true :: List.replicate c.percents.length false).set (i + 1) true
      = true :: (List.range ms.length).map (fun j => decide (j = i)) := by
    intro i
    rw [List.set_cons_succ, set_replicate, m1]
  have hp : (c.percents.zip c.kw)[c.start]? = some ((c.percents.zip c.kw)[c.start]'(by rw [m2]; exact hs)) :=
    List.getElem?_eq_getElem _
  refine ⟨by rw [m2]; exact hs, rfl, ⟨_, hp, ?_⟩, by rw [m2]; exact s1, ?_⟩
  · dsimp only
    rw [hshow]
    exact drawn_eq rfl (m3 _ _ hp)
  · intro i p hp
    have hi : i < c.percents.length := by
      rw [← m2]
      exact (List.getElem?_eq_some_iff.1 hp).1
    obtain ⟨z, z1, z2⟩ := s2 i hi
    simp only [erFigureStep, bind_eq_ok, pure_eq_ok, Except.ok.injEq] at z2
    obtain ⟨a, ha, b, hb, rfl⟩ := z2
    rw [pyGet_eq_ok] at ha hb
    have hp' := hp
    rw [List.getElem?_zip_eq_some, ha, hb, Option.some.injEq, Option.some.injEq] at hp'
    refine ⟨_, _, _, z1, ?_, by rw [← hp'.1]; rfl, by rw [← hp'.2]; rfl⟩
    rw [List.replicate_succ, List.set_cons_zero, hshow i]
    exact drawn_eq rfl (m3 _ _ hp)

/-- **C120, trade-off curve.** Whenever the points of the electric resistance curve can be computed the figure can be drawn,
and it shows the point its slider stands at. -/
theorem C120_er_figure [FloorRing K] {e e' : ErSys K} {b b' : Building K} {extra : K} {c : ErCurve K}
    (h : e.getErSizedPoints b extra = ((e', b'), .ok c)) :
    ∃ fig, e.getErSizingCurve b extra = ((e, b), .ok fig) ∧ SliderShows fig (c.percents.zip c.kw) c.start := by
  obtain ⟨rfl, rfl⟩ := C69_returns_unchanged h
  have hc : c.kw.length = c.percents.length ∧ c.start < c.percents.length := by
    cases her : e'.erCap with
    | none =>
      unfold ErSys.getErSizedPoints at h
      simp [her] at h
    | some er =>
      cases htot : e'.sw.tmCap with
      | none =>
        unfold ErSys.getErSizedPoints at h
        simp [her, htot] at h
      | some total =>
        by_cases hpos : 0 < er
        · rcases getErSizedPoints_cases (b := b') (extra := extra) her htot hpos with ⟨i, _, x, hx⟩ | ⟨ps, n, hx, hn, h2, _⟩
          · rw [hx] at h
            simp at h
          · rw [hx] at h
            simp only [Prod.mk.injEq, Except.ok.injEq] at h
            obtain ⟨-, rfl⟩ := h
            have hne : 0 < ps.length := by
              rw [← List.length_map (f := (·.1)), h2]
              simp [erPercents]
              omega
            constructor
            · simp [erCurve]
            · simp only [erCurve, List.length_reverse, List.length_map]
              omega
        · unfold ErSys.getErSizedPoints at h
          simp [her, htot, not_lt.1 hpos] at h
  obtain ⟨fig, h1, h2⟩ := erFigure_shows hc.1 hc.2
  refine ⟨fig, ?_, h2⟩
  unfold ErSys.getErSizingCurve
  rw [h]
  simp only [ok_bind, h1]

/-- What is drawn at first: the curve and the point at the start index. -/
theorem Spec.SliderShows.starts {α β : Type} {fig : SliderFig α β} {pts : List (α × β)} {k : ℕ} {p : α × β}
    (h : SliderShows fig pts k) (hp : pts[k]? = some p) : drawn fig fig.shown = [pts, [p]] := by
  obtain ⟨q, hq, hd⟩ := h.first
  rw [hp, Option.some.injEq] at hq
  rw [hd, hq]

/-- **C120, where the slider starts: sized system.** The figure of a system sized without load shifting starts with its
marker at the storage and capacity of this system, when the curve is long enough to contain it. -/
theorem C120_starts_at_sized [FloorRing K] {M : SizingMethods K} {db : ShapeFiles K} {c : SysCfg K}
    {b b' b'' : Building K} {sched : Option (List String)} {cmap : Option (ControlMap K)} {slope fract slope' : K}
    {s s' : DhwSys K} {cv : Curve K}
    (hlen : ∀ f, db "multi_family" = some f → f.annual.length = 8760) (hnols : lsInputs sched cmap = none)
    (hsize : fromSize M db c b sched cmap slope fract = (b', .ok s))
    (hcv : getSizingCurve M db s b' slope' (1 / 4) = ((s', b''), .ok cv))
    (hreach : ⌈(24 - c.maxRunHr) / (1 / 4)⌉₊ < cv.points.length) :
    ∃ fig cap st pts, curveFigure cv = .ok fig ∧ getMinCapacity s = .ok cap ∧ getMinStorage s = .ok st ∧
      drawn fig fig.shown = [pts, [(st, cap)]] := by
  obtain ⟨cap, st, g1, g2, g3⟩ := C11_recommended_point_is_sized_system M db c b b' b'' sched cmap slope fract slope'
    (1 / 4) s s' cv hlen hnols hsize hcv hreach
  have hk := (List.getElem?_eq_some_iff.1 g3).1
  obtain ⟨fig, f1, f2⟩ := C120_curve hk
  refine ⟨fig, cap, st, _, f1, g1, g2, f2.starts ?_⟩
  rw [List.getElem?_map, List.getElem?_reverse (by omega)]
  have : cv.points.length - 1 - (cv.points.length - 1 - cv.recIndex) = cv.recIndex := by omega
  rw [this, g3]
  rfl

/-- **C120, where the slider starts: trade-off curve.** The figure starts with its marker at 100 percent and at the element as
sized if covering 110 and 120 percent needs an addition. -/
theorem C120_er_starts_at_sized_partial [FloorRing K] {e e' : ErSys K} {b b' : Building K} {extra er total : K}
    {c : ErCurve K} (h : e.getErSizedPoints b extra = ((e', b'), .ok c)) (her : e.erCap = some er)
    (htot : e.sw.tmCap = some total) (hpos : 0 < er)
    (hmore : ∀ i ∈ [120, 110], ∃ e1 er1, Spec.erAt e b (total - er) extra i = (e1, .ok ()) ∧ e1.erCap = some er1 ∧ 0 < er1) :
    ∃ fig pts, e.getErSizingCurve b extra = ((e, b), .ok fig) ∧
      drawn fig fig.shown = [pts, [(100, pyRound (total / wToKbtuh K))]] := by
  obtain ⟨fig, h1, h2⟩ := C120_er_figure h
  obtain ⟨g1, g2⟩ := C69_start_names_100_partial h her htot hpos ((C69_start_reached_iff h her htot hpos).2 hmore)
  exact ⟨fig, _, h1, h2.starts (by rw [List.getElem?_zip_eq_some]; exact ⟨g1, g2⟩)⟩

/-- **C120 is false for the trade-off curve.** A system sized from components can have a figure that starts at 120 percent,
the only point of its curve. -/
theorem C120_er_starts_elsewhere :
    ∃ (heaters : List (Heater ℚ)) (b : Building ℚ) (tankVol tmVol tmCap : ℚ) (e : ErSys ℚ) (w : Heater ℚ)
      (fig : SliderFig Nat Int) (kw : Int),
      ErSys.fromComponents heaters tankVol tmVol tmCap b 120 150 110 8 1 = .ok (e, w) ∧
      e.getErSizingCurve b 1 = ((e, b), .ok fig) ∧ drawn fig fig.shown = [[(120, kw)], [(120, kw)]] := by
  obtain ⟨heaters, b, tankVol, tmVol, tmCap, er, e, e1, w, c, h1, -, -, -, -, h2, h3, h4⟩ := C116_more_coverage_smaller_element
  obtain ⟨fig, f1, f2⟩ := C120_er_figure h2
  obtain ⟨p, hp, hd⟩ := f2.first
  have hs : c.start = 0 := by
    rw [h3] at h4
    by_contra hc
    rw [List.getElem?_eq_none (by simp; omega)] at h4
    simp at h4
  rw [h3, hs] at hp
  rw [h3] at hd
  cases hk : c.kw with
  | nil => simp [hk] at hp
  | cons kw l =>
    rw [hk] at hp hd
    simp at hp hd
    subst hp
    exact ⟨heaters, b, tankVol, tmVol, tmCap, e, w, fig, kw, h1, f1, hd⟩

/-- Non-vacuity of C120: three points, the second recommended; the slider starts in the middle, and moving it to the end draws
the last point. -/
example : ∃ fig, curveFigure (⟨[(24, 10, 50), (20, 12, 40), (16, 15, 30)], 1⟩ : Curve ℚ) = .ok fig ∧
    drawn fig fig.shown = [[(30, 15), (40, 12), (50, 10)], [(40, 12)]] ∧ fig.active = 1 ∧
    (fig.steps[2]?.map (fun st => (drawn fig st.1, st.2))) =
      some ([[(30, 15), (40, 12), (50, 10)], [(50, 10)]], [50], [10, 24]) := by
  refine ⟨⟨[[(30, 15), (40, 12), (50, 10)], [(30, 15)], [(40, 12)], [(50, 10)]], [true, false, true, false],
    [([true, true, false, false], [30], [15, 16]), ([true, false, true, false], [40], [12, 20]),
      ([true, false, false, true], [50], [10, 24])], 1⟩, by decide +kernel, by decide +kernel, rfl, by decide +kernel⟩

/-- Non-vacuity of the start at the sized system: the demo system and its curve. -/
example : lsInputs (K := ℚ) none (some Demo.map) = none ∧
    (match fromSize baseMethods Demo.noFiles Demo.cfg Demo.building none (some Demo.map) (28 / 10) 1 with
    | (b', .ok s) => match getSizingCurve baseMethods Demo.noFiles s b' (28 / 10) (1 / 4) with
      | (_, .ok cv) => decide (⌈(24 - Demo.cfg.maxRunHr) / (1 / 4)⌉₊ < cv.points.length)
      | _ => false
    | _ => false) = true := by
  decide +kernel

/-- Non-vacuity of the trade-off figure: the demo system with an addition; its figure starts at 100 percent. -/
example : ∃ e fig pts kw, (Demo.erLarge 1).sizeEr Demo.erBuilding = (e, .ok ()) ∧
    e.getErSizingCurve Demo.erBuilding 1 = ((e, Demo.erBuilding), .ok fig) ∧
    drawn fig fig.shown = [pts, [(100, kw)]] := by
  obtain ⟨e, er, c, h1, -, -, h2, h3, -, -, -⟩ := Demo.erLarge_curve (sf := 1) (by norm_num)
  obtain ⟨fig, h4, h5⟩ := C120_er_figure h2
  obtain ⟨p, hp, hd⟩ := h5.first
  rw [List.getElem?_zip_eq_some, h3, Option.some.injEq] at hp
  obtain ⟨p1, p2⟩ := p
  obtain ⟨rfl, -⟩ := hp
  exact ⟨e, fig, _, _, h1, h4, hd⟩

end Eco
