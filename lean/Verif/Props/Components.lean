import Verif.Model.Components
import Verif.Props.Curves
import Verif.Props.Simulate
import Verif.Props.Harder

/-! # C135: a system put together from the reported sizes -/

set_option linter.unusedSectionVars false

namespace Eco
variable {K : Type} [Field K] [LinearOrder K] [IsStrictOrderedRing K]

/-- **C135, sizes.** A system put together from components has no sizes to report until it is sized. -/
theorem C135_unsized (vol : K) (ws : List (Heater K)) (c : SysCfg K) (slope : K) :
    getMinCapacity (fromComponents vol ws c slope).1 = .error .runtimeError ∧
    getMinStorage (fromComponents vol ws c slope).1 = .error .runtimeError := ⟨rfl, rfl⟩

example : (Demo.sized.heaters.length, getMinCapacity (fromComponents 300 Demo.sized.heaters Demo.cfg 1).1) =
    (1, .error .runtimeError) := rfl

/-- A successful `from_size`: the sizes it reports and the plant it builds. -/
theorem fromSizePlant_ok {M : SizingMethods K} {db : ShapeFiles K} {c : SysCfg K} {b b' : Building K}
    {sched : Option (List String)} {cmap : Option (ControlMap K)} {slope fract : K} {s : DhwSys K} {p : Prim K}
    (h : fromSizePlant M db c b sched cmap slope fract = (b', .ok (s, p))) :
    ∃ cap vol, s = ⟨c, some cap, some vol, some slope, cmap⟩ ∧ p = Prim.ofSized c cap vol slope sched cmap := by
  unfold fromSizePlant at h
  rcases size_cases M db { cfg := c } b sched cmap slope fract with ⟨e, _, h1⟩ | ⟨b1, _, ⟨e, _, h1⟩ | ⟨cap, st, _, ⟨e, _, h1⟩ | ⟨ws, b2, _, h1, _⟩⟩⟩
  · rw [h1] at h; simp at h
  · rw [h1] at h; simp at h
  · rw [h1] at h; simp at h
  · rw [h1] at h
    simp only [getMinCapacity, getMinStorage, ok_bind, pure_eq_ok, Prod.mk.injEq, Except.ok.injEq] at h
    obtain ⟨h2, h3, h4⟩ := h
    exact ⟨cap, st, h3.symm, h4.symm⟩

/-- **C135, the plant.** The system that is put together from the sizes that a sized system reports, with the same
temperatures, controls and slope, is the plant that was built after the sizing; so every simulation of it gives the same run. -/
theorem C135_same_plant (M : SizingMethods K) (db : ShapeFiles K) (c : SysCfg K) (b b' : Building K)
    (sched : Option (List String)) (cmap : Option (ControlMap K)) (slope fract : K) (s : DhwSys K) (p : Prim K)
    (h : fromSizePlant M db c b sched cmap slope fract = (b', .ok (s, p))) :
    ∃ cap vol, getMinCapacity s = .ok cap ∧ getMinStorage s = .ok vol ∧
      (fromComponents vol [Heater.fromNominal cap sched cmap] c slope).2 = p := by
  obtain ⟨cap, vol, rfl, rfl⟩ := fromSizePlant_ok h
  exact ⟨cap, vol, rfl, rfl, rfl⟩

/-- **C135, sizing later.** Sizing a system that was put together from any components gives the outcome, the building and the
sizes of `from_size`, whatever its components are. -/
theorem C135_size_later (M : SizingMethods K) (db : ShapeFiles K) (c : SysCfg K) (b : Building K)
    (sched : Option (List String)) (cmap : Option (ControlMap K)) (slope fract vol slope' : K) (ws : List (Heater K)) :
    let r := size M db (fromComponents vol ws c slope').1 b sched cmap slope fract
    let r' := size M db { cfg := c } b sched cmap slope fract
    r.2 = r'.2 ∧ r.1.2 = r'.1.2 ∧ getMinCapacity r.1.1 = getMinCapacity r'.1.1 ∧ getMinStorage r.1.1 = getMinStorage r'.1.1 := by
  intro r r'
  have := size_fresh M db (fromComponents vol ws c slope').1 b sched cmap slope fract
  simp only [fromComponents] at this
  have ho : ∀ x : Option K, (x <|> none) = x := by intro x; cases x <;> rfl
  refine ⟨?_, ?_, ?_, ?_⟩ <;> simp only [r, r', fromComponents, this, getMinCapacity, getMinStorage, ho]

/-- The demo system is sized, and its plant is put together again. -/
example : (fromSizePlant baseMethods Demo.noFiles Demo.cfg Demo.building (some Demo.allNormal) (some Demo.highSensor) (28 / 10) 1).2.map
    (fun x => (getMinCapacity x.1, getMinStorage x.1)) = .ok (.ok (11694949 / 320000), .ok (24500 / 83)) := by decide +kernel

/-- **C135, partial, the curve.** The system that is put together from the reported sizes has the sizing curve of the sized
system, if the slope is given again when the curve is asked for. Missing: without it the default slope is used (see
`C135_curve_fails`). -/
theorem C135_curve_partial [FloorRing K] (M : SizingMethods K) (db : ShapeFiles K) (c : SysCfg K) (b b' b'' : Building K)
    (sched : Option (List String)) (cmap : Option (ControlMap K)) (slope fract : K) (s : DhwSys K) (p : Prim K)
    (h : fromSizePlant M db c b sched cmap slope fract = (b', .ok (s, p))) (vol cap slope' step : K) :
    (getSizingCurve M db (fromComponents vol [Heater.fromNominal cap sched cmap] c slope).1 b'' slope step).2 =
      (getSizingCurve M db s b'' slope' step).2 := by
  obtain ⟨cap', vol', rfl, rfl⟩ := fromSizePlant_ok h
  unfold getSizingCurve
  cases (if b''.isAnnual then b''.setToDaily db else .ok b'') with
  | error e => rfl
  | ok b1 =>
    have key : (sizingCurveBody M (fromComponents vol [Heater.fromNominal cap sched cmap] c slope).1 b1 slope step).2 =
        (sizingCurveBody M ⟨c, some cap', some vol', some slope, cmap⟩ b1 slope step).2 := by
      unfold sizingCurveBody
      have e : curveSetup (fromComponents vol [Heater.fromNominal cap sched cmap] c slope).1 b1 slope step =
          curveSetup ⟨c, some cap', some vol', some slope, cmap⟩ b1 slope step := rfl
      rw [e]
      cases curveSetup ⟨c, some cap', some vol', some slope, cmap⟩ b1 slope step with
      | error e => rfl
      | ok x =>
        obtain ⟨f, a1, a2⟩ := x
        dsimp only [fromComponents]
        cases (sweep M b1 f c (a1 ++ a2)).2 <;> rfl
    dsimp only
    split
    · cases b1.setToAnnual db with
      | error e => rfl
      | ok b2 => exact key
    · exact key

theorem map_ok {α β : Type} {f : α → β} {x : Py α} {y : β} (h : x.map f = .ok y) : ∃ a, x = .ok a ∧ f a = y := by
  cases x with
  | error e => cases h
  | ok a => exact ⟨a, rfl, Except.ok.inj h⟩

/-- **C135 fails for the curve.** A system sized with a slope of 1, and the same plant put together from the sizes it reports
with a slope of 1: asked for their curves, they give different storage volumes for the same capacity, since the assembled
system takes the default slope of 2.8 and not the slope of its tank. -/
theorem C135_curve_fails : ∃ (s : DhwSys ℚ) (p : Prim ℚ) (cap vol : ℚ) (cv cv' : Curve ℚ),
    (fromSizePlant baseMethods Demo.noFiles Demo.cfg Demo.building (some Demo.allNormal) (some Demo.highSensor) 1 1).2 = .ok (s, p) ∧
    getMinCapacity s = .ok cap ∧ getMinStorage s = .ok vol ∧
    (fromComponents vol [Heater.fromNominal cap (some Demo.allNormal) (some Demo.highSensor)] Demo.cfg 1).2 = p ∧
    (getSizingCurve baseMethods Demo.noFiles s Demo.building (28 / 10) (1 / 4)).2 = .ok cv ∧
    (getSizingCurve baseMethods Demo.noFiles
      (fromComponents vol [Heater.fromNominal cap (some Demo.allNormal) (some Demo.highSensor)] Demo.cfg 1).1 Demo.building (28 / 10) (1 / 4)).2 =
      .ok cv' ∧
    cv'.recIndex = cv.recIndex ∧ cv.points[cv.recIndex]? = some (16, cap, vol) ∧
    ∃ vol', cv'.points[cv'.recIndex]? = some (16, cap, vol') ∧ vol' < vol := by
  have h1 : (fromSizePlant baseMethods Demo.noFiles Demo.cfg Demo.building (some Demo.allNormal) (some Demo.highSensor) 1 1).2.map
      (fun x => (getMinCapacity x.1, getMinStorage x.1)) = .ok (.ok (11694949 / 320000), .ok (1750 / 3)) := by decide +kernel
  obtain ⟨b', r, e⟩ : ∃ b' r, fromSizePlant baseMethods Demo.noFiles Demo.cfg Demo.building (some Demo.allNormal)
      (some Demo.highSensor) 1 1 = (b', r) := ⟨_, _, rfl⟩
  rw [e] at h1
  cases r with
  | error x => cases h1
  | ok x =>
    obtain ⟨s, p⟩ := x
    obtain ⟨cap, vol, rfl, rfl⟩ := fromSizePlant_ok e
    simp only [Except.map, getMinCapacity, getMinStorage, Except.ok.injEq, Prod.mk.injEq] at h1
    obtain ⟨rfl, rfl⟩ := h1
    have h2 : (getSizingCurve baseMethods Demo.noFiles ⟨Demo.cfg, some (11694949 / 320000), some (1750 / 3), some 1, some Demo.highSensor⟩
        Demo.building (28 / 10) (1 / 4)).2.map (fun cv => (cv.recIndex, cv.points[cv.recIndex]?)) =
        .ok (32, some (16, 11694949 / 320000, 1750 / 3)) := by decide +kernel
    have h3 : (getSizingCurve baseMethods Demo.noFiles (fromComponents (1750 / 3)
        [Heater.fromNominal (11694949 / 320000) (some Demo.allNormal) (some Demo.highSensor)] Demo.cfg 1).1
        Demo.building (28 / 10) (1 / 4)).2.map (fun cv => (cv.recIndex, cv.points[cv.recIndex]?)) =
        .ok (32, some (16, 11694949 / 320000, 24500 / 83)) := by decide +kernel
    obtain ⟨cv, hcv, hc⟩ := map_ok h2
    obtain ⟨cv', hcv', hc'⟩ := map_ok h3
    simp only [Prod.mk.injEq] at hc hc'
    rw [e]
    refine ⟨_, _, _, _, cv, cv', rfl, rfl, rfl, rfl, hcv, hcv', hc'.1.trans hc.1.symm, hc.2, _, hc'.2, by norm_num⟩

end Eco
