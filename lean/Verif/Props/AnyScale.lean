import Verif.Props.Degrees
import Verif.Props.Unit
set_option linter.unusedSectionVars false

/-! C145 and C147 together: sizing on any temperature scale. -/

namespace Eco
open Spec
variable {K : Type} [Field K] [LinearOrder K] [IsStrictOrderedRing K] {u d : K} {b : Building K}

theorem outcome_scaled {S W : Type} {f g : S → S} {r r' : (S × Building K) × Py W} {s1 : S} {b1 : Building K} {w : W}
    (e : r' = unitOutcome g u (hotterOutcome f d r)) (h : r = ((s1, b1), .ok w)) :
    r' = ((g (f s1), unitBuilding u (hotterBuilding d b1)), .ok w) := by
  rw [e, h]
  rfl

/-- **C147, any temperature scale.** Every water temperature `T` is replaced by `u * (T + d)`, as in a change from Fahrenheit to
Celsius (`d = -32`, `u = 5 / 9`), and the gradient is multiplied by `u`. A primary system that is sized on the first scale is
sized on the second with the same storage, the same warnings and `u` times the capacity. -/
theorem C147_any_scale (hu : 0 < u) {db : ShapeFiles K} {s s1 : DhwSys K} {b1 : Building K} {sched : Option (List String)}
    {cmap : Option (ControlMap K)} {slope fract cap st : K} {w : Warnings}
    (h : size baseMethods db s b sched cmap slope fract = ((s1, b1), .ok w))
    (hcap : getMinCapacity s1 = .ok cap) (hst : getMinStorage s1 = .ok st) :
    ∃ s2 b2, size baseMethods db (unitSys u (hotterSys d s)) (unitBuilding u (hotterBuilding d b)) sched
        ((cmap.map (hotterMap d)).map (unitMap u)) (u * slope) fract = ((s2, b2), .ok w) ∧
      getMinCapacity s2 = .ok (u * cap) ∧ getMinStorage s2 = .ok st := by
  have e := C147_primary (b := hotterBuilding d b) hu db (hotterSys d s) sched (cmap.map (hotterMap d)) slope fract
  rw [C145_primary] at e
  refine ⟨_, _, outcome_scaled e h, ?_, ?_⟩
  · show getMinCapacity (unitSys u (hotterSys d s1)) = _
    unfold getMinCapacity at hcap ⊢
    show (match s1.minCap.map (u * ·) with | none => _ | some x => _) = _
    cases hc : s1.minCap with
    | none => rw [hc] at hcap; simp at hcap
    | some x =>
      rw [hc] at hcap
      simp only [Except.ok.injEq] at hcap
      rw [← hcap]
      rfl
  · exact hst

/-- **C147, any temperature scale, single-pass return to primary.** -/
theorem C147_any_scale_single_pass (hu : 0 < u) {db : ShapeFiles K} {s s1 : SpSys K} {b1 : Building K} {sched : Option (List String)}
    {cmap : Option (ControlMap K)} {slope fract cap st rc : K} {w : Warnings}
    (h : s.size db b sched cmap slope fract = ((s1, b1), .ok w))
    (hcap : s1.base.minCap = some cap) (hst : s1.base.minStorage = some st) (hrc : s1.recircCap = some rc) :
    ∃ s2 b2, SpSys.size db (unitSp u ⟨hotterSys d s.base, hotterLoop d s.loop, s.recircCap⟩) (unitBuilding u (hotterBuilding d b)) sched
        ((cmap.map (hotterMap d)).map (unitMap u)) (u * slope) fract = ((s2, b2), .ok w) ∧
      s2.base.minCap = some (u * cap) ∧ s2.base.minStorage = some st ∧ s2.recircCap = some (u * rc) := by
  have e := C147_single_pass (b := hotterBuilding d b) hu db ⟨hotterSys d s.base, hotterLoop d s.loop, s.recircCap⟩ sched
    (cmap.map (hotterMap d)) slope fract
  rw [C145_single_pass] at e
  refine ⟨_, _, outcome_scaled e h, ?_, hst, ?_⟩
  · show s1.base.minCap.map (u * ·) = _
    rw [hcap]; rfl
  · show s1.recircCap.map (u * ·) = _
    rw [hrc]; rfl

/-- **C147, any temperature scale, parallel loop.** The volume of the loop tank is the same as well, and its heating capacity is
multiplied by `u`. -/
theorem C147_any_scale_parallel (hu : 0 < u) {db : ShapeFiles K} {s s1 : ParSys K} {b1 : Building K} {sched : Option (List String)}
    {cmap : Option (ControlMap K)} {slope fract cap st tc tv : K} {w : Warnings}
    (h : s.size baseMethods db b sched cmap slope fract = ((s1, b1), .ok w))
    (hcap : s1.base.minCap = some cap) (hst : s1.base.minStorage = some st) (htc : s1.minTmCap = some tc) (htv : s1.minTmVol = some tv) :
    ∃ s2 b2, ParSys.size baseMethods db (unitPar u { s with base := hotterSys d s.base, tm := hotterTm d s.tm })
        (unitBuilding u (hotterBuilding d b)) sched ((cmap.map (hotterMap d)).map (unitMap u)) (u * slope) fract = ((s2, b2), .ok w) ∧
      s2.base.minCap = some (u * cap) ∧ s2.base.minStorage = some st ∧ s2.minTmCap = some (u * tc) ∧ s2.minTmVol = some tv := by
  have e := C147_parallel (b := hotterBuilding d b) hu db { s with base := hotterSys d s.base, tm := hotterTm d s.tm } sched
    (cmap.map (hotterMap d)) slope fract
  rw [C145_parallel] at e
  refine ⟨_, _, outcome_scaled e h, ?_, hst, ?_, htv⟩
  · show s1.base.minCap.map (u * ·) = _
    rw [hcap]; rfl
  · show s1.minTmCap.map (u * ·) = _
    rw [htc]; rfl

/-- **C147, any temperature scale, multi-pass return to primary.** -/
theorem C147_any_scale_multi_pass (hu : 0 < u) {db : ShapeFiles K} {s s1 : MpSys K} {b1 : Building K} {cmap : Option (ControlMap K)}
    {slope cap st : K} (h : s.size db b cmap slope = ((s1, b1), .ok ()))
    (hcap : s1.base.minCap = some cap) (hst : s1.base.minStorage = some st) :
    ∃ s2 b2, MpSys.size db (unitMp u (hotterMp d s)) (unitBuilding u (hotterBuilding d b)) ((cmap.map (hotterMap d)).map (unitMap u))
        (u * slope) = ((s2, b2), .ok ()) ∧ s2.base.minCap = some (u * cap) ∧ s2.base.minStorage = some st := by
  have e := C147_multi_pass (b := hotterBuilding d b) hu db (hotterMp d s) (cmap.map (hotterMap d)) slope
  rw [C145_multi_pass] at e
  refine ⟨_, _, outcome_scaled e h, ?_, hst⟩
  show s1.base.minCap.map (u * ·) = _
  rw [hcap]; rfl

/-- **C147, any temperature scale, tankless.** -/
theorem C147_any_scale_tankless (hu : 0 < u) {s : Instant K} {cap : K} (h : s.size b = .ok cap) :
    Instant.size ⟨u * (s.supply + d), u * (s.storage + d), s.defrost⟩ (unitBuilding u (hotterBuilding d b)) = .ok (u * cap) := by
  have e := C147_tankless (b := hotterBuilding d b) hu ⟨s.supply + d, s.storage + d, s.defrost⟩
  rw [C145_tankless, h] at e
  exact e

/-- Non-vacuity: the demo building, with load shifting, in Celsius. -/
example : ∃ cap st : ℚ, 0 < cap ∧ 0 < st ∧ ∃ s2 b2 w, size baseMethods Demo.noFiles
      (unitSys (5/9) (hotterSys (-32) { cfg := Demo.cfg })) (unitBuilding (5/9) (hotterBuilding (-32) Demo.building)) (some Demo.sched)
      (((some Demo.map).map (hotterMap (-32))).map (unitMap (5/9))) (5/9 * 2) 1 = ((s2, b2), .ok w) ∧
    getMinCapacity s2 = .ok (5/9 * cap) ∧ getMinStorage s2 = .ok st := by
  have hc : (size baseMethods Demo.noFiles { cfg := Demo.cfg } Demo.building (some Demo.sched) (some Demo.map) 2 1).1.1.minCap.any (0 < ·) = true := by
    decide +kernel
  have hs : (size baseMethods Demo.noFiles { cfg := Demo.cfg } Demo.building (some Demo.sched) (some Demo.map) 2 1).1.1.minStorage.any (0 < ·) = true := by
    decide +kernel
  have hw : (size baseMethods Demo.noFiles { cfg := Demo.cfg } Demo.building (some Demo.sched) (some Demo.map) 2 1).2.isOk = true := by
    decide +kernel
  cases hr : size baseMethods Demo.noFiles { cfg := Demo.cfg } Demo.building (some Demo.sched) (some Demo.map) 2 1 with
  | mk x w =>
    obtain ⟨s1, b1⟩ := x
    rw [hr] at hc hs hw
    cases w with
    | error e => simp [Except.isOk, Except.toBool] at hw
    | ok w =>
      rw [Option.any_eq_true] at hc hs
      obtain ⟨cap, m1, l1⟩ := hc
      obtain ⟨st, m2, l2⟩ := hs
      simp only at m1 m2
      obtain ⟨s2, b2, k⟩ := C147_any_scale (u := (5/9 : ℚ)) (d := -32) (by norm_num) (cap := cap) (st := st) hr
        (by simp [getMinCapacity, m1]) (by simp [getMinStorage, m2])
      exact ⟨cap, st, by simpa using l1, by simpa using l2, s2, b2, w, k⟩

/-- Non-vacuity for the schematics with a loop: the demo systems are sized, so the theorems apply to them. -/
example : (⟨{ cfg := Demo.cfg }, ⟨110, 3⟩, none⟩ : SpSys ℚ).size Demo.noFiles Demo.building none (some Demo.map) 2 1 |>.2.isOk := by
  decide +kernel

/-- Non-vacuity: a tankless heater for the demo building, in Celsius. -/
example : ∃ cap : ℚ, 0 < cap ∧ Instant.size ⟨5/9 * (120 + -32), 5/9 * (120 + -32), 1⟩
    (unitBuilding (5/9) (hotterBuilding (-32) Demo.building)) = .ok (5/9 * cap) := by
  have h : ((⟨120, 120, 1⟩ : Instant ℚ).size Demo.building).toOption.any (0 < ·) = true := by decide +kernel
  cases e : (⟨120, 120, 1⟩ : Instant ℚ).size Demo.building with
  | error x => rw [e] at h; simp [Except.toOption] at h
  | ok cap =>
    rw [e] at h
    exact ⟨cap, by simpa [Except.toOption] using h, C147_any_scale_tankless (by norm_num) e⟩

end Eco
