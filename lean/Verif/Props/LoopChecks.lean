import Verif.Props.ParallelLoop
import Verif.Props.Swing
import Verif.Props.Rtp

/-! C64, C66 and C86: loop loss, safety factor, and the storage of a single-pass return-to-primary system. -/

namespace Eco
set_option linter.unusedSectionVars false
variable {K : Type} [Field K] [LinearOrder K] [IsStrictOrderedRing K]

/-- **C64 (the loss).** The hourly and the daily loss that a recirculation system reports are the heat that the loop flow
loses between supply and return temperature in one hour and in 24 hours. -/
theorem C64_loss_is_loop_heat (supply ret flow : K) :
    recircLossKbtuh supply ret flow = Spec.loopLossKbtu flow supply ret 1 ∧
    dailyRecircLossKbtu supply ret flow = Spec.loopLossKbtu flow supply ret 24 := by
  unfold dailyRecircLossKbtu recircLossKbtuh Spec.loopLossKbtu
  constructor <;> ring

/-- **C66 (safety factor).** A swing system is built exactly if its safety factor is above 1; it starts with nothing sized
and a full mix fraction. Otherwise it is a `ValueError`. -/
theorem C66_safety_factor (c : SysCfg K) (ret flow sf : K) :
    (sf ≤ 1 → SwingSys.new c ret flow sf = .error .valueError) ∧
    (1 < sf → ∃ s, SwingSys.new c ret flow sf = .ok s ∧ s.base.cfg = c ∧ s.ret = ret ∧ s.flow = flow ∧ s.sf = sf ∧
      getMinCapacity s.base = .error .runtimeError ∧ s.tmVol = none ∧ s.tmCap = none ∧ s.effMix = 1) := by
  constructor
  · intro h
    simp [SwingSys.new, h]
  · intro h
    exact ⟨_, by simp only [SwingSys.new, if_neg (not_le.2 h)]; rfl, rfl, rfl, rfl, rfl, rfl, rfl, rfl, rfl⟩

example : ∃ s, SwingSys.new Demo.cfg 115 3 (6/5) = .ok s :=
  let ⟨s, h, _⟩ := (C66_safety_factor Demo.cfg 115 3 (6/5)).2 (by norm_num)
  ⟨s, h⟩

/-- **C86 (what it is).** Without load shifting the storage of a single-pass return-to-primary system is that of the plain
system with the same settings. -/
theorem C86_storage_of_plain_system (db : ShapeFiles K) (s s' : SpSys K) (p p' : DhwSys K) (b b1' b2' : Building K)
    (sched : Option (List String)) (cmap : Option (ControlMap K)) (slope fract : K) (ws1 ws2 : Warnings)
    (hls : lsInputs sched cmap = none) (hcfg : s.base.cfg = p.cfg)
    (h1 : SpSys.size db s b sched cmap slope fract = ((s', b1'), .ok ws1))
    (h2 : size baseMethods db p b sched cmap slope fract = ((p', b2'), .ok ws2)) :
    s'.base.minStorage = p'.minStorage := by
  obtain ⟨b1, cap, st, r, hb1, hc, _, _, _, hst, _⟩ := spSize_ok h1
  rcases size_cases baseMethods db p b sched cmap slope fract with
    ⟨e, _, he⟩ | ⟨b2, hb2, ⟨e, _, he⟩ | ⟨cap2, st2, hc2, ⟨e, _, he⟩ | ⟨ws', b3, hw, he, _, _⟩⟩⟩
  · simp [he] at h2
  · simp [he] at h2
  · simp [he] at h2
  · obtain rfl : b1 = b2 := by rw [hb1] at hb2; injection hb2
    rw [hls, hcfg] at hc
    rw [hls] at hc2
    simp only [sizeCore, bind_eq_ok, pure_eq_ok, Except.ok.injEq, Prod.mk.injEq, spMethods, spRunVol, baseMethods] at hc hc2
    obtain ⟨i, e1, c1, _, rv, ⟨q, _, e2⟩, sf, e3, st', e4, rfl, rfl⟩ := hc
    obtain ⟨i', f1, c1', _, rv', f2, sf', f3, st'', f4, rfl, rfl⟩ := hc2
    rw [e1] at f1; cases f1
    rw [e2] at f2; cases f2
    rw [e3] at f3; cases f3
    rw [e4] at f4; cases f4
    rw [he] at h2
    simp only [Prod.mk.injEq] at h2
    rw [hst, ← h2.1.1]

/-- Non-vacuity: the demo building can be sized both ways, and the storage is not zero. -/
example : ∃ st : ℚ, 0 < st ∧
    (SpSys.size Demo.noFiles ⟨{ cfg := Demo.cfg }, ⟨110, 3⟩, none⟩ Demo.building none (some Demo.map) (17/10) 1).1.1.base.minStorage
      = some st ∧
    (size baseMethods Demo.noFiles { cfg := Demo.cfg } Demo.building none (some Demo.map) (17/10) 1).1.1.minStorage
      = some st := by
  refine ⟨85, ?_⟩
  decide +kernel

end Eco
