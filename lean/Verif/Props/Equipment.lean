import Verif.Props.Engine
import Verif.Props.SwingErCurve

/-! C114: the equipment given to the engine is the equipment of the system it builds. -/

namespace Eco
set_option linter.unusedSectionVars false
open Spec
variable {K : Type} [Field K] [LinearOrder K] [IsStrictOrderedRing K] {S : Type}

namespace Spec

/-- The stratification slope of the primary tank of a pre-sized system; `none`: the default of the tank. -/
def presizedSlope : SysClass → Option K
  | .singlePassRtp => some (17 / 10)
  | .multiPassRtp => some (8 / 10)
  | _ => none

/-- The heater has the constant capacity `cap`, is off, and follows the control settings `tc` in every hour. -/
def FixedHeater (w : Heater K) (cap : K) (tc : Controls K) : Prop :=
  w.active = false ∧ (∀ oat outlet inlet, w.getCapacity oat outlet inlet = .ok (some cap)) ∧
    w.sched = some (List.replicate 24 "normal") ∧ w.cmap = some [("normal", tc)]

end Spec

theorem buildTmHeater_ok {api : SystemApi K S} {p : EngineParams K} {tc : Controls K} {forceEr : Bool} {w : Heater K}
    {cap : K} (h : p.buildTmHeater api tc forceEr = .ok w) (hc : p.tmCapacity = some cap)
    (hm : forceEr = true ∨ p.tmModel = none) :
    FixedHeater w (cap / ((if forceEr then 1 else p.numTmHeaters : ℕ) : K)) tc ∧
      ((if forceEr then 1 else p.numTmHeaters : ℕ) : K) ≠ 0 := by
  unfold EngineParams.buildTmHeater at h
  simp only [hc, bind_eq_ok, pure_eq_ok, Except.ok.injEq, fdiv_eq_ok] at h
  obtain ⟨each, ⟨q, ⟨hq, rfl⟩, rfl⟩, h⟩ := h
  have key : w = ⟨some (PerfMap.nominal (cap / ((if forceEr then 1 else p.numTmHeaters : ℕ) : K))),
      some (List.replicate 24 "normal"), some [("normal", tc)], false⟩ := by
    rcases hm with rfl | hm
    · cases hmod : p.tmModel with
      | none => simp only [hmod] at h; exact (Except.ok.inj h).symm
      | some nm => simp only [hmod] at h; exact (Except.ok.inj h).symm
    · simp only [hm] at h
      exact (Except.ok.inj h).symm
  subst key
  exact ⟨⟨rfl, fun _ _ _ => rfl, rfl, rfl⟩, hq⟩

/-- **C114.** A system built from given equipment has the run hours that were asked for (14 for multi-pass, none for
tankless), the tank slope of its class, and, with a given capacity and no heater model, as many primary heaters as were
asked for, all off, all with the control settings of the schedule, whose capacities add up to the given one. -/
theorem C114_primary (api : SystemApi K S) (p : EngineParams K) (b : Building K) (s : S) (c : List String × ControlMap K)
    (hv : p.storageVol.isSome) (hc : p.buildControlMap = .ok c) (h : p.buildDhwSystem api b = .ok s) :
    ∃ cls args, (p.schematic, cls) ∈ classOf ∧ api.construct cls args = .ok s ∧
      args.slope = presizedSlope cls ∧
      args.maxRunHr = (match cls with | .multiPassRtp => some 14 | .instant => none | _ => some p.maxRunHr) ∧
      (p.hpwhModel = none → ∃ total, p.heatingCap = some total ∧ args.heaters.length = p.numHeaters ∧
        ∃ each, (∀ w ∈ args.heaters, w.active = false ∧ w.sched = some c.1 ∧ w.cmap = some c.2 ∧
          ∀ oat outlet inlet, w.getCapacity oat outlet inlet = .ok (some each)) ∧
        p.numHeaters * each = total) := by
  simp only [EngineParams.buildDhwSystem, hv, if_true, EngineParams.buildPresized, bind_eq_ok] at h
  obtain ⟨c', hc', ws, hws, h⟩ := h
  rw [hc] at hc'
  obtain rfl : c = c' := by injection hc'
  have hheat : p.hpwhModel = none → ∃ total, p.heatingCap = some total ∧ ws.length = p.numHeaters ∧
        ∃ each, (∀ w ∈ ws, w.active = false ∧ w.sched = some c.1 ∧ w.cmap = some c.2 ∧
          ∀ oat outlet inlet, w.getCapacity oat outlet inlet = .ok (some each)) ∧
        p.numHeaters * each = total := by
    intro hm
    unfold EngineParams.presizedHeaters at hws
    simp only [hm] at hws
    cases hcap : p.heatingCap with
    | none => simp [hcap] at hws
    | some total =>
      simp only [hcap, bind_eq_ok, fdiv_eq_ok, pure_eq_ok, Except.ok.injEq] at hws
      obtain ⟨each, ⟨hn, rfl⟩, rfl⟩ := hws
      refine ⟨total, rfl, List.length_replicate, total / p.numHeaters, ?_, ?_⟩
      · intro w hw
        obtain ⟨_, rfl⟩ := List.mem_replicate.1 hw
        exact ⟨rfl, rfl, rfl, fun _ _ _ => rfl⟩
      · rw [mul_div_cancel₀ _ hn]
  split at h
  · rename_i hs
    exact ⟨.dhw, _, by rcases hs with hs | hs <;> simp [classOf, hs], h, rfl, rfl, hheat⟩
  split at h
  · rename_i _ hs
    simp only [bind_eq_ok] at h
    obtain ⟨u, h1, u', h2, w, _, h⟩ := h
    exact ⟨.parallelLoop, _, by rcases hs with hs | hs <;> simp [classOf, hs], h, rfl, rfl, hheat⟩
  split at h
  · rename_i _ _ hs
    simp only [bind_eq_ok] at h
    obtain ⟨u, h1, u', h2, w, _, h⟩ := h
    exact ⟨.swing, _, by rcases hs with hs | hs <;> simp [classOf, hs], h, rfl, rfl, hheat⟩
  split at h
  · rename_i _ _ _ hs
    simp only [bind_eq_ok] at h
    obtain ⟨u, h1, h⟩ := h
    exact ⟨.singlePassRtp, _, by rcases hs with hs | hs <;> simp [classOf, hs], h, rfl, rfl, hheat⟩
  split at h
  · rename_i _ _ _ _ hs
    simp only [bind_eq_ok] at h
    obtain ⟨u, h1, w, _, h⟩ := h
    exact ⟨.multiPassRtp, _, by rcases hs with hs | hs <;> simp [classOf, hs], h, rfl, rfl, hheat⟩
  split at h
  · rename_i hs
    exact ⟨.instant, _, by simp [classOf, hs], h, rfl, rfl, hheat⟩
  · simp at h

/-- **C114 (parallel loop).** The temperature-maintenance heaters of a pre-sized parallel-loop system, described by a
capacity, are off, add up to the given capacity, come on at the given ON temperature (by default the supply
temperature) and go off at the given OFF temperature (by default 8 °F above it), both sensed in the middle of the
tank; the loop tank has the given volume. -/
theorem C114_parallel (api : SystemApi K S) (p : EngineParams K) (b : Building K) (s : S) (cap on off : K)
    (hv : p.storageVol.isSome) (hs : p.schematic = "parallel_loop" ∨ p.schematic = "paralleltank")
    (hcap : p.tmCapacity = some cap) (hm : p.tmModel = none)
    (hon : p.tmOn = some on ∨ p.tmOn = none ∧ on = p.supply)
    (hoff : p.tmOff = some off ∨ p.tmOff = none ∧ off = p.supply + 8) (h : p.buildDhwSystem api b = .ok s) :
    ∃ args w n each, api.construct .parallelLoop args = .ok s ∧ args.tmHeater = some w ∧ args.numTm = some n ∧
      args.tmVol = p.tmStorageVol ∧ args.tm = some (on, off, p.tmOffTime) ∧ (n : K) * each = cap ∧
      FixedHeater w each ⟨1 / 2, on, 1 / 2, off, off⟩ := by
  have e1 : p.tmOnT = on := by
    rcases hon with e | ⟨e, rfl⟩ <;> simp [EngineParams.tmOnT, e]
  have e2 : p.tmOffT = off := by
    rcases hoff with e | ⟨e, rfl⟩ <;> simp [EngineParams.tmOffT, e]
  simp only [EngineParams.buildDhwSystem, hv, if_true, EngineParams.buildPresized, bind_eq_ok] at h
  obtain ⟨c, _, ws, _, h⟩ := h
  rw [if_neg (by rcases hs with hs | hs <;> simp [hs]), if_pos hs] at h
  simp only [bind_eq_ok] at h
  obtain ⟨u, h1, u', h2, w, hw, h⟩ := h
  obtain ⟨hf, hn⟩ := buildTmHeater_ok hw hcap (Or.inr hm)
  rw [e1, e2] at hf
  refine ⟨_, w, p.numTmHeaters, _, h, rfl, rfl, rfl, by rw [e1, e2], ?_, hf⟩
  simp only [Bool.false_eq_true, if_false] at hn ⊢
  rw [mul_div_cancel₀ _ hn]

/-- **C114 (swing tank).** The element of a pre-sized swing tank is one resistance heater of the given capacity, even
when a model or several units are named; it comes on at the supply temperature and goes off 8 °F above it. -/
theorem C114_swing (api : SystemApi K S) (p : EngineParams K) (b : Building K) (s : S) (cap : K)
    (hv : p.storageVol.isSome) (hs : p.schematic = "swing_tank" ∨ p.schematic = "swingtank")
    (hcap : p.tmCapacity = some cap) (h : p.buildDhwSystem api b = .ok s) :
    ∃ args w, api.construct .swing args = .ok s ∧ args.tmHeater = some w ∧ args.tmVol = p.tmStorageVol ∧
      FixedHeater w cap ⟨1 / 2, p.supply, 1 / 2, p.supply + 8, p.supply + 8⟩ := by
  simp only [EngineParams.buildDhwSystem, hv, if_true, EngineParams.buildPresized, bind_eq_ok] at h
  obtain ⟨c, _, ws, _, h⟩ := h
  rw [if_neg (by rcases hs with hs | hs <;> simp [hs]), if_neg (by rcases hs with hs | hs <;> simp [hs]),
    if_pos hs] at h
  simp only [bind_eq_ok] at h
  obtain ⟨u, h1, u', h2, w, hw, h⟩ := h
  obtain ⟨hf, hn⟩ := buildTmHeater_ok hw hcap (Or.inl rfl)
  simp only [if_true, Nat.cast_one, div_one] at hf
  exact ⟨_, w, h, rfl, rfl, hf⟩

/-- **C114 (trade-off element).** The element that the electric-resistance trade-off builds for a swing tank has the
capacity that the trade-off reports, and the same control settings. -/
theorem C114_trade_off (heaters : List (Heater K)) (tankVol tmVol tmCap : K) (b : Building K)
    (supply storage ret flow erSf cap : K) (e : ErSys K) (w : Heater K)
    (h : ErSys.fromComponents heaters tankVol tmVol tmCap b supply storage ret flow erSf = .ok (e, w))
    (hcap : e.sw.tmCap = some cap) :
    FixedHeater w cap ⟨1 / 2, supply, 1 / 2, supply + 8, supply + 8⟩ := by
  unfold ErSys.fromComponents at h
  simp only [bind_eq_ok] at h
  obtain ⟨e0, _, oat, _, inlet, _, caps, _, h⟩ := h
  split at h
  · simp at h
  · rename_i e2 _
    simp only [pure_eq_ok, Except.ok.injEq, Prod.mk.injEq] at h
    obtain ⟨rfl, rfl⟩ := h
    rw [hcap]
    exact ⟨rfl, fun _ _ _ => rfl, rfl, rfl⟩

namespace Demo

/-- An engine environment that hands back what it is asked to construct. -/
def echo : SystemApi ℚ (SysClass × PresizedArgs ℚ) :=
  ⟨fun _ _ _ => .error .valueError, fun c a => .ok (c, a), fun _ _ _ _ => .error .valueError, fun _ => 1⟩

def plant : EngineParams ℚ := { params with
  storageVol := some 500, heatingCap := some 100, numHeaters := 4, returnTemp := some 115, returnFlow := some 3,
  tmStorageVol := some 80, tmCapacity := some 30, numTmHeaters := 2 }

end Demo

/-- Non-vacuity of C114: the plant is built under each of the schematics. -/
example :
    (match { Demo.plant with schematic := "mprtp" }.buildDhwSystem Demo.echo Demo.building with
      | .ok (.multiPassRtp, a) => a.heaters.length == 4 && a.slope == some (8 / 10)
      | _ => false) = true ∧
    (match { Demo.plant with schematic := "parallel_loop" }.buildDhwSystem Demo.echo Demo.building with
      | .ok (.parallelLoop, a) => a.heaters.length == 4 && a.numTm == some 2 && a.tmHeater.isSome
      | _ => false) = true ∧
    (match { Demo.plant with schematic := "swing_tank" }.buildDhwSystem Demo.echo Demo.building with
      | .ok (.swing, a) => a.heaters.length == 4 && a.tmHeater.isSome
      | _ => false) = true ∧
    Demo.plant.storageVol.isSome ∧ Demo.plant.buildControlMap.toOption.isSome ∧ Demo.plant.hpwhModel = none ∧
    Demo.plant.tmModel = none := by
  decide +kernel

end Eco
