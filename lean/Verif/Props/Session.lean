import Verif.Spec.Session
import Verif.Props.Repeat
import Verif.Props.EngineReport

/-! C122: the answers of an engine do not depend on the calls made before. -/

namespace Eco
set_option linter.unusedSectionVars false
variable {K : Type} [Field K] [LinearOrder K] [IsStrictOrderedRing K]
open Spec

theorem leftover_refl (s : Prim K) : s.Leftover s :=
  ⟨rfl, rfl, sameHeater_refl _, rfl⟩

theorem leftover_trans {a b c : Prim K} (h : a.Leftover b) (h' : b.Leftover c) : a.Leftover c :=
  ⟨h'.1.trans h.1, h'.2.1.trans h.2.1, forall₂_trans h.2.2.1 h'.2.2.1, h'.2.2.2.trans h.2.2.2⟩

/-- A simulation leaves the same system up to flags and tank contents. -/
theorem simulate_leftover {s s' : Prim K} {b : Building K} {thr : K} {maxMin : Int} {d : String} {r : SimRun K}
    (h : s.simulate b thr maxMin d = .ok (s', r)) : s.Leftover s' := by
  cases ht : s.tank with
  | some t =>
    obtain ⟨e1, e2, e3, t', ht', hv, hs⟩ := simulate_keeps ht h
    exact ⟨e1, e2, e3, by rw [ht', ht]; simp [hv, hs]⟩
  | none =>
    unfold Prim.simulate at h
    simp only [bind_eq_ok] at h
    obtain ⟨_, hd, s1, h2, h3⟩ := h
    have hn : s1 = s := by
      unfold Prim.init at h2
      simp only [bind_eq_ok, pure_eq_ok, Except.ok.injEq] at h2
      obtain ⟨_, _, rfl⟩ := h2
      obtain ⟨su, st, ws, tk⟩ := s
      simp only at ht
      subst ht
      rfl
    subst hn
    unfold simulateFrom at h3
    simp only [bind_eq_ok] at h3
    obtain ⟨_, _, _, _, h4⟩ := h3
    have := simLoop_keeps (fun x => x = s1) (fun a i a' o p q => by
      subst p
      unfold Prim.step at q
      rw [ht] at q
      simp only [bind_eq_ok, pure_eq_ok, Except.ok.injEq, Prod.mk.injEq] at q
      obtain ⟨_, _, q, _⟩ := q
      exact q.symm) _ _ _ _ _ _ _ _ rfl h4
    rw [this]
    exact leftover_refl _

/-- Neither does drawing the sizing curve change anything. -/
theorem enginePlot_state [FloorRing K] (M : SizingMethods K) (db : ShapeFiles K) (invCdf : K → K) (p : EngineParams K)
    (s : DhwSys K) (b : Building K) (slope : K) (hb : b.isAnnual = false) :
    (enginePlot M db invCdf p s b slope).1 = (s, b) := by
  unfold enginePlot
  split
  · rfl
  · rename_i sched m _
    have h0 := plotSizingCurve_state M db s b sched m slope (loadShiftFract invCdf) p.lsPercent hb
    split
    · rename_i e hp; rw [hp] at h0; exact h0
    · rename_i s1 b1 fig hp
      rw [hp] at h0
      simp only [Prod.mk.injEq] at h0
      obtain ⟨rfl, rfl⟩ := h0
      rw [hp]

/-- **C122, state.** No history of calls changes the parameters, the sized results or the building of an engine; of its
system it changes only which heaters are on and what the tank holds. -/
theorem C122_history [FloorRing K] (db : ShapeFiles K) (invCdf : K → K) (e e' : EngineObj K) (qs : List (EngineCall K))
    (hb : e.bld.isAnnual = false) (h : EngineObj.History db invCdf e qs e') :
    e'.params = e.params ∧ e'.sys = e.sys ∧ e'.bld = e.bld ∧ e.prim.Leftover e'.prim := by
  induction h with
  | nil e => exact ⟨rfl, rfl, rfl, leftover_refl _⟩
  | cons h _ ih =>
    cases h with
    | results => exact ih hb
    | magnitude => exact ih hb
    | plot slope =>
      rename_i e e2 qs _
      have h0 := enginePlot_state baseMethods db invCdf e.params e.sys e.bld slope hb
      have h1 := congrArg Prod.fst h0
      have h2 := congrArg Prod.snd h0
      simp only at h1 h2
      have i := ih (by simp only [h2]; exact hb)
      simp only [h1, h2] at i
      exact i
    | run thr maxMin d p r h =>
      obtain ⟨a1, a2, a3, a4⟩ := ih hb
      exact ⟨a1, a2, a3, leftover_trans (simulate_leftover h) a4⟩
    | raised thr maxMin d p x h hp =>
      obtain ⟨a1, a2, a3, a4⟩ := ih hb
      exact ⟨a1, a2, a3, leftover_trans hp a4⟩

/-- **C122, other calls.** The sizing results, the hot water magnitude and the sizing curve are answered as at first,
whatever was called before and whether or not it raised. -/
theorem C122_same_answer [FloorRing K] (db : ShapeFiles K) (invCdf : K → K) (e : EngineObj K) (q : EngineCall K)
    (hb : e.bld.isAnnual = false) (hq : ¬ Simulates q) : SameAnswer db invCdf e q := by
  intro qs e' e1 e1' a a' hh h h'
  obtain ⟨h1, h2, h3, _⟩ := C122_history db invCdf e e' qs hb hh
  cases h with
  | results => cases h'; rw [h2]
  | magnitude => cases h'; rw [h3]
  | plot slope => cases h'; rw [h1, h2, h3]
  | run => exact absurd trivial hq
  | raised => exact absurd trivial hq

/-- The answer of a simulation is that of the simulator. -/
theorem step_simulate [FloorRing K] {db : ShapeFiles K} {invCdf : K → K} {e e1 : EngineObj K} {thr : K} {maxMin : Int}
    {d : String} {a : Py (EngineAnswer K)} (h : EngineObj.Step db invCdf e (.simulate thr maxMin d) e1 a) :
    a = (e.prim.simulate e.bld thr maxMin d).map (fun x => .run x.2) := by
  cases h with
  | run _ _ _ p r h => rw [h]; rfl
  | raised _ _ _ p x h hp => rw [h]; rfl

/-- What the constructor builds: heaters with the engine's control map, all off, and a tank. -/
theorem new_prim {db : ShapeFiles K} {t : ClimateZone.Tables K} {model : String → ℕ → K → Option K → Py (PerfMap K)}
    {invCdf : K → K} {p : EngineParams K} {e : EngineObj K}
    (hp : p.schematic = "primary_no_recirc" ∨ p.schematic = "singlepass_norecirc")
    (h : EngineObj.new db t model invCdf p = .ok e) :
    e.params = p ∧ p.buildBuilding db t = .ok e.bld ∧ e.prim.supply = p.supply ∧ e.prim.storage = p.storage ∧
    ∃ sched m w ws tank, p.buildControlMap = .ok (sched, m) ∧ e.prim.heaters = w :: ws ∧
      (∀ v ∈ w :: ws, v.sched = some sched ∧ v.cmap = some m ∧ v.active = false) ∧ e.prim.tank = some tank ∧
      tank.slope = 28 / 10 := by
  unfold EngineObj.new EngineParams.build at h
  simp only [bind_eq_ok, pure_eq_ok, Except.ok.injEq] at h
  obtain ⟨_, ⟨b, hb, ⟨sys, prim⟩, hs, rfl⟩, rfl⟩ := h
  refine ⟨rfl, hb, ?_⟩
  simp only
  unfold EngineParams.buildDhwSystem at hs
  split at hs
  · unfold EngineParams.buildPresized at hs
    simp only [bind_eq_ok, if_pos hp] at hs
    obtain ⟨⟨sched, m⟩, hc, ws, hw, hs⟩ := hs
    simp only [dhwApi] at hs
    split at hs
    · simp at hs
    · rename_i v hv
      simp only [Except.ok.injEq, Prod.mk.injEq] at hs
      obtain ⟨_, rfl⟩ := hs
      refine ⟨rfl, rfl, sched, m, ?_⟩
      unfold EngineParams.presizedHeaters at hw
      split at hw
      · simp only [bind_eq_ok, pure_eq_ok, Except.ok.injEq] at hw
        obtain ⟨_, _, _, _, rfl⟩ := hw
        exact ⟨_, [], _, hc, rfl, by simp, rfl, rfl⟩
      · split at hw
        · simp at hw
        · simp only [bind_eq_ok, pure_eq_ok, Except.ok.injEq] at hw
          obtain ⟨each, he, rfl⟩ := hw
          obtain ⟨n, hn⟩ : ∃ n, p.numHeaters = n + 1 := by
            cases hn : p.numHeaters with
            | zero => rw [hn] at he; simp [fdiv] at he
            | succ n => exact ⟨n, rfl⟩
          rw [hn, List.replicate_succ]
          refine ⟨_, _, _, hc, rfl, ?_, rfl, rfl⟩
          intro v hv
          rw [← List.replicate_succ] at hv
          obtain rfl := List.eq_of_mem_replicate hv
          exact ⟨rfl, rfl, rfl⟩
  · simp only [bind_eq_ok] at hs
    obtain ⟨⟨sched, m⟩, hc, fract, _, hs⟩ := hs
    simp only [dhwApi, dhwFromSize, bind_eq_ok, pure_eq_ok, Except.ok.injEq, Prod.mk.injEq] at hs
    obtain ⟨_, _, _, _, _, _, _, rfl⟩ := hs
    exact ⟨rfl, rfl, sched, m, _, [], _, hc, rfl, by simp [Heater.fromNominal], rfl, rfl⟩

/-- The first hour of the engine's schedule is labelled normal if there is no load shifting. -/
theorem controlMap_normal {p : EngineParams K} {sched : List String} {m : ControlMap K}
    (h : p.buildControlMap = .ok (sched, m)) :
    dictGet? m "normal" = some ⟨p.aquastat, p.onTrig.getD p.supply, p.offSensor, p.offTrig.getD p.storage, p.storage⟩ := by
  unfold EngineParams.buildControlMap at h
  split at h
  · simp only [Except.ok.injEq, Prod.mk.injEq] at h; obtain ⟨_, rfl⟩ := h; simp [dictGet?]
  · simp only [Except.ok.injEq, Prod.mk.injEq] at h; obtain ⟨_, rfl⟩ := h; simp [dictGet?]
  · simp only [bind_eq_ok] at h
    obtain ⟨s, _, h⟩ := h
    split at h
    · simp only [pure_eq_ok, Except.ok.injEq, Prod.mk.injEq] at h; obtain ⟨_, rfl⟩ := h; simp [dictGet?]
    · split at h <;>
      · simp only [pure_eq_ok, Except.ok.injEq, Prod.mk.injEq] at h; obtain ⟨_, rfl⟩ := h; simp [dictGet?]

/-- **C122, simulations.** An engine as constructed answers every simulation as at first, whatever was called before,
if it does not start the day shedding or loading up, its off sensor is no higher than its on sensor, the water that
fills the tank is colder than the triggers, and the tank has a volume.

What is missing: which heaters are on survives from one simulation to the next, see `C122_simulations_differ`. -/
theorem C122_same_simulation_partial [FloorRing K] (db : ShapeFiles K) (t : ClimateZone.Tables K)
    (model : String → ℕ → K → Option K → Py (PerfMap K)) (invCdf : K → K) (p : EngineParams K) (e : EngineObj K)
    (hp : p.schematic = "primary_no_recirc" ∨ p.schematic = "singlepass_norecirc")
    (he : EngineObj.new db t model invCdf p = .ok e) (hb : e.bld.isAnnual = false)
    (hday : ∀ sched m, p.buildControlMap = .ok (sched, m) → sched[0]? = some "normal")
    (hoff : p.offSensor ≤ p.aquastat) (h0 : 0 ≤ p.aquastat) (h1 : p.aquastat ≤ 1)
    (cold : K) (hcold : designInletOr e.bld = .ok cold) (hst : cold ≤ p.storage) (hon : cold < p.onTrig.getD p.supply)
    (hoffT : cold < p.offTrig.getD p.storage) (hv : ∀ tank, e.prim.tank = some tank → 0 < tank.vol)
    (thr : K) (maxMin : Int) (d : String) : SameAnswer db invCdf e (.simulate thr maxMin d) := by
  intro qs e' e1 e1' a a' hh h h'
  obtain ⟨_, _, hbld, hl⟩ := C122_history db invCdf e e' qs hb hh
  obtain ⟨_, _, hsup, hsto, sched, m, w, ws, tank, hc, hws, hall, htank, hsl⟩ := new_prim hp he
  rw [step_simulate h, step_simulate h', hbld]
  have hfin : PrimInv e.prim tank.vol tank.slope e'.prim := by
    obtain ⟨l1, l2, l3, l4⟩ := hl
    rw [htank] at l4
    cases ht' : e'.prim.tank with
    | none => rw [ht'] at l4; simp at l4
    | some t' =>
      rw [ht'] at l4
      simp only [Option.map_some, Option.some.injEq, Prod.mk.injEq] at l4
      exact ⟨l1, l2, l3, t', ht', l4.1, l4.2⟩
  have hn := controlMap_normal hc
  rw [simulate_same e.prim e'.prim e.bld thr maxMin d tank w ws m _ cold htank (hv _ htank)
    (by rw [hsl]; norm_num) hws (hall w (by simp)).2.1 hn h0 h1 hcold (by rw [hsto]; exact hst) ?_ hfin]
  intro v hvm
  rw [hws] at hvm
  obtain ⟨g1, g2, _⟩ := hall v hvm
  exact ⟨_, ⟨sched, m, "normal", g1, g2, hday _ _ hc, hn⟩, le_refl _, hoff, hon, hoffT⟩

namespace Demo

/-- No models are installed. -/
def noModel : String → ℕ → ℚ → Option ℚ → Py (PerfMap ℚ) := fun _ _ _ _ => .error .valueError

def noTables : ClimateZone.Tables ℚ := ⟨[], [], [], []⟩

/-- Given equipment that sheds from midnight, for a building that needs more than it can give. -/
def nightParams : EngineParams ℚ :=
  { params with
    magnitude := some 48000, customPeak := some flat, onTrig := some 110, offTrig := some 120
    lsSchedule := some (List.replicate 4 0 ++ List.replicate 20 1), loadUpHours := 0, loadUpFract := none
    shedOffFract := some (1 / 2), storageVol := some 300, heatingCap := some 40 }

def nightEngine : EngineObj ℚ := ⟨nightParams, { cfg := ⟨120, 150, 16, 1⟩ }, night, busy⟩

theorem nightEngine_new : EngineObj.new noFiles noTables noModel (fun _ => 1) nightParams = .ok nightEngine := by
  have hs : Building.computeSingle noFiles none (some 48000) (some flat) none ⟨none, none, none⟩ =
      .ok ((48000 : ℚ), flat, flat) := by decide +kernel
  have hb : nightParams.buildBuilding noFiles noTables = .ok busy := by
    unfold EngineParams.buildBuilding Building.fromBuildingType
    simp only [nightParams, params, buildClimateZone, ok_bind, hs]
    rfl
  have hc : nightParams.buildControlMap = .ok (nightShed, nightMap) := by decide +kernel
  have hw : fdiv (40 : ℚ) ((1 : ℕ) : ℚ) = .ok 40 := by decide +kernel
  unfold EngineObj.new EngineParams.build EngineParams.buildDhwSystem EngineParams.buildPresized
  simp only [hb, hc, ok_bind]
  unfold EngineParams.presizedHeaters
  simp only [nightParams, params, hw, ok_bind, pure_eq_ok]
  rfl

end Demo

/-- Non-vacuity of C122: an engine without load shifting, sized for the demo building, answers every call as at first.
-/
example (q : EngineCall ℚ) : ∃ e, EngineObj.new Demo.noFiles Demo.noTables Demo.noModel (fun _ => 1)
    { Demo.params with lsSchedule := none } = .ok e ∧ SameAnswer Demo.noFiles (fun _ => 1) e q := by
  have h : (match EngineObj.new Demo.noFiles Demo.noTables Demo.noModel (fun _ => 1)
      { Demo.params with lsSchedule := none } with
    | .ok e => decide (e.bld.isAnnual = false) && decide (designInletOr e.bld = .ok 50) &&
      (match e.prim.tank with
        | some t => decide (0 < t.vol)
        | none => false)
    | .error _ => false) = true := by decide +kernel
  split at h
  · rename_i e he
    simp only [Bool.and_eq_true, decide_eq_true_eq] at h
    obtain ⟨⟨h1, h2⟩, h3⟩ := h
    refine ⟨e, he, ?_⟩
    cases q with
    | simulate thr maxMin d =>
      refine C122_same_simulation_partial _ _ _ _ _ e (.inl rfl) he h1 ?_ (by decide +kernel) (by decide +kernel)
        (by decide +kernel) 50 h2 (by decide +kernel) (by decide +kernel) (by decide +kernel) ?_ thr maxMin d
      · intro sched m hc
        simp only [EngineParams.buildControlMap, Except.ok.injEq, Prod.mk.injEq] at hc
        obtain ⟨rfl, _⟩ := hc
        rfl
      · intro t ht
        rw [ht] at h3
        simpa using h3
    | results => exact C122_same_answer _ _ e _ h1 (by simp [Simulates])
    | magnitude => exact C122_same_answer _ _ e _ h1 (by simp [Simulates])
    | plot slope => exact C122_same_answer _ _ e _ h1 (by simp [Simulates])
  · simp at h

/-- **C122 fails.** An engine with given equipment that sheds from midnight, asked for the same annual simulation twice,
answers differently. -/
theorem C122_simulations_differ (thr : ℚ) (maxMin : Int) (hm : 10 ≤ maxMin) :
    ∃ (p : EngineParams ℚ) (e : EngineObj ℚ),
      EngineObj.new Demo.noFiles Demo.noTables Demo.noModel (fun _ => 1) p = .ok e ∧
      ¬ SameAnswer Demo.noFiles (fun _ => 1) e (.simulate thr maxMin "annual") := by
  obtain ⟨r, h1, h2⟩ := Demo.night_run false (StratTank.new 300 (28 / 10)) rfl rfl thr maxMin hm
  obtain ⟨r', h3, h4⟩ := Demo.night_run true ⟨300, 28 / 10, -105, -62, 50, 150⟩ rfl rfl thr maxMin hm
  refine ⟨Demo.nightParams, Demo.nightEngine, Demo.nightEngine_new, fun hs => ?_⟩
  have s1 := EngineObj.Step.run (db := Demo.noFiles) (invCdf := fun _ => 1) Demo.nightEngine thr maxMin "annual" _ r h1
  have s2 := EngineObj.Step.run (db := Demo.noFiles) (invCdf := fun _ => 1)
    { Demo.nightEngine with prim := Demo.nightAt true (-105) } thr maxMin "annual" _ r' h3
  have := hs _ _ _ _ _ _ (.cons s1 (.nil _)) s1 s2
  simp only [Except.ok.injEq, EngineAnswer.run.injEq] at this
  rw [this, h2] at h4
  simp at h4

end Eco
