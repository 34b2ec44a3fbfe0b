import Verif.Spec.Unused
import Verif.Props.ScaleSim
import Verif.Props.Harder

/-! # C132: control settings that no hour of the schedule uses -/

set_option linter.unusedSectionVars false

namespace Eco
open Spec
variable {K : Type} [Field K] [LinearOrder K] [IsStrictOrderedRing K]

/-! ### The same plant -/

theorem timesTank_one (t : StratTank K) : timesTank 1 t = t := by unfold timesTank; simp
theorem timesMixed_one (t : MixedTank K) : timesMixed 1 t = t := by unfold timesMixed; simp
theorem timesIn_one (i : StepIn K) : timesIn 1 i = i := by unfold timesIn; simp
theorem times_one (b : Building K) : times 1 b = b := by unfold times; simp

theorem mapOne (f : List K) : f.map (1 * ·) = f := by simp
theorem optOne (x : Option K) : x.map (1 * ·) = x := by cases x <;> simp

theorem timesOut_one (o : StepOut K) : timesOut 1 o = o := by
  unfold timesOut; simp only [one_mul, Option.map_id']
theorem timesRun_one (r : SimRun K) : timesRun 1 r = r := by
  have : (Option.map ((1 : K) * ·)) = id := by funext x; cases x <;> simp
  unfold timesRun; simp only [mapOne, this, List.map_id]

theorem setting_eq (m : ControlMap K) (k : String) : setting m k = dictGet? m k := rfl

theorem canShift_iff (m : ControlMap K) : (dictHas m "loadUp" || dictHas m "shed") = true ↔ CanShift m := by
  rw [Bool.or_eq_true, dictHas_iff_mem, dictHas_iff_mem]
  unfold CanShift
  simp only [List.mem_map]
  constructor
  · rintro (⟨p, h1, h2⟩ | ⟨p, h1, h2⟩)
    · exact ⟨p, h1, .inl h2⟩
    · exact ⟨p, h1, .inr h2⟩
  · rintro ⟨p, h1, h2 | h2⟩
    · exact .inl ⟨p, h1, h2⟩
    · exact .inr ⟨p, h1, h2⟩

theorem Spec.OtherIdle.rel {w w' : Heater K} (h : OtherIdle w w') : HeaterRel 1 w w' := by
  have hone : ∀ x : Py (Option K), x.map (Option.map (1 * ·)) = x := by
    intro x; cases x with
    | error e => rfl
    | ok x => cases x <;> simp [Except.map]
  have hc : ∀ oat out inl, w'.getCapacity oat out inl = w.getCapacity oat out inl := by
    intro oat out inl; unfold Heater.getCapacity; rw [h.perf]
  have hp : ∀ oat out inl, w'.getPower oat out inl = w.getPower oat out inl := by
    intro oat out inl; unfold Heater.getPower; rw [h.perf]
  rcases h.maps with hm | ⟨s, m, m', h1, h2, h3, h4⟩
  · refine ⟨h.sched, ?_, ?_, by rw [hm], h.active, ?_, ?_⟩
    · intro hour; unfold Heater.getControls; rw [h.sched, hm]
    · unfold Heater.isLoadShifting; rw [hm]
    · intro a b c; rw [hc, hone]
    · intro a b c; rw [hp, hone]
  · refine ⟨h.sched, ?_, ?_, ?_, h.active, ?_, ?_⟩
    · intro hour
      unfold Heater.getControls
      rw [h.sched, h1, h2, h3]
      dsimp only
      cases e : pyGet s hour with
      | error e => rfl
      | ok k =>
        have hk : k ∈ s := by
          unfold pyGet at e
          cases e' : s[hour]? with
          | none => rw [e'] at e; simp at e
          | some x => rw [e'] at e; simp only [Except.ok.injEq] at e; subst e; exact List.mem_of_getElem? e'
        have := h4 k hk
        rw [setting_eq, setting_eq] at this
        simp only [ok_bind, this]
    · unfold Heater.isLoadShifting
      rw [h2, h3]
      dsimp only
      rw [Bool.eq_iff_iff, canShift_iff, canShift_iff]
      exact h.shift m m' h2 h3
    · rcases h.normal m m' h2 h3 with hm | ⟨c, c1, c2⟩
      · rw [hm]
      · rw [h2, h3]
        rw [setting_eq] at c1 c2
        simp only [Option.bind_some]
        unfold normalOrFirst
        rw [c1, c2]
    · intro a b c; rw [hc, hone]
    · intro a b c; rw [hp, hone]

theorem idle_heaters {ws ws' : List (Heater K)} (h : List.Forall₂ OtherIdle ws ws') :
    List.Forall₂ (HeaterRel 1) ws ws' := h.imp (fun _ _ h => h.rel)

/-! ### One step -/

theorem primStep_one (b : Building K) (int : ℕ) (s s' : Prim K) (t : ℕ) (h : PrimRel 1 s s') :
    PyRel (fun x y => PrimRel 1 x.1 y.1 ∧ y.2 = timesOut 1 x.2) (Prim.step b int s t) (Prim.step b int s' t) := by
  have ht : s'.tank = s.tank := by
    rw [h.tank]; cases s.tank with
    | none => rfl
    | some x => simp only [Option.map_some, timesTank_one]
  have hin := inputs_times h.storage h.heaters b t int
  rw [times_one] at hin
  unfold Prim.step
  rw [hin, ht]
  refine pyRel_bind (pyRel_map _ _) ?_
  rintro i _ rfl
  rw [timesIn_one]
  cases e : s.tank with
  | none => exact ⟨h, (timesOut_one _).symm⟩
  | some tank =>
    dsimp only
    have hp := heatPrimary_times one_pos h.heaters tank i int
    rw [timesTank_one, timesIn_one] at hp
    refine pyRel_bind hp ?_
    rintro ⟨ws, tk, q, kws⟩ ⟨ws', tk', q', kws'⟩ ⟨a1, a2, a3, a4⟩
    simp only at a1 a2 a3 a4
    rw [timesTank_one] at a2
    rw [one_mul] at a3
    have a4' : kws' = kws := by
      rw [a4]
      have : (Option.map ((1 : K) * ·)) = id := by funext x; cases x <;> simp
      rw [this, List.map_id]
    subst a2 a3 a4'
    refine ⟨⟨h.supply, h.storage, a1, ?_⟩, ?_⟩
    · simp only [Option.map_some, timesTank_one, h.supply]
    · rw [timesOut_one]; simp only [h.supply]

theorem spStep_one (l : RtpLoop K) (b : Building K) (int : ℕ) (s s' : Prim K) (t : ℕ) (h : PrimRel 1 s s') :
    PyRel (fun x y => PrimRel 1 x.1 y.1 ∧ y.2 = timesOut 1 x.2) (spStep l b int s t) (spStep l b int s' t) := by
  unfold spStep
  refine pyRel_bind (primStep_one b int s s' t h) ?_
  rintro ⟨s1, o⟩ ⟨s1', o'⟩ ⟨h1, h2⟩
  simp only at h1 h2
  rw [timesOut_one] at h2
  subst h2
  have ht : s1'.tank = s1.tank := by
    rw [h1.tank]; cases s1.tank with
    | none => rfl
    | some x => simp only [Option.map_some, timesTank_one]
  dsimp only
  rw [ht]
  cases e : s1.tank with
  | none => exact ⟨h1, (timesOut_one _).symm⟩
  | some tk =>
    dsimp only
    rw [h1.supply]
    refine ⟨⟨rfl, h1.storage, h1.heaters, ?_⟩, ?_⟩
    · simp only [Option.map_some, timesTank_one]
    · rw [timesOut_one]

/-- Two parallel-loop systems that differ in idle settings only. -/
structure ParOne (s s' : ParSim K) : Prop where
  prim : PrimRel 1 s.prim s'.prim
  tmTank : s'.tmTank = s.tmTank
  tmHeater : HeaterRel 1 s.tmHeater s'.tmHeater

theorem tmStep_one (c : TmCfg K) (oat : Option K) (hour : ℕ) (dur : K) (t : MixedTank K) {w w' : Heater K} (h : HeaterRel 1 w w') :
    (tmStep c oat hour dur (t, w')).2 = (tmStep c oat hour dur (t, w)).2 ∧
    (tmStep c oat hour dur (t, w')).1.1 = (tmStep c oat hour dur (t, w)).1.1 ∧
    HeaterRel 1 (tmStep c oat hour dur (t, w)).1.2 (tmStep c oat hour dur (t, w')).1.2 := by
  unfold tmStep
  dsimp only
  split
  · exact ⟨rfl, rfl, h⟩
  obtain ⟨a, b⟩ := h.update (fun f => .ok ((t.recirc c.flow c.ret dur).tempAt f)) hour
  revert a b
  generalize w.updateState (fun f => .ok ((t.recirc c.flow c.ret dur).tempAt f)) hour = x
  generalize w'.updateState (fun f => .ok ((t.recirc c.flow c.ret dur).tempAt f)) hour = y
  obtain ⟨x1, x2⟩ := x
  obtain ⟨y1, y2⟩ := y
  intro a b
  simp only at a b
  subst b
  cases y2 with
  | error e => exact ⟨rfl, rfl, a⟩
  | ok u =>
    dsimp only
    have hone : ∀ x : Py K, x.map (1 * ·) = x := by intro x; cases x <;> simp [Except.map]
    have hone' : ∀ x : Py (Option K), x.map (Option.map (1 * ·)) = x := by
      intro x; cases x with
      | error e => rfl
      | ok x => cases x <;> simp [Except.map]
    rw [a.output, hone, a.active, a.power, hone']
    split
    · exact ⟨rfl, rfl, a⟩
    · split
      · exact ⟨rfl, rfl, a⟩
      · exact ⟨rfl, rfl, a⟩

theorem parStep_one (c : TmCfg K) (b : Building K) (int : ℕ) (s s' : ParSim K) (t : ℕ) (h : ParOne s s') :
    PyRel (fun x y => ParOne x.1 y.1 ∧ y.2 = timesOut 1 x.2) (parStep c b int s t) (parStep c b int s' t) := by
  unfold parStep
  refine pyRel_bind (primStep_one b int s.prim s'.prim t h.prim) ?_
  rintro ⟨s1, o⟩ ⟨s1', o'⟩ ⟨h1, h2⟩
  simp only at h1 h2
  rw [timesOut_one] at h2
  subst h2
  dsimp only
  rw [h.tmTank]
  obtain ⟨a1, a2, a3⟩ := tmStep_one c (some o'.oat) (t * int / 60 % 24) (int : K) s.tmTank h.tmHeater
  revert a1 a2 a3
  generalize tmStep c (some o'.oat) (t * int / 60 % 24) (int : K) (s.tmTank, s.tmHeater) = x
  generalize tmStep c (some o'.oat) (t * int / 60 % 24) (int : K) (s.tmTank, s'.tmHeater) = y
  obtain ⟨⟨x1, x2⟩, x3⟩ := x
  obtain ⟨⟨y1, y2⟩, y3⟩ := y
  intro a1 a2 a3
  simp only at a1 a2 a3
  subst a1 a2
  cases y3 with
  | error e => rfl
  | ok tm => exact ⟨⟨h1, rfl, a3⟩, (timesOut_one _).symm⟩

/-! ### Runs -/

theorem primInit_one {s s' : Prim K} (h : PrimRel 1 s s') (b : Building K) : PyRel (PrimRel 1) (s.init b) (s'.init b) := by
  unfold Prim.init
  refine pyRel_bind (pyRel_refl _) ?_
  rintro cold _ rfl
  refine ⟨h.supply, h.storage, h.heaters, ?_⟩
  simp only [h.tank, h.storage, initialUseable_times h.heaters]
  cases s.tank with
  | none => rfl
  | some t => simp only [Option.map_some, timesTank_one]

theorem pyRel_run_one {α α' : Type} {R : α → α' → Prop} {x : Py (α × SimRun K)} {y : Py (α' × SimRun K)}
    (h : PyRel (fun x y => R x.1 y.1 ∧ y.2 = timesRun 1 x.2) x y) : y.map (·.2) = x.map (·.2) := by
  rw [pyRel_run h]
  simp only [timesRun_one]

theorem Spec.OtherPrim.rel {s s' : Prim K} (h : OtherPrim s s') : PrimRel 1 s s' :=
  ⟨h.supply, h.storage, idle_heaters h.heaters, by
    rw [h.tank]; cases s.tank with
    | none => rfl
    | some x => simp only [Option.map_some, timesTank_one]⟩

/-- **C132, partial, primary systems.** Settings for modes that no hour of the schedule uses have no effect on a simulation:
the run is the same, or the exception is. The other map must have the same normal settings, which the start of the simulation
reads, and must have settings for load-up or shed exactly if the first one has, which decides between the peak and the
average day. -/
theorem C132_primary_partial (s s' : Prim K) (h : OtherPrim s s') (b : Building K) (thr : K) (maxMin : Int) (d : String) :
    (s'.simulate b thr maxMin d).map (·.2) = (s.simulate b thr maxMin d).map (·.2) := by
  have key : PyRel (fun x y => PrimRel 1 x.1 y.1 ∧ y.2 = timesRun 1 x.2) (s.simulate b thr maxMin d) (s'.simulate b thr maxMin d) := by
    unfold Prim.simulate
    refine pyRel_bind (pyRel_refl _) (fun _ _ _ => ?_)
    refine pyRel_bind (primInit_one h.rel b) ?_
    intro s1 s1' h1
    rw [h1.supply]
    exact simulateFrom_times one_pos (PrimRel 1) (fun ts s s' i hs => primStep_one b ts s s' i hs) _ _ _ _ _ _ _ h1
  exact pyRel_run_one key

/-- **C132, partial, single-pass return to primary.** -/
theorem C132_single_pass_partial (l : RtpLoop K) (s s' : Prim K) (h : OtherPrim s s') (b : Building K) (thr : K) (maxMin : Int)
    (d : String) : (spSimulate l s' b thr maxMin d).map (·.2) = (spSimulate l s b thr maxMin d).map (·.2) := by
  have key : PyRel (fun x y => PrimRel 1 x.1 y.1 ∧ y.2 = timesRun 1 x.2) (spSimulate l s b thr maxMin d)
      (spSimulate l s' b thr maxMin d) := by
    unfold spSimulate
    refine pyRel_bind (pyRel_refl _) (fun _ _ _ => ?_)
    refine pyRel_bind (primInit_one h.rel b) ?_
    intro s1 s1' h1
    rw [h1.supply]
    exact simulateFrom_times one_pos (PrimRel 1) (fun ts s s' i hs => spStep_one l b ts s s' i hs) _ _ _ _ _ _ _ h1
  exact pyRel_run_one key

/-- **C132, partial, parallel loop.** -/
theorem C132_parallel_partial (c : TmCfg K) (s s' : ParSim K) (h : OtherPar s s') (b : Building K) (thr : K) (maxMin : Int)
    (d : String) : (parSimulate c s' b thr maxMin d).map (·.2) = (parSimulate c s b thr maxMin d).map (·.2) := by
  have key : PyRel (fun x y => ParOne x.1 y.1 ∧ y.2 = timesRun 1 x.2) (parSimulate c s b thr maxMin d)
      (parSimulate c s' b thr maxMin d) := by
    unfold parSimulate
    refine pyRel_bind (pyRel_refl _) (fun _ _ _ => ?_)
    refine pyRel_bind (primInit_one h.prim.rel b) ?_
    intro p p' h1
    refine pyRel_bind (pyRel_refl _) ?_
    rintro cold _ rfl
    rw [h1.supply, h.tmTank]
    exact simulateFrom_times one_pos ParOne (fun ts s s' i hs => parStep_one c b ts s s' i hs) _ _ _ _ _ _ _
      ⟨h1, rfl, h.tmHeater.rel⟩
  exact pyRel_run_one key

/-- **C132, partial, swing tanks.** -/
theorem C132_swing_partial (tmOff : K) (s s' : SwingSim K) (h : OtherSwing s s') (b : Building K) (thr : K) (maxMin : Int)
    (d : String) : (swingSimulate tmOff s' b thr maxMin d).map (·.2) = (swingSimulate tmOff s b thr maxMin d).map (·.2) := by
  have hr : SwingRel 1 s s' := by
    have e := h.same
    refine ⟨?_, ?_, idle_heaters h.heaters, ?_, ?_, ?_, ?_, h.tmHeater.rel⟩
    · rw [e]
    · rw [e]
    · rw [timesTank_one, e]
    · rw [e]
    · rw [one_mul, e]
    · rw [timesMixed_one, e]
  have := swingSimulate_times one_pos tmOff b hr thr maxMin d
  rw [times_one] at this
  rw [this]
  simp only [timesRun_one]

/-! ### Sizing -/

theorem dictHas_setting {m m' : ControlMap K} {k : String} (h : setting m' k = setting m k) : dictHas m' k = dictHas m k := by
  rw [setting_eq, setting_eq] at h
  unfold dictHas; rw [h]

theorem lsControls_setting {m m' : ControlMap K} (hn : setting m' "normal" = setting m "normal")
    (hl : setting m' "loadUp" = setting m "loadUp") (hs : setting m' "shed" = setting m "shed") :
    lsControls m' = lsControls m := by
  rw [setting_eq, setting_eq] at hn hl hs
  unfold lsControls dictGet
  rw [hn, hl, hs]

/-- **C132, partial, sizing.** Two maps with the same settings for normal, load-up and shed, with settings for normal, size the
same system, whatever else they contain and whatever the schedule is: the object is left in the same state. Only the warnings
about short cycling look at the other settings. -/
theorem C132_sizing_partial (db : ShapeFiles K) (s : DhwSys K) (b : Building K) (sched : Option (List String)) (m m' : ControlMap K)
    (hn : SameNormal m m') (hl : setting m' "loadUp" = setting m "loadUp") (hs : setting m' "shed" = setting m "shed")
    (slope fract : K) :
    (size baseMethods db s b sched (some m') slope fract).1.1 = (size baseMethods db s b sched (some m) slope fract).1.1 := by
  obtain ⟨c, c1, c2⟩ := hn
  have hls := lsControls_setting (c2.trans c1.symm) hl hs
  have hgen : ∀ (c : SysCfg K) (sc : List String) (b : Building K) (sl f : K), genRateLs c sc m' b sl f = genRateLs c sc m b sl f := by
    intro c sc b sl f; unfold genRateLs; rw [hls]
  have hst : ∀ (c : SysCfg K) (rv sl inl : K), storageVolumeLs c rv m' sl inl = storageVolumeLs c rv m sl inl := by
    intro c rv sl inl; unfold storageVolumeLs; rw [hls]
  have hin : lsInputs sched (some m') = (lsInputs sched (some m)).map (fun p => (p.1, m')) := by
    unfold lsInputs
    split
    · next s' m1 h1 h2 =>
      obtain rfl : m' = m1 := by simpa using h2
      rw [dictHas_setting hs]
      rw [h1]
      dsimp only
      split <;> rfl
    · next h1 =>
      split
      · next s' m1 h2 h3 => exact absurd rfl (h1 s' m' h2)
      · rfl
  have hcap : ∀ cf : SysCfg K, cappedCfg cf (lsInputs sched (some m')) = cappedCfg cf (lsInputs sched (some m)) := by
    intro cf; rw [hin]; cases lsInputs sched (some m) <;> rfl
  have hlsm : ∀ p, lsInputs sched (some m) = some p → p.2 = m := by
    intro p hp
    unfold lsInputs at hp
    split at hp
    · next s' m1 h1 h2 =>
      obtain rfl : m = m1 := by simpa using h2
      split at hp
      · simp only [Option.some.injEq] at hp; rw [← hp]
      · simp at hp
    · simp at hp
  have hcore : ∀ (cf : SysCfg K) (b : Building K), sizeCore baseMethods cf b (lsInputs sched (some m')) (some m') slope fract =
      sizeCore baseMethods cf b (lsInputs sched (some m)) (some m) slope fract := by
    intro cf b
    have hsf : ∀ inl, stratFactor cf (some m') slope inl = stratFactor cf (some m) slope inl := by
      intro inl
      rw [stratFactor_normal (by rw [← setting_eq]; exact c2), stratFactor_normal (by rw [← setting_eq]; exact c1)]
    unfold sizeCore
    simp only [hsf]
    cases e : lsInputs sched (some m) with
    | none => rw [hin, e]; rfl
    | some p =>
      obtain ⟨sc, m0⟩ := p
      obtain rfl : m0 = m := hlsm _ e
      rw [hin, e]
      simp only [Option.map_some, hst]
      have e1 : ∀ (c : SysCfg K) sc b sl f, (baseMethods (K := K)).genRateLs c sc m' b sl f = (baseMethods (K := K)).genRateLs c sc m0 b sl f := hgen
      have e2 : ∀ (c : SysCfg K) sc b sl f, (baseMethods (K := K)).reqCapacityLs c sc m' b sl f = (baseMethods (K := K)).reqCapacityLs c sc m0 b sl f := by
        intro c sc b sl f
        show requiredCapacityLs genRateLs c sc m' b sl f = requiredCapacityLs genRateLs c sc m0 b sl f
        unfold requiredCapacityLs
        simp only [hgen]
      simp only [e1, e2]
  unfold size
  dsimp only
  split
  · rfl
  · next b1 _ =>
    rw [hcap, hcore]
    cases sizeCore baseMethods (cappedCfg s.cfg (lsInputs sched (some m))) b1 (lsInputs sched (some m)) (some m) slope fract with
    | error e => rfl
    | ok p =>
      obtain ⟨cap, st⟩ := p
      dsimp only
      generalize warnStep _ (some m') cap st = w1
      generalize warnStep _ (some m) cap st = w2
      cases w1 <;> cases w2 <;> dsimp only
      all_goals
        repeat' split
        all_goals rfl

/-! ### Cases -/

namespace Demo

/-- The demo building with a different average day. -/
def otherDay : Building ℚ := { building with avgShape := heavyEvening }

/-- The map of the sized demo system with settings for shed, which its schedule does not use. -/
def idleShed : ControlMap ℚ := highSensor ++ [("shed", ⟨8 / 10, 110, 6 / 10, 120, 150⟩)]

def sizedIdle : Prim ℚ := Prim.ofSized cfg (11694949 / 320000) (24500 / 83) (28 / 10) (some allNormal) (some idleShed)

/-- ... with settings for a mode of the user's own, which its schedule does not use either. -/
def idleEco : ControlMap ℚ := ("eco", ⟨1 / 2, 100, 1 / 4, 110, 130⟩) :: highSensor

def sizedEco : Prim ℚ := Prim.ofSized cfg (11694949 / 320000) (24500 / 83) (28 / 10) (some allNormal) (some idleEco)

/-- Three shed hours and no load-up. -/
def noLoadUp : List String := List.replicate 17 "normal" ++ ["shed", "shed", "shed"] ++ List.replicate 4 "normal"

theorem otherDay_answers : Answers otherDay := by
  refine ⟨fun _ _ => ⟨20, rfl⟩, fun _ _ => ⟨50, rfl⟩, ?_, ⟨some 50, rfl⟩⟩
  intro i ts avg
  unfold Building.getDhwLoad
  cases avg
  · have e : (if false = true then otherDay.avgShape else otherDay.peakShape) = shape := rfl
    simp only [e]
    rw [if_neg (by decide), pyGet_of_lt (Nat.mod_lt _ (by decide))]
    exact ⟨_, rfl⟩
  · have e : (if true = true then otherDay.avgShape else otherDay.peakShape) = heavyEvening := rfl
    simp only [e]
    rw [if_neg (by decide), pyGet_of_lt (Nat.mod_lt _ (by decide))]
    exact ⟨_, rfl⟩

theorem idle_ready {m : ControlMap ℚ} {c : Controls ℚ} (hm : dictGet? m "normal" = some c) :
    ∀ w ∈ (Prim.ofSized cfg (11694949 / 320000) (24500 / 83) (28 / 10) (some allNormal) (some m)).heaters, Ready w := by
  intro w hw
  obtain rfl : w = Heater.fromNominal (11694949 / 320000) (some allNormal) (some m) := by
    simpa [Prim.ofSized] using hw
  refine ready_of (cap := 11694949 / 320000) rfl ?_
  intro hour hh
  refine ⟨c, allNormal, m, "normal", rfl, rfl, ?_, hm⟩
  unfold allNormal; rw [List.getElem?_replicate, if_pos hh]

theorem idle_other {m : ControlMap ℚ} (h : setting m "normal" = setting highSensor "normal") :
    List.Forall₂ OtherUnused sized.heaters
      (Prim.ofSized cfg (11694949 / 320000) (24500 / 83) (28 / 10) (some allNormal) (some m)).heaters := by
  refine .cons ⟨rfl, rfl, rfl, .inr ⟨allNormal, highSensor, m, rfl, rfl, rfl, ?_⟩⟩ .nil
  intro k hk
  obtain rfl : k = "normal" := List.eq_of_mem_replicate hk
  exact h

end Demo

/-- The hypotheses of the C132 theorems are met: the sized demo system with settings for a further mode. -/
example : OtherPrim Demo.sized Demo.sizedEco := by
  obtain ⟨h, _⟩ := List.forall₂_cons.1 (Demo.idle_other (m := Demo.idleEco) (by decide +kernel))
  refine ⟨rfl, rfl, rfl, .cons ⟨h, ?_, ?_⟩ .nil⟩
  · rintro m m' ⟨⟩ ⟨⟩
    exact .inr ⟨⟨8 / 10, 110, 6 / 10, 120, 150⟩, by decide +kernel, by decide +kernel⟩
  · rintro m m' ⟨⟩ ⟨⟩
    rw [← canShift_iff, ← canShift_iff]
    decide +kernel

/-- A simulated three-day run records at least one step. -/
theorem run_starts {s s' : Prim K} {b : Building K} {thr : K} {maxMin : Int} {r : SimRun K}
    (h : s.simulate b thr maxMin "3day" = .ok (s', r)) : r.ts = 1 ∧ ∃ x, r.demand[0]? = some x := by
  unfold Prim.simulate at h
  simp only [bind_eq_ok] at h
  obtain ⟨_, _, s1, _, h⟩ := h
  obtain ⟨dur, ts, outs, hd, _, h3, _, h5, _, _, _, h6⟩ := simulate_spec _ _ _ thr maxMin "3day" _ s' r h
  have : simDuration "3day" = .ok (4320, 1) := rfl
  rw [this] at hd
  simp only [Except.ok.injEq, Prod.mk.injEq] at hd
  obtain ⟨rfl, rfl⟩ := hd
  have hlen : 0 < outs.length := by
    rcases h6 with ⟨_, h6, _⟩ | ⟨_, h6, _⟩
    · rw [h6]; norm_num
    · exact h6
  refine ⟨h3, outs[0].demand, ?_⟩
  rw [h5.demand, List.getElem?_map, List.getElem?_eq_getElem hlen]
  rfl

/-- **C132 fails for simulations.** Settings for shed that no hour uses make the simulation take the average day instead of
the peak day: the two runs record different demands. Same plant, same schedule, same settings in each hour. -/
theorem C132_simulation_fails :
    ¬ ∀ (s s' : Prim ℚ) (b : Building ℚ) (thr : ℚ) (maxMin : Int) (d : String),
      s'.supply = s.supply → s'.storage = s.storage → s'.tank = s.tank → List.Forall₂ OtherUnused s.heaters s'.heaters →
      (s'.simulate b thr maxMin d).map (·.2) = (s.simulate b thr maxMin d).map (·.2) := by
  intro h
  have h := h Demo.sized Demo.sizedIdle Demo.otherDay 0 0 "3day" rfl rfl rfl
    (Demo.idle_other (m := Demo.idleShed) (by decide +kernel))
  have ht : ∀ t, some (StratTank.new (24500 / 83) (28 / 10 : ℚ)) = some t → t.vol ≠ 0 ∧ t.slope ≠ 0 := by
    rintro t ⟨⟩; decide +kernel
  obtain ⟨a, r, h1⟩ := C91_completes_partial Demo.sized Demo.otherDay 0 0 "3day" (.inl rfl) Demo.otherDay_answers Demo.sized_ready ht
  obtain ⟨a', r', h2⟩ := C91_completes_partial Demo.sizedIdle Demo.otherDay 0 0 "3day" (.inl rfl) Demo.otherDay_answers
    (Demo.idle_ready (m := Demo.idleShed) (c := ⟨8 / 10, 110, 6 / 10, 120, 150⟩) (by decide +kernel)) ht
  rw [h1, h2] at h
  have hr : r' = r := by simpa [Except.map] using h
  subst hr
  obtain ⟨avg, e1, e2⟩ := C90_demand Demo.sized a Demo.otherDay 0 0 "3day" r' _ rfl (by decide +kernel) (by decide +kernel) h1
  obtain ⟨avg', e1', e2'⟩ := C90_demand Demo.sizedIdle a' Demo.otherDay 0 0 "3day" r' _ rfl (by decide +kernel) (by decide +kernel) h2
  have ha : avg = false := by
    rw [Bool.eq_false_iff]
    intro ha
    obtain ⟨w, hw, m, hm, k, c, hk, hkk⟩ := e2.1 ha
    obtain rfl : w = Heater.fromNominal (11694949 / 320000) (some Demo.allNormal) (some Demo.highSensor) := by
      simpa [Demo.sized, Prim.ofSized] using hw
    obtain rfl : Demo.highSensor = m := by simpa [Heater.fromNominal] using hm
    obtain ⟨rfl, _⟩ : k = "normal" ∧ _ := by simpa [Demo.highSensor] using hk
    rcases hkk with h | h <;> exact absurd h (by decide)
  have ha' : avg' = true := e2'.2 ⟨_, List.mem_cons_self, Demo.idleShed, rfl, "shed", _, by
    unfold Demo.idleShed; exact List.mem_append_right _ List.mem_cons_self, .inr rfl⟩
  obtain ⟨hts, x, hx⟩ := run_starts h1
  have d1 := e1.demand 0 x hx
  have d2 := e1'.demand 0 x hx
  rw [hts, ha] at d1
  rw [hts, ha'] at d2
  rw [← d2] at d1
  exact absurd d1 (by decide +kernel)

/-- **C132 fails for sizing.** Settings for shed that no hour uses turn a sizing that succeeds into an `IndexError`, and settings for
load-up that no hour uses change the size of the tank. -/
theorem C132_sizing_fails :
    ((size baseMethods Demo.noFiles { cfg := Demo.cfg } Demo.building (some Demo.allNormal) (some Demo.highSensor) (28 / 10) 1).2 = .ok [] ∧
     (size baseMethods Demo.noFiles { cfg := Demo.cfg } Demo.building (some Demo.allNormal) (some Demo.idleShed) (28 / 10) 1).2 =
       .error .indexError) ∧
    ((size baseMethods Demo.noFiles { cfg := Demo.cfg } Demo.building (some Demo.noLoadUp)
        (some [("normal", Demo.normal), ("shed", Demo.shed)]) (28 / 10) 1).1.1.minStorage = some (20580 / 89) ∧
     (size baseMethods Demo.noFiles { cfg := Demo.cfg } Demo.building (some Demo.noLoadUp)
        (some [("normal", Demo.normal), ("shed", Demo.shed), ("loadUp", Demo.loadUp)]) (28 / 10) 1).1.1.minStorage =
          some (20580 / 103)) ∧
    "loadUp" ∉ Demo.noLoadUp := by
  decide +kernel

/-- The hypotheses of `C132_sizing_partial` are met by the demo map with a further mode. -/
example : SameNormal Demo.map (("eco", Demo.loadUp) :: Demo.map) ∧
    setting (("eco", Demo.loadUp) :: Demo.map) "loadUp" = setting Demo.map "loadUp" ∧
    setting (("eco", Demo.loadUp) :: Demo.map) "shed" = setting Demo.map "shed" :=
  ⟨⟨Demo.normal, by decide +kernel, by decide +kernel⟩, by decide +kernel, by decide +kernel⟩

end Eco
