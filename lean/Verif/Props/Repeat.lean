import Verif.Props.Simulate
import Verif.Props.LoadShift

/-! C108: simulating a system again gives the same run. -/

namespace Eco
set_option linter.unusedSectionVars false
variable {K : Type} [Field K] [LinearOrder K] [IsStrictOrderedRing K]
open Spec

theorem sameHeater_controls {w w' : Heater K} (h : SameHeater w w') (hour : ℕ) :
    w'.getControls hour = w.getControls hour := by
  unfold Heater.getControls; rw [h.2.1, h.2.2]

theorem mapM_controls_congr {ws ws' : List (Heater K)} (h : List.Forall₂ SameHeater ws ws') (hour : ℕ) :
    ws'.mapM (fun w => w.getControls hour) = ws.mapM (fun w => w.getControls hour) := by
  induction h with
  | nil => rfl
  | cons a _ ih => simp only [List.mapM_cons, sameHeater_controls a, ih]

theorem modeAt_congr {ws ws' : List (Heater K)} (h : List.Forall₂ SameHeater ws ws') (hour : ℕ) :
    modeAt ws' hour = modeAt ws hour := by
  cases h with
  | nil => rfl
  | cons a _ => unfold modeAt; simp only [a.2.1]

theorem initialUseable_congr {ws ws' : List (Heater K)} (h : List.Forall₂ SameHeater ws ws') :
    initialUseable ws' = initialUseable ws := by
  induction h with
  | nil => rfl
  | cons a _ ih => simp only [initialUseable, a.2.2, ih]

theorem inputs_congr {s s' : Prim K} (b : Building K) (t int : ℕ) (hst : s'.storage = s.storage)
    (h : List.Forall₂ SameHeater s.heaters s'.heaters) : s'.inputs b t int = s.inputs b t int := by
  unfold Prim.inputs outletAt
  simp only [anyShift_congr h, mapM_controls_congr h, modeAt_congr h, hst]

/-- If every heater reads a temperature below both triggers, all are on after the update, whatever they were before. -/
theorem updateAll_on {ws ws' : List (Heater K)} (h : List.Forall₂ SameHeater ws ws') (f : K → Py K) (hour : ℕ)
    (hon : ∀ w ∈ ws, ∃ c t u, InForce w hour c ∧ f c.onFract = .ok t ∧ t < c.onTrig ∧ f c.offFract = .ok u ∧ u < c.offTrig) :
    updateAll ws' f hour = updateAll ws f hour := by
  have key : ∀ w w' : Heater K, SameHeater w w' →
      (∃ c t u, InForce w hour c ∧ f c.onFract = .ok t ∧ t < c.onTrig ∧ f c.offFract = .ok u ∧ u < c.offTrig) →
      w'.updateState f hour = ({ w with active := true }, .ok ()) := by
    rintro w ⟨p, sc, cm, a⟩ hs ⟨c, t, u, h1, h2, h3, h4, h5⟩
    obtain ⟨rfl, rfl, rfl⟩ := hs
    rw [inForce_iff] at h1
    have h1' : ({ perf := w.perf, sched := w.sched, cmap := w.cmap, active := a } : Heater K).getControls hour =
        .ok (some c) := h1
    unfold Heater.updateState
    rw [h1']
    cases a with
    | true =>
      have : c.shouldTurnOff f = .ok false := by
        unfold Controls.shouldTurnOff; simp [h4, ok_bind, pure_eq_ok, h5]
      simp [this]
    | false =>
      have : c.shouldTurnOn f = .ok true := by
        unfold Controls.shouldTurnOn; simp [h2, ok_bind, pure_eq_ok, h3]
      simp [this]
  induction h with
  | nil => rfl
  | @cons w w' ws ws' a _ ih =>
    have i := ih (fun v hv => hon v (List.mem_cons_of_mem _ hv))
    unfold updateAll at i ⊢
    rw [List.mapM_cons, List.mapM_cons, i]
    simp only [key w w' a (hon w (by simp)), key w w ⟨rfl, rfl, rfl⟩ (hon w (by simp))]

/-- The first step of a simulation does not depend on which heaters were on, if all are on after their first decision. -/
theorem primStep_congr {s s' : Prim K} (b : Building K) (ts t : ℕ) (tank : StratTank K) (hsu : s'.supply = s.supply)
    (hst : s'.storage = s.storage) (ht : s.tank = some tank) (ht' : s'.tank = some tank)
    (h : List.Forall₂ SameHeater s.heaters s'.heaters)
    (hon : ∀ w ∈ s.heaters, ∃ c t' u, InForce w (hourOf t ts) c ∧ tank.tempAtPy c.onFract = .ok t' ∧ t' < c.onTrig ∧
      tank.tempAtPy c.offFract = .ok u ∧ u < c.offTrig) :
    Prim.step b ts s' t = Prim.step b ts s t := by
  unfold Prim.step
  rw [inputs_congr b t ts hst h]
  cases hi : s.inputs b t ts with
  | error e => rfl
  | ok i =>
    simp only [ok_bind, ht, ht']
    have hh : i.hour = hourOf t ts := (inputs_ok hi).2.2.2.1
    have hu : heatPrimary s'.heaters tank i ts = heatPrimary s.heaters tank i ts := by
      unfold heatPrimary
      rw [updateAll_on h tank.tempAtPy i.hour (by rw [hh]; exact hon)]
    rw [hu]
    obtain ⟨su, st, ws, tk⟩ := s
    obtain ⟨su', st', ws', tk'⟩ := s'
    simp only at hsu hst
    subst hsu hst
    rfl

/-- What a run leaves unchanged carries over to the final state. -/
theorem simLoop_keeps {S : Type} {step : S → ℕ → Py (S × StepOut K)} (P : S → Prop)
    (hP : ∀ s i s' o, P s → step s i = .ok (s', o) → P s') (ts : ℕ) (supply : K) :
    ∀ (n i : ℕ) (s s' : S) (r r' : SimRun K), P s → simLoop step ts supply n i s r = .ok (s', r') → P s' := by
  intro n
  induction n with
  | zero =>
    intro i s s' r r' h hl
    simp only [simLoop, Except.ok.injEq, Prod.mk.injEq] at hl
    exact hl.1 ▸ h
  | succ n ih =>
    intro i s s' r r' h hl
    simp only [simLoop, bind_eq_ok] at hl
    obtain ⟨⟨s1, o⟩, h1, ⟨r1, stop⟩, h2, h3⟩ := hl
    have := hP s i s1 o h h1
    simp only at h3
    split at h3
    · simp only [pure_eq_ok, Except.ok.injEq, Prod.mk.injEq] at h3; exact h3.1 ▸ this
    · exact ih _ _ _ _ _ this h3

/-- A simulation whose first step agrees is the same simulation. -/
theorem simulateFrom_congr {S : Type} (step : ℕ → S → ℕ → Py (S × StepOut K)) (supply : K) (tm : Bool) (thr : K)
    (maxMin : Int) (duration : String) (s s' : S) (h : ∀ ts, step ts s' 0 = step ts s 0) :
    simulateFrom step supply tm thr maxMin duration s' = simulateFrom step supply tm thr maxMin duration s := by
  have key : ∀ (n ts : ℕ) (r : SimRun K), simLoop (step ts) ts supply (n + 1) 0 s' r =
      simLoop (step ts) ts supply (n + 1) 0 s r := by
    intro n ts r
    rw [simLoop, simLoop, h]
  obtain ⟨k1, e1⟩ : ∃ k, 4320 / 1 = k + 1 := ⟨4319, by norm_num⟩
  obtain ⟨k2, e2⟩ : ∃ k, 525600 / 10 = k + 1 := ⟨52559, by norm_num⟩
  unfold simulateFrom simDuration
  by_cases h1 : duration = "3day"
  · simp only [h1, if_true, ok_bind, e1, key]
  · by_cases h2 : duration = "annual"
    · subst h2
      simp only [h1, if_false, if_true, ok_bind, e2, key]
    · simp only [h1, h2, if_false, error_bind]

/-- Starting the tank afresh forgets everything but its size and slope. -/
theorem init_forgets (t t' : StratTank K) (storage cold u : K) (hv : t'.vol = t.vol) (hs : t'.slope = t.slope) :
    t'.init storage cold u = t.init storage cold u := by
  obtain ⟨⟩ := t
  obtain ⟨⟩ := t'
  simp only at hv hs
  subst hv hs
  rfl

/-- Each step keeps what a simulation does not change. -/
theorem primStep_same {s0 : Prim K} {vol slope : K} (b : Building K) (ts : ℕ) (s : Prim K) (i : ℕ) (s' : Prim K)
    (o : StepOut K) (hinv : PrimInv s0 vol slope s) (h : Prim.step b ts s i = .ok (s', o)) : PrimInv s0 vol slope s' := by
  obtain ⟨e1, e2, e3, t, ht, hvol, hslope⟩ := hinv
  unfold Prim.step at h
  rw [ht] at h
  simp only [bind_eq_ok] at h
  obtain ⟨inp, hi, ⟨ws', tank', q, kws⟩, hh, h⟩ := h
  simp only [pure_eq_ok, Except.ok.injEq, Prod.mk.injEq] at h
  obtain ⟨rfl, rfl⟩ := h
  obtain ⟨k1, k2, k3, k4, k5, rfl⟩ := heatPrimary_ok hh
  obtain ⟨d1, d2, d3, d4⟩ := draw_fields (t.heat q ts inp.outlet) inp.demand inp.inlet s.supply inp.outlet
  obtain ⟨f1, f2, f3, f4⟩ := heat_fields t q ts inp.outlet
  exact ⟨e1, e2, forall₂_trans e3 (updateAll_same k1), _, rfl, d1.trans (f1.trans hvol), d2.trans (f2.trans hslope)⟩

/-- So does a whole simulation. -/
theorem simulate_keeps {s s' : Prim K} {b : Building K} {thr : K} {maxMin : Int} {duration : String} {r : SimRun K}
    {tank : StratTank K} (ht : s.tank = some tank) (h : s.simulate b thr maxMin duration = .ok (s', r)) :
    PrimInv s tank.vol tank.slope s' := by
  unfold Prim.simulate at h
  simp only [bind_eq_ok] at h
  obtain ⟨_, _, s1, h2, h3⟩ := h
  unfold simulateFrom at h3
  simp only [bind_eq_ok] at h3
  obtain ⟨_, _, _, _, h4⟩ := h3
  exact simLoop_keeps (PrimInv s tank.vol tank.slope)
    (fun a i a' o p q => primStep_same b _ a i a' o p q) _ _ _ _ _ _ _ _ (primInit_inv ht h2) h4

/-- Two systems that differ only in which heaters are on and in what their tanks hold simulate alike, if the first
decision turns every heater on. -/
theorem simulate_same (s s' : Prim K) (b : Building K) (thr : K) (maxMin : Int) (duration : String)
    (tank : StratTank K) (w : Heater K) (ws : List (Heater K)) (m : ControlMap K) (c : Controls K)
    (cold : K) (ht : s.tank = some tank) (hvol : 0 < tank.vol) (hslope : 0 < tank.slope)
    (hh : s.heaters = w :: ws) (hm : w.cmap = some m) (hc : dictGet? m "normal" = some c) (h0 : 0 ≤ c.onFract)
    (h1 : c.onFract ≤ 1) (hcold : designInletOr b = .ok cold) (hle : cold ≤ s.storage)
    (hlow : ∀ v ∈ s.heaters, ∃ d, InForce v 0 d ∧ d.onFract ≤ c.onFract ∧ d.offFract ≤ c.onFract ∧ cold < d.onTrig ∧
      cold < d.offTrig)
    (hfin : PrimInv s tank.vol tank.slope s') :
    s'.simulate b thr maxMin duration = s.simulate b thr maxMin duration := by
  obtain ⟨e1, e2, e3, tank', ht', ev, es⟩ := hfin
  unfold Prim.simulate Prim.init
  cases simDuration duration with
  | error e => rfl
  | ok x =>
    simp only [ok_bind, hcold, pure_eq_ok, ht, ht', Option.map_some, e1, e2, initialUseable_congr e3]
    rw [init_forgets tank tank' _ _ _ ev es]
    apply simulateFrom_congr
    intro ts
    refine primStep_congr (s := ⟨s.supply, s.storage, s.heaters, some (tank.init s.storage cold
      (initialUseable s.heaters))⟩) (s' := ⟨s.supply, s.storage, s'.heaters, _⟩) b ts 0
      (tank.init s.storage cold (initialUseable s.heaters)) rfl rfl rfl rfl e3 ?_
    intro v hv
    obtain ⟨d, d1, d2, d3, d4, d5⟩ := hlow v hv
    have hz : hourOf 0 ts = 0 := by simp [hourOf]
    have hu : initialUseable s.heaters = max 0 (min 1 (1 - c.onFract)) := by
      rw [hh]; simp [initialUseable, hm, normalOrFirst, hc]
    have hs0 : 0 ≤ (tank.init s.storage cold (initialUseable s.heaters)).slope := hslope.le
    have hv0 : (tank.init s.storage cold (initialUseable s.heaters)).vol ≠ 0 := hvol.ne'
    have hr : (tank.init s.storage cold (initialUseable s.heaters)).tempAt c.onFract = cold := by
      rw [hu]; exact init_tempAt tank s.storage cold c.onFract h0 h1 hle
    have m1 := StratTank.tempAt_mono _ hs0 d2
    have m2 := StratTank.tempAt_mono _ hs0 d3
    rw [hr] at m1 m2
    refine ⟨d, _, _, by rw [hz]; exact d1, by unfold StratTank.tempAtPy; rw [if_neg hv0],
      lt_of_le_of_lt m1 d4, by unfold StratTank.tempAtPy; rw [if_neg hv0], lt_of_le_of_lt m2 d5⟩

/-- **C108.** Simulating a primary system again gives the same run and the same final state, whatever state the first
simulation left behind, if the first decision turns every heater on: each heater's sensors in the first hour lie no
higher than the ON sensor of the first heater's normal controls, and the cold water is below its triggers.

What is missing: the heaters' on/off flags are the one thing that `simulate` does not reset, see
`C108_second_run_differs`. -/
theorem C108_repeatable_partial (s s' : Prim K) (b : Building K) (thr : K) (maxMin : Int) (duration : String)
    (r : SimRun K) (tank : StratTank K) (w : Heater K) (ws : List (Heater K)) (m : ControlMap K) (c : Controls K)
    (cold : K) (ht : s.tank = some tank) (hvol : 0 < tank.vol) (hslope : 0 < tank.slope)
    (hh : s.heaters = w :: ws) (hm : w.cmap = some m) (hc : dictGet? m "normal" = some c) (h0 : 0 ≤ c.onFract)
    (h1 : c.onFract ≤ 1) (hcold : designInletOr b = .ok cold) (hle : cold ≤ s.storage)
    (hlow : ∀ v ∈ s.heaters, ∃ d, InForce v 0 d ∧ d.onFract ≤ c.onFract ∧ d.offFract ≤ c.onFract ∧ cold < d.onTrig ∧
      cold < d.offTrig)
    (h : s.simulate b thr maxMin duration = .ok (s', r)) :
    s'.simulate b thr maxMin duration = .ok (s', r) :=
  (simulate_same s s' b thr maxMin duration tank w ws m c cold ht hvol hslope hh hm hc h0 h1 hcold hle hlow
    (simulate_keeps ht h)).trans h

/-- The sized demo system can be simulated again and again: its one sensor pair lies at the start level. -/
example (thr : ℚ) (maxMin : Int) : ∃ s' r, Demo.sized.simulate Demo.building thr maxMin "3day" = .ok (s', r) ∧
    s'.simulate Demo.building thr maxMin "3day" = .ok (s', r) := by
  obtain ⟨s', r, h⟩ := C91_completes_partial Demo.sized Demo.building thr maxMin "3day" (.inl rfl) Demo.answers
    Demo.sized_ready (by
      intro t ht
      obtain rfl : StratTank.new (24500 / 83) (28 / 10) = t := by simpa [Demo.sized, Prim.ofSized] using ht
      decide +kernel)
  refine ⟨s', r, h, C108_repeatable_partial Demo.sized s' Demo.building thr maxMin "3day" r
    (StratTank.new (24500 / 83) (28 / 10)) _ [] Demo.highSensor ⟨8 / 10, 110, 6 / 10, 120, 150⟩ 50 rfl
    (by decide +kernel) (by decide +kernel) rfl rfl rfl (by norm_num) (by norm_num) (by decide +kernel)
    (by decide +kernel) ?_ h⟩
  intro w hw
  obtain rfl : w = Heater.fromNominal (11694949 / 320000) (some Demo.allNormal) (some Demo.highSensor) := by
    simpa [Demo.sized, Prim.ofSized] using hw
  exact ⟨⟨8 / 10, 110, 6 / 10, 120, 150⟩, ⟨Demo.allNormal, Demo.highSensor, "normal", rfl, rfl, rfl, by decide +kernel⟩,
    by norm_num, by norm_num, by norm_num, by norm_num⟩

namespace Demo

/-- A system that sheds in the first four hours of the day. -/
def nightMap : ControlMap ℚ := [("normal", normal), ("shed", { shed with offFract := 1 / 2 })]

def nightShed : List String := List.replicate 4 "shed" ++ List.replicate 20 "normal"

/-- A building that needs more than the tank holds every ten minutes. -/
def busy : Building ℚ := { flatBuilding with dailyGal := 48000 }

def night : Prim ℚ := Prim.ofSized cfg 40 300 (28 / 10) (some nightShed) (some nightMap)

/-- The system in the states that occur in a simulation: the heater on or off, the water moved by `d` gallons. -/
def nightAt (a : Bool) (d : ℚ) : Prim ℚ :=
  { night with heaters := [{ Heater.fromNominal 40 (some nightShed) (some nightMap) with active := a }],
               tank := some ⟨300, 28 / 10, d, -62, 50, 150⟩ }

/-- What a step leaves in the tank, whether the heater is on, what it puts out and what the sensors read. -/
def stepView (a : Bool) (d : ℚ) (i : ℕ) : Option (List Bool × List ℚ) :=
  match Prim.step busy 10 (nightAt a d) i with
  | .ok (s, o) => some (s.heaters.map (·.active),
      s.tank.toList.flatMap (fun t => [t.inter, t.delta, t.inlet, t.outlet]) ++ o.output :: o.temps)
  | .error _ => none

theorem step_hour (a : Bool) (d : ℚ) (i : ℕ) :
    Prim.step busy 10 (nightAt a d) i = Prim.step busy 10 (nightAt a d) (6 * (i * 10 / 60 % 24)) := by
  have e : 6 * (i * 10 / 60 % 24) * 10 / 60 % 24 = i * 10 / 60 % 24 := by omega
  have h : (nightAt a d).inputs busy i 10 = (nightAt a d).inputs busy (6 * (i * 10 / 60 % 24)) 10 := by
    unfold Prim.inputs Building.getDhwLoad
    have l1 : busy.avgShape.length = 24 := rfl
    have l2 : busy.peakShape.length = 24 := rfl
    have o : busy.getOat i 10 = busy.getOat (6 * (i * 10 / 60 % 24)) 10 := rfl
    have n : busy.getInlet i 10 = busy.getInlet (6 * (i * 10 / 60 % 24)) 10 := rfl
    rw [o, n]
    cases (nightAt a d).heaters.any (·.isLoadShifting) <;> simp only [l1, l2, hourOf, e, if_true, if_false, Bool.false_eq_true]
  unfold Prim.step
  rw [h]

theorem step_view {a a' : Bool} {d d' q : ℚ} {i : ℕ} {l : List ℚ}
    (h : stepView a d i = some ([a'], -62 :: d' :: 50 :: 150 :: q :: l)) :
    ∃ o, Prim.step busy 10 (nightAt a d) i = .ok (nightAt a' d', o) ∧ o.output = q ∧ o.temps = l := by
  unfold stepView at h
  cases hs : Prim.step busy 10 (nightAt a d) i with
  | error e => rw [hs] at h; simp at h
  | ok x =>
    obtain ⟨s, o⟩ := x
    rw [hs] at h
    have inv : PrimInv (nightAt a d) 300 (28 / 10) (nightAt a d) :=
      ⟨rfl, rfl, sameHeater_refl _, _, rfl, rfl, rfl⟩
    obtain ⟨e1, e2, e3, t, ht, hv, hsl⟩ :=
      (primStep_good (by norm_num) (by norm_num) busy 10 (nightAt a d) i s o inv hs).1.1
    obtain ⟨su, st, ws, tk⟩ := s
    simp only at e1 e2 e3 ht
    subst ht
    have hw : ∃ w, ws = [w] ∧ SameHeater { Heater.fromNominal 40 (some nightShed) (some nightMap) with active := a } w := by
      cases e3 with
      | cons x y => cases y; exact ⟨_, rfl, x⟩
    obtain ⟨⟨p, sc, cm, ac⟩, rfl, w1, w2, w3⟩ := hw
    obtain ⟨v, sl, de, it, il, ol⟩ := t
    simp only at w1 w2 w3 hv hsl
    simp only [List.map_cons, List.map_nil, Option.toList_some, List.flatMap_cons, List.flatMap_nil,
      List.cons_append, List.nil_append, Option.some.injEq, Prod.mk.injEq, List.cons.injEq, and_true] at h
    obtain ⟨rfl, rfl, rfl, rfl, rfl, rfl, rfl⟩ := h
    subst e1 e2 w1 w2 w3 hv hsl
    exact ⟨o, rfl, rfl, rfl⟩

/-- Once the tank has been drawn down the state stays as it is, with the heater on. -/
theorem night_steady (a : Bool) (i : ℕ) :
    ∃ o, Prim.step busy 10 (nightAt a (-105)) i = .ok (nightAt true (-105), o) ∧ o.temps = [50, 50, 50, 50, 64, 120] := by
  have key : ∀ h < 24, stepView a (-105) (6 * h) =
      some ([true], [-62, -105, 50, 150, 40, 50, 50, 50, 50, 64, 120]) := by cases a <;> decide +kernel
  rw [step_hour]
  obtain ⟨o, h1, _, h2⟩ := step_view (key (i * 10 / 60 % 24) (Nat.mod_lt _ (by norm_num)))
  exact ⟨o, h1, h2⟩

/-- The first step of the first simulation: the ON sensor of the shed controls reads hot water. -/
theorem night_first : ∃ o, Prim.step busy 10 (nightAt false 0) 0 = .ok (nightAt false (-105), o) ∧ o.output = 0 ∧
    o.temps = [50, 50, 50, 50, 64, 120] :=
  step_view (by decide +kernel)

/-- The first step of the second simulation: the heater is still on. -/
theorem night_again : ∃ o, Prim.step busy 10 (nightAt true 0) 0 = .ok (nightAt true (-105), o) ∧ o.output = 40 ∧
    o.temps = [50, 50, 50, 50, 64, 120] :=
  step_view (by decide +kernel)

end Demo

namespace Demo

theorem busy_answers : Answers busy := by
  refine ⟨fun _ _ => ⟨20, rfl⟩, fun _ _ => ⟨50, rfl⟩, ?_, ⟨some 50, rfl⟩⟩
  intro i ts avg
  unfold Building.getDhwLoad
  have e : (if avg then busy.avgShape else busy.peakShape) = flat := by cases avg <;> rfl
  simp only [e]
  rw [if_neg (by decide)]
  rw [pyGet_of_lt (Nat.mod_lt _ (by decide))]
  exact ⟨_, rfl⟩

theorem night_init (a : Bool) (t : StratTank ℚ) (hv : t.vol = 300) (hs : t.slope = 28 / 10) :
    ({ nightAt a 0 with tank := some t } : Prim ℚ).init busy = .ok (nightAt a 0) := by
  unfold Prim.init
  rw [show designInletOr busy = .ok 50 by decide +kernel]
  simp only [ok_bind, pure_eq_ok]
  have : initialUseable (nightAt a 0).heaters = 6 / 10 := by cases a <;> decide +kernel
  rw [this]
  simp only [Option.map_some, StratTank.init, nightAt, hv, hs]
  norm_num [night, Prim.ofSized, cfg]

/-- A year of the system, started with the heater on or off: it begins accordingly and ends with the heater on. -/
theorem night_run (a : Bool) (t : StratTank ℚ) (hv : t.vol = 300) (hs : t.slope = 28 / 10) (thr : ℚ) (maxMin : Int)
    (hm : 10 ≤ maxMin) :
    ∃ r, ({ nightAt a 0 with tank := some t } : Prim ℚ).simulate busy thr maxMin "annual" =
      .ok (nightAt true (-105), r) ∧ r.output.head? = some (if a then 40 else 0) := by
  obtain ⟨s', r, h⟩ := C91_completes_partial ({ nightAt a 0 with tank := some t } : Prim ℚ) busy thr maxMin "annual" (.inr rfl)
    busy_answers (by
      intro w hw
      obtain rfl : w = { Heater.fromNominal 40 (some nightShed) (some nightMap) with active := a } := by
        simpa [nightAt] using hw
      refine ready_of (cap := 40) rfl ?_
      intro hour hh
      have : ∀ h < 24, nightShed[h]? = some "shed" ∨ nightShed[h]? = some "normal" := by decide
      rcases this hour hh with e | e
      · exact ⟨_, nightShed, nightMap, "shed", rfl, rfl, e, rfl⟩
      · exact ⟨_, nightShed, nightMap, "normal", rfl, rfl, e, rfl⟩) (by
      intro t' ht
      obtain rfl : t = t' := by simpa using ht
      rw [hv, hs]; norm_num)
  have hrun : ∃ o, Prim.step busy 10 (nightAt a 0) 0 = .ok (nightAt a (-105), o) ∧ o.output = (if a then 40 else 0) := by
    cases a
    · obtain ⟨o, h1, h2, _⟩ := night_first; exact ⟨o, h1, h2⟩
    · obtain ⟨o, h1, h2, _⟩ := night_again; exact ⟨o, h1, h2⟩
  obtain ⟨o0, g1, g2⟩ := hrun
  have h' := h
  unfold Prim.simulate at h'
  simp only [bind_eq_ok] at h'
  obtain ⟨_, _, s1, k1, k2⟩ := h'
  rw [night_init a t hv hs] at k1
  obtain rfl : nightAt a 0 = s1 := by injection k1
  obtain ⟨dur, ts, outs, hd, _, _, htr, hrec, _, _, _, hend⟩ := simulate_spec _ _ _ _ _ _ _ _ _ k2
  obtain ⟨rfl, rfl⟩ : 525600 = dur ∧ 10 = ts := by simpa [simDuration] using hd
  have hlen : 2 ≤ outs.length := by
    rcases hend with ⟨_, hl, _⟩ | ⟨_, _, _, ⟨k, _, hk1, hk2, _⟩, _⟩
    · rw [hl]; norm_num
    · have : (10 : Int) < ((k * 10 : ℕ) : Int) := lt_of_le_of_lt hm hk2
      have : 10 < k * 10 := by exact_mod_cast this
      omega
  obtain ⟨st, e0, e1, e2⟩ := trace_states _ _ _ _ htr
  have first : st 1 = nightAt a (-105) ∧ r.output.head? = some (if a then 40 else 0) := by
    cases ho : outs[0]? with
    | none => rw [List.getElem?_eq_none_iff] at ho; omega
    | some o =>
      have := e2 0 o ho
      rw [e0, Nat.add_zero, g1] at this
      simp only [Except.ok.injEq, Prod.mk.injEq] at this
      obtain ⟨b1, rfl⟩ := this
      refine ⟨b1.symm, ?_⟩
      rw [hrec.output, List.head?_map, List.head?_eq_getElem?, ho, Option.map_some, g2]
  have later : ∀ j, j + 2 ≤ outs.length → st (j + 2) = nightAt true (-105) := by
    have nx : ∀ j a, j < outs.length → st j = nightAt a (-105) → st (j + 1) = nightAt true (-105) := by
      intro j a' hj hst
      obtain ⟨o, ho⟩ := List.getElem?_eq_some_iff.2 ⟨hj, rfl⟩ |> fun x => (⟨_, x⟩ : ∃ o, outs[j]? = some o)
      have := e2 j o ho
      obtain ⟨o', h1, _⟩ := night_steady a' (0 + j)
      rw [hst, h1] at this
      simp only [Except.ok.injEq, Prod.mk.injEq] at this
      exact this.1.symm
    intro j
    induction j with
    | zero => intro hj; exact nx 1 a (by omega) first.1
    | succ j ih => intro hj; exact nx (j + 2) true (by omega) (ih (by omega))
  refine ⟨r, ?_, first.2⟩
  rw [h, ← e1]
  obtain ⟨j, hj⟩ : ∃ j, outs.length = j + 2 := ⟨outs.length - 2, by omega⟩
  rw [hj, later j (by omega)]

end Demo

/-- **C108 fails.** Only the heaters' on/off flags survive from one simulation to the next, but they do: a system that
sheds from midnight, simulated over a year for a building that needs more than it can give, starts the first run with
its heater off (the high sensor of the shed controls still reads hot water), and the second with its heater on. -/
theorem C108_second_run_differs (thr : ℚ) (maxMin : Int) (hm : 10 ≤ maxMin) :
    ∃ (s s' s'' : Prim ℚ) (b : Building ℚ) (r r' : SimRun ℚ), s.simulate b thr maxMin "annual" = .ok (s', r) ∧
      s'.simulate b thr maxMin "annual" = .ok (s'', r') ∧ r.output.head? = some 0 ∧ r'.output.head? = some 40 := by
  obtain ⟨r, h1, h2⟩ := Demo.night_run false (StratTank.new 300 (28 / 10)) rfl rfl thr maxMin hm
  obtain ⟨r', h3, h4⟩ := Demo.night_run true ⟨300, 28 / 10, -105, -62, 50, 150⟩ rfl rfl thr maxMin hm
  exact ⟨Demo.night, _, _, Demo.busy, r, r', h1, h3, h2, h4⟩

end Eco
