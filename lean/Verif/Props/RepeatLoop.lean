import Verif.Spec.Restart
import Verif.Spec.Built
import Verif.Props.Repeat
import Verif.Props.RecircBuilt
import Verif.Props.ParallelLoop

/-! C125: simulating a system with a recirculation loop again. -/

namespace Eco
set_option linter.unusedSectionVars false
variable {K : Type} [Field K] [LinearOrder K] [IsStrictOrderedRing K]
open Spec

/-- What the sensors read at the start of a simulation. -/
theorem startsOn_reads {ws : List (Heater K)} {storage cold : K} (h : StartsOn ws storage cold) (tank : StratTank K)
    (hvol : 0 < tank.vol) (hslope : 0 < tank.slope) (ts : ℕ) :
    ∀ v ∈ ws, ∃ d t u, InForce v (hourOf 0 ts) d ∧
      (tank.init storage cold (initialUseable ws)).tempAtPy d.onFract = .ok t ∧ t < d.onTrig ∧
      (tank.init storage cold (initialUseable ws)).tempAtPy d.offFract = .ok u ∧ u < d.offTrig := by
  obtain ⟨hle, w, rest, m, c, hh, hm, hc, h0, h1, hlow⟩ := h
  intro v hv
  obtain ⟨d, d1, d2, d3, d4, d5⟩ := hlow v hv
  have hz : hourOf 0 ts = 0 := by simp [hourOf]
  have hu : initialUseable ws = max 0 (min 1 (1 - c.onFract)) := by
    rw [hh]; simp [initialUseable, hm, normalOrFirst, hc]
  have hs0 : 0 ≤ (tank.init storage cold (initialUseable ws)).slope := hslope.le
  have hv0 : (tank.init storage cold (initialUseable ws)).vol ≠ 0 := hvol.ne'
  have hr : (tank.init storage cold (initialUseable ws)).tempAt c.onFract = cold := by
    rw [hu]; exact init_tempAt tank storage cold c.onFract h0 h1 hle
  have m1 := StratTank.tempAt_mono _ hs0 d2
  have m2 := StratTank.tempAt_mono _ hs0 d3
  rw [hr] at m1 m2
  exact ⟨d, _, _, by rw [hz]; exact d1, by unfold StratTank.tempAtPy; rw [if_neg hv0],
    lt_of_le_of_lt m1 d4, by unfold StratTank.tempAtPy; rw [if_neg hv0], lt_of_le_of_lt m2 d5⟩

/-! ## Single-pass return to primary -/

theorem spStep_same {s0 : Prim K} {vol slope : K} (l : RtpLoop K) (b : Building K) (ts : ℕ) (s : Prim K) (i : ℕ)
    (s' : Prim K) (o : StepOut K) (hinv : PrimInv s0 vol slope s) (h : spStep l b ts s i = .ok (s', o)) :
    PrimInv s0 vol slope s' := by
  unfold spStep at h
  simp only [bind_eq_ok] at h
  obtain ⟨⟨s1, o1⟩, h1, h⟩ := h
  obtain ⟨e1, e2, e3, t, ht, hvol, hslope⟩ := primStep_same b ts s i s1 o1 hinv h1
  simp only [ht, pure_eq_ok, Except.ok.injEq, Prod.mk.injEq] at h
  obtain ⟨rfl, rfl⟩ := h
  obtain ⟨r1, r2, _, _⟩ := recirc_fields t l.flow l.ret (ts : K) (some s1.supply)
  exact ⟨e1, e2, e3, _, rfl, r1.trans hvol, r2.trans hslope⟩

/-- **C125, single-pass return to primary.** As for a primary system (C108): the run and the final state are the same again,
if the first decision turns every heater on. -/
theorem C125_single_pass_partial (l : RtpLoop K) (s s' : Prim K) (b : Building K) (thr : K) (maxMin : Int)
    (duration : String) (r : SimRun K) (tank : StratTank K) (cold : K) (ht : s.tank = some tank) (hvol : 0 < tank.vol)
    (hslope : 0 < tank.slope) (hcold : designInletOr b = .ok cold) (hon : StartsOn s.heaters s.storage cold)
    (h : spSimulate l s b thr maxMin duration = .ok (s', r)) :
    spSimulate l s' b thr maxMin duration = .ok (s', r) := by
  have hfin : PrimInv s tank.vol tank.slope s' := by
    have h' := h
    unfold spSimulate at h'
    simp only [bind_eq_ok] at h'
    obtain ⟨_, _, s1, h2, h3⟩ := h'
    unfold simulateFrom at h3
    simp only [bind_eq_ok] at h3
    obtain ⟨_, _, _, _, h4⟩ := h3
    exact simLoop_keeps (PrimInv s tank.vol tank.slope)
      (fun a i a' o p q => spStep_same l b _ a i a' o p q) _ _ _ _ _ _ _ _ (primInit_inv ht h2) h4
  rw [← h]
  obtain ⟨e1, e2, e3, tank', ht', ev, es⟩ := hfin
  unfold spSimulate Prim.init
  cases simDuration duration with
  | error e => rfl
  | ok x =>
    simp only [ok_bind, hcold, pure_eq_ok, ht, ht', Option.map_some, e1, e2, initialUseable_congr e3]
    rw [init_forgets tank tank' _ _ _ ev es]
    apply simulateFrom_congr
    intro ts
    unfold spStep
    rw [primStep_congr (s := ⟨s.supply, s.storage, s.heaters, some (tank.init s.storage cold
      (initialUseable s.heaters))⟩) (s' := ⟨s.supply, s.storage, s'.heaters, _⟩) b ts 0
      (tank.init s.storage cold (initialUseable s.heaters)) rfl rfl rfl rfl e3
      (startsOn_reads hon tank hvol hslope ts)]

/-! ## The decision of a temperature-maintenance heater -/

/-- In a mixed tank the decision depends on the heater's state and on one temperature. -/
theorem updateState_mixed {w : Heater K} {hour : ℕ} {c : Controls K} (h : InForce w hour c) (tank : MixedTank K) :
    w.updateState (fun f => .ok (tank.tempAt f)) hour =
      ({ w with active := if w.active then decide (tank.temp < c.offTrig) else decide (tank.temp < c.onTrig) }, .ok ()) := by
  rw [inForce_iff] at h
  obtain ⟨p, sc, cm, a⟩ := w
  unfold Heater.updateState
  rw [h]
  cases a
  · by_cases hlt : tank.temp < c.onTrig <;> simp [Controls.shouldTurnOn, MixedTank.tempAt, hlt]
  · by_cases hlt : tank.temp < c.offTrig
    · simp [Controls.shouldTurnOff, MixedTank.tempAt, hlt, not_le.2 hlt]
    · simp [Controls.shouldTurnOff, MixedTank.tempAt, hlt, not_lt.1 hlt]

/-- A simulation whose first step agrees is the same simulation. -/
theorem simulateFrom_congr_at {S : Type} (step : ℕ → S → ℕ → Py (S × StepOut K)) (supply : K) (tm : Bool) (thr : K)
    (maxMin : Int) (duration : String) (s s' : S) {dur ts : ℕ} (hd : simDuration duration = .ok (dur, ts))
    (h : step ts s' 0 = step ts s 0) :
    simulateFrom step supply tm thr maxMin duration s' = simulateFrom step supply tm thr maxMin duration s := by
  have := simulateFrom_congr (fun u x i => if u = ts then step u x i else .error .valueError) supply tm thr maxMin duration
    s s' (by intro u; by_cases e : u = ts <;> simp [e, h])
  unfold simulateFrom at this ⊢
  simp only [hd, ok_bind, if_true] at this ⊢
  exact this

/-- What a second simulation has in common with the first decides whether it is the same: `s1` is the state in which the first
starts, `s2` that of the second, in which the heater may be on. -/
theorem rerun {S : Type} {step : ℕ → S → ℕ → Py (S × StepOut K)} {supply : K} {tm : Bool} {thr : K} {maxMin : Int}
    {duration : String} {s1 s2 s' : S} {r : SimRun K} {on off q : K} (hq : q ≠ 0) (hle : on ≤ off) (flag : S → Bool)
    (h : simulateFrom step supply tm thr maxMin duration s1 = .ok (s', r))
    (hflag : flag s2 = flag s')
    (hsame : flag s2 = false → ∀ ts, step ts s2 0 = step ts s1 0)
    (hfirst : ∀ ts, ∃ T, (∀ s o, step ts s1 0 = .ok (s, o) → o.tmOutput = some (if T < on then q else 0) ∧
        ∃ x, o.tmTemp = some x ∧ (¬ T < on → x = T)) ∧
      (flag s2 = true → (T < on ∨ off ≤ T → step ts s2 0 = step ts s1 0) ∧
        (on ≤ T → T < off → ∀ s o, step ts s2 0 = .ok (s, o) → o.tmOutput = some q)))
    (P : S → Prop) (h0 : P s1) (hP : ∀ ts s i t o, P s → step ts s i = .ok (t, o) →
      P t ∧ o.tmOutput = some (if flag t then q else 0) ∧ ∃ x, o.tmTemp = some x) :
    simulateFrom step supply tm thr maxMin duration s2 = .ok (s', r) ↔ ¬ LeftOn r off := by
  have first : ∀ {u v : S} {r : SimRun K}, simulateFrom step supply tm thr maxMin duration u = .ok (v, r) →
      ∃ dur ts outs, simDuration duration = .ok (dur, ts) ∧ Trace (step ts) u 0 outs v ∧ Recorded r outs ∧ outs ≠ [] := by
    intro u v r h
    obtain ⟨dur, ts, outs, hd, _, _, htr, hr, _, _, _, hend⟩ := simulate_spec _ _ _ _ _ _ _ _ _ h
    refine ⟨dur, ts, outs, hd, htr, hr, ?_⟩
    have hpos : 0 < dur / ts := by
      unfold simDuration at hd
      split at hd
      · simp only [Except.ok.injEq, Prod.mk.injEq] at hd; obtain ⟨rfl, rfl⟩ := hd; norm_num
      · split at hd
        · simp only [Except.ok.injEq, Prod.mk.injEq] at hd; obtain ⟨rfl, rfl⟩ := hd; norm_num
        · simp at hd
    rintro rfl
    rcases hend with ⟨_, hl, _⟩ | ⟨_, hl, _⟩
    · simp at hl; omega
    · simp at hl
  have head : ∀ {u v : S} {r : SimRun K} {ts : ℕ} {outs : List (StepOut K)} {x : K}, Trace (step ts) u 0 outs v →
      Recorded r outs → outs ≠ [] → (∀ s o, step ts u 0 = .ok (s, o) → o.tmOutput = some x) → r.tmOutput.head? = some x := by
    intro u v r ts outs x htr hr hne hx
    cases outs with
    | nil => exact absurd rfl hne
    | cons o os =>
      obtain ⟨t, h1, _⟩ := htr
      rw [hr.tmOutput, List.filterMap_cons, hx _ _ h1]
      rfl
  obtain ⟨dur, ts, outs, hdur, htr, hr, hne⟩ := first h
  obtain ⟨T, f1, f2⟩ := hfirst ts
  have hd := head htr hr hne (fun s o hs => (f1 s o hs).1)
  have hx : ∃ x, r.tmTemp.head? = some x ∧ (¬ T < on → x = T) := by
    cases outs with
    | nil => exact absurd rfl hne
    | cons o os =>
      obtain ⟨t, h1, _⟩ := htr
      obtain ⟨_, x, g1, g2⟩ := f1 _ _ h1
      refine ⟨x, ?_, g2⟩
      rw [hr.tmTemp, List.filterMap_cons, g1]
      rfl
  obtain ⟨x, hx1, hx2⟩ := hx
  have hl : r.tmOutput.getLast? = some (if flag s' then q else 0) := by
    obtain ⟨st, e0, e1, e2⟩ := trace_states _ _ _ _ htr
    have good := (trace_forall P (fun _ o => ∃ y, o.tmOutput = some y)
      (fun s i s' o p hs => ⟨(hP _ _ _ _ _ p hs).1, _, (hP _ _ _ _ _ p hs).2.1⟩) outs s1 s' 0 h0 htr)
    have hPst : ∀ k ≤ outs.length, P (st k) := by
      intro k
      induction k with
      | zero => intro _; rw [e0]; exact h0
      | succ k ih => intro hk; exact (hP _ _ _ _ _ (ih (by omega)) (e2 k _ (List.getElem?_eq_getElem (by omega)))).1
    obtain ⟨k, hk⟩ : ∃ k, outs.length = k + 1 := ⟨outs.length - 1, by
      have := List.length_pos_iff.2 hne; omega⟩
    have ho := e2 k _ (List.getElem?_eq_getElem (by omega))
    have hk2 := (hP _ _ _ _ _ (hPst k (by omega)) ho).2.1
    rw [← hk, e1] at hk2
    obtain ⟨front, last, rfl⟩ : ∃ front last, outs = front ++ [last] :=
      ⟨outs.dropLast, outs.getLast hne, (List.dropLast_append_getLast hne).symm⟩
    have hkf : k = front.length := by simp at hk; omega
    subst hkf
    simp only [List.getElem_append_right (le_refl _), Nat.sub_self, List.getElem_cons_zero] at hk2
    rw [hr.tmOutput, List.filterMap_append]
    simp [hk2]
  unfold LeftOn
  rw [hl, hd, hx1, ← hflag]
  cases hf : flag s2 with
  | false =>
    simp only [Bool.false_eq_true, if_false, ne_eq, not_true_eq_false, false_and, not_false_eq_true, iff_true]
    rw [simulateFrom_congr _ _ _ _ _ _ _ _ (hsame hf), h]
  | true =>
    by_cases hc : on ≤ T ∧ T < off
    · have e : ¬ T < on := not_lt.2 hc.1
      simp only [if_true, if_neg e, ne_eq, Option.some.injEq, hq, not_false_eq_true, true_and, hx2 e, exists_eq_left',
        hc.2, not_true_eq_false, iff_false]
      intro h2
      obtain ⟨dur', ts', outs', hdur', htr', hr', hne'⟩ := first h2
      rw [hdur] at hdur'
      obtain ⟨rfl, rfl⟩ : dur = dur' ∧ ts = ts' := by simpa using hdur'
      have := head htr' hr' hne' ((f2 hf).2 hc.1 hc.2)
      rw [hd, if_neg e] at this
      exact hq (by simpa using this.symm)
    · have h1 : T < on ∨ off ≤ T := by
        by_cases h3 : T < on
        · exact .inl h3
        · exact .inr (not_lt.1 fun h4 => hc ⟨not_lt.1 h3, h4⟩)
      have h2 : simulateFrom step supply tm thr maxMin duration s2 = .ok (s', r) := by
        rw [simulateFrom_congr_at _ _ _ _ _ _ s1 s2 hdur ((f2 hf).1 h1), h]
      simp only [h2, true_iff]
      rintro ⟨_, g2, y, g3, g4⟩
      rcases h1 with h1 | h1
      · rw [if_pos h1] at g2
        exact hq (by simpa using g2)
      · have : ¬ T < on := not_lt.2 (hle.trans h1)
        rw [hx2 this] at g3
        obtain rfl : T = y := by simpa using g3
        exact absurd g4 (not_lt.2 h1)

theorem fixedTm_congr {w w' : Heater K} (h : SameHeater w w') {on off cap : K} (hw : FixedTm w on off cap) :
    FixedTm w' on off cap := by
  refine ⟨?_, ?_, ?_⟩
  · intro hour hh c; rw [h.inForce]; exact hw.keeps hour hh c
  · intro a b c; have := hw.capacity a b c; unfold Heater.getCapacity at *; rw [h.1]; exact this
  · intro a b c; obtain ⟨x, hx⟩ := hw.power a b c
    refine ⟨x, ?_⟩; unfold Heater.getPower at *; rw [h.1]; exact hx

/-- Whether a temperature-maintenance heater is on after a decision at tank temperature `T`. -/
def tmOn (on off : K) (w : Heater K) (T : K) : Bool := if w.active then decide (T < off) else decide (T < on)

theorem fixed_update {w : Heater K} {on off cap : K} (hw : FixedTm w on off cap) {hour : ℕ} (hh : hour < 24)
    (tank : MixedTank K) : w.updateState (fun f => .ok (tank.tempAt f)) hour =
      ({ w with active := tmOn on off w tank.temp }, .ok ()) :=
  updateState_mixed ((hw.keeps hour hh _).2 rfl) tank

theorem fixed_output {w : Heater K} {on off cap : K} (hw : FixedTm w on off cap) (a : Bool) (oat : Option K) (x : K)
    (inlet : Option K) : ({ w with active := a } : Heater K).getOutput oat x inlet = .ok (if a then cap else 0) := by
  have hc : ({ w with active := a } : Heater K).getCapacity oat x inlet = .ok (some cap) := hw.capacity oat x inlet
  unfold Heater.getOutput
  cases a
  · simp
  · simp [hc, ok_bind, pure_eq_ok]

theorem fixed_kw {w : Heater K} {on off cap : K} (hw : FixedTm w on off cap) (a : Bool) (oat : Option K) (x : K)
    (inlet : Option K) : ∃ kw, (if ({ w with active := a } : Heater K).active then
      ({ w with active := a } : Heater K).getPower oat x inlet else .ok none) = .ok kw := by
  cases a
  · exact ⟨none, rfl⟩
  · exact hw.power oat x inlet

/-! ## Parallel loop -/

theorem fixed_tmStep {w : Heater K} {on off cap : K} (hw : FixedTm w on off cap) (c : TmCfg K) (oat : Option K) {hour : ℕ}
    (hh : hour < 24) (dur : K) {tank : MixedTank K} (hv : tank.vol ≠ 0) :
    ∃ tank' out, tmStep c oat hour dur (tank, w) =
      ((tank', { w with active := tmOn on off w (tank.recirc c.flow c.ret dur).temp }), .ok out) ∧ tank'.vol = tank.vol ∧
      out.kbtuh = (if tmOn on off w (tank.recirc c.flow c.ret dur).temp then cap else 0) * (c.num : K) ∧
      (tmOn on off w (tank.recirc c.flow c.ret dur).temp = false → out.temp = (tank.recirc c.flow c.ret dur).temp) := by
  obtain ⟨kw, hk⟩ := fixed_kw hw (tmOn on off w (tank.recirc c.flow c.ret dur).temp) oat
    ((tank.recirc c.flow c.ret dur).tempAt 1) (some ((c.off + c.on) / 2))
  have ho := fixed_output hw (tmOn on off w (tank.recirc c.flow c.ret dur).temp) oat
    ((tank.recirc c.flow c.ret dur).tempAt 1) (some ((c.off + c.on) / 2))
  unfold tmStep
  simp only [if_neg hv, fixed_update hw hh, ho, hk]
  refine ⟨_, _, rfl, ?_, rfl, ?_⟩
  · have hheat : ∀ (x : MixedTank K) (q d o : K), (x.heat q d o).vol = x.vol := by
      intro x q d o
      unfold MixedTank.heat
      split <;> rfl
    exact hheat _ _ _ _
  · intro e
    simp [e, MixedTank.heat, MixedTank.tempAt]

/-- What every state of a parallel-loop simulation shares with the state it started from. -/
def ParInv (s0 : ParSim K) (vol slope : K) (s : ParSim K) : Prop :=
  PrimInv s0.prim vol slope s.prim ∧ SameHeater s0.tmHeater s.tmHeater ∧ s.tmTank.vol = s0.tmTank.vol

theorem parStep_fixed {c : TmCfg K} {s0 s : ParSim K} {vol slope on off cap : K} (b : Building K) (ts i : ℕ)
    {t : ParSim K} {o : StepOut K} (hw : FixedTm s0.tmHeater on off cap) (hv : s0.tmTank.vol ≠ 0)
    (hinv : ParInv s0 vol slope s) (h : parStep c b ts s i = .ok (t, o)) :
    ParInv s0 vol slope t ∧ o.tmOutput = some (if t.tmHeater.active then cap * (c.num : K) else 0) ∧
      ∃ x, o.tmTemp = some x ∧ t.tmHeater.active = tmOn on off s.tmHeater (s.tmTank.recirc c.flow c.ret ts).temp ∧
        (t.tmHeater.active = false → x = (s.tmTank.recirc c.flow c.ret ts).temp) := by
  obtain ⟨p, e, hvol⟩ := hinv
  unfold parStep at h
  simp only [bind_eq_ok] at h
  obtain ⟨⟨s1, o1⟩, h1, h⟩ := h
  obtain ⟨tank', out, g1, g2, g3, g4⟩ := fixed_tmStep (fixedTm_congr e hw) c (some o1.oat) (hour := i * ts / 60 % 24)
    (Nat.mod_lt _ (by norm_num)) (ts : K) (tank := s.tmTank) (by rw [hvol]; exact hv)
  simp only [g1, pure_eq_ok, Except.ok.injEq, Prod.mk.injEq] at h
  obtain ⟨rfl, rfl⟩ := h
  refine ⟨⟨primStep_same b ts s.prim i s1 o1 p h1, e, g2.trans hvol⟩, ?_, _, rfl, rfl, g4⟩
  rw [g3]
  simp only
  split <;> simp

/-- **C125, parallel loop.** A parallel-loop system whose temperature-maintenance heater was off, and whose first decision
turns every primary heater on: simulating it again gives the same run and the same final state, unless the record shows that
the first run left the heater on.

What is missing: the condition on the primary heaters (see C108), and the case that is excluded, in which the second run
always differs. -/
theorem C125_parallel_loop_partial (c : TmCfg K) (s s' : ParSim K) (b : Building K) (thr : K) (maxMin : Int)
    (duration : String) (r : SimRun K) (tank : StratTank K) (cold on off cap : K) (ht : s.prim.tank = some tank)
    (hvol : 0 < tank.vol) (hslope : 0 < tank.slope) (hcold : designInletOr b = .ok cold)
    (hon : StartsOn s.prim.heaters s.prim.storage cold) (hw : FixedTm s.tmHeater on off cap) (hle : on ≤ off)
    (hidle : s.tmHeater.active = false) (hcap : cap * (c.num : K) ≠ 0) (hv : s.tmTank.vol ≠ 0)
    (h : parSimulate c s b thr maxMin duration = .ok (s', r)) :
    parSimulate c s' b thr maxMin duration = .ok (s', r) ↔ ¬ LeftOn r off := by
  have h' := h
  unfold parSimulate Prim.init at h' ⊢
  cases hdur : simDuration duration with
  | error e => rw [hdur] at h'; simp only [error_bind] at h'; simp at h'
  | ok x =>
    simp only [hdur, ok_bind, hcold, pure_eq_ok, ht, Option.map_some] at h' ⊢
    have inv0 : ParInv s tank.vol tank.slope ⟨⟨s.prim.supply, s.prim.storage, s.prim.heaters, some (tank.init s.prim.storage
        cold (initialUseable s.prim.heaters))⟩, s.tmTank.init c.off cold, s.tmHeater⟩ :=
      ⟨⟨rfl, rfl, sameHeater_refl _, _, rfl, rfl, rfl⟩, ⟨rfl, rfl, rfl⟩, rfl⟩
    have hfin : ParInv s tank.vol tank.slope s' := by
      have h3 := h'
      unfold simulateFrom at h3
      simp only [bind_eq_ok] at h3
      obtain ⟨_, _, _, _, h4⟩ := h3
      exact simLoop_keeps (ParInv s tank.vol tank.slope)
        (fun a i a' o p q => (parStep_fixed b _ i hw hv p q).1) _ _ _ _ _ _ _ _ inv0 h4
    obtain ⟨⟨e1, e2, e3, tank', ht', ev, es⟩, sw, etv⟩ := hfin
    simp only [ht', Option.map_some, e1, e2, initialUseable_congr e3]
    rw [init_forgets tank tank' _ _ _ ev es]
    have etm : s'.tmTank.init c.off cold = s.tmTank.init c.off cold := by
      unfold MixedTank.init; rw [etv]
    rw [etm]
    have hprim : ∀ ts, Prim.step b ts ⟨s.prim.supply, s.prim.storage, s'.prim.heaters, some (tank.init s.prim.storage cold
        (initialUseable s.prim.heaters))⟩ 0 = Prim.step b ts ⟨s.prim.supply, s.prim.storage, s.prim.heaters,
          some (tank.init s.prim.storage cold (initialUseable s.prim.heaters))⟩ 0 := fun ts =>
      primStep_congr (s := ⟨s.prim.supply, s.prim.storage, s.prim.heaters, _⟩)
        (s' := ⟨s.prim.supply, s.prim.storage, s'.prim.heaters, _⟩) b ts 0 _ rfl rfl rfl rfl e3
        (startsOn_reads hon tank hvol hslope ts)
    have inv2 : ParInv s tank.vol tank.slope ⟨⟨s.prim.supply, s.prim.storage, s'.prim.heaters, some (tank.init s.prim.storage
        cold (initialUseable s.prim.heaters))⟩, s.tmTank.init c.off cold, s'.tmHeater⟩ :=
      ⟨⟨rfl, rfl, e3, _, rfl, rfl, rfl⟩, sw, rfl⟩
    have hstep : ∀ ts : ℕ, tmOn on off s'.tmHeater ((s.tmTank.init c.off cold).recirc c.flow c.ret ts).temp =
        tmOn on off s.tmHeater ((s.tmTank.init c.off cold).recirc c.flow c.ret ts).temp →
        parStep c b ts ⟨⟨s.prim.supply, s.prim.storage, s'.prim.heaters, some (tank.init s.prim.storage cold
          (initialUseable s.prim.heaters))⟩, s.tmTank.init c.off cold, s'.tmHeater⟩ 0 =
        parStep c b ts ⟨⟨s.prim.supply, s.prim.storage, s.prim.heaters, some (tank.init s.prim.storage cold
          (initialUseable s.prim.heaters))⟩, s.tmTank.init c.off cold, s.tmHeater⟩ 0 := by
      intro ts hts
      unfold parStep
      simp only [hprim]
      cases Prim.step b ts ⟨s.prim.supply, s.prim.storage, s.prim.heaters,
          some (tank.init s.prim.storage cold (initialUseable s.prim.heaters))⟩ 0 with
      | error e => rfl
      | ok y =>
        have hup : s'.tmHeater.updateState (fun f => .ok (((s.tmTank.init c.off cold).recirc c.flow c.ret ts).tempAt f))
              (0 * ts / 60 % 24) =
            s.tmHeater.updateState (fun f => .ok (((s.tmTank.init c.off cold).recirc c.flow c.ret ts).tempAt f))
              (0 * ts / 60 % 24) := by
          rw [fixed_update hw (Nat.mod_lt _ (by norm_num)), fixed_update (fixedTm_congr sw hw) (Nat.mod_lt _ (by norm_num)),
            hts]
          rw [sw.1, sw.2.1, sw.2.2]
        have hv0 : (s.tmTank.init c.off cold).vol ≠ 0 := hv
        unfold tmStep
        simp only [ok_bind, if_neg hv0, hup]
    refine rerun (on := on) (off := off) (q := cap * (c.num : K)) hcap hle (fun x => x.tmHeater.active) h' rfl ?_ ?_
      (ParInv s tank.vol tank.slope) inv0 (fun ts x i t o p q => ?_)
    · intro hf ts
      apply hstep
      simp only at hf
      unfold tmOn
      rw [hf, hidle]
    · intro ts
      refine ⟨((s.tmTank.init c.off cold).recirc c.flow c.ret ts).temp, ?_, ?_⟩
      · intro x o hx
        obtain ⟨_, g2, y, g3, g4, g5⟩ := parStep_fixed b ts 0 hw hv inv0 hx
        simp only [tmOn, hidle, Bool.false_eq_true, if_false] at g4
        refine ⟨by rw [g2, g4]; simp, y, g3, fun hn => g5 (by rw [g4]; simpa using hn)⟩
      · intro hf
        simp only at hf
        refine ⟨fun hT => hstep ts ?_, fun h1 h2 x o hx => ?_⟩
        · unfold tmOn
          rw [hf, hidle]
          simp only [if_true, Bool.false_eq_true, if_false, decide_eq_decide]
          rcases hT with hT | hT
          · exact ⟨fun _ => hT, fun _ => lt_of_lt_of_le hT hle⟩
          · exact ⟨fun h3 => absurd h3 (not_lt.2 hT), fun h3 => absurd (hle.trans hT) (not_le.2 h3)⟩
        · obtain ⟨_, g2, y, g3, g4, g5⟩ := parStep_fixed b ts 0 hw hv inv2 hx
          simp only [tmOn, hf, if_true] at g4
          rw [g2, g4]
          simp [h2]
    · obtain ⟨g1, g2, y, g3, _⟩ := parStep_fixed b ts i hw hv p q
      exact ⟨g1, g2, y, g3⟩

/-! ## Swing tank -/

theorem fixed_swingTm {w : Heater K} {on off cap : K} (hw : FixedTm w on off cap) (tank : MixedTank K) (oat : K) {hour : ℕ}
    (hh : hour < 24) (dur : K) :
    ∃ kw out, swingTm w tank oat hour dur = .ok ({ w with active := tmOn on off w tank.temp },
      (if tmOn on off w tank.temp then cap else 0), kw, tank.heat (if tmOn on off w tank.temp then cap else 0) dur out) := by
  obtain ⟨kw, hk⟩ := fixed_kw hw (tmOn on off w tank.temp) (some oat) (tank.tempAt 1) none
  have ho := fixed_output hw (tmOn on off w tank.temp) (some oat) (tank.tempAt 1) none
  have hlet : ({ w with active := tmOn on off w tank.temp } : Heater K).getOutletTemp hour = .ok off := by
    have := inForce_iff.1 ((hw.keeps hour hh _).2 rfl)
    have h2 : ({ w with active := tmOn on off w tank.temp } : Heater K).getControls hour = w.getControls hour := rfl
    unfold Heater.getOutletTemp; simp only [h2, this, ok_bind, pure_eq_ok]
  unfold swingTm
  simp only [fixed_update hw hh, ho, hk, hlet, ok_bind, pure_eq_ok]
  exact ⟨_, _, rfl⟩

/-- What every state of a swing simulation shares with the state it started from, the swing tank included. -/
def LoopInv (s0 : SwingSim K) (vol slope : K) (s : SwingSim K) : Prop :=
  SwingInv s0 vol slope s ∧ s.ret = s0.ret ∧ s.flow = s0.flow ∧ s.tm.vol = s0.tm.vol ∧ SameHeater s0.tmHeater s.tmHeater

theorem swing_vol (x : MixedTank K) (a c d e q f o : K) : ((((x.mix a c).loss d e).heat q f o).vol = x.vol) := by
  have h1 : (x.mix a c).vol = x.vol := by
    unfold MixedTank.mix
    split
    · rfl
    · simp only; split <;> rfl
  have h2 : ((x.mix a c).loss d e).vol = x.vol := by
    unfold MixedTank.loss
    split <;> exact h1
  unfold MixedTank.heat
  split <;> exact h2

/-- One step of a swing system: the decision of the element is taken at some tank temperature, which the record shows if the
element is off. -/
theorem swingStep_fixed {s0 s : SwingSim K} {vol slope on off cap : K} (b : Building K) (ts i : ℕ)
    {t : SwingSim K} {o : StepOut K} (hw : FixedTm s0.tmHeater on off cap)
    (hinv : LoopInv s0 vol slope s) (h : swingSimStep b ts s i = .ok (t, o)) :
    LoopInv s0 vol slope t ∧ o.tmOutput = some (if t.tmHeater.active then cap else 0) ∧ ∃ x, o.tmTemp = some x := by
  obtain ⟨⟨e1, e2, e3, hvol, hslope⟩, e4, e5, e6, e7⟩ := hinv
  unfold swingSimStep at h
  simp only [bind_eq_ok] at h
  obtain ⟨inp, hi, ⟨ws', tank', q, kws⟩, hh, hw', _, h⟩ := h
  split at h
  · simp at h
  simp only [bind_eq_ok] at h
  obtain ⟨⟨w, tk, tkw, tm⟩, h2, h⟩ := h
  have hlt : inp.hour < 24 := by rw [(inputs_ok hi).2.2.2.1]; exact hourOf_lt _ _
  obtain ⟨kw, out, h3⟩ := fixed_swingTm (fixedTm_congr e7 hw)
    ((s.tm.mix hw' (tank'.avgDraw hw')).loss (recircLossKbtuh s.supply s.ret s.flow) ts) inp.oat hlt (ts : K)
  rw [h3] at h2
  simp only [Except.ok.injEq, Prod.mk.injEq] at h2
  obtain ⟨rfl, rfl, rfl, rfl⟩ := h2
  simp only [pure_eq_ok, Except.ok.injEq, Prod.mk.injEq] at h
  obtain ⟨rfl, rfl⟩ := h
  obtain ⟨k1, k2, k3, k4, k5, rfl⟩ := heatPrimary_ok hh
  obtain ⟨d1, d2, d3, d4⟩ := drawPhysical_fields (s.tank.heat q ts inp.outlet) hw' inp.inlet (some s.supply)
  obtain ⟨f1, f2, f3, f4⟩ := heat_fields s.tank q ts inp.outlet
  refine ⟨⟨⟨e1, e2, forall₂_trans e3 (updateAll_same k1), d1.trans (f1.trans hvol), d2.trans (f2.trans hslope)⟩, e4, e5,
    (swing_vol _ _ _ _ _ _ _ out).trans e6, e7⟩, rfl, _, rfl⟩

/-- The first step of a swing simulation from two states that differ only in which heaters are on. -/
theorem swing_first {s : SwingSim K} {ws : List (Heater K)} {w : Heater K} {on off cap : K} (b : Building K) (ts : ℕ)
    (hws : List.Forall₂ SameHeater s.heaters ws) (hsw : SameHeater s.tmHeater w) (hw : FixedTm s.tmHeater on off cap)
    (hon : ∀ v ∈ s.heaters, ∃ d t u, InForce v (hourOf 0 ts) d ∧ s.tank.tempAtPy d.onFract = .ok t ∧ t < d.onTrig ∧
      s.tank.tempAtPy d.offFract = .ok u ∧ u < d.offTrig) :
    ∃ T, (tmOn on off w T = tmOn on off s.tmHeater T →
        swingSimStep b ts { s with heaters := ws, tmHeater := w } 0 = swingSimStep b ts s 0) ∧
      (∀ t o, swingSimStep b ts s 0 = .ok (t, o) → o.tmOutput = some (if tmOn on off s.tmHeater T then cap else 0) ∧
        ∃ x, o.tmTemp = some x ∧ (tmOn on off s.tmHeater T = false → x = T)) ∧
      (∀ t o, swingSimStep b ts { s with heaters := ws, tmHeater := w } 0 = .ok (t, o) →
        o.tmOutput = some (if tmOn on off w T then cap else 0)) := by
  have hi' : (Prim.mk s.supply s.storage ws (some s.tank)).inputs b 0 ts =
      (Prim.mk s.supply s.storage s.heaters (some s.tank)).inputs b 0 ts :=
    inputs_congr (s := ⟨s.supply, s.storage, s.heaters, some s.tank⟩) (s' := ⟨s.supply, s.storage, ws, some s.tank⟩) b 0 ts
      rfl hws
  unfold swingSimStep
  simp only [hi']
  cases hi : (Prim.mk s.supply s.storage s.heaters (some s.tank)).inputs b 0 ts with
  | error e => exact ⟨0, fun _ => rfl, fun t o h => by simp [error_bind] at h, fun t o h => by simp [error_bind] at h⟩
  | ok i =>
  have hz : i.hour = hourOf 0 ts := (inputs_ok hi).2.2.2.1
  have hlt : i.hour < 24 := by rw [hz]; exact hourOf_lt _ _
  have hh' : heatPrimary ws s.tank i ts = heatPrimary s.heaters s.tank i ts := by
    unfold heatPrimary
    rw [updateAll_on hws s.tank.tempAtPy i.hour (by rw [hz]; exact hon)]
  simp only [ok_bind, hh']
  cases hh : heatPrimary s.heaters s.tank i ts with
  | error e => exact ⟨0, fun _ => rfl, fun t o h => by simp [error_bind] at h, fun t o h => by simp [error_bind] at h⟩
  | ok y =>
  obtain ⟨ws1, tank1, q1, kws1⟩ := y
  simp only [ok_bind]
  cases hf : swingFlow s.supply i.inlet (s.tm.tempAt (1 / 2)) i.demand with
  | error e => exact ⟨0, fun _ => rfl, fun t o h => by simp [error_bind] at h, fun t o h => by simp [error_bind] at h⟩
  | ok hwg =>
  simp only [ok_bind]
  by_cases hv : s.tm.vol = 0
  · simp only [if_pos hv]
    exact ⟨0, fun _ => trivial, fun t o h => by simp at h, fun t o h => by simp at h⟩
  simp only [if_neg hv]
  refine ⟨((s.tm.mix hwg (tank1.avgDraw hwg)).loss (recircLossKbtuh s.supply s.ret s.flow) ts).temp, ?_, ?_, ?_⟩
  · intro hT
    have : swingTm w ((s.tm.mix hwg (tank1.avgDraw hwg)).loss (recircLossKbtuh s.supply s.ret s.flow) ts) i.oat i.hour ts =
        swingTm s.tmHeater ((s.tm.mix hwg (tank1.avgDraw hwg)).loss (recircLossKbtuh s.supply s.ret s.flow) ts) i.oat
          i.hour ts := by
      unfold swingTm
      rw [fixed_update hw hlt, fixed_update (fixedTm_congr hsw hw) hlt, hT, hsw.1, hsw.2.1, hsw.2.2]
    rw [this]
  · intro t o h
    obtain ⟨kw, out, h3⟩ := fixed_swingTm hw
      ((s.tm.mix hwg (tank1.avgDraw hwg)).loss (recircLossKbtuh s.supply s.ret s.flow) ts) i.oat hlt (ts : K)
    rw [h3] at h
    simp only [ok_bind, pure_eq_ok, Except.ok.injEq, Prod.mk.injEq] at h
    obtain ⟨_, rfl⟩ := h
    refine ⟨rfl, _, rfl, fun e => ?_⟩
    simp [e, MixedTank.heat, MixedTank.tempAt]
  · intro t o h
    obtain ⟨kw, out, h3⟩ := fixed_swingTm (fixedTm_congr hsw hw)
      ((s.tm.mix hwg (tank1.avgDraw hwg)).loss (recircLossKbtuh s.supply s.ret s.flow) ts) i.oat hlt (ts : K)
    rw [h3] at h
    simp only [ok_bind, pure_eq_ok, Except.ok.injEq, Prod.mk.injEq] at h
    obtain ⟨_, rfl⟩ := h
    rfl

/-- **C125, swing tank.** A swing system whose element was off, and whose first decision turns every primary heater on:
simulating it again gives the same run and the same final state, unless the record shows that the first run left the element
on.

What is missing: the condition on the primary heaters (see C108), and the case that is excluded, in which the second run
always differs. -/
theorem C125_swing_partial (s s' : SwingSim K) (b : Building K) (thr : K) (maxMin : Int) (duration : String) (r : SimRun K)
    (cold on off cap : K) (hvol : 0 < s.tank.vol) (hslope : 0 < s.tank.slope) (hcold : designInletOr b = .ok cold)
    (hon : StartsOn s.heaters s.storage cold) (hw : FixedTm s.tmHeater on off cap) (hle : on ≤ off)
    (hidle : s.tmHeater.active = false) (hcap : cap ≠ 0)
    (h : s.simulate b thr maxMin duration = .ok (s', r)) :
    s'.simulate b thr maxMin duration = .ok (s', r) ↔ ¬ LeftOn r off := by
  have hoff : ∀ w, SameHeater s.tmHeater w → tmOffTemp s.supply (some w) = .ok off := by
    intro w hsw
    have := inForce_iff.1 (((fixedTm_congr hsw hw).keeps 0 (by norm_num) _).2 rfl)
    unfold tmOffTemp; simp only [this, ok_bind, pure_eq_ok]
  have h' := h
  unfold SwingSim.simulate swingSimulate at h' ⊢
  cases hdur : simDuration duration with
  | error e => rw [hdur] at h'; simp only [error_bind] at h'; simp at h'
  | ok x =>
    simp only [hdur, ok_bind, hcold, hoff _ ⟨rfl, rfl, rfl⟩] at h' ⊢
    set s1 : SwingSim K := { s with tank := s.tank.init s.storage cold (initialUseable s.heaters), tm := s.tm.init off cold }
      with hs1
    have inv0 : LoopInv s s.tank.vol s.tank.slope s1 :=
      ⟨⟨rfl, rfl, sameHeater_refl _, rfl, rfl⟩, rfl, rfl, rfl, ⟨rfl, rfl, rfl⟩⟩
    have hfin : LoopInv s s.tank.vol s.tank.slope s' := by
      have h3 := h'
      unfold simulateFrom at h3
      simp only [bind_eq_ok] at h3
      obtain ⟨_, _, _, _, h4⟩ := h3
      exact simLoop_keeps (LoopInv s s.tank.vol s.tank.slope)
        (fun a i a' o p q => (swingStep_fixed b _ i hw p q).1) _ _ _ _ _ _ _ _ inv0 h4
    obtain ⟨⟨e1, e2, e3, ev, es⟩, e4, e5, e6, sw⟩ := hfin
    have hs2 : ({ s' with tank := s'.tank.init s'.storage cold (initialUseable s'.heaters), tm := s'.tm.init off cold } :
        SwingSim K) = { s1 with heaters := s'.heaters, tmHeater := s'.tmHeater } := by
      rw [hs1]
      simp only [e2, initialUseable_congr e3, init_forgets s.tank s'.tank _ _ _ ev es, e1, e4, e5]
      unfold MixedTank.init
      rw [e6]
    have hoff2 := hoff _ sw
    rw [← e1] at hoff2
    simp only [hoff2, ok_bind]
    have key : ∀ ts, _ := fun ts => swing_first (s := s1) (ws := s'.heaters) (w := s'.tmHeater) (on := on) (off := off)
      (cap := cap) b ts e3 sw hw (startsOn_reads hon s.tank hvol hslope ts)
    rw [hs2]
    have hsup : ({ s1 with heaters := s'.heaters, tmHeater := s'.tmHeater } : SwingSim K).supply = s1.supply := rfl
    rw [show s'.supply = s1.supply from e1]
    refine rerun (on := on) (off := off) (q := cap) hcap hle (fun x => x.tmHeater.active) h' rfl ?_ ?_
      (LoopInv s s.tank.vol s.tank.slope) inv0 (fun ts x i t o p q => swingStep_fixed b ts i hw p q)
    · intro hf ts
      obtain ⟨T, k1, _⟩ := key ts
      apply k1
      simp only at hf
      have h1 : s1.tmHeater.active = false := hidle
      unfold tmOn
      rw [hf, h1]
    · intro ts
      obtain ⟨T, k1, k2, k3⟩ := key ts
      have h1 : s1.tmHeater.active = false := hidle
      refine ⟨T, ?_, ?_⟩
      · intro x o hx
        obtain ⟨g1, y, g2, g3⟩ := k2 x o hx
        simp only [tmOn, h1, Bool.false_eq_true, if_false, decide_eq_true_eq, decide_eq_false_iff_not] at g1 g3
        exact ⟨g1, y, g2, g3⟩
      · intro hf
        simp only at hf
        refine ⟨fun hT => k1 ?_, fun h3 h2 x o hx => ?_⟩
        · unfold tmOn
          rw [hf, h1]
          simp only [if_true, Bool.false_eq_true, if_false, decide_eq_decide]
          rcases hT with hT | hT
          · exact ⟨fun _ => hT, fun _ => lt_of_lt_of_le hT hle⟩
          · exact ⟨fun h3 => absurd h3 (not_lt.2 hT), fun h3 => absurd (hle.trans hT) (not_le.2 h3)⟩
        · rw [k3 x o hx]
          simp [tmOn, hf, h2]

/-! ## The runs that differ -/

theorem parStep_tm {c : TmCfg K} {s t : ParSim K} {b : Building K} {ts i : ℕ} {o : StepOut K}
    (h : parStep c b ts s i = .ok (t, o)) :
    tmRun c (fun _ => some o.oat) ts i 1 (s.tmTank, s.tmHeater) = .ok (t.tmTank, t.tmHeater) := by
  unfold parStep at h
  simp only [bind_eq_ok] at h
  obtain ⟨⟨s1, o1⟩, h1, h⟩ := h
  simp only at h
  split at h
  · simp at h
  · rename_i tank w tm htm
    simp only [pure_eq_ok, Except.ok.injEq, Prod.mk.injEq] at h
    obtain ⟨rfl, rfl⟩ := h
    simp only [tmRun, htm]

theorem tmHeaterOf_fixed (c : TmCfg K) (each : K) (a : Bool) : FixedTm (tmHeaterOf c each a) c.on c.off each := by
  refine ⟨?_, fun _ _ _ => rfl, fun _ _ _ => ⟨_, rfl⟩⟩
  intro hour hh d
  rw [inForce_iff]
  unfold Heater.getControls tmHeaterOf Heater.fromNominal
  simp only
  rw [pyGet_of_lt (by simpa using hh), List.getElem_replicate]
  simp [dictGet?, tmControls, eq_comm]

/-- **C125 fails for parallel loops.** Take a sized parallel-loop system whose OFF temperature the heater does not reach
(`C65_never_off`; the engine's default settings are such a case), and whose tank is still warm enough after one step. Once a
run has lasted for the `n` steps in which the tank cools to its ON temperature, the heater is left on. In the next simulation
it heats from the first step on, where it was off in the first simulation. -/
theorem C125_parallel_loop_differs (c : TmCfg K) (s s' : ParSim K) (b : Building K) (thr : K) (maxMin : Int)
    (duration : String) (r : SimRun K) (tank : StratTank K) (cold v cap : K) (ht : s.prim.tank = some tank)
    (hvol : 0 < tank.vol) (hslope : 0 < tank.slope) (hcold : designInletOr b = .ok cold)
    (hon : StartsOn s.prim.heaters s.prim.storage cold) (supply : K) (hs : sizeTm supply c = .ok (v, cap)) (hv : 0 < v)
    (hc : 0 < cap) (hn : (c.num : K) ≠ 0) (hw : s.tmHeater = tmHeaterOf c (cap / (c.num : K)) false)
    (htv : s.tmTank.vol = v) (hret : c.ret ≤ c.off) (hle : c.on ≤ c.off) (hk0 : 0 < loopShare c v (r.ts : K))
    (hk1 : loopShare c v (r.ts : K) < 1) (hoff : tmLimit supply v r.ts c ≤ c.off) (hbal : c.on ≤ tmLimit supply v r.ts c)
    (hwarm : c.on ≤ c.off - loopShare c v (r.ts : K) * (c.off - c.ret)) (n : ℕ) (hlen : n ≤ r.tmOutput.length)
    (hcool : c.ret + (c.off - c.ret) * (1 - loopShare c v (r.ts : K)) ^ n < c.on)
    (h : parSimulate c s b thr maxMin duration = .ok (s', r)) :
    LeftOn r c.off ∧ parSimulate c s' b thr maxMin duration ≠ .ok (s', r) := by
  have hfix : FixedTm s.tmHeater c.on c.off (cap / (c.num : K)) := by rw [hw]; exact tmHeaterOf_fixed _ _ _
  have hidle : s.tmHeater.active = false := by rw [hw]; rfl
  have hcap : cap / (c.num : K) * (c.num : K) ≠ 0 := by rw [div_mul_cancel₀ _ hn]; exact hc.ne'
  have hv0 : s.tmTank.vol ≠ 0 := by rw [htv]; exact hv.ne'
  have main : LeftOn r c.off := by
    have h' := h
    unfold parSimulate Prim.init at h'
    simp only [bind_eq_ok, hcold, ok_bind, pure_eq_ok, ht, Option.map_some] at h'
    obtain ⟨x, hdur, h'⟩ := h'
    obtain ⟨dur, ts, outs, hd, _, hts, htr, hr, _, _, _, hend⟩ := simulate_spec _ _ _ _ _ _ _ _ _ h'
    rw [hts] at hk0 hk1 hoff hbal hwarm hcool
    obtain ⟨st, e0, e1, e2⟩ := trace_states _ _ _ _ htr
    have inv0 : ParInv s tank.vol tank.slope (st 0) := by
      rw [e0]
      exact ⟨⟨rfl, rfl, sameHeater_refl _, _, rfl, rfl, rfl⟩, ⟨rfl, rfl, rfl⟩, rfl⟩
    have inv : ∀ j ≤ outs.length, ParInv s tank.vol tank.slope (st j) := by
      intro j
      induction j with
      | zero => intro _; exact inv0
      | succ j ih =>
        intro hj
        exact (parStep_fixed b ts _ hfix hv0 (ih (by omega)) (e2 j _ (List.getElem?_eq_getElem (by omega)))).1
    have hout : ∀ j (hj : j < outs.length), outs[j].tmOutput =
        some (if (st (j + 1)).tmHeater.active then cap / (c.num : K) * (c.num : K) else 0) ∧ ∃ x, outs[j].tmTemp = some x := by
      intro j hj
      obtain ⟨_, g2, y, g3, _⟩ := parStep_fixed b ts _ hfix hv0 (inv j hj.le) (e2 j _ (List.getElem?_eq_getElem hj))
      exact ⟨g2, y, g3⟩
    have hlen' : n ≤ outs.length := le_trans hlen (by rw [hr.tmOutput]; exact List.length_filterMap_le _ _)
    set k := loopShare c v (ts : K) with hk
    have hpos : 0 < outs.length := by
      by_contra h0
      have : n = 0 := by omega
      subst this
      simp only [pow_zero, mul_one] at hcool
      linarith
    have phase : ∀ j ≤ outs.length, ∃ T a, ((st j).tmTank, (st j).tmHeater) = tmState c v cap T cold a ∧
        (a = true → T < tmBalance supply c) ∧
        (a = false → T = c.ret + (c.off - c.ret) * (1 - k) ^ j ∧ (0 < j → c.on ≤ T)) := by
      intro j
      induction j with
      | zero =>
        intro _
        refine ⟨c.off, false, ?_, by simp, fun _ => ⟨by ring, by simp⟩⟩
        rw [e0]
        simp only [tmState, hw, MixedTank.init, htv]
      | succ j ih =>
        intro hj
        obtain ⟨T, a, g1, g2, g3⟩ := ih (by omega)
        have hst := parStep_tm (e2 j _ (List.getElem?_eq_getElem (by omega)))
        rw [g1, tmRun_step hs hv hc hn] at hst
        simp only [tmRun, Except.ok.injEq, ← hk] at hst
        refine ⟨_, _, hst.symm, ?_, ?_⟩
        · intro ha
          rw [if_pos ha]
          have : T < tmBalance supply c := by
            cases a with
            | true => exact g2 rfl
            | false =>
              simp only [Bool.false_eq_true, if_false, decide_eq_true_eq] at ha
              by_contra hge
              unfold tmLimit at hbal
              rw [← hk] at hbal
              have : (1 - k) * tmBalance supply c ≤ (1 - k) * T := mul_le_mul_of_nonneg_left (not_lt.1 hge) (by linarith)
              linarith
          nlinarith
        · intro ha
          cases a with
          | true =>
            exfalso
            simp only [if_true, decide_eq_false_iff_not] at ha
            apply ha
            have := g2 rfl
            unfold tmLimit at hoff
            rw [← hk] at hoff
            have : (1 - k) * T < (1 - k) * tmBalance supply c := mul_lt_mul_of_pos_left this (by linarith)
            linarith
          | false =>
            have ha' : ¬ (T + k * (c.ret - T) < c.on) := by simpa using ha
            rw [if_neg (by rw [ha]; simp)]
            refine ⟨?_, fun _ => not_lt.1 ha'⟩
            rw [(g3 rfl).1]
            ring
    have hfirst : outs[0].tmOutput = some 0 ∧ outs[0].tmTemp = some (c.off - k * (c.off - c.ret)) := by
      obtain ⟨_, g2, y, g3, g4, g5⟩ := parStep_fixed b ts _ hfix hv0 inv0 (e2 0 _ (List.getElem?_eq_getElem hpos))
      have hT : ((st 0).tmTank.recirc c.flow c.ret (ts : K)).temp = c.off - k * (c.off - c.ret) := by
        rw [e0, hk]
        simp only [MixedTank.init, MixedTank.recirc, htv, loopShare]
        ring
      have hid : (st 0).tmHeater.active = false := by rw [e0]; exact hidle
      rw [hT] at g4 g5
      have hnot : ¬ c.off - k * (c.off - c.ret) < c.on := not_lt.2 hwarm
      simp only [tmOn, hid, Bool.false_eq_true, if_false, hnot, decide_false] at g4
      rw [g4] at g2
      rw [g5 g4] at g3
      exact ⟨by simpa using g2, g3⟩
    refine ⟨?_, ?_, ?_⟩
    · obtain ⟨m, hm⟩ : ∃ m, outs.length = m + 1 := ⟨outs.length - 1, by omega⟩
      have hlast : (st (m + 1)).tmHeater.active = true := by
        obtain ⟨T, a, g1, _, g3⟩ := phase (m + 1) (by omega)
        have ha : (st (m + 1)).tmHeater.active = a := by
          have := congrArg (fun x => x.2.active) g1
          exact this
        rw [ha]
        cases a with
        | true => rfl
        | false =>
          obtain ⟨g4, g5⟩ := g3 rfl
          have h5 := g5 (by omega)
          have : (1 - k) ^ (m + 1) ≤ (1 - k) ^ n := pow_le_pow_of_le_one (by linarith) (by linarith) (by omega)
          have h6 := mul_le_mul_of_nonneg_left this (sub_nonneg.2 hret)
          linarith
      obtain ⟨g, _⟩ := hout m (by omega)
      rw [hlast, if_pos rfl] at g
      have hne : outs ≠ [] := List.length_pos_iff.1 hpos
      obtain ⟨front, last, rfl⟩ : ∃ front last, outs = front ++ [last] :=
        ⟨outs.dropLast, outs.getLast hne, (List.dropLast_append_getLast hne).symm⟩
      have hkf : m = front.length := by simp at hm; omega
      subst hkf
      simp only [List.getElem_append_right (le_refl _), Nat.sub_self, List.getElem_cons_zero] at g
      rw [hr.tmOutput, List.filterMap_append]
      simp [g, hc.ne', hn]
    · cases outs with
      | nil => simp at hpos
      | cons o os =>
        rw [hr.tmOutput, List.filterMap_cons, show o.tmOutput = some 0 from hfirst.1]
        rfl
    · refine ⟨c.off - k * (c.off - c.ret), ?_, ?_⟩
      · cases outs with
        | nil => simp at hpos
        | cons o os =>
          rw [hr.tmTemp, List.filterMap_cons, show o.tmTemp = _ from hfirst.2]
          rfl
      · have hlt : c.ret < c.off := by
          rcases hret.lt_or_eq with h1 | h1
          · exact h1
          · rw [h1] at hcool; simp only [sub_self, zero_mul, add_zero] at hcool; linarith
        have := mul_pos hk0 (sub_pos.2 hlt)
        linarith
  exact ⟨main, fun h2 => (C125_parallel_loop_partial c s s' b thr maxMin duration r tank cold c.on c.off _ ht hvol hslope hcold
    hon hfix hle hidle hcap hv0 h).1 h2 main⟩

namespace Demo

theorem sized_startsOn : StartsOn sized.heaters sized.storage 50 := by
  refine ⟨by decide +kernel, _, [], highSensor, ⟨8 / 10, 110, 6 / 10, 120, 150⟩, rfl, rfl, rfl, by norm_num, by norm_num, ?_⟩
  intro w hw
  obtain rfl : w = Heater.fromNominal (11694949 / 320000) (some allNormal) (some highSensor) := by
    simpa [sized, Prim.ofSized] using hw
  exact ⟨⟨8 / 10, 110, 6 / 10, 120, 150⟩, ⟨allNormal, highSensor, "normal", rfl, rfl, rfl, by decide +kernel⟩,
    by norm_num, by norm_num, by norm_num, by norm_num⟩

theorem sized_tank : ∀ t, sized.tank = some t → t.vol ≠ 0 ∧ t.slope ≠ 0 := by
  intro t ht
  obtain rfl : StratTank.new (24500 / 83) (28 / 10) = t := by simpa [sized, Prim.ofSized] using ht
  decide +kernel

/-- The sized demo system with a loop at the engine's default settings. -/
def defaultLoop : ParSim ℚ :=
  ⟨sized, ⟨375 / 2, 0, 0⟩, tmHeaterOf tm (7 / 4 * recircLossKbtuh 120 110 5 / ((2 : ℕ) : ℚ)) false⟩

end Demo

/-- A single-pass system can be simulated again and again. -/
example (thr : ℚ) (maxMin : Int) : ∃ s' r, spSimulate ⟨110, 5⟩ Demo.sized Demo.building thr maxMin "3day" = .ok (s', r) ∧
    spSimulate ⟨110, 5⟩ s' Demo.building thr maxMin "3day" = .ok (s', r) := by
  obtain ⟨s', r, h⟩ := C91_completes_single_pass ⟨110, 5⟩ Demo.sized Demo.building thr maxMin "3day" (.inl rfl) Demo.answers
    Demo.sized_ready Demo.sized_tank
  exact ⟨s', r, h, C125_single_pass_partial ⟨110, 5⟩ Demo.sized s' Demo.building thr maxMin "3day" r
    (StratTank.new (24500 / 83) (28 / 10)) 50 rfl (by decide +kernel) (by decide +kernel) (by decide +kernel)
    Demo.sized_startsOn h⟩

/-- At the engine's default settings for the loop, the second simulation differs. -/
example (thr : ℚ) (maxMin : Int) (hm : 30 ≤ maxMin) :
    ∃ s' r, parSimulate Demo.tm Demo.defaultLoop Demo.building thr maxMin "3day" = .ok (s', r) ∧ LeftOn r 128 ∧
      parSimulate Demo.tm s' Demo.building thr maxMin "3day" ≠ .ok (s', r) := by
  have hs : sizeTm 120 Demo.tm = .ok (375 / 2, 7 / 4 * recircLossKbtuh 120 110 5) := by decide +kernel
  have hfix : FixedTm Demo.defaultLoop.tmHeater 120 128 (7 / 4 * recircLossKbtuh 120 110 5 / ((2 : ℕ) : ℚ)) :=
    tmHeaterOf_fixed Demo.tm _ _
  obtain ⟨s', r, h⟩ := C91_completes_parallel_loop Demo.tm Demo.defaultLoop Demo.building thr maxMin "3day" (.inl rfl)
    Demo.answers Demo.sized_ready Demo.sized_tank
    ⟨fun hour hh => ⟨_, (hfix.keeps hour hh _).2 rfl⟩, fun a b c => ⟨_, hfix.capacity a b c⟩, fun a b c => hfix.power (some a) b c⟩
    (by decide +kernel)
  have hlen : r.ts = 1 ∧ 30 ≤ r.tmOutput.length := by
    have h' := h
    unfold parSimulate at h'
    simp only [bind_eq_ok] at h'
    obtain ⟨_, _, p, _, _, _, h'⟩ := h'
    obtain ⟨dur, ts, outs, hd, _, hts, htr, hr, _, _, _, hend⟩ := simulate_spec _ _ _ _ _ _ _ _ _ h'
    obtain ⟨rfl, rfl⟩ : 4320 = dur ∧ 1 = ts := by simpa [simDuration] using hd
    refine ⟨hts, ?_⟩
    obtain ⟨_, good⟩ := trace_forall (fun _ => True) (fun _ o => o.tmOutput.isSome = true)
      (fun s i s' o _ h => ⟨trivial, by
        unfold parStep at h
        simp only [bind_eq_ok] at h
        obtain ⟨⟨s1, o1⟩, h1, h⟩ := h
        split at h
        · simp at h
        · simp only [pure_eq_ok, Except.ok.injEq, Prod.mk.injEq] at h
          obtain ⟨rfl, rfl⟩ := h
          rfl⟩) outs _ s' 0 trivial htr
    have hl : r.tmOutput.length = outs.length := by
      rw [hr.tmOutput, List.length_filterMap_eq_countP, List.countP_eq_length]
      intro o ho
      obtain ⟨j, hj⟩ := List.getElem?_of_mem ho
      exact good j o hj
    rw [hl]
    rcases hend with ⟨_, hl, _⟩ | ⟨_, _, _, ⟨k, _, hk1, hk2, _⟩, _⟩
    · rw [hl]; norm_num
    · have : (30 : Int) < ((k * 1 : ℕ) : Int) := lt_of_le_of_lt hm hk2
      have : 30 < k * 1 := by exact_mod_cast this
      omega
  refine ⟨s', r, h, ?_⟩
  have hk : loopShare Demo.tm (375 / 2) (r.ts : ℚ) = 2 / 75 := by rw [hlen.1]; decide +kernel
  have hlim : tmLimit 120 (375 / 2) (r.ts : ℚ) Demo.tm = 73 / 75 * (255 / 2) + 2 / 75 * 110 := by rw [hlen.1]; decide +kernel
  exact C125_parallel_loop_differs Demo.tm Demo.defaultLoop s' Demo.building thr maxMin "3day" r
    (StratTank.new (24500 / 83) (28 / 10)) 50 (375 / 2) (7 / 4 * recircLossKbtuh 120 110 5) rfl (by decide +kernel)
    (by decide +kernel) (by decide +kernel) Demo.sized_startsOn 120 hs (by norm_num) (by decide +kernel)
    (by decide +kernel) rfl rfl (by decide +kernel) (by decide +kernel) (by rw [hk]; norm_num) (by rw [hk]; norm_num)
    (by rw [hlim]; norm_num [Demo.tm]) (by rw [hlim]; norm_num [Demo.tm]) (by rw [hk]; norm_num [Demo.tm]) 30 hlen.2
    (by rw [hk]; norm_num [Demo.tm]) h

namespace Demo

/-- A swing system on a long loop, with an element that is too small for it. -/
def weakSwing : SwingSim ℚ :=
  ⟨120, 150, [Heater.fromNominal 10 (some allNormal) (some highSensor)], StratTank.new 100 (28 / 10), 110, 20, ⟨50, 0, 0⟩,
    swingHeater 120 20⟩

/-- What the record of a simulation shows about the element. -/
def elementView (r : SimRun ℚ) : Bool :=
  decide (r.tmOutput.getLast? ≠ some 0) && decide (r.tmOutput.head? = some 0) &&
    (match r.tmTemp.head? with | some x => decide (x < 128) | none => false)

theorem weakSwing_view : (match weakSwing.simulate flatBuilding 5 10 "3day" with
    | .ok (_, r) => elementView r
    | .error _ => false) = true := by decide +kernel

end Demo

/-- **C125 fails for swing tanks.** With the engine's stop settings, a swing system whose element is too small for its loop ends
its simulation with the element on, and the next simulation differs. -/
theorem C125_swing_differs : ∃ (s s' : SwingSim ℚ) (b : Building ℚ) (r : SimRun ℚ),
    s.simulate b 5 10 "3day" = .ok (s', r) ∧ s'.simulate b 5 10 "3day" ≠ .ok (s', r) := by
  have hv := Demo.weakSwing_view
  cases h : Demo.weakSwing.simulate Demo.flatBuilding 5 10 "3day" with
  | error e => rw [h] at hv; simp at hv
  | ok x =>
    obtain ⟨s', r⟩ := x
    rw [h] at hv
    have hl : LeftOn r 128 := by
      simp only [Demo.elementView, Bool.and_eq_true, decide_eq_true_eq] at hv
      obtain ⟨⟨h1, h2⟩, h3⟩ := hv
      refine ⟨h1, h2, ?_⟩
      cases ht : r.tmTemp.head? with
      | none => rw [ht] at h3; simp at h3
      | some y => rw [ht] at h3; exact ⟨y, rfl, by simpa using h3⟩
    refine ⟨Demo.weakSwing, s', Demo.flatBuilding, r, h, fun h2 => ?_⟩
    refine (C125_swing_partial Demo.weakSwing s' Demo.flatBuilding 5 10 "3day" r 50 120 128 20 (by decide +kernel)
      (by decide +kernel) (by decide +kernel) ?_ ?_ (by norm_num) rfl (by norm_num) h).1 h2 hl
    · refine ⟨by decide +kernel, _, [], Demo.highSensor, ⟨8 / 10, 110, 6 / 10, 120, 150⟩, rfl, rfl, rfl, by norm_num,
        by norm_num, ?_⟩
      intro w hw
      obtain rfl : w = Heater.fromNominal 10 (some Demo.allNormal) (some Demo.highSensor) := by
        simpa [Demo.weakSwing] using hw
      exact ⟨⟨8 / 10, 110, 6 / 10, 120, 150⟩, ⟨Demo.allNormal, Demo.highSensor, "normal", rfl, rfl, rfl, by decide +kernel⟩,
        by norm_num, by norm_num, by norm_num, by norm_num⟩
    · refine ⟨?_, fun _ _ _ => rfl, fun _ _ _ => ⟨_, rfl⟩⟩
      intro hour hh d
      rw [inForce_iff]
      unfold Heater.getControls Demo.weakSwing swingHeater Heater.fromNominal
      simp only
      rw [pyGet_of_lt (by simpa using hh), List.getElem_replicate]
      simp only [ok_bind, pure_eq_ok, dictGet?]
      norm_num [swingControls, eq_comm]

end Eco
