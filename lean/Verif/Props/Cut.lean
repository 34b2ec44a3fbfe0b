import Verif.Spec.Cut
import Verif.Props.Order

set_option linter.unusedSectionVars false

/-! C138, C139: the stop rule only cuts a run short, and a run looks neither ahead nor beyond its end. -/

namespace Eco
open Spec
variable {K : Type} [Field K] [LinearOrder K] [IsStrictOrderedRing K]

/-! ## Runs that begin alike -/

theorem begins_refl (r : SimRun K) : Begins r r := by
  constructor <;> first | exact List.prefix_refl _ | exact le_refl _ | exact fun _ => List.prefix_refl _

theorem begins_trans {a b c : SimRun K} (h : Begins a b) (h' : Begins b c) : Begins a c :=
  ⟨h.1.trans h'.1, h.2.trans h'.2, h.3.trans h'.3, h.4.trans h'.4, h.5.trans h'.5, h.6.trans h'.6, h.7.trans h'.7,
    fun n => (h.8 n).trans (h'.8 n), h.9.trans h'.9, h.10.trans h'.10, h.11.trans h'.11, h.12.trans h'.12⟩

theorem pushTemps_prefix : ∀ (ls : List (List K)) (ts : List K) (ls' : List (List K)), SimRun.pushTemps ls ts = .ok ls' →
    ∀ n, ls.getD n [] <+: ls'.getD n [] := by
  intro ls
  induction ls with
  | nil =>
    intro ts ls' h n
    cases ts with
    | nil => simp only [SimRun.pushTemps, Except.ok.injEq] at h; subst h; exact List.prefix_refl _
    | cons => simp [SimRun.pushTemps] at h
  | cons l ls ih =>
    intro ts ls' h n
    cases ts with
    | nil => simp only [SimRun.pushTemps, Except.ok.injEq] at h; subst h; exact List.prefix_refl _
    | cons t ts =>
      simp only [SimRun.pushTemps, bind_eq_ok, pure_eq_ok, Except.ok.injEq] at h
      obtain ⟨l', hl, rfl⟩ := h
      cases n with
      | zero => exact List.prefix_append _ _
      | succ n => simpa using ih ts l' hl n

/-- What recording a step gives, without the stop rule. -/
theorem simRecord_eq {ts : Nat} {supply : K} {r : SimRun K} {o : StepOut K} {x : SimRun K × Bool}
    (h : simRecord ts supply r o = .ok x) :
    ∃ temps, SimRun.pushTemps r.temps o.temps = .ok temps ∧ ∃ top, o.temps.getLast? = some top ∧
      x = (if o.usable ≤ 0 then ({ r with
            demand := r.demand ++ [o.demand]
            usable := r.usable ++ [o.usable]
            output := r.output ++ [o.output]
            power := r.power ++ [o.power]
            oat := r.oat ++ [o.oat]
            inlet := r.inlet ++ [o.inlet]
            mode := r.mode ++ [o.mode]
            temps := temps
            tmTemp := r.tmTemp ++ o.tmTemp.toList
            tmOutput := r.tmOutput ++ o.tmOutput.toList
            tmInput := r.tmInput ++ o.tmInput.toList } : SimRun K).recordOutage ts else
          { r with
            demand := r.demand ++ [o.demand]
            usable := r.usable ++ [o.usable]
            output := r.output ++ [o.output]
            power := r.power ++ [o.power]
            oat := r.oat ++ [o.oat]
            inlet := r.inlet ++ [o.inlet]
            mode := r.mode ++ [o.mode]
            temps := temps
            tmTemp := r.tmTemp ++ o.tmTemp.toList
            tmOutput := r.tmOutput ++ o.tmOutput.toList
            tmInput := r.tmInput ++ o.tmInput.toList }).checkDeficit (o.delivery.getD top) supply := by
  unfold simRecord SimRun.record at h
  simp only [bind_eq_ok, pure_eq_ok, Except.ok.injEq] at h
  obtain ⟨r1, ⟨temps, ht, rfl⟩, h⟩ := h
  refine ⟨temps, ht, ?_⟩
  split at h
  · simp at h
  · rename_i top htop
    simp only [Except.ok.injEq] at h
    exact ⟨top, htop, h.symm⟩

theorem checkDeficit_same (r : SimRun K) (top supply : K) : Begins r (r.checkDeficit top supply).1 ∧
    Begins (r.checkDeficit top supply).1 r ∧ (r.checkDeficit top supply).1.ts = r.ts := by
  unfold SimRun.checkDeficit
  split
  · split
    · exact ⟨⟨List.prefix_refl _, List.prefix_refl _, List.prefix_refl _, List.prefix_refl _, List.prefix_refl _,
        List.prefix_refl _, List.prefix_refl _, fun _ => List.prefix_refl _, List.prefix_refl _, List.prefix_refl _,
        List.prefix_refl _, le_refl _⟩, ⟨List.prefix_refl _, List.prefix_refl _, List.prefix_refl _, List.prefix_refl _,
        List.prefix_refl _, List.prefix_refl _, List.prefix_refl _, fun _ => List.prefix_refl _, List.prefix_refl _,
        List.prefix_refl _, List.prefix_refl _, le_refl _⟩, rfl⟩
    · exact ⟨⟨List.prefix_refl _, List.prefix_refl _, List.prefix_refl _, List.prefix_refl _, List.prefix_refl _,
        List.prefix_refl _, List.prefix_refl _, fun _ => List.prefix_refl _, List.prefix_refl _, List.prefix_refl _,
        List.prefix_refl _, le_refl _⟩, ⟨List.prefix_refl _, List.prefix_refl _, List.prefix_refl _, List.prefix_refl _,
        List.prefix_refl _, List.prefix_refl _, List.prefix_refl _, fun _ => List.prefix_refl _, List.prefix_refl _,
        List.prefix_refl _, List.prefix_refl _, le_refl _⟩, rfl⟩
  · exact ⟨⟨List.prefix_refl _, List.prefix_refl _, List.prefix_refl _, List.prefix_refl _, List.prefix_refl _,
        List.prefix_refl _, List.prefix_refl _, fun _ => List.prefix_refl _, List.prefix_refl _, List.prefix_refl _,
        List.prefix_refl _, le_refl _⟩, ⟨List.prefix_refl _, List.prefix_refl _, List.prefix_refl _, List.prefix_refl _,
        List.prefix_refl _, List.prefix_refl _, List.prefix_refl _, fun _ => List.prefix_refl _, List.prefix_refl _,
        List.prefix_refl _, List.prefix_refl _, le_refl _⟩, rfl⟩

/-- Recording a step only adds to the series. -/
theorem simRecord_begins {ts : Nat} {supply : K} {r : SimRun K} {o : StepOut K} {x : SimRun K × Bool}
    (h : simRecord ts supply r o = .ok x) :
    Begins r x.1 ∧ x.1.demand.length = r.demand.length + 1 ∧ x.1.ts = r.ts := by
  obtain ⟨temps, ht, top, -, rfl⟩ := simRecord_eq h
  have hp := pushTemps_prefix _ _ _ ht
  obtain ⟨c1, c2, c3⟩ := checkDeficit_same (if o.usable ≤ 0 then ({ r with
            demand := r.demand ++ [o.demand]
            usable := r.usable ++ [o.usable]
            output := r.output ++ [o.output]
            power := r.power ++ [o.power]
            oat := r.oat ++ [o.oat]
            inlet := r.inlet ++ [o.inlet]
            mode := r.mode ++ [o.mode]
            temps := temps
            tmTemp := r.tmTemp ++ o.tmTemp.toList
            tmOutput := r.tmOutput ++ o.tmOutput.toList
            tmInput := r.tmInput ++ o.tmInput.toList } : SimRun K).recordOutage ts else
          { r with
            demand := r.demand ++ [o.demand]
            usable := r.usable ++ [o.usable]
            output := r.output ++ [o.output]
            power := r.power ++ [o.power]
            oat := r.oat ++ [o.oat]
            inlet := r.inlet ++ [o.inlet]
            mode := r.mode ++ [o.mode]
            temps := temps
            tmTemp := r.tmTemp ++ o.tmTemp.toList
            tmOutput := r.tmOutput ++ o.tmOutput.toList
            tmInput := r.tmInput ++ o.tmInput.toList }) (o.delivery.getD top) supply
  refine ⟨begins_trans ?_ c1, ?_, ?_⟩
  · split <;> exact ⟨List.prefix_append _ _, List.prefix_append _ _, List.prefix_append _ _, List.prefix_append _ _,
      List.prefix_append _ _, List.prefix_append _ _, List.prefix_append _ _, hp, List.prefix_append _ _,
      List.prefix_append _ _, List.prefix_append _ _, by simp [SimRun.recordOutage]⟩
  · rw [le_antisymm c2.demand.length_le c1.demand.length_le]
    split <;> simp [SimRun.recordOutage]
  · rw [c3]
    split <;> rfl

theorem simLoop_begins {S : Type} (step : S → Nat → Py (S × StepOut K)) (ts : Nat) (supply : K) :
    ∀ (n i : Nat) (s : S) (r : SimRun K) (s' : S) (r' : SimRun K), simLoop step ts supply n i s r = .ok (s', r') →
      Begins r r' ∧ r'.ts = r.ts := by
  intro n
  induction n with
  | zero =>
    intro i s r s' r' h
    simp only [simLoop, Except.ok.injEq, Prod.mk.injEq] at h
    rw [← h.2]
    exact ⟨begins_refl _, rfl⟩
  | succ n ih =>
    intro i s r s' r' h
    unfold simLoop at h
    simp only [bind_eq_ok] at h
    obtain ⟨⟨s1, o⟩, -, ⟨r1, stop⟩, hr, h⟩ := h
    obtain ⟨hb, -, hts⟩ := simRecord_begins hr
    dsimp only at h hb hts
    split at h
    · simp only [pure_eq_ok, Except.ok.injEq, Prod.mk.injEq] at h
      rw [← h.2]
      exact ⟨hb, hts⟩
    · obtain ⟨h1, h2⟩ := ih _ _ _ _ _ h
      exact ⟨begins_trans hb h1, h2.trans hts⟩

/-! ## C138: the stop rule -/

/-- The two runs have recorded the same, neither has been stopped, and the first has the stricter rule and the longer
deficit. -/
structure Stricter (r q : SimRun K) : Prop where
  same : ∃ a b c, q = { r with threshold := a, maxMin := b, consec := c }
  going : r.stopped = false
  thr : r.threshold ≤ q.threshold
  max : r.maxMin ≤ q.maxMin
  consec : q.consec ≤ r.consec

theorem begins_of_same {r q : SimRun K} (a : K) (b : Int) (c : Nat)
    (h : q = { r with threshold := a, maxMin := b, consec := c }) : Begins r q ∧ Begins q r ∧ q.stopped = r.stopped := by
  subst h
  exact ⟨⟨List.prefix_refl _, List.prefix_refl _, List.prefix_refl _, List.prefix_refl _, List.prefix_refl _,
    List.prefix_refl _, List.prefix_refl _, fun _ => List.prefix_refl _, List.prefix_refl _, List.prefix_refl _,
    List.prefix_refl _, le_refl _⟩, ⟨List.prefix_refl _, List.prefix_refl _, List.prefix_refl _, List.prefix_refl _,
    List.prefix_refl _, List.prefix_refl _, List.prefix_refl _, fun _ => List.prefix_refl _, List.prefix_refl _,
    List.prefix_refl _, List.prefix_refl _, le_refl _⟩, rfl⟩

theorem check_stricter {r q : SimRun K} (h : Stricter r q) (top supply : K) :
    ((r.checkDeficit top supply).2 = false ∧ (q.checkDeficit top supply).2 = false ∧
      Stricter (r.checkDeficit top supply).1 (q.checkDeficit top supply).1) ∨
    ((r.checkDeficit top supply).2 = true ∧ (r.checkDeficit top supply).1.stopped = true ∧
      Begins (r.checkDeficit top supply).1 (q.checkDeficit top supply).1) := by
  obtain ⟨⟨a, b, c, rfl⟩, hg, h1, h2, h3⟩ := h
  obtain ⟨b1, b2, -⟩ := begins_of_same (r := r) a b c rfl
  dsimp only at h1 h2 h3
  have hb : Begins (r.checkDeficit top supply).1 (({ r with threshold := a, maxMin := b, consec := c } : SimRun K).checkDeficit top supply).1 :=
    begins_trans (checkDeficit_same r top supply).2.1 (begins_trans b1 (checkDeficit_same _ top supply).1)
  by_cases hr : (r.checkDeficit top supply).2 = true
  · right
    refine ⟨hr, ?_, hb⟩
    unfold SimRun.checkDeficit at hr ⊢
    split at hr
    · split at hr
      · rename_i a b; rw [if_pos a, if_pos b]
      · simp at hr
    · simp at hr
  · left
    rw [Bool.not_eq_true] at hr
    unfold SimRun.checkDeficit at hr ⊢
    by_cases hr1 : top < supply - r.threshold
    · rw [if_pos hr1] at hr ⊢
      by_cases hr2 : ((r.consec + r.ts : Nat) : Int) > r.maxMin
      · rw [if_pos hr2] at hr; simp at hr
      · rw [if_neg hr2]
        by_cases hq1 : top < supply - a
        · rw [if_pos hq1, if_neg (by push_cast at hr2 ⊢; omega)]
          exact ⟨rfl, rfl, ⟨_, _, _, rfl⟩, hg, h1, h2, by dsimp only; omega⟩
        · rw [if_neg hq1]
          exact ⟨rfl, rfl, ⟨_, _, _, rfl⟩, hg, h1, h2, Nat.zero_le _⟩
    · rw [if_neg hr1]
      have hq1 : ¬ top < supply - a := fun hq => hr1 (hq.trans_le (by linarith))
      rw [if_neg hq1]
      exact ⟨rfl, rfl, ⟨_, _, _, rfl⟩, hg, h1, h2, le_refl _⟩

theorem record_stricter {r q : SimRun K} (h : Stricter r q) {ts : Nat} {supply : K} {o : StepOut K} {y : SimRun K × Bool}
    (hy : simRecord ts supply q o = .ok y) : ∃ x, simRecord ts supply r o = .ok x ∧
      ((x.2 = false ∧ y.2 = false ∧ Stricter x.1 y.1) ∨ (x.2 = true ∧ x.1.stopped = true ∧ Begins x.1 y.1)) := by
  obtain ⟨⟨a, b, c, rfl⟩, hg, h1, h2, h3⟩ := h
  obtain ⟨temps, ht, top, htop, rfl⟩ := simRecord_eq hy
  unfold simRecord SimRun.record
  dsimp only at ht
  simp only [ht, htop, ok_bind, pure_eq_ok]
  refine ⟨_, rfl, ?_⟩
  apply check_stricter
  split
  · exact ⟨⟨_, _, _, rfl⟩, hg, h1, h2, h3⟩
  · exact ⟨⟨_, _, _, rfl⟩, hg, h1, h2, h3⟩

theorem successful_of_begins {r q : SimRun K} (h : Begins r q) (hq : q.isSuccessful = true) : r.isSuccessful = true := by
  unfold SimRun.isSuccessful at hq ⊢
  simp only [decide_eq_true_eq] at hq ⊢
  exact h.outage.trans hq

theorem loop_stricter {S : Type} (step : S → Nat → Py (S × StepOut K)) (ts : Nat) (supply : K) :
    ∀ (n i : Nat) (s : S) (r q : SimRun K), Stricter r q → ∀ (s' : S) (q' : SimRun K),
      simLoop step ts supply n i s q = .ok (s', q') →
      ∃ s'' r', simLoop step ts supply n i s r = .ok (s'', r') ∧ CutShort r' q' := by
  intro n
  induction n with
  | zero =>
    intro i s r q hsq s' q' h
    simp only [simLoop, Except.ok.injEq, Prod.mk.injEq] at h
    obtain ⟨rfl, rfl⟩ := h
    obtain ⟨a, b, c, hs⟩ := hsq.same
    obtain ⟨b1, b2, b3⟩ := begins_of_same _ _ _ hs
    exact ⟨s, r, rfl, b1, successful_of_begins b1, fun hq => by rw [← b3]; exact hq, fun _ => b2⟩
  | succ n ih =>
    intro i s r q hsq s' q' h
    unfold simLoop at h ⊢
    simp only [bind_eq_ok] at h
    obtain ⟨⟨s1, o⟩, hstep, ⟨q1, stopq⟩, hq, h⟩ := h
    obtain ⟨⟨r1, stopr⟩, hr, hc⟩ := record_stricter hsq hq
    simp only [hstep, hr, ok_bind, pure_eq_ok]
    dsimp only at h hc
    rcases hc with ⟨rfl, rfl, hc⟩ | ⟨rfl, hst, hb⟩
    · simp only [Bool.false_eq_true, if_false] at h ⊢
      exact ih _ _ _ _ hc _ _ h
    · rw [if_pos rfl]
      have hb' : Begins r1 q' := by
        split at h
        · simp only [pure_eq_ok, Except.ok.injEq, Prod.mk.injEq] at h
          rw [← h.2]; exact hb
        · exact begins_trans hb (simLoop_begins _ _ _ _ _ _ _ _ _ h).1
      exact ⟨s1, r1, rfl, hb', successful_of_begins hb', fun _ => hst, fun hf => by rw [hst] at hf; simp at hf⟩

/-- The rule only cuts the run short, for every system. -/
theorem from_stricter {S : Type} (step : Nat → S → Nat → Py (S × StepOut K)) (supply : K) (tm : Bool) {thr thr' : K}
    {maxMin maxMin' : Int} (ht : thr ≤ thr') (hm : maxMin ≤ maxMin') (d : String) (s s' : S) (q : SimRun K)
    (h : simulateFrom step supply tm thr' maxMin' d s = .ok (s', q)) :
    ∃ s'' r, simulateFrom step supply tm thr maxMin d s = .ok (s'', r) ∧ CutShort r q := by
  unfold simulateFrom SimRun.new at h ⊢
  simp only [bind_eq_ok] at h
  obtain ⟨⟨dur, ts⟩, hd, r0, h0, h⟩ := h
  dsimp only at h0 h
  split at h0
  · simp at h0
  · rename_i hts
    simp only [Except.ok.injEq] at h0
    subst h0
    simp only [hd, ok_bind, if_neg hts]
    exact loop_stricter _ _ _ _ _ _ _ _ ⟨⟨_, _, _, rfl⟩, rfl, ht, hm, le_refl _⟩ _ _ h

/-- **C138.** A stricter rule for stopping at too cold water (a smaller tolerated deficit, a shorter tolerated time) only cuts
the run of a primary system short: where the run with the laxer rule completes, so does the one with the stricter rule, with
the same records up to where it ends. -/
theorem C138_primary (s : Prim K) (b : Building K) {thr thr' : K} {maxMin maxMin' : Int} (ht : thr ≤ thr')
    (hm : maxMin ≤ maxMin') (d : String) (s' : Prim K) (q : SimRun K) (h : s.simulate b thr' maxMin' d = .ok (s', q)) :
    ∃ s'' r, s.simulate b thr maxMin d = .ok (s'', r) ∧ CutShort r q := by
  unfold Prim.simulate at h ⊢
  simp only [bind_eq_ok] at h
  obtain ⟨x, hx, s1, hi, h⟩ := h
  simp only [hx, hi, ok_bind]
  exact from_stricter _ _ _ ht hm _ _ _ _ h

/-- **C138, single-pass return to primary.** -/
theorem C138_single_pass (l : RtpLoop K) (s : Prim K) (b : Building K) {thr thr' : K} {maxMin maxMin' : Int} (ht : thr ≤ thr')
    (hm : maxMin ≤ maxMin') (d : String) (s' : Prim K) (q : SimRun K) (h : spSimulate l s b thr' maxMin' d = .ok (s', q)) :
    ∃ s'' r, spSimulate l s b thr maxMin d = .ok (s'', r) ∧ CutShort r q := by
  unfold spSimulate at h ⊢
  simp only [bind_eq_ok] at h
  obtain ⟨x, hx, s1, hi, h⟩ := h
  simp only [hx, hi, ok_bind]
  exact from_stricter _ _ _ ht hm _ _ _ _ h

/-- **C138, parallel loop.** -/
theorem C138_parallel (c : TmCfg K) (s : ParSim K) (b : Building K) {thr thr' : K} {maxMin maxMin' : Int} (ht : thr ≤ thr')
    (hm : maxMin ≤ maxMin') (d : String) (s' : ParSim K) (q : SimRun K) (h : parSimulate c s b thr' maxMin' d = .ok (s', q)) :
    ∃ s'' r, parSimulate c s b thr maxMin d = .ok (s'', r) ∧ CutShort r q := by
  unfold parSimulate at h ⊢
  simp only [bind_eq_ok] at h
  obtain ⟨x, hx, p, hp, cold, hc, h⟩ := h
  simp only [hx, hp, hc, ok_bind]
  exact from_stricter _ _ _ ht hm _ _ _ _ h

/-- **C138, swing tank.** -/
theorem C138_swing (tmOff : K) (s : SwingSim K) (b : Building K) {thr thr' : K} {maxMin maxMin' : Int} (ht : thr ≤ thr')
    (hm : maxMin ≤ maxMin') (d : String) (s' : SwingSim K) (q : SimRun K)
    (h : swingSimulate tmOff s b thr' maxMin' d = .ok (s', q)) :
    ∃ s'' r, swingSimulate tmOff s b thr maxMin d = .ok (s'', r) ∧ CutShort r q := by
  unfold swingSimulate at h ⊢
  simp only [bind_eq_ok] at h
  obtain ⟨x, hx, cold, hc, h⟩ := h
  simp only [hx, hc, ok_bind]
  exact from_stricter _ _ _ ht hm _ _ _ _ h

/-- **C138, multi-pass return to primary.** -/
theorem C138_multi_pass (s : MpSim K) (b : Building K) {thr thr' : K} {maxMin maxMin' : Int} (ht : thr ≤ thr')
    (hm : maxMin ≤ maxMin') (d : String) (s' : MpSim K) (q : SimRun K) (h : mpSimulate s b thr' maxMin' d = .ok (s', q)) :
    ∃ s'' r, mpSimulate s b thr maxMin d = .ok (s'', r) ∧ CutShort r q := by
  unfold mpSimulate at h ⊢
  simp only [bind_eq_ok] at h
  obtain ⟨x, hx, cold, hc, h⟩ := h
  simp only [hx, hc, ok_bind]
  exact from_stricter _ _ _ ht hm _ _ _ _ h

/-- **C138, tankless.** -/
theorem C138_tankless (s : Instant K) (b : Building K) {thr thr' : K} {maxMin maxMin' : Int} (ht : thr ≤ thr')
    (hm : maxMin ≤ maxMin') (d : String) (q : SimRun K) (h : s.simulate b thr' maxMin' d = .ok q) :
    ∃ r, s.simulate b thr maxMin d = .ok r ∧ CutShort r q := by
  unfold Instant.simulate SimRun.new at h ⊢
  simp only [bind_eq_ok, pure_eq_ok, Except.ok.injEq] at h
  obtain ⟨⟨dur, ts⟩, hd, r0, h0, x, hx, ⟨u, q'⟩, h, rfl⟩ := h
  dsimp only at h0 h
  split at h0
  · simp at h0
  · rename_i hts
    simp only [Except.ok.injEq] at h0
    subst h0
    simp only [hd, hx, ok_bind, if_neg hts, pure_eq_ok]
    obtain ⟨u', r, hr, hc⟩ := loop_stricter _ ts s.supply (dur / ts) 0 ()
      ⟨dur, ts, [], [], [], [], [], [], [], List.replicate 6 [], [], [], [], 0, some s.supply, false, thr, maxMin, 0, false⟩
      ⟨dur, ts, [], [], [], [], [], [], [], List.replicate 6 [], [], [], [], 0, some s.supply, false, thr', maxMin', 0, false⟩
      ⟨⟨_, _, _, rfl⟩, rfl, ht, hm, le_refl _⟩ _ _ h
    exact ⟨r, by rw [hr]; rfl, hc⟩

/-- Non-vacuity of C138: the demonstration system completes its run under every rule. -/
example : ∃ sf q, (Demo.twoSensors (3 / 10) 1).simulate Demo.building 5 30 "3day" = .ok (sf, q) ∧
    ∃ sf' r, (Demo.twoSensors (3 / 10) 1).simulate Demo.building 2 10 "3day" = .ok (sf', r) ∧ CutShort r q := by
  obtain ⟨sf, q, h⟩ := Demo.twoSensors_runs (3 / 10) 1 5 30
  exact ⟨sf, q, h, C138_primary _ _ (by norm_num) (by norm_num) _ _ _ h⟩

/-! ## C139: a run looks neither ahead nor beyond its end -/

theorem loop_agree {S : Type} (step step' : S → Nat → Py (S × StepOut K)) (ts : Nat) (supply : K) :
    ∀ (n i : Nat) (s : S) (r : SimRun K), (∀ j, i ≤ j → j < i + n → ∀ s, step s j = step' s j) →
      simLoop step ts supply n i s r = simLoop step' ts supply n i s r := by
  intro n
  induction n with
  | zero => intro i s r _; rfl
  | succ n ih =>
    intro i s r h
    unfold simLoop
    rw [h i (le_refl _) (by omega)]
    cases step' s i with
    | error e => rfl
    | ok x =>
      simp only [ok_bind]
      cases simRecord ts supply r x.2 with
      | error e => rfl
      | ok y =>
        simp only [ok_bind]
        rw [ih (i + 1) x.1 y.1 (fun j h1 h2 => h j (by omega) (by omega))]

theorem loop_causal {S : Type} (step step' : S → Nat → Py (S × StepOut K)) (ts : Nat) (supply : K) :
    ∀ (m n i : Nat) (s : S) (r : SimRun K), (∀ j, i ≤ j → j < i + m → ∀ s, step s j = step' s j) →
      ∀ (x y : S) (a c : SimRun K), simLoop step ts supply n i s r = .ok (x, a) → simLoop step' ts supply n i s r = .ok (y, c) →
        a = c ∨ ∃ p, Begins p a ∧ Begins p c ∧ p.demand.length = r.demand.length + m := by
  intro m
  induction m with
  | zero =>
    intro n i s r _ x y a c ha hc
    exact .inr ⟨r, (simLoop_begins _ _ _ _ _ _ _ _ _ ha).1, (simLoop_begins _ _ _ _ _ _ _ _ _ hc).1, rfl⟩
  | succ m ih =>
    intro n i s r h x y a c ha hc
    cases n with
    | zero =>
      simp only [simLoop, Except.ok.injEq, Prod.mk.injEq] at ha hc
      exact .inl (ha.2.symm.trans hc.2)
    | succ n =>
      unfold simLoop at ha hc
      rw [h i (le_refl _) (by omega)] at ha
      simp only [bind_eq_ok] at ha hc
      obtain ⟨⟨s1, o⟩, h1, ⟨r1, stop⟩, hr, ha⟩ := ha
      obtain ⟨z, h1', w, hr', hc⟩ := hc
      rw [h1] at h1'
      injection h1' with h1'
      subst h1'
      rw [hr] at hr'
      injection hr' with hr'
      subst hr'
      dsimp only at ha hc
      cases stop with
      | true =>
        simp only [if_true, pure_eq_ok, Except.ok.injEq, Prod.mk.injEq] at ha hc
        exact .inl (ha.2.symm.trans hc.2)
      | false =>
        simp only [Bool.false_eq_true, if_false] at ha hc
        obtain h2 | ⟨p, hp1, hp2, hp3⟩ := ih n (i + 1) s1 r1 (fun j g1 g2 => h j (by omega) (by omega)) x y a c ha hc
        · exact .inl h2
        · refine .inr ⟨p, hp1, hp2, ?_⟩
          rw [hp3, (simRecord_begins hr).2.1]
          omega

/-- Steps that are the same before minute `m` give runs that are alike until then. -/
theorem from_causal {S : Type} (step step' : Nat → S → Nat → Py (S × StepOut K)) (supply : K) (tm : Bool) (thr : K)
    (maxMin : Int) (d : String) (s : S) (m : ℕ) (h : ∀ ts s t, t * ts < m → step ts s t = step' ts s t) (x y : S)
    (r q : SimRun K) (hr : simulateFrom step supply tm thr maxMin d s = .ok (x, r))
    (hq : simulateFrom step' supply tm thr maxMin d s = .ok (y, q)) : AlikeUntil m r q := by
  unfold simulateFrom SimRun.new at hr hq
  simp only [bind_eq_ok] at hr hq
  obtain ⟨⟨dur, ts⟩, hd, r0, h0, hr⟩ := hr
  obtain ⟨z, hd', q0, h0', hq⟩ := hq
  rw [hd] at hd'
  injection hd' with hd'
  subst hd'
  dsimp only at h0 h0' hr hq
  split at h0
  · simp at h0
  · rename_i hts
    rw [if_neg hts] at h0'
    simp only [Except.ok.injEq] at h0 h0'
    subst h0
    subst h0'
    have hts' : 0 < ts := Nat.pos_of_ne_zero hts
    have htr : r.ts = ts := (simLoop_begins _ _ _ _ _ _ _ _ _ hr).2
    obtain h1 | ⟨p, hp1, hp2, hp3⟩ := loop_causal (step ts) (step' ts) ts supply ((m + ts - 1) / ts) _ 0 s _ (by
      intro j _ hj s
      refine h ts s j ?_
      rw [Nat.zero_add, Nat.lt_div_iff_mul_lt hts'] at hj
      omega) x y r q hr hq
    · exact .inl h1
    · refine .inr ⟨p, hp1, hp2, ?_⟩
      rw [hp3, htr]
      dsimp only
      have := Nat.lt_div_mul_add hts' (a := m + ts - 1)
      simp only [List.length_nil, Nat.zero_add]
      omega

/-- Steps that are the same before the end of the run give the same run, or the same exception. -/
theorem from_agree {S : Type} (step step' : Nat → S → Nat → Py (S × StepOut K)) (supply : K) (tm : Bool) (thr : K)
    (maxMin : Int) (d : String) (s : S) (m : ℕ) (h : ∀ ts s t, t * ts < m → step ts s t = step' ts s t)
    (hm : ∀ dur ts, simDuration d = .ok (dur, ts) → dur ≤ m) :
    simulateFrom step supply tm thr maxMin d s = simulateFrom step' supply tm thr maxMin d s := by
  unfold simulateFrom
  cases hd : simDuration d with
  | error e => rfl
  | ok x =>
    obtain ⟨dur, ts⟩ := x
    have hdm := hm dur ts hd
    simp only [ok_bind]
    congr 1
    funext r
    refine loop_agree _ _ _ _ _ _ _ _ (fun j _ hj s => h ts s j ?_)
    rcases Nat.eq_zero_or_pos ts with rfl | hts
    · simp at hj
    · rw [Nat.zero_add] at hj
      have := Nat.mul_lt_mul_of_pos_right hj hts
      have := Nat.div_mul_le_self dur ts
      omega

section Systems
variable {b b' : Building K} {m : ℕ}

theorem inputs_until (h : SameUntil b b' m) (s : Prim K) (t int : ℕ) (ht : t * int < m) : s.inputs b t int = s.inputs b' t int := by
  obtain ⟨h1, h2, h3⟩ := h t int ht
  unfold Prim.inputs
  rw [h1, h2, h3]

theorem primStep_until (h : SameUntil b b' m) (int : ℕ) (s : Prim K) (t : ℕ) (ht : t * int < m) :
    Prim.step b int s t = Prim.step b' int s t := by
  unfold Prim.step
  rw [inputs_until h s t int ht]

theorem spStep_until (l : RtpLoop K) (h : SameUntil b b' m) (int : ℕ) (s : Prim K) (t : ℕ) (ht : t * int < m) :
    spStep l b int s t = spStep l b' int s t := by
  unfold spStep
  rw [primStep_until h int s t ht]

theorem parStep_until (c : TmCfg K) (h : SameUntil b b' m) (int : ℕ) (s : ParSim K) (t : ℕ) (ht : t * int < m) :
    parStep c b int s t = parStep c b' int s t := by
  unfold parStep
  rw [primStep_until h int s.prim t ht]

theorem swingStep_until (h : SameUntil b b' m) (int : ℕ) (s : SwingSim K) (t : ℕ) (ht : t * int < m) :
    swingSimStep b int s t = swingSimStep b' int s t := by
  unfold swingSimStep
  rw [inputs_until h _ t int ht]

theorem mpStep_until (h : SameUntil b b' m) (int : ℕ) (s : MpSim K) (t : ℕ) (ht : t * int < m) :
    mpStep b int s t = mpStep b' int s t := by
  obtain ⟨h1, h2, h3⟩ := h t int ht
  unfold mpStep
  simp only [h1, h2, h3, inputs_until h _ t int ht]

theorem duration_le {d : String} (h3 : d = "3day" → 4320 ≤ m) (ha : d = "annual" → 525600 ≤ m) (dur ts : ℕ)
    (h : simDuration d = .ok (dur, ts)) : dur ≤ m := by
  unfold simDuration at h
  split at h
  · rename_i hd; cases h; exact h3 hd
  · split at h
    · rename_i hd; cases h; exact ha hd
    · simp at h

theorem designInletOr_same (h : b.getDesignInlet = b'.getDesignInlet) : designInletOr b = designInletOr b' := by
  unfold designInletOr; rw [h]

theorem primInit_same (h : b.getDesignInlet = b'.getDesignInlet) (s : Prim K) : s.init b = s.init b' := by
  unfold Prim.init; rw [designInletOr_same h]

/-- **C139, partial, primary system.** Two buildings that have the same demand and the same temperatures until minute `m`,
and the same design inlet temperature, give runs that are alike until then, and the same outcome if the run ends before. Missing: the condition
on the design inlet temperature (`C139_later_weather_matters`). -/
theorem C139_primary_partial (h : SameUntil b b' m) (hi : b.getDesignInlet = b'.getDesignInlet) (s : Prim K) (thr : K)
    (maxMin : Int) (d : String) :
    (∀ x y r q, s.simulate b thr maxMin d = .ok (x, r) → s.simulate b' thr maxMin d = .ok (y, q) → AlikeUntil m r q) ∧
    ((d = "3day" → 4320 ≤ m) → (d = "annual" → 525600 ≤ m) → s.simulate b thr maxMin d = s.simulate b' thr maxMin d) := by
  have hc := designInletOr_same hi
  constructor
  · intro x y r q hr hq
    unfold Prim.simulate at hr hq
    simp only [bind_eq_ok] at hr hq
    rw [primInit_same hi] at hr
    obtain ⟨u, -, s1, hs, hr⟩ := hr
    obtain ⟨u', -, s2, hs', hq⟩ := hq
    rw [hs] at hs'
    injection hs' with hs'
    subst hs'
    exact from_causal _ _ _ _ _ _ _ _ m (fun ts s t ht => primStep_until h ts s t ht) x y r q hr hq
  · intro h3 ha
    unfold Prim.simulate
    rw [primInit_same hi]
    refine congrArg _ (funext fun _ => congrArg _ (funext fun s1 => ?_))
    exact from_agree _ _ _ _ _ _ _ _ m (fun ts s t ht => primStep_until h ts s t ht) (duration_le h3 ha)

/-- **C139, partial, single-pass return to primary.** -/
theorem C139_single_pass_partial (h : SameUntil b b' m) (hi : b.getDesignInlet = b'.getDesignInlet) (l : RtpLoop K) (s : Prim K) (thr : K)
    (maxMin : Int) (d : String) :
    (∀ x y r q, spSimulate l s b thr maxMin d = .ok (x, r) → spSimulate l s b' thr maxMin d = .ok (y, q) → AlikeUntil m r q) ∧
    ((d = "3day" → 4320 ≤ m) → (d = "annual" → 525600 ≤ m) → spSimulate l s b thr maxMin d = spSimulate l s b' thr maxMin d) := by
  have hc := designInletOr_same hi
  constructor
  · intro x y r q hr hq
    unfold spSimulate at hr hq
    simp only [bind_eq_ok] at hr hq
    rw [primInit_same hi] at hr
    obtain ⟨u, -, s1, hs, hr⟩ := hr
    obtain ⟨u', -, s2, hs', hq⟩ := hq
    rw [hs] at hs'
    injection hs' with hs'
    subst hs'
    exact from_causal _ _ _ _ _ _ _ _ m (fun ts s t ht => spStep_until l h ts s t ht) x y r q hr hq
  · intro h3 ha
    unfold spSimulate
    rw [primInit_same hi]
    refine congrArg _ (funext fun _ => congrArg _ (funext fun s1 => ?_))
    exact from_agree _ _ _ _ _ _ _ _ m (fun ts s t ht => spStep_until l h ts s t ht) (duration_le h3 ha)

/-- **C139, partial, parallel loop.** -/
theorem C139_parallel_partial (h : SameUntil b b' m) (hi : b.getDesignInlet = b'.getDesignInlet) (c : TmCfg K) (s : ParSim K) (thr : K)
    (maxMin : Int) (d : String) :
    (∀ x y r q, parSimulate c s b thr maxMin d = .ok (x, r) → parSimulate c s b' thr maxMin d = .ok (y, q) → AlikeUntil m r q) ∧
    ((d = "3day" → 4320 ≤ m) → (d = "annual" → 525600 ≤ m) → parSimulate c s b thr maxMin d = parSimulate c s b' thr maxMin d) := by
  have hc := designInletOr_same hi
  constructor
  · intro x y r q hr hq
    unfold parSimulate at hr hq
    simp only [bind_eq_ok] at hr hq
    rw [primInit_same hi, hc] at hr
    obtain ⟨u, -, s1, hs, cold, hcold, hr⟩ := hr
    obtain ⟨u', -, s2, hs', cold', hcold', hq⟩ := hq
    rw [hs] at hs'
    injection hs' with hs'
    subst hs'
    rw [hcold] at hcold'
    injection hcold' with hcold'
    subst hcold'
    exact from_causal _ _ _ _ _ _ _ _ m (fun ts s t ht => parStep_until c h ts s t ht) x y r q hr hq
  · intro h3 ha
    unfold parSimulate
    rw [primInit_same hi, hc]
    refine congrArg _ (funext fun _ => congrArg _ (funext fun s1 => congrArg _ (funext fun cold => ?_)))
    exact from_agree _ _ _ _ _ _ _ _ m (fun ts s t ht => parStep_until c h ts s t ht) (duration_le h3 ha)

/-- **C139, partial, swing tank.** -/
theorem C139_swing_partial (h : SameUntil b b' m) (hi : b.getDesignInlet = b'.getDesignInlet) (off : K) (s : SwingSim K) (thr : K)
    (maxMin : Int) (d : String) :
    (∀ x y r q, swingSimulate off s b thr maxMin d = .ok (x, r) → swingSimulate off s b' thr maxMin d = .ok (y, q) → AlikeUntil m r q) ∧
    ((d = "3day" → 4320 ≤ m) → (d = "annual" → 525600 ≤ m) → swingSimulate off s b thr maxMin d = swingSimulate off s b' thr maxMin d) := by
  have hc := designInletOr_same hi
  constructor
  · intro x y r q hr hq
    unfold swingSimulate at hr hq
    simp only [bind_eq_ok] at hr hq
    rw [hc] at hr
    obtain ⟨u, -, cold, hs, hr⟩ := hr
    obtain ⟨u', -, cold', hs', hq⟩ := hq
    rw [hs] at hs'
    injection hs' with hs'
    subst hs'
    exact from_causal _ _ _ _ _ _ _ _ m (fun ts s t ht => swingStep_until h ts s t ht) x y r q hr hq
  · intro h3 ha
    unfold swingSimulate
    rw [hc]
    refine congrArg _ (funext fun _ => congrArg _ (funext fun cold => ?_))
    exact from_agree _ _ _ _ _ _ _ _ m (fun ts s t ht => swingStep_until h ts s t ht) (duration_le h3 ha)

/-- **C139, partial, multi-pass return to primary.** -/
theorem C139_multi_pass_partial (h : SameUntil b b' m) (hi : b.getDesignInlet = b'.getDesignInlet) (s : MpSim K) (thr : K)
    (maxMin : Int) (d : String) :
    (∀ x y r q, mpSimulate s b thr maxMin d = .ok (x, r) → mpSimulate s b' thr maxMin d = .ok (y, q) → AlikeUntil m r q) ∧
    ((d = "3day" → 4320 ≤ m) → (d = "annual" → 525600 ≤ m) → mpSimulate s b thr maxMin d = mpSimulate s b' thr maxMin d) := by
  have hc := designInletOr_same hi
  constructor
  · intro x y r q hr hq
    unfold mpSimulate at hr hq
    simp only [bind_eq_ok] at hr hq
    rw [hc] at hr
    obtain ⟨u, -, cold, hs, hr⟩ := hr
    obtain ⟨u', -, cold', hs', hq⟩ := hq
    rw [hs] at hs'
    injection hs' with hs'
    subst hs'
    exact from_causal _ _ _ _ _ _ _ _ m (fun ts s t ht => mpStep_until h ts s t ht) x y r q hr hq
  · intro h3 ha
    unfold mpSimulate
    rw [hc]
    refine congrArg _ (funext fun _ => congrArg _ (funext fun cold => ?_))
    exact from_agree _ _ _ _ _ _ _ _ m (fun ts s t ht => mpStep_until h ts s t ht) (duration_le h3 ha)

/-- **C139, tankless.** There is no tank to charge, so nothing else is needed. -/
theorem C139_tankless (h : SameUntil b b' m) (s : Instant K) (thr : K) (maxMin : Int) (d : String) (r q : SimRun K)
    (hr : s.simulate b thr maxMin d = .ok r) (hq : s.simulate b' thr maxMin d = .ok q) : AlikeUntil m r q := by
  unfold Instant.simulate at hr hq
  simp only [bind_eq_ok, pure_eq_ok, Except.ok.injEq] at hr hq
  obtain ⟨x, hd, r0, h0, _, _, ⟨u, r'⟩, hr, rfl⟩ := hr
  obtain ⟨y, hd', q0, h0', _, _, ⟨v, q'⟩, hq, rfl⟩ := hq
  rw [hd] at hd'
  injection hd' with hd'
  subst hd'
  rw [h0] at h0'
  injection h0' with h0'
  subst h0'
  obtain ⟨dur, ts⟩ := x
  have key := from_causal (S := Unit) (fun ts _ i => do return ((), ← s.step b i ts)) (fun ts _ i => do return ((), ← s.step b' i ts))
    s.supply false thr maxMin d () m (by
      intro ts _ t ht
      obtain ⟨h1, h2, h3⟩ := h t ts ht
      unfold Instant.step
      rw [h1, h2, h3]) u v r' q'
  apply key
  · unfold simulateFrom
    rw [hd]
    simp only [ok_bind, h0]
    have hs : r0.showTm = false := by
      unfold SimRun.new at h0
      split at h0
      · simp at h0
      · cases h0; rfl
    rw [← hs]
    exact hr
  · unfold simulateFrom
    rw [hd]
    simp only [ok_bind, h0]
    have hs : r0.showTm = false := by
      unfold SimRun.new at h0
      split at h0
      · simp at h0
      · cases h0; rfl
    rw [← hs]
    exact hq

end Systems

namespace Demo

/-- The demonstration building with the mains at 50 °F in January and at `f` in all other months. -/
def lateMains (f : ℚ) : Building ℚ :=
  { building with climate := some ⟨none, some [20], some (50 :: List.replicate 11 f), none, none⟩ }

theorem lateMains_same (f g : ℚ) : SameUntil (lateMains f) (lateMains g) 4320 := by
  intro t int h
  refine ⟨fun _ => rfl, rfl, ?_⟩
  have hd : t * int / (60 * 24) < 3 := by omega
  show pyGet _ (dayOfYearToMonth (t * int / (60 * 24) % 365)) = pyGet _ (dayOfYearToMonth (t * int / (60 * 24) % 365))
  rw [Nat.mod_eq_of_lt (by omega)]
  generalize t * int / (60 * 24) = x at hd ⊢
  interval_cases x <;> rfl

theorem lateMains_answers (f : ℚ) : Answers (lateMains f) := by
  refine ⟨?_, ?_, answers.demand, ⟨_, rfl⟩⟩
  · intro i ts
    exact ⟨20, by unfold lateMains Building.getOat ClimateZone.getOat; simp [Nat.mod_one, pyGet]⟩
  · intro i ts
    refine ⟨_, pyGet_of_lt (l := 50 :: List.replicate 11 f) (i := dayOfYearToMonth (i * ts / (60 * 24) % 365)) ?_⟩
    have key : ∀ d < 365, dayOfYearToMonth d < 12 := by decide +kernel
    exact key _ (Nat.mod_lt _ (by norm_num))

theorem lateMains_runs (f : ℚ) (thr : ℚ) (maxMin : Int) :
    ∃ sf r, (twoSensors (7 / 10) 1).simulate (lateMains f) thr maxMin "3day" = .ok (sf, r) := by
  refine C91_completes_partial _ _ thr maxMin "3day" (.inl rfl) (lateMains_answers f) ?_ ?_
  · intro w hw
    rcases (by simpa [twoSensors] using hw : w = atHeight (7 / 10) ∨ w = atHeight 1) with rfl | rfl <;> exact atHeight_ready _
  · rintro t ⟨⟩
    exact ⟨by decide +kernel, by decide +kernel⟩

/-- The usable volume after the first minute. -/
def firstIn (s : Prim ℚ) (b : Building ℚ) : Option ℚ :=
  match s.init b with
  | .error _ => none
  | .ok s => match Prim.step b 1 s 0 with
    | .error _ => none
    | .ok (_, o) => some o.usable

theorem firstIn_run {s : Prim ℚ} {b : Building ℚ} {thr : ℚ} {maxMin : Int} {sf : Prim ℚ} {r : SimRun ℚ}
    (h : s.simulate b thr maxMin "3day" = .ok (sf, r)) : firstIn s b = r.usable.head? := by
  unfold Prim.simulate at h
  simp only [bind_eq_ok] at h
  obtain ⟨x, hx, s1, hi, h⟩ := h
  obtain ⟨dur, ts, outs, h1, h2, h3, h4, h5, _, _, _, h6⟩ := simulate_spec _ _ _ thr maxMin "3day" s1 sf r h
  obtain ⟨rfl, rfl⟩ : 4320 = dur ∧ 1 = ts := by simpa [simDuration] using h1
  unfold firstIn
  rw [hi, h5.usable]
  cases outs with
  | nil => simp at h6
  | cons o os =>
    obtain ⟨s2, e, _⟩ := h4
    simp only [e, List.map_cons, List.head?_cons]

end Demo

/-- **C139 fails without the condition on the design inlet temperature.** Two buildings have the same demand and the same
weather during all of the three days simulated. In the second one the mains are colder in the months after January. The tank
starts with the coldest mains of the year at its bottom and is stratified from there, so in the second building there is no
usable hot water in the first minute and the run is reported as failed. -/
theorem C139_later_weather_matters : ∃ (s : Prim ℚ) (b b' : Building ℚ), SameUntil b b' 4320 ∧ ∀ (thr : ℚ) (maxMin : Int),
    ∃ sf r sf' r', s.simulate b thr maxMin "3day" = .ok (sf, r) ∧ s.simulate b' thr maxMin "3day" = .ok (sf', r') ∧
      (∃ u, r.usable.head? = some u ∧ 0 < u) ∧ r'.usable.head? = some 0 ∧ r'.isSuccessful = false := by
  refine ⟨Demo.twoSensors (7 / 10) 1, Demo.lateMains 50, Demo.lateMains 33, Demo.lateMains_same _ _, fun thr maxMin => ?_⟩
  obtain ⟨sf, r, h⟩ := Demo.lateMains_runs 50 thr maxMin
  obtain ⟨sf', r', h'⟩ := Demo.lateMains_runs 33 thr maxMin
  have h0 : r'.usable.head? = some 0 := by rw [← Demo.firstIn_run h']; decide +kernel
  refine ⟨sf, r, sf', r', h, h', ?_, h0, ?_⟩
  · rw [← Demo.firstIn_run h]
    have e : ((Demo.firstIn (Demo.twoSensors (7 / 10) 1) (Demo.lateMains 50)).map (fun u => decide (0 < u))) = some true := by
      decide +kernel
    obtain ⟨u, hu, hd⟩ := Option.map_eq_some_iff.mp e
    exact ⟨u, hu, by simpa using hd⟩
  · rw [Bool.eq_false_iff]
    intro hs
    unfold Prim.simulate at h'
    simp only [bind_eq_ok] at h'
    obtain ⟨_, _, s1, _, h'⟩ := h'
    have := (C42_outage_partial _ _ _ thr maxMin "3day" s1 sf' r' h').2.mp hs 0 (List.mem_of_mem_head? h0)
    exact lt_irrefl _ this

/-- Non-vacuity of C139: from February on the mains are warmer in one of the buildings. The demand and the temperatures are the
same until the end of three days, and so is the design inlet temperature. -/
example : SameUntil (Demo.lateMains 55) (Demo.lateMains 60) 4320 ∧
    (Demo.lateMains 55).getDesignInlet = (Demo.lateMains 60).getDesignInlet ∧
    (Demo.lateMains 55).getInlet 50000 1 ≠ (Demo.lateMains 60).getInlet 50000 1 := by
  refine ⟨Demo.lateMains_same _ _, by decide +kernel, by decide +kernel⟩

end Eco
