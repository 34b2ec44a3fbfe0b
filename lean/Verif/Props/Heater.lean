import Verif.Model.Heater
import Verif.Lemmas.Py
import Verif.Props.Demo
import Mathlib.Tactic.NormNum
import Mathlib.Data.List.Induction

/-! C23 to C25: the heater and its controls. -/

namespace Eco
set_option linter.unusedSectionVars false
variable {K : Type} [Field K] [LinearOrder K] [IsStrictOrderedRing K]

/-- One control update: the tank as it is then, and the hour. -/
structure Spec.Update (K : Type) where
  tempAt : K → Py K
  hour : Nat

/-- The hour has controls, and at this instant their ON sensor is below its trigger. -/
def Spec.Cold (w : Heater K) (u : Spec.Update K) : Prop :=
  ∃ s m key c t, w.sched = some s ∧ w.cmap = some m ∧ s[u.hour]? = some key ∧
    dictGet? m key = some c ∧ u.tempAt c.onFract = .ok t ∧ t < c.onTrig

/-- The hour has controls, and at this instant their OFF sensor is at or above its trigger. -/
def Spec.Hot (w : Heater K) (u : Spec.Update K) : Prop :=
  ∃ s m key c t, w.sched = some s ∧ w.cmap = some m ∧ s[u.hour]? = some key ∧
    dictGet? m key = some c ∧ u.tempAt c.offFract = .ok t ∧ c.offTrig ≤ t

open Spec

/-- Any sequence of control updates; an update that raises does not end the history. -/
def Heater.run (w : Heater K) (us : List (Update K)) : Heater K :=
  us.foldl (fun w u => (w.updateState u.tempAt u.hour).1) w

theorem getControls_some {w : Heater K} {h : Nat} {c : Controls K} :
    w.getControls h = .ok (some c) ↔ ∃ s m key, w.sched = some s ∧ w.cmap = some m ∧
      s[h]? = some key ∧ dictGet? m key = some c := by
  unfold Heater.getControls
  cases hs : w.sched with
  | none => simp
  | some s =>
    cases hm : w.cmap with
    | none => simp
    | some m =>
      simp only [bind_eq_ok, pure_eq_ok, Except.ok.injEq, pyGet_eq_ok]
      constructor
      · rintro ⟨k, h1, h2⟩; exact ⟨s, m, k, rfl, rfl, h1, h2⟩
      · rintro ⟨s', m', k, h1, h2, h3, h4⟩
        cases h1; cases h2; exact ⟨k, h3, h4⟩

theorem cold_iff {w : Heater K} {u : Update K} : Cold w u ↔
    ∃ c, w.getControls u.hour = .ok (some c) ∧ c.shouldTurnOn u.tempAt = .ok true := by
  unfold Cold Controls.shouldTurnOn
  simp only [getControls_some, bind_eq_ok, pure_eq_ok, Except.ok.injEq, decide_eq_true_eq]
  constructor
  · rintro ⟨s, m, k, c, t, h1, h2, h3, h4, h5, h6⟩; exact ⟨c, ⟨s, m, k, h1, h2, h3, h4⟩, t, h5, h6⟩
  · rintro ⟨c, ⟨s, m, k, h1, h2, h3, h4⟩, t, h5, h6⟩; exact ⟨s, m, k, c, t, h1, h2, h3, h4, h5, h6⟩

theorem hot_iff {w : Heater K} {u : Update K} : Hot w u ↔
    ∃ c, w.getControls u.hour = .ok (some c) ∧ c.shouldTurnOff u.tempAt = .ok true := by
  unfold Hot Controls.shouldTurnOff
  simp only [getControls_some, bind_eq_ok, pure_eq_ok, Except.ok.injEq, decide_eq_true_eq]
  constructor
  · rintro ⟨s, m, k, c, t, h1, h2, h3, h4, h5, h6⟩; exact ⟨c, ⟨s, m, k, h1, h2, h3, h4⟩, t, h5, h6⟩
  · rintro ⟨c, ⟨s, m, k, h1, h2, h3, h4⟩, t, h5, h6⟩; exact ⟨s, m, k, c, t, h1, h2, h3, h4, h5, h6⟩

theorem updateState_fixed (w : Heater K) (u : Update K) :
    (w.updateState u.tempAt u.hour).1.sched = w.sched ∧
    (w.updateState u.tempAt u.hour).1.cmap = w.cmap ∧
    (w.updateState u.tempAt u.hour).1.perf = w.perf := by
  unfold Heater.updateState
  split <;> [exact ⟨rfl, rfl, rfl⟩; exact ⟨rfl, rfl, rfl⟩; skip]
  split <;> split <;> exact ⟨rfl, rfl, rfl⟩

/-- One update of a heater that is on. -/
theorem updateState_on {w : Heater K} {u : Update K} (h : w.active = true) :
    (w.updateState u.tempAt u.hour).1.active = true ↔ ¬ Hot w u := by
  rw [hot_iff]
  unfold Heater.updateState
  cases hc : w.getControls u.hour with
  | error e => simp [h]
  | ok o =>
    cases o with
    | none => simp [h]
    | some c =>
      simp only [h, if_true, Except.ok.injEq, Option.some.injEq, exists_eq_left']
      cases ho : c.shouldTurnOff u.tempAt with
      | error e => simp [h]
      | ok b => cases b <;> simp [h]

/-- One update of a heater that is off. -/
theorem updateState_off {w : Heater K} {u : Update K} (h : w.active = false) :
    (w.updateState u.tempAt u.hour).1.active = true ↔ Cold w u := by
  rw [cold_iff]
  unfold Heater.updateState
  cases hc : w.getControls u.hour with
  | error e => simp [h]
  | ok o =>
    cases o with
    | none => simp [h]
    | some c =>
      simp only [h, Bool.false_eq_true, if_false, Except.ok.injEq, Option.some.injEq, exists_eq_left']
      cases ho : c.shouldTurnOn u.tempAt with
      | error e => simp [h]
      | ok b => cases b <;> simp [h]

theorem run_append (w : Heater K) (us : List (Update K)) (u : Update K) :
    w.run (us ++ [u]) = ((w.run us).updateState u.tempAt u.hour).1 := by
  simp [Heater.run, List.foldl_append]

theorem run_fixed (w : Heater K) (us : List (Update K)) :
    (w.run us).sched = w.sched ∧ (w.run us).cmap = w.cmap ∧ (w.run us).perf = w.perf := by
  induction us using List.reverseRecOn with
  | nil => exact ⟨rfl, rfl, rfl⟩
  | append_singleton us u ih =>
    rw [run_append]
    obtain ⟨a, b, c⟩ := updateState_fixed (w.run us) u
    exact ⟨a.trans ih.1, b.trans ih.2.1, c.trans ih.2.2⟩

theorem cold_run {w : Heater K} {us : List (Update K)} {u : Update K} :
    Cold (w.run us) u ↔ Cold w u := by
  unfold Cold; rw [(run_fixed w us).1, (run_fixed w us).2.1]

theorem hot_run {w : Heater K} {us : List (Update K)} {u : Update K} :
    Hot (w.run us) u ↔ Hot w u := by
  unfold Hot; rw [(run_fixed w us).1, (run_fixed w us).2.1]

/-- **C23 (changes).** In any history, an update changes the state exactly if the heater was off and
the tank is cold at that instant, or was on and the tank is hot at that instant. -/
theorem C23_changes_only_on_condition (w : Heater K) (us : List (Update K)) (u : Update K) :
    ((w.run (us ++ [u])).active ≠ (w.run us).active) ↔
      ((w.run us).active = false ∧ Cold w u) ∨ ((w.run us).active = true ∧ Hot w u) := by
  rw [run_append]
  cases h : (w.run us).active with
  | false =>
    have := updateState_off (u := u) h
    rw [cold_run] at this
    simp [this]
  | true =>
    have := updateState_on (u := u) h
    rw [hot_run] at this
    simp only [Bool.true_eq_false, false_and, true_and, false_or, ne_eq]
    rw [this, not_not]

/-- **C23 (history).** After any history the heater is on exactly if either it was on initially and no
update since then saw a hot tank, or some update found it off and the tank cold, and no later update saw
a hot tank. -/
theorem C23_most_recent_decision (w : Heater K) (us : List (Update K)) :
    (w.run us).active = true ↔
      (w.active = true ∧ ∀ u ∈ us, ¬ Hot w u) ∨
      ∃ pre u post, us = pre ++ u :: post ∧ (w.run pre).active = false ∧ Cold w u ∧
        ∀ v ∈ post, ¬ Hot w v := by
  induction us using List.reverseRecOn with
  | nil => simp [Heater.run]
  | append_singleton us u ih =>
    rw [run_append]
    cases h : (w.run us).active with
    | true =>
      have h1 := updateState_on (u := u) h
      rw [hot_run] at h1
      rw [h1]
      have ih' := ih.mp h
      constructor
      · intro hn
        rcases ih' with ⟨a, b⟩ | ⟨pre, v, post, rfl, c, d, e⟩
        · left
          refine ⟨a, ?_⟩
          intro x hx
          rcases List.mem_append.mp hx with hx | hx
          · exact b x hx
          · rw [List.mem_singleton.mp hx]; exact hn
        · right
          refine ⟨pre, v, post ++ [u], by simp, c, d, ?_⟩
          intro x hx
          rcases List.mem_append.mp hx with hx | hx
          · exact e x hx
          · rw [List.mem_singleton.mp hx]; exact hn
      · rintro (⟨_, b⟩ | ⟨pre, v, post, e, c, d, k⟩)
        · exact b u (by simp)
        · rcases List.eq_nil_or_concat post with rfl | ⟨post', x, rfl⟩
          · have : us = pre ∧ u = v := by
              have := List.append_inj' e rfl
              simpa using this
            rw [← this.1, h] at c
            exact absurd c (by simp)
          · have : u = x := by
              have h2 : us ++ [u] = (pre ++ v :: post') ++ [x] := by rw [e]; simp
              have := (List.append_inj' h2 rfl).2
              simpa using this
            exact k u (by simp [this])
    | false =>
      have h1 := updateState_off (u := u) h
      rw [cold_run] at h1
      rw [h1]
      have ih' := ih.not.mp (by simp [h])
      push Not at ih'
      constructor
      · intro hc
        exact Or.inr ⟨us, u, [], by simp, h, hc, by simp⟩
      · rintro (⟨a, b⟩ | ⟨pre, v, post, e, c, d, k⟩)
        · obtain ⟨x, hx, hh⟩ := ih'.1 a
          exact absurd hh (b x (by simp [hx]))
        · rcases List.eq_nil_or_concat post with rfl | ⟨post', x, rfl⟩
          · have : us = pre ∧ u = v := by
              have := List.append_inj' e rfl
              simpa using this
            rw [this.2]; exact d
          · have h2 : us ++ [u] = (pre ++ v :: post') ++ [x] := by rw [e]; simp
            have h3 := (List.append_inj' h2 rfl).1
            obtain ⟨y, hy, hh⟩ := ih'.2 pre v post' h3 c d
            exact absurd hh (k y (by simp [hy]))

/-- **C23 (closed form).** If no update sees a tank that is both cold and hot (see C24), the state after
a history depends on the conditions alone: on exactly if some update saw a cold tank and none after it
a hot one, or the heater was on at first and no update saw a hot tank. -/
theorem C23_closed_form (w : Heater K) (us : List (Update K))
    (hx : ∀ u ∈ us, ¬ (Cold w u ∧ Hot w u)) :
    (w.run us).active = true ↔
      (w.active = true ∧ ∀ u ∈ us, ¬ Hot w u) ∨
      ∃ pre u post, us = pre ++ u :: post ∧ Cold w u ∧ ∀ v ∈ post, ¬ Hot w v := by
  rw [C23_most_recent_decision]
  constructor
  · rintro (h | ⟨pre, u, post, e, _, c, k⟩)
    · exact Or.inl h
    · exact Or.inr ⟨pre, u, post, e, c, k⟩
  · rintro (h | ⟨pre, u, post, e, c, k⟩)
    · exact Or.inl h
    · cases hp : (w.run pre).active with
      | false => exact Or.inr ⟨pre, u, post, e, hp, c, k⟩
      | true =>
        have hu : ¬ Hot w u := fun hh => hx u (by simp [e]) ⟨c, hh⟩
        rcases (C23_most_recent_decision w pre).mp hp with ⟨a, b⟩ | ⟨pre', v, post', e', c', d', k'⟩
        · left
          refine ⟨a, ?_⟩
          intro x hx'
          rw [e] at hx'
          rcases List.mem_append.mp hx' with hx' | hx'
          · exact b x hx'
          · rcases List.mem_cons.mp hx' with rfl | hx'
            · exact hu
            · exact k x hx'
        · right
          refine ⟨pre', v, post' ++ u :: post, by rw [e, e']; simp, c', d', ?_⟩
          intro x hx'
          rcases List.mem_append.mp hx' with hx' | hx'
          · exact k' x hx'
          · rcases List.mem_cons.mp hx' with rfl | hx'
            · exact hu
            · exact k x hx'

/-! ## C24 -/

/-- The tank is nowhere colder higher up: whenever both reads succeed. -/
def Spec.Stratified (tempAt : K → Py K) : Prop :=
  ∀ f g a b, f ≤ g → tempAt f = .ok a → tempAt g = .ok b → a ≤ b

/-- **C24 (decisions).** With the OFF sensor not above the ON sensor and the OFF trigger not below the
ON trigger, a stratified tank never meets both conditions. -/
theorem C24_never_both (c : Controls K) (tempAt : K → Py K) (hs : Stratified tempAt)
    (hf : c.offFract ≤ c.onFract) (ht : c.onTrig ≤ c.offTrig) :
    ¬ (c.shouldTurnOn tempAt = .ok true ∧ c.shouldTurnOff tempAt = .ok true) := by
  unfold Controls.shouldTurnOn Controls.shouldTurnOff
  simp only [bind_eq_ok, pure_eq_ok, Except.ok.injEq, decide_eq_true_eq]
  rintro ⟨⟨a, h1, h2⟩, b, h3, h4⟩
  exact absurd (hs _ _ _ _ hf h3 h1) (not_le.mpr (lt_of_lt_of_le h2 (ht.trans h4)))

/-- **C24.** A heater all of whose controls are like that, having just changed its state, keeps it
for any number of further updates with the same tank and hour. -/
theorem C24_no_chatter (w : Heater K) (u : Update K) (hs : Stratified u.tempAt)
    (hc : ∀ m, w.cmap = some m → ∀ k c, dictGet? m k = some c →
      c.offFract ≤ c.onFract ∧ c.onTrig ≤ c.offTrig) (n : ℕ) :
    (w.run (List.replicate (n + 1) u)).active = (w.run [u]).active := by
  have hx : ¬ (Cold w u ∧ Hot w u) := by
    rw [cold_iff, hot_iff]
    rintro ⟨⟨c, h1, h2⟩, c', h3, h4⟩
    rw [h1] at h3
    simp only [Except.ok.injEq, Option.some.injEq] at h3
    subst h3
    obtain ⟨s, m, k, _, h5, _, h6⟩ := getControls_some.mp h1
    obtain ⟨a, b⟩ := hc m h5 k c h6
    exact C24_never_both c u.tempAt hs a b ⟨h2, h4⟩
  induction n with
  | zero => rfl
  | succ n ih =>
    rw [List.replicate_succ', ← ih]
    by_contra hne
    rcases (C23_changes_only_on_condition w (List.replicate (n + 1) u) u).mp hne with ⟨a, b⟩ | ⟨a, b⟩
    · rw [ih] at a
      cases hw : w.active with
      | false =>
        have := (updateState_off (u := u) hw).mpr b
        have e : w.run [u] = (w.updateState u.tempAt u.hour).1 := rfl
        rw [e, this] at a; simp at a
      | true =>
        have h1 := (updateState_on (u := u) hw).mpr (fun hh => hx ⟨b, hh⟩)
        have e : w.run [u] = (w.updateState u.tempAt u.hour).1 := rfl
        rw [e, h1] at a; simp at a
    · rw [ih] at a
      cases hw : w.active with
      | false =>
        have h1 := (updateState_off (u := u) hw).mp a
        exact hx ⟨h1, b⟩
      | true =>
        have h1 := (updateState_on (u := u) hw).mp a
        exact h1 b

/-- The hypothesis on the sensors is needed: with the OFF sensor above the ON sensor, a heater
switches at every update of an unchanged tank. -/
theorem C24_needs_sensor_order :
    let c : Controls ℚ := ⟨2/10, 120, 8/10, 120, 150⟩
    let w : Heater ℚ := ⟨none, some ["normal"], some [("normal", c)], false⟩
    let u : Update ℚ := ⟨fun f => .ok (if f < 1/2 then 60 else 150), 0⟩
    Stratified u.tempAt ∧ (w.run [u]).active = true ∧ (w.run [u, u]).active = false ∧
      (w.run [u, u, u]).active = true := by
  refine ⟨?_, by decide +kernel, by decide +kernel, by decide +kernel⟩
  intro f g a b hfg ha hb
  simp only [Except.ok.injEq] at ha hb
  subst ha hb
  split <;> split <;> norm_num
  rename_i h1 h2
  exact absurd (lt_of_le_of_lt hfg h2) h1

/-! ## C25 -/

/-- **C25 (output).** Off: no heat. On: the capacity of the performance map. -/
theorem C25_output (w : Heater K) (oat : Option K) (outlet : K) (inlet : Option K) :
    (w.active = false → w.getOutput oat outlet inlet = .ok 0) ∧
    (∀ p, w.active = true → w.perf = some p →
      w.getOutput oat outlet inlet = p.getCapacity oat outlet inlet) := by
  constructor
  · intro h; simp [Heater.getOutput, h]
  · intro p h hp
    simp only [Heater.getOutput, Heater.getCapacity, h, hp]
    cases p.getCapacity oat outlet inlet <;> rfl

/-- **C25 (missing controls).** A control update for an hour without controls raises: `ValueError` for a
missing schedule, map or key, `IndexError` beyond the end of the schedule. The heater is unchanged. -/
theorem C25_missing_controls (w : Heater K) (tempAt : K → Py K) (hour : Nat) :
    (w.sched = none ∨ w.cmap = none → w.updateState tempAt hour = (w, .error .valueError)) ∧
    (∀ s m, w.sched = some s → w.cmap = some m →
      (s.length ≤ hour → w.updateState tempAt hour = (w, .error .indexError)) ∧
      (∀ key, s[hour]? = some key → dictGet? m key = none →
        w.updateState tempAt hour = (w, .error .valueError))) := by
  refine ⟨?_, ?_⟩
  · rintro (h | h)
    · simp [Heater.updateState, Heater.getControls, h]
    · simp only [Heater.updateState, Heater.getControls, h]
      cases w.sched <;> rfl
  · intro s m h1 h2
    refine ⟨?_, ?_⟩
    · intro h
      simp only [Heater.updateState, Heater.getControls, h1, h2, pyGet_of_ge h, error_bind]
    · intro key h3 h4
      have : pyGet s hour = .ok key := pyGet_eq_ok.mpr h3
      simp only [Heater.updateState, Heater.getControls, h1, h2, this, ok_bind, h4, pure_eq_ok]

/-- **C25 (all failures).** Whatever an update raises, the heater is unchanged; and it succeeds for every
hour with controls when the tank can be read. -/
theorem C25_failed_update_keeps_state (w w' : Heater K) (tempAt : K → Py K) (hour : Nat) (e : PyErr)
    (h : w.updateState tempAt hour = (w', .error e)) : w' = w := by
  unfold Heater.updateState at h
  split at h
  · simp only [Prod.mk.injEq] at h; exact h.1.symm
  · simp only [Prod.mk.injEq] at h; exact h.1.symm
  · split at h <;> split at h <;> simp only [Prod.mk.injEq, reduceCtorEq, and_false] at h
      <;> exact h.1.symm

/-- Non-vacuity of C23 and C25: a heater on the demo schedule goes on, stays on, goes off. -/
example :
    let w : Heater ℚ := Heater.fromNominal 100 (some Demo.sched) (some Demo.map)
    let cold : Update ℚ := ⟨fun _ => .ok 60, 3⟩
    let mid : Update ℚ := ⟨fun _ => .ok 115, 3⟩
    let hot : Update ℚ := ⟨fun _ => .ok 150, 3⟩
    (w.run [cold]).active = true ∧ (w.run [cold, mid]).active = true ∧
      (w.run [cold, mid, hot]).active = false ∧ (w.run [cold, mid, hot, mid]).active = false ∧
      (w.run [cold]).getOutput none 150 none = .ok 100 ∧
      (w.updateState mid.tempAt 24).2 = .error .indexError := by
  decide +kernel

/-- Non-vacuity of C24: the controls of the demo map. -/
example : ∀ p ∈ Demo.map, p.2.offFract ≤ p.2.onFract ∧ p.2.onTrig ≤ p.2.offTrig := by
  decide +kernel

end Eco
