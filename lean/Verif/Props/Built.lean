import Verif.Props.EngineReport

/-! C110: the system that is built after sizing. -/

namespace Eco
variable {K : Type} [Field K] [LinearOrder K] [IsStrictOrderedRing K]

set_option linter.unusedSectionVars false

open Spec

/-- **C110 (what is built).** The engine's sized system has the requested temperatures, one tank of the reported storage,
and one heater that is off, carries the requested controls, and has the reported capacity in all conditions. -/
theorem C110_built_as_reported (db : ShapeFiles K) (b : Building K) (a : SizeArgs K) (s : DhwSys K) (p : Prim K)
    (h : dhwFromSize db b a = .ok (s, p)) :
    ∃ cap vol t w, (sizingResults s).minCap = some cap ∧ (sizingResults s).minStorage = some vol ∧
      p.supply = a.supply ∧ p.storage = a.storage ∧ p.tank = some t ∧ t.vol = vol ∧ t.slope = 28 / 10 ∧
      p.heaters = [w] ∧ w.active = false ∧ w.sched = a.control.map (·.1) ∧ w.cmap = a.control.map (·.2) ∧
      ∀ oat outlet inlet, w.getCapacity oat outlet inlet = .ok (some cap) := by
  obtain ⟨cap, vol, h1, h2, rfl⟩ := dhwFromSize_ok h
  refine ⟨cap, vol, StratTank.new vol (28 / 10), Heater.fromNominal cap (a.control.map (·.1)) (a.control.map (·.2)),
    ?_, ?_, rfl, rfl, rfl, rfl, rfl, rfl, rfl, rfl, rfl, fun _ _ _ => rfl⟩
  · unfold getMinCapacity at h1
    unfold sizingResults
    split at h1 <;> simp_all
  · unfold getMinStorage at h2
    unfold sizingResults
    split at h2 <;> simp_all

/-- **C110 (a day's heat).** Without shed hours the reported capacity, derated for defrost, gives in the maximum run hours
(24 if none are asked for) exactly the heat that raises the daily use from the design inlet temperature to supply
temperature. -/
theorem C110_day (db : ShapeFiles K) (b : Building K) (a : SizeArgs K) (s : DhwSys K) (p : Prim K) (hrs inlet cap : K)
    (hh : a.maxRunHr = some hrs ∨ a.maxRunHr = none ∧ hrs = 24) (hn : a.control.all (fun c => !dictHas c.2 "shed"))
    (hin : requireDesignInlet b = .ok inlet) (h : dhwFromSize db b a = .ok (s, p))
    (hcap : (sizingResults s).minCap = some cap) :
    cap * 1000 * a.defrost * hrs = b.dailyGal * rhoCp K * (a.supply - inlet) := by
  have ehr : a.maxRunHr.getD 24 = hrs := by rcases hh with e | ⟨e, rfl⟩ <;> rw [e] <;> rfl
  have hls : lsInputs (a.control.map (·.1)) (a.control.map (·.2)) = none := by
    cases hc : a.control with
    | none => rfl
    | some c =>
      rw [hc] at hn
      simp only [Option.all_some, Bool.not_eq_eq_eq_not, Bool.not_true] at hn
      simp only [Option.map_some, lsInputs]
      cases truthySched (some c.1) <;> simp [hn]
  unfold dhwFromSize at h
  simp only [bind_eq_ok, pure_eq_ok, Except.ok.injEq, Prod.mk.injEq, ehr] at h
  obtain ⟨s0, h0, _, _, _, _, rfl, _⟩ := h
  unfold fromSize at h0
  rcases size_cases baseMethods db { cfg := ⟨a.supply, a.storage, hrs, a.defrost⟩ } b (a.control.map (·.1))
    (a.control.map (·.2)) (28 / 10) (a.fract.getD 1) with
    ⟨e, _, he⟩ | ⟨b', hb', ⟨e, _, he⟩ | ⟨c, st, hc, ⟨e, _, he⟩ | ⟨ws', b3, hw, he, _, _⟩⟩⟩
  · rw [he] at h0; simp at h0
  · rw [he] at h0; simp at h0
  · rw [he] at h0; simp at h0
  rw [he] at h0
  simp only [Except.ok.injEq] at h0
  subst h0
  obtain rfl : c = cap := by simpa [sizingResults] using hcap
  rw [hls] at hc
  unfold sizeCore at hc
  simp only [bind_eq_ok, pure_eq_ok, Except.ok.injEq, Prod.mk.injEq] at hc
  obtain ⟨_, _, c', h2, _, _, _, _, _, _, rfl, _⟩ := hc
  have hb1 : b'.dailyGal = b.dailyGal ∧ requireDesignInlet b' = requireDesignInlet b := by
    unfold dailyView at hb'
    split at hb'
    · obtain ⟨d, _, _, _, a, _, rfl⟩ := setToAnnual_of_setToDaily hb'
      exact ⟨rfl, rfl⟩
    · have : b = b' := by injection hb'
      rw [this]; exact ⟨rfl, rfl⟩
  obtain ⟨_, n1, n2⟩ := (C03_capacity_errors _ _).mp ⟨_, h2⟩
  obtain ⟨c2, k1, k2⟩ := C03_capacity_delivers_daily_heat (cappedCfg ⟨a.supply, a.storage, hrs, a.defrost⟩ none) b' inlet
    (by rw [hb1.2]; exact hin) n1 n2
  have : c' = c2 := by
    have h2' : requiredCapacity (cappedCfg ⟨a.supply, a.storage, hrs, a.defrost⟩ none) b' = .ok c' := h2
    rw [h2'] at k1; injection k1
  rw [this, ← hb1.1]
  exact k2

theorem built_step {b : Building K} {ts : ℕ} {cap : K} {s s' : Prim K} {i : ℕ} {o : StepOut K} (w : Heater K)
    (hw : s.heaters = [w]) (hp : w.perf = some (.nominal cap)) (h : Prim.step b ts s i = .ok (s', o)) :
    (∃ w', s'.heaters = [w'] ∧ w'.perf = some (.nominal cap) ∧ (s.tank.isSome → o.output = if w'.active then cap else 0)) ∧
      (o.output = 0 ∨ o.output = cap) := by
  unfold Prim.step at h
  rw [bind_eq_ok] at h
  obtain ⟨inp, _, h⟩ := h
  cases ht : s.tank with
  | none =>
    simp only [ht, pure_eq_ok, Except.ok.injEq, Prod.mk.injEq] at h
    obtain ⟨rfl, rfl⟩ := h
    exact ⟨⟨w, hw, hp, by simp⟩, .inl rfl⟩
  | some t =>
    simp only [ht, bind_eq_ok, pure_eq_ok, Except.ok.injEq, Prod.mk.injEq] at h
    obtain ⟨⟨ws, t', q, kws⟩, hh, rfl, rfl⟩ := h
    obtain ⟨k1, _, _, k4, _, _⟩ := heatPrimary_ok hh
    rw [hw] at k1
    have hs := updateAll_same k1
    obtain ⟨w', rfl, hs'⟩ : ∃ w', ws = [w'] ∧ SameHeater w w' := by
      cases hs with
      | cons a b => cases b; exact ⟨_, rfl, a⟩
    have hp' : w'.perf = some (.nominal cap) := by rw [hs'.1, hp]
    have hq : q = if w'.active then cap else 0 := by
      unfold totalOutput at k4
      simp only [List.mapM_cons, List.mapM_nil, bind_eq_ok, pure_eq_ok, Except.ok.injEq] at k4
      obtain ⟨vs, ⟨v, ⟨out, _, hv⟩, vs', hvs, rfl⟩, rfl⟩ := k4
      subst hvs
      unfold Heater.getOutput Heater.getCapacity at hv
      rw [hp'] at hv
      cases ha : w'.active with
      | false => rw [ha] at hv; simp at hv; simp [← hv]
      | true => rw [ha] at hv; simp [PerfMap.getCapacity, ok_bind, pure_eq_ok] at hv; simp [← hv]
    refine ⟨⟨w', rfl, hp', fun _ => hq⟩, ?_⟩
    show q = 0 ∨ q = cap
    rw [hq]; split
    · exact .inr rfl
    · exact .inl rfl

/-- **C110 (in simulation).** Whatever the weather and however long the simulation, a sized system's heater gives the
reported capacity or nothing; the defrost factor that enlarged the capacity does not reduce its output. -/
theorem C110_output (db : ShapeFiles K) (b : Building K) (a : SizeArgs K) (s : DhwSys K) (p p' : Prim K) (cap : K)
    (h : dhwFromSize db b a = .ok (s, p)) (hcap : (sizingResults s).minCap = some cap) (b' : Building K) (thr : K)
    (maxMin : Int) (duration : String) (r : SimRun K) (hr : p.simulate b' thr maxMin duration = .ok (p', r)) :
    ∀ q ∈ r.output, q = 0 ∨ q = cap := by
  obtain ⟨c, vol, h1, _, rfl⟩ := dhwFromSize_ok h
  obtain rfl : c = cap := by
    unfold getMinCapacity at h1
    unfold sizingResults at hcap
    split at h1 <;> simp_all
  unfold Prim.simulate at hr
  simp only [bind_eq_ok] at hr
  obtain ⟨_, _, s1, k1, k2⟩ := hr
  obtain ⟨dur, ts, outs, _, _, _, htr, hrec, _⟩ := simulate_spec _ _ _ _ _ _ _ _ _ k2
  have hs1 : s1.heaters = [Heater.fromNominal c (a.control.map (·.1)) (a.control.map (·.2))] := by
    unfold Prim.init at k1
    simp only [bind_eq_ok, pure_eq_ok, Except.ok.injEq] at k1
    obtain ⟨_, _, rfl⟩ := k1
    rfl
  obtain ⟨_, good⟩ := trace_forall (fun q : Prim K => ∃ w, q.heaters = [w] ∧ w.perf = some (.nominal c))
    (fun _ o => o.output = 0 ∨ o.output = c) (fun q i q' o ⟨w, e1, e2⟩ hst => by
      obtain ⟨⟨w', f1, f2, _⟩, f3⟩ := built_step w e1 e2 hst
      exact ⟨⟨w', f1, f2⟩, f3⟩) outs s1 p' 0 ⟨_, hs1, rfl⟩ htr
  intro q hq
  rw [hrec.output] at hq
  obtain ⟨o, ho, rfl⟩ := List.mem_map.1 hq
  obtain ⟨j, hj⟩ := List.mem_iff_getElem?.1 ho
  exact good j o hj

/-- The demo system: 36.5 kBtu/h in 16 hours heat 1000 gallons by 70 °F. -/
example : ∃ s p, dhwFromSize Demo.noFiles Demo.building Demo.sizeArgs = .ok (s, p) ∧
    (sizingResults s).minCap = some (11694949 / 320000) ∧
    (11694949 / 320000 : ℚ) * 1000 * 1 * 16 = 1000 * rhoCp ℚ * (120 - 50) ∧
    ∃ p' r, p.simulate Demo.building 5 10 "3day" = .ok (p', r) ∧ ∀ q ∈ r.output, q = 0 ∨ q = 11694949 / 320000 := by
  have h : (match dhwFromSize Demo.noFiles Demo.building Demo.sizeArgs with
    | .ok (s, _) => decide ((sizingResults s).minCap = some (11694949 / 320000) ∧
        (sizingResults s).minStorage = some (24500 / 83))
    | .error _ => false) = true := by decide +kernel
  split at h
  · rename_i s p hs
    simp only [decide_eq_true_eq] at h
    refine ⟨s, p, hs, h.1,
      C110_day Demo.noFiles Demo.building Demo.sizeArgs s p 16 50 _ (.inl rfl) (by decide) rfl hs h.1, ?_⟩
    obtain ⟨cap, vol, g1, g2, rfl⟩ := dhwFromSize_ok hs
    have hc : cap = 11694949 / 320000 := by
      unfold getMinCapacity at g1
      unfold sizingResults at h
      split at g1 <;> simp_all
    have hv : vol = 24500 / 83 := by
      unfold getMinStorage at g2
      unfold sizingResults at h
      split at g2 <;> simp_all
    subst hc hv
    obtain ⟨p', r, hr⟩ := C91_completes_partial Demo.sized Demo.building 5 10 "3day" (.inl rfl) Demo.answers
      Demo.sized_ready (by
        intro t ht
        obtain rfl : StratTank.new (24500 / 83) (28 / 10) = t := by simpa [Demo.sized, Prim.ofSized] using ht
        decide +kernel)
    exact ⟨p', r, hr, C110_output Demo.noFiles Demo.building Demo.sizeArgs s _ p' _ hs h.1 Demo.building 5 10 "3day" r hr⟩
  · simp at h

end Eco
