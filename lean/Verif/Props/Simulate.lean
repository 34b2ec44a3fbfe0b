import Verif.Model.Simulate
import Verif.Spec.Sim
import Verif.Spec.Run
import Verif.Lemmas.SimRun
import Verif.Props.SimRun
import Verif.Props.StratTank
import Verif.Props.Heater
import Verif.Props.Demo

/-! C72, C73 and C88 to C90: simulations of the systems with a primary stratified tank. -/

namespace Eco
set_option linter.unusedSectionVars false
variable {K : Type} [Field K] [LinearOrder K] [IsStrictOrderedRing K]

open Spec

/-! ## From one step to a run -/

/-- An invariant of the system's state carries a fact about each step's report to every step of a trace. -/
theorem trace_forall {S : Type} {step : S → ℕ → Py (S × StepOut K)} (P : S → Prop) (Q : ℕ → StepOut K → Prop)
    (hP : ∀ s i s' o, P s → step s i = .ok (s', o) → P s' ∧ Q i o) :
    ∀ (outs : List (StepOut K)) (s s' : S) (i : ℕ), P s → Trace step s i outs s' →
      P s' ∧ ∀ j o, outs[j]? = some o → Q (i + j) o := by
  intro outs
  induction outs with
  | nil => rintro s s' i h rfl; exact ⟨h, by simp⟩
  | cons o os ih =>
    rintro s s' i h ⟨s1, h1, h2⟩
    obtain ⟨p1, q1⟩ := hP s i s1 o h h1
    obtain ⟨p2, q2⟩ := ih s1 s' (i + 1) p1 h2
    refine ⟨p2, ?_⟩
    intro j x hx
    cases j with
    | zero => simp at hx; subst hx; exact q1
    | succ j => simp at hx; have := q2 j x hx; rwa [show i + (j + 1) = i + 1 + j by omega]

/-- The states a trace goes through. -/
theorem trace_states {S : Type} {step : S → ℕ → Py (S × StepOut K)} :
    ∀ (outs : List (StepOut K)) (s s' : S) (i : ℕ), Trace step s i outs s' →
      ∃ st : ℕ → S, st 0 = s ∧ st outs.length = s' ∧
        ∀ j o, outs[j]? = some o → step (st j) (i + j) = .ok (st (j + 1), o) := by
  intro outs
  induction outs with
  | nil => rintro s s' i rfl; exact ⟨fun _ => s', rfl, rfl, by simp⟩
  | cons o os ih =>
    rintro s s' i ⟨s1, h1, h2⟩
    obtain ⟨st, a, b, c⟩ := ih s1 s' (i + 1) h2
    refine ⟨fun n => match n with | 0 => s | n + 1 => st n, rfl, b, ?_⟩
    intro j x hx
    cases j with
    | zero => simp at hx; subst hx; simp only [Nat.add_zero]; rw [a]; exact h1
    | succ j => simp at hx; have := c j x hx; rwa [show i + (j + 1) = i + 1 + j by omega]

/-! ## Heaters -/

/-- Same heater up to being on or off. -/
def SameHeater (w w' : Heater K) : Prop := w'.perf = w.perf ∧ w'.sched = w.sched ∧ w'.cmap = w.cmap

theorem SameHeater.inForce {w w' : Heater K} (h : SameHeater w w') (hour : ℕ) (c : Controls K) :
    InForce w' hour c ↔ InForce w hour c := by
  unfold InForce; rw [h.2.1, h.2.2]

theorem sameHeater_refl (ws : List (Heater K)) : List.Forall₂ SameHeater ws ws := by
  induction ws with
  | nil => exact .nil
  | cons w ws ih => exact .cons ⟨rfl, rfl, rfl⟩ ih

theorem forall₂_trans {ws ws' ws'' : List (Heater K)} (h : List.Forall₂ SameHeater ws ws')
    (h' : List.Forall₂ SameHeater ws' ws'') : List.Forall₂ SameHeater ws ws'' := by
  induction h generalizing ws'' with
  | nil => cases h'; exact .nil
  | cons a _ ih =>
    cases h' with
    | cons b hb =>
      exact .cons ⟨b.1.trans a.1, b.2.1.trans a.2.1, b.2.2.trans a.2.2⟩ (ih hb)

theorem updateAll_same {ws ws' : List (Heater K)} {f : K → Py K} {hour : ℕ}
    (h : updateAll ws f hour = .ok ws') : List.Forall₂ SameHeater ws ws' := by
  unfold updateAll at h
  rw [mapM_eq_ok] at h
  refine h.imp ?_
  intro w w' hw
  have := updateState_fixed w ⟨f, hour⟩
  cases e : w.updateState f hour with
  | mk w1 r =>
    rw [e] at hw
    simp only [e] at this
    cases r with
    | error e => simp at hw
    | ok u => simp only [Except.ok.injEq] at hw; subst hw; exact ⟨this.2.2, this.1, this.2.1⟩

theorem isOutlet_congr {ws ws' : List (Heater K)} (h : List.Forall₂ SameHeater ws ws') (storage : K) (hour : ℕ) (x : K)
    (hx : IsOutlet ws' storage hour x) : IsOutlet ws storage hour x := by
  have key : ∀ (P : Controls K → Prop), (∃ w ∈ ws, ∃ c, InForce w hour c ∧ P c) ↔
      ∃ w ∈ ws', ∃ c, InForce w hour c ∧ P c := by
    intro P
    clear hx
    induction h with
    | nil => simp
    | cons a _ ih => simp only [List.mem_cons, exists_eq_or_imp, ih, a.inForce]
  unfold IsOutlet at *
  have e : {y | ∃ w ∈ ws, ∃ c, InForce w hour c ∧ c.outlet = y} =
      {y | ∃ w ∈ ws', ∃ c, InForce w hour c ∧ c.outlet = y} := by
    ext y; exact key (fun c => c.outlet = y)
  rw [e]
  rcases hx with hx | ⟨hx, hy⟩
  · exact .inl hx
  · refine .inr ⟨?_, hy⟩
    intro w hw c hc
    obtain ⟨w', hw', c', hc', _⟩ := (key (fun _ => True)).1 ⟨w, hw, c, hc, trivial⟩
    exact hx w' hw' c' hc'

theorem anyShift_congr {ws ws' : List (Heater K)} (h : List.Forall₂ SameHeater ws ws') :
    ws'.any (·.isLoadShifting) = ws.any (·.isLoadShifting) := by
  induction h with
  | nil => rfl
  | @cons w w' _ _ a _ ih =>
    have e : w'.isLoadShifting = w.isLoadShifting := by unfold Heater.isLoadShifting; rw [a.2.2]
    simp only [List.any_cons, ih, e]

theorem inForce_iff {w : Heater K} {hour : ℕ} {c : Controls K} :
    InForce w hour c ↔ w.getControls hour = .ok (some c) := by
  rw [getControls_some]; rfl

theorem outletAt_ok {ws : List (Heater K)} {storage : K} {hour : ℕ} {x : K}
    (h : outletAt ws storage hour = .ok x) : IsOutlet ws storage hour x := by
  unfold outletAt at h
  simp only [bind_eq_ok, pure_eq_ok, Except.ok.injEq, mapM_eq_ok] at h
  obtain ⟨cs, h1, h2⟩ := h
  have key : ∀ c, c ∈ cs.filterMap id ↔ ∃ w ∈ ws, InForce w hour c := by
    intro c
    clear h2
    induction h1 with
    | nil => simp
    | @cons w o _ os a _ ih =>
      simp only [List.mem_cons, exists_eq_or_imp, inForce_iff, a, Except.ok.injEq]
      cases o with
      | none => simpa [inForce_iff] using ih
      | some d =>
        have e : (some d :: os).filterMap id = d :: os.filterMap id := List.filterMap_cons_some rfl
        rw [e, List.mem_cons, ih, Option.some.injEq, eq_comm]
        simp only [inForce_iff]
  cases hm : ((cs.filterMap id).map (·.outlet)).max? with
  | none =>
    rw [hm] at h2
    rw [List.max?_eq_none_iff, List.map_eq_nil_iff] at hm
    refine .inr ⟨?_, h2.symm⟩
    intro w hw c hc
    have := (key c).2 ⟨w, hw, hc⟩
    rw [hm] at this; simp at this
  | some m =>
    rw [hm] at h2
    simp only [Option.getD_some] at h2
    subst h2
    rw [List.max?_eq_some_iff] at hm
    refine .inl ⟨?_, ?_⟩
    · obtain ⟨c, hc, e⟩ := List.mem_map.1 hm.1
      obtain ⟨w, hw, hf⟩ := (key c).1 hc
      exact ⟨w, hw, c, hf, e⟩
    · rintro y ⟨w, hw, c, hc, rfl⟩
      exact hm.2 _ (List.mem_map.2 ⟨c, (key c).2 ⟨w, hw, hc⟩, rfl⟩)

/-- With all heaters off there is no output and no power. -/
theorem totalOutput_off {ws : List (Heater K)} {oat : K} {hour : ℕ} {inlet : Option K} {x : K}
    (h : totalOutput ws oat hour inlet = .ok x) (hoff : ∀ w ∈ ws, w.active = false) : x = 0 := by
  unfold totalOutput at h
  simp only [bind_eq_ok, pure_eq_ok, Except.ok.injEq, mapM_eq_ok] at h
  obtain ⟨vs, h1, rfl⟩ := h
  induction h1 with
  | nil => rfl
  | @cons w v _ _ a _ ih =>
    obtain ⟨o, _, a⟩ := a
    unfold Heater.getOutput at a
    rw [if_pos (hoff w (by simp))] at a
    simp only [Except.ok.injEq] at a
    rw [List.sum_cons, ← a, zero_add]
    exact ih (fun w hw => hoff w (List.mem_cons_of_mem _ hw))

theorem activeKws_off {ws : List (Heater K)} {oat : K} {hour : ℕ} {inlet : Option K} {x : List (Option K)}
    (h : activeKws ws oat hour inlet = .ok x) (hoff : ∀ w ∈ ws, w.active = false) : x = [] := by
  unfold activeKws at h
  rw [List.filter_eq_nil_iff.2 (by simpa using hoff)] at h
  rw [mapM_eq_ok] at h
  cases h; rfl

/-! ## What one step reports -/

/-- A report that a tank of `vol` gallons could have given at step `i`. -/
def GoodOut (b : Building K) (ws : List (Heater K)) (storage vol : K) (avg : Bool) (ts i : ℕ) (o : StepOut K) : Prop :=
  (0 ≤ o.usable ∧ o.usable ≤ vol) ∧ o.temps.length = 6 ∧
  (∀ m n, m ≤ n → n < 6 → o.temps.getD m 0 ≤ o.temps.getD n 0) ∧
  (∃ cold hot, b.getInlet i ts = .ok cold ∧ IsOutlet ws storage (hourOf i ts) hot ∧
    (cold ≤ hot → ∀ n < 6, cold ≤ o.temps.getD n 0 ∧ o.temps.getD n 0 ≤ hot)) ∧
  b.getOat i ts = .ok o.oat ∧ b.getInlet i ts = .ok o.inlet ∧ b.getDhwLoad i ts avg = .ok o.demand

theorem nodes_mono (s : StratTank K) (hs : 0 < s.slope) (m n : ℕ) (h : m ≤ n) (hn : n < 6) :
    ((nodeFracts (K := K)).map s.tempAt).getD m 0 ≤ ((nodeFracts (K := K)).map s.tempAt).getD n 0 := by
  have key : ∀ m n : ℕ, m ≤ n → n < 6 → (nodeFracts (K := K)).getD m 0 ≤ (nodeFracts (K := K)).getD n 0 := by
    intro m n h hn
    interval_cases n <;> interval_cases m <;> simp [nodeFracts] <;> norm_num
  have e : ∀ k < 6, ((nodeFracts (K := K)).map s.tempAt).getD k 0 = s.tempAt ((nodeFracts (K := K)).getD k 0) := by
    intro k hk
    interval_cases k <;> simp [nodeFracts]
  rw [e m (by omega), e n hn]
  exact s.tempAt_mono hs.le (key m n h hn)

theorem nodes_bounds (s : StratTank K) (h : s.inlet ≤ s.outlet) (n : ℕ) (hn : n < 6) :
    s.inlet ≤ ((nodeFracts (K := K)).map s.tempAt).getD n 0 ∧ ((nodeFracts (K := K)).map s.tempAt).getD n 0 ≤ s.outlet := by
  have e : ((nodeFracts (K := K)).map s.tempAt).getD n 0 = s.tempAt ((nodeFracts (K := K)).getD n 0) := by
    interval_cases n <;> simp [nodeFracts]
  rw [e]; exact s.tempAt_bounds h _

theorem inputs_ok {s : Prim K} {b : Building K} {t int : ℕ} {i : StepIn K} (h : s.inputs b t int = .ok i) :
    b.getDhwLoad t int (s.heaters.any (·.isLoadShifting)) = .ok i.demand ∧ b.getOat t int = .ok i.oat ∧
    b.getInlet t int = .ok i.inlet ∧ i.hour = hourOf t int ∧ IsOutlet s.heaters s.storage i.hour i.outlet ∧
    modeAt s.heaters i.hour = .ok i.mode := by
  unfold Prim.inputs at h
  simp only [bind_eq_ok, pure_eq_ok, Except.ok.injEq] at h
  obtain ⟨d, h1, o, h2, c, h3, x, h4, m, h5, rfl⟩ := h
  exact ⟨h1, h2, h3, rfl, outletAt_ok h4, h5⟩

theorem heatPrimary_ok {ws ws' : List (Heater K)} {tank tank' : StratTank K} {i : StepIn K} {int : ℕ} {q : K}
    {kws : List (Option K)} (h : heatPrimary ws tank i int = .ok (ws', tank', q, kws)) :
    updateAll ws tank.tempAtPy i.hour = .ok ws' ∧ tank.vol ≠ 0 ∧ tank.slope ≠ 0 ∧
    totalOutput ws' i.oat i.hour (some i.inlet) = .ok q ∧ activeKws ws' i.oat i.hour (some i.inlet) = .ok kws ∧
    tank' = tank.heat q int i.outlet := by
  unfold heatPrimary at h
  simp only [bind_eq_ok] at h
  obtain ⟨w, h1, x, h2, q', h3, k, h4, h⟩ := h
  split at h
  · simp at h
  · rename_i hs
    simp only [pure_eq_ok, Except.ok.injEq, Prod.mk.injEq] at h
    obtain ⟨rfl, rfl, rfl, rfl⟩ := h
    refine ⟨h1, ?_, hs, h3, h4, rfl⟩
    unfold StratTank.tempAtPy at h2
    split at h2
    · simp at h2
    · assumption

theorem draw_fields (s : StratTank K) (v c su o : K) : (s.draw v c su o).vol = s.vol ∧
    (s.draw v c su o).slope = s.slope ∧ (s.draw v c su o).inlet = c ∧ (s.draw v c su o).outlet = o := by
  unfold StratTank.draw; simp only; split <;> exact ⟨rfl, rfl, rfl, rfl⟩

theorem heat_fields (s : StratTank K) (q d o : K) : (s.heat q d o).vol = s.vol ∧
    (s.heat q d o).slope = s.slope ∧ (s.heat q d o).inlet = s.inlet ∧ (s.heat q d o).outlet = o := by
  unfold StratTank.heat; simp only; split <;> exact ⟨rfl, rfl, rfl, rfl⟩

theorem recirc_fields (s : StratTank K) (f r d : K) (su : Option K) : (s.recirc f r d su).vol = s.vol ∧
    (s.recirc f r d su).slope = s.slope ∧ (s.recirc f r d su).inlet = s.inlet ∧
    (s.recirc f r d su).outlet = s.outlet := by
  unfold StratTank.recirc; split <;> exact ⟨rfl, rfl, rfl, rfl⟩

theorem drawPhysical_fields (s : StratTank K) (g c : K) (su : Option K) : (s.drawPhysical g c su).vol = s.vol ∧
    (s.drawPhysical g c su).slope = s.slope ∧ (s.drawPhysical g c su).inlet = c ∧
    (s.drawPhysical g c su).outlet = s.outlet := by
  unfold StratTank.drawPhysical; simp only; split <;> exact ⟨rfl, rfl, rfl, rfl⟩

theorem goodOut_of {b : Building K} {ws : List (Heater K)} {storage vol : K} {avg : Bool} {ts t : ℕ} {o : StepOut K}
    {cold hot : K} (tank : StratTank K) (hs : 0 < tank.slope) (hin : tank.inlet = cold) (hout : tank.outlet = hot)
    (hu : 0 ≤ o.usable ∧ o.usable ≤ vol) (ht : o.temps = nodeFracts.map tank.tempAt)
    (hc : b.getInlet t ts = .ok cold) (hh : IsOutlet ws storage (hourOf t ts) hot)
    (h1 : b.getOat t ts = .ok o.oat) (h2 : b.getInlet t ts = .ok o.inlet) (h3 : b.getDhwLoad t ts avg = .ok o.demand) :
    GoodOut b ws storage vol avg ts t o := by
  refine ⟨hu, by rw [ht]; simp [nodeFracts], ?_, ⟨cold, hot, hc, hh, ?_⟩, h1, h2, h3⟩
  · rw [ht]; exact nodes_mono tank hs
  · rw [ht]
    intro h n hn
    have := nodes_bounds tank (by rw [hin, hout]; exact h) n hn
    rwa [hin, hout] at this

/-- What every simulated state shares with the state the simulation started from. -/
def PrimInv (s0 : Prim K) (vol slope : K) (s : Prim K) : Prop :=
  s.supply = s0.supply ∧ s.storage = s0.storage ∧ List.Forall₂ SameHeater s0.heaters s.heaters ∧
  ∃ t, s.tank = some t ∧ t.vol = vol ∧ t.slope = slope

theorem primStep_good {s0 : Prim K} {vol slope : K} (hv : 0 < vol) (hs : 0 < slope) (b : Building K) (ts : ℕ)
    (s : Prim K) (i : ℕ) (s' : Prim K) (o : StepOut K) (hinv : PrimInv s0 vol slope s)
    (h : Prim.step b ts s i = .ok (s', o)) :
    (PrimInv s0 vol slope s' ∧
      GoodOut b s0.heaters s0.storage vol (s0.heaters.any (·.isLoadShifting)) ts i o) ∧
    ((∀ w ∈ s'.heaters, w.active = false) → o.output = 0 ∧ o.power = none) ∧
    ∃ tank hot, s'.tank = some tank ∧ tank.inlet = o.inlet ∧ tank.outlet = hot ∧
      IsOutlet s0.heaters s0.storage (hourOf i ts) hot := by
  obtain ⟨e1, e2, e3, t, ht, hvol, hslope⟩ := hinv
  unfold Prim.step at h
  rw [ht] at h
  simp only [bind_eq_ok] at h
  obtain ⟨inp, hi, ⟨ws', tank', q, kws⟩, hh, h⟩ := h
  simp only [pure_eq_ok, Except.ok.injEq, Prod.mk.injEq] at h
  obtain ⟨rfl, rfl⟩ := h
  obtain ⟨i1, i2, i3, i4, i5, i6⟩ := inputs_ok hi
  obtain ⟨k1, k2, k3, k4, k5, rfl⟩ := heatPrimary_ok hh
  obtain ⟨d1, d2, d3, d4⟩ := draw_fields (t.heat q ts inp.outlet) inp.demand inp.inlet s.supply inp.outlet
  obtain ⟨f1, f2, f3, f4⟩ := heat_fields t q ts inp.outlet
  have g1 := d1.trans (f1.trans hvol)
  have g2 := d2.trans (f2.trans hslope)
  have same := forall₂_trans e3 (updateAll_same k1)
  have hout : IsOutlet s0.heaters s0.storage (hourOf i ts) inp.outlet := by
    rw [← i4, ← e2]; exact isOutlet_congr e3 _ _ _ i5
  refine ⟨⟨⟨e1, e2, same, _, rfl, g1, g2⟩, ?_⟩, ?_, _, _, rfl, d3, d4, hout⟩
  · refine goodOut_of _ (by rw [g2]; exact hs) d3 d4 ?_ rfl i3 hout i2 i3 (by rw [← anyShift_congr e3]; exact i1)
    have := usable_bounds ((t.heat q ts inp.outlet).draw inp.demand inp.inlet s.supply inp.outlet)
      (by rw [g1]; exact hv) s.supply
    rwa [g1] at this
  · intro hoff
    refine ⟨totalOutput_off k4 hoff, ?_⟩
    rw [activeKws_off k5 hoff]; rfl

/-- Good reports make a good run. -/
theorem run_good {S : Type} {step : ℕ → S → ℕ → Py (S × StepOut K)} {supply : K} {tm : Bool} {thr : K} {maxMin : Int}
    {duration : String} {s s' : S} {r : SimRun K} {b : Building K} {ws : List (Heater K)} {storage vol : K} {avg : Bool}
    (P : S → Prop) (hP : P s)
    (hstep : ∀ ts s i s' o, P s → step ts s i = .ok (s', o) → P s' ∧ GoodOut b ws storage vol avg ts i o)
    (h : simulateFrom step supply tm thr maxMin duration s = .ok (s', r)) :
    Physical b ws storage vol r ∧ Echoes b avg r := by
  obtain ⟨dur, ts, outs, h1, h2, h3, h4, h5, _, h6, _⟩ := simulate_spec step supply tm thr maxMin duration s s' r h
  obtain ⟨_, good⟩ := trace_forall P (GoodOut b ws storage vol avg ts) (hstep ts) outs s s' 0 hP h4
  simp only [Nat.zero_add] at good
  have hmem : ∀ o ∈ outs, ∃ j, GoodOut b ws storage vol avg ts j o := by
    intro o ho
    obtain ⟨j, hj⟩ := List.mem_iff_getElem?.1 ho
    exact ⟨j, good j o hj⟩
  have hlen : ∀ o ∈ outs, o.temps.length = 6 := by
    intro o ho; obtain ⟨j, hj⟩ := hmem o ho; exact hj.2.1
  have nodes := h5.temps hlen
  have len : r.usable.length = outs.length := by rw [h5.usable, List.length_map]
  have hnode : ∀ n < 6, ∀ i o, outs[i]? = some o → nodeTemp r n i = o.temps.getD n 0 := by
    intro n hn i o ho
    unfold nodeTemp
    rw [nodes n hn, List.getD_eq_getElem?_getD, List.getElem?_map, ho]; rfl
  refine ⟨⟨?_, ?_, ?_, ?_⟩, ⟨?_, ?_, ?_⟩⟩
  · intro u hu
    rw [h5.usable] at hu
    obtain ⟨o, ho, rfl⟩ := List.mem_map.1 hu
    obtain ⟨j, hj⟩ := hmem o ho
    exact hj.1
  · intro n hn; rw [nodes n hn, List.length_map, len]
  · intro i hi m n hmn hn
    rw [len] at hi
    have ho : outs[i]? = some outs[i] := List.getElem?_eq_getElem hi
    rw [hnode m (by omega) i _ ho, hnode n hn i _ ho]
    exact (good i _ ho).2.2.1 m n hmn hn
  · intro i hi
    rw [len] at hi
    have ho : outs[i]? = some outs[i] := List.getElem?_eq_getElem hi
    obtain ⟨c, x, a1, a2, a3⟩ := (good i _ ho).2.2.2.1
    refine ⟨c, x, by rw [h3]; exact a1, by rw [h3]; exact a2, ?_⟩
    intro hcx n hn
    rw [hnode n hn i _ ho]; exact a3 hcx n hn
  · intro i x hx
    rw [h5.oat, List.getElem?_map, Option.map_eq_some_iff] at hx
    obtain ⟨o, ho, rfl⟩ := hx
    rw [h3]; exact (good i o ho).2.2.2.2.1
  · intro i x hx
    rw [h5.inlet, List.getElem?_map, Option.map_eq_some_iff] at hx
    obtain ⟨o, ho, rfl⟩ := hx
    rw [h3]; exact (good i o ho).2.2.2.2.2.1
  · intro i x hx
    rw [h5.demand, List.getElem?_map, Option.map_eq_some_iff] at hx
    obtain ⟨o, ho, rfl⟩ := hx
    rw [h3]; exact (good i o ho).2.2.2.2.2.2

theorem primInit_inv {s s1 : Prim K} {b : Building K} {tank : StratTank K} (ht : s.tank = some tank)
    (h : s.init b = .ok s1) : PrimInv s tank.vol tank.slope s1 := by
  unfold Prim.init at h
  simp only [bind_eq_ok, pure_eq_ok, Except.ok.injEq] at h
  obtain ⟨c, _, rfl⟩ := h
  refine ⟨rfl, rfl, sameHeater_refl _, tank.init s.storage c (initialUseable s.heaters), by simp [ht], rfl, rfl⟩

/-! ## C72 -/

/-- **C72.** A simulation of a primary system, of whatever length, records a physically possible run: usable volumes
within the tank, temperatures that do not decrease with height and lie between the building's cold water and the
outlet temperature of the hour. -/
theorem C72_physical (s s' : Prim K) (b : Building K) (thr : K) (maxMin : Int) (duration : String) (r : SimRun K)
    (tank : StratTank K) (ht : s.tank = some tank) (hv : 0 < tank.vol) (hs : 0 < tank.slope)
    (h : s.simulate b thr maxMin duration = .ok (s', r)) :
    Physical b s.heaters s.storage tank.vol r := by
  unfold Prim.simulate at h
  simp only [bind_eq_ok] at h
  obtain ⟨_, _, s1, hi, h⟩ := h
  exact (run_good (PrimInv s tank.vol tank.slope) (primInit_inv ht hi)
    (fun ts s i s' o hp hst => (primStep_good hv hs b ts s i s' o hp hst).1) h).1

/-- **C72, heater output.** At every step of a simulation, the output and the power are zero and absent if all heaters
are off after that step's decision. -/
theorem C72_no_output_when_off (s s' : Prim K) (b : Building K) (thr : K) (maxMin : Int) (duration : String)
    (r : SimRun K) (tank : StratTank K) (ht : s.tank = some tank) (hv : 0 < tank.vol) (hs : 0 < tank.slope)
    (h : s.simulate b thr maxMin duration = .ok (s', r)) :
    ∃ outs st s1, s.init b = .ok s1 ∧ Recorded r outs ∧ States (Prim.step b r.ts) s1 outs st ∧
      ∀ i < outs.length, (∀ w ∈ (st (i + 1)).heaters, w.active = false) →
        r.output[i]? = some 0 ∧ r.power[i]? = some none := by
  unfold Prim.simulate at h
  simp only [bind_eq_ok] at h
  obtain ⟨_, _, s1, hi, h⟩ := h
  obtain ⟨dur, ts, outs, h1, h2, h3, h4, h5, _⟩ := simulate_spec _ _ _ thr maxMin duration s1 s' r h
  obtain ⟨st, a1, a2, a3⟩ := trace_states outs s1 s' 0 h4
  simp only [Nat.zero_add] at a3
  have inv : ∀ i ≤ outs.length, PrimInv s tank.vol tank.slope (st i) := by
    intro i
    induction i with
    | zero => intro _; rw [a1]; exact primInit_inv ht hi
    | succ i ih =>
      intro hle
      exact (primStep_good hv hs b ts _ _ _ _ (ih (by omega))
        (a3 i _ (List.getElem?_eq_getElem (by omega)))).1.1
  refine ⟨outs, st, s1, hi, h5, ⟨a1, by rw [h3]; exact a3⟩, ?_⟩
  intro i hlt hoff
  have ho : outs[i]? = some outs[i] := List.getElem?_eq_getElem hlt
  obtain ⟨q1, q2⟩ := (primStep_good hv hs b ts _ _ _ _ (inv i hlt.le) (a3 i _ ho)).2.1 hoff
  rw [h5.output, h5.power, List.getElem?_map, List.getElem?_map, ho]
  exact ⟨congrArg some q1, congrArg some q2⟩

theorem spStep_good {s0 : Prim K} {vol slope : K} (hv : 0 < vol) (hs : 0 < slope) (l : RtpLoop K) (b : Building K)
    (ts : ℕ) (s : Prim K) (i : ℕ) (s' : Prim K) (o : StepOut K) (hinv : PrimInv s0 vol slope s)
    (h : spStep l b ts s i = .ok (s', o)) :
    PrimInv s0 vol slope s' ∧ GoodOut b s0.heaters s0.storage vol (s0.heaters.any (·.isLoadShifting)) ts i o := by
  unfold spStep at h
  simp only [bind_eq_ok] at h
  obtain ⟨⟨s1, o1⟩, h1, h⟩ := h
  obtain ⟨⟨p, g⟩, _, tank, hot, q1, q2, q3, q4⟩ := primStep_good hv hs b ts s i s1 o1 hinv h1
  obtain ⟨e1, e2, e3, t, ht, hvol, hslope⟩ := p
  rw [q1] at ht
  cases ht
  simp only [q1, pure_eq_ok, Except.ok.injEq, Prod.mk.injEq] at h
  obtain ⟨rfl, rfl⟩ := h
  obtain ⟨r1, r2, r3, r4⟩ := recirc_fields tank l.flow l.ret (ts : K) (some s1.supply)
  have g1 := r1.trans hvol
  have g2 := r2.trans hslope
  obtain ⟨_, _, _, _, a1, a2, a3⟩ := g
  refine ⟨⟨e1, e2, e3, _, rfl, g1, g2⟩, ?_⟩
  refine goodOut_of _ (by rw [g2]; exact hs) (r3.trans q2) (r4.trans q3) ?_ rfl a2 q4 a1 a2 a3
  have := usable_bounds (tank.recirc l.flow l.ret (ts : K) (some s1.supply)) (by rw [g1]; exact hv) s1.supply
  rwa [g1] at this

/-- **C72, single-pass return to primary.** The loop's return water keeps the run physically possible. -/
theorem C72_physical_single_pass (l : RtpLoop K) (s s' : Prim K) (b : Building K) (thr : K) (maxMin : Int)
    (duration : String) (r : SimRun K) (tank : StratTank K) (ht : s.tank = some tank) (hv : 0 < tank.vol)
    (hs : 0 < tank.slope) (h : spSimulate l s b thr maxMin duration = .ok (s', r)) :
    Physical b s.heaters s.storage tank.vol r := by
  unfold spSimulate at h
  simp only [bind_eq_ok] at h
  obtain ⟨_, _, s1, hi, h⟩ := h
  exact (run_good (PrimInv s tank.vol tank.slope) (primInit_inv ht hi)
    (fun ts s i s' o hp hst => spStep_good hv hs l b ts s i s' o hp hst) h).1

theorem parStep_good {s0 : Prim K} {vol slope : K} (hv : 0 < vol) (hs : 0 < slope) (c : TmCfg K) (b : Building K)
    (ts : ℕ) (s : ParSim K) (i : ℕ) (s' : ParSim K) (o : StepOut K) (hinv : PrimInv s0 vol slope s.prim)
    (h : parStep c b ts s i = .ok (s', o)) :
    PrimInv s0 vol slope s'.prim ∧
      GoodOut b s0.heaters s0.storage vol (s0.heaters.any (·.isLoadShifting)) ts i o := by
  unfold parStep at h
  simp only [bind_eq_ok] at h
  obtain ⟨⟨s1, o1⟩, h1, h⟩ := h
  obtain ⟨⟨p, g⟩, _⟩ := primStep_good hv hs b ts s.prim i s1 o1 hinv h1
  split at h
  · simp at h
  · simp only [pure_eq_ok, Except.ok.injEq, Prod.mk.injEq] at h
    obtain ⟨rfl, rfl⟩ := h
    exact ⟨p, g⟩

/-- **C72, parallel loop.** The same for the primary tank of a parallel-loop system. -/
theorem C72_physical_parallel_loop (c : TmCfg K) (s s' : ParSim K) (b : Building K) (thr : K) (maxMin : Int)
    (duration : String) (r : SimRun K) (tank : StratTank K) (ht : s.prim.tank = some tank) (hv : 0 < tank.vol)
    (hs : 0 < tank.slope) (h : parSimulate c s b thr maxMin duration = .ok (s', r)) :
    Physical b s.prim.heaters s.prim.storage tank.vol r := by
  unfold parSimulate at h
  simp only [bind_eq_ok] at h
  obtain ⟨_, _, p1, hi, c1, _, h⟩ := h
  exact (run_good (fun x : ParSim K => PrimInv s.prim tank.vol tank.slope x.prim) (primInit_inv ht hi)
    (fun ts s i s' o hp hst => parStep_good hv hs c b ts s i s' o hp hst) h).1

/-- What every state of a swing simulation shares with the state it started from. -/
def SwingInv (s0 : SwingSim K) (vol slope : K) (s : SwingSim K) : Prop :=
  s.supply = s0.supply ∧ s.storage = s0.storage ∧ List.Forall₂ SameHeater s0.heaters s.heaters ∧
  s.tank.vol = vol ∧ s.tank.slope = slope

theorem swingStep_good {s0 : SwingSim K} {vol slope : K} (hv : 0 < vol) (hs : 0 < slope) (b : Building K)
    (ts : ℕ) (s : SwingSim K) (i : ℕ) (s' : SwingSim K) (o : StepOut K) (hinv : SwingInv s0 vol slope s)
    (h : swingSimStep b ts s i = .ok (s', o)) :
    SwingInv s0 vol slope s' ∧
      GoodOut b s0.heaters s0.storage vol (s0.heaters.any (·.isLoadShifting)) ts i o := by
  obtain ⟨e1, e2, e3, hvol, hslope⟩ := hinv
  unfold swingSimStep at h
  simp only [bind_eq_ok] at h
  obtain ⟨inp, hi, ⟨ws', tank', q, kws⟩, hh, hw, _, h⟩ := h
  split at h
  · simp at h
  simp only [bind_eq_ok] at h
  obtain ⟨⟨w, tk, tkw, tm⟩, _, h⟩ := h
  simp only [pure_eq_ok, Except.ok.injEq, Prod.mk.injEq] at h
  obtain ⟨rfl, rfl⟩ := h
  obtain ⟨i1, i2, i3, i4, i5, i6⟩ := inputs_ok hi
  obtain ⟨k1, k2, k3, k4, k5, rfl⟩ := heatPrimary_ok hh
  obtain ⟨d1, d2, d3, d4⟩ := drawPhysical_fields (s.tank.heat q ts inp.outlet) hw inp.inlet (some s.supply)
  obtain ⟨f1, f2, f3, f4⟩ := heat_fields s.tank q ts inp.outlet
  have g1 := d1.trans (f1.trans hvol)
  have g2 := d2.trans (f2.trans hslope)
  have same := forall₂_trans e3 (updateAll_same k1)
  have hout : IsOutlet s0.heaters s0.storage (hourOf i ts) inp.outlet := by
    rw [← i4, ← e2]; exact isOutlet_congr e3 _ _ _ i5
  refine ⟨⟨e1, e2, same, g1, g2⟩, ?_⟩
  refine goodOut_of _ (by rw [g2]; exact hs) d3 (d4.trans f4) ?_ rfl i3 hout i2 i3
    (by rw [← anyShift_congr e3]; exact i1)
  have := usable_bounds ((s.tank.heat q ts inp.outlet).drawPhysical hw inp.inlet (some s.supply))
    (by rw [g1]; exact hv) s.supply
  rw [g1] at this
  dsimp only
  split
  · exact ⟨le_refl _, hv.le⟩
  · exact this

/-- **C72, swing tank.** The same for the primary tank of a swing system. -/
theorem C72_physical_swing (tmOff : K) (s s' : SwingSim K) (b : Building K) (thr : K) (maxMin : Int)
    (duration : String) (r : SimRun K) (hv : 0 < s.tank.vol) (hs : 0 < s.tank.slope)
    (h : swingSimulate tmOff s b thr maxMin duration = .ok (s', r)) :
    Physical b s.heaters s.storage s.tank.vol r := by
  unfold swingSimulate at h
  simp only [bind_eq_ok] at h
  obtain ⟨_, _, c1, _, h⟩ := h
  refine (run_good (SwingInv s s.tank.vol s.tank.slope) ?_
    (fun ts s i s' o hp hst => swingStep_good hv hs b ts s i s' o hp hst) h).1
  exact ⟨rfl, rfl, sameHeater_refl _, rfl, rfl⟩

/-! ## C73: recorded series are the building's -/

/-- A fact about every step's outdoor temperature holds in the record. -/
theorem run_oat {S : Type} {step : ℕ → S → ℕ → Py (S × StepOut K)} {supply : K} {tm : Bool} {thr : K} {maxMin : Int}
    {duration : String} {s s' : S} {r : SimRun K} {b : Building K}
    (hstep : ∀ ts s i s' o, step ts s i = .ok (s', o) → b.getOat i ts = .ok o.oat)
    (h : simulateFrom step supply tm thr maxMin duration s = .ok (s', r)) (i : ℕ) (x : K)
    (hx : r.oat[i]? = some x) : b.getOat i r.ts = .ok x := by
  obtain ⟨dur, ts, outs, h1, h2, h3, h4, h5, _⟩ := simulate_spec step supply tm thr maxMin duration s s' r h
  obtain ⟨_, good⟩ := trace_forall (fun _ => True) (fun i o => b.getOat i ts = .ok o.oat)
    (fun s i s' o _ h => ⟨trivial, hstep ts s i s' o h⟩) outs s s' 0 trivial h4
  rw [h5.oat, List.getElem?_map, Option.map_eq_some_iff] at hx
  obtain ⟨o, ho, rfl⟩ := hx
  rw [h3]
  simpa using good i o ho

theorem primStep_oat {b : Building K} {ts : ℕ} {s s' : Prim K} {i : ℕ} {o : StepOut K}
    (h : Prim.step b ts s i = .ok (s', o)) : b.getOat i ts = .ok o.oat := by
  unfold Prim.step at h
  simp only [bind_eq_ok] at h
  obtain ⟨inp, hi, h⟩ := h
  have := (inputs_ok hi).2.1
  split at h
  · simp only [pure_eq_ok, Except.ok.injEq, Prod.mk.injEq] at h
    obtain ⟨rfl, rfl⟩ := h; exact this
  · simp only [bind_eq_ok] at h
    obtain ⟨⟨ws', tank', q, kws⟩, hh, h⟩ := h
    simp only [pure_eq_ok, Except.ok.injEq, Prod.mk.injEq] at h
    obtain ⟨rfl, rfl⟩ := h; exact this

/-- **C73, primary system.** The recorded outdoor temperature of every step is the building's, with or without a
tank. -/
theorem C73_primary_partial (s s' : Prim K) (b : Building K) (thr : K) (maxMin : Int) (duration : String) (r : SimRun K)
    (h : s.simulate b thr maxMin duration = .ok (s', r)) (i : ℕ) (x : K) (hx : r.oat[i]? = some x) :
    b.getOat i r.ts = .ok x := by
  unfold Prim.simulate at h
  simp only [bind_eq_ok] at h
  obtain ⟨_, _, s1, _, h⟩ := h
  exact run_oat (fun ts s i s' o h => primStep_oat h) h i x hx

/-- **C73, single-pass return to primary.** -/
theorem C73_single_pass (l : RtpLoop K) (s s' : Prim K) (b : Building K) (thr : K) (maxMin : Int) (duration : String)
    (r : SimRun K) (h : spSimulate l s b thr maxMin duration = .ok (s', r)) (i : ℕ) (x : K)
    (hx : r.oat[i]? = some x) : b.getOat i r.ts = .ok x := by
  unfold spSimulate at h
  simp only [bind_eq_ok] at h
  obtain ⟨_, _, s1, _, h⟩ := h
  refine run_oat (fun ts s i s' o h => ?_) h i x hx
  unfold spStep at h
  simp only [bind_eq_ok] at h
  obtain ⟨⟨s1, o1⟩, h1, h⟩ := h
  have := primStep_oat h1
  split at h <;> (simp only [pure_eq_ok, Except.ok.injEq, Prod.mk.injEq] at h; obtain ⟨rfl, rfl⟩ := h; exact this)

/-- **C73, parallel loop.** -/
theorem C73_parallel_loop (c : TmCfg K) (s s' : ParSim K) (b : Building K) (thr : K) (maxMin : Int) (duration : String)
    (r : SimRun K) (h : parSimulate c s b thr maxMin duration = .ok (s', r)) (i : ℕ) (x : K)
    (hx : r.oat[i]? = some x) : b.getOat i r.ts = .ok x := by
  unfold parSimulate at h
  simp only [bind_eq_ok] at h
  obtain ⟨_, _, s1, _, c1, _, h⟩ := h
  refine run_oat (fun ts s i s' o h => ?_) h i x hx
  unfold parStep at h
  simp only [bind_eq_ok] at h
  obtain ⟨⟨s1, o1⟩, h1, h⟩ := h
  have := primStep_oat h1
  split at h
  · simp at h
  · simp only [pure_eq_ok, Except.ok.injEq, Prod.mk.injEq] at h; obtain ⟨rfl, rfl⟩ := h; exact this

/-- **C73, swing tank.** -/
theorem C73_swing (tmOff : K) (s s' : SwingSim K) (b : Building K) (thr : K) (maxMin : Int) (duration : String)
    (r : SimRun K) (h : swingSimulate tmOff s b thr maxMin duration = .ok (s', r)) (i : ℕ) (x : K)
    (hx : r.oat[i]? = some x) : b.getOat i r.ts = .ok x := by
  unfold swingSimulate at h
  simp only [bind_eq_ok] at h
  obtain ⟨_, _, c1, _, h⟩ := h
  refine run_oat (fun ts s i s' o h => ?_) h i x hx
  unfold swingSimStep at h
  simp only [bind_eq_ok] at h
  obtain ⟨inp, hi, ⟨ws', tank', q, kws⟩, hh, hw, _, h⟩ := h
  have := (inputs_ok hi).2.1
  split at h
  · simp at h
  simp only [bind_eq_ok] at h
  obtain ⟨⟨w, tk, tkw, tm⟩, _, h⟩ := h
  simp only [pure_eq_ok, Except.ok.injEq, Prod.mk.injEq] at h
  obtain ⟨rfl, rfl⟩ := h
  exact this

/-! ## C91: simulations complete -/

theorem checkDeficit_temps (r : SimRun K) (a b : K) : (r.checkDeficit a b).1.temps = r.temps := by
  unfold SimRun.checkDeficit
  split
  · split <;> rfl
  · rfl

theorem simRecord_total (ts : ℕ) (supply : K) (r : SimRun K) (o : StepOut K) (hr : r.temps.length = 6)
    (ho : o.temps.length = 6) : ∃ r' stop, simRecord ts supply r o = .ok (r', stop) ∧ r'.temps.length = 6 := by
  obtain ⟨t, ht⟩ := pushTemps_of_le r.temps o.temps (by omega)
  have hl : t.length = 6 := by rw [(pushTemps_ok ht).1, hr]
  obtain ⟨top, htop⟩ : ∃ top, o.temps.getLast? = some top := by
    cases e : o.temps.getLast? with
    | none => rw [List.getLast?_eq_none_iff] at e; simp [e] at ho
    | some x => exact ⟨x, rfl⟩
  unfold simRecord SimRun.record
  simp only [ht, ok_bind, pure_eq_ok, htop]
  generalize hr' : (if o.usable ≤ 0 then SimRun.recordOutage _ ts else _ : SimRun K) = r1
  have h1 : r1.temps.length = 6 := by
    rw [← hr']; split <;> exact hl
  exact ⟨(r1.checkDeficit (o.delivery.getD top) supply).1, (r1.checkDeficit (o.delivery.getD top) supply).2, rfl,
    by rw [checkDeficit_temps]; exact h1⟩

theorem simLoop_total {S : Type} (step : S → ℕ → Py (S × StepOut K)) (ts : ℕ) (supply : K) (P : S → Prop)
    (hstep : ∀ s i, P s → ∃ s' o, step s i = .ok (s', o) ∧ P s' ∧ o.temps.length = 6) :
    ∀ n i s (r : SimRun K), P s → r.temps.length = 6 → ∃ s' r', simLoop step ts supply n i s r = .ok (s', r') := by
  intro n
  induction n with
  | zero => intro i s r _ _; exact ⟨s, r, rfl⟩
  | succ n ih =>
    intro i s r hp hr
    obtain ⟨s1, o, h1, p1, l1⟩ := hstep s i hp
    obtain ⟨r1, stop, h2, l2⟩ := simRecord_total ts supply r o hr l1
    unfold simLoop
    simp only [h1, h2, ok_bind]
    split
    · exact ⟨_, _, rfl⟩
    · exact ih (i + 1) s1 r1 p1 l2

theorem simulateFrom_total {S : Type} (step : ℕ → S → ℕ → Py (S × StepOut K)) (supply : K) (tm : Bool) (thr : K)
    (maxMin : Int) (duration : String) (s : S) (P : S → Prop) (hd : duration = "3day" ∨ duration = "annual")
    (hP : P s) (hstep : ∀ ts s i, 0 < ts → P s → ∃ s' o, step ts s i = .ok (s', o) ∧ P s' ∧ o.temps.length = 6) :
    ∃ s' r, simulateFrom step supply tm thr maxMin duration s = .ok (s', r) := by
  have key : ∃ dur ts, simDuration duration = .ok (dur, ts) ∧ 0 < ts := by
    rcases hd with rfl | rfl
    · exact ⟨4320, 1, rfl, by norm_num⟩
    · exact ⟨525600, 10, rfl, by norm_num⟩
  obtain ⟨dur, ts, h1, h2⟩ := key
  unfold simulateFrom
  simp only [h1, ok_bind, SimRun.new, if_neg (Nat.pos_iff_ne_zero.1 h2)]
  exact simLoop_total (step ts) ts supply P (fun s i hp => hstep ts s i h2 hp) _ _ _ _ hP rfl

theorem ready_congr {w w' : Heater K} (h : SameHeater w w') (hr : Ready w) : Ready w' := by
  refine ⟨?_, ?_, ?_⟩
  · intro hour hh; obtain ⟨c, hc⟩ := hr.controls hour hh; exact ⟨c, (h.inForce hour c).2 hc⟩
  · intro a b c; obtain ⟨x, hx⟩ := hr.capacity a b c
    refine ⟨x, ?_⟩; unfold Heater.getCapacity at *; rw [h.1]; exact hx
  · intro a b c; obtain ⟨x, hx⟩ := hr.power a b c
    refine ⟨x, ?_⟩; unfold Heater.getPower at *; rw [h.1]; exact hx

theorem allReady_congr {ws ws' : List (Heater K)} (h : List.Forall₂ SameHeater ws ws') (hr : ∀ w ∈ ws, Ready w) :
    ∀ w ∈ ws', Ready w := by
  induction h with
  | nil => simp
  | cons a _ ih =>
    intro w hw
    rcases List.mem_cons.1 hw with rfl | hw
    · exact ready_congr a (hr _ (by simp))
    · exact ih (fun w hw => hr w (List.mem_cons_of_mem _ hw)) w hw

theorem mapM_total {α β : Type} {f : α → Py β} {l : List α} (h : ∀ a ∈ l, ∃ b, f a = .ok b) :
    ∃ ys, l.mapM f = .ok ys := by
  induction l with
  | nil => exact ⟨[], rfl⟩
  | cons a l ih =>
    obtain ⟨y, hy⟩ := h a (by simp)
    obtain ⟨ys, hys⟩ := ih (fun a ha => h a (List.mem_cons_of_mem _ ha))
    exact ⟨y :: ys, by rw [List.mapM_cons]; simp only [hy, hys, ok_bind, pure_eq_ok]⟩

theorem hourOf_lt (i ts : ℕ) : hourOf i ts < 24 := Nat.mod_lt _ (by norm_num)

theorem inputs_total {s : Prim K} {b : Building K} (hb : Answers b) (hr : ∀ w ∈ s.heaters, Ready w) (t int : ℕ) :
    ∃ i, s.inputs b t int = .ok i := by
  obtain ⟨d, hd⟩ := hb.demand t int (s.heaters.any (·.isLoadShifting))
  obtain ⟨o, ho⟩ := hb.oat t int
  obtain ⟨c, hc⟩ := hb.inlet t int
  have hx : ∃ x, outletAt s.heaters s.storage (t * int / 60 % 24) = .ok x := by
    obtain ⟨cs, hcs⟩ := mapM_total (f := fun w : Heater K => w.getControls (t * int / 60 % 24)) (l := s.heaters) (by
      intro w hw
      obtain ⟨c, hc⟩ := (hr w hw).controls _ (hourOf_lt t int)
      exact ⟨_, inForce_iff.1 hc⟩)
    exact ⟨_, by unfold outletAt; simp only [hcs, ok_bind, pure_eq_ok]; rfl⟩
  obtain ⟨x, hx⟩ := hx
  have hm : ∃ m, modeAt s.heaters (t * int / 60 % 24) = .ok m := by
    unfold modeAt
    split
    · exact ⟨_, rfl⟩
    · rename_i w ws e
      obtain ⟨c, sc, m, mode, h1, h2, h3, h4⟩ := (hr w (by rw [e]; simp)).controls _ (hourOf_lt t int)
      split
      · exact ⟨_, rfl⟩
      · rename_i s' e'
        rw [h1] at e'
        have : s' = sc := by
          unfold truthySched at e'
          split at e' <;> simp_all
        subst this
        exact ⟨mode, pyGet_eq_ok.2 h3⟩
  obtain ⟨m, hm⟩ := hm
  exact ⟨_, by unfold Prim.inputs; simp only [hd, ho, hc, hx, hm, ok_bind, pure_eq_ok]; rfl⟩

theorem updateAll_total {ws : List (Heater K)} (hr : ∀ w ∈ ws, Ready w) (f : K → K) (hour : ℕ) (hh : hour < 24) :
    ∃ ws', updateAll ws (fun x => .ok (f x)) hour = .ok ws' := by
  apply mapM_total
  intro w hw
  obtain ⟨c, hc⟩ := (hr w hw).controls hour hh
  rw [inForce_iff] at hc
  unfold Heater.updateState
  simp only [hc, Controls.shouldTurnOff, Controls.shouldTurnOn, ok_bind, pure_eq_ok]
  cases w.active <;> simp only [Bool.false_eq_true, if_true, if_false]
  · cases decide (f c.onFract < c.onTrig) <;> exact ⟨_, rfl⟩
  · cases decide (c.offTrig ≤ f c.offFract) <;> exact ⟨_, rfl⟩

theorem heatPrimary_total {ws : List (Heater K)} {tank : StratTank K} (hr : ∀ w ∈ ws, Ready w) (hv : tank.vol ≠ 0)
    (hs : tank.slope ≠ 0) (i : StepIn K) (int : ℕ) (hi : i.hour < 24) : ∃ x, heatPrimary ws tank i int = .ok x := by
  have e : tank.tempAtPy = fun f => .ok (tank.tempAt f) := by
    funext f; unfold StratTank.tempAtPy; rw [if_neg hv]
  obtain ⟨ws', hw⟩ := updateAll_total hr tank.tempAt i.hour hi
  have hr' := allReady_congr (updateAll_same hw) hr
  have hlet : ∀ w ∈ ws', ∃ o, w.getOutletTemp i.hour = .ok o := by
    intro w hw
    obtain ⟨c, hc⟩ := (hr' w hw).controls _ hi
    exact ⟨c.outlet, by unfold Heater.getOutletTemp; simp only [inForce_iff.1 hc, ok_bind, pure_eq_ok]⟩
  have h2 : ∃ q, totalOutput ws' i.oat i.hour (some i.inlet) = .ok q := by
    obtain ⟨vs, hvs⟩ := mapM_total (f := fun w : Heater K => w.getOutletTemp i.hour >>= fun o =>
      w.getOutput (some i.oat) o (some i.inlet)) (l := ws') (by
        intro w hw
        obtain ⟨o, ho⟩ := hlet w hw
        obtain ⟨x, hx⟩ := (hr' w hw).capacity i.oat o (some i.inlet)
        simp only [ho, ok_bind]
        unfold Heater.getOutput
        split
        · exact ⟨_, rfl⟩
        · exact ⟨_, by simp only [hx, ok_bind, pure_eq_ok]; rfl⟩)
    exact ⟨_, by unfold totalOutput; simp only [hvs, ok_bind, pure_eq_ok]; rfl⟩
  obtain ⟨q, hq⟩ := h2
  have h3 : ∃ k, activeKws ws' i.oat i.hour (some i.inlet) = .ok k := by
    unfold activeKws
    apply mapM_total
    intro w hw
    have hw := List.mem_of_mem_filter hw
    obtain ⟨o, ho⟩ := hlet w hw
    obtain ⟨x, hx⟩ := (hr' w hw).power i.oat o (some i.inlet)
    exact ⟨x, by simp only [ho, ok_bind, hx]⟩
  obtain ⟨k, hk⟩ := h3
  exact ⟨_, by unfold heatPrimary; simp only [e, hw, hq, hk, ok_bind, if_neg hs, pure_eq_ok]; rfl⟩

/-- What a state needs so that the next step completes. -/
def Steady (s : Prim K) : Prop :=
  (∀ w ∈ s.heaters, Ready w) ∧ ∀ t, s.tank = some t → t.vol ≠ 0 ∧ t.slope ≠ 0

theorem primStep_total {b : Building K} (hb : Answers b) (ts : ℕ) (s : Prim K) (i : ℕ) (h : Steady s) :
    ∃ s' o, Prim.step b ts s i = .ok (s', o) ∧ Steady s' ∧ o.temps.length = 6 := by
  obtain ⟨hr, ht⟩ := h
  obtain ⟨inp, hi⟩ := inputs_total hb hr i ts
  have hlt : inp.hour < 24 := by rw [(inputs_ok hi).2.2.2.1]; exact hourOf_lt _ _
  unfold Prim.step
  simp only [hi, ok_bind]
  cases hk : s.tank with
  | none => exact ⟨_, _, rfl, ⟨hr, by simp [hk]⟩, by simp⟩
  | some t =>
    obtain ⟨hv, hs⟩ := ht t hk
    obtain ⟨⟨ws', t', q, kws⟩, hh⟩ := heatPrimary_total hr hv hs inp ts hlt
    obtain ⟨k1, _, _, _, _, rfl⟩ := heatPrimary_ok hh
    obtain ⟨d1, d2, _, _⟩ := draw_fields (t.heat q ts inp.outlet) inp.demand inp.inlet s.supply inp.outlet
    obtain ⟨f1, f2, _, _⟩ := heat_fields t q ts inp.outlet
    simp only [hh, ok_bind, pure_eq_ok]
    refine ⟨_, _, rfl, ⟨allReady_congr (updateAll_same k1) hr, ?_⟩, by simp [nodeFracts]⟩
    intro x hx
    simp only [Option.some.injEq] at hx
    subst hx
    rw [d1, d2, f1, f2]; exact ⟨hv, hs⟩

theorem designInletOr_total {b : Building K} (hb : Answers b) : ∃ c, designInletOr b = .ok c := by
  obtain ⟨x, hx⟩ := hb.design
  unfold designInletOr
  simp only [hx, ok_bind]
  cases x <;> exact ⟨_, rfl⟩

theorem primInit_total {s : Prim K} {b : Building K} (hb : Answers b) (h : Steady s) :
    ∃ s', s.init b = .ok s' ∧ Steady s' := by
  obtain ⟨c, hc⟩ := designInletOr_total hb
  refine ⟨{ s with tank := s.tank.map (fun t => t.init s.storage c (initialUseable s.heaters)) },
    by unfold Prim.init; simp only [hc, ok_bind, pure_eq_ok], h.1, ?_⟩
  intro t ht
  simp only [Option.map_eq_some_iff] at ht
  obtain ⟨t0, h0, rfl⟩ := ht
  exact h.2 t0 h0

theorem simDuration_total {d : String} (hd : d = "3day" ∨ d = "annual") : ∃ x, simDuration d = .ok x := by
  rcases hd with rfl | rfl <;> exact ⟨_, rfl⟩

/-- **C91.** If every heater has controls for every hour and a usable performance map, the tank has a volume and a slope,
and the building answers, then a simulation of a primary system never raises, whatever happens in it. -/
theorem C91_completes_partial (s : Prim K) (b : Building K) (thr : K) (maxMin : Int) (duration : String)
    (hd : duration = "3day" ∨ duration = "annual") (hb : Answers b) (hr : ∀ w ∈ s.heaters, Ready w)
    (ht : ∀ t, s.tank = some t → t.vol ≠ 0 ∧ t.slope ≠ 0) :
    ∃ s' r, s.simulate b thr maxMin duration = .ok (s', r) := by
  obtain ⟨x, hx⟩ := simDuration_total hd
  obtain ⟨s1, h1, h2⟩ := primInit_total hb (s := s) ⟨hr, ht⟩
  unfold Prim.simulate
  simp only [hx, h1, ok_bind]
  exact simulateFrom_total _ _ _ _ _ _ _ Steady hd h2 (fun ts s i _ hp => primStep_total hb ts s i hp)

/-- **C91, single-pass return to primary.** -/
theorem C91_completes_single_pass (l : RtpLoop K) (s : Prim K) (b : Building K) (thr : K) (maxMin : Int)
    (duration : String) (hd : duration = "3day" ∨ duration = "annual") (hb : Answers b)
    (hr : ∀ w ∈ s.heaters, Ready w) (ht : ∀ t, s.tank = some t → t.vol ≠ 0 ∧ t.slope ≠ 0) :
    ∃ s' r, spSimulate l s b thr maxMin duration = .ok (s', r) := by
  obtain ⟨x, hx⟩ := simDuration_total hd
  obtain ⟨s1, h1, h2⟩ := primInit_total hb (s := s) ⟨hr, ht⟩
  unfold spSimulate
  simp only [hx, h1, ok_bind]
  refine simulateFrom_total _ _ _ _ _ _ _ Steady hd h2 ?_
  intro ts s i _ hp
  obtain ⟨s', o, a, p, c⟩ := primStep_total hb ts s i hp
  unfold spStep
  simp only [a, ok_bind]
  cases hk : s'.tank with
  | none => exact ⟨_, _, rfl, p, c⟩
  | some t =>
    obtain ⟨q1, q2, _⟩ := recirc_fields t l.flow l.ret (ts : K) (some s'.supply)
    refine ⟨_, _, rfl, ⟨p.1, ?_⟩, by simp [nodeFracts]⟩
    intro y hy
    simp only [Option.some.injEq] at hy
    subst hy
    rw [q1, q2]; exact p.2 t hk

/-- **C91, parallel loop.** The temperature-maintenance heater needs controls too, and its tank a volume. -/
theorem C91_completes_parallel_loop (c : TmCfg K) (s : ParSim K) (b : Building K) (thr : K) (maxMin : Int)
    (duration : String) (hd : duration = "3day" ∨ duration = "annual") (hb : Answers b)
    (hr : ∀ w ∈ s.prim.heaters, Ready w) (ht : ∀ t, s.prim.tank = some t → t.vol ≠ 0 ∧ t.slope ≠ 0)
    (hw : Ready s.tmHeater) (hv : s.tmTank.vol ≠ 0) :
    ∃ s' r, parSimulate c s b thr maxMin duration = .ok (s', r) := by
  obtain ⟨x, hx⟩ := simDuration_total hd
  obtain ⟨s1, h1, h2⟩ := primInit_total hb (s := s.prim) ⟨hr, ht⟩
  obtain ⟨cold, hc⟩ := designInletOr_total hb
  unfold parSimulate
  simp only [hx, h1, hc, ok_bind]
  refine simulateFrom_total _ _ _ _ _ _ _
    (fun s : ParSim K => Steady s.prim ∧ Ready s.tmHeater ∧ s.tmTank.vol ≠ 0) hd ⟨h2, hw, hv⟩ ?_
  rintro ts s i _ ⟨hp, hw, hv⟩
  obtain ⟨s', o, a, p, l⟩ := primStep_total hb ts s.prim i hp
  obtain ⟨w', hw'⟩ := updateAll_total (ws := [s.tmHeater]) (by simpa using hw)
    ((s.tmTank.recirc c.flow c.ret (ts : K)).tempAt) (i * ts / 60 % 24) (hourOf_lt i ts)
  unfold updateAll at hw'
  rw [mapM_eq_ok] at hw'
  cases hw' with
  | @cons _ w1 _ _ e _ =>
  have same := updateState_fixed s.tmHeater
    ⟨fun f => .ok ((s.tmTank.recirc c.flow c.ret (ts : K)).tempAt f), i * ts / 60 % 24⟩
  cases hu : s.tmHeater.updateState (fun f => .ok ((s.tmTank.recirc c.flow c.ret (ts : K)).tempAt f))
      (i * ts / 60 % 24) with
  | mk w2 res =>
  rw [hu] at e
  simp only [hu] at same
  cases res with
  | error e' => simp at e
  | ok u =>
  have hw2 : Ready w2 := ready_congr ⟨same.2.2, same.1, same.2.1⟩ hw
  have ho : ∀ a b c, ∃ x, w2.getOutput (some a) b c = .ok x := by
    intro a b c
    obtain ⟨x, hx⟩ := hw2.capacity a b c
    unfold Heater.getOutput
    split
    · exact ⟨_, rfl⟩
    · exact ⟨_, by simp only [hx, ok_bind, pure_eq_ok]; rfl⟩
  obtain ⟨each, he⟩ := ho o.oat ((s.tmTank.recirc c.flow c.ret (ts : K)).tempAt 1) (some ((c.off + c.on) / 2))
  have hk : ∃ kw, (if w2.active then w2.getPower (some o.oat)
      ((s.tmTank.recirc c.flow c.ret (ts : K)).tempAt 1) (some ((c.off + c.on) / 2)) else .ok none) = .ok kw := by
    split
    · exact hw2.power _ _ _
    · exact ⟨_, rfl⟩
  obtain ⟨kw, hk⟩ := hk
  unfold parStep
  simp only [a, ok_bind]
  unfold tmStep
  simp only [if_neg hv, hu, he, hk]
  refine ⟨_, _, rfl, ⟨p, hw2, ?_⟩, l⟩
  unfold MixedTank.heat
  split <;> exact hv

/-- **C91, swing tank.** Also needed: the cold water is never warmer than the supply temperature (a swing tank exactly as
warm as the cold water, but above the supply temperature, divides by zero). -/
theorem C91_completes_swing (tmOff : K) (s : SwingSim K) (b : Building K) (thr : K) (maxMin : Int) (duration : String)
    (hd : duration = "3day" ∨ duration = "annual") (hb : Answers b) (hr : ∀ w ∈ s.heaters, Ready w)
    (ht : s.tank.vol ≠ 0 ∧ s.tank.slope ≠ 0) (hw : Ready s.tmHeater) (hv : s.tm.vol ≠ 0)
    (hin : ∀ i ts x, b.getInlet i ts = .ok x → x ≤ s.supply) :
    ∃ s' r, swingSimulate tmOff s b thr maxMin duration = .ok (s', r) := by
  obtain ⟨x, hx⟩ := simDuration_total hd
  obtain ⟨cold, hc⟩ := designInletOr_total hb
  unfold swingSimulate
  simp only [hx, hc, ok_bind]
  refine simulateFrom_total _ _ _ _ _ _ _
    (fun s1 : SwingSim K => s1.supply = s.supply ∧ (∀ w ∈ s1.heaters, Ready w) ∧
      (s1.tank.vol ≠ 0 ∧ s1.tank.slope ≠ 0) ∧ Ready s1.tmHeater ∧ s1.tm.vol ≠ 0) hd ⟨rfl, hr, ht, hw, hv⟩ ?_
  clear ht hw hv hr
  rintro ts s1 i _ ⟨hsup, hr, ht, hw, hv⟩
  obtain ⟨inp, hi⟩ := inputs_total (s := ⟨s1.supply, s1.storage, s1.heaters, some s1.tank⟩) hb hr i ts
  obtain ⟨_, _, hinl, hhour, _⟩ := inputs_ok hi
  have hlt : inp.hour < 24 := by rw [hhour]; exact hourOf_lt _ _
  obtain ⟨⟨ws', t', q, kws⟩, hh⟩ := heatPrimary_total hr ht.1 ht.2 inp ts hlt
  obtain ⟨k1, _, _, _, _, rfl⟩ := heatPrimary_ok hh
  have hflow : ∃ hw, swingFlow s1.supply inp.inlet (s1.tm.tempAt (1 / 2)) inp.demand = .ok hw := by
    unfold swingFlow
    split
    · rename_i hlt
      have := hin _ _ _ hinl
      rw [hsup] at hlt
      exact ⟨_, fdiv_ok _ (by intro h; linarith)⟩
    · exact ⟨_, rfl⟩
  obtain ⟨gal, hflow⟩ := hflow
  have hvol : ∀ (x : MixedTank K) (a c d e : K), ((x.mix a c).loss d e).vol = x.vol := by
    intro x a c d e
    have h1 : (x.mix a c).vol = x.vol := by
      unfold MixedTank.mix
      split
      · rfl
      · simp only; split <;> rfl
    unfold MixedTank.loss
    split <;> exact h1
  have htm : ∀ tm : MixedTank K, tm.vol ≠ 0 → ∃ w2 a b c, swingTm s1.tmHeater tm inp.oat inp.hour (ts : K) =
      .ok (w2, a, b, c) ∧ Ready w2 ∧ c.vol ≠ 0 := by
    intro tm htmv
    obtain ⟨w', hw'⟩ := updateAll_total (ws := [s1.tmHeater]) (by simpa using hw) tm.tempAt inp.hour hlt
    unfold updateAll at hw'
    rw [mapM_eq_ok] at hw'
    cases hw' with
    | @cons _ w1 _ _ e _ =>
    have same := updateState_fixed s1.tmHeater ⟨fun f => .ok (tm.tempAt f), inp.hour⟩
    cases hu : s1.tmHeater.updateState (fun f => .ok (tm.tempAt f)) inp.hour with
    | mk w2 res =>
    rw [hu] at e
    simp only [hu] at same
    cases res with
    | error e' => simp at e
    | ok u =>
    have hw2 : Ready w2 := ready_congr ⟨same.2.2, same.1, same.2.1⟩ hw
    have ho : ∃ x, w2.getOutput (some inp.oat) (tm.tempAt 1) none = .ok x := by
      obtain ⟨x, hx⟩ := hw2.capacity inp.oat (tm.tempAt 1) none
      unfold Heater.getOutput
      split
      · exact ⟨_, rfl⟩
      · exact ⟨_, by simp only [hx, ok_bind, pure_eq_ok]; rfl⟩
    obtain ⟨each, he⟩ := ho
    have hk : ∃ kw, (if w2.active then w2.getPower (some inp.oat) (tm.tempAt 1) none else .ok none) = .ok kw := by
      split
      · exact hw2.power _ _ _
      · exact ⟨_, rfl⟩
    obtain ⟨kw, hk⟩ := hk
    obtain ⟨c, hc⟩ := hw2.controls _ hlt
    have hlet : w2.getOutletTemp inp.hour = .ok c.outlet := by
      unfold Heater.getOutletTemp; simp only [inForce_iff.1 hc, ok_bind, pure_eq_ok]
    refine ⟨w2, each, kw, tm.heat each ts c.outlet, ?_, hw2, ?_⟩
    · unfold swingTm
      simp only [hu, he, hk, hlet, ok_bind, pure_eq_ok]
    · unfold MixedTank.heat
      split <;> exact htmv
  obtain ⟨w2, tq, tkw, tm2, htm2, hw2, hv2⟩ := htm
    ((s1.tm.mix gal ((s1.tank.heat q ts inp.outlet).avgDraw gal)).loss (recircLossKbtuh s1.supply s1.ret s1.flow) ts)
    (by rw [hvol]; exact hv)
  obtain ⟨d1, d2, _, _⟩ := drawPhysical_fields (s1.tank.heat q ts inp.outlet) gal inp.inlet (some s1.supply)
  obtain ⟨f1, f2, _, _⟩ := heat_fields s1.tank q ts inp.outlet
  unfold swingSimStep
  simp only [hi, hh, hflow, ok_bind, if_neg hv, htm2, pure_eq_ok]
  refine ⟨_, _, rfl, ⟨hsup, allReady_congr (updateAll_same k1) hr, ?_, hw2, hv2⟩, by simp [nodeFracts]⟩
  rw [d1, d2, f1, f2]; exact ht

/-! ## C90: the demand of a simulation -/

/-- **C90.** A simulation draws the building's demand, from the average-day profile exactly if some heater has controls for
loading up or shedding; cold-water temperatures and outdoor temperatures are the building's. -/
theorem C90_demand (s s' : Prim K) (b : Building K) (thr : K) (maxMin : Int) (duration : String) (r : SimRun K)
    (tank : StratTank K) (ht : s.tank = some tank) (hv : 0 < tank.vol) (hs : 0 < tank.slope)
    (h : s.simulate b thr maxMin duration = .ok (s', r)) :
    ∃ avg, Echoes b avg r ∧ (avg = true ↔ ∃ w ∈ s.heaters, ∃ m, w.cmap = some m ∧ ∃ k c, (k, c) ∈ m ∧
      (k = "loadUp" ∨ k = "shed")) := by
  refine ⟨s.heaters.any (·.isLoadShifting), ?_, ?_⟩
  · unfold Prim.simulate at h
    simp only [bind_eq_ok] at h
    obtain ⟨_, _, s1, hi, h⟩ := h
    exact (run_good (PrimInv s tank.vol tank.slope) (primInit_inv ht hi)
      (fun ts s i s' o hp hst => (primStep_good hv hs b ts s i s' o hp hst).1) h).2
  · rw [List.any_eq_true]
    refine exists_congr fun w => and_congr_right fun _ => ?_
    unfold Heater.isLoadShifting
    cases w.cmap with
    | none => simp
    | some m =>
      simp only [Bool.or_eq_true, dictHas_iff_mem, Option.some.injEq, exists_eq_left', List.mem_map, Prod.exists]
      constructor
      · rintro (⟨k, c, h1, h2⟩ | ⟨k, c, h1, h2⟩)
        · exact ⟨k, c, h1, .inl h2⟩
        · exact ⟨k, c, h1, .inr h2⟩
      · rintro ⟨k, c, h1, h2 | h2⟩
        · exact .inl ⟨k, c, h1, h2⟩
        · exact .inr ⟨k, c, h1, h2⟩

/-! ## C88: the charge a simulation starts with -/

theorem init_tempAt (t : StratTank K) (storage cold f : K) (h0 : 0 ≤ f) (h1 : f ≤ 1) (hc : cold ≤ storage) :
    (t.init storage cold (max 0 (min 1 (1 - f)))).tempAt f = cold := by
  rw [min_eq_right (by linarith), max_eq_right (by linarith)]
  unfold StratTank.init StratTank.tempAt StratTank.shift
  simp only [zero_div, zero_mul, add_zero]
  rw [show t.slope * (f * 100) + (cold - t.slope * ((1 - (1 - f)) * 100)) = cold by ring, min_eq_right hc, max_self]

/-- **C88.** The documentation says the tank begins at the on-trigger level. It does not: whatever the trigger
temperature, at the start the ON sensor of the first heater reads the cold-water temperature. -/
theorem C88_starts_cold (s s1 : Prim K) (b : Building K) (w : Heater K) (ws : List (Heater K)) (m : ControlMap K)
    (c : Controls K) (tank : StratTank K) (cold : K) (hh : s.heaters = w :: ws) (hm : w.cmap = some m)
    (hc : dictGet? m "normal" = some c) (h0 : 0 ≤ c.onFract) (h1 : c.onFract ≤ 1) (ht : s.tank = some tank)
    (hcold : designInletOr b = .ok cold) (hle : cold ≤ s.storage) (h : s.init b = .ok s1) :
    ∃ t, s1.tank = some t ∧ t.tempAt c.onFract = cold := by
  unfold Prim.init at h
  simp only [hcold, ok_bind, pure_eq_ok, Except.ok.injEq] at h
  subst h
  refine ⟨_, by simp only [ht, Option.map_some]; rfl, ?_⟩
  have : initialUseable s.heaters = max 0 (min 1 (1 - c.onFract)) := by
    rw [hh]; simp [initialUseable, hm, normalOrFirst, hc]
  rw [this]
  exact init_tempAt tank s.storage cold c.onFract h0 h1 hle

/-- **C88, partial.** What does hold: the heater fires in the very first step, if it follows its normal controls then and
their trigger is above the cold-water temperature. -/
theorem C88_fires_at_once_partial (s s1 s' : Prim K) (o : StepOut K) (ts : ℕ) (b : Building K) (w : Heater K)
    (ws : List (Heater K)) (m : ControlMap K) (c : Controls K) (tank : StratTank K) (cold : K)
    (hh : s.heaters = w :: ws) (hm : w.cmap = some m) (hc : dictGet? m "normal" = some c) (hf : InForce w 0 c)
    (h0 : 0 ≤ c.onFract) (h1 : c.onFract ≤ 1) (ht : s.tank = some tank) (hcold : designInletOr b = .ok cold)
    (hle : cold ≤ s.storage) (hoff : w.active = false) (htrig : cold < c.onTrig) (h : s.init b = .ok s1)
    (hstep : Prim.step b ts s1 0 = .ok (s', o)) :
    ∃ w', s'.heaters.head? = some w' ∧ w'.active = true := by
  obtain ⟨t, ht1, htemp⟩ := C88_starts_cold s s1 b w ws m c tank cold hh hm hc h0 h1 ht hcold hle h
  have hs1 : s1.heaters = w :: ws := by
    unfold Prim.init at h
    simp only [hcold, ok_bind, pure_eq_ok, Except.ok.injEq] at h
    subst h; exact hh
  unfold Prim.step at hstep
  rw [ht1] at hstep
  simp only [bind_eq_ok] at hstep
  obtain ⟨inp, hi, ⟨ws', tank', q, kws⟩, hp, hstep⟩ := hstep
  simp only [pure_eq_ok, Except.ok.injEq, Prod.mk.injEq] at hstep
  obtain ⟨rfl, rfl⟩ := hstep
  obtain ⟨k1, k2, k3, _⟩ := heatPrimary_ok hp
  have hhour : inp.hour = 0 := by rw [(inputs_ok hi).2.2.2.1]; simp [hourOf]
  rw [hs1, hhour] at k1
  unfold updateAll at k1
  rw [mapM_eq_ok] at k1
  cases k1 with
  | @cons _ w1 _ _ e _ =>
    refine ⟨w1, rfl, ?_⟩
    have : Cold w ⟨t.tempAtPy, 0⟩ := by
      obtain ⟨sc, cm, mode, a1, a2, a3, a4⟩ := hf
      refine ⟨sc, cm, mode, c, cold, a1, a2, a3, a4, ?_, htrig⟩
      simp only [StratTank.tempAtPy, if_neg k2, htemp]
    have := (updateState_off (u := ⟨t.tempAtPy, 0⟩) hoff).2 this
    simp only at this
    cases hu : w.updateState t.tempAtPy 0 with
    | mk w2 res =>
      rw [hu] at e this
      cases res with
      | error e' => simp at e
      | ok u => simp only [Except.ok.injEq] at e; subst e; exact this

/-! ## C89: a sized system and its own simulation -/

/-- The usable volume at the start: none at all if the supply temperature is more than the transition zone above the
sensor reaches. -/
theorem init_usable (t : StratTank K) (hs : 0 < t.slope) (storage cold supply f : K) (h0 : 0 ≤ f) (h1 : f ≤ 1) :
    (t.init storage cold (max 0 (min 1 (1 - f)))).usable supply =
      (1 - max 0 (min 1 (f + (supply - cold) / (100 * t.slope)))) * t.vol := by
  rw [min_eq_right (by linarith : 1 - f ≤ 1), max_eq_right (by linarith : 0 ≤ 1 - f)]
  unfold StratTank.init StratTank.usable StratTank.shift
  simp only [zero_div, zero_mul, sub_zero]
  have e : (supply - (cold - t.slope * ((1 - (1 - f)) * 100))) / t.slope =
      100 * (f + (supply - cold) / (100 * t.slope)) := by
    field_simp; ring
  rw [e]
  generalize f + (supply - cold) / (100 * t.slope) = x
  have : max 0 (min 100 (100 * x)) = 100 * max 0 (min 1 x) := by
    rw [mul_max_of_nonneg _ _ (by norm_num), mul_min_of_nonneg _ _ (by norm_num)]; simp
  rw [this]; ring

/-- If the first step reports no usable hot water, the simulation is not successful. -/
theorem first_outage_fails (s s1 s' s2 : Prim K) (b : Building K) (thr : K) (maxMin : Int) (r : SimRun K) (o : StepOut K)
    (hi : s.init b = .ok s1) (h1 : Prim.step b 1 s1 0 = .ok (s2, o)) (ho : o.usable ≤ 0)
    (h : s.simulate b thr maxMin "3day" = .ok (s', r)) : r.isSuccessful = false := by
  unfold Prim.simulate at h
  simp only [hi, bind_eq_ok] at h
  obtain ⟨_, _, _, hx, h⟩ := h
  simp only [Except.ok.injEq] at hx
  subst hx
  have h42 := (C42_outage_partial _ _ _ thr maxMin "3day" _ s' r h).2
  obtain ⟨dur, ts, outs, hd, h2, h3, h4, h5, _, _, _, h6⟩ := simulate_spec _ _ _ thr maxMin "3day" _ s' r h
  have : simDuration "3day" = .ok (4320, 1) := rfl
  rw [this] at hd
  simp only [Except.ok.injEq, Prod.mk.injEq] at hd
  obtain ⟨rfl, rfl⟩ := hd
  have hlen : 0 < outs.length := by
    rcases h6 with ⟨_, h6, _⟩ | ⟨_, h6, _⟩
    · rw [h6]; norm_num
    · exact h6
  cases outs with
  | nil => simp at hlen
  | cons o1 os =>
    obtain ⟨s3, h7, _⟩ := h4
    rw [h1] at h7
    simp only [Except.ok.injEq, Prod.mk.injEq] at h7
    obtain ⟨rfl, rfl⟩ := h7
    cases hr : r.isSuccessful with
    | false => rfl
    | true =>
      have := h42.1 hr o.usable (by rw [h5.usable]; simp)
      exact absurd this (not_lt.2 ho)

namespace Demo

/-- Controls with the ON sensor at 80 % of the height. -/
def highSensor : ControlMap ℚ := [("normal", ⟨8 / 10, 110, 6 / 10, 120, 150⟩)]

def allNormal : List String := List.replicate 24 "normal"

/-- The system that `from_size` makes of the capacity and storage sized for the demo building. -/
def sized : Prim ℚ :=
  Prim.ofSized cfg (11694949 / 320000) (24500 / 83) (28 / 10) (some allNormal) (some highSensor)

theorem answers : Answers building := by
  refine ⟨fun _ _ => ⟨20, rfl⟩, fun _ _ => ⟨50, rfl⟩, ?_, ⟨some 50, rfl⟩⟩
  intro i ts avg
  unfold Building.getDhwLoad
  have e : (if avg then building.avgShape else building.peakShape) = shape := by cases avg <;> rfl
  simp only [e]
  rw [if_neg (by decide)]
  rw [pyGet_of_lt (Nat.mod_lt _ (by decide))]
  exact ⟨_, rfl⟩

theorem ready_of {w : Heater ℚ} {cap : ℚ} (hp : w.perf = some (.nominal cap)) (h : ∀ hour < 24, ∃ c, InForce w hour c) :
    Ready w := by
  refine ⟨h, ?_, ?_⟩
  · intro a b c; unfold Heater.getCapacity; rw [hp]; exact ⟨some cap, rfl⟩
  · intro a b c; unfold Heater.getPower; rw [hp]; exact ⟨none, rfl⟩

theorem sized_ready : ∀ w ∈ sized.heaters, Ready w := by
  intro w hw
  obtain rfl : w = Heater.fromNominal (11694949 / 320000) (some allNormal) (some highSensor) := by
    simpa [sized, Prim.ofSized] using hw
  refine ready_of (cap := 11694949 / 320000) rfl ?_
  intro hour hh
  refine ⟨⟨8 / 10, 110, 6 / 10, 120, 150⟩, allNormal, highSensor, "normal", rfl, rfl, ?_, by decide +kernel⟩
  unfold allNormal; rw [List.getElem?_replicate, if_pos hh]

end Demo

/-- **C89.** A system sized by the engine does not always get through its own three-day simulation: this one is
sized without an error, its simulation completes whatever the stop settings are, and it reports an
outage. The tank starts without usable hot water, because the start charge ignores the transition zone. -/
theorem C89_sized_system_fails_own_simulation :
    (size baseMethods Demo.noFiles { cfg := Demo.cfg } Demo.building (some Demo.allNormal) (some Demo.highSensor)
      (28 / 10) 1).1.1.minCap = some (11694949 / 320000) ∧
    (size baseMethods Demo.noFiles { cfg := Demo.cfg } Demo.building (some Demo.allNormal) (some Demo.highSensor)
      (28 / 10) 1).1.1.minStorage = some (24500 / 83) ∧
    ∀ (thr : ℚ) (maxMin : Int), ∃ s' r, Demo.sized.simulate Demo.building thr maxMin "3day" = .ok (s', r) ∧
      r.isSuccessful = false := by
  refine ⟨by decide +kernel, by decide +kernel, ?_⟩
  intro thr maxMin
  obtain ⟨s', r, h⟩ := C91_completes_partial Demo.sized Demo.building thr maxMin "3day" (.inl rfl) Demo.answers
    Demo.sized_ready (by
      intro t ht
      obtain rfl : StratTank.new (24500 / 83) (28 / 10) = t := by simpa [Demo.sized, Prim.ofSized] using ht
      decide +kernel)
  refine ⟨s', r, h, ?_⟩
  have key : ∃ s1, Demo.sized.init Demo.building = .ok s1 ∧ ∃ s2 o, Prim.step Demo.building 1 s1 0 = .ok (s2, o) ∧
      o.usable ≤ 0 := by
    have : (match Demo.sized.init Demo.building with
        | .error _ => false
        | .ok s1 => match Prim.step Demo.building 1 s1 0 with
          | .error _ => false
          | .ok (_, o) => decide (o.usable ≤ 0)) = true := by decide +kernel
    revert this
    cases Demo.sized.init Demo.building with
    | error e => simp
    | ok s1 =>
      simp only
      cases hst : Prim.step Demo.building 1 s1 0 with
      | error e => simp
      | ok p => intro hp; exact ⟨s1, rfl, p.1, p.2, hst, by simpa using hp⟩
  obtain ⟨s1, hi, s2, o, h1, ho⟩ := key
  exact first_outage_fails _ s1 s' s2 _ thr maxMin r o hi h1 ho h

/-- The hypotheses of the C72, C88 and C91 theorems are met by this system: it has a tank with volume and slope, its
heater is ready, the building answers, and the trigger is above the cold water. -/
example : ∃ t, Demo.sized.tank = some t ∧ 0 < t.vol ∧ 0 < t.slope ∧ (∀ w ∈ Demo.sized.heaters, Ready w) ∧
    Answers Demo.building ∧ designInletOr Demo.building = .ok 50 ∧ (50 : ℚ) ≤ Demo.sized.storage ∧
    dictGet? Demo.highSensor "normal" = some ⟨8 / 10, 110, 6 / 10, 120, 150⟩ :=
  ⟨_, rfl, by decide +kernel, by decide +kernel, Demo.sized_ready, Demo.answers, by decide +kernel, by decide +kernel,
    by decide +kernel⟩

end Eco
