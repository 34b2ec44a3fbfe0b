import Verif.Model.MultiPass
import Verif.Props.MultiPass
import Verif.Props.SlugTank
import Verif.Props.Simulate

/-! C72, C73, C91 and C95 for the multi-pass return-to-primary system: simulation and the capacity boost. -/

namespace Eco
set_option linter.unusedSectionVars false
variable {K : Type} [Field K] [LinearOrder K] [IsStrictOrderedRing K]

open Spec

/-! ## The tank of a step -/

/-- The settings that no operation of a step changes. -/
def SameTank (s s' : SlugTank K) : Prop :=
  s'.Ok ∧ s'.base.vol = s.base.vol ∧ s'.pu = s.pu ∧ s'.base.cold = s.base.cold ∧ s'.base.storage = s.base.storage ∧
  s'.base.slope = s.base.slope

theorem SameTank.trans {s s' s'' : SlugTank K} (h : SameTank s s') (h' : SameTank s' s'') : SameTank s s'' := by
  obtain ⟨_, a, b, c, d, e⟩ := h
  obtain ⟨o, a', b', c', d', e'⟩ := h'
  exact ⟨o, a'.trans a, b'.trans b, c'.trans c, d'.trans d, e'.trans e⟩

theorem lifecycle_same {s : SlugTank K} (h : s.Ok) (supply : K) (was now : Bool) :
    SameTank s (mpLifecycle s supply was now) := by
  unfold mpLifecycle
  split
  · refine ⟨activate_ok s h supply, ?_⟩
    unfold SlugTank.activate
    split <;> exact ⟨rfl, rfl, rfl, rfl, rfl⟩
  · split
    · refine ⟨(slug_op_ok s h .deactivate).1, ?_⟩
      unfold SlugTank.deactivate
      split <;> exact ⟨rfl, rfl, rfl, rfl, rfl⟩
    · exact ⟨h, rfl, rfl, rfl, rfl, rfl⟩

theorem heatSlug_same {s : SlugTank K} (h : s.Ok) (q d : K) : SameTank s (s.heatSlug q d) := by
  refine ⟨heat_ok s h q d, ?_⟩
  unfold SlugTank.heatSlug
  split <;> exact ⟨rfl, rfl, rfl, rfl, rfl⟩

theorem drawSlug_same {s : SlugTank K} (h : s.Ok) (gal inlet : K) : SameTank s (s.drawPhysical gal inlet false) := by
  refine ⟨draw_ok s h gal inlet false, ?_⟩
  by_cases ha : s.active = true
  · rcases draw_active s h ha gal inlet false with ⟨_, e⟩ | ⟨_, _, e⟩ | ⟨_, _, e⟩ <;> rw [e] <;>
      exact ⟨rfl, rfl, rfl, rfl, rfl⟩
  · unfold SlugTank.drawPhysical
    rw [if_pos (by simpa using ha)]
    unfold EnergyTank.drawPhysical
    dsimp only
    rw [if_neg Bool.false_ne_true]
    split <;> exact ⟨rfl, rfl, rfl, rfl, rfl⟩

theorem apply_same {s : SlugTank K} (h : s.Ok) (now : Bool) (q d draw inlet : K) :
    SameTank s (mpApply s now q d draw inlet) := by
  unfold mpApply
  have h1 : SameTank s (if now && s.active && decide (0 < s.slugVol) then s.heatSlug q d else s) := by
    split
    · exact heatSlug_same h q d
    · exact ⟨h, rfl, rfl, rfl, rfl, rfl⟩
  simp only
  split
  · exact h1.trans (drawSlug_same h1.1 draw inlet)
  · exact h1

theorem slug_usable_bounds {s : SlugTank K} (h : s.Ok) (t : K) : 0 ≤ s.usable t ∧ s.usable t ≤ s.pu * s.base.vol := by
  unfold SlugTank.usable
  split
  · constructor
    · exact le_min (energy_usable_bounds _ h.volOk t).1 (mul_nonneg h.volOk.le h.puOk)
    · exact (min_le_right _ _).trans (by rw [mul_comm])
  · rename_i ha
    obtain ⟨o1, o2, o3, o4⟩ := h.slugOk (by simpa using ha)
    have hm := h.maxOk
    split
    · constructor <;> linarith
    · constructor <;> linarith

theorem energy_tempAt_bounds (s : EnergyTank K) (h : s.cold ≤ s.storage) (f : K) :
    s.cold ≤ s.tempAt f ∧ s.tempAt f ≤ s.storage := by
  unfold EnergyTank.tempAt
  simp only
  split
  · exact ⟨le_rfl, h⟩
  · exact ⟨le_max_left _ _, max_le h (min_le_left _ _)⟩

theorem slug_tempAt_bounds (s : SlugTank K) (h : s.base.cold ≤ s.base.storage) (f : K) :
    s.base.cold ≤ s.tempAt f ∧ s.tempAt f ≤ s.base.storage := by
  unfold SlugTank.tempAt
  split
  · exact energy_tempAt_bounds _ h _
  · simp only
    split
    · exact ⟨le_rfl, h⟩
    · split
      · exact ⟨le_max_left _ _, max_le h (min_le_left _ _)⟩
      · exact energy_tempAt_bounds _ h _

/-- What every state of a simulation shares with the state it started from. -/
def MpInv (s0 : MpSim K) (s : MpSim K) : Prop :=
  s.supply = s0.supply ∧ s.storage = s0.storage ∧ s.loop = s0.loop ∧ List.Forall₂ SameHeater s0.heaters s.heaters ∧
  s.tank.Ok ∧ s.tank.base.vol = s0.tank.base.vol ∧ s.tank.pu = s0.tank.pu ∧ s.tank.base.storage = s0.storage ∧
  s.tank.base.slope = s0.tank.base.slope

/-- What a step does. -/
theorem mpStep_ok {b : Building K} {ts i : ℕ} {s s' : MpSim K} {o : StepOut K} (h : mpStep b ts s i = .ok (s', o)) :
    ∃ ws kw draw mv x, updateAll s.heaters
        (fun f => .ok (SlugTank.tempAt { s.tank with base := { s.tank.base with cold := o.inlet } } f)) (hourOf i ts) = .ok ws ∧
      b.getDhwLoad i ts = .ok o.demand ∧ b.getInlet i ts = .ok o.inlet ∧ b.getOat i ts = .ok x ∧
      mpOutput ws x (hourOf i ts) = .ok (o.output, kw) ∧ o.power = kw ∧ modeAt s.heaters (hourOf i ts) = .ok o.mode ∧
      (let t1 := mpLifecycle { s.tank with base := { s.tank.base with cold := o.inlet } } s.supply
          (s.heaters.any (·.active)) (ws.any (·.active))
       let t2 := mpApply t1 (ws.any (·.active)) o.output (ts : K) draw mv
       mixingValve o.demand (s.loop.flow * (ts : K)) o.inlet s.supply s.loop.ret (t1.tempAt 1) = .ok (draw, mv) ∧
       s' = { s with heaters := ws, tank := t2 } ∧ o.usable = t2.usable s.supply ∧ o.oat = t1.tempAt 1 ∧
       o.temps = nodeFracts.map t2.tempAt ∧
       o.delivery = some (if ws.any (·.active) then s.supply else t1.tempAt 1)) := by
  unfold mpStep at h
  simp only [bind_eq_ok] at h
  obtain ⟨d, h1, x, h2, inl, h3, m, h4, h⟩ := h
  split at h
  · simp at h
  · simp only [bind_eq_ok, pure_eq_ok, Except.ok.injEq, Prod.mk.injEq] at h
    obtain ⟨ws, h5, ⟨q, kw⟩, h6, ⟨dr, mv⟩, h7, rfl, rfl⟩ := h
    exact ⟨ws, kw, dr, mv, x, h5, h1, h3, h2, h6, rfl, h4, h7, rfl, rfl, rfl, rfl, rfl⟩

/-- What a step of a simulation that started from `s0` reports. -/
def MpGood (s0 : MpSim K) (b : Building K) (ts i : ℕ) (o : StepOut K) : Prop :=
  (0 ≤ o.usable ∧ o.usable ≤ s0.tank.pu * s0.tank.base.vol) ∧ o.temps.length = 6 ∧
  b.getInlet i ts = .ok o.inlet ∧ b.getDhwLoad i ts = .ok o.demand ∧
  (o.inlet ≤ s0.storage → (∀ n < 6, o.inlet ≤ o.temps.getD n 0 ∧ o.temps.getD n 0 ≤ s0.storage) ∧
    o.inlet ≤ o.oat ∧ o.oat ≤ s0.storage)

theorem mpStep_good {s0 : MpSim K} (b : Building K) (ts : ℕ) (s : MpSim K) (i : ℕ) (s' : MpSim K) (o : StepOut K)
    (hinv : MpInv s0 s) (h : mpStep b ts s i = .ok (s', o)) :
    (MpInv s0 s' ∧ MpGood s0 b ts i o) ∧ ((∀ w ∈ s'.heaters, w.active = false) → o.output = 0 ∧ o.power = none) := by
  obtain ⟨e1, e2, e3, e4, e5, e6, e7, e8, e9⟩ := hinv
  obtain ⟨ws, kw, draw, mv, x, h1, h2, h3, h4, h5, h6, h7, h8, rfl, h10, h11, h12, h13⟩ := mpStep_ok h
  have hcold : (⟨{ s.tank.base with cold := o.inlet }, s.tank.supply, s.tank.pu, s.tank.maxUsable, s.tank.active,
      s.tank.slugVol, s.tank.slugTemp, s.tank.slugTop, s.tank.orig⟩ : SlugTank K).Ok :=
    ⟨e5.volOk, e5.puOk, e5.puOk', e5.coldPctOk, e5.maxOk, e5.slugOk⟩
  have s1 := lifecycle_same hcold s.supply (s.heaters.any (·.active)) (ws.any (·.active))
  have s2 := s1.trans (apply_same s1.1 (ws.any (·.active)) o.output (ts : K) draw mv)
  obtain ⟨k1, k2, k3, k4, k5, k6⟩ := s2
  generalize hT : mpApply _ (ws.any (·.active)) o.output (ts : K) draw mv = t2 at *
  dsimp only at k2 k3 k4 k5 k6
  refine ⟨⟨⟨e1, e2, e3, forall₂_trans e4 (updateAll_same h1), k1, k2.trans e6, k3.trans e7, k5.trans e8, k6.trans e9⟩,
    ?_, by rw [h12]; simp [nodeFracts], h3, h2, ?_⟩, ?_⟩
  · rw [h10]
    have := slug_usable_bounds k1 s.supply
    rwa [k3, k2, e7, e6] at this
  · intro hle
    refine ⟨?_, ?_⟩
    swap
    · have hb := slug_tempAt_bounds (mpLifecycle { s.tank with base := { s.tank.base with cold := o.inlet } } s.supply
        (s.heaters.any (·.active)) (ws.any (·.active))) (by rw [s1.2.2.2.1, s1.2.2.2.2.1]; dsimp only; rw [e8]; exact hle) 1
      rw [h11]
      rw [s1.2.2.2.1, s1.2.2.2.2.1] at hb
      dsimp only at hb
      exact ⟨hb.1, hb.2.trans_eq e8⟩
    intro n hn
    have hb := slug_tempAt_bounds t2 (by rw [k4, k5, e8]; exact hle)
    have e : o.temps.getD n 0 = t2.tempAt ((nodeFracts (K := K)).getD n 0) := by
      rw [h12]; interval_cases n <;> simp [nodeFracts]
    rw [e]
    have := hb ((nodeFracts (K := K)).getD n 0)
    rwa [k4, k5, e8] at this
  · intro hoff
    unfold mpOutput at h5
    simp only [bind_eq_ok, pure_eq_ok, Except.ok.injEq, Prod.mk.injEq] at h5
    obtain ⟨q, hq, kws, hk, hq', hkw⟩ := h5
    refine ⟨by rw [← hq']; exact totalOutput_off hq hoff, ?_⟩
    rw [h6, ← hkw, activeKws_off hk hoff]
    rfl

theorem mpInit_inv {s : MpSim K} (hok : s.tank.Ok) (cold pu : K) :
    MpInv s { s with tank := s.tank.init s.storage cold pu } := by
  obtain ⟨k1, k2, k3⟩ := slug_op_ok s.tank hok (.init s.storage cold pu)
  refine ⟨rfl, rfl, rfl, sameHeater_refl _, k1, k2, k3, ?_, ?_⟩
  · unfold SlugTank.init; simp only; split <;> rfl
  · unfold SlugTank.init; simp only; split <;> rfl

/-- **C72, multi-pass (usable volume and temperatures).** A simulation of a multi-pass system, of whatever length, records
usable volumes within the usable part of the tank, and temperatures between the building's cold water and the storage
temperature. -/
theorem C72_multi_pass_partial (s s' : MpSim K) (b : Building K) (thr : K) (maxMin : Int) (duration : String) (r : SimRun K)
    (hok : s.tank.Ok) (h : mpSimulate s b thr maxMin duration = .ok (s', r)) :
    (∀ u ∈ r.usable, 0 ≤ u ∧ u ≤ s.tank.pu * s.tank.base.vol) ∧
    ∀ i < r.usable.length, ∃ cold, b.getInlet i r.ts = .ok cold ∧
      (cold ≤ s.storage → ∀ n < 6, cold ≤ nodeTemp r n i ∧ nodeTemp r n i ≤ s.storage) := by
  unfold mpSimulate at h
  simp only [bind_eq_ok] at h
  obtain ⟨_, _, cold, _, h⟩ := h
  obtain ⟨dur, ts, outs, _, _, h3, h4, h5, _⟩ := simulate_spec _ _ _ thr maxMin duration _ s' r h
  obtain ⟨_, good⟩ := trace_forall (MpInv s) (MpGood s b ts) (fun x i x' o hp hst => (mpStep_good b ts x i x' o hp hst).1) outs _ s' 0
    (mpInit_inv hok cold (initialUseable s.heaters)) h4
  simp only [Nat.zero_add] at good
  have len : r.usable.length = outs.length := by rw [h5.usable, List.length_map]
  have nodes := h5.temps (by
    intro o ho
    obtain ⟨j, hj, rfl⟩ := List.getElem_of_mem ho
    exact (good j _ (List.getElem?_eq_getElem hj)).2.1)
  constructor
  · intro u hu
    rw [h5.usable] at hu
    obtain ⟨o, ho, rfl⟩ := List.mem_map.1 hu
    obtain ⟨j, hj, rfl⟩ := List.getElem_of_mem ho
    exact (good j _ (List.getElem?_eq_getElem hj)).1
  · intro i hi
    rw [len] at hi
    have ho : outs[i]? = some outs[i] := List.getElem?_eq_getElem hi
    obtain ⟨_, _, g1, _, g2⟩ := good i _ ho
    refine ⟨outs[i].inlet, by rw [h3]; exact g1, ?_⟩
    intro hle n hn
    have e : nodeTemp r n i = outs[i].temps.getD n 0 := by
      unfold nodeTemp
      rw [nodes n hn, List.getD_eq_getElem?_getD, List.getElem?_map, ho]; rfl
    rw [e]; exact (g2 hle).1 n hn

/-- **C72, multi-pass (heater output).** At every step, output and power are zero and absent if all heaters are off after
that step's decision. -/
theorem C72_multi_pass_no_output_when_off (s s' : MpSim K) (b : Building K) (thr : K) (maxMin : Int) (duration : String)
    (r : SimRun K) (hok : s.tank.Ok) (h : mpSimulate s b thr maxMin duration = .ok (s', r)) :
    ∃ outs st cold, designInletOr b = .ok cold ∧ Recorded r outs ∧
      States (mpStep b r.ts) { s with tank := s.tank.init s.storage cold (initialUseable s.heaters) } outs st ∧
      ∀ i < outs.length, (∀ w ∈ (st (i + 1)).heaters, w.active = false) →
        r.output[i]? = some 0 ∧ r.power[i]? = some none := by
  unfold mpSimulate at h
  simp only [bind_eq_ok] at h
  obtain ⟨_, _, cold, hcold, h⟩ := h
  obtain ⟨dur, ts, outs, _, _, h3, h4, h5, _⟩ := simulate_spec _ _ _ thr maxMin duration _ s' r h
  obtain ⟨st, a1, a2, a3⟩ := trace_states outs _ s' 0 h4
  simp only [Nat.zero_add] at a3
  have inv : ∀ i ≤ outs.length, MpInv s (st i) := by
    intro i
    induction i with
    | zero => intro _; rw [a1]; exact mpInit_inv hok cold (initialUseable s.heaters)
    | succ i ih =>
      intro hle
      exact (mpStep_good b ts _ _ _ _ (ih (by omega)) (a3 i _ (List.getElem?_eq_getElem (by omega)))).1.1
  refine ⟨outs, st, cold, hcold, h5, ⟨a1, by rw [h3]; exact a3⟩, ?_⟩
  intro i hlt hoff
  have ho : outs[i]? = some outs[i] := List.getElem?_eq_getElem hlt
  obtain ⟨q1, q2⟩ := (mpStep_good b ts _ _ _ _ (inv i hlt.le) (a3 i _ ho)).2 hoff
  rw [h5.output, h5.power, List.getElem?_map, List.getElem?_map, ho]
  exact ⟨congrArg some q1, congrArg some q2⟩

/-- **C90, multi-pass.** Every recorded demand and cold-water temperature is the building's at that time; the demand is
always that of the peak profile. -/
theorem C90_multi_pass_demand (s s' : MpSim K) (b : Building K) (thr : K) (maxMin : Int) (duration : String) (r : SimRun K)
    (hok : s.tank.Ok) (h : mpSimulate s b thr maxMin duration = .ok (s', r)) :
    (∀ i x, r.demand[i]? = some x → b.getDhwLoad i r.ts = .ok x) ∧
    (∀ i x, r.inlet[i]? = some x → b.getInlet i r.ts = .ok x) := by
  unfold mpSimulate at h
  simp only [bind_eq_ok] at h
  obtain ⟨_, _, cold, _, h⟩ := h
  obtain ⟨dur, ts, outs, _, _, h3, h4, h5, _⟩ := simulate_spec _ _ _ thr maxMin duration _ s' r h
  obtain ⟨_, good⟩ := trace_forall (MpInv s) (MpGood s b ts) (fun x i x' o hp hst => (mpStep_good b ts x i x' o hp hst).1) outs _ s' 0
    (mpInit_inv hok cold (initialUseable s.heaters)) h4
  simp only [Nat.zero_add] at good
  constructor
  · intro i x hx
    rw [h5.demand, List.getElem?_map, Option.map_eq_some_iff] at hx
    obtain ⟨o, ho, rfl⟩ := hx
    rw [h3]; exact (good i o ho).2.2.2.1
  · intro i x hx
    rw [h5.inlet, List.getElem?_map, Option.map_eq_some_iff] at hx
    obtain ⟨o, ho, rfl⟩ := hx
    rw [h3]; exact (good i o ho).2.2.1

/-- **C73 (false for multi-pass).** What a multi-pass simulation records as the outdoor temperature is a temperature inside
the tank: it is never below that of the cold water, however cold it is outside. -/
theorem C73_multi_pass_records_tank (s s' : MpSim K) (b : Building K) (thr : K) (maxMin : Int) (duration : String)
    (r : SimRun K) (hok : s.tank.Ok) (h : mpSimulate s b thr maxMin duration = .ok (s', r)) (i : ℕ) (x cold : K)
    (hx : r.oat[i]? = some x) (hc : b.getInlet i r.ts = .ok cold) (hcs : cold ≤ s.storage) :
    cold ≤ x ∧ x ≤ s.storage ∧ ∀ y, b.getOat i r.ts = .ok y → y < cold → x ≠ y := by
  unfold mpSimulate at h
  simp only [bind_eq_ok] at h
  obtain ⟨_, _, _, _, h⟩ := h
  obtain ⟨dur, ts, outs, _, _, h3, h4, h5, _⟩ := simulate_spec _ _ _ thr maxMin duration _ s' r h
  obtain ⟨_, good⟩ := trace_forall (MpInv s) (MpGood s b ts)
    (fun x i x' o hp hst => (mpStep_good b ts x i x' o hp hst).1) outs _ s' 0 (mpInit_inv hok _ (initialUseable s.heaters)) h4
  simp only [Nat.zero_add] at good
  rw [h5.oat, List.getElem?_map, Option.map_eq_some_iff] at hx
  obtain ⟨o, ho, rfl⟩ := hx
  obtain ⟨_, _, g1, _, g2⟩ := good i o ho
  rw [h3] at hc
  rw [hc] at g1
  simp only [Except.ok.injEq] at g1
  subst g1
  obtain ⟨_, g3, g4⟩ := g2 hcs
  exact ⟨g3, g4, fun y _ hy => (lt_of_lt_of_le hy g3).ne'⟩

namespace Demo

/-- Heats from half the height down to a tenth; the top of the slug is at the supply temperature when it starts. -/
def midSensor : ControlMap ℚ := [("normal", ⟨1 / 2, 125, 1 / 10, 150, 150⟩)]

/-- 100 gallons, a fifth of them below the cold inlet, with a large heater. -/
def mpSim (m : ControlMap ℚ) : MpSim ℚ :=
  ⟨120, 150, ⟨110, 1⟩, [Heater.fromNominal 1000 (some allNormal) (some m)], SlugTank.new 100 50 150 120 (8 / 10) 2⟩

theorem mpSim_ok (m : ControlMap ℚ) : (mpSim m).tank.Ok := by
  constructor <;> (unfold mpSim SlugTank.new EnergyTank.new; norm_num)

theorem mpSim_ready (m : ControlMap ℚ) (c : Controls ℚ) (h : dictGet? m "normal" = some c) :
    ∀ w ∈ (mpSim m).heaters, Ready w := by
  intro w hw
  obtain rfl : w = Heater.fromNominal 1000 (some allNormal) (some m) := by simpa [mpSim] using hw
  refine ready_of (cap := 1000) rfl ?_
  intro hour hh
  refine ⟨c, allNormal, m, "normal", rfl, rfl, ?_, h⟩
  unfold allNormal; rw [List.getElem?_replicate, if_pos hh]

theorem run_of {x : Py (MpSim ℚ × SimRun ℚ)} {p : SimRun ℚ → Prop} [DecidablePred p]
    (h : (match x with | .error _ => false | .ok (_, r) => decide (p r)) = true) : ∃ s' r, x = .ok (s', r) ∧ p r := by
  cases x with
  | error e => simp at h
  | ok y => exact ⟨y.1, y.2, rfl, by simpa using h⟩

end Demo

/-- **C72 and C73 (false for multi-pass).** In the one recorded step of this run the water at half the height is hotter than
the water above it, and the recorded outdoor temperature is 150 °F although it is 20 °F outside. The run also meets the
hypotheses of the multi-pass theorems above. -/
theorem C72_multi_pass_not_rising : Demo.building.getOat 0 1 = .ok 20 ∧ Demo.building.getInlet 0 1 = .ok 50 ∧
    (Demo.mpSim Demo.midSensor).tank.Ok ∧
    ∃ s' r, mpSimulate (Demo.mpSim Demo.midSensor) Demo.building (-1000) 0 "3day" = .ok (s', r) ∧
      r.ts = 1 ∧ r.usable.length = 1 ∧ r.oat = [150] ∧ nodeTemp r 3 0 < nodeTemp r 2 0 :=
  ⟨rfl, rfl, Demo.mpSim_ok _, Demo.run_of (by decide +kernel)⟩

/-! ## C91: an empty tank -/

theorem empty_shift {s : EnergyTank K} (hd : s.cold < s.storage) (he : s.energy ≤ 0) : s.shift = -100 := by
  unfold EnergyTank.shift
  simp only
  rw [if_neg (by linarith), if_pos]
  rcases le_total s.energy s.maxEnergy with h | h
  · rw [min_eq_left h]; exact max_le le_rfl he
  · rw [min_eq_right h]; exact max_le le_rfl (h.trans he)

theorem empty_zoneAvg {s : EnergyTank K} (hd : s.cold < s.storage) (hs : 0 < s.slope) (he : s.energy ≤ 0) (lo hi : K)
    (h0 : 0 ≤ lo) (h1 : hi ≤ 100) : s.zoneAvg lo hi = s.cold := by
  unfold EnergyTank.zoneAvg
  rw [empty_shift hd he]
  split
  · rfl
  · rename_i hlt
    rw [not_le] at hlt
    have hdt : 0 < s.storage - s.cold := by linarith
    have hr : 0 < (s.storage - s.cold) / s.slope := div_pos hdt hs
    simp only [if_pos hdt, neg_neg]
    have a1 : max (0 : K) (min 100 100) = 100 := by simp
    have a2 : max 0 (min 100 ((s.storage - s.cold) / s.slope + 100)) = 100 := by
      rw [min_eq_left (by linarith)]; simp
    rw [sub_neg_eq_add, a1, a2, min_eq_left h1, max_eq_left h0, max_eq_right (by linarith : lo ≤ 100)]
    rw [if_neg (not_lt.2 h1), max_eq_right (by linarith), max_eq_left (by linarith)]
    have : hi - lo ≠ 0 := by linarith
    field_simp
    ring

theorem empty_top {s : EnergyTank K} (hd : s.cold < s.storage) (he : s.energy ≤ 0) : s.tempAt 1 = s.cold := by
  unfold EnergyTank.tempAt
  rw [empty_shift hd he]
  simp only
  split
  · rfl
  · rw [one_mul, show (100 : K) + -100 = 0 by ring, mul_zero, zero_add, min_eq_right hd.le, max_self]

/-- An empty tank is at the temperature of the cold water at the top, heating or not. -/
theorem empty_lifecycle {s : SlugTank K} (hok : s.Ok) (hs : 0 < s.base.slope) (hd : s.base.cold < s.base.storage)
    (he : s.base.energy ≤ 0) (ha : s.active = false) (supply : K) (hsup : s.base.cold ≤ supply) (was now : Bool) :
    (mpLifecycle s supply was now).tempAt 1 = s.base.cold := by
  unfold mpLifecycle
  cases now with
  | false =>
    rw [if_neg Bool.false_ne_true]
    have : (if was then s.deactivate else s) = s := by
      split
      · unfold SlugTank.deactivate; rw [if_pos (by simp [ha])]
      · rfl
    rw [this]
    unfold SlugTank.tempAt
    rw [if_pos (by simp [ha])]
    exact empty_top hd he
  | true =>
    rw [if_pos rfl]
    have hx : max s.base.coldPct (min 100 ((supply - s.base.cold) / s.base.slope - s.base.shift)) = 100 := by
      rw [empty_shift hd he]
      have h0 : 0 ≤ (supply - s.base.cold) / s.base.slope := div_nonneg (by linarith) hs.le
      rw [min_eq_left (by linarith)]
      apply max_eq_right
      rw [hok.coldPctOk]
      have := hok.puOk
      linarith
    have h0 : 0 ≤ s.base.coldPct := by rw [hok.coldPctOk]; have := hok.puOk'; linarith
    have hvol : max 0 ((100 - s.base.coldPct) / 100 * s.base.vol) = s.pu * s.base.vol := by
      rw [hok.coldPctOk, show (100 - (1 - s.pu) * 100) / 100 = s.pu by ring]
      exact max_eq_right (mul_nonneg hok.puOk hok.volOk.le)
    unfold SlugTank.activate
    rw [if_neg (by simp [ha])]
    simp only [hx, hvol]
    have htemp : (if 0 < s.pu * s.base.vol then s.base.zoneAvg s.base.coldPct 100 else s.base.cold) = s.base.cold := by
      split
      · exact empty_zoneAvg hd hs he _ _ h0 le_rfl
      · rfl
    rw [htemp]
    have htop : s.topOf (s.pu * s.base.vol) = 100 := by
      rw [topOf_eq s hok, ← hok.maxOk]; exact top_full s hok
    rw [htop]
    unfold SlugTank.tempAt
    rw [if_neg (by simp)]
    simp only [one_mul]
    split
    · rfl
    · rw [if_pos le_rfl, min_eq_right hd.le, max_self]

theorem valve_cold_raises {load flow cold supply ret : K} (hl : 0 ≤ load) (hf : 0 < flow) (hr : ret < supply)
    (hc : cold < supply) : mixingValve load flow cold supply ret cold = .error .zeroDivision := by
  have hrho := rho_pos (K := K)
  have hd : rhoCp K * (cold - supply) ≠ 0 := mul_ne_zero hrho.ne' (by linarith)
  have hneg : flow * rhoCp K * (supply - ret) / (rhoCp K * (cold - supply)) < load := by
    refine lt_of_lt_of_le (div_neg_of_pos_of_neg ?_ ?_) hl
    · have : 0 < supply - ret := by linarith
      positivity
    · exact mul_neg_of_pos_of_neg hrho (by linarith)
  simp only [mixingValve, fdiv_of_ne hd, ok_bind, if_pos hneg, sub_self]
  simp [fdiv, error_bind]

theorem mpOutput_total {ws : List (Heater K)} (hr : ∀ w ∈ ws, Ready w) (oat : K) (hour : ℕ) (hh : hour < 24) :
    ∃ x, mpOutput ws oat hour = .ok x := by
  have hlet : ∀ w ∈ ws, ∃ o, w.getOutletTemp hour = .ok o := by
    intro w hw
    obtain ⟨c, hc⟩ := (hr w hw).controls _ hh
    exact ⟨c.outlet, by unfold Heater.getOutletTemp; simp only [inForce_iff.1 hc, ok_bind, pure_eq_ok]⟩
  have h2 : ∃ q, totalOutput ws oat hour none = .ok q := by
    obtain ⟨vs, hvs⟩ := mapM_total (f := fun w : Heater K => w.getOutletTemp hour >>= fun o =>
      w.getOutput (some oat) o none) (l := ws) (by
        intro w hw
        obtain ⟨o, ho⟩ := hlet w hw
        obtain ⟨x, hx⟩ := (hr w hw).capacity oat o none
        simp only [ho, ok_bind]
        unfold Heater.getOutput
        split
        · exact ⟨_, rfl⟩
        · exact ⟨_, by simp only [hx, ok_bind, pure_eq_ok]; rfl⟩)
    exact ⟨_, by unfold totalOutput; simp only [hvs, ok_bind, pure_eq_ok]; rfl⟩
  obtain ⟨q, hq⟩ := h2
  have h3 : ∃ k, activeKws ws oat hour none = .ok k := by
    unfold activeKws
    apply mapM_total
    intro w hw
    have hw := List.mem_of_mem_filter hw
    obtain ⟨o, ho⟩ := hlet w hw
    obtain ⟨x, hx⟩ := (hr w hw).power oat o none
    exact ⟨x, by simp only [ho, ok_bind, hx]⟩
  obtain ⟨k, hk⟩ := h3
  exact ⟨_, by unfold mpOutput; simp only [hq, hk, ok_bind, pure_eq_ok]; rfl⟩

theorem modeAt_total {ws : List (Heater K)} (hr : ∀ w ∈ ws, Ready w) (hour : ℕ) (hh : hour < 24) :
    ∃ m, modeAt ws hour = .ok m := by
  unfold modeAt
  split
  · exact ⟨_, rfl⟩
  · rename_i w ws
    obtain ⟨c, sc, m, mode, h1, h2, h3, h4⟩ := (hr w (by simp)).controls _ hh
    split
    · exact ⟨_, rfl⟩
    · rename_i s' e'
      rw [h1] at e'
      have : s' = sc := by
        unfold truthySched at e'
        split at e' <;> simp_all
      subst this
      exact ⟨mode, pyGet_eq_ok.2 h3⟩

theorem simulateFrom_error {S : Type} (step : ℕ → S → ℕ → Py (S × StepOut K)) (supply : K) (tm : Bool) (thr : K)
    (maxMin : Int) (duration : String) (hd : duration = "3day" ∨ duration = "annual") (s : S) (e : PyErr)
    (h : ∀ ts, 0 < ts → step ts s 0 = .error e) : simulateFrom step supply tm thr maxMin duration s = .error e := by
  have key : ∃ dur ts n, simDuration duration = .ok (dur, ts) ∧ 0 < ts ∧ dur / ts = n + 1 := by
    rcases hd with rfl | rfl
    · exact ⟨4320, 1, 4319, rfl, by norm_num, by norm_num⟩
    · exact ⟨525600, 10, 52559, rfl, by norm_num, by norm_num⟩
  obtain ⟨dur, ts, n, h1, h2, h3⟩ := key
  unfold simulateFrom
  simp only [h1, ok_bind, SimRun.new, if_neg (Nat.pos_iff_ne_zero.1 h2), h3]
  unfold simLoop
  rw [h ts h2, error_bind]

/-- A step that starts with an empty tank ends in a division by zero, whatever the heater does. -/
theorem empty_step_raises (b : Building K) (ts i : ℕ) (s : MpSim K) (cold d : K) (hts : 0 < ts)
    (hok : s.tank.Ok) (hs : 0 < s.tank.base.slope) (he : s.tank.base.energy ≤ 0) (ha : s.tank.active = false)
    (hb : Answers b) (hw : ∀ w ∈ s.heaters, Ready w) (hc : b.getInlet i ts = .ok cold) (hd : b.getDhwLoad i ts = .ok d)
    (hd0 : 0 ≤ d) (h1 : cold < s.supply) (h2 : cold < s.tank.base.storage) (h3 : 0 < s.loop.flow)
    (h4 : s.loop.ret < s.supply) : mpStep b ts s i = .error .zeroDivision := by
  obtain ⟨x, hx⟩ := hb.oat i ts
  obtain ⟨m, hm⟩ := modeAt_total hw _ (hourOf_lt i ts)
  obtain ⟨ws, hws⟩ := updateAll_total hw
    (fun f => (⟨{ s.tank.base with cold := cold }, s.tank.supply, s.tank.pu, s.tank.maxUsable, s.tank.active,
      s.tank.slugVol, s.tank.slugTemp, s.tank.slugTop, s.tank.orig⟩ : SlugTank K).tempAt f) _ (hourOf_lt i ts)
  obtain ⟨⟨q, kw⟩, hq⟩ := mpOutput_total (allReady_congr (updateAll_same hws) hw) x _ (hourOf_lt i ts)
  have hok' : (⟨{ s.tank.base with cold := cold }, s.tank.supply, s.tank.pu, s.tank.maxUsable, s.tank.active,
      s.tank.slugVol, s.tank.slugTemp, s.tank.slugTop, s.tank.orig⟩ : SlugTank K).Ok :=
    ⟨hok.volOk, hok.puOk, hok.puOk', hok.coldPctOk, hok.maxOk, hok.slugOk⟩
  have htop := empty_lifecycle hok' hs h2 he ha s.supply h1.le (s.heaters.any (·.active)) (ws.any (·.active))
  have hts' : (0 : K) < ts := Nat.cast_pos.2 hts
  unfold hourOf at *
  unfold mpStep
  simp only [hd, hx, hc, hm, ok_bind]
  rw [if_neg (by rw [not_or]; exact ⟨hok.volOk.ne', hs.ne'⟩)]
  simp only [hws, ok_bind, hq, htop, valve_cold_raises hd0 (mul_pos h3 hts') h4 h1, error_bind]

theorem init_empty {t : SlugTank K} (storage cold pu : K) (h : pu ≤ 0) :
    (t.init storage cold pu).base.energy = 0 ∧ (t.init storage cold pu).active = false ∧
      (t.init storage cold pu).base.slope = t.base.slope := by
  unfold SlugTank.init
  simp only
  rw [if_pos (by simp [h])]
  exact ⟨rfl, rfl, rfl⟩

/-- **C91 (false for multi-pass).** With the ON sensor at the top of the tank, the simulation starts with an empty tank;
it then neither runs to the end nor reports an outage, but raises a `ZeroDivisionError` in the first step. -/
theorem C91_multi_pass_raises (s : MpSim K) (b : Building K) (thr : K) (maxMin : Int) (duration : String) (cold : K)
    (c : Controls K) (w : Heater K) (ws : List (Heater K)) (cmap : ControlMap K) (hdur : duration = "3day" ∨ duration = "annual")
    (hok : s.tank.Ok) (hs : 0 < s.tank.base.slope) (hb : Answers b) (hheat : s.heaters = w :: ws)
    (hw : ∀ w ∈ s.heaters, Ready w) (hcm : w.cmap = some cmap) (hcn : dictGet? cmap "normal" = some c) (hon : 1 ≤ c.onFract)
    (hd : ∀ ts d, b.getDhwLoad 0 ts = .ok d → 0 ≤ d) (hc : ∀ ts, b.getInlet 0 ts = .ok cold) (h1 : cold < s.supply)
    (h2 : s.supply ≤ s.storage) (h3 : 0 < s.loop.flow) (h4 : s.loop.ret < s.supply) :
    mpSimulate s b thr maxMin duration = .error .zeroDivision := by
  obtain ⟨inl, hinl⟩ := designInletOr_total hb
  have h0 : initialUseable s.heaters = 0 := by
    rw [hheat]
    unfold initialUseable normalOrFirst
    simp only [hcm, Option.bind_some, hcn]
    rw [min_eq_right (by linarith), max_eq_left (by linarith)]
  obtain ⟨e1, e2, e3⟩ := init_empty (t := s.tank) s.storage inl (initialUseable s.heaters) h0.le
  obtain ⟨_, _, _, _, k5, _, _, k8, _⟩ := mpInit_inv (s := s) hok inl (initialUseable s.heaters)
  have hdu : ∃ x, simDuration duration = .ok x := by
    rcases hdur with rfl | rfl <;> exact ⟨_, rfl⟩
  obtain ⟨x, hx⟩ := hdu
  unfold mpSimulate
  simp only [hx, hinl, ok_bind]
  apply simulateFrom_error _ _ _ _ _ _ hdur
  intro ts hts
  obtain ⟨d, hd'⟩ := hb.demand 0 ts false
  exact empty_step_raises b ts 0 _ cold d hts k5 (by dsimp only; rw [e3]; exact hs) e1.le e2 hb hw (hc ts) hd' (hd ts d hd')
    h1 (by rw [k8]; exact lt_of_lt_of_le h1 h2) h3 h4

namespace Demo

/-- The ON sensor at the very top of the tank. -/
def topSensor : ControlMap ℚ := [("normal", ⟨1, 125, 1 / 2, 150, 150⟩)]

end Demo

/-- Such a system: a heater controlled from the top of the tank. -/
example (thr : ℚ) (maxMin : Int) :
    mpSimulate (Demo.mpSim Demo.topSensor) Demo.building thr maxMin "3day" = .error .zeroDivision := by
  refine C91_multi_pass_raises _ _ thr maxMin "3day" 50 ⟨1, 125, 1 / 2, 150, 150⟩ _ [] Demo.topSensor (.inl rfl)
    (Demo.mpSim_ok _) (by decide +kernel) Demo.answers rfl (Demo.mpSim_ready _ ⟨1, 125, 1 / 2, 150, 150⟩ (by decide +kernel)) rfl
    (by decide +kernel) (by norm_num) ?_ (fun _ => rfl) (by decide +kernel) (by decide +kernel) (by decide +kernel)
    (by decide +kernel)
  intro ts d hd
  rw [getDhwLoad_eq _ _ _ _ (by decide)] at hd
  simp only [Except.ok.injEq] at hd
  subst hd
  have h : ∀ i < 24, (0 : ℚ) ≤ Demo.shape.getD i 0 := by decide +kernel
  have h0 : (0 : ℚ) ≤ (Demo.building.shape false).getD (0 * ts / 60 % (Demo.building.shape false).length) 0 :=
    h _ (Nat.mod_lt _ (by decide))
  have h1 : (0 : ℚ) ≤ Demo.building.dailyGal := by decide +kernel
  positivity

/-! ## C95: the capacity boost of `from_size` -/

theorem mpStep_keeps {b : Building K} {ts i : ℕ} {s s' : MpSim K} {o : StepOut K} (h : mpStep b ts s i = .ok (s', o)) :
    s'.supply = s.supply ∧ s'.storage = s.storage ∧ s'.loop = s.loop ∧ s'.tank.base.vol = s.tank.base.vol ∧
      List.Forall₂ SameHeater s.heaters s'.heaters := by
  obtain ⟨ws, kw, draw, mv, x, h1, h2, h3, h4, h5, h6, h7, h8, rfl, h10, h11, h12, h13⟩ := mpStep_ok h
  refine ⟨rfl, rfl, rfl, ?_, updateAll_same h1⟩
  dsimp only
  have a1 : ∀ (t : SlugTank K) x, (t.activate x).base.vol = t.base.vol := by
    intro t x; unfold SlugTank.activate; split <;> rfl
  have a2 : ∀ t : SlugTank K, t.deactivate.base.vol = t.base.vol := by
    intro t; unfold SlugTank.deactivate; split <;> rfl
  have a3 : ∀ (t : SlugTank K) x y, (t.heatSlug x y).base.vol = t.base.vol := by
    intro t x y; unfold SlugTank.heatSlug; split <;> rfl
  have a4 : ∀ (t : SlugTank K) x y, (t.addToSlug x y).base.vol = t.base.vol := by
    intro t x y; unfold SlugTank.addToSlug; split
    · rfl
    · split <;> rfl
  have a5 : ∀ (t : SlugTank K) x y z, (t.drawPhysical x y z).base.vol = t.base.vol := by
    intro t x y z; unfold SlugTank.drawPhysical; split
    · unfold EnergyTank.drawPhysical; simp only; split <;> split <;> rfl
    · simp only
      split
      · exact a4 ..
      · exact a4 ..
  have l : ∀ (t : SlugTank K) x p q, (mpLifecycle t x p q).base.vol = t.base.vol := by
    intro t x p q; unfold mpLifecycle; split
    · exact a1 ..
    · split
      · exact a2 _
      · rfl
  unfold mpApply
  simp only
  split
  · rw [a5]; split
    · rw [a3, l]
    · rw [l]
  · split
    · rw [a3, l]
    · rw [l]

theorem trialLoop_keeps (b : Building K) : ∀ n i (s s' : MpSim K) (r r' : Trial K), trialLoop b n i s r = .ok (s', r') →
    s'.supply = s.supply ∧ s'.storage = s.storage ∧ s'.loop = s.loop ∧ s'.tank.base.vol = s.tank.base.vol ∧
      List.Forall₂ SameHeater s.heaters s'.heaters := by
  intro n
  induction n with
  | zero =>
    intro i s s' r r' h
    unfold trialLoop at h
    simp only [Except.ok.injEq, Prod.mk.injEq] at h
    obtain ⟨rfl, rfl⟩ := h
    exact ⟨rfl, rfl, rfl, rfl, sameHeater_refl _⟩
  | succ n ih =>
    intro i s s' r r' h
    unfold trialLoop at h
    simp only [bind_eq_ok] at h
    obtain ⟨⟨s1, o⟩, h1, h⟩ := h
    obtain ⟨a1, a2, a3, a4, a5⟩ := mpStep_keeps h1
    obtain ⟨b1, b2, b3, b4, b5⟩ := ih _ _ _ _ _ h
    exact ⟨b1.trans a1, b2.trans a2, b3.trans a3, b4.trans a4, forall₂_trans a5 b5⟩

/-- The heaters are one heater of capacity `cap`. -/
def OneHeater (ws : List (Heater K)) (cap : K) (sched : Option (List String)) (cmap : Option (ControlMap K)) : Prop :=
  ∃ w, ws = [w] ∧ w.perf = some (.nominal cap) ∧ w.sched = sched ∧ w.cmap = cmap

theorem oneHeater_congr {ws ws' : List (Heater K)} {cap : K} {sched : Option (List String)} {cmap : Option (ControlMap K)}
    (h : List.Forall₂ SameHeater ws ws') (hw : OneHeater ws cap sched cmap) : OneHeater ws' cap sched cmap := by
  obtain ⟨w, rfl, h1, h2, h3⟩ := hw
  cases h with
  | cons a t =>
    cases t
    exact ⟨_, rfl, a.1.trans h1, a.2.1.trans h2, a.2.2.trans h3⟩

theorem boostLoop_spec (b : Building K) (sched : Option (List String)) (cmap : Option (ControlMap K)) (cold start pu : K)
    (days : ℕ) : ∀ n (s s' : MpSim K) (cap cap' : K), boostLoop b sched cmap cold start pu days n s cap = .ok (s', cap') →
    OneHeater s.heaters cap sched cmap →
    cap ≤ cap' ∧ OneHeater s'.heaters cap' sched cmap ∧ s'.tank.base.vol = s.tank.base.vol := by
  intro n
  induction n with
  | zero =>
    intro s s' cap cap' h hw
    unfold boostLoop at h
    simp only [Except.ok.injEq, Prod.mk.injEq] at h
    obtain ⟨rfl, rfl⟩ := h
    exact ⟨le_rfl, hw, rfl⟩
  | succ n ih =>
    intro s s' cap cap' h hw
    unfold boostLoop at h
    simp only [bind_eq_ok] at h
    obtain ⟨⟨s1, r⟩, h1, h⟩ := h
    obtain ⟨a1, a2, a3, a4, a5⟩ := trialLoop_keeps _ _ _ _ _ _ _ h1
    have hv : (s.tank.init s.storage cold start).base.vol = s.tank.base.vol := by
      unfold SlugTank.init; simp only; split <;> rfl
    dsimp only at a4 a5 h
    have hw1 := oneHeater_congr a5 hw
    split at h
    · rename_i hdef
      split at h
      · rename_i hk
        obtain ⟨b1, b2, b3⟩ := ih _ _ _ _ h ⟨_, rfl, rfl, rfl, rfl⟩
        have hdef' : (0 : K) < (r.deficit : K) := Int.cast_pos.2 hdef
        refine ⟨le_trans ?_ b1, b2, b3.trans (a4.trans hv)⟩
        have := div_pos hk (div_pos hdef' (by norm_num : (0 : K) < 60))
        linarith
      · obtain ⟨b1, b2, b3⟩ := ih _ _ _ _ h hw1
        exact ⟨b1, b2, b3.trans (a4.trans hv)⟩
    · simp only [pure_eq_ok, Except.ok.injEq, Prod.mk.injEq] at h
      obtain ⟨rfl, rfl⟩ := h
      exact ⟨le_rfl, hw1, a4.trans hv⟩

/-- **C95.** The trial simulations with which `from_size` corrects a multi-pass system only ever raise its capacity: the
system reports a capacity of at least what sizing asked for and the storage sizing asked for, and the simulated system has
one heater of that capacity, with the user's schedule and controls, and a tank of that storage. -/
theorem C95_boost (db : ShapeFiles K) (c : SysCfg K) (l : RtpLoop K) (b b' : Building K) (sched : Option (List String))
    (cmap : Option (ControlMap K)) (slope pu : K) (days iterations : ℕ) (s : MpSys K) (sim : MpSim K)
    (h : mpFromSize db c l b sched cmap slope pu days iterations = (b', .ok (s, sim))) :
    ∃ s0 cap0 cap vol, MpSys.size db { base := { cfg := c }, loop := l } b cmap slope = ((s0, b'), .ok ()) ∧
      getMinCapacity s0.base = .ok cap0 ∧ getMinStorage s0.base = .ok vol ∧
      getMinCapacity s.base = .ok cap ∧ getMinStorage s.base = .ok vol ∧ cap0 ≤ cap ∧
      OneHeater sim.heaters cap sched cmap ∧ sim.tank.base.vol = vol := by
  unfold mpFromSize at h
  split at h
  · simp at h
  · split at h
    · simp at h
    · rename_i s0 b0 hsz
      simp only [Prod.mk.injEq, bind_eq_ok] at h
      obtain ⟨rfl, cap0, h1, vol, h2, cold, h3, inlet, h4, h⟩ := h
      split at h
      · simp at h
      · simp only [bind_eq_ok, pure_eq_ok, Except.ok.injEq, Prod.mk.injEq] at h
        obtain ⟨⟨sim', cap⟩, h5, rfl, rfl⟩ := h
        obtain ⟨k1, k2, k3⟩ := boostLoop_spec _ _ _ _ _ _ _ _ _ _ _ _ h5 ⟨_, rfl, rfl, rfl, rfl⟩
        exact ⟨s0, cap0, cap, vol, hsz, h1, h2, rfl, h2, k1, k2, k3⟩

/-- Without trial iterations, the demo system is returned as sized: the hypothesis of C95 can be met. -/
example : ∃ b' s sim, mpFromSize Demo.noFiles Demo.cfg ⟨110, 3⟩ Demo.building (some Demo.allNormal) (some Demo.lowSensor) 2 1 1 0
    = (b', .ok (s, sim)) := by
  obtain ⟨s', b', cap, st, h1, h2, h3, _⟩ := Demo.mp_sizes
  have hb : b' = Demo.building := by
    have := (C70_multi_pass_building Demo.noFiles Demo.mp Demo.building (some Demo.lowSensor) 2).2 (by decide +kernel)
    rw [h1] at this; exact this
  subst hb
  unfold mpFromSize
  rw [if_neg (by decide +kernel)]
  have h1' : MpSys.size Demo.noFiles { base := { cfg := Demo.cfg }, loop := ⟨110, 3⟩ } Demo.building (some Demo.lowSensor) 2 =
    ((s', Demo.building), .ok ()) := h1
  have h4 : requireDesignInlet Demo.building = .ok 50 := by decide +kernel
  have h5 : designInletOr Demo.building = .ok 50 := by decide +kernel
  rw [h1']
  simp only [h2, h3, h4, h5, ok_bind]
  exact ⟨_, _, _, rfl⟩

end Eco
