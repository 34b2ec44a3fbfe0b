import Verif.Spec.Efficiency
import Verif.Props.Report
import Verif.Props.Catalogue
import Verif.Props.RepeatLoop
import Verif.Props.MultiPassSim

/-! C142: the efficiency of a run lies between the lowest and the highest efficiency of its heaters. -/

set_option linter.unusedSectionVars false

namespace Eco
open Spec
variable {K : Type} [Field K] [LinearOrder K] [IsStrictOrderedRing K]

theorem getCop_within {w : Heater K} {lo hi oat outlet : K} {inlet : Option K} (h : CopWithin lo hi w oat outlet inlet)
    {q : Option K} (hq : w.getCapacity (some oat) outlet inlet = .ok q) {p : Option K}
    (hp : w.getPower (some oat) outlet inlet = .ok p) : BetweenTimes lo hi (q.getD 0) (p.getD 0) := by
  obtain ⟨m, cop, hm, hc, h1, h2⟩ := h
  have hk := wToKbtuh_pos (K := K)
  unfold Heater.getCapacity at hq
  unfold Heater.getPower at hp
  rw [hm] at hq hp
  unfold PerfMap.getCop at hc
  simp only [bind_eq_ok] at hc
  obtain ⟨cap, e1, pw, e2, hc⟩ := hc
  simp only [e1, ok_bind, pure_eq_ok, Except.ok.injEq] at hq
  simp only [e2, Except.ok.injEq] at hp
  subst hp
  cases pw with
  | none => simp [pure_eq_ok] at hc
  | some x =>
    simp only at hc
    split at hc
    · simp [pure_eq_ok] at hc
    · rename_i hx
      simp only [pure_eq_ok, Except.ok.injEq, Option.some.injEq] at hc
      have hx' := not_le.mp hx
      have e : cap = cop * (x * wToKbtuh K) := by rw [← hc]; field_simp
      rw [← hq]
      have hpos := mul_pos hx' hk
      refine ⟨?_, ?_⟩ <;> simp only [Option.getD_some] <;> rw [e]
      · exact mul_le_mul_of_nonneg_right h1 hpos.le
      · exact mul_le_mul_of_nonneg_right h2 hpos.le

theorem between_zero (lo hi : K) : BetweenTimes lo hi 0 0 := by simp [BetweenTimes]

theorem between_add {lo hi q q' e e' : K} (h : BetweenTimes lo hi q e) (h' : BetweenTimes lo hi q' e') :
    BetweenTimes lo hi (q + q') (e + e') := by
  unfold BetweenTimes at *
  constructor
  · linarith [h.1, h'.1, mul_add lo (e * wToKbtuh K) (e' * wToKbtuh K), add_mul e e' (wToKbtuh K)]
  · rw [add_mul, mul_add]; linarith [h.2, h'.2]

theorem between_mul {lo hi q e c : K} (hc : 0 ≤ c) (h : BetweenTimes lo hi q e) : BetweenTimes lo hi (q * c) (e * c) := by
  unfold BetweenTimes at *
  constructor
  · have := mul_le_mul_of_nonneg_right h.1 hc
    calc _ = lo * (e * wToKbtuh K) * c := by ring
      _ ≤ _ := this
  · have := mul_le_mul_of_nonneg_right h.2 hc
    calc _ ≤ hi * (e * wToKbtuh K) * c := this
      _ = _ := by ring

/-- Every hour's setting of these heaters has a COP within the limits. -/
def AllCop (lo hi : K) (ws : List (Heater K)) (oat : K) (inlet : Option K) : Prop :=
  ∀ w ∈ ws, ∀ hour c, InForce w hour c → CopWithin lo hi w oat c.outlet inlet

theorem outletTemp_ok {w : Heater K} {hour : ℕ} {x : K} (h : w.getOutletTemp hour = .ok x) :
    ∃ c, InForce w hour c ∧ x = c.outlet := by
  unfold Heater.getOutletTemp at h
  rw [bind_eq_ok] at h
  obtain ⟨c, h1, h2⟩ := h
  cases c with
  | none => simp at h2
  | some c =>
    simp only [pure_eq_ok, Except.ok.injEq] at h2
    exact ⟨c, inForce_iff.mpr h1, h2.symm⟩

theorem output_within {lo hi oat : K} {inlet : Option K} {hour : ℕ} : ∀ {ws : List (Heater K)} {q : K} {kws : List (Option K)},
    AllCop lo hi ws oat inlet → totalOutput ws oat hour inlet = .ok q → activeKws ws oat hour inlet = .ok kws →
    BetweenTimes lo hi q (kws.map (·.getD 0)).sum := by
  intro ws
  induction ws with
  | nil =>
    intro q kws _ h1 h2
    simp only [totalOutput, List.mapM_nil, ok_bind, pure_eq_ok, List.sum_nil, Except.ok.injEq] at h1
    simp only [activeKws, List.filter_nil, List.mapM_nil, pure_eq_ok, Except.ok.injEq] at h2
    subst h1; subst h2
    simpa using between_zero lo hi
  | cons w ws ih =>
    intro q kws hc h1 h2
    simp only [totalOutput, List.mapM_cons, bind_eq_ok, pure_eq_ok, Except.ok.injEq] at h1
    obtain ⟨vs, ⟨v, ⟨x, hx, hv⟩, vs', hvs, rfl⟩, rfl⟩ := h1
    have ht : totalOutput ws oat hour inlet = .ok vs'.sum := by
      unfold totalOutput
      have : ws.mapM (fun w => w.getOutletTemp hour >>= fun o => w.getOutput (some oat) o inlet) = .ok vs' := hvs
      rw [this]; rfl
    unfold activeKws at h2
    cases ha : w.active with
    | false =>
      rw [List.filter_cons_of_neg (by simp [ha])] at h2
      have h := ih (fun w' h' => hc w' (List.mem_cons_of_mem _ h')) ht h2
      have : v = 0 := by simpa [Heater.getOutput, ha, eq_comm] using hv
      subst this
      simpa using h
    | true =>
      rw [List.filter_cons_of_pos (by simp [ha])] at h2
      simp only [List.mapM_cons, bind_eq_ok, pure_eq_ok, Except.ok.injEq] at h2
      obtain ⟨p, ⟨y, hy, hp⟩, ks, hks, rfl⟩ := h2
      have h := ih (fun w' h' => hc w' (List.mem_cons_of_mem _ h')) ht hks
      obtain rfl : x = y := by rw [hx] at hy; exact Except.ok.inj hy
      obtain ⟨c, hf, rfl⟩ := outletTemp_ok hx
      unfold Heater.getOutput at hv
      rw [if_neg (by simp [ha])] at hv
      simp only [bind_eq_ok, pure_eq_ok, Except.ok.injEq] at hv
      obtain ⟨cap, hcap, rfl⟩ := hv
      have := getCop_within (hc w (by simp) hour c hf) hcap hp
      simpa using between_add this h

theorem totalKw_getD (kws : List (Option K)) : (totalKw kws).getD 0 = (kws.map (·.getD 0)).sum := by
  unfold totalKw
  split
  · rfl
  · rename_i h
    have : ∀ x ∈ kws, x = none := by
      intro x hx
      cases x with
      | none => rfl
      | some y => exact absurd (List.any_eq_true.mpr ⟨_, hx, rfl⟩) h
    rw [Option.getD_none]
    symm
    apply List.sum_eq_zero
    intro y hy
    obtain ⟨x, hx, rfl⟩ := List.mem_map.mp hy
    rw [this x hx]; rfl

theorem allCop_same {lo hi oat : K} {inlet : Option K} {ws ws' : List (Heater K)} (h : List.Forall₂ SameHeater ws ws')
    (hc : AllCop lo hi ws oat inlet) : AllCop lo hi ws' oat inlet := by
  intro w' hw hour c hf
  obtain ⟨w, hw0, hs⟩ : ∃ w ∈ ws, SameHeater w w' := by
    clear hc hf
    induction h with
    | nil => simp at hw
    | cons a b ih =>
      rcases List.mem_cons.mp hw with rfl | hw
      · exact ⟨_, by simp, a⟩
      · obtain ⟨w, h1, h2⟩ := ih hw; exact ⟨w, List.mem_cons_of_mem _ h1, h2⟩
  have := hc w hw0 hour c ((hs.inForce hour c).mp hf)
  unfold CopWithin at *
  rwa [hs.1]

theorem sum_between {ι : Type} {lo hi : K} (q e : ι → K) : ∀ (l : List ι), (∀ x ∈ l, BetweenTimes lo hi (q x) (e x)) →
    BetweenTimes lo hi (l.map q).sum (l.map e).sum := by
  intro l
  induction l with
  | nil => intro _; simpa using between_zero lo hi
  | cons x l ih =>
    intro h
    simpa using between_add (h x (by simp)) (ih (fun y hy => h y (List.mem_cons_of_mem _ hy)))

theorem sum_filterMap_getD (l : List (StepOut K)) (f : StepOut K → Option K) (c : K) :
    ((l.filterMap f).map (fun x => x * c)).sum = (l.map (fun o => (f o).getD 0 * c)).sum := by
  induction l with
  | nil => rfl
  | cons o l ih =>
    cases e : f o with
    | none => simp [e, ih]
    | some x => simp [e, ih]

/-- The energy of a run from its recorded steps. -/
theorem energy_outs {r : SimRun K} {outs : List (StepOut K)} (h : Recorded r outs) :
    r.totalEnergy = (outs.map (fun o => (o.power.getD 0 + o.tmInput.getD 0) * ((r.ts : K) / 60))).sum := by
  unfold SimRun.totalEnergy SimRun.hoursPerStep
  rw [h.power, h.tmInput, sum_filterMap_getD, List.map_map]
  generalize (r.ts : K) / 60 = c
  clear h
  induction outs with
  | nil => simp
  | cons o l ih =>
    simp only [List.map_cons, List.sum_cons, Function.comp_apply] at ih ⊢
    rw [← ih]; ring

theorem heat_outs {r : SimRun K} {outs : List (StepOut K)} (h : Recorded r outs) :
    runHeat r = (outs.map (fun o => (o.output + o.tmOutput.getD 0) * ((r.ts : K) / 60))).sum := by
  unfold runHeat primaryHeat tmHeat
  rw [h.output, h.tmOutput, sum_filterMap_getD, List.map_map]
  generalize (r.ts : K) / 60 = c
  clear h
  induction outs with
  | nil => simp
  | cons o l ih =>
    simp only [List.map_cons, List.sum_cons, Function.comp_apply] at ih ⊢
    rw [← ih]; ring

/-- A run all of whose steps are within the limits is within the limits. -/
theorem run_between {S : Type} {step : ℕ → S → ℕ → Py (S × StepOut K)} {supply : K} {tm : Bool} {thr : K} {maxMin : Int}
    {duration : String} {s s' : S} {r : SimRun K} {lo hi : K} (P : S → Prop)
    (h : simulateFrom step supply tm thr maxMin duration s = .ok (s', r)) (h0 : P s)
    (hs : ∀ s i s' o, P s → step r.ts s i = .ok (s', o) →
      P s' ∧ BetweenTimes lo hi (o.output + o.tmOutput.getD 0) (o.power.getD 0 + o.tmInput.getD 0)) :
    BetweenTimes lo hi (runHeat r) r.totalEnergy := by
  obtain ⟨dur, ts, outs, hd, e1, rfl, ht, hr, _⟩ := simulate_spec _ _ _ _ _ _ _ _ _ h
  have hq := (trace_forall P (fun _ o => BetweenTimes lo hi (o.output + o.tmOutput.getD 0) (o.power.getD 0 + o.tmInput.getD 0))
    hs outs s s' 0 h0 ht).2
  rw [energy_outs hr, heat_outs hr]
  apply sum_between (fun o : StepOut K => (o.output + o.tmOutput.getD 0) * ((r.ts : K) / 60))
  intro o ho
  obtain ⟨j, hj⟩ := List.getElem?_of_mem ho
  exact between_mul (by positivity) (hq j o hj)

/-- The heaters are those of `ws`, apart from being on or off. -/
def Kept (ws ws' : List (Heater K)) : Prop := List.Forall₂ SameHeater ws ws'

/-- All conditions of the building at time step `ts` are such that the heaters' COPs are within the limits. -/
def CopAll (lo hi : K) (ws : List (Heater K)) (b : Building K) (ts : ℕ) : Prop :=
  ∀ i oat inlet, b.getOat i ts = .ok oat → b.getInlet i ts = .ok inlet → AllCop lo hi ws oat (some inlet)

theorem inputs_weather {s : Prim K} {b : Building K} {t int : ℕ} {i : StepIn K} (h : s.inputs b t int = .ok i) :
    b.getOat t int = .ok i.oat ∧ b.getInlet t int = .ok i.inlet := by
  unfold Prim.inputs at h
  simp only [bind_eq_ok, pure_eq_ok, Except.ok.injEq] at h
  obtain ⟨d, _, oat, h1, inlet, h2, _, _, _, _, rfl⟩ := h
  exact ⟨h1, h2⟩

theorem heat_between {lo hi : K} {ws0 ws ws' : List (Heater K)} {tank tank' : StratTank K} {i : StepIn K} {int : ℕ} {q : K}
    {kws : List (Option K)} {b : Building K} {t : ℕ} (hc : CopAll lo hi ws0 b int) (hk : Kept ws0 ws)
    (ho : b.getOat t int = .ok i.oat) (hi' : b.getInlet t int = .ok i.inlet)
    (h : heatPrimary ws tank i int = .ok (ws', tank', q, kws)) :
    Kept ws0 ws' ∧ BetweenTimes lo hi q (kws.map (·.getD 0)).sum := by
  obtain ⟨h1, _, _, h2, h3, _⟩ := heatPrimary_ok h
  have hk' : Kept ws0 ws' := forall₂_trans hk (updateAll_same h1)
  exact ⟨hk', output_within (allCop_same hk' (hc t _ _ ho hi')) h2 h3⟩

theorem prim_between {lo hi : K} {ws0 : List (Heater K)} {s s' : Prim K} {b : Building K} {int t : ℕ} {o : StepOut K}
    (hc : CopAll lo hi ws0 b int) (hk : Kept ws0 s.heaters) (h : Prim.step b int s t = .ok (s', o)) :
    Kept ws0 s'.heaters ∧ BetweenTimes lo hi o.output (o.power.getD 0) ∧ o.tmOutput = none ∧ o.tmInput = none ∧
      b.getOat t int = .ok o.oat := by
  unfold Prim.step at h
  rw [bind_eq_ok] at h
  obtain ⟨i, hi', h⟩ := h
  obtain ⟨ho, hin⟩ := inputs_weather hi'
  cases ht : s.tank with
  | none =>
    simp only [ht, pure_eq_ok, Except.ok.injEq, Prod.mk.injEq] at h
    obtain ⟨rfl, rfl⟩ := h
    exact ⟨hk, by simpa using between_zero lo hi, rfl, rfl, ho⟩
  | some tank =>
    simp only [ht, bind_eq_ok, pure_eq_ok, Except.ok.injEq, Prod.mk.injEq] at h
    obtain ⟨⟨ws, tk, q, kws⟩, hh, rfl, rfl⟩ := h
    obtain ⟨h1, h2⟩ := heat_between hc hk ho hin hh
    exact ⟨h1, by rw [totalKw_getD]; exact h2, rfl, rfl, ho⟩

/-- **C142 (primary).** If under all conditions of the building's climate all heaters of a system have a COP between `lo` and
`hi`, the heat given off in a run is between `lo` and `hi` times the energy the run reports. -/
theorem C142_primary (s s' : Prim K) (b : Building K) (thr : K) (maxMin : Int) (duration : String) (r : SimRun K) (lo hi : K)
    (h : s.simulate b thr maxMin duration = .ok (s', r))
    (hc : ∀ i oat inlet, b.getOat i r.ts = .ok oat → b.getInlet i r.ts = .ok inlet → ∀ w ∈ s.heaters, ∀ hour c,
      InForce w hour c → CopWithin lo hi w oat c.outlet (some inlet)) :
    BetweenTimes lo hi (runHeat r) r.totalEnergy := by
  unfold Prim.simulate Prim.init at h
  simp only [bind_eq_ok, pure_eq_ok, Except.ok.injEq] at h
  obtain ⟨_, _, s1, ⟨cold, _, rfl⟩, h⟩ := h
  refine run_between (fun x : Prim K => Kept s.heaters x.heaters) h (sameHeater_refl _) ?_
  intro x i x' o hx hs
  obtain ⟨h1, h2, h3, h4, _⟩ := prim_between (hc := fun i oat inlet a b => hc i oat inlet a b) hx hs
  exact ⟨h1, by simpa [h3, h4] using h2⟩

/-- **C142 (single pass).** -/
theorem C142_single_pass (l : RtpLoop K) (s s' : Prim K) (b : Building K) (thr : K) (maxMin : Int) (duration : String)
    (r : SimRun K) (lo hi : K) (h : spSimulate l s b thr maxMin duration = .ok (s', r))
    (hc : ∀ i oat inlet, b.getOat i r.ts = .ok oat → b.getInlet i r.ts = .ok inlet → ∀ w ∈ s.heaters, ∀ hour c,
      InForce w hour c → CopWithin lo hi w oat c.outlet (some inlet)) :
    BetweenTimes lo hi (runHeat r) r.totalEnergy := by
  unfold spSimulate Prim.init at h
  simp only [bind_eq_ok, pure_eq_ok, Except.ok.injEq] at h
  obtain ⟨_, _, s1, ⟨cold, _, rfl⟩, h⟩ := h
  refine run_between (fun x : Prim K => Kept s.heaters x.heaters) h (sameHeater_refl _) ?_
  intro x i x' o hx hs
  unfold spStep at hs
  rw [bind_eq_ok] at hs
  obtain ⟨⟨y, p⟩, hp, hs⟩ := hs
  obtain ⟨h1, h2, h3, h4, _⟩ := prim_between (hc := fun i oat inlet a b => hc i oat inlet a b) hx hp
  cases ht : y.tank with
  | none =>
    simp only [ht, pure_eq_ok, Except.ok.injEq, Prod.mk.injEq] at hs
    obtain ⟨rfl, rfl⟩ := hs
    exact ⟨h1, by simpa [h3, h4] using h2⟩
  | some tank =>
    simp only [ht, pure_eq_ok, Except.ok.injEq, Prod.mk.injEq] at hs
    obtain ⟨rfl, rfl⟩ := hs
    exact ⟨h1, by simpa [h3, h4] using h2⟩

theorem tm_between {lo hi : K} {c : TmCfg K} {oat : K} {hour : ℕ} {dur : K} {w0 w : Heater K} {tank : MixedTank K}
    {s' : MixedTank K × Heater K} {o : TmOut K}
    (hc : ∀ outlet, CopWithin lo hi w0 oat outlet (some ((c.off + c.on) / 2))) (hw : SameHeater w0 w)
    (h : tmStep c (some oat) hour dur (tank, w) = (s', .ok o)) :
    SameHeater w0 s'.2 ∧ BetweenTimes lo hi o.kbtuh (o.kw.getD 0) := by
  unfold tmStep at h
  simp only at h
  split at h
  · simp at h
  · have hf := updateState_fixed w ⟨fun f => .ok ((tank.recirc c.flow c.ret dur).tempAt f), hour⟩
    simp only at hf
    generalize hu : w.updateState (fun f => .ok ((tank.recirc c.flow c.ret dur).tempAt f)) hour = u at h hf
    obtain ⟨w1, e | u⟩ := u
    · simp at h
    · simp only at h hf
      have hw1 : SameHeater w0 w1 := ⟨hf.2.2.trans hw.1, hf.1.trans hw.2.1, hf.2.1.trans hw.2.2⟩
      split at h
      · simp at h
      · rename_i each he
        split at h
        · simp at h
        · rename_i kw hk
          simp only [Prod.mk.injEq, Except.ok.injEq] at h
          obtain ⟨rfl, rfl⟩ := h
          refine ⟨hw1, ?_⟩
          have hb : BetweenTimes lo hi each (kw.getD 0) := by
            unfold Heater.getOutput at he
            cases ha : w1.active with
            | false =>
              simp only [ha, if_true, Except.ok.injEq, Bool.false_eq_true, if_false] at he hk
              subst he; subst hk
              simpa using between_zero lo hi
            | true =>
              simp only [ha, Bool.true_eq_false, if_false, if_true, bind_eq_ok, pure_eq_ok, Except.ok.injEq] at he hk
              obtain ⟨cap, hcap, rfl⟩ := he
              have hcw : CopWithin lo hi w1 oat ((tank.recirc c.flow c.ret dur).tempAt 1) (some ((c.off + c.on) / 2)) := by
                have := hc ((tank.recirc c.flow c.ret dur).tempAt 1)
                unfold CopWithin at *
                rwa [hw1.1]
              exact getCop_within hcw hcap hk
          have := between_mul (c := (c.num : K)) (by positivity) hb
          cases kw with
          | none => simpa using this
          | some x => simpa using this

/-- **C142 (parallel loop).** The same for primary heaters and the heater of the loop tank together. -/
theorem C142_parallel (c : TmCfg K) (s s' : ParSim K) (b : Building K) (thr : K) (maxMin : Int) (duration : String)
    (r : SimRun K) (lo hi : K) (h : parSimulate c s b thr maxMin duration = .ok (s', r))
    (hc : ∀ i oat inlet, b.getOat i r.ts = .ok oat → b.getInlet i r.ts = .ok inlet → ∀ w ∈ s.prim.heaters, ∀ hour c,
      InForce w hour c → CopWithin lo hi w oat c.outlet (some inlet))
    (hm : ∀ i oat outlet, b.getOat i r.ts = .ok oat → CopWithin lo hi s.tmHeater oat outlet (some ((c.off + c.on) / 2))) :
    BetweenTimes lo hi (runHeat r) r.totalEnergy := by
  unfold parSimulate Prim.init at h
  simp only [bind_eq_ok, pure_eq_ok, Except.ok.injEq] at h
  obtain ⟨_, _, s1, ⟨cold, _, rfl⟩, cold', _, h⟩ := h
  refine run_between (fun x : ParSim K => Kept s.prim.heaters x.prim.heaters ∧ SameHeater s.tmHeater x.tmHeater) h
    ⟨sameHeater_refl _, rfl, rfl, rfl⟩ ?_
  rintro x i x' o ⟨hx, hw⟩ hs
  unfold parStep at hs
  rw [bind_eq_ok] at hs
  obtain ⟨⟨y, p⟩, hp, hs⟩ := hs
  obtain ⟨h1, h2, h3, h4, h5⟩ := prim_between (hc := fun i oat inlet a b => hc i oat inlet a b) hx hp
  simp only at hs
  split at hs
  · simp at hs
  · rename_i tank w tm ht
    simp only [pure_eq_ok, Except.ok.injEq, Prod.mk.injEq] at hs
    obtain ⟨rfl, rfl⟩ := hs
    obtain ⟨k1, k2⟩ := tm_between (fun outlet => hm i p.oat outlet h5) hw ht
    exact ⟨⟨h1, k1⟩, by simpa using between_add h2 k2⟩

theorem swingKw_getD (kws : List (Option K)) (tm : Option K) : (swingKw kws tm).getD 0 = (kws.map (·.getD 0)).sum := by
  unfold swingKw
  cases kws with
  | nil => cases tm <;> simp
  | cons a l => simp

theorem swing_between {lo hi : K} {ws0 : List (Heater K)} {s s' : SwingSim K} {b : Building K} {int t : ℕ} {o : StepOut K}
    (hc : CopAll lo hi ws0 b int) (hk : Kept ws0 s.heaters) (h : swingSimStep b int s t = .ok (s', o)) :
    Kept ws0 s'.heaters ∧ BetweenTimes lo hi o.output (o.power.getD 0) ∧
      o.tmOutput.getD 0 = o.tmInput.getD 0 * wToKbtuh K := by
  unfold swingSimStep at h
  simp only [bind_eq_ok] at h
  obtain ⟨i, hi', ⟨ws, tank, q, kws⟩, hh, hw, _, h⟩ := h
  obtain ⟨ho, hin⟩ := inputs_weather hi'
  obtain ⟨h1, h2⟩ := heat_between hc hk ho hin hh
  split at h
  · simp at h
  · simp only [bind_eq_ok, pure_eq_ok, Except.ok.injEq, Prod.mk.injEq] at h
    obtain ⟨⟨w, tq, tk, tm⟩, _, rfl, rfl⟩ := h
    have hk := (wToKbtuh_pos (K := K)).ne'
    refine ⟨h1, by rw [swingKw_getD]; exact h2, ?_⟩
    simp only [Option.getD_some]
    field_simp

/-- **C142 (swing).** The element in the swing tank takes what it gives off; the rest of the energy is that of the primary
heaters. -/
theorem C142_swing (off : K) (s s' : SwingSim K) (b : Building K) (thr : K) (maxMin : Int) (duration : String)
    (r : SimRun K) (lo hi : K) (h : swingSimulate off s b thr maxMin duration = .ok (s', r))
    (hc : ∀ i oat inlet, b.getOat i r.ts = .ok oat → b.getInlet i r.ts = .ok inlet → ∀ w ∈ s.heaters, ∀ hour c,
      InForce w hour c → CopWithin lo hi w oat c.outlet (some inlet)) :
    BetweenTimes lo hi (primaryHeat r) (r.totalEnergy - tmHeat r / wToKbtuh K) := by
  unfold swingSimulate at h
  simp only [bind_eq_ok] at h
  obtain ⟨_, _, cold, _, h⟩ := h
  obtain ⟨dur, ts, outs, hd, e1, rfl, ht, hr, hrest⟩ := simulate_spec _ _ _ _ _ _ _ _ _ h
  clear hrest
  generalize hs0 : ({ s with tank := s.tank.init s.storage cold (initialUseable s.heaters), tm := s.tm.init off cold } :
    SwingSim K) = s0 at ht
  have h0 : Kept s.heaters s0.heaters := by rw [← hs0]; exact sameHeater_refl _
  have hq := (trace_forall (fun x : SwingSim K => Kept s.heaters x.heaters)
    (fun _ o => BetweenTimes lo hi o.output (o.power.getD 0) ∧ o.tmOutput.getD 0 = o.tmInput.getD 0 * wToKbtuh K)
    (fun x i x' o (hx : Kept s.heaters x.heaters) hs => swing_between (hc := fun i oat inlet a b => hc i oat inlet a b) hx hs)
    outs s0 s' 0 h0 ht).2
  have hk := (wToKbtuh_pos (K := K)).ne'
  have e : r.totalEnergy - tmHeat r / wToKbtuh K = (outs.map (fun o => o.power.getD 0 * ((r.ts : K) / 60))).sum := by
    have hall : ∀ o ∈ outs, o.tmOutput.getD 0 = o.tmInput.getD 0 * wToKbtuh K := by
      intro o ho
      obtain ⟨j, hj⟩ := List.getElem?_of_mem ho
      exact (hq j o hj).2
    rw [energy_outs hr]
    unfold tmHeat
    rw [hr.tmOutput, sum_filterMap_getD]
    generalize (r.ts : K) / 60 = c
    clear hq ht hr
    induction outs with
    | nil => simp
    | cons o l ih =>
      have := ih (fun x hx => hall x (List.mem_cons_of_mem _ hx))
      simp only [List.map_cons, List.sum_cons]
      rw [← this, hall o (by simp)]
      field_simp
      ring
  rw [e]
  unfold primaryHeat
  rw [hr.output, List.map_map]
  apply sum_between (fun o : StepOut K => o.output * ((r.ts : K) / 60))
  intro o ho
  obtain ⟨j, hj⟩ := List.getElem?_of_mem ho
  exact between_mul (by positivity) (hq j o hj).1

/-- **C142 (multi-pass).** Multi-pass heaters are asked for their output without an inlet temperature. -/
theorem C142_multi_pass (s s' : MpSim K) (b : Building K) (thr : K) (maxMin : Int) (duration : String)
    (r : SimRun K) (lo hi : K) (h : mpSimulate s b thr maxMin duration = .ok (s', r))
    (hc : ∀ i oat, b.getOat i r.ts = .ok oat → ∀ w ∈ s.heaters, ∀ hour c,
      InForce w hour c → CopWithin lo hi w oat c.outlet none) :
    BetweenTimes lo hi (runHeat r) r.totalEnergy := by
  unfold mpSimulate at h
  simp only [bind_eq_ok] at h
  obtain ⟨_, _, cold, _, h⟩ := h
  refine run_between (fun x : MpSim K => Kept s.heaters x.heaters) h (sameHeater_refl _) ?_
  intro x i x' o hx hs
  unfold mpStep at hs
  simp only [bind_eq_ok] at hs
  obtain ⟨d, _, oat, ho, inlet, hin, mode, _, hs⟩ := hs
  split at hs
  · simp at hs
  · simp only [bind_eq_ok, pure_eq_ok, Except.ok.injEq, Prod.mk.injEq] at hs
    obtain ⟨ws, hu, ⟨q, kw⟩, hq, ⟨dr, mv⟩, _, rfl, rfl⟩ := hs
    have hk : Kept s.heaters ws := forall₂_trans hx (updateAll_same hu)
    unfold mpOutput at hq
    simp only [bind_eq_ok, pure_eq_ok, Except.ok.injEq, Prod.mk.injEq] at hq
    obtain ⟨q', hq1, kws, hq2, rfl, rfl⟩ := hq
    refine ⟨hk, ?_⟩
    have := output_within (allCop_same hk (hc i oat ho)) hq1 hq2
    simpa [totalKw_getD] using this

namespace Demo

/-- The demo building in a place where the outdoor temperature changes between 20 °F and 60 °F every hour. -/
def changing : Building ℚ :=
  ⟨some ⟨none, some [20, 60], none, none, some 50⟩, 1000, shape, shape, "custom"⟩

theorem changing_oat (i ts : ℕ) : changing.getOat i ts = .ok 20 ∨ changing.getOat i ts = .ok 60 := by
  show pyGet [20, 60] ((i * ts / 60) % 2) = _ ∨ pyGet [20, 60] ((i * ts / 60) % 2) = _
  rcases Nat.mod_two_eq_zero_or_one (i * ts / 60) with h | h <;> rw [h]
  · exact .inl rfl
  · exact .inr rfl

theorem changing_answers : Answers changing := by
  refine ⟨fun i ts => ?_, fun _ _ => ⟨50, rfl⟩, ?_, ⟨some 50, by rfl⟩⟩
  · rcases changing_oat i ts with h | h <;> exact ⟨_, h⟩
  · intro i ts avg
    unfold Building.getDhwLoad
    have e : (if avg then changing.avgShape else changing.peakShape) = shape := by cases avg <;> rfl
    simp only [e]
    rw [if_neg (by decide)]
    rw [pyGet_of_lt (Nat.mod_lt _ (by decide))]
    exact ⟨_, rfl⟩

theorem heatPump_cop (i ts : ℕ) (oat inlet : ℚ) (h : changing.getOat i ts = .ok oat) (h' : changing.getInlet i ts = .ok inlet)
    (hour : ℕ) (c : Controls ℚ) (_ : InForce heatPump hour c) : CopWithin 1 3 heatPump oat c.outlet (some inlet) := by
  obtain rfl : (50 : ℚ) = inlet := Except.ok.inj h'
  have key : ∀ out : ℚ, (PerfMap.sim twoPoint).getCop (some 20) out (some 50) = .ok (some 1) ∧
      (PerfMap.sim twoPoint).getCop (some 60) out (some 50) = .ok (some 3) := by
    intro out
    have e1 : twoPoint.perUnit (some 20) 50 out = twoPoint.perUnit (some 20) 50 0 := rfl
    have e2 : twoPoint.perUnit (some 60) 50 out = twoPoint.perUnit (some 60) 50 0 := rfl
    unfold PerfMap.getCop PerfMap.getCapacity PerfMap.getPower SimMap.getCapacity SimMap.getPower
    simp only [Option.getD_some, e1, e2]
    constructor <;> decide +kernel
  rcases changing_oat i ts with e | e
  · obtain rfl : (20 : ℚ) = oat := Except.ok.inj (e.symm.trans h)
    exact ⟨_, 1, rfl, (key _).1, by norm_num, by norm_num⟩
  · obtain rfl : (60 : ℚ) = oat := Except.ok.inj (e.symm.trans h)
    exact ⟨_, 3, rfl, (key _).2, by norm_num, by norm_num⟩

end Demo

/-- Non-vacuity of C142: the year of a heat pump in that place completes, and its heat is between one and three times its
energy. -/
example : ∃ s' r, Demo.pumped.simulate Demo.changing 5 60 "annual" = .ok (s', r) ∧ BetweenTimes 1 3 (runHeat r) r.totalEnergy := by
  obtain ⟨s', r, h⟩ := C91_completes_partial Demo.pumped Demo.changing 5 60 "annual" (.inr rfl) Demo.changing_answers
    (by intro w hw; obtain rfl : w = Demo.heatPump := by simpa [Demo.pumped] using hw
        exact Demo.heatPump_ready)
    (by rintro t h
        obtain rfl : StratTank.new 200 2 = t := by simpa [Demo.pumped] using h
        exact ⟨by norm_num [StratTank.new], by norm_num [StratTank.new]⟩)
  refine ⟨s', r, h, C142_primary _ _ _ _ _ _ _ _ _ h ?_⟩
  intro i oat inlet h1 h2 w hw
  obtain rfl : w = Demo.heatPump := by simpa [Demo.pumped] using hw
  exact Demo.heatPump_cop i _ oat inlet h1 h2

/-- In its first minute that heat pump is on and takes power. -/
example : ∃ s1 s' o, Demo.pumped.init Demo.changing = .ok s1 ∧ Prim.step Demo.changing 1 s1 0 = .ok (s', o) ∧
    o.power = some 6 ∧ o.output = 6 * wToKbtuh ℚ := by
  have h : (match Demo.pumped.init Demo.changing with
    | .ok s1 => (match Prim.step Demo.changing 1 s1 0 with
      | .ok (_, o) => decide (o.power = some 6) && decide (o.output = 6 * wToKbtuh ℚ)
      | .error _ => false)
    | .error _ => false) = true := by decide +kernel
  split at h
  · rename_i s1 h1
    split at h
    · rename_i s' o h2
      simp only [Bool.and_eq_true, decide_eq_true_eq] at h
      exact ⟨s1, s', o, h1, h2, h⟩
    · simp at h
  · simp at h

end Eco
