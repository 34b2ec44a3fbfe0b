import Verif.Model.Build
import Verif.Props.RunHeat
import Verif.Props.SwingSize
import Verif.Props.SwingErCurve
import Verif.Props.MixedTank
import Verif.Props.EnergyTank
import Verif.Props.ParallelLoop

/-! C117: recirculation systems built by `from_size`. C118: what a swing system delivers. -/

namespace Eco
variable {K : Type} [Field K] [LinearOrder K] [IsStrictOrderedRing K]

set_option linter.unusedSectionVars false

open Spec

/-! ## Water taken from the top -/

/-- As long as no more is taken than the tank holds at or above `T`, the water taken is on average at least that warm. -/
theorem StratTank.avgDraw_ge (s : StratTank K) (hv : 0 < s.vol) (hs : 0 < s.slope) {gal T : K} (hin : s.inlet ≤ T)
    (hout : T ≤ s.outlet) (h : min gal s.vol ≤ s.rawUsable T) : T ≤ s.avgDraw gal := by
  set d := min gal s.vol with hd
  unfold StratTank.avgDraw
  simp only
  rw [← hd]
  split
  · exact hout
  rename_i hd0
  have hd0 : 0 < d := not_le.1 hd0
  have hd1 : d ≤ s.vol := min_le_right _ _
  have hx0 : 0 ≤ 100 - d / s.vol * 100 := by
    have : d / s.vol ≤ 1 := by rw [div_le_iff₀ hv]; linarith
    linarith
  have hw : 0 < d / s.vol * 100 := by positivity
  have hT : (T - s.inter) / s.slope - s.shift ≤ 100 - d / s.vol * 100 := by
    have e : 100 - d / s.vol * 100 - ((T - s.inter) / s.slope - s.shift) = (s.rawUsable T - d) * (100 / s.vol) := by
      unfold rawUsable shift; field_simp; ring
    have : 0 ≤ (s.rawUsable T - d) * (100 / s.vol) := mul_nonneg (by linarith) (by positivity)
    linarith
  have hcold : (s.inlet - s.inter) / s.slope - s.shift ≤ (T - s.inter) / s.slope - s.shift := by
    have : (s.inlet - s.inter) / s.slope ≤ (T - s.inter) / s.slope :=
      div_le_div_of_nonneg_right (by linarith) hs.le
    linarith
  rw [max_eq_right hx0]
  have a2 : max 0 (min 100 ((s.inlet - s.inter) / s.slope - s.shift)) ≤ 100 - d / s.vol * 100 :=
    max_le hx0 ((min_le_right _ _).trans (hcold.trans hT))
  set xh := max 0 (min 100 ((s.outlet - s.inter) / s.slope - s.shift)) with hxh
  set xc := max 0 (min 100 ((s.inlet - s.inter) / s.slope - s.shift))
  set xd := 100 - d / s.vol * 100 with hxd
  have hxd' : xd < 100 := by linarith
  have b1 : max 0 (min 100 xc - max xd 0) = 0 := by
    apply max_eq_left
    have := min_le_right 100 xc
    have := le_max_left xd 0
    linarith
  have hxh1 : xh ≤ 100 := max_le (by norm_num) (min_le_left _ _)
  rw [b1, max_eq_left a2, min_eq_right hxh1, if_neg (by linarith : ¬ 100 - xd ≤ 0), le_div_iff₀ (by linarith)]
  have hlow : T ≤ s.slope * (xd + s.shift) + s.inter := by
    have : (T - s.inter) / s.slope ≤ xd + s.shift := by linarith
    rw [div_le_iff₀ hs] at this
    linarith
  split
  · rename_i hlt
    rw [max_eq_right hlt.le, max_eq_right (by linarith)]
    have e : s.slope / 2 * ((xh + s.shift) ^ 2 - (xd + s.shift) ^ 2) + s.inter * (xh - xd) =
        (xh - xd) * ((s.slope * (xd + s.shift) + s.inter) + s.slope * (xh - xd) / 2) := by ring
    rw [e]
    have h1 : (xh - xd) * T ≤ (xh - xd) * ((s.slope * (xd + s.shift) + s.inter) + s.slope * (xh - xd) / 2) := by
      apply mul_le_mul_of_nonneg_left _ (by linarith)
      have : 0 ≤ s.slope * (xh - xd) := mul_nonneg hs.le (by linarith)
      linarith
    have h2 : (100 - xh) * T ≤ (100 - xh) * s.outlet := mul_le_mul_of_nonneg_left hout (by linarith)
    linarith
  · rename_i hlt
    rw [max_eq_left (not_lt.1 hlt), max_eq_right (by linarith)]
    have h2 : (100 - xd) * T ≤ (100 - xd) * s.outlet := mul_le_mul_of_nonneg_left hout (by linarith)
    linarith

/-- If hot water is left after a physical draw, the tank held the draw. -/
theorem StratTank.drawPhysical_left (s : StratTank K) (hv : 0 < s.vol) {gal inlet supply : K}
    (h : 0 < (s.drawPhysical gal inlet (some supply)).usable supply) : min gal s.vol ≤ s.rawUsable supply := by
  obtain ⟨d1, d2, _, _⟩ := drawPhysical_fields s gal inlet (some supply)
  rw [usable_raw _ (by rw [d1]; exact hv)] at h
  have h1 : 0 < (s.drawPhysical gal inlet (some supply)).rawUsable supply := by
    by_contra hc
    rw [max_eq_left ((min_le_right _ _).trans (not_lt.1 hc))] at h
    exact lt_irrefl _ h
  unfold drawPhysical at h1
  simp only at h1
  split at h1
  · unfold rawUsable deltaFloor at h1
    simp only [Option.getD_some] at h1
    rcases max_choice (s.delta - gal) (((supply - s.inter) / s.slope - 100) * s.vol / 100) with e | e
    · rw [e] at h1
      refine (min_le_left _ _).trans ?_
      unfold rawUsable
      linarith
    · rw [e] at h1
      exfalso
      have : s.vol - (supply - s.inter) / s.slope * s.vol / 100 + ((supply - s.inter) / s.slope - 100) * s.vol / 100
          = 0 := by ring
      linarith
  · rename_i hg
    unfold rawUsable at h1 ⊢
    simp only at h1
    exact (min_le_left _ _).trans (by linarith)

/-! ## The swing tank in a step -/

/-- Mixing in water that is not colder than `T` leaves a tank at or above `T` there. -/
theorem MixedTank.mix_ge (s : MixedTank K) (hv : 0 < s.vol) {gal feed T : K} (h1 : T ≤ s.temp) (h2 : T ≤ feed) :
    T ≤ (s.mix gal feed).temp := by
  have hr := rhoCp_pos (K := K)
  unfold MixedTank.mix
  split
  · exact h1
  · rename_i hg
    simp only
    split
    · exact h2
    · rename_i hrem
      simp only
      have hg := not_le.1 hg
      have hrem := not_le.1 hrem
      rw [le_div_iff₀ (mul_pos hv hr)]
      have e1 : gal * rhoCp K * T ≤ gal * rhoCp K * feed := mul_le_mul_of_nonneg_left h2 (by positivity)
      have e2 : (s.vol - gal) * rhoCp K * T ≤ (s.vol - gal) * rhoCp K * s.temp :=
        mul_le_mul_of_nonneg_left h1 (by positivity)
      linarith

theorem mix_vol (s : MixedTank K) (gal feed : K) : (s.mix gal feed).vol = s.vol := by
  unfold MixedTank.mix
  split
  · rfl
  · simp only; split <;> rfl

theorem loss_vol (s : MixedTank K) (q d : K) : (s.loss q d).vol = s.vol := by
  unfold MixedTank.loss; split <;> rfl

theorem heat_vol (s : MixedTank K) (q d o : K) : (s.heat q d o).vol = s.vol := by
  unfold MixedTank.heat; split <;> rfl

theorem swingHeater_controls {w : Heater K} {supply cap : K} (hw : SameHeater (swingHeater supply cap) w) {hour : ℕ}
    (hh : hour < 24) : w.getControls hour = .ok (some (swingControls supply)) := by
  unfold Heater.getControls
  rw [hw.2.1, hw.2.2]
  unfold swingHeater Heater.fromNominal
  simp only
  rw [show pyGet (List.replicate 24 "normal") hour = .ok "normal" from by
    rw [pyGet_eq_ok, List.getElem?_replicate, if_pos hh]]
  rfl

/-- The element of a swing tank, in a step that leaves the tank at `t1`: if a step of heating brings it to supply
temperature, it is there after the step. -/
theorem swingTm_keeps {w w' : Heater K} {supply cap oat kb : K} {kw : Option K} {t1 tm' : MixedTank K} {hour : ℕ}
    {dur : K} (hw : SameHeater (swingHeater supply cap) w) (hh : hour < 24) (hpos : 0 < cap)
    (hT : supply ≤ t1.temp + cap * dur / 60 * 1000 / (t1.vol * rhoCp K))
    (h : swingTm w t1 oat hour dur = .ok (w', kb, kw, tm')) :
    SameHeater (swingHeater supply cap) w' ∧ tm'.vol = t1.vol ∧ supply ≤ tm'.temp := by
  have hct := swingHeater_controls hw hh
  have hcap : ∀ v : Heater K, SameHeater (swingHeater supply cap) v → v.active = true →
      v.getOutput (some oat) (t1.tempAt 1) none = .ok cap := by
    intro v hs ha
    unfold Heater.getOutput Heater.getCapacity
    rw [ha, hs.1]
    rfl
  have hoff : ∀ v : Heater K, v.active = false → v.getOutput (some oat) (t1.tempAt 1) none = .ok 0 := by
    intro v ha
    unfold Heater.getOutput
    rw [if_pos ha]
  have hheat : ∀ o, (t1.heat cap dur o).temp = t1.temp + cap * dur / 60 * 1000 / (t1.vol * rhoCp K) := by
    intro o
    unfold MixedTank.heat
    rw [if_neg (not_le.2 hpos)]
  have hz : ∀ o, (t1.heat 0 dur o) = t1 := by intro o; unfold MixedTank.heat; rw [if_pos le_rfl]
  unfold swingTm at h
  have same := updateState_fixed w ⟨fun f => .ok (t1.tempAt f), hour⟩
  cases hu : w.updateState (fun f => .ok (t1.tempAt f)) hour with
  | mk w2 res =>
  rw [hu] at h
  simp only [hu] at same
  have hs2 : SameHeater (swingHeater supply cap) w2 :=
    ⟨same.2.2.trans hw.1, same.1.trans hw.2.1, same.2.1.trans hw.2.2⟩
  cases res with
  | error e => simp at h
  | ok u =>
  simp only [bind_eq_ok, pure_eq_ok, Except.ok.injEq, Prod.mk.injEq] at h
  obtain ⟨q, hq, kw', _, out, _, rfl, rfl, rfl, rfl⟩ := h
  refine ⟨hs2, heat_vol _ _ _ _, ?_⟩
  cases ha : w2.active with
  | true =>
    rw [hcap w2 hs2 ha] at hq
    obtain rfl : cap = q := by injection hq
    rw [hheat]
    exact hT
  | false =>
    rw [hoff w2 ha] at hq
    obtain rfl : (0 : K) = q := by injection hq
    rw [hz]
    by_contra hlt
    have hlt := not_le.1 hlt
    unfold Heater.updateState at hu
    rw [hct] at hu
    simp only [Controls.shouldTurnOff, Controls.shouldTurnOn, ok_bind, pure_eq_ok, MixedTank.tempAt] at hu
    cases hwa : w.active with
    | true =>
      rw [hwa] at hu
      rw [decide_eq_false (show ¬ (swingControls supply).offTrig ≤ t1.temp from by
        show ¬ supply + 8 ≤ t1.temp; linarith)] at hu
      simp only [if_true, Prod.mk.injEq, and_true] at hu
      rw [← hu, hwa] at ha
      simp at ha
    | false =>
      rw [hwa] at hu
      rw [decide_eq_true (show t1.temp < (swingControls supply).onTrig from hlt)] at hu
      simp only [Bool.false_eq_true, if_false, Prod.mk.injEq, and_true] at hu
      rw [← hu] at ha
      simp at ha

theorem loss_temp {tm : MixedTank K} {L dur : K} (hL : 0 < L) (hd : 0 < dur) :
    (tm.loss L dur).temp = tm.temp - L * dur / 60 * 1000 / (tm.vol * rhoCp K) := by
  unfold MixedTank.loss
  rw [if_neg (by push Not; exact ⟨hL, hd⟩)]

/-- One step of a swing tank that is not below supply temperature: an element that gives at least what the loop takes
brings it back to supply temperature. -/
theorem swingTm_holds {w w' : Heater K} {supply cap L oat kb : K} {kw : Option K} {tm tm' : MixedTank K} {hour : ℕ}
    {dur : K} (hw : SameHeater (swingHeater supply cap) w) (hh : hour < 24) (hv : 0 < tm.vol) (hd : 0 < dur)
    (hL : 0 < L) (hc : L ≤ cap) (hT : supply ≤ tm.temp) (h : swingTm w (tm.loss L dur) oat hour dur = .ok (w', kb, kw, tm')) :
    SameHeater (swingHeater supply cap) w' ∧ tm'.vol = tm.vol ∧ supply ≤ tm'.temp := by
  have hr := rhoCp_pos (K := K)
  have := swingTm_keeps hw hh (lt_of_lt_of_le hL hc) (by
    rw [loss_temp hL hd, loss_vol]
    have : L * dur / 60 * 1000 / (tm.vol * rhoCp K) ≤ cap * dur / 60 * 1000 / (tm.vol * rhoCp K) := by
      apply div_le_div_of_nonneg_right _ (by positivity)
      have := mul_le_mul_of_nonneg_right hc hd.le
      linarith
    linarith) h
  rwa [loss_vol] at this

/-! ## C118: a swing system delivers at supply temperature until its primary storage is empty -/

/-- What does not change during the run of a swing system, and a swing tank at or above supply temperature. -/
def SwingHolds (s0 : SwingSim K) (cap : K) (s : SwingSim K) : Prop :=
  SwingInv s0 s0.tank.vol s0.tank.slope s ∧ s.ret = s0.ret ∧ s.flow = s0.flow ∧
  SameHeater (swingHeater s0.supply cap) s.tmHeater ∧ s.tm.vol = s0.tm.vol ∧ s0.supply ≤ s.tm.temp ∧
  s.tank.inlet ≤ s0.supply

theorem swingStep_holds {s0 s s' : SwingSim K} {b : Building K} {cap : K} {ts i : ℕ} {o : StepOut K} (hts : 0 < ts)
    (hv : 0 < s0.tank.vol) (hs : 0 < s0.tank.slope) (htv : 0 < s0.tm.vol)
    (hL : 0 < recircLossKbtuh s0.supply s0.ret s0.flow) (hcap : recircLossKbtuh s0.supply s0.ret s0.flow ≤ cap)
    (hout : ∀ hour < 24, ∀ x, IsOutlet s0.heaters s0.storage hour x → s0.supply ≤ x)
    (hin : ∀ i ts x, b.getInlet i ts = .ok x → x ≤ s0.supply)
    (hinv : SwingHolds s0 cap s) (h : swingSimStep b ts s i = .ok (s', o)) (hu : 0 < o.usable) :
    SwingHolds s0 cap s' ∧ o.tmTemp = some s'.tm.temp ∧ o.delivery = some s'.tm.temp := by
  obtain ⟨hi0, hret, hflow, hwt, hvt, hT, hcold⟩ := hinv
  have hgood := (swingStep_good hv hs b ts s i s' o hi0 h).1
  obtain ⟨e1, e2, e3, hvol, hslope⟩ := hi0
  unfold swingSimStep at h
  simp only [bind_eq_ok] at h
  obtain ⟨inp, hi, ⟨ws', tank', q, kws⟩, hh, hw, _, h⟩ := h
  split at h
  · simp at h
  simp only [bind_eq_ok] at h
  obtain ⟨⟨w, tk, tkw, tm⟩, htm, h⟩ := h
  simp only [pure_eq_ok, Except.ok.injEq, Prod.mk.injEq] at h
  obtain ⟨rfl, rfl⟩ := h
  obtain ⟨i1, i2, i3, i4, i5, i6⟩ := inputs_ok hi
  obtain ⟨k1, k2, k3, k4, k5, rfl⟩ := heatPrimary_ok hh
  obtain ⟨d1, d2, d3, d4⟩ := drawPhysical_fields (s.tank.heat q ts inp.outlet) hw inp.inlet (some s.supply)
  obtain ⟨f1, f2, f3, f4⟩ := heat_fields s.tank q ts inp.outlet
  have hhour : inp.hour < 24 := by rw [i4]; exact hourOf_lt _ _
  have houtlet : s0.supply ≤ inp.outlet := by
    refine hout _ hhour _ ?_
    rw [← e2]; exact isOutlet_congr e3 _ _ _ i5
  have hu' : 0 < ((s.tank.heat q ts inp.outlet).drawPhysical hw inp.inlet (some s.supply)).usable s.supply := by
    dsimp only at hu
    split at hu
    · exact absurd hu (lt_irrefl _)
    · exact hu
  have hfv : 0 < (s.tank.heat q ts inp.outlet).vol := by rw [f1, hvol]; exact hv
  have hfs : 0 < (s.tank.heat q ts inp.outlet).slope := by rw [f2, hslope]; exact hs
  have hfeed := StratTank.avgDraw_ge _ hfv hfs (T := s.supply) (by rw [f3, e1]; exact hcold)
    (by rw [f4, e1]; exact houtlet) (StratTank.drawPhysical_left _ hfv hu')
  have hmix : s0.supply ≤ (s.tm.mix hw ((s.tank.heat q ts inp.outlet).avgDraw hw)).temp :=
    MixedTank.mix_ge _ (by rw [hvt]; exact htv) hT (by rw [← e1]; exact hfeed)
  rw [e1, hret, hflow] at htm
  obtain ⟨t1, t2, t3⟩ := swingTm_holds hwt hhour (by rw [mix_vol, hvt]; exact htv) (by exact_mod_cast hts) hL hcap hmix htm
  exact ⟨⟨hgood, hret, hflow, t1, by rw [t2, mix_vol, hvt], t3, by dsimp only; rw [d3]; exact hin _ _ _ i3⟩, rfl, rfl⟩

/-- **C118.** In a simulated swing system whose element gives at least what the loop loses, the swing tank, from which the
building is served, is at supply temperature or above at every step up to which the primary storage has not run out; a run
in which it never runs out is not stopped. -/
theorem C118_supply_until_outage (s s' : SwingSim K) (b : Building K) (cap thr : K) (maxMin : Int) (duration : String)
    (r : SimRun K) (hw : SameHeater (swingHeater s.supply cap) s.tmHeater)
    (hcap : recircLossKbtuh s.supply s.ret s.flow ≤ cap) (hflow : 0 < s.flow) (hret : s.ret < s.supply)
    (hv : 0 < s.tank.vol) (hs : 0 < s.tank.slope) (htv : 0 < s.tm.vol)
    (hout : ∀ hour < 24, ∀ x, IsOutlet s.heaters s.storage hour x → s.supply ≤ x)
    (hin : ∀ i ts x, b.getInlet i ts = .ok x → x ≤ s.supply) (hcold : ∀ x, designInletOr b = .ok x → x ≤ s.supply)
    (h : s.simulate b thr maxMin duration = .ok (s', r)) :
    r.tmTemp.length = r.usable.length ∧
    (∀ i < r.usable.length, (∀ j ≤ i, 0 < r.usable.getD j 0) → s.supply ≤ r.tmTemp.getD i 0) ∧
    (0 ≤ thr → r.isSuccessful = true → r.stopped = false) := by
  unfold SwingSim.simulate at h
  simp only [bind_eq_ok] at h
  obtain ⟨_, _, off, hoff, h⟩ := h
  have hoff' : off = s.supply + 8 := by
    unfold tmOffTemp at hoff
    simp only [swingHeater_controls hw (by norm_num : 0 < 24), ok_bind, pure_eq_ok, Except.ok.injEq] at hoff
    exact hoff.symm
  unfold swingSimulate at h
  simp only [bind_eq_ok] at h
  obtain ⟨_, _, cold, hc, h⟩ := h
  have hsucc := (C42_outage_partial _ _ _ _ _ _ _ _ _ h).2
  obtain ⟨dur, ts, outs, h1, h2, h3, h4, h5, h6, h7, h8, h9⟩ := simulate_spec _ _ _ _ _ _ _ _ _ h
  have hts : 0 < ts := by
    unfold simDuration at h1
    split at h1
    · simp at h1; omega
    · split at h1
      · simp at h1; omega
      · simp at h1
  have hlen : ∀ (outs : List (StepOut K)) (s s' : SwingSim K) (i : ℕ), Trace (swingSimStep b ts) s i outs s' →
      ∀ o ∈ outs, ∃ x, o.tmTemp = some x := by
    intro outs s s' i htr
    refine fun o ho => ?_
    have step : ∀ (s : SwingSim K) (i : ℕ) (s' : SwingSim K) (o : StepOut K), True →
        swingSimStep b ts s i = .ok (s', o) → True ∧ ∃ x, o.tmTemp = some x := by
      intro s i s' o _ hst
      refine ⟨trivial, ?_⟩
      unfold swingSimStep at hst
      simp only [bind_eq_ok] at hst
      obtain ⟨inp, hi, ⟨ws', tank', q, kws⟩, hh, hw, _, hst⟩ := hst
      split at hst
      · simp at hst
      simp only [bind_eq_ok] at hst
      obtain ⟨⟨w, tk, tkw, tm⟩, htm, hst⟩ := hst
      simp only [pure_eq_ok, Except.ok.injEq, Prod.mk.injEq] at hst
      obtain ⟨rfl, rfl⟩ := hst
      exact ⟨_, rfl⟩
    obtain ⟨_, g⟩ := trace_forall (fun _ => True) (fun _ o => ∃ x, o.tmTemp = some x) step outs s s' i trivial htr
    obtain ⟨n, hn⟩ := List.getElem?_of_mem ho
    exact g n o hn
  have htm : r.tmTemp = outs.map (fun o => o.tmTemp.getD 0) := by
    rw [h5.tmTemp, ← List.filterMap_eq_map]
    refine List.filterMap_congr fun o ho => ?_
    obtain ⟨x, hx⟩ := hlen _ _ _ _ h4 o ho
    simp [hx]
  obtain ⟨st, a, b', c⟩ := trace_states outs _ _ _ h4
  have hL := loss_pos hflow hret
  have key : ∀ j ≤ outs.length, (∀ k < j, ∀ o, outs[k]? = some o → 0 < o.usable) → SwingHolds s cap (st j) := by
    intro j
    induction j with
    | zero =>
      intro _ _
      rw [a]
      refine ⟨⟨rfl, rfl, sameHeater_refl _, rfl, rfl⟩, rfl, rfl, hw, rfl, ?_, hcold _ hc⟩
      show s.supply ≤ off
      rw [hoff']; linarith
    | succ j ih =>
      intro hj hk
      have ho : outs[j]? = some outs[j] := List.getElem?_eq_getElem (by omega)
      exact (swingStep_holds hts hv hs htv hL hcap hout hin (ih (by omega) fun k hkj => hk k (by omega)) (c j _ ho)
        (hk j (by omega) _ ho)).1
  have hstep : ∀ j (hj : j < outs.length), (∀ k ≤ j, ∀ o, outs[k]? = some o → 0 < o.usable) →
      ∃ x, outs[j].tmTemp = some x ∧ outs[j].delivery = some x ∧ s.supply ≤ x := by
    intro j hj hk
    have ho : outs[j]? = some outs[j] := List.getElem?_eq_getElem hj
    obtain ⟨g1, g2, g3⟩ := swingStep_holds hts hv hs htv hL hcap hout hin
      (key j hj.le fun k hkj => hk k hkj.le) (c j _ ho) (hk j le_rfl _ ho)
    exact ⟨_, g2, g3, g1.2.2.2.2.2.1⟩
  refine ⟨by rw [htm, h5.usable, List.length_map, List.length_map], ?_, ?_⟩
  · intro i hi hpos
    rw [h5.usable, List.length_map] at hi
    have hk : ∀ k ≤ i, ∀ o, outs[k]? = some o → 0 < o.usable := by
      intro k hk o ho
      have := hpos k hk
      rwa [h5.usable, List.getD_eq_getElem?_getD, List.getElem?_map, ho] at this
    obtain ⟨x, x1, _, x3⟩ := hstep i hi hk
    rw [htm, List.getD_eq_getElem?_getD, List.getElem?_map, List.getElem?_eq_getElem hi]
    simp only [Option.map_some, Option.getD_some, x1]
    exact x3
  · intro hthr hok
    rcases h9 with ⟨g, _⟩ | ⟨_, g1, _, ⟨k, k1, k2, _, k4⟩, _⟩
    · exact g
    · exfalso
      obtain ⟨o, o1, o2⟩ := k4 (outs.length - 1) (by omega) le_rfl
      obtain ⟨x, _, x2, x3⟩ := hstep (outs.length - 1) (by omega) (fun j _ o ho => by
        refine hsucc.1 hok _ ?_
        rw [h5.usable]
        exact List.mem_map.2 ⟨o, List.mem_of_getElem? ho, rfl⟩)
      rw [List.getElem?_eq_getElem (by omega)] at o1
      injection o1 with o1
      unfold Deficit delivered at o2
      rw [← o1, x2, Option.getD_some] at o2
      linarith

end Eco
