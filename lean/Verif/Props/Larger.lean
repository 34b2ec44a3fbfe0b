import Verif.Props.RunHeat
import Verif.Props.Session
import Verif.Spec.Larger

/-! C123: a larger system never does worse. -/

namespace Eco
set_option linter.unusedSectionVars false
variable {K : Type} [Field K] [LinearOrder K] [IsStrictOrderedRing K]
open Spec

/-! ### One nominal heater with one set of controls -/

/-- A nominal heater that follows the same controls in every hour. -/
def plainHeater (q : K) (c : Controls K) (a : Bool) : Heater K :=
  ⟨some (.nominal q), some (List.replicate 24 "normal"), some [("normal", c)], a⟩

def plainSys (su st q : K) (c : Controls K) (a : Bool) (tk : StratTank K) : Prim K :=
  ⟨su, st, [plainHeater q c a], some tk⟩

/-- Whether the heater is on after looking at its sensors. -/
def decision (c : Controls K) (a : Bool) (tk : StratTank K) : Bool :=
  if a then !decide (c.offTrig ≤ tk.tempAt c.offFract) else decide (tk.tempAt c.onFract < c.onTrig)

theorem plain_controls (q : K) (c : Controls K) (a : Bool) (hour : ℕ) (hh : hour < 24) :
    (plainHeater q c a).getControls hour = .ok (some c) := by
  unfold Heater.getControls plainHeater
  simp only
  have : pyGet (List.replicate 24 "normal") hour = .ok "normal" := by
    rw [pyGet_eq_ok, List.getElem?_replicate, if_pos hh]
  rw [this]
  simp [ok_bind, pure_eq_ok, dictGet?]

/-- A step of such a system, explicitly. -/
theorem plain_step (b : Building K) (ts t : ℕ) (su st q : K) (c : Controls K) (a : Bool) (tk : StratTank K) (x oat cold : K)
    (hv : tk.vol ≠ 0) (hs : tk.slope ≠ 0) (hx : b.getDhwLoad t ts = .ok x) (ho : b.getOat t ts = .ok oat)
    (hc : b.getInlet t ts = .ok cold) :
    ∃ o, Prim.step b ts (plainSys su st q c a tk) t = .ok (plainSys su st q c (decision c a tk)
        ((tk.heat (if decision c a tk then q else 0) ts c.outlet).draw x cold su c.outlet), o) ∧
      o.usable = ((tk.heat (if decision c a tk then q else 0) ts c.outlet).draw x cold su c.outlet).usable su ∧
      o.temps = nodeFracts.map
        ((tk.heat (if decision c a tk then q else 0) ts c.outlet).draw x cold su c.outlet).tempAt ∧
      o.delivery = none ∧ o.output = (if decision c a tk then q else 0) := by
  have hh : t * ts / 60 % 24 < 24 := Nat.mod_lt _ (by norm_num)
  have hg : ∀ a, (plainHeater q c a).getControls (t * ts / 60 % 24) = .ok (some c) :=
    fun a => plain_controls q c a _ hh
  have hsh : [plainHeater q c a].any (·.isLoadShifting) = false := by
    simp [plainHeater, Heater.isLoadShifting, dictHas, dictGet?]
  have hm : modeAt [plainHeater q c a] (t * ts / 60 % 24) = .ok "normal" := by
    unfold modeAt plainHeater
    simp only [truthySched]
    show pyGet (List.replicate 24 "normal") _ = _
    rw [pyGet_eq_ok, List.getElem?_replicate, if_pos hh]
  have hi : (plainSys su st q c a tk).inputs b t ts = .ok ⟨x, oat, cold, t * ts / 60 % 24, c.outlet, "normal"⟩ := by
    unfold Prim.inputs
    simp only [plainSys, hsh, hx, ho, hc, ok_bind, hm, pure_eq_ok, outletAt, List.mapM_cons, List.mapM_nil, hg]
    simp
  have hup : updateAll [plainHeater q c a] tk.tempAtPy (t * ts / 60 % 24) = .ok [plainHeater q c (decision c a tk)] := by
    unfold updateAll
    simp only [List.mapM_cons, List.mapM_nil, Heater.updateState, hg]
    have ht : ∀ f, tk.tempAtPy f = .ok (tk.tempAt f) := fun f => by unfold StratTank.tempAtPy; rw [if_neg hv]
    cases a
    · simp only [plainHeater, decision, Controls.shouldTurnOn, ht, ok_bind, pure_eq_ok, Bool.false_eq_true, if_false]
      by_cases h : tk.tempAt c.onFract < c.onTrig
      · simp [h, ok_bind]
      · simp [h, ok_bind]
    · simp only [plainHeater, decision, Controls.shouldTurnOff, ht, ok_bind, pure_eq_ok, if_true]
      by_cases h : c.offTrig ≤ tk.tempAt c.offFract
      · simp [h, ok_bind]
      · simp [h, ok_bind]
  set a' := decision c a tk with ha'
  have hout : totalOutput [plainHeater q c a'] oat (t * ts / 60 % 24) (some cold) = .ok (if a' then q else 0) := by
    unfold totalOutput
    simp only [List.mapM_cons, List.mapM_nil, Heater.getOutletTemp, hg, ok_bind, pure_eq_ok, Heater.getOutput]
    cases a' <;> simp [plainHeater, Heater.getCapacity, PerfMap.getCapacity, ok_bind, pure_eq_ok]
  obtain ⟨kws, hk⟩ : ∃ kws, activeKws [plainHeater q c a'] oat (t * ts / 60 % 24) (some cold) = .ok kws := by
    unfold activeKws
    cases a' with
    | false => exact ⟨[], by simp [plainHeater, pure_eq_ok]⟩
    | true =>
      refine ⟨[none], ?_⟩
      have e : [plainHeater q c true].filter (·.active) = [plainHeater q c true] := rfl
      rw [e]
      simp only [List.mapM_cons, List.mapM_nil, Heater.getOutletTemp, hg, ok_bind, pure_eq_ok]
      simp [plainHeater, Heater.getPower, PerfMap.getPower, ok_bind, pure_eq_ok]
  refine ⟨{ demand := x, power := totalKw kws, oat := oat, inlet := cold, mode := "normal"
            usable := ((tk.heat (if a' then q else 0) ts c.outlet).draw x cold su c.outlet).usable su
            output := if a' then q else 0
            temps := nodeFracts.map ((tk.heat (if a' then q else 0) ts c.outlet).draw x cold su c.outlet).tempAt },
    ?_, rfl, rfl, rfl, rfl⟩
  unfold Prim.step
  rw [hi]
  simp only [ok_bind, plainSys]
  unfold heatPrimary
  have h1 : tk.tempAtPy 1 = .ok (tk.tempAt 1) := by unfold StratTank.tempAtPy; rw [if_neg hv]
  simp only [hup, ok_bind, h1, hout, hk, if_neg hs, pure_eq_ok]

/-! ### The tank while cold and hot water keep their temperatures -/

theorem heat_at (V sl d it cold T q dur : K) (hT : cold < T) (hq : 0 ≤ q) :
    (⟨V, sl, d, it, cold, T⟩ : StratTank K).heat q dur T =
      ⟨V, sl, if 0 < q then min (d + q * dur / 60 * 1000 / (rhoCp K * (T - cold))) ((T - it) / sl * V / 100) else d, it,
        cold, T⟩ := by
  unfold StratTank.heat
  simp only
  by_cases h : 0 < q
  · rw [if_neg (by rw [not_or, not_le, not_le]; exact ⟨h, hT⟩), if_pos h]
  · rw [if_pos (.inl (not_lt.1 h)), if_neg h]

/-- A draw out of water at outlet temperature. -/
theorem draw_at (V sl d it cold T x su : K) (hV : 0 < V) (hsl : 0 < sl) (h1 : cold < su) (h2 : su ≤ T) (h0 : 0 ≤ x)
    (hhot : x * (su - cold) / (T - cold) ≤ (⟨V, sl, d, it, cold, T⟩ : StratTank K).rawUsable T) :
    (⟨V, sl, d, it, cold, T⟩ : StratTank K).draw x cold su T =
      ⟨V, sl, d - x * (su - cold) / (T - cold), it, cold, T⟩ := by
  unfold StratTank.draw
  simp only
  rcases h0.eq_or_lt with rfl | h0
  · rw [if_pos (.inr le_rfl)]; simp
  have hoc : 0 < T - cold := by linarith
  have hp0 : 0 < x * (su - cold) / (T - cold) := div_pos (mul_pos h0 (by linarith)) hoc
  rw [if_neg (by rw [not_or, not_le, not_le]; exact ⟨by linarith, h0⟩)]
  have havg : (⟨V, sl, d, it, cold, T⟩ : StratTank K).avgDraw (x * (su - cold) / (T - cold)) = T :=
    StratTank.avgDraw_hot ⟨V, sl, d, it, cold, T⟩ hV hsl (by show cold ≤ T; linarith) hp0 ((min_le_left _ _).trans hhot)
  have hd : (⟨V, sl, d, it, cold, T⟩ : StratTank K).drawVol x cold su T = x * (su - cold) / (T - cold) := by
    unfold StratTank.drawVol
    simp only
    rw [havg, if_pos (by linarith)]
  rw [hd, max_eq_left]
  unfold StratTank.deltaFloor
  simp only [Option.getD_some]
  have hr : (⟨V, sl, d, it, cold, T⟩ : StratTank K).rawUsable T = V - (T - it) / sl * V / 100 + d := rfl
  rw [hr] at hhot
  have : (su - it) / sl * V ≤ (T - it) / sl * V :=
    mul_le_mul_of_nonneg_right (div_le_div_of_nonneg_right (by linarith) hsl.le) hV.le
  linarith

/-- Any draw takes at least that much, down to the supply temperature at the top. -/
theorem draw_at_le (V sl d it cold T x su : K) (hV : 0 < V) (h1 : cold < su) (h2 : su ≤ T) (h0 : 0 < x)
    (hx : x * (su - cold) / (T - cold) ≤ V) :
    ∃ d', (⟨V, sl, d, it, cold, T⟩ : StratTank K).draw x cold su T = ⟨V, sl, d', it, cold, T⟩ ∧
      ((su - it) / sl - 100) * V / 100 ≤ d' ∧
      d' ≤ max (d - x * (su - cold) / (T - cold)) (((su - it) / sl - 100) * V / 100) := by
  unfold StratTank.draw
  simp only
  rw [if_neg (by rw [not_or, not_le, not_le]; exact ⟨by linarith, h0⟩)]
  refine ⟨_, rfl, le_max_right _ _, max_le_max_right _ ?_⟩
  have : x * (su - cold) / (T - cold) ≤ (⟨V, sl, d, it, cold, T⟩ : StratTank K).drawVol x cold su T := by
    unfold StratTank.drawVol
    simp only
    split
    · exact le_rfl
    · obtain ⟨a, b⟩ := search_ge (⟨V, sl, d, it, cold, T⟩ : StratTank K) x cold su _ 52 _ V le_rfl hx
      exact le_min (by linarith) hx
  linarith

/-! ### Whole runs -/

theorem trace_indexed {S : Type} {step : S → ℕ → Py (S × StepOut K)} (P : ℕ → S → Prop) (Q : ℕ → StepOut K → Prop)
    (n : ℕ) (hstep : ∀ t s s' o, t < n → P t s → step s t = .ok (s', o) → P (t + 1) s' ∧ Q t o)
    (outs : List (StepOut K)) (s s' : S) (h : Trace step s 0 outs s') (h0 : P 0 s) (j : ℕ) (hj : j < n) (o : StepOut K)
    (ho : outs[j]? = some o) : Q j o := by
  obtain ⟨st, e0, _, e2⟩ := trace_states _ _ _ _ h
  have hl : ∀ k, k ≤ n → k ≤ outs.length → P k (st k) := by
    intro k
    induction k with
    | zero => intro _ _; rw [e0]; exact h0
    | succ k ih =>
      intro h1 h2
      have := e2 k _ (List.getElem?_eq_getElem (by omega))
      rw [Nat.zero_add] at this
      exact (hstep k _ _ _ (by omega) (ih (by omega) (by omega)) this).1
  have hlt := (List.getElem?_eq_some_iff.1 ho).1
  have := e2 j o ho
  rw [Nat.zero_add] at this
  exact (hstep j _ _ _ hj (hl j hj.le hlt.le) this).2

/-- A run is successful if an invariant of its steps keeps usable water. -/
theorem run_success {s s' s1 : Prim K} {b : Building K} {thr : K} {maxMin : Int} {d : String} {r : SimRun K}
    (h : s.simulate b thr maxMin d = .ok (s', r)) (hi : s.init b = .ok s1) (P : ℕ → Prim K → Prop) (h0 : P 0 s1)
    (hstep : ∀ ts dur, simDuration d = .ok (dur, ts) → ∀ t s s' o, P t s → Prim.step b ts s t = .ok (s', o) →
      P (t + 1) s' ∧ 0 < o.usable) : r.isSuccessful = true := by
  unfold Prim.simulate at h
  simp only [bind_eq_ok] at h
  obtain ⟨_, _, s2, k1, k2⟩ := h
  rw [hi] at k1
  obtain rfl : s1 = s2 := by injection k1
  obtain ⟨dur, ts, outs, hd, _, _, htr, _, hout, _⟩ := simulate_spec _ _ _ _ _ _ _ _ _ k2
  have : outSteps outs = 0 := by
    unfold outSteps
    rw [List.length_eq_zero_iff, List.filter_eq_nil_iff]
    intro o ho
    obtain ⟨j, hj⟩ := List.mem_iff_getElem?.1 ho
    have := trace_indexed P (fun _ o => 0 < o.usable) (j + 1)
      (fun t s s' o _ p q => hstep ts dur hd t s s' o p q) outs _ _ htr h0 j (by omega) o hj
    simpa using this
  unfold SimRun.isSuccessful
  rw [hout, this]
  simp

/-- A run fails if it delivers at supply temperature up to a step without usable water. -/
theorem run_failure {s s' s1 : Prim K} {b : Building K} {thr : K} {maxMin : Int} {d : String} {r : SimRun K}
    (h : s.simulate b thr maxMin d = .ok (s', r)) (hi : s.init b = .ok s1) (hthr : 0 ≤ thr) (P : ℕ → Prim K → Prop)
    (h0 : P 0 s1) (n : ℕ)
    (hn : ∀ ts dur, simDuration d = .ok (dur, ts) → 0 < ts ∧ n < dur / ts)
    (hstep : ∀ ts dur, simDuration d = .ok (dur, ts) → ∀ t s s' o, t < n + 1 → P t s →
      Prim.step b ts s t = .ok (s', o) → P (t + 1) s' ∧ s1.supply ≤ delivered o ∧ (t = n → o.usable ≤ 0)) :
    r.isSuccessful = false := by
  unfold Prim.simulate at h
  simp only [bind_eq_ok] at h
  obtain ⟨_, _, s2, k1, k2⟩ := h
  rw [hi] at k1
  obtain rfl : s1 = s2 := by injection k1
  have hsu : s1.supply = s.supply := by
    unfold Prim.init at hi
    simp only [bind_eq_ok, pure_eq_ok, Except.ok.injEq] at hi
    obtain ⟨_, _, rfl⟩ := hi
    rfl
  obtain ⟨dur, ts, outs, hd, _, _, htr, _, hout, _, _, hend⟩ := simulate_spec _ _ _ _ _ _ _ _ _ k2
  obtain ⟨hts, hn⟩ := hn ts dur hd
  have key := fun j hj o ho => trace_indexed P (fun t o => s1.supply ≤ delivered o ∧ (t = n → o.usable ≤ 0)) (n + 1)
    (fun t s s' o ht p q => hstep ts dur hd t s s' o ht p q) outs _ _ htr h0 j hj o ho
  have hlen : n < outs.length := by
    rcases hend with ⟨_, hl, _⟩ | ⟨_, hpos, _, ⟨k, hk0, hk1, _, hk2⟩, _⟩
    · omega
    · by_contra hc
      obtain ⟨o, ho, hdef⟩ := hk2 (outs.length - 1) (by omega) le_rfl
      have := (key (outs.length - 1) (by omega) o ho).1
      unfold Deficit at hdef
      linarith
  have ho := List.getElem?_eq_getElem hlen
  have hu := (key n (by omega) _ ho).2 rfl
  have : 0 < outSteps outs := by
    unfold outSteps
    rw [List.length_pos_iff_exists_mem]
    exact ⟨outs[n], List.mem_filter.2 ⟨List.getElem_mem hlen, by simpa using hu⟩⟩
  unfold SimRun.isSuccessful
  rw [hout]
  have h2 : 0 < ts * outSteps outs := Nat.mul_pos hts this
  simp only [decide_eq_false_iff_not, not_le]
  exact h2

/-! ### Equipment that keeps up with every minute -/

/-- A step of a system whose heater heats what a step can draw and whose tank keeps as much above its ON sensor. -/
theorem ample_step (b : Building K) (t : ℕ) (su T q x cold V P d : K) (c : Controls K) (a : Bool) (s' : Prim K) (o : StepOut K)
    (hx : b.getDhwLoad t 1 = .ok x) (hoat : ∃ y, b.getOat t 1 = .ok y) (hc : b.getInlet t 1 = .ok cold)
    (hV : 0 < V) (hq : 0 < q) (hout : c.outlet = T) (hsens : c.offFract ≤ c.onFract) (hon : cold < c.onTrig)
    (hoff : c.onTrig ≤ c.offTrig) (honT : c.onTrig ≤ T) (h1 : cold < su) (h2 : su < T)
    (hP : x * (su - cold) / (T - cold) ≤ P) (hx0 : 0 ≤ x) (hf0 : 0 ≤ c.onFract)
    (hheat : P * rhoCp K * (T - cold) * 60 / 1000 ≤ q) (hzone : (T - cold) / 280 ≤ 1 - c.onFract)
    (hhold : P ≤ V * (1 - c.onFract - (T - c.onTrig) / 280))
    (hd : min 0 ((c.onTrig - cold) / 280 * V - P) ≤ d)
    (hs : Prim.step b 1 (plainSys su T q c a ⟨V, 28 / 10, d, cold - 28 / 10 * (c.onFract * 100), cold, T⟩) t =
      .ok (s', o)) :
    (∃ a' d', s' = plainSys su T q c a' ⟨V, 28 / 10, d', cold - 28 / 10 * (c.onFract * 100), cold, T⟩ ∧
      min 0 ((c.onTrig - cold) / 280 * V - P) ≤ d') ∧ 0 < o.usable := by
  obtain ⟨oat, hoat⟩ := hoat
  have hP0 : 0 ≤ P := le_trans (div_nonneg (mul_nonneg hx0 (by linarith)) (by linarith)) hP
  set it := cold - 28 / 10 * (c.onFract * 100) with hit
  obtain ⟨o', e1, e2, _⟩ := plain_step b 1 t su T q c a ⟨V, 28 / 10, d, it, cold, T⟩ x oat cold hV.ne'
    (by show (28 : K) / 10 ≠ 0; norm_num) hx hoat hc
  rw [hout] at e1 e2
  have hr : 0 < rhoCp K := by unfold rhoCp; norm_num
  have hT : 0 < T - cold := by linarith
  have hg : P ≤ q * ((1 : ℕ) : K) / 60 * 1000 / (rhoCp K * (T - cold)) := by
    rw [le_div_iff₀ (mul_pos hr hT)]
    push_cast
    nlinarith
  -- a heater is off only above the level of its ON trigger
  have hlev : decision c a ⟨V, 28 / 10, d, it, cold, T⟩ = false → (c.onTrig - cold) / 280 * V ≤ d := by
    intro hdec
    have key : ∀ f, f ≤ c.onFract → c.onTrig ≤ (⟨V, 28 / 10, d, it, cold, T⟩ : StratTank K).tempAt f →
        (c.onTrig - cold) / 280 * V ≤ d := by
      intro f hf h
      unfold StratTank.tempAt StratTank.shift at h
      simp only [le_max_iff, le_min_iff] at h
      rcases h with h | ⟨_, h⟩
      · linarith
      · have : (c.onTrig - cold) / 280 ≤ d / V := by rw [hit] at h; linarith
        rwa [le_div_iff₀ hV] at this
    unfold decision at hdec
    cases a
    · simp only [Bool.false_eq_true, if_false, decide_eq_false_iff_not, not_lt] at hdec
      exact key _ le_rfl hdec
    · simp only [if_true, Bool.not_eq_false', decide_eq_true_eq] at hdec
      exact key _ hsens (hoff.trans hdec)
  -- the level before the draw
  obtain ⟨d1, hd1, hle⟩ : ∃ d1, (⟨V, 28 / 10, d, it, cold, T⟩ : StratTank K).heat
      (if decision c a ⟨V, 28 / 10, d, it, cold, T⟩ then q else 0) ((1 : ℕ) : K) T = ⟨V, 28 / 10, d1, it, cold, T⟩ ∧
      min P ((c.onTrig - cold) / 280 * V) ≤ d1 := by
    by_cases hdec : decision c a ⟨V, 28 / 10, d, it, cold, T⟩ = true
    · rw [if_pos hdec, heat_at _ _ _ _ _ _ _ _ (by linarith) hq.le, if_pos hq]
      refine ⟨_, rfl, le_min ?_ ?_⟩
      · rcases min_le_iff.1 hd with h | h
        · exact (min_le_left _ _).trans (by linarith)
        · exact (min_le_right _ _).trans (by linarith)
      · refine (min_le_right _ _).trans ?_
        have e : (T - it) / (28 / 10) * V / 100 = (T - cold) / 280 * V + c.onFract * V := by rw [hit]; ring
        rw [e]
        have : (c.onTrig - cold) / 280 * V ≤ (T - cold) / 280 * V :=
          mul_le_mul_of_nonneg_right (by linarith) hV.le
        have := mul_nonneg hf0 hV.le
        linarith
    · rw [if_neg hdec, heat_at _ _ _ _ _ _ _ _ (by linarith) le_rfl, if_neg (lt_irrefl _)]
      exact ⟨_, rfl, (min_le_right _ _).trans (hlev (by simpa using hdec))⟩
  rw [hd1] at e1 e2
  have hraw : ∀ d T', (⟨V, 28 / 10, d, it, cold, T⟩ : StratTank K).rawUsable T' =
      V * (1 - c.onFract) - (T' - cold) / 280 * V + d := by
    intro d T'
    show V - (T' - it) / (28 / 10) * V / 100 + d = _
    rw [hit]; ring
  have hrawT : P ≤ (⟨V, 28 / 10, d1, it, cold, T⟩ : StratTank K).rawUsable T := by
    rw [hraw]
    rcases min_le_iff.1 hle with h | h
    · have := mul_le_mul_of_nonneg_left hzone hV.le
      linarith
    · have : (T - c.onTrig) / 280 = (T - cold) / 280 - (c.onTrig - cold) / 280 := by ring
      rw [this] at hhold
      linarith
  have hdr := draw_at V (28 / 10) d1 it cold T x su hV (by norm_num) h1 h2.le hx0 (hP.trans hrawT)
  rw [hdr] at e1 e2
  have hs' := hs.symm.trans e1
  simp only [Except.ok.injEq, Prod.mk.injEq] at hs'
  obtain ⟨rfl, rfl⟩ := hs'
  refine ⟨⟨_, _, rfl, ?_⟩, ?_⟩
  · rcases min_le_iff.1 hle with h | h
    · exact (min_le_left _ _).trans (by linarith)
    · exact (min_le_right _ _).trans (by linarith)
  · rw [e2, StratTank.usable_raw _ hV, hraw]
    rw [hraw] at hrawT
    refine lt_max_of_lt_right (lt_min hV ?_)
    have : (su - cold) / 280 * V < (T - cold) / 280 * V := mul_lt_mul_of_pos_right (by linarith) hV
    linarith

theorem plain_ready (q : K) (c : Controls K) (a : Bool) : Ready (plainHeater q c a) := by
  refine ⟨fun hour hh => ⟨c, List.replicate 24 "normal", [("normal", c)], "normal", rfl, rfl, ?_, rfl⟩, ?_, ?_⟩
  · rw [List.getElem?_replicate, if_pos hh]
  · intro _ _ _; exact ⟨some q, rfl⟩
  · intro _ _ _; exact ⟨none, rfl⟩

theorem Spec.Ample.larger {p : EngineParams K} {v cap P cold v' cap' : K} (h : Ample p v cap P cold) (hP : 0 ≤ P)
    (hv : v ≤ v') (hc : cap ≤ cap') : Ample p v' cap' P cold where
  vol := h.vol.trans_le hv
  capacity := h.capacity.trans_le hc
  aquastat := h.aquastat
  sensors := h.sensors
  triggers := h.triggers
  temps := h.temps
  heats := h.heats.trans hc
  zone := h.zone
  holds := by
    refine h.holds.trans (mul_le_mul_of_nonneg_right hv ?_)
    by_contra hneg
    have := h.holds
    have := mul_neg_of_pos_of_neg h.vol (not_le.1 hneg)
    linarith

/-- The engine with given equipment, one heater and no load shifting. -/
theorem plain_new (db : ShapeFiles K) (t : ClimateZone.Tables K) (model : String → ℕ → K → Option K → Py (PerfMap K))
    (invCdf : K → K) (p : EngineParams K) (b : Building K) (v cap : K)
    (hp : p.schematic = "primary_no_recirc" ∨ p.schematic = "singlepass_norecirc") (hls : p.lsSchedule = none)
    (hm : p.hpwhModel = none) (hn : p.numHeaters = 1) (hv : p.storageVol = some v) (hc : p.heatingCap = some cap)
    (hb : p.buildBuilding db t = .ok b) :
    EngineObj.new db t model invCdf p = .ok ⟨p, { cfg := ⟨p.supply, p.storage, p.maxRunHr, p.defrost⟩ },
      plainSys p.supply p.storage cap
        ⟨p.aquastat, p.onTrig.getD p.supply, p.offSensor, p.offTrig.getD p.storage, p.storage⟩ false
        (StratTank.new v (28 / 10)), b⟩ := by
  have hcm : p.buildControlMap = .ok (List.replicate 24 "normal",
      [("normal", ⟨p.aquastat, p.onTrig.getD p.supply, p.offSensor, p.offTrig.getD p.storage, p.storage⟩)]) := by
    unfold EngineParams.buildControlMap
    simp only [hls]
  have hw : fdiv cap ((1 : ℕ) : K) = .ok cap := by
    unfold fdiv
    rw [if_neg (by simp)]
    simp
  unfold EngineObj.new EngineParams.build EngineParams.buildDhwSystem EngineParams.buildPresized
  simp only [hb, hcm, ok_bind, hv, Option.isSome_some, if_true]
  unfold EngineParams.presizedHeaters
  simp only [hm, hc, hn, hw, ok_bind, pure_eq_ok, if_pos hp, dhwApi]
  rfl

/-- **C123, for ample equipment.** An engine with one given heater and no load shifting, whose heater and tank keep up with every
minute of demand, gets through its three days. So do the engine with more storage, with more capacity, and each of them
for a building that uses less.

What is missing: equipment that relies on its storage to get through a peak, for which the property is false
(`C123_more_capacity_fails`, `C123_more_storage_fails`, `C123_less_demand_fails`). -/
theorem C123_ample_partial (db : ShapeFiles K) (t : ClimateZone.Tables K)
    (model : String → ℕ → K → Option K → Py (PerfMap K)) (invCdf : K → K) (p : EngineParams K) (b : Building K)
    (v cap P cold : K) (hp : p.schematic = "primary_no_recirc" ∨ p.schematic = "singlepass_norecirc")
    (hls : p.lsSchedule = none) (hm : p.hpwhModel = none) (hn : p.numHeaters = 1)
    (hb : p.buildBuilding db t = .ok b) (hans : Answers b) (hin : ∀ i, b.getInlet i 1 = .ok cold)
    (hdes : designInletOr b = .ok cold) (hday : 0 < b.dailyGal)
    (hdem : ∀ i x, b.getDhwLoad i 1 = .ok x → 0 ≤ x ∧ x * (p.supply - cold) / (p.storage - cold) ≤ P)
    (ha : Ample p v cap P cold) (v' cap' gal : K) (hv : v ≤ v') (hc : cap ≤ cap') (hg0 : 0 ≤ gal) (hg : gal ≤ b.dailyGal)
    (thr : K) (maxMin : Int) :
    ∃ e, EngineObj.new db t model invCdf { p with storageVol := some v', heatingCap := some cap' } = .ok e ∧ e.bld = b ∧
      ∃ s r, e.prim.simulate { b with dailyGal := gal } thr maxMin "3day" = .ok (s, r) ∧ r.isSuccessful = true := by
  refine ⟨_, plain_new db t model invCdf { p with storageVol := some v', heatingCap := some cap' } b v' cap' hp hls hm hn
    rfl rfl hb, rfl, ?_⟩
  simp only
  set c : Controls K := ⟨p.aquastat, p.onTrig.getD p.supply, p.offSensor, p.offTrig.getD p.storage, p.storage⟩ with hcdef
  obtain ⟨x0, hx0⟩ := hans.demand 0 1 false
  have hT : 0 < p.storage - cold := by linarith [ha.temps.1, ha.temps.2]
  have hP0 : 0 ≤ P := by
    obtain ⟨h1, h2⟩ := hdem 0 x0 hx0
    exact le_trans (div_nonneg (mul_nonneg h1 (by linarith [ha.temps.1])) hT.le) h2
  have ha' := ha.larger hP0 hv hc
  have hans' : Answers { b with dailyGal := gal } := by
    refine ⟨hans.oat, hans.inlet, ?_, hans.design⟩
    intro i ts avg
    obtain ⟨x, hx⟩ := hans.demand i ts avg
    unfold Building.getDhwLoad at hx ⊢
    simp only at hx ⊢
    generalize (if avg = true then b.avgShape else b.peakShape) = sh at hx ⊢
    by_cases hne : sh.length = 0
    · rw [if_pos hne] at hx; simp at hx
    · rw [if_neg hne] at hx ⊢
      simp only [bind_eq_ok] at hx
      obtain ⟨f, hf, _⟩ := hx
      rw [hf]
      exact ⟨_, rfl⟩
  have hdem' : ∀ i x, ({ b with dailyGal := gal } : Building K).getDhwLoad i 1 = .ok x →
      0 ≤ x ∧ x * (p.supply - cold) / (p.storage - cold) ≤ P := by
    intro i x hx
    obtain ⟨y, hy⟩ := hans.demand i 1 false
    obtain ⟨y0, yP⟩ := hdem i y hy
    unfold Building.getDhwLoad at hx hy
    simp only [Bool.false_eq_true, if_false] at hx hy
    split at hx
    · simp at hx
    · rename_i hne
      rw [if_neg hne] at hy
      simp only [bind_eq_ok, pure_eq_ok, Except.ok.injEq] at hx hy
      obtain ⟨f, hf, rfl⟩ := hx
      obtain ⟨f', hf', rfl⟩ := hy
      obtain rfl : f = f' := by rw [hf] at hf'; injection hf'
      have hf0 : 0 ≤ f := by
        by_contra hneg
        have := mul_neg_of_pos_of_neg hday (not_le.1 hneg)
        push_cast at y0
        linarith
      have hle : gal * f * ((1 : ℕ) : K) / 60 ≤ b.dailyGal * f * ((1 : ℕ) : K) / 60 := by
        have := mul_le_mul_of_nonneg_right hg hf0
        push_cast
        linarith
      refine ⟨by have := mul_nonneg hg0 hf0; push_cast; linarith, le_trans ?_ yP⟩
      exact div_le_div_of_nonneg_right (mul_le_mul_of_nonneg_right hle (by linarith [ha.temps.1])) hT.le
  obtain ⟨s, r, hrun⟩ := C91_completes_partial (plainSys p.supply p.storage cap' c false (StratTank.new v' (28 / 10)))
    { b with dailyGal := gal } thr maxMin "3day" (.inl rfl) hans' (by
      intro w hw
      obtain rfl : w = plainHeater cap' c false := by simpa [plainSys] using hw
      exact plain_ready _ _ _) (by
      intro tk ht
      obtain rfl : StratTank.new v' (28 / 10) = tk := by simpa [plainSys] using ht
      exact ⟨ha'.vol.ne', by show (28 : K) / 10 ≠ 0; norm_num⟩)
  refine ⟨s, r, hrun, ?_⟩
  have hinit : (plainSys p.supply p.storage cap' c false (StratTank.new v' (28 / 10))).init { b with dailyGal := gal } =
      .ok (plainSys p.supply p.storage cap' c false
        ⟨v', 28 / 10, 0, cold - 28 / 10 * (c.onFract * 100), cold, p.storage⟩) := by
    unfold Prim.init
    rw [show designInletOr { b with dailyGal := gal } = designInletOr b from rfl, hdes]
    have hu : initialUseable (plainSys p.supply p.storage cap' c false (StratTank.new v' (28 / 10))).heaters =
        1 - c.onFract := by
      show max 0 (min 1 (1 - c.onFract)) = 1 - c.onFract
      have h1 : (0 : K) ≤ c.onFract := ha.aquastat.1
      have h2 : c.onFract ≤ 1 := ha.aquastat.2
      rw [min_eq_right (by linarith), max_eq_right (by linarith)]
    simp only [ok_bind, pure_eq_ok, hu]
    simp only [plainSys, Option.map_some, StratTank.init, StratTank.new]
    congr 5
    ring
  refine run_success hrun hinit (fun _ s => ∃ a d, s = plainSys p.supply p.storage cap' c a
      ⟨v', 28 / 10, d, cold - 28 / 10 * (c.onFract * 100), cold, p.storage⟩ ∧
      min 0 ((c.onTrig - cold) / 280 * v' - P) ≤ d) ⟨_, _, rfl, min_le_left _ _⟩ ?_
  rintro ts dur hd i s s' o ⟨a, d, rfl, hlev⟩ hst
  obtain ⟨rfl, rfl⟩ : 4320 = dur ∧ 1 = ts := by simpa [simDuration] using hd
  obtain ⟨x, hx⟩ := hans'.demand i 1 false
  obtain ⟨y1, y2⟩ := hdem' i x hx
  obtain ⟨⟨a', d', h1, h2⟩, h3⟩ := ample_step { b with dailyGal := gal } i p.supply p.storage cap' x cold v' P d c a s' o hx
    (hans'.oat i 1) (hin i) ha'.vol ha'.capacity rfl ha.sensors ha.triggers.1 ha.triggers.2.1 ha.triggers.2.2 ha.temps.1
    ha.temps.2 y2 y1 ha.aquastat.1 ha'.heats ha.zone ha'.holds hlev hst
  exact ⟨⟨a', d', h1, h2⟩, h3⟩

/-! ### Counterexamples -/

namespace Demo

/-- The default controls of the engine for a supply of 120 °F and a storage of 150 °F. -/
def usual : Controls ℚ := ⟨1 / 2, 120, 1 / 10, 150, 150⟩

/-- A tank of `V` gallons started by the engine, after `d` more gallons were heated than drawn. -/
def level (V d : ℚ) : StratTank ℚ := ⟨V, 28 / 10, d, -90, 50, 150⟩

/-- The system with such a tank and a heater of `h` gallons in a minute. -/
def sysAt (V h : ℚ) (a : Bool) (d : ℚ) : Prim ℚ := plainSys 120 150 (h * 6 * rhoCp ℚ) usual a (level V d)

/-- Whether the heater is on in the next step. -/
def goes (V : ℚ) (a : Bool) (d : ℚ) : Bool := if a then decide (d < 53 / 70 * V) else decide (d < V / 4)

theorem goes_eq (V d : ℚ) (a : Bool) (hV : 0 < V) : decision usual a (level V d) = goes V a d := by
  have e : ∀ f, (level V d).tempAt f = max 50 (min 150 (28 / 10 * (f * 100 + d / V * 100) + -90)) := fun f => rfl
  unfold decision goes
  simp only [e, usual]
  cases a
  · simp only [Bool.false_eq_true, if_false, decide_eq_decide]
    rw [max_lt_iff, min_lt_iff]
    have : d < V / 4 ↔ d / V < 1 / 4 := by rw [div_lt_iff₀ hV]; constructor <;> intro h <;> linarith
    rw [this]
    constructor
    · rintro ⟨_, h | h⟩
      · norm_num at h
      · linarith
    · intro h
      exact ⟨by norm_num, .inr (by linarith)⟩
  · have : d < 53 / 70 * V ↔ d / V < 53 / 70 := by rw [div_lt_iff₀ hV]
    simp only [if_true, this]
    rw [Bool.eq_iff_iff]
    simp only [Bool.not_eq_true', decide_eq_false_iff_not, not_le, decide_eq_true_eq]
    rw [max_lt_iff, min_lt_iff]
    constructor
    · rintro ⟨_, h | h⟩
      · norm_num at h
      · linarith
    · intro h
      exact ⟨by norm_num, .inr (by linarith)⟩

/-- What the building asks for: `p` gallons of stored water in a minute. -/
structure Asks (b : Building ℚ) (t : ℕ) (p : ℚ) : Prop where
  load : b.getDhwLoad t 1 = .ok (10 / 7 * p)
  oat : ∃ x, b.getOat t 1 = .ok x
  inlet : b.getInlet t 1 = .ok 50

theorem level_heat (V h d : ℚ) (a : Bool) (hV : 0 < V) (h0 : 0 < h) (hh : h ≤ V / 10) :
    (level V d).heat (if goes V a d then h * 6 * rhoCp ℚ else 0) ((1 : ℕ) : ℚ) 150 =
      level V (d + if goes V a d then h else 0) := by
  have hr : 0 < rhoCp ℚ := by unfold rhoCp; norm_num
  unfold level
  by_cases hg : goes V a d = true
  · have hd : d < 53 / 70 * V := by
      unfold goes at hg
      cases a <;> simp at hg <;> linarith
    simp only [hg, if_true]
    have hq : 0 < h * 6 * rhoCp ℚ := by positivity
    rw [heat_at _ _ _ _ _ _ _ _ (by norm_num) hq.le, if_pos hq]
    congr 1
    have e : h * 6 * rhoCp ℚ * ((1 : ℕ) : ℚ) / 60 * 1000 / (rhoCp ℚ * (150 - 50)) = h := by
      field_simp; norm_num
    rw [e, min_eq_left]
    linarith
  · simp only [hg, if_false, Bool.false_eq_true]
    rw [heat_at _ _ _ _ _ _ _ _ (by norm_num) le_rfl, if_neg (lt_irrefl _), add_zero]

theorem level_raw (V d T : ℚ) : (level V d).rawUsable T = V - (T + 90) / 280 * V + d := by
  show V - (T - -90) / (28 / 10) * V / 100 + d = _
  ring

/-- A step that draws water as hot as it is stored. -/
theorem level_step (b : Building ℚ) (t : ℕ) (V h d p : ℚ) (a : Bool) (s' : Prim ℚ) (o : StepOut ℚ) (hb : Asks b t p)
    (hV : 0 < V) (h0 : 0 < h) (hh : h ≤ V / 10) (hp : 0 ≤ p) (hhot : p ≤ V / 7 + (d + if goes V a d then h else 0))
    (hs : Prim.step b 1 (sysAt V h a d) t = .ok (s', o)) :
    s' = sysAt V h (goes V a d) (d + (if goes V a d then h else 0) - p) ∧ 120 ≤ delivered o ∧ 0 < o.usable := by
  obtain ⟨oat, ho⟩ := hb.oat
  obtain ⟨o', h1, h2, h3, h4, _⟩ := plain_step b 1 t 120 150 (h * 6 * rhoCp ℚ) usual a (level V d) _ oat 50 hV.ne'
    (by show (28 : ℚ) / 10 ≠ 0; norm_num) hb.load ho hb.inlet
  rw [goes_eq V d a hV] at h1 h2 h3
  have e := level_heat V h d a hV h0 hh
  rw [show usual.outlet = 150 from rfl, e] at h1 h2 h3
  set d1 := d + if goes V a d then h else 0 with hd1
  have hpe : 10 / 7 * p * (120 - 50) / (150 - 50) = p := by ring
  have hdr : (level V d1).draw (10 / 7 * p) 50 120 150 = level V (d1 - p) := by
    have hraw := level_raw V d1 150
    unfold level at hraw ⊢
    rw [draw_at _ _ _ _ _ _ _ _ hV (by norm_num) (by norm_num) (by norm_num) (by positivity) (by
      rw [hraw, hpe]; linarith), hpe]
  rw [hdr] at h1 h2 h3
  have hs' := hs.symm.trans h1
  simp only [Except.ok.injEq, Prod.mk.injEq] at hs'
  obtain ⟨rfl, rfl⟩ := hs'
  refine ⟨rfl, ?_, ?_⟩
  · have : delivered o = (level V (d1 - p)).tempAt 1 := by
      unfold delivered; rw [h3, h4]; rfl
    rw [this, StratTank.top_iff (level V (d1 - p)) hV (by show (0 : ℚ) < 28 / 10; norm_num) (by show (50 : ℚ) < 120; norm_num)
      (by show (120 : ℚ) ≤ 150; norm_num), level_raw]
    linarith
  · rw [h2, StratTank.usable_raw _ hV, level_raw]
    refine lt_max_of_lt_right (lt_min hV ?_)
    linarith

/-- Any step, in which at least that much is drawn. -/
theorem level_step_le (b : Building ℚ) (t : ℕ) (V h d p : ℚ) (a : Bool) (s' : Prim ℚ) (o : StepOut ℚ) (hb : Asks b t p)
    (hV : 0 < V) (h0 : 0 < h) (hh : h ≤ V / 10) (hp : 0 < p) (hpV : p ≤ V)
    (hs : Prim.step b 1 (sysAt V h a d) t = .ok (s', o)) :
    ∃ d', s' = sysAt V h (goes V a d) d' ∧ d' ≤ max (d + (if goes V a d then h else 0) - p) (-(V / 4)) ∧
      120 ≤ delivered o ∧ (d' ≤ -(V / 4) → o.usable ≤ 0) := by
  obtain ⟨oat, ho⟩ := hb.oat
  obtain ⟨o', h1, h2, h3, h4, _⟩ := plain_step b 1 t 120 150 (h * 6 * rhoCp ℚ) usual a (level V d) _ oat 50 hV.ne'
    (by show (28 : ℚ) / 10 ≠ 0; norm_num) hb.load ho hb.inlet
  rw [goes_eq V d a hV] at h1 h2 h3
  have e := level_heat V h d a hV h0 hh
  rw [show usual.outlet = 150 from rfl, e] at h1 h2 h3
  set d1 := d + if goes V a d then h else 0 with hd1
  have hpe : 10 / 7 * p * (120 - 50) / (150 - 50) = p := by ring
  obtain ⟨d', hdr, hfl, hle⟩ := draw_at_le V (28 / 10) d1 (-90) 50 150 (10 / 7 * p) 120 hV (by norm_num) (by norm_num)
    (by positivity) (by rw [hpe]; exact hpV)
  have hfe : ((120 - -90) / (28 / 10) - 100) * V / 100 = -(V / 4) := by ring
  rw [hpe, hfe] at hle
  rw [hfe] at hfl
  change (level V d1).draw (10 / 7 * p) 50 120 150 = level V d' at hdr
  rw [hdr] at h1 h2 h3
  have hs' := hs.symm.trans h1
  simp only [Except.ok.injEq, Prod.mk.injEq] at hs'
  obtain ⟨rfl, rfl⟩ := hs'
  refine ⟨d', rfl, hle, ?_, ?_⟩
  · have : delivered o = (level V d').tempAt 1 := by
      unfold delivered; rw [h3, h4]; rfl
    rw [this, StratTank.top_iff (level V d') hV (by show (0 : ℚ) < 28 / 10; norm_num) (by show (50 : ℚ) < 120; norm_num)
      (by show (120 : ℚ) ≤ 150; norm_num), level_raw]
    linarith
  · intro hd
    rw [h2, StratTank.usable_raw _ hV, level_raw]
    refine max_le le_rfl ((min_le_right _ _).trans ?_)
    linarith

/-! A building that asks for `g` times the rates of a list of hours. -/

def hourly (rates : List ℚ) (S g : ℚ) : Building ℚ :=
  { flatBuilding with dailyGal := S * (600 / 7) * g, peakShape := rates.map (· / S), avgShape := rates.map (· / S) }

theorem hourly_load (rates : List ℚ) (S g : ℚ) (hS : S ≠ 0) (hl : rates.length = 24) (t : ℕ) (avg : Bool) :
    (hourly rates S g).getDhwLoad t 1 avg = .ok (10 / 7 * (rates.getD (t / 60 % 24) 0 * g)) := by
  unfold Building.getDhwLoad
  have e : (if avg then (hourly rates S g).avgShape else (hourly rates S g).peakShape) = rates.map (· / S) := by
    cases avg <;> rfl
  simp only [e]
  have hl' : (rates.map (· / S)).length = 24 := by simp [hl]
  have hlt : t / 60 % 24 < rates.length := by rw [hl]; exact Nat.mod_lt _ (by norm_num)
  rw [if_neg (by rw [hl']; norm_num)]
  have hp : pyGet (rates.map (· / S)) (t * 1 / 60 % (rates.map (· / S)).length) = .ok (rates.getD (t / 60 % 24) 0 / S) := by
    rw [hl', mul_one, pyGet_eq_ok, List.getElem?_map, List.getD_eq_getElem?_getD, List.getElem?_eq_getElem hlt]
    rfl
  rw [hp]
  simp only [ok_bind, pure_eq_ok, Except.ok.injEq]
  show S * (600 / 7) * g * _ * _ / 60 = _
  field_simp
  push_cast
  ring

theorem hourly_asks (rates : List ℚ) (S g : ℚ) (hS : S ≠ 0) (hl : rates.length = 24) (t : ℕ) :
    Asks (hourly rates S g) t (rates.getD (t / 60 % 24) 0 * g) :=
  ⟨hourly_load rates S g hS hl t false, ⟨20, rfl⟩, rfl⟩

theorem hourly_answers (rates : List ℚ) (S g : ℚ) (hl : rates.length = 24) : Answers (hourly rates S g) := by
  refine ⟨fun _ _ => ⟨20, rfl⟩, fun _ _ => ⟨50, rfl⟩, ?_, ⟨some 50, rfl⟩⟩
  intro i ts avg
  unfold Building.getDhwLoad
  have e : (if avg then (hourly rates S g).avgShape else (hourly rates S g).peakShape) = rates.map (· / S) := by
    cases avg <;> rfl
  simp only [e]
  have hl' : (rates.map (· / S)).length = 24 := by simp [hl]
  rw [if_neg (by rw [hl']; norm_num)]
  rw [pyGet_of_lt (Nat.mod_lt _ (by rw [hl']; norm_num))]
  exact ⟨_, rfl⟩

/-- Given equipment with the default controls for such a building. -/
def givenParams (rates : List ℚ) (S g V h : ℚ) : EngineParams ℚ :=
  { params with
    magnitude := some (S * (600 / 7) * g), customPeak := some (rates.map (· / S)), aquastat := 1 / 2, offSensor := 1 / 10
    lsSchedule := none, loadUpHours := 0, loadUpFract := none, shedFract := none
    storageVol := some V, heatingCap := some (h * 6 * rhoCp ℚ) }

/-- The engine with this equipment. -/
def givenEngine (rates : List ℚ) (S g V h : ℚ) : EngineObj ℚ :=
  ⟨givenParams rates S g V h, { cfg := ⟨120, 150, 16, 1⟩ },
    plainSys 120 150 (h * 6 * rhoCp ℚ) usual false (StratTank.new V (28 / 10)), hourly rates S g⟩

theorem given_building (rates : List ℚ) (S g V h : ℚ)
    (hs : Building.computeSingle noFiles none (some (S * (600 / 7) * g)) (some (rates.map (· / S))) none
      ⟨none, none, none⟩ = .ok (S * (600 / 7) * g, rates.map (· / S), rates.map (· / S))) :
    (givenParams rates S g V h).buildBuilding noFiles noTables = .ok (hourly rates S g) := by
  unfold EngineParams.buildBuilding Building.fromBuildingType
  simp only [givenParams, params, buildClimateZone, ok_bind, hs]
  rfl

theorem given_new (rates : List ℚ) (S g V h : ℚ)
    (hs : Building.computeSingle noFiles none (some (S * (600 / 7) * g)) (some (rates.map (· / S))) none
      ⟨none, none, none⟩ = .ok (S * (600 / 7) * g, rates.map (· / S), rates.map (· / S))) :
    EngineObj.new noFiles noTables noModel (fun _ => 1) (givenParams rates S g V h) =
      .ok (givenEngine rates S g V h) :=
  plain_new _ _ _ _ (givenParams rates S g V h) _ V (h * 6 * rhoCp ℚ) (.inl rfl) rfl rfl rfl rfl rfl
    (given_building rates S g V h hs)

theorem given_init (rates : List ℚ) (S g V h : ℚ) :
    (givenEngine rates S g V h).prim.init (givenEngine rates S g V h).bld = .ok (sysAt V h false 0) := by
  unfold Prim.init
  have h1 : designInletOr (givenEngine rates S g V h).bld = .ok 50 := rfl
  have h2 : initialUseable (givenEngine rates S g V h).prim.heaters = 1 / 2 := by
    show max 0 (min 1 (1 - (1 / 2 : ℚ))) = 1 / 2
    norm_num
  rw [h1]
  simp only [ok_bind, pure_eq_ok, h2]
  simp only [givenEngine, plainSys, sysAt, level, Option.map_some, StratTank.init, StratTank.new]
  norm_num

theorem given_runs (rates : List ℚ) (S g V h : ℚ) (hl : rates.length = 24) (hV : 0 < V) (thr : ℚ) (maxMin : Int) :
    ∃ s r, (givenEngine rates S g V h).prim.simulate (givenEngine rates S g V h).bld thr maxMin "3day" = .ok (s, r) := by
  refine C91_completes_partial _ _ thr maxMin "3day" (.inl rfl) (hourly_answers rates S g hl) ?_ ?_
  · intro w hw
    obtain rfl : w = plainHeater (h * 6 * rhoCp ℚ) usual false := by simpa [givenEngine, plainSys] using hw
    exact plain_ready _ _ _
  · intro t ht
    obtain rfl : StratTank.new V (28 / 10) = t := by simpa [givenEngine, plainSys] using ht
    exact ⟨hV.ne', by show (28 : ℚ) / 10 ≠ 0; norm_num⟩

/-- The heater states and levels follow the controls up to step `n`, drawing only water as hot as it is stored. -/
def Follows (rates : List ℚ) (g V h : ℚ) (A : ℕ → Bool) (D : ℕ → ℚ) (t : ℕ) : Prop :=
  A (t + 1) = goes V (A t) (D t) ∧
  D (t + 1) = D t + (if A (t + 1) then h else 0) - rates.getD (t / 60 % 24) 0 * g ∧
  rates.getD (t / 60 % 24) 0 * g ≤ V / 7 + (D t + if A (t + 1) then h else 0)

instance (rates : List ℚ) (g V h : ℚ) (A : ℕ → Bool) (D : ℕ → ℚ) (t : ℕ) : Decidable (Follows rates g V h A D t) := by
  unfold Follows; infer_instance

theorem follows_step {rates : List ℚ} {S g V h : ℚ} {A : ℕ → Bool} {D : ℕ → ℚ} {t : ℕ} (hS : S ≠ 0)
    (hl : rates.length = 24) (hr : ∀ x ∈ rates, 0 ≤ x) (hg : 0 ≤ g) (hV : 0 < V) (h0 : 0 < h) (hh : h ≤ V / 10)
    (hf : Follows rates g V h A D t) {s' : Prim ℚ} {o : StepOut ℚ}
    (hs : Prim.step (hourly rates S g) 1 (sysAt V h (A t) (D t)) t = .ok (s', o)) :
    s' = sysAt V h (A (t + 1)) (D (t + 1)) ∧ 120 ≤ delivered o ∧ 0 < o.usable := by
  obtain ⟨f1, f2, f3⟩ := hf
  have hlt : t / 60 % 24 < rates.length := by rw [hl]; exact Nat.mod_lt _ (by norm_num)
  have hx : 0 ≤ rates.getD (t / 60 % 24) 0 := by
    rw [List.getD_eq_getElem?_getD, List.getElem?_eq_getElem hlt]
    exact hr _ (List.getElem_mem hlt)
  rw [f1] at f3
  obtain ⟨e1, e2, e3⟩ := level_step _ t V h (D t) _ (A t) s' o (hourly_asks rates S g hS hl t) hV h0 hh
    (mul_nonneg hx hg) f3 hs
  rw [← f1, ← f2] at e1
  exact ⟨e1, e2, e3⟩

theorem given_success (rates : List ℚ) (S g V h : ℚ) (A : ℕ → Bool) (D : ℕ → ℚ) (hS : S ≠ 0)
    (hs : Building.computeSingle noFiles none (some (S * (600 / 7) * g)) (some (rates.map (· / S))) none
      ⟨none, none, none⟩ = .ok (S * (600 / 7) * g, rates.map (· / S), rates.map (· / S)))
    (hl : rates.length = 24) (hr : ∀ x ∈ rates, 0 ≤ x) (hg : 0 ≤ g) (hV : 0 < V) (h0 : 0 < h) (hh : h ≤ V / 10)
    (hA : A 0 = false) (hD : D 0 = 0) (hf : ∀ t, Follows rates g V h A D t) :
    ThreeDays noFiles noTables noModel (fun _ => 1) (givenParams rates S g V h) true := by
  refine ⟨_, given_new rates S g V h hs, fun thr maxMin _ => ?_⟩
  obtain ⟨s, r, hrun⟩ := given_runs rates S g V h hl hV thr maxMin
  refine ⟨s, r, hrun, run_success hrun (given_init rates S g V h) (fun t s => s = sysAt V h (A t) (D t))
    (by rw [hA, hD]) ?_⟩
  rintro ts dur hd t s s' o rfl hst
  obtain ⟨rfl, rfl⟩ : 4320 = dur ∧ 1 = ts := by simpa [simDuration] using hd
  obtain ⟨e1, _, e3⟩ := follows_step hS hl hr hg hV h0 hh (hf t) hst
  exact ⟨e1, e3⟩

theorem given_failure (rates : List ℚ) (S g V h P : ℚ) (A : ℕ → Bool) (D : ℕ → ℚ) (k n : ℕ) (hS : S ≠ 0)
    (hs : Building.computeSingle noFiles none (some (S * (600 / 7) * g)) (some (rates.map (· / S))) none
      ⟨none, none, none⟩ = .ok (S * (600 / 7) * g, rates.map (· / S), rates.map (· / S)))
    (hl : rates.length = 24) (hr : ∀ x ∈ rates, 0 ≤ x) (hg : 0 ≤ g) (hV : 0 < V) (h0 : 0 < h) (hh : h ≤ V / 10)
    (hA : A 0 = false) (hD : D 0 = 0) (hf : ∀ t < k, Follows rates g V h A D t) (hk : k ≤ n) (hn : n < 4320)
    (hP : ∀ t, k ≤ t → t ≤ n → rates.getD (t / 60 % 24) 0 * g = P) (hhP : h < P) (hPV : P ≤ V) (hDk : D k < V / 4)
    (hend : D k - (P - h) * (n + 1 - k : ℕ) ≤ -(V / 4)) :
    ThreeDays noFiles noTables noModel (fun _ => 1) (givenParams rates S g V h) false := by
  refine ⟨_, given_new rates S g V h hs, fun thr maxMin hthr => ?_⟩
  obtain ⟨s, r, hrun⟩ := given_runs rates S g V h hl hV thr maxMin
  refine ⟨s, r, hrun, run_failure hrun (given_init rates S g V h) hthr
    (fun t s => if t ≤ k then s = sysAt V h (A t) (D t) else
      ∃ a d, s = sysAt V h a d ∧ d ≤ max (D k - (P - h) * (t - k : ℕ)) (-(V / 4))) (by simp [hA, hD]) n ?_ ?_⟩
  · intro ts dur hd
    obtain ⟨rfl, rfl⟩ : 4320 = dur ∧ 1 = ts := by simpa [simDuration] using hd
    exact ⟨by norm_num, by omega⟩
  · intro ts dur hd t s s' o htn hp hst
    obtain ⟨rfl, rfl⟩ : 4320 = dur ∧ 1 = ts := by simpa [simDuration] using hd
    by_cases ht : t < k
    · rw [if_pos ht.le] at hp
      subst hp
      obtain ⟨e1, e2, _⟩ := follows_step hS hl hr hg hV h0 hh (hf t ht) hst
      rw [if_pos (by omega)]
      exact ⟨e1, e2, fun hc => by omega⟩
    · have hp' : ∃ a d, s = sysAt V h a d ∧ d ≤ max (D k - (P - h) * (t - k : ℕ)) (-(V / 4)) := by
        split at hp
        · obtain rfl : t = k := by omega
          exact ⟨A t, D t, hp, le_max_of_le_left (by simp)⟩
        · exact hp
      obtain ⟨a, d, rfl, hd'⟩ := hp'
      have hnn : (0 : ℚ) ≤ (P - h) * (t - k : ℕ) := mul_nonneg (by linarith) (Nat.cast_nonneg _)
      have hd4 : d < V / 4 := hd'.trans_lt (max_lt (by linarith) (by linarith))
      have hgo : goes V a d = true := by
        unfold goes
        cases a <;> simp <;> linarith
      have hask := hourly_asks rates S g hS hl t
      rw [hP t (by omega) (by omega)] at hask
      obtain ⟨d2, e1, e2, e3, e4⟩ := level_step_le _ t V h d P a s' o hask hV h0 hh (by linarith) hPV hst
      rw [hgo, if_pos rfl] at e2
      have hcast : ((t + 1 - k : ℕ) : ℚ) = (t - k : ℕ) + 1 := by
        rw [show t + 1 - k = (t - k) + 1 by omega]; push_cast; ring
      have hd2 : d2 ≤ max (D k - (P - h) * (t + 1 - k : ℕ)) (-(V / 4)) := by
        rw [hcast]
        refine e2.trans (max_le ?_ (le_max_right _ _))
        rcases le_max_iff.1 hd' with q | q
        · exact le_max_of_le_left (by linarith)
        · exact le_max_of_le_right (by linarith)
      refine ⟨?_, e3, ?_⟩
      · rw [if_neg (by omega)]
        exact ⟨_, _, e1, hd2⟩
      · rintro rfl
        exact e4 (hd2.trans (max_le hend le_rfl))

/-- Levels and heater states that repeat every day. -/
theorem follows_daily (rates : List ℚ) (g V h : ℚ) (f : ℕ → Bool) (e : ℕ → ℚ)
    (h0 : Follows rates g V h (fun t => if t = 0 then false else f t) e 0)
    (hd : ∀ m < 1440, Follows rates g V h (fun t => f (t % 1440)) (fun t => e (t % 1440)) m) (t : ℕ) :
    Follows rates g V h (fun t => if t = 0 then false else f (t % 1440)) (fun t => e (t % 1440)) t := by
  rcases Nat.eq_zero_or_pos t with rfl | ht
  · exact h0
  · obtain ⟨a, b, c⟩ := hd (t % 1440) (Nat.mod_lt _ (by norm_num))
    have e1 : (t % 1440 + 1) % 1440 = (t + 1) % 1440 := by omega
    have e2 : t % 1440 / 60 % 24 = t / 60 % 24 := by omega
    simp only [Nat.mod_mod, e1, e2] at a b c
    refine ⟨?_, ?_, ?_⟩
    · simpa [ht.ne'] using a
    · simpa using b
    · simpa using c

/-- Little at night, a steady day and one hour with seven times as much. -/
def peaky : List ℚ := List.replicate 8 (1 / 4) ++ List.replicate 5 1 ++ [7] ++ List.replicate 10 1

def steadyLevel (m : ℕ) : ℚ :=
  if m ≤ 480 then 3 / 4 * m else if m ≤ 780 then 360 else if m ≤ 840 then 360 - 6 * (m - 780) else 0

theorem peaky_succeeds :
    ThreeDays noFiles noTables noModel (fun _ => 1) (givenParams peaky 24 1 500 1) true := by
  refine given_success peaky 24 1 500 1 _ _ (by norm_num) (by decide +kernel) rfl (by decide +kernel) (by norm_num)
    (by norm_num) (by norm_num) (by norm_num) ?_ ?_
    (follows_daily peaky 1 500 1 (fun _ => true) steadyLevel (by decide +kernel) (by decide +kernel))
  · rfl
  · decide +kernel

/-- A larger heater fills the tank before the day, switches off, and is back on only shortly before the peak. -/
theorem peaky_larger_heater :
    ThreeDays noFiles noTables noModel (fun _ => 1) (givenParams peaky 24 1 500 (11 / 10)) false := by
  refine given_failure peaky 24 1 500 (11 / 10) 7
    (fun t => decide (1 ≤ t ∧ t ≤ 446 ∨ 727 ≤ t))
    (fun t => if t ≤ 446 then 85 / 100 * t else if t ≤ 480 then 3791 / 10 - (t - 446) / 4 else
      if t ≤ 726 then 3706 / 10 - (t - 480) else if t ≤ 780 then 1246 / 10 + (t - 726) / 10 else 1241 / 10)
    781 823 (by norm_num) (by decide +kernel) rfl (by decide +kernel) (by norm_num)
    (by norm_num) (by norm_num) (by norm_num) rfl (by decide +kernel) (by decide +kernel) (by norm_num) (by norm_num) ?_
    (by norm_num) (by norm_num) (by decide +kernel) (by decide +kernel)
  intro t h1 h2
  rw [show t / 60 % 24 = 13 by omega]
  decide +kernel

/-- With a fifth less demand the tank is full before the day, and its heater is off until the peak has begun. -/
theorem peaky_less_demand :
    ThreeDays noFiles noTables noModel (fun _ => 1) (givenParams peaky 24 (4 / 5) 500 1) false := by
  refine given_failure peaky 24 (4 / 5) 500 1 (28 / 5)
    (fun t => decide (1 ≤ t ∧ t ≤ 474))
    (fun t => if t ≤ 474 then 8 / 10 * t else if t ≤ 480 then 3792 / 10 - (t - 474) / 5 else
      if t ≤ 780 then 378 - 8 / 10 * (t - 480) else 138 - 56 / 10 * (t - 780))
    783 836 (by norm_num) (by decide +kernel) rfl (by decide +kernel) (by norm_num)
    (by norm_num) (by norm_num) (by norm_num) rfl (by decide +kernel) (by decide +kernel) (by norm_num) (by norm_num) ?_
    (by norm_num) (by norm_num) (by decide +kernel) (by decide +kernel)
  intro t h1 h2
  rw [show t / 60 % 24 = 13 by omega]
  decide +kernel

/-- A first rise in demand in the morning, and a short, high peak in the evening. -/
def evening : List ℚ :=
  List.replicate 7 0 ++ List.replicate 5 (9 / 10) ++ List.replicate 5 0 ++ [7] ++ List.replicate 6 (95 / 100)

def eveningOn (m : ℕ) : Bool := !decide (380 ≤ m ∧ m ≤ 703 ∨ 974 ≤ m ∧ m ≤ 1057)

def eveningLevel (m : ℕ) : ℚ :=
  if m ≤ 379 then m else if m ≤ 420 then 379 else if m ≤ 703 then 379 - 9 / 10 * (m - 420) else
  if m ≤ 720 then 1243 / 10 + (m - 703) / 10 else if m ≤ 973 then 126 + (m - 720) else if m ≤ 1020 then 379 else
  if m ≤ 1057 then 379 - 7 * (m - 1020) else if m ≤ 1080 then 120 - 6 * (m - 1057) else -18 + (m - 1080) / 20

theorem evening_succeeds :
    ThreeDays noFiles noTables noModel (fun _ => 1) (givenParams evening (172 / 10) 1 500 1) true := by
  refine given_success evening (172 / 10) 1 500 1 _ _ (by norm_num) (by decide +kernel) rfl (by decide +kernel) (by norm_num)
    (by norm_num) (by norm_num) (by norm_num) ?_ ?_
    (follows_daily evening 1 500 1 eveningOn eveningLevel (by decide +kernel) (by decide +kernel))
  · rfl
  · decide +kernel

/-- In a larger tank the morning does not reach the sensor, and the tank goes into the evening without being refilled. -/
theorem evening_larger_tank :
    ThreeDays noFiles noTables noModel (fun _ => 1) (givenParams evening (172 / 10) 1 550 1) false := by
  refine given_failure evening (172 / 10) 1 550 1 7
    (fun t => decide (1 ≤ t ∧ t ≤ 417))
    (fun t => if t ≤ 417 then t else if t ≤ 420 then 417 else if t ≤ 720 then 417 - 9 / 10 * (t - 420) else
      if t ≤ 1020 then 147 else 147 - 7 * (t - 1020))
    1022 1067 (by norm_num) (by decide +kernel) rfl (by decide +kernel) (by norm_num)
    (by norm_num) (by norm_num) (by norm_num) rfl (by decide +kernel) (by decide +kernel) (by norm_num) (by norm_num) ?_
    (by norm_num) (by norm_num) (by decide +kernel) (by decide +kernel)
  intro t h1 h2
  rw [show t / 60 % 24 = 17 by omega]
  decide +kernel

end Demo

/-- Non-vacuity of `C123_ample_partial`: the first of the buildings above, with a heater of seven gallons in a minute. -/
example (v cap gal thr : ℚ) (maxMin : Int) (hv : 500 ≤ v) (hc : 7 * 6 * rhoCp ℚ ≤ cap) (h0 : 0 ≤ gal)
    (hg : gal ≤ 24 * (600 / 7)) :
    ∃ e, EngineObj.new Demo.noFiles Demo.noTables Demo.noModel (fun _ => 1)
        { Demo.givenParams Demo.peaky 24 1 500 7 with storageVol := some v, heatingCap := some cap } = .ok e ∧
      e.bld = Demo.hourly Demo.peaky 24 1 ∧
      ∃ s r, e.prim.simulate { Demo.hourly Demo.peaky 24 1 with dailyGal := gal } thr maxMin "3day" = .ok (s, r) ∧
        r.isSuccessful = true := by
  refine C123_ample_partial _ _ _ _ _ _ 500 (7 * 6 * rhoCp ℚ) 7 50 (.inl rfl) rfl rfl rfl
    (Demo.given_building Demo.peaky 24 1 500 7 (by decide +kernel)) (Demo.hourly_answers _ _ _ rfl) (fun _ => rfl) rfl
    (by decide +kernel) ?_ ?_ v cap gal hv hc h0 (hg.trans (by decide +kernel)) thr maxMin
  · intro i x hx
    rw [Demo.hourly_load _ _ _ (by norm_num) rfl] at hx
    simp only [Except.ok.injEq] at hx
    subst hx
    have : ∀ h < 24, 0 ≤ Demo.peaky.getD h 0 ∧ Demo.peaky.getD h 0 ≤ 7 := by decide +kernel
    obtain ⟨h1, h2⟩ := this (i / 60 % 24) (Nat.mod_lt _ (by norm_num))
    refine ⟨by positivity, ?_⟩
    show _ * ((120 : ℚ) - 50) / (150 - 50) ≤ 7
    linarith
  · constructor <;> decide +kernel

/-- **C123, refuted for the heating capacity.** An engine gets through its three days, and the same engine with a heater of a
higher capacity does not. -/
theorem C123_more_capacity_fails :
    ∃ (p : EngineParams ℚ) (q q' : ℚ), q < q' ∧
      ThreeDays Demo.noFiles Demo.noTables Demo.noModel (fun _ => 1) { p with heatingCap := some q } true ∧
      ThreeDays Demo.noFiles Demo.noTables Demo.noModel (fun _ => 1) { p with heatingCap := some q' } false :=
  ⟨Demo.givenParams Demo.peaky 24 1 500 1, 1 * 6 * rhoCp ℚ, 11 / 10 * 6 * rhoCp ℚ, by decide +kernel,
    Demo.peaky_succeeds, Demo.peaky_larger_heater⟩

/-- **C123, refuted for the storage.** An engine gets through its three days, and the same engine with a larger tank does
not. -/
theorem C123_more_storage_fails :
    ∃ (p : EngineParams ℚ) (v v' : ℚ), v < v' ∧
      ThreeDays Demo.noFiles Demo.noTables Demo.noModel (fun _ => 1) { p with storageVol := some v } true ∧
      ThreeDays Demo.noFiles Demo.noTables Demo.noModel (fun _ => 1) { p with storageVol := some v' } false :=
  ⟨Demo.givenParams Demo.evening (172 / 10) 1 500 1, 500, 550, by norm_num,
    Demo.evening_succeeds, Demo.evening_larger_tank⟩

/-- **C123, refuted for the demand.** An engine gets through its three days, and the same engine for a building that uses less
hot water does not. -/
theorem C123_less_demand_fails :
    ∃ (p : EngineParams ℚ) (m m' : ℚ), m' < m ∧
      ThreeDays Demo.noFiles Demo.noTables Demo.noModel (fun _ => 1) { p with magnitude := some m } true ∧
      ThreeDays Demo.noFiles Demo.noTables Demo.noModel (fun _ => 1) { p with magnitude := some m' } false :=
  ⟨Demo.givenParams Demo.peaky 24 1 500 1, 24 * (600 / 7) * 1, 24 * (600 / 7) * (4 / 5), by norm_num,
    Demo.peaky_succeeds, Demo.peaky_less_demand⟩

end Eco
