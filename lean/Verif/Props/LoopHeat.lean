import Verif.Props.RepeatLoop

/-! C126, C127: the loop tank of a parallel-loop system holds its ON temperature; the heat balance of its loop. -/

namespace Eco
set_option linter.unusedSectionVars false
variable {K : Type} [Field K] [LinearOrder K] [IsStrictOrderedRing K]
open Spec

theorem heat_exact (x : MixedTank K) (q d o : K) (hq : 0 ≤ q) :
    (x.heat q d o).temp = x.temp + q * d / 60 * 1000 / (x.vol * rhoCp K) := by
  unfold MixedTank.heat
  split
  · rename_i h
    rw [le_antisymm h hq]
    simp
  · rfl

theorem filterMap_range {α β : Type} (f : α → Option β) (g : ℕ → β) (l : List α)
    (h : ∀ j (hj : j < l.length), f l[j] = some (g j)) : l.filterMap f = (List.range l.length).map g := by
  induction l generalizing g with
  | nil => rfl
  | cons a l ih =>
    have h0 := h 0 (by simp)
    simp only [List.getElem_cons_zero] at h0
    rw [List.filterMap_cons, h0, List.length_cons, List.range_succ_eq_map, List.map_cons, List.map_map]
    simp only [List.cons.injEq, true_and]
    exact ih (fun j => g (j + 1)) (fun j hj => by
      have := h (j + 1) (by simpa using hj)
      simpa using this)

/-- One step of the loop tank: the loop takes its loss at the tank's temperature, the heater adds its output, and the record
shows the result. -/
theorem parStep_exact {c : TmCfg K} {s0 s : ParSim K} {vol slope on off cap : K} (b : Building K) (ts i : ℕ)
    {t : ParSim K} {o : StepOut K} (hw : FixedTm s0.tmHeater on off cap) (hv : s0.tmTank.vol ≠ 0)
    (hcap : 0 ≤ cap * (c.num : K)) (hinv : ParInv s0 vol slope s) (h : parStep c b ts s i = .ok (t, o)) :
    ∃ q, o.tmOutput = some q ∧ o.tmTemp = some t.tmTank.temp ∧ q = (if t.tmHeater.active then cap * (c.num : K) else 0) ∧
      t.tmHeater.active = tmOn on off s.tmHeater (s.tmTank.temp - c.flow * ts * (s.tmTank.temp - c.ret) / s0.tmTank.vol) ∧
      t.tmTank.temp = s.tmTank.temp - c.flow * ts * (s.tmTank.temp - c.ret) / s0.tmTank.vol +
        q * ts / 60 * 1000 / (s0.tmTank.vol * rhoCp K) := by
  obtain ⟨p, e, hvol⟩ := hinv
  have hfix := fixedTm_congr e hw
  unfold parStep at h
  simp only [bind_eq_ok] at h
  obtain ⟨⟨s1, o1⟩, h1, h⟩ := h
  have hh : i * ts / 60 % 24 < 24 := Nat.mod_lt _ (by norm_num)
  have hv' : s.tmTank.vol ≠ 0 := by rw [hvol]; exact hv
  have hT : (s.tmTank.recirc c.flow c.ret (ts : K)).temp =
      s.tmTank.temp - c.flow * ts * (s.tmTank.temp - c.ret) / s0.tmTank.vol := by
    unfold MixedTank.recirc
    rw [hvol]
    ring
  obtain ⟨kw, hk⟩ := fixed_kw hfix (tmOn on off s.tmHeater (s.tmTank.recirc c.flow c.ret ts).temp) (some o1.oat)
    ((s.tmTank.recirc c.flow c.ret ts).tempAt 1) (some ((c.off + c.on) / 2))
  have ho := fixed_output hfix (tmOn on off s.tmHeater (s.tmTank.recirc c.flow c.ret ts).temp) (some o1.oat)
    ((s.tmTank.recirc c.flow c.ret ts).tempAt 1) (some ((c.off + c.on) / 2))
  unfold tmStep at h
  simp only [if_neg hv', fixed_update hfix hh, ho, hk, pure_eq_ok, Except.ok.injEq, Prod.mk.injEq] at h
  obtain ⟨rfl, rfl⟩ := h
  have hq : 0 ≤ (if tmOn on off s.tmHeater (s.tmTank.recirc c.flow c.ret (ts : K)).temp = true then cap else 0) *
      (c.num : K) := by
    split
    · exact hcap
    · simp
  refine ⟨_, rfl, rfl, ?_, by rw [← hT], ?_⟩
  · simp only
    split <;> simp
  · have hvol2 : (s.tmTank.recirc c.flow c.ret (ts : K)).vol = s0.tmTank.vol := hvol
    simp only
    rw [heat_exact _ _ _ _ hq, hvol2, ← hT]

/-- The states of a run of a parallel-loop system. -/
theorem par_states {c : TmCfg K} {s s' : ParSim K} {b : Building K} {thr : K} {maxMin : Int} {duration : String}
    {r : SimRun K} {tank : StratTank K} {on off cap : K} (ht : s.prim.tank = some tank)
    (hw : FixedTm s.tmHeater on off cap) (hv : s.tmTank.vol ≠ 0)
    (h : parSimulate c s b thr maxMin duration = .ok (s', r)) :
    ∃ (outs : List (StepOut K)) (st : ℕ → ParSim K), Recorded r outs ∧ st 0 = st 0 ∧ (st 0).tmTank.temp = c.off ∧
      (st 0).tmHeater = s.tmHeater ∧ st outs.length = s' ∧ (∀ j ≤ outs.length, ParInv s tank.vol tank.slope (st j)) ∧
      ∀ j (hj : j < outs.length), parStep c b r.ts (st j) j = .ok (st (j + 1), outs[j]) := by
  unfold parSimulate at h
  simp only [bind_eq_ok] at h
  obtain ⟨_, _, p, hp, cold, _, h⟩ := h
  obtain ⟨dur, ts, outs, hd, _, hts, htr, hr, _⟩ := simulate_spec _ _ _ _ _ _ _ _ _ h
  obtain ⟨st, e0, e1, e2⟩ := trace_states _ _ _ _ htr
  have inv : ∀ j ≤ outs.length, ParInv s tank.vol tank.slope (st j) := by
    intro j
    induction j with
    | zero => intro _; rw [e0]; exact ⟨primInit_inv ht hp, ⟨rfl, rfl, rfl⟩, rfl⟩
    | succ j ih =>
      intro hj
      exact (parStep_fixed b ts _ hw hv (ih (by omega)) (e2 j _ (List.getElem?_eq_getElem (by omega)))).1
  refine ⟨outs, st, hr, rfl, by rw [e0]; rfl, by rw [e0], e1, inv, fun j hj => ?_⟩
  have := e2 j _ (List.getElem?_eq_getElem hj)
  rwa [Nat.zero_add, ← hts] at this

/-- **C126 (partial).** In a simulation of a parallel-loop system, the loop tank never falls below its ON temperature, if its
heaters give at least what the loop takes at that temperature and at most one tank of water goes round the loop in one step.
It never gets warmer than any temperature from OFF upwards at which the loop takes at least what the heaters give. -/
theorem C126_holds_partial (c : TmCfg K) (s s' : ParSim K) (b : Building K) (thr : K) (maxMin : Int) (duration : String)
    (r : SimRun K) (tank : StratTank K) (cap top : K) (ht : s.prim.tank = some tank)
    (hw : FixedTm s.tmHeater c.on c.off cap) (hv : 0 < s.tmTank.vol) (hf : 0 ≤ c.flow) (hcap : 0 ≤ cap * (c.num : K))
    (hle : c.on ≤ c.off) (hstrong : recircLossKbtuh c.on c.ret c.flow ≤ cap * (c.num : K))
    (hshort : c.flow * r.ts ≤ s.tmTank.vol) (htop : c.off ≤ top) (hret : c.ret ≤ top)
    (hcool : cap * (c.num : K) ≤ recircLossKbtuh top c.ret c.flow)
    (h : parSimulate c s b thr maxMin duration = .ok (s', r)) :
    r.tmTemp.length = r.demand.length ∧ ∀ x ∈ r.tmTemp, c.on ≤ x ∧ x ≤ top := by
  obtain ⟨outs, st, hr, _, e0, _, e1, inv, e2⟩ := par_states ht hw hv.ne' h
  have hrho := rhoCp_pos (K := K)
  set k := c.flow * (r.ts : K) / s.tmTank.vol with hk
  have hk0 : 0 ≤ k := by positivity
  have hk1 : k ≤ 1 := by rw [hk, div_le_one hv]; exact hshort
  have hloss : ∀ T, c.flow * (r.ts : K) * (T - c.ret) / s.tmTank.vol = k * (T - c.ret) := by
    intro T; rw [hk]; ring
  have hlossq : ∀ T, recircLossKbtuh T c.ret c.flow * (r.ts : K) / 60 * 1000 / (s.tmTank.vol * rhoCp K) = k * (T - c.ret) := by
    intro T
    rw [hk]
    unfold recircLossKbtuh
    field_simp
  have hgain : ∀ {p q : K}, p ≤ q → p * (r.ts : K) / 60 * 1000 / (s.tmTank.vol * rhoCp K) ≤
      q * (r.ts : K) / 60 * 1000 / (s.tmTank.vol * rhoCp K) := by
    intro p q hpq
    gcongr
  have bounds : ∀ j ≤ outs.length, c.on ≤ (st j).tmTank.temp ∧ (st j).tmTank.temp ≤ top := by
    intro j
    induction j with
    | zero => intro _; rw [e0]; exact ⟨hle, htop⟩
    | succ j ih =>
      intro hj
      obtain ⟨i1, i2⟩ := ih (by omega)
      obtain ⟨q, _, _, g3, g4, g5⟩ := parStep_exact b r.ts j hw hv.ne' hcap (inv j (by omega)) (e2 j (by omega))
      rw [hloss] at g4 g5
      rw [g5]
      have up : c.on ≤ (1 - k) * (st j).tmTank.temp + k * c.on := by nlinarith
      have dn : (1 - k) * (st j).tmTank.temp + k * top ≤ top := by nlinarith
      cases ha : (st (j + 1)).tmHeater.active with
      | true =>
        rw [ha, if_pos rfl] at g3
        have a1 := hgain hstrong
        have a2 := hgain hcool
        rw [hlossq] at a1 a2
        rw [← g3] at a1 a2
        constructor <;> nlinarith
      | false =>
        rw [ha] at g3 g4
        simp only [Bool.false_eq_true, if_false] at g3
        rw [g3]
        have hge : c.on ≤ (st j).tmTank.temp - k * ((st j).tmTank.temp - c.ret) := by
          by_contra hlt
          have hlt := not_le.1 hlt
          unfold tmOn at g4
          cases hb : (st j).tmHeater.active with
          | true =>
            rw [hb] at g4
            simp only [if_true] at g4
            exact absurd (lt_of_lt_of_le hlt hle) (by simpa using g4.symm)
          | false =>
            rw [hb] at g4
            simp only [Bool.false_eq_true, if_false] at g4
            exact absurd hlt (by simpa using g4.symm)
        simp only [zero_mul, zero_div, add_zero]
        exact ⟨hge, by nlinarith⟩
  have htemps : r.tmTemp = (List.range outs.length).map (fun j => (st (j + 1)).tmTank.temp) := by
    rw [hr.tmTemp]
    apply filterMap_range
    intro j hj
    obtain ⟨_, _, g2, _⟩ := parStep_exact b r.ts j hw hv.ne' hcap (inv j hj.le) (e2 j hj)
    exact g2
  refine ⟨by rw [htemps, hr.demand]; simp, ?_⟩
  intro x hx
  rw [htemps, List.mem_map] at hx
  obtain ⟨j, hj, rfl⟩ := hx
  exact bounds (j + 1) (by simpa using hj)

/-- The loop heater and the loop tank of a sized parallel-loop system. -/
theorem parSized {M : SizingMethods K} {db : ShapeFiles K} {c : SysCfg K} {t : TmCfg K} {b b' : Building K}
    {sched : Option (List String)} {cmap : Option (ControlMap K)} {slope fract : K} {p : ParSys K} {sim : ParSim K}
    (h : ParSys.fromSize M db c t b sched cmap slope fract = (b', .ok p)) (hb : p.build slope sched cmap = .ok sim)
    (hf : 0 < t.flow) (hr : t.ret < c.supply) :
    validateTm t = .ok () ∧ ∃ v cap tank, sizeTm c.supply t = .ok (v, cap) ∧ 0 < v ∧ 0 < cap ∧ sim.tmTank.vol = v ∧
      sim.prim.tank = some tank ∧ FixedTm sim.tmHeater t.on t.off (cap / (t.num : K)) ∧
      cap / (t.num : K) * (t.num : K) = cap ∧ cap = recircLossKbtuh (tmBalance c.supply t) t.ret t.flow := by
  obtain ⟨hval, htm, hn, v, tc, hs, htank, hheat⟩ := fromSize_tm h
  obtain ⟨hv, hc, -⟩ := loopShare_sized hval hs hf hr (1 : K)
  refine ⟨hval, ?_⟩
  unfold ParSys.build at hb
  split at hb
  · rename_i cap vol tank w h1 h2 h3 h4
    injection hb with hb
    subst hb
    rw [htank] at h3; rw [hheat] at h4
    injection h3 with h3; injection h4 with h4
    subst h3 h4
    refine ⟨v, tc, _, hs, hv, hc, rfl, rfl, tmHeaterOf_fixed _ _ _, div_mul_cancel₀ _ hn, ?_⟩
    rw [(sizeTm_eq hs).2.2]
    unfold recircLossKbtuh tmBalance
    ring
  · simp at hb

/-- **C126 (partial), sized systems.** In every simulation of a parallel-loop system from `from_size`, the recorded loop tank
temperature stays between ON and the larger of OFF and the balance temperature, if ON is not above the balance temperature and
the steps are so short that at most one tank of water goes round the loop in a step. -/
theorem C126_sized_partial {M : SizingMethods K} {db : ShapeFiles K} {c : SysCfg K} {t : TmCfg K} {b b' : Building K}
    {sched : Option (List String)} {cmap : Option (ControlMap K)} {slope fract : K} {p : ParSys K} {sim sim' : ParSim K}
    (h : ParSys.fromSize M db c t b sched cmap slope fract = (b', .ok p)) (hb : p.build slope sched cmap = .ok sim)
    (hf : 0 < t.flow) (hr : t.ret < c.supply) (hon : t.on ≤ t.ret + t.sf * (c.supply - t.ret)) (b2 : Building K) (thr : K)
    (maxMin : Int) (duration : String) (r : SimRun K)
    (hshort : (r.ts : K) * (t.off - t.on) ≤ 60 * t.offTime * (c.supply - t.ret))
    (hrun : parSimulate t sim b2 thr maxMin duration = .ok (sim', r)) :
    r.tmTemp.length = r.demand.length ∧
      ∀ x ∈ r.tmTemp, t.on ≤ x ∧ x ≤ max t.off (t.ret + t.sf * (c.supply - t.ret)) := by
  obtain ⟨hval, v, cap, tank, hs, hv, hc, hvol, ht, hfix, hcap, hbal⟩ := parSized h hb hf hr
  obtain ⟨h1, h2, h3, h4, h5⟩ := (C64_validation t).1.1 hval
  obtain ⟨-, -, hks⟩ := loopShare_sized hval hs hf hr (r.ts : K)
  have hD : 0 < c.supply - t.ret := by linarith
  have hrho := rhoCp_pos (K := K)
  have hmono : ∀ {x y : K}, x ≤ y → recircLossKbtuh x t.ret t.flow ≤ recircLossKbtuh y t.ret t.flow := by
    intro x y hxy
    unfold recircLossKbtuh
    gcongr
  have hbr : t.ret ≤ tmBalance c.supply t := by
    unfold tmBalance
    have : 0 < t.sf * (c.supply - t.ret) := mul_pos (by linarith) hD
    linarith
  refine C126_holds_partial t sim sim' b2 thr maxMin duration r tank _ _ ht hfix (by rw [hvol]; exact hv) hf.le
    (by rw [hcap]; exact hc.le) h4.le (by rw [hcap, hbal]; exact hmono hon) ?_ (le_max_left _ _) ?_ ?_ hrun
  · rw [hvol]
    have : loopShare t v (r.ts : K) ≤ 1 := by
      rw [hks, div_le_one (by positivity)]; exact hshort
    unfold loopShare at this
    exact (div_le_one hv).1 this
  · exact le_trans hbr (le_max_right _ _)
  · rw [hcap, hbal]
    exact hmono (le_max_right _ _)

/-- However the heater cycles, the loop tank of a sized system is not warmer than under a heater that never turns off. -/
theorem par_capped {M : SizingMethods K} {db : ShapeFiles K} {c : SysCfg K} {t : TmCfg K} {b b' : Building K}
    {sched : Option (List String)} {cmap : Option (ControlMap K)} {slope fract : K} {p : ParSys K} {sim sim' : ParSim K}
    (h : ParSys.fromSize M db c t b sched cmap slope fract = (b', .ok p)) (hb : p.build slope sched cmap = .ok sim)
    (hf : 0 < t.flow) (hr : t.ret < c.supply) (b2 : Building K) (thr : K) (maxMin : Int) (duration : String) (r : SimRun K)
    (n : ℕ) (k : K) (hk : k = r.ts * (t.off - t.on) / (60 * t.offTime * (c.supply - t.ret))) (hk1 : k ≤ 1 ∨ n = 0)
    (hrun : parSimulate t sim b2 thr maxMin duration = .ok (sim', r)) (hn : n < r.tmTemp.length) :
    r.tmTemp[n] ≤ tmBalance c.supply t + (t.off - tmBalance c.supply t) * (1 - k) ^ (n + 1) := by
  obtain ⟨hval, v, cap, tank, hs, hv, hc, hvol, ht, hfix, hcap, hbal⟩ := parSized h hb hf hr
  obtain ⟨-, -, hks⟩ := loopShare_sized hval hs hf hr (r.ts : K)
  have hv0 : sim.tmTank.vol ≠ 0 := by rw [hvol]; exact hv.ne'
  have hcap0 : 0 ≤ cap / (t.num : K) * (t.num : K) := by rw [hcap]; exact hc.le
  obtain ⟨outs, st, hr', _, e0, _, e1, inv, e2⟩ := par_states ht hfix hv0 hrun
  have hrho := rhoCp_pos (K := K)
  have htemps : r.tmTemp = (List.range outs.length).map (fun j => (st (j + 1)).tmTank.temp) := by
    rw [hr'.tmTemp]
    apply filterMap_range
    intro j hj
    obtain ⟨_, _, g2, _⟩ := parStep_exact b2 r.ts j hfix hv0 hcap0 (inv j hj.le) (e2 j hj)
    exact g2
  rw [← hks] at hk
  have step : ∀ j < outs.length, (st (j + 1)).tmTank.temp ≤
      tmBalance c.supply t + ((st j).tmTank.temp - tmBalance c.supply t) * (1 - k) := by
    intro j hj
    obtain ⟨q, _, _, g3, _, g5⟩ := parStep_exact b2 r.ts j hfix hv0 hcap0 (inv j hj.le) (e2 j hj)
    have hq : q ≤ cap := by
      rw [g3]
      split
      · rw [hcap]
      · exact hc.le
    have hg : q * (r.ts : K) / 60 * 1000 / (v * rhoCp K) ≤ cap * (r.ts : K) / 60 * 1000 / (v * rhoCp K) := by gcongr
    have hg2 : cap * (r.ts : K) / 60 * 1000 / (v * rhoCp K) = k * (tmBalance c.supply t - t.ret) := by
      rw [hbal, hk]
      unfold recircLossKbtuh loopShare
      field_simp
    have hg3 : t.flow * (r.ts : K) * ((st j).tmTank.temp - t.ret) / v = k * ((st j).tmTank.temp - t.ret) := by
      rw [hk]
      unfold loopShare
      ring
    rw [hvol, hg3] at g5
    rw [hg2] at hg
    linarith
  simp only [htemps, List.length_map, List.length_range] at hn
  have main : ∀ j ≤ n, (st (j + 1)).tmTank.temp ≤
      tmBalance c.supply t + (t.off - tmBalance c.supply t) * (1 - k) ^ (j + 1) := by
    intro j
    induction j with
    | zero =>
      intro _
      have := step 0 (by omega)
      rw [e0] at this
      simpa using this
    | succ j ih =>
      intro hj
      have hk1 : k ≤ 1 := by
        rcases hk1 with hk1 | hk1
        · exact hk1
        · omega
      have a := ih (by omega)
      have b := step (j + 1) (by omega)
      rw [pow_succ]
      nlinarith [mul_le_mul_of_nonneg_right a (sub_nonneg.2 hk1)]
  simp only [htemps, List.getElem_map, List.getElem_range]
  exact main n le_rfl

/-- **C126 fails above the balance temperature.** Then a simulation that is long enough records a loop tank below ON. -/
theorem C126_falls {M : SizingMethods K} {db : ShapeFiles K} {c : SysCfg K} {t : TmCfg K} {b b' : Building K}
    {sched : Option (List String)} {cmap : Option (ControlMap K)} {slope fract : K} {p : ParSys K} {sim sim' : ParSim K}
    (h : ParSys.fromSize M db c t b sched cmap slope fract = (b', .ok p)) (hb : p.build slope sched cmap = .ok sim)
    (hf : 0 < t.flow) (hr : t.ret < c.supply) (b2 : Building K) (thr : K) (maxMin : Int) (duration : String) (r : SimRun K)
    (n : ℕ) (k : K) (hk : k = r.ts * (t.off - t.on) / (60 * t.offTime * (c.supply - t.ret))) (hk1 : k ≤ 1)
    (hcold : tmBalance c.supply t + (t.off - tmBalance c.supply t) * (1 - k) ^ (n + 1) < t.on)
    (hrun : parSimulate t sim b2 thr maxMin duration = .ok (sim', r)) (hn : n < r.tmTemp.length) :
    ∃ x ∈ r.tmTemp, x < t.on :=
  ⟨_, List.getElem_mem hn, lt_of_le_of_lt (par_capped h hb hf hr b2 thr maxMin duration r n k hk (.inl hk1) hrun hn) hcold⟩

/-- **C126 fails for long steps.** If the first step is long enough to cool the tank below ON even with the heater on for all of
it, the simulation records a loop tank below ON at its first step. -/
theorem C126_long_step_falls {M : SizingMethods K} {db : ShapeFiles K} {c : SysCfg K} {t : TmCfg K} {b b' : Building K}
    {sched : Option (List String)} {cmap : Option (ControlMap K)} {slope fract : K} {p : ParSys K} {sim sim' : ParSim K}
    (h : ParSys.fromSize M db c t b sched cmap slope fract = (b', .ok p)) (hb : p.build slope sched cmap = .ok sim)
    (hf : 0 < t.flow) (hr : t.ret < c.supply) (b2 : Building K) (thr : K) (maxMin : Int) (duration : String) (r : SimRun K)
    (hlong : 60 * t.offTime * (c.supply - t.ret) < r.ts * (t.off - tmBalance c.supply t))
    (hrun : parSimulate t sim b2 thr maxMin duration = .ok (sim', r)) (hn : 0 < r.tmTemp.length) :
    ∃ x, r.tmTemp.head? = some x ∧ x < t.on := by
  obtain ⟨h1, h2, h3, h4, h5⟩ := (C64_validation t).1.1 (fromSize_tm h).1
  have := par_capped h hb hf hr b2 thr maxMin duration r 0 _ rfl (.inr rfl) hrun hn
  refine ⟨_, by rw [List.head?_eq_getElem?, List.getElem?_eq_getElem hn], lt_of_le_of_lt this ?_⟩
  have hD : 0 < c.supply - t.ret := by linarith
  have hB : 0 < t.off - t.on := by linarith
  have hpos : 0 < 60 * t.offTime * (c.supply - t.ret) := by positivity
  have : t.off - t.on < r.ts * (t.off - t.on) / (60 * t.offTime * (c.supply - t.ret)) * (t.off - tmBalance c.supply t) := by
    rw [div_mul_eq_mul_div, lt_div_iff₀ hpos]
    nlinarith
  rw [zero_add, pow_one]
  linarith

/-- **C127.** The heat that the loop heaters of a parallel-loop system give over a simulation, read off the record, is what the
loop took at the recorded temperatures, plus what the tank gained. The tank starts at its OFF temperature. -/
theorem C127_balance (c : TmCfg K) (s s' : ParSim K) (b : Building K) (thr : K) (maxMin : Int) (duration : String)
    (r : SimRun K) (tank : StratTank K) (on off cap : K) (ht : s.prim.tank = some tank)
    (hw : FixedTm s.tmHeater on off cap) (hv : s.tmTank.vol ≠ 0) (hcap : 0 ≤ cap * (c.num : K))
    (h : parSimulate c s b thr maxMin duration = .ok (s', r)) :
    (r.tmOutput.map (fun q => q * (r.ts : K) / 60)).sum =
      ((c.off :: r.tmTemp).dropLast.map (fun T => recircLossKbtuh T c.ret c.flow * (r.ts : K) / 60)).sum +
      s.tmTank.vol * rhoCp K * (r.tmTemp.getLastD c.off - c.off) / 1000 := by
  obtain ⟨outs, st, hr, _, e0, _, e1, inv, e2⟩ := par_states ht hw hv h
  have hrho := rhoCp_pos (K := K)
  have htemps : r.tmTemp = (List.range outs.length).map (fun j => (st (j + 1)).tmTank.temp) := by
    rw [hr.tmTemp]
    apply filterMap_range
    intro j hj
    obtain ⟨_, _, g2, _⟩ := parStep_exact b r.ts j hw hv hcap (inv j hj.le) (e2 j hj)
    exact g2
  have hall : c.off :: r.tmTemp = (List.range (outs.length + 1)).map (fun j => (st j).tmTank.temp) := by
    rw [htemps, List.range_succ_eq_map, List.map_cons, List.map_map, e0]
    rfl
  have houts : r.tmOutput = (List.range outs.length).map (fun j => if (st (j + 1)).tmHeater.active then cap * (c.num : K) else 0) := by
    rw [hr.tmOutput]
    apply filterMap_range
    intro j hj
    obtain ⟨q, g1, _, g3, _⟩ := parStep_exact b r.ts j hw hv hcap (inv j hj.le) (e2 j hj)
    rw [g1, g3]
  have hlast : r.tmTemp.getLastD c.off = (st outs.length).tmTank.temp := by
    have h1 : r.tmTemp.getLastD c.off = (c.off :: r.tmTemp).getLast (by simp) := by
      cases r.tmTemp <;> rfl
    rw [h1]
    simp only [hall]
    simp
  rw [hlast, houts, hall, List.range_succ, List.map_append, List.map_cons, List.map_nil, List.dropLast_concat, List.map_map,
    List.map_map]
  have key : ∀ n ≤ outs.length, ((List.range n).map ((fun q => q * (r.ts : K) / 60) ∘
        fun j => if (st (j + 1)).tmHeater.active then cap * (c.num : K) else 0)).sum =
      ((List.range n).map ((fun T => recircLossKbtuh T c.ret c.flow * (r.ts : K) / 60) ∘ fun j => (st j).tmTank.temp)).sum +
      s.tmTank.vol * rhoCp K * ((st n).tmTank.temp - c.off) / 1000 := by
    intro n
    induction n with
    | zero => intro _; simp [e0]
    | succ n ih =>
      intro hn
      obtain ⟨q, _, _, g3, _, g5⟩ := parStep_exact b r.ts n hw hv hcap (inv n (by omega)) (e2 n (by omega))
      rw [List.range_succ, List.map_append, List.map_append, List.sum_append, List.sum_append, ih (by omega)]
      simp only [List.map_cons, List.map_nil, List.sum_cons, List.sum_nil, add_zero, Function.comp_apply]
      rw [← g3, g5]
      generalize (List.map ((fun T => recircLossKbtuh T c.ret c.flow * (r.ts : K) / 60) ∘ fun j => (st j).tmTank.temp)
        (List.range n)).sum = S
      unfold recircLossKbtuh
      field_simp
      ring
  exact key _ le_rfl

/-- **C127, sized systems.** Every simulation of a parallel-loop system from `from_size`, with any stop limits and on any
building. -/
theorem C127_sized {M : SizingMethods K} {db : ShapeFiles K} {c : SysCfg K} {t : TmCfg K} {b b' : Building K}
    {sched : Option (List String)} {cmap : Option (ControlMap K)} {slope fract : K} {p : ParSys K} {sim sim' : ParSim K}
    (h : ParSys.fromSize M db c t b sched cmap slope fract = (b', .ok p)) (hb : p.build slope sched cmap = .ok sim)
    (hf : 0 < t.flow) (hr : t.ret < c.supply) (b2 : Building K) (thr : K) (maxMin : Int) (duration : String) (r : SimRun K)
    (hrun : parSimulate t sim b2 thr maxMin duration = .ok (sim', r)) :
    ∃ vol each, (parResults p).tm = some (vol, some ((t.num : K) * each)) ∧
      (r.tmOutput.map (fun q => q * (r.ts : K) / 60)).sum =
        ((t.off :: r.tmTemp).dropLast.map (fun T => recircLossKbtuh T t.ret t.flow * (r.ts : K) / 60)).sum +
        vol * rhoCp K * (r.tmTemp.getLastD t.off - t.off) / 1000 := by
  obtain ⟨hval, v, cap, tank, hs, hv, hc, hvol, ht, hfix, hcap, hbal⟩ := parSized h hb hf hr
  obtain ⟨_, _, tmVol, each, _, _, hrep, _, _, _, _, _, _, _, htv, _⟩ := C117_parallel_loop_built h hb hf hr
  refine ⟨tmVol, each, by rw [hrep], ?_⟩
  rw [← htv]
  exact C127_balance t sim sim' b2 thr maxMin duration r tank _ _ _ ht hfix (by rw [hvol]; exact hv.ne')
    (by rw [hcap]; exact hc.le) hrun

/-- **C127, bounds.** For a sized system whose loop tank holds its temperatures (C126), the heat lies between what the loop takes
at ON and what it takes at the larger of OFF and the balance temperature, over the recorded time, up to what the tank itself
holds between these temperatures and OFF. -/
theorem C127_bounds_partial {M : SizingMethods K} {db : ShapeFiles K} {c : SysCfg K} {t : TmCfg K} {b b' : Building K}
    {sched : Option (List String)} {cmap : Option (ControlMap K)} {slope fract : K} {p : ParSys K} {sim sim' : ParSim K}
    (h : ParSys.fromSize M db c t b sched cmap slope fract = (b', .ok p)) (hb : p.build slope sched cmap = .ok sim)
    (hf : 0 < t.flow) (hr : t.ret < c.supply) (hon : t.on ≤ t.ret + t.sf * (c.supply - t.ret)) (b2 : Building K) (thr : K)
    (maxMin : Int) (duration : String) (r : SimRun K) (top heat time : K)
    (htop : top = max t.off (t.ret + t.sf * (c.supply - t.ret)))
    (hheat : heat = (r.tmOutput.map (fun q => q * (r.ts : K) / 60)).sum) (htime : time = r.demand.length * (r.ts : K) / 60)
    (hshort : (r.ts : K) * (t.off - t.on) ≤ 60 * t.offTime * (c.supply - t.ret))
    (hrun : parSimulate t sim b2 thr maxMin duration = .ok (sim', r)) :
    ∃ vol each, (parResults p).tm = some (vol, some ((t.num : K) * each)) ∧ 0 < vol ∧
      recircLossKbtuh t.on t.ret t.flow * time - vol * rhoCp K * (t.off - t.on) / 1000 ≤ heat ∧
      heat ≤ recircLossKbtuh top t.ret t.flow * time + vol * rhoCp K * (top - t.off) / 1000 := by
  obtain ⟨vol, each, hrep, hbal⟩ := C127_sized h hb hf hr b2 thr maxMin duration r hrun
  obtain ⟨hlen, hbd⟩ := C126_sized_partial h hb hf hr hon b2 thr maxMin duration r hshort hrun
  obtain ⟨h1, h2, h3, h4, h5⟩ := (C64_validation t).1.1 (fromSize_tm h).1
  obtain ⟨_, _, tmVol, each', _, _, hrep', _, _, _, _, _, _, _, _, hv, _⟩ := C117_parallel_loop_built h hb hf hr
  rw [hrep'] at hrep
  simp only [Option.some.injEq, Prod.mk.injEq] at hrep
  obtain ⟨rfl, hrep⟩ := hrep
  refine ⟨tmVol, each', by rw [hrep'], hv, ?_⟩
  rw [← htop] at hbd
  have hrho := rhoCp_pos (K := K)
  have hall : ∀ x ∈ t.off :: r.tmTemp, t.on ≤ x ∧ x ≤ top := by
    intro x hx
    rcases List.mem_cons.1 hx with rfl | hx
    · exact ⟨h4.le, by rw [htop]; exact le_max_left _ _⟩
    · exact hbd x hx
  have hlast : t.on ≤ r.tmTemp.getLastD t.off ∧ r.tmTemp.getLastD t.off ≤ top := by
    apply hall
    have : r.tmTemp.getLastD t.off = (t.off :: r.tmTemp).getLast (by simp) := by cases r.tmTemp <;> rfl
    rw [this]
    exact List.getLast_mem _
  have hl : (t.off :: r.tmTemp).dropLast.length = r.demand.length := by simp [hlen]
  have hmono : ∀ {x y : K}, x ≤ y → recircLossKbtuh x t.ret t.flow * (r.ts : K) / 60 ≤
      recircLossKbtuh y t.ret t.flow * (r.ts : K) / 60 := by
    intro x y hxy
    unfold recircLossKbtuh
    gcongr
  have hlow := List.card_nsmul_le_sum ((t.off :: r.tmTemp).dropLast.map fun T => recircLossKbtuh T t.ret t.flow * (r.ts : K) / 60)
    (recircLossKbtuh t.on t.ret t.flow * (r.ts : K) / 60) (by
      intro x hx
      obtain ⟨T, hT, rfl⟩ := List.mem_map.1 hx
      exact hmono (hall T (List.mem_of_mem_dropLast hT)).1)
  have hhigh := List.sum_le_card_nsmul
    ((t.off :: r.tmTemp).dropLast.map fun T => recircLossKbtuh T t.ret t.flow * (r.ts : K) / 60)
    (recircLossKbtuh top t.ret t.flow * (r.ts : K) / 60) (by
      intro x hx
      obtain ⟨T, hT, rfl⟩ := List.mem_map.1 hx
      exact hmono (hall T (List.mem_of_mem_dropLast hT)).2)
  rw [List.length_map, hl, nsmul_eq_mul] at hlow hhigh
  have hw : 0 < tmVol * rhoCp K := mul_pos hv hrho
  have c1 : tmVol * rhoCp K * (t.on - t.off) / 1000 ≤ tmVol * rhoCp K * (r.tmTemp.getLastD t.off - t.off) / 1000 := by
    have := hlast.1
    gcongr
  have c2 : tmVol * rhoCp K * (r.tmTemp.getLastD t.off - t.off) / 1000 ≤ tmVol * rhoCp K * (top - t.off) / 1000 := by
    have := hlast.2
    gcongr
  have e : ∀ x : K, x * time = (r.demand.length : K) * (x * (r.ts : K) / 60) := by intro x; rw [htime]; ring
  rw [hheat, hbal, e, e]
  have c3 : tmVol * rhoCp K * (t.on - t.off) / 1000 = -(tmVol * rhoCp K * (t.off - t.on) / 1000) := by ring
  constructor <;> linarith

/-! ## Examples -/

namespace Demo

def loopOk (t : TmCfg ℚ) : Bool :=
  match (ParSys.fromSize baseMethods noFiles cfg t building (some sched) (some map) (28 / 10) 1).2 with
  | .ok p => match p.build (28 / 10) (some sched) (some map) with
    | .ok _ => decide ((parResults p).minStorage ≠ some 0)
    | .error _ => false
  | .error _ => false

/-- Both kinds of simulation of a demo loop finish; the record has a step, and 48 steps if the stop limit allows them. -/
theorem loop_runs {t : TmCfg ℚ} (h : loopOk t = true) (hf : 0 < t.flow) (hr : t.ret < 120) (thr : ℚ) (maxMin : Int)
    {duration : String} {dur ts : ℕ} (hd : duration = "3day" ∨ duration = "annual") (hdt : simDuration duration = .ok (dur, ts)) :
    ∃ b' p sim sim' r, ParSys.fromSize baseMethods noFiles cfg t building (some sched) (some map) (28 / 10) 1 = (b', .ok p) ∧
      p.build (28 / 10) (some sched) (some map) = .ok sim ∧
      parSimulate t sim building thr maxMin duration = .ok (sim', r) ∧ r.ts = ts ∧ 0 < r.tmTemp.length ∧
      (48 ≤ maxMin → ts = 1 → 48 ≤ r.tmTemp.length) := by
  unfold loopOk at h
  rcases hz : ParSys.fromSize baseMethods noFiles cfg t building (some sched) (some map) (28 / 10) 1 with ⟨b', res⟩
  rw [hz] at h
  rcases res with e | p
  · simp at h
  cases hb : p.build (28 / 10) (some sched) (some map) with
  | error e => simp [hb] at h
  | ok sim =>
    simp only [hb, decide_eq_true_eq] at h
    obtain ⟨sim', r, hrun⟩ := C117_parallel_loop_simulates_partial hz hb hf hr (by norm_num) h controlled building answers
      thr maxMin duration hd
    obtain ⟨-, v, cap, tank, hs, hv, hc, hvol, ht, hfix, hcap, hbal⟩ := parSized hz hb hf hr
    have hv0 : sim.tmTank.vol ≠ 0 := by rw [hvol]; exact hv.ne'
    obtain ⟨outs, st, hr', _, _, _, _, inv, e2⟩ := par_states ht hfix hv0 hrun
    have htemps : r.tmTemp.length = r.demand.length := by
      have : r.tmTemp = (List.range outs.length).map (fun j => (st (j + 1)).tmTank.temp) := by
        rw [hr'.tmTemp]
        apply filterMap_range
        intro j hj
        obtain ⟨_, _, g2, _⟩ := parStep_exact building r.ts j hfix hv0 (by rw [hcap]; exact hc.le) (inv j hj.le) (e2 j hj)
        exact g2
      rw [this, hr'.demand]
      simp
    have hrun' := hrun
    unfold parSimulate at hrun'
    simp only [bind_eq_ok] at hrun'
    obtain ⟨_, _, _, _, _, _, hrun'⟩ := hrun'
    obtain ⟨dur', ts', outs', hd', _, hts, htr, hrec, _, _, _, hend⟩ := simulate_spec _ _ _ _ _ _ _ _ _ hrun'
    have hdem : r.demand.length = outs'.length := by rw [hrec.demand]; simp
    obtain ⟨rfl, rfl⟩ : dur = dur' ∧ ts = ts' := by
      have := hdt.symm.trans hd'
      simpa using this
    have hbig : 48 ≤ dur / ts := by
      rcases hd with rfl | rfl
      · obtain ⟨rfl, rfl⟩ : 4320 = dur ∧ 1 = ts := by simpa [simDuration] using hdt
        norm_num
      · obtain ⟨rfl, rfl⟩ : 525600 = dur ∧ 10 = ts := by simpa [simDuration] using hdt
        norm_num
    refine ⟨b', p, sim, sim', r, rfl, hb, hrun, hts, ?_, ?_⟩
    · rw [htemps, hdem]
      rcases hend with ⟨_, hl, _⟩ | ⟨_, hl, _⟩ <;> omega
    · rintro hm rfl
      rw [htemps, hdem]
      rcases hend with ⟨_, hl, _⟩ | ⟨_, _, _, ⟨k, _, hk1, hk2, _⟩, _⟩
      · omega
      · have : (48 : Int) < ((k * 1 : ℕ) : Int) := lt_of_le_of_lt hm hk2
        have : 48 < k * 1 := by exact_mod_cast this
        omega

/-- A loop kept hotter than its heater can keep it. -/
def tmHot : TmCfg ℚ := { tm with on := 130, off := 140 }

/-- A loop with a short off time. -/
def tmQuick : TmCfg ℚ := { tm with on := 120, off := 130, offTime := 1 / 10, sf := 5 / 4 }

end Demo

/-- At the default settings the loop tank stays between 120 °F and 128 °F, for three days and for a year. -/
example (thr : ℚ) (maxMin : Int) (duration : String) (hd : duration = "3day" ∨ duration = "annual") :
    ∃ b' p sim sim' r, ParSys.fromSize baseMethods Demo.noFiles Demo.cfg Demo.tm Demo.building (some Demo.sched)
        (some Demo.map) (28 / 10) 1 = (b', .ok p) ∧ p.build (28 / 10) (some Demo.sched) (some Demo.map) = .ok sim ∧
      parSimulate Demo.tm sim Demo.building thr maxMin duration = .ok (sim', r) ∧ 0 < r.tmTemp.length ∧
      ∀ x ∈ r.tmTemp, 120 ≤ x ∧ x ≤ 128 := by
  obtain ⟨⟨dur, ts⟩, hdt⟩ := simDuration_total hd
  obtain ⟨b', p, sim, sim', r, h1, h2, h3, h4, h5, -⟩ := Demo.loop_runs (t := Demo.tm) (by decide +kernel) (by decide +kernel)
    (by decide +kernel) thr maxMin hd hdt
  refine ⟨b', p, sim, sim', r, h1, h2, h3, h5, fun x hx => ?_⟩
  obtain ⟨g1, g2⟩ := (C126_sized_partial h1 h2 (by decide +kernel) (by decide +kernel) (by decide +kernel) Demo.building thr
    maxMin duration r (by
      rw [h4]
      rcases hd with rfl | rfl
      · obtain ⟨rfl, rfl⟩ : 4320 = dur ∧ 1 = ts := by simpa [simDuration] using hdt
        decide +kernel
      · obtain ⟨rfl, rfl⟩ : 525600 = dur ∧ 10 = ts := by simpa [simDuration] using hdt
        decide +kernel) h3).2 x hx
  have e : max Demo.tm.off (Demo.tm.ret + Demo.tm.sf * (Demo.cfg.supply - Demo.tm.ret)) = 128 := by decide +kernel
  exact ⟨g1, by rwa [e] at g2⟩

/-- C127 applies to the same runs. -/
example (thr : ℚ) (maxMin : Int) : ∃ b' p sim sim' r, ParSys.fromSize baseMethods Demo.noFiles Demo.cfg Demo.tm Demo.building
        (some Demo.sched) (some Demo.map) (28 / 10) 1 = (b', .ok p) ∧
      p.build (28 / 10) (some Demo.sched) (some Demo.map) = .ok sim ∧
      parSimulate Demo.tm sim Demo.building thr maxMin "3day" = .ok (sim', r) ∧ 0 < r.tmTemp.length ∧
      ∃ vol each, (parResults p).tm = some (vol, some (((2 : ℕ) : ℚ) * each)) ∧
        recircLossKbtuh 120 110 5 * (r.demand.length * (r.ts : ℚ) / 60) - vol * rhoCp ℚ * 8 / 1000 ≤
          (r.tmOutput.map (fun q => q * (r.ts : ℚ) / 60)).sum := by
  obtain ⟨b', p, sim, sim', r, h1, h2, h3, h4, h5, -⟩ := Demo.loop_runs (t := Demo.tm) (dur := 4320) (ts := 1)
    (by decide +kernel) (by decide +kernel) (by decide +kernel) thr maxMin (.inl rfl) rfl
  obtain ⟨vol, each, g1, -, g2, -⟩ := C127_bounds_partial h1 h2 (by decide +kernel) (by decide +kernel) (by decide +kernel)
    Demo.building thr maxMin "3day" r _ _ _ rfl rfl rfl (by rw [h4]; decide +kernel) h3
  refine ⟨b', p, sim, sim', r, h1, h2, h3, h5, vol, each, g1, ?_⟩
  have e : Demo.tm.off - Demo.tm.on = 8 := by decide +kernel
  rwa [e] at g2

/-- A valid, sized loop to be kept at 130 °F falls below that within 48 minutes. -/
example (thr : ℚ) (maxMin : Int) (hm : 48 ≤ maxMin) :
    ∃ b' p sim sim' r, ParSys.fromSize baseMethods Demo.noFiles Demo.cfg Demo.tmHot Demo.building (some Demo.sched)
        (some Demo.map) (28 / 10) 1 = (b', .ok p) ∧ p.build (28 / 10) (some Demo.sched) (some Demo.map) = .ok sim ∧
      parSimulate Demo.tmHot sim Demo.building thr maxMin "3day" = .ok (sim', r) ∧ ∃ x ∈ r.tmTemp, x < 130 := by
  obtain ⟨b', p, sim, sim', r, h1, h2, h3, h4, -, h6⟩ := Demo.loop_runs (t := Demo.tmHot) (dur := 4320) (ts := 1)
    (by decide +kernel) (by decide +kernel) (by decide +kernel) thr maxMin (.inl rfl) rfl
  refine ⟨b', p, sim, sim', r, h1, h2, h3, ?_⟩
  have hlen := h6 hm rfl
  exact C126_falls h1 h2 (by decide +kernel) (by decide +kernel) Demo.building thr maxMin "3day" r 47 (1 / 30)
    (by rw [h4]; decide +kernel) (by norm_num) (by decide +kernel) h3 (by omega)

/-- A valid, sized loop with a short off time is below its ON temperature after the first step of the simulated year. -/
example (thr : ℚ) (maxMin : Int) :
    ∃ b' p sim sim' r, ParSys.fromSize baseMethods Demo.noFiles Demo.cfg Demo.tmQuick Demo.building (some Demo.sched)
        (some Demo.map) (28 / 10) 1 = (b', .ok p) ∧ p.build (28 / 10) (some Demo.sched) (some Demo.map) = .ok sim ∧
      parSimulate Demo.tmQuick sim Demo.building thr maxMin "annual" = .ok (sim', r) ∧
      ∃ x, r.tmTemp.head? = some x ∧ x < 120 := by
  obtain ⟨b', p, sim, sim', r, h1, h2, h3, h4, h5, -⟩ := Demo.loop_runs (t := Demo.tmQuick) (dur := 525600) (ts := 10)
    (by decide +kernel) (by decide +kernel) (by decide +kernel) thr maxMin (.inr rfl) rfl
  exact ⟨b', p, sim, sim', r, h1, h2, h3, C126_long_step_falls h1 h2 (by decide +kernel) (by decide +kernel) Demo.building thr
    maxMin "annual" r (by rw [h4]; decide +kernel) h3 h5⟩

end Eco
