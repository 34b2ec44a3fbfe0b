import Verif.Props.LoopHeat
import Verif.Props.Efficiency
import Verif.Spec.LoopWeather

/-! C126 and C127 for loop heaters whose capacity depends on the weather, such as heat pumps of the catalogue. -/

set_option linter.unusedSectionVars false

namespace Eco
open Spec
variable {K : Type} [Field K] [LinearOrder K] [IsStrictOrderedRing K]

theorem sameHeater_capacity {w w' : Heater K} (h : SameHeater w w') (oat : Option K) (outlet : K) (inlet : Option K) :
    w'.getCapacity oat outlet inlet = w.getCapacity oat outlet inlet := by
  unfold Heater.getCapacity; rw [h.1]

theorem primStep_weather {s s' : Prim K} {b : Building K} {int t : ℕ} {o : StepOut K} (h : Prim.step b int s t = .ok (s', o)) :
    b.getOat t int = .ok o.oat := by
  unfold Prim.step at h
  rw [bind_eq_ok] at h
  obtain ⟨i, hi', h⟩ := h
  obtain ⟨ho, _⟩ := inputs_weather hi'
  cases ht : s.tank with
  | none =>
    simp only [ht, pure_eq_ok, Except.ok.injEq, Prod.mk.injEq] at h
    obtain ⟨rfl, rfl⟩ := h
    exact ho
  | some tank =>
    simp only [ht, bind_eq_ok, pure_eq_ok, Except.ok.injEq, Prod.mk.injEq] at h
    obtain ⟨⟨ws, tk, q, kws⟩, hh, rfl, rfl⟩ := h
    exact ho

/-- One step of the loop tank with any heater. -/
theorem parStep_any {c : TmCfg K} {s t : ParSim K} {b : Building K} {ts i : ℕ} {o : StepOut K} (hn : NeverCools b ts s.tmHeater)
    (h : parStep c b ts s i = .ok (t, o)) :
    SameHeater s.tmHeater t.tmHeater ∧ t.tmTank.vol = s.tmTank.vol ∧ s.tmTank.vol ≠ 0 ∧
    s.tmHeater.updateState (fun f => .ok ((s.tmTank.recirc c.flow c.ret (ts : K)).tempAt f)) (i * ts / 60 % 24) = (t.tmHeater, .ok ()) ∧
    ∃ q, o.tmOutput = some (q * (c.num : K)) ∧ o.tmTemp = some t.tmTank.temp ∧ (t.tmHeater.active = false → q = 0) ∧
      (t.tmHeater.active = true → ∃ (oat outlet : K) (inlet x : Option K), Outdoors b ts oat ∧
        s.tmHeater.getCapacity (some oat) outlet inlet = .ok x ∧ q = x.getD 0) ∧
      t.tmTank.temp = s.tmTank.temp - c.flow * ts * (s.tmTank.temp - c.ret) / s.tmTank.vol +
        q * (c.num : K) * ts / 60 * 1000 / (s.tmTank.vol * rhoCp K) := by
  unfold parStep at h
  rw [bind_eq_ok] at h
  obtain ⟨⟨y, p⟩, hp, h⟩ := h
  have hoat : Outdoors b ts p.oat := ⟨i, primStep_weather hp⟩
  simp only at h
  split at h
  · simp at h
  rename_i tank w tm ht
  simp only [pure_eq_ok, Except.ok.injEq, Prod.mk.injEq] at h
  obtain ⟨rfl, rfl⟩ := h
  unfold tmStep at ht
  simp only at ht
  split at ht
  · simp at ht
  rename_i hv
  have hf := updateState_fixed s.tmHeater ⟨fun f => .ok ((s.tmTank.recirc c.flow c.ret ts).tempAt f), i * ts / 60 % 24⟩
  simp only at hf
  generalize hu : s.tmHeater.updateState (fun f => .ok ((s.tmTank.recirc c.flow c.ret ts).tempAt f)) (i * ts / 60 % 24) = u at ht hf
  obtain ⟨w1, e | u⟩ := u
  · simp at ht
  simp only at ht hf
  have hs : SameHeater s.tmHeater w1 := ⟨hf.2.2, hf.1, hf.2.1⟩
  split at ht
  · simp at ht
  rename_i each he
  split at ht
  · simp at ht
  simp only [Prod.mk.injEq, Except.ok.injEq] at ht
  obtain ⟨⟨rfl, rfl⟩, rfl⟩ := ht
  have hout : (w1.active = false → each = 0) ∧ (w1.active = true → ∃ x, s.tmHeater.getCapacity (some p.oat)
      ((s.tmTank.recirc c.flow c.ret ts).tempAt 1) (some ((c.off + c.on) / 2)) = .ok x ∧ each = x.getD 0) := by
    unfold Heater.getOutput at he
    cases ha : w1.active with
    | false => simp only [ha, if_true, Except.ok.injEq] at he; simp [← he]
    | true =>
      simp only [ha, Bool.true_eq_false, if_false, bind_eq_ok, pure_eq_ok, Except.ok.injEq] at he
      obtain ⟨x, hx, rfl⟩ := he
      exact ⟨by simp, fun _ => ⟨x, by rw [← sameHeater_capacity hs]; exact hx, rfl⟩⟩
  have h0 : 0 ≤ each := by
    cases ha : w1.active with
    | false => rw [hout.1 ha]
    | true =>
      obtain ⟨x, hx, rfl⟩ := hout.2 ha
      cases x with
      | none => simp
      | some q => exact hn _ _ _ _ hoat hx
  have hvol : ∀ q d o : K, ((s.tmTank.recirc c.flow c.ret (ts : K)).heat q d o).vol = s.tmTank.vol := by
    intro q d o; unfold MixedTank.heat; split <;> rfl
  refine ⟨hs, hvol (each * (c.num : K)) (ts : K) c.off, hv, rfl, each, rfl, rfl, hout.1, ?_, ?_⟩
  · intro ha
    obtain ⟨x, hx, e⟩ := hout.2 ha
    exact ⟨_, _, _, x, hoat, hx, e⟩
  · simp only
    rw [heat_exact _ _ _ _ (by positivity)]
    have : (s.tmTank.recirc c.flow c.ret (ts : K)).vol = s.tmTank.vol := rfl
    rw [this]
    unfold MixedTank.recirc
    ring

/-- The states of a run of a parallel-loop system with any loop heater. -/
theorem par_states_any {c : TmCfg K} {s s' : ParSim K} {b : Building K} {thr : K} {maxMin : Int} {duration : String}
    {r : SimRun K} (hn : NeverCools b r.ts s.tmHeater) (h : parSimulate c s b thr maxMin duration = .ok (s', r)) :
    ∃ (outs : List (StepOut K)) (st : ℕ → ParSim K), Recorded r outs ∧ (st 0).tmTank.temp = c.off ∧
      (∀ j ≤ outs.length, SameHeater s.tmHeater (st j).tmHeater ∧ (st j).tmTank.vol = s.tmTank.vol) ∧
      ∀ j (hj : j < outs.length), parStep c b r.ts (st j) j = .ok (st (j + 1), outs[j]) := by
  unfold parSimulate at h
  simp only [bind_eq_ok] at h
  obtain ⟨_, _, p, hp, cold, _, h⟩ := h
  obtain ⟨dur, ts, outs, hd, _, hts, htr, hr, _⟩ := simulate_spec _ _ _ _ _ _ _ _ _ h
  obtain ⟨st, e0, e1, e2⟩ := trace_states _ _ _ _ htr
  have hst : ∀ j (hj : j < outs.length), parStep c b r.ts (st j) j = .ok (st (j + 1), outs[j]) := by
    intro j hj
    have := e2 j _ (List.getElem?_eq_getElem hj)
    rwa [Nat.zero_add, ← hts] at this
  refine ⟨outs, st, hr, by rw [e0]; rfl, ?_, hst⟩
  intro j
  induction j with
  | zero => intro _; rw [e0]; exact ⟨⟨rfl, rfl, rfl⟩, rfl⟩
  | succ j ih =>
    intro hj
    obtain ⟨a, b'⟩ := ih (by omega)
    have hn' : NeverCools b r.ts (st j).tmHeater := by
      intro x y z q ho hq; rw [sameHeater_capacity a] at hq; exact hn x y z q ho hq
    obtain ⟨k1, k2, _⟩ := parStep_any hn' (hst j hj)
    exact ⟨⟨k1.1.trans a.1, k1.2.1.trans a.2.1, k1.2.2.trans a.2.2⟩, k2.trans b'⟩

/-- **C127, any loop heater.** The heat balance of the loop holds whatever heats the loop tank, as long as it does not cool it: the
heat given in a run is what the loop took at the recorded temperatures, plus what the tank gained. -/
theorem C127_any_heater (c : TmCfg K) (s s' : ParSim K) (b : Building K) (thr : K) (maxMin : Int) (duration : String)
    (r : SimRun K) (hn : NeverCools b r.ts s.tmHeater) (h : parSimulate c s b thr maxMin duration = .ok (s', r)) :
    (r.tmOutput.map (fun q => q * (r.ts : K) / 60)).sum =
      ((c.off :: r.tmTemp).dropLast.map (fun T => recircLossKbtuh T c.ret c.flow * (r.ts : K) / 60)).sum +
      s.tmTank.vol * rhoCp K * (r.tmTemp.getLastD c.off - c.off) / 1000 := by
  obtain ⟨outs, st, hr, e0, inv, e2⟩ := par_states_any hn h
  have hrho := rhoCp_pos (K := K)
  have hn' : ∀ j ≤ outs.length, NeverCools b r.ts (st j).tmHeater := by
    intro j hj x y z q ho hq; rw [sameHeater_capacity (inv j hj).1] at hq; exact hn x y z q ho hq
  choose! k1 k2 k3 k4 q k5 k6 k7 k8 k9 using fun j (hj : j < outs.length) => parStep_any (hn' j hj.le) (e2 j hj)
  have htemps : r.tmTemp = (List.range outs.length).map (fun j => (st (j + 1)).tmTank.temp) := by
    rw [hr.tmTemp]
    exact filterMap_range _ _ _ (fun j hj => k6 j hj)
  have hall : c.off :: r.tmTemp = (List.range (outs.length + 1)).map (fun j => (st j).tmTank.temp) := by
    rw [htemps, List.range_succ_eq_map, List.map_cons, List.map_map, e0]
    rfl
  have houts : r.tmOutput = (List.range outs.length).map (fun j => q j * (c.num : K)) := by
    rw [hr.tmOutput]
    exact filterMap_range _ _ _ (fun j hj => k5 j hj)
  have hlast : r.tmTemp.getLastD c.off = (st outs.length).tmTank.temp := by
    have h1 : r.tmTemp.getLastD c.off = (c.off :: r.tmTemp).getLast (by simp) := by
      cases r.tmTemp <;> rfl
    rw [h1]
    simp only [hall]
    simp
  rw [hlast, houts, hall, List.range_succ, List.map_append, List.map_cons, List.map_nil, List.dropLast_concat, List.map_map,
    List.map_map]
  have key : ∀ n ≤ outs.length, ((List.range n).map ((fun q => q * (r.ts : K) / 60) ∘ fun j => q j * (c.num : K))).sum =
      ((List.range n).map ((fun T => recircLossKbtuh T c.ret c.flow * (r.ts : K) / 60) ∘ fun j => (st j).tmTank.temp)).sum +
      s.tmTank.vol * rhoCp K * ((st n).tmTank.temp - c.off) / 1000 := by
    intro n
    induction n with
    | zero => intro _; simp [e0]
    | succ n ih =>
      intro hn
      have hv := k3 n (by omega)
      have g5 := k9 n (by omega)
      rw [(inv n (by omega)).2] at hv g5
      rw [List.range_succ, List.map_append, List.map_append, List.sum_append, List.sum_append, ih (by omega)]
      simp only [List.map_cons, List.map_nil, List.sum_cons, List.sum_nil, add_zero, Function.comp_apply]
      rw [g5]
      generalize (List.map ((fun T => recircLossKbtuh T c.ret c.flow * (r.ts : K) / 60) ∘ fun j => (st j).tmTank.temp)
        (List.range n)).sum = S
      unfold recircLossKbtuh
      field_simp
      ring
  exact key _ le_rfl

/-- **C126, loop heaters that depend on the weather (partial).** The loop tank never falls below its ON temperature, if in all
weathers the heaters give at least what the loop takes at that temperature and at most one tank of water goes round the loop in one
step; it never gets warmer than any temperature from OFF upwards at which the loop takes at least what the heaters give at most. -/
theorem C126_weather_partial (c : TmCfg K) (s s' : ParSim K) (b : Building K) (thr : K) (maxMin : Int) (duration : String)
    (r : SimRun K) (lo hi top : K) (hk : KeepsBetween s.tmHeater c.on c.off) (hg : GivesBetween b r.ts s.tmHeater lo hi) (hlo : 0 ≤ lo)
    (hv : 0 < s.tmTank.vol) (hf : 0 ≤ c.flow) (hle : c.on ≤ c.off)
    (hstrong : recircLossKbtuh c.on c.ret c.flow ≤ lo * (c.num : K)) (hshort : c.flow * r.ts ≤ s.tmTank.vol)
    (htop : c.off ≤ top) (hret : c.ret ≤ top) (hcool : hi * (c.num : K) ≤ recircLossKbtuh top c.ret c.flow)
    (h : parSimulate c s b thr maxMin duration = .ok (s', r)) :
    r.tmTemp.length = r.demand.length ∧ ∀ x ∈ r.tmTemp, c.on ≤ x ∧ x ≤ top := by
  have hn : NeverCools b r.ts s.tmHeater := fun a _ d q ho hq => hlo.trans (hg a _ d _ ho hq).1
  obtain ⟨outs, st, hr, e0, inv, e2⟩ := par_states_any hn h
  have hrho := rhoCp_pos (K := K)
  have hn' : ∀ j ≤ outs.length, NeverCools b r.ts (st j).tmHeater := by
    intro j hj x y z q ho hq; rw [sameHeater_capacity (inv j hj).1] at hq; exact hn x y z q ho hq
  choose! k1 k2 k3 k4 q k5 k6 k7 k8 k9 using fun j (hj : j < outs.length) => parStep_any (hn' j hj.le) (e2 j hj)
  set k := c.flow * (r.ts : K) / s.tmTank.vol with hkk
  have hk0 : 0 ≤ k := by positivity
  have hk1 : k ≤ 1 := by rw [hkk, div_le_one hv]; exact hshort
  have hloss : ∀ T, c.flow * (r.ts : K) * (T - c.ret) / s.tmTank.vol = k * (T - c.ret) := by
    intro T; rw [hkk]; ring
  have hlossq : ∀ T, recircLossKbtuh T c.ret c.flow * (r.ts : K) / 60 * 1000 / (s.tmTank.vol * rhoCp K) = k * (T - c.ret) := by
    intro T
    rw [hkk]
    unfold recircLossKbtuh
    field_simp
  have hgain : ∀ {p q : K}, p ≤ q → p * (r.ts : K) / 60 * 1000 / (s.tmTank.vol * rhoCp K) ≤
      q * (r.ts : K) / 60 * 1000 / (s.tmTank.vol * rhoCp K) := by
    intro p q hpq
    gcongr
  have bounds : ∀ j ≤ outs.length, c.on ≤ (st j).tmTank.temp ∧ (st j).tmTank.temp ≤ top := by
    intro j
    induction j with
    | zero => intro _; rw [e0]; exact ⟨hle, htop⟩
    | succ j ih =>
      intro hj
      obtain ⟨i1, i2⟩ := ih (by omega)
      have hj' : j < outs.length := by omega
      have g5 := k9 j hj'
      rw [(inv j (by omega)).2, hloss] at g5
      rw [g5]
      have up : c.on ≤ (1 - k) * (st j).tmTank.temp + k * c.on := by nlinarith
      have dn : (1 - k) * (st j).tmTank.temp + k * top ≤ top := by nlinarith
      cases ha : (st (j + 1)).tmHeater.active with
      | true =>
        obtain ⟨oat, outlet, inlet, x, ho, hx, hq⟩ := k8 j hj' ha
        rw [sameHeater_capacity (inv j (by omega)).1] at hx
        obtain ⟨b1, b2⟩ := hg _ _ _ _ ho hx
        rw [← hq] at b1 b2
        have hnum : (0 : K) ≤ (c.num : K) := by positivity
        have a1 := hgain (hstrong.trans (mul_le_mul_of_nonneg_right b1 hnum))
        have a2 := hgain ((mul_le_mul_of_nonneg_right b2 hnum).trans hcool)
        rw [hlossq] at a1 a2
        constructor <;> nlinarith
      | false =>
        rw [k7 j hj' ha]
        have hge : c.on ≤ (st j).tmTank.temp - k * ((st j).tmTank.temp - c.ret) := by
          have hT : ((st j).tmTank.recirc c.flow c.ret (r.ts : K)).temp =
              (st j).tmTank.temp - k * ((st j).tmTank.temp - c.ret) := by
            unfold MixedTank.recirc
            rw [(inv j (by omega)).2, ← hloss]
            ring
          have hu := k4 j hj'
          rw [updateState_mixed (((inv j (by omega)).1.inForce _ _).2 ((hk _ (Nat.mod_lt _ (by norm_num)) _).2 rfl))] at hu
          rw [hT] at hu
          have hact := congrArg (fun w : Heater K × Py Unit => w.1.active) hu
          simp only [ha] at hact
          by_contra hlt
          have hlt := not_le.1 hlt
          split at hact
          · exact absurd (lt_of_lt_of_le hlt hle) (by simpa using hact)
          · exact absurd hlt (by simpa using hact)
        simp only [zero_mul, zero_div, add_zero]
        exact ⟨hge, by nlinarith⟩
  have htemps : r.tmTemp = (List.range outs.length).map (fun j => (st (j + 1)).tmTank.temp) := by
    rw [hr.tmTemp]
    exact filterMap_range _ _ _ (fun j hj => k6 j hj)
  refine ⟨by rw [htemps, hr.demand]; simp, ?_⟩
  intro x hx
  rw [htemps, List.mem_map] at hx
  obtain ⟨j, hj, rfl⟩ := hx
  exact bounds (j + 1) (by simpa using hj)

namespace Demo

/-- A heat pump of the two-point map that keeps a loop between 120 °F and 128 °F. -/
def loopPump : Heater ℚ := ⟨some (.sim twoPoint), some (List.replicate 24 "normal"), some [("normal", ⟨1 / 2, 120, 1 / 2, 128, 128⟩)], false⟩

/-- The plant of `pumped` with a loop of 5 gallons a minute that such heat pumps keep warm. -/
def pumpedLoop : ParSim ℚ := ⟨pumped, ⟨100, 0, 0⟩, loopPump⟩

theorem loopPump_keeps : KeepsBetween loopPump 120 128 := by
  intro hour hh c
  exact inForce_normal rfl rfl hh c

theorem loopPump_ready : Ready loopPump :=
  C91_table_heater loopPump twoPoint ⟨goodMap_demo.two, goodMap_demo.sorted, goodMap_demo.full⟩ (by decide) rfl
    (fun hour hh => ⟨_, (loopPump_keeps hour hh _).2 rfl⟩)

theorem loopPump_gives (ts : ℕ) : GivesBetween changing ts loopPump 20 21 := by
  rintro oat outlet inlet q ⟨i, ho⟩ hq
  have key : ∀ inl : ℚ, twoPoint.perUnit (some 20) inl outlet = .ok (3 * wToKbtuh ℚ, 3 * wToKbtuh ℚ) ∧
      twoPoint.perUnit (some 60) inl outlet = .ok (3 * wToKbtuh ℚ, wToKbtuh ℚ) := by
    intro inl
    have q0 : ∀ a : ℚ, quad [a, 0, 0] inl = .ok a := by
      intro a; rw [quad_ok (by simp)]; simp [quadAt]
    constructor
    · show (do let r ← twoPoint.between 0 1 20 inl; return (r.1 * r.2 * wToKbtuh ℚ, r.2 * wToKbtuh ℚ) : Py (ℚ × ℚ)) = _
      unfold SimMap.between
      simp only [twoPoint, simMap, pyGet, List.getElem?_cons_zero, List.getElem?_cons_succ, ok_bind, q0, linearInterp]
      norm_num [fdiv, ok_bind, pure_eq_ok]
    · show (do let r ← twoPoint.between 0 1 60 inl; return (r.1 * r.2 * wToKbtuh ℚ, r.2 * wToKbtuh ℚ) : Py (ℚ × ℚ)) = _
      unfold SimMap.between
      simp only [twoPoint, simMap, pyGet, List.getElem?_cons_zero, List.getElem?_cons_succ, ok_bind, q0, linearInterp]
      norm_num [fdiv, ok_bind, pure_eq_ok]
  have hval : q = some (6 * wToKbtuh ℚ) := by
    unfold Heater.getCapacity at hq
    simp only [loopPump, PerfMap.getCapacity, SimMap.getCapacity] at hq
    rcases changing_oat i ts with e | e
    · obtain rfl : (20 : ℚ) = oat := Except.ok.inj (e.symm.trans ho)
      simp only [(key _).1, ok_bind, pure_eq_ok, Except.ok.injEq] at hq
      rw [← hq]
      norm_num [twoPoint, simMap]
      ring
    · obtain rfl : (60 : ℚ) = oat := Except.ok.inj (e.symm.trans ho)
      simp only [(key _).2, ok_bind, pure_eq_ok, Except.ok.injEq] at hq
      rw [← hq]
      norm_num [twoPoint, simMap]
      ring
  rw [hval]
  constructor <;> norm_num [wToKbtuh]

end Demo

/-- Non-vacuity of C126 and C127 for heat pumps: three days of that plant complete, and its loop tank stays between 120 °F and
128 °F. -/
example : ∃ s' r, parSimulate ⟨110, 5, 120, 128, 1 / 2, 7 / 4, 2⟩ Demo.pumpedLoop Demo.changing 5 60 "3day" = .ok (s', r) ∧
    ∀ x ∈ r.tmTemp, 120 ≤ x ∧ x ≤ 128 := by
  obtain ⟨s', r, h⟩ := C91_completes_parallel_loop ⟨110, 5, 120, 128, 1 / 2, 7 / 4, 2⟩ Demo.pumpedLoop Demo.changing 5 60 "3day"
    (.inl rfl) Demo.changing_answers
    (by intro w hw; obtain rfl : w = Demo.heatPump := by simpa [Demo.pumpedLoop, Demo.pumped] using hw
        exact Demo.heatPump_ready)
    (by rintro t h
        obtain rfl : StratTank.new 200 2 = t := by simpa [Demo.pumpedLoop, Demo.pumped] using h
        exact ⟨by norm_num [StratTank.new], by norm_num [StratTank.new]⟩)
    Demo.loopPump_ready (by norm_num [Demo.pumpedLoop])
  refine ⟨s', r, h, ?_⟩
  have hts : r.ts = 1 := by
    have h' := h
    unfold parSimulate at h'
    simp only [bind_eq_ok] at h'
    obtain ⟨_, _, p, hp, cold, _, h'⟩ := h'
    obtain ⟨dur, ts, outs, hd, _, e, _⟩ := simulate_spec _ _ _ _ _ _ _ _ _ h'
    simp [simDuration] at hd
    omega
  exact (C126_weather_partial _ _ _ _ _ _ _ r 20 21 128 Demo.loopPump_keeps (Demo.loopPump_gives _) (by norm_num)
    (by norm_num [Demo.pumpedLoop]) (by norm_num) (by norm_num) (by norm_num [recircLossKbtuh, rhoCp])
    (by rw [hts]; norm_num [Demo.pumpedLoop]) le_rfl (by norm_num) (by norm_num [recircLossKbtuh, rhoCp]) h).2

end Eco
