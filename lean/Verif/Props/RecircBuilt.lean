import Verif.Props.SwingRun
import Verif.Props.SwingEr
import Verif.Props.ParallelLoop
import Verif.Spec.Built

/-! C117: a sized plant with recirculation is built as it is reported, and can be simulated. C118 for sized systems. -/

namespace Eco
variable {K : Type} [Field K] [LinearOrder K] [IsStrictOrderedRing K]

set_option linter.unusedSectionVars false

open Spec

/-! ## What `from_size` builds -/

theorem inForce_normal {w : Heater K} {c0 : Controls K} (hs : w.sched = some (List.replicate 24 "normal"))
    (hm : w.cmap = some [("normal", c0)]) {hour : ℕ} (hh : hour < 24) (c : Controls K) : InForce w hour c ↔ c = c0 := by
  have hl : (List.replicate 24 "normal")[hour]? = some "normal" := by rw [List.getElem?_replicate, if_pos hh]
  constructor
  · rintro ⟨sched, cmap, mode, h1, h2, h3, h4⟩
    rw [hs] at h1; rw [hm] at h2
    injection h1 with h1; injection h2 with h2
    subst h1 h2
    rw [hl] at h3
    injection h3 with h3
    subst h3
    simpa [dictGet?] using h4.symm
  · rintro rfl
    exact ⟨_, _, "normal", hs, hm, hl, by simp [dictGet?]⟩

theorem swingBuild_ok {s : SwingSys K} {slope : K} {sched : Option (List String)} {cmap : Option (ControlMap K)}
    {sim : SwingSim K} (h : s.build slope sched cmap = .ok sim) :
    ∃ cap vol tmVol tmCap, s.base.minCap = some cap ∧ s.base.minStorage = some vol ∧ s.tmVol = some tmVol ∧
      s.tmCap = some tmCap ∧ sim = ⟨s.base.cfg.supply, s.base.cfg.storage, [Heater.fromNominal cap sched cmap],
        StratTank.new vol slope, s.ret, s.flow, ⟨tmVol, 0, 0⟩, swingHeater s.base.cfg.supply tmCap⟩ := by
  unfold SwingSys.build at h
  split at h
  · rename_i cap vol tmVol tmCap h1 h2 h3 h4
    injection h with h
    exact ⟨cap, vol, tmVol, tmCap, h1, h2, h3, h4, h.symm⟩
  · simp at h

theorem swingBuild_spec {s : SwingSys K} {slope : K} {sched : Option (List String)} {cmap : Option (ControlMap K)}
    {sim : SwingSim K} (h : s.build slope sched cmap = .ok sim) :
    ∃ cap vol tmVol tmCap, swingResults s = ⟨some cap, some vol, some (tmVol, some tmCap)⟩ ∧
      BuiltSwing sim s.base.cfg.supply s.base.cfg.storage s.ret s.flow slope cap vol tmVol tmCap sched cmap := by
  obtain ⟨cap, vol, tmVol, tmCap, h1, h2, h3, h4, rfl⟩ := swingBuild_ok h
  refine ⟨cap, vol, tmVol, tmCap, by simp [swingResults, h1, h2, h3, h4], ⟨rfl, rfl, ⟨rfl, rfl⟩, ⟨rfl, rfl⟩,
    ⟨_, rfl, rfl, rfl, rfl, fun _ _ _ => rfl⟩, rfl, ⟨rfl, fun _ _ _ => rfl⟩, ?_⟩⟩
  exact fun hour hh c => inForce_normal rfl rfl hh c

theorem swingFromSize_ok {db : ShapeFiles K} {c : SysCfg K} {ret flow sf : K} {b b' : Building K}
    {sched : Option (List String)} {cmap : Option (ControlMap K)} {slope fract : K} {s : SwingSys K} {sim : SwingSim K}
    (h : SwingSys.fromSize db c ret flow sf b sched cmap slope fract = (b', .ok (s, sim))) :
    1 < sf ∧ ∃ s0, (⟨{ cfg := c }, ret, flow, sf, none, none, none, 1⟩ : SwingSys K).size db b sched cmap slope fract
      = ((s0, b'), .ok ()) ∧ s0.build slope sched cmap = .ok sim ∧
      s = { s0 with base := { s0.base with heaterMap := cmap } } := by
  unfold SwingSys.fromSize SwingSys.new at h
  split at h
  · rename_i e he
    simp at h
  · rename_i s1 he
    split at he
    · simp at he
    rename_i hsf
    injection he with he
    subst he
    split at h
    · simp at h
    · rename_i s0 b0 hz
      simp only [Prod.mk.injEq, bind_eq_ok, pure_eq_ok, Except.ok.injEq] at h
      obtain ⟨rfl, sim', h1, rfl, rfl⟩ := h
      exact ⟨not_le.1 hsf, s0, hz, h1, rfl⟩

/-- **C117, swing tank.** A system that `from_size` returns has exactly the tanks and heaters of its reported sizing
results: one primary heater of the reported capacity under the given schedule and controls, a stratified tank of the
reported storage volume, and a swing tank of the reported volume whose element has the reported capacity, the safety
factor times the loop loss, and keeps the tank between supply temperature and 8 °F above. -/
theorem C117_swing_built {db : ShapeFiles K} {c : SysCfg K} {ret flow sf : K} {b b' : Building K}
    {sched : Option (List String)} {cmap : Option (ControlMap K)} {slope fract : K} {s : SwingSys K} {sim : SwingSim K}
    (h : SwingSys.fromSize db c ret flow sf b sched cmap slope fract = (b', .ok (s, sim))) :
    ∃ cap vol tmVol tmCap, swingResults s = ⟨some cap, some vol, some (tmVol, some tmCap)⟩ ∧
      BuiltSwing sim c.supply c.storage ret flow slope cap vol tmVol tmCap sched cmap ∧
      0 < tmVol ∧ 1 < sf ∧ tmCap = sf * recircLossKbtuh c.supply ret flow := by
  obtain ⟨hsf, s0, hz, hb, rfl⟩ := swingFromSize_ok h
  obtain ⟨b1, inlet, vol, ca, cap, rv, eff, capP, st, mix, h1, h2, h3, h4, h5, rfl⟩ := swingSize_ok hz
  obtain ⟨cap', vol', tmVol, tmCap, r1, r2⟩ := swingBuild_spec hb
  obtain ⟨v1, v2⟩ := sizeSwingTm_vol_pos h3
  simp only [swingResults, Option.map_some, SizingResults.mk.injEq, Option.some.injEq, Prod.mk.injEq] at r1
  obtain ⟨rfl, rfl, rfl, rfl⟩ := r1
  refine ⟨capP, st, (vol : K), cap, rfl, r2, by exact_mod_cast v1, hsf, ?_⟩
  rw [v2, cappedCfg_supply]

theorem erFromSize_ok {db : ShapeFiles K} {c : SysCfg K} {ret flow sf erSf : K} {b b' : Building K}
    {sched : Option (List String)} {cmap : Option (ControlMap K)} {slope fract : K} {e : ErSys K} {sim : SwingSim K}
    (h : ErSys.fromSize db c ret flow sf erSf b sched cmap slope fract = (b', .ok (e, sim))) :
    1 < sf ∧ ∃ s0 e0, (⟨{ cfg := c }, ret, flow, sf, none, none, none, 1⟩ : SwingSys K).size db b sched cmap slope fract
      = ((s0, b'), .ok ()) ∧ ErSys.sizeEr ⟨s0, erSf, none⟩ b' = (e0, .ok ()) ∧ e0.sw.build slope sched cmap = .ok sim ∧
      e = { e0 with sw := { e0.sw with base := { e0.sw.base with heaterMap := cmap } } } := by
  unfold ErSys.fromSize ErSys.new SwingSys.new at h
  split at h
  · simp at h
  · rename_i e1 he
    split at he
    · simp [Except.map] at he
    rename_i hsf
    simp only [Except.map, Except.ok.injEq] at he
    subst he
    split at h
    · simp at h
    · rename_i e0 b0 hz
      simp only [Prod.mk.injEq, bind_eq_ok, pure_eq_ok, Except.ok.injEq] at h
      obtain ⟨rfl, sim', h1, rfl, rfl⟩ := h
      unfold ErSys.size at hz
      split at hz
      · simp at hz
      · rename_i s0 b0' hs0
        simp only [Prod.mk.injEq] at hz
        obtain ⟨⟨h2, rfl⟩, h3⟩ := hz
        exact ⟨not_le.1 hsf, s0, e0, hs0, Prod.ext h2 h3, h1, rfl⟩

/-- **C117, trade-off system.** The same, with an element that has the addition on top; the addition is not negative if its
safety factor is not. -/
theorem C117_er_built {db : ShapeFiles K} {c : SysCfg K} {ret flow sf erSf : K} {b b' : Building K}
    {sched : Option (List String)} {cmap : Option (ControlMap K)} {slope fract : K} {e : ErSys K} {sim : SwingSim K}
    (h : ErSys.fromSize db c ret flow sf erSf b sched cmap slope fract = (b', .ok (e, sim))) :
    ∃ cap vol tmVol er, e.erCap = some er ∧
      swingResults e.sw = ⟨some cap, some vol, some (tmVol, some (sf * recircLossKbtuh c.supply ret flow + er))⟩ ∧
      BuiltSwing sim c.supply c.storage ret flow slope cap vol tmVol (sf * recircLossKbtuh c.supply ret flow + er) sched
        cmap ∧ 0 < tmVol ∧ 1 < sf ∧ (0 ≤ erSf → 0 ≤ er) := by
  obtain ⟨hsf, s0, e0, hz, he, hb, rfl⟩ := erFromSize_ok h
  obtain ⟨b1, inlet, vol, ca, cap, rv, eff, capP, st, mix, h1, h2, h3, h4, h5, rfl⟩ := swingSize_ok hz
  obtain ⟨v1, v2⟩ := sizeSwingTm_vol_pos h3
  rw [cappedCfg_supply] at v2
  have hin : ∃ i, requireDesignInlet b' = .ok i := by
    cases hi : requireDesignInlet b' with
    | ok i => exact ⟨i, rfl⟩
    | error x =>
      exfalso
      unfold ErSys.sizeEr SwingSys.params at he
      dsimp only at he
      unfold erCapacity at he
      rw [hi] at he
      simp [error_bind] at he
  obtain ⟨i, hin⟩ := hin
  obtain ⟨rows, _, _, _, rfl⟩ := sizeEr_ok (p := ⟨(vol : K), recircLossKbtuh c.supply ret flow, cap, c.supply⟩) he rfl rfl rfl hin
  obtain ⟨cap', vol', tmVol, tmCap, r1, r2⟩ := swingBuild_spec hb
  simp only [swingResults, Option.map_some, SizingResults.mk.injEq, Option.some.injEq, Prod.mk.injEq] at r1
  obtain ⟨rfl, rfl, rfl, rfl⟩ := r1
  have hv : (0 : K) < vol := by exact_mod_cast v1
  subst v2
  refine ⟨capP, st, (vol : K), _, rfl, rfl, r2, hv, hsf, fun h0 => ?_⟩
  have := maxDeficit_nonneg rows
  have := rhoCp_pos (K := K)
  positivity

/-- **C117, parallel loop.** One primary heater of the reported capacity, a stratified tank of the reported storage volume,
a mixed loop tank of the reported volume, and loop heaters that together have the reported capacity and keep the loop tank
between its two temperatures. -/
theorem C117_parallel_loop_built {M : SizingMethods K} {db : ShapeFiles K} {c : SysCfg K} {t : TmCfg K}
    {b b' : Building K} {sched : Option (List String)} {cmap : Option (ControlMap K)} {slope fract : K}
    {p : ParSys K} {sim : ParSim K} (h : ParSys.fromSize M db c t b sched cmap slope fract = (b', .ok p))
    (hb : p.build slope sched cmap = .ok sim) (hf : 0 < t.flow) (hr : t.ret < c.supply) :
    ∃ cap vol tmVol each tank w, parResults p = ⟨some cap, some vol, some (tmVol, some ((t.num : K) * each))⟩ ∧
      sim.prim.supply = c.supply ∧ sim.prim.storage = c.storage ∧ sim.prim.tank = some tank ∧ tank.vol = vol ∧
      tank.slope = slope ∧ sim.prim.heaters = [w] ∧ BuiltHeater w cap sched cmap ∧ sim.tmTank.vol = tmVol ∧ 0 < tmVol ∧
      0 < each ∧ sim.tmHeater.active = false ∧
      (∀ oat outlet inlet, sim.tmHeater.getCapacity oat outlet inlet = .ok (some each)) ∧
      KeepsBetween sim.tmHeater t.on t.off := by
  obtain ⟨hval, htm, hn, v, tc, hs, htank, hheat⟩ := fromSize_tm h
  obtain ⟨hv, hc, -⟩ := loopShare_sized hval hs hf hr (1 : K)
  have hrep : p.base.cfg = c ∧ p.minTmVol = some v ∧ p.minTmCap = some tc := by
    unfold ParSys.fromSize at h
    have hcfg := C07_size_restores_run_hours M db { cfg := c } b sched cmap slope fract
    rcases hz : ParSys.size M db { base := { cfg := c }, tm := t } b sched cmap slope fract with ⟨⟨s, bb⟩, r⟩
    rw [hz] at h
    rcases r with e | w
    · simp at h
    obtain ⟨-, -, v', cap', h3, h4, h5⟩ := C64_size_reports _ _ _ _ _ _ _ _ _ _ _ hz
    rw [show ((⟨{ cfg := c }, t, none, none, none, none⟩ : ParSys K)).base.cfg.supply = c.supply from rfl] at h3
    obtain ⟨rfl, rfl⟩ : v = v' ∧ tc = cap' := by
      have := hs.symm.trans h3
      simp only [Except.ok.injEq, Prod.mk.injEq] at this
      exact this
    simp only [h4, h5, Prod.mk.injEq, bind_eq_ok, pure_eq_ok, Except.ok.injEq, fdiv_eq_ok] at h
    obtain ⟨-, q, -, rfl⟩ := h
    refine ⟨?_, rfl, rfl⟩
    dsimp only
    unfold ParSys.size at hz
    split at hz
    · simp at hz
    · split at hz
      · simp at hz
      · rename_i base bb' w' hsz
        dsimp only at hsz
        rw [hsz] at hcfg
        split at hz
        · simp at hz
        · simp only [Prod.mk.injEq] at hz
          obtain ⟨⟨rfl, -⟩, -⟩ := hz
          exact hcfg
  obtain ⟨e1, e2, e3⟩ := hrep
  unfold ParSys.build at hb
  split at hb
  · rename_i cap vol tank w h1 h2 h3 h4
    injection hb with hb
    subst hb
    rw [htank] at h3; rw [hheat] at h4
    injection h3 with h3; injection h4 with h4
    subst h3 h4
    have hnum : (0 : K) < t.num := lt_of_le_of_ne (Nat.cast_nonneg _) (Ne.symm hn)
    refine ⟨cap, vol, v, tc / t.num, _, _, ?_, ?_, ?_, rfl, rfl, rfl, rfl, ⟨rfl, rfl, rfl, fun _ _ _ => rfl⟩, rfl, hv,
      div_pos hc hnum, rfl, fun _ _ _ => rfl, fun hour hh c => inForce_normal rfl rfl hh c⟩
    · simp only [parResults, h1, h2, e2, e3, Option.map_some, mul_div_cancel₀ tc hn]
    · rw [e1]; rfl
    · rw [e1]; rfl
  · simp at hb

/-! ## The built plant can be simulated -/

theorem ready_fixed {w : Heater K} {cap : K} {sched : Option (List String)} {cmap : Option (ControlMap K)}
    (hp : w.perf = some (.nominal cap)) (hs : w.sched = sched) (hm : w.cmap = cmap) (hc : Controlled sched cmap) : Ready w := by
  obtain ⟨l, m, rfl, rfl, h⟩ := hc
  refine ⟨fun hour hh => ?_, ?_, ?_⟩
  · obtain ⟨mode, c, h1, h2⟩ := h hour hh
    exact ⟨c, l, m, mode, hs, hm, h1, h2⟩
  · intro oat outlet inlet
    unfold Heater.getCapacity
    rw [hp]
    exact ⟨_, rfl⟩
  · intro oat outlet inlet
    unfold Heater.getPower
    rw [hp]
    exact ⟨_, rfl⟩

theorem swingHeater_ready (supply cap : K) : Ready (swingHeater supply cap) :=
  ready_fixed rfl rfl rfl ⟨_, _, rfl, rfl, fun hour hh => ⟨"normal", swingControls supply,
    by rw [List.getElem?_replicate, if_pos hh], by simp [dictGet?]⟩⟩

theorem swingBuild_completes {s : SwingSys K} {slope : K} {sched : Option (List String)} {cmap : Option (ControlMap K)}
    {sim : SwingSim K} (h : s.build slope sched cmap = .ok sim) (hslope : slope ≠ 0) (hst : s.base.minStorage ≠ some 0)
    (htm : s.tmVol ≠ some 0) (hc : Controlled sched cmap) (b : Building K) (hb : Answers b)
    (hin : ∀ i ts x, b.getInlet i ts = .ok x → x ≤ s.base.cfg.supply) (thr : K) (maxMin : Int) (duration : String)
    (hd : duration = "3day" ∨ duration = "annual") : ∃ sim' r, sim.simulate b thr maxMin duration = .ok (sim', r) := by
  obtain ⟨cap, vol, tmVol, tmCap, h1, h2, h3, h4, rfl⟩ := swingBuild_ok h
  obtain ⟨x, hx⟩ := simDuration_total hd
  unfold SwingSim.simulate
  have hoff : tmOffTemp s.base.cfg.supply (some (swingHeater s.base.cfg.supply tmCap)) = .ok (s.base.cfg.supply + 8) := by
    unfold tmOffTemp
    simp only [swingHeater_controls (w := swingHeater s.base.cfg.supply tmCap) ⟨rfl, rfl, rfl⟩ (by norm_num : 0 < 24),
      ok_bind, pure_eq_ok]
    rfl
  simp only [hx, hoff, ok_bind]
  refine C91_completes_swing _ _ b thr maxMin duration hd hb ?_ ⟨?_, hslope⟩ (swingHeater_ready _ _) ?_ hin
  · intro w hw
    simp only [List.mem_singleton] at hw
    subst hw
    exact ready_fixed rfl rfl rfl hc
  · rintro rfl
    exact hst h2
  · rintro rfl
    exact htm h3

/-- **C117 (simulation).** A swing system from `from_size` can be simulated, on any building that answers and whose cold
water is not warmer than the supply temperature, if its heater has controls for every hour and its sized storage is not
zero. -/
theorem C117_swing_simulates_partial {db : ShapeFiles K} {c : SysCfg K} {ret flow sf : K} {b b' : Building K}
    {sched : Option (List String)} {cmap : Option (ControlMap K)} {slope fract : K} {s : SwingSys K} {sim : SwingSim K}
    (h : SwingSys.fromSize db c ret flow sf b sched cmap slope fract = (b', .ok (s, sim))) (hslope : slope ≠ 0)
    (hst : (swingResults s).minStorage ≠ some 0) (hc : Controlled sched cmap) (b2 : Building K) (hb : Answers b2)
    (hin : ∀ i ts x, b2.getInlet i ts = .ok x → x ≤ c.supply) (thr : K) (maxMin : Int) (duration : String)
    (hd : duration = "3day" ∨ duration = "annual") : ∃ sim' r, sim.simulate b2 thr maxMin duration = .ok (sim', r) := by
  obtain ⟨-, s0, hz, hbd, rfl⟩ := swingFromSize_ok h
  obtain ⟨b1, inlet, vol, ca, cap, rv, eff, capP, st, mix, h1, h2, h3, h4, h5, rfl⟩ := swingSize_ok hz
  refine swingBuild_completes hbd hslope hst ?_ hc b2 hb hin thr maxMin duration hd
  have := (sizeSwingTm_vol_pos h3).1
  simp only [ne_eq, Option.some.injEq, Nat.cast_eq_zero]
  omega

/-- **C117 (simulation), trade-off system.** -/
theorem C117_er_simulates_partial {db : ShapeFiles K} {c : SysCfg K} {ret flow sf erSf : K} {b b' : Building K}
    {sched : Option (List String)} {cmap : Option (ControlMap K)} {slope fract : K} {e : ErSys K} {sim : SwingSim K}
    (h : ErSys.fromSize db c ret flow sf erSf b sched cmap slope fract = (b', .ok (e, sim))) (hslope : slope ≠ 0)
    (hst : (swingResults e.sw).minStorage ≠ some 0) (hc : Controlled sched cmap) (b2 : Building K) (hb : Answers b2)
    (hin : ∀ i ts x, b2.getInlet i ts = .ok x → x ≤ c.supply) (thr : K) (maxMin : Int) (duration : String)
    (hd : duration = "3day" ∨ duration = "annual") : ∃ sim' r, sim.simulate b2 thr maxMin duration = .ok (sim', r) := by
  obtain ⟨-, s0, e0, hz, he, hbd, rfl⟩ := erFromSize_ok h
  obtain ⟨b1, inlet, vol, ca, cap, rv, eff, capP, st, mix, h1, h2, h3, h4, h5, rfl⟩ := swingSize_ok hz
  have hpos := (sizeSwingTm_vol_pos h3).1
  rcases sizeEr_cases ⟨_, erSf, none⟩ b' with ⟨x, hx⟩ | ⟨er, hx⟩
  · rw [hx] at he; simp at he
  rw [hx] at he
  simp only [Prod.mk.injEq, and_true] at he
  subst he
  refine swingBuild_completes hbd hslope hst ?_ hc b2 hb hin thr maxMin duration hd
  simp only [ne_eq, Option.some.injEq, Nat.cast_eq_zero]
  omega

/-- **C117 (simulation), parallel loop.** -/
theorem C117_parallel_loop_simulates_partial {M : SizingMethods K} {db : ShapeFiles K} {c : SysCfg K} {t : TmCfg K}
    {b b' : Building K} {sched : Option (List String)} {cmap : Option (ControlMap K)} {slope fract : K}
    {p : ParSys K} {sim : ParSim K} (h : ParSys.fromSize M db c t b sched cmap slope fract = (b', .ok p))
    (hb : p.build slope sched cmap = .ok sim) (hf : 0 < t.flow) (hr : t.ret < c.supply) (hslope : slope ≠ 0)
    (hst : (parResults p).minStorage ≠ some 0) (hc : Controlled sched cmap) (b2 : Building K) (hb2 : Answers b2)
    (thr : K) (maxMin : Int) (duration : String) (hd : duration = "3day" ∨ duration = "annual") :
    ∃ sim' r, parSimulate t sim b2 thr maxMin duration = .ok (sim', r) := by
  obtain ⟨hval, htm, hn, v, tc, hs, htank, hheat⟩ := fromSize_tm h
  obtain ⟨hv, -, -⟩ := loopShare_sized hval hs hf hr (1 : K)
  unfold ParSys.build at hb
  split at hb
  · rename_i cap vol tank w h1 h2 h3 h4
    injection hb with hb
    subst hb
    rw [htank] at h3; rw [hheat] at h4
    injection h3 with h3; injection h4 with h4
    subst h3 h4
    refine C91_completes_parallel_loop t _ b2 thr maxMin duration hd hb2 ?_ ?_ ?_ hv.ne'
    · intro w hw
      simp only [Prim.ofSized, List.mem_singleton] at hw
      subst hw
      exact ready_fixed rfl rfl rfl hc
    · intro x hx
      simp only [Prim.ofSized, Option.some.injEq] at hx
      subst hx
      refine ⟨?_, hslope⟩
      rintro rfl
      exact hst h2
    · exact ready_fixed rfl rfl rfl ⟨_, _, rfl, rfl, fun hour hh => ⟨"normal", tmControls t,
        by rw [List.getElem?_replicate, if_pos hh], by simp [dictGet?]⟩⟩
  · simp at hb

/-! ## C118 for sized systems -/

theorem hotEnough_outlet {w : Heater K} {cap supply storage : K} {sched : Option (List String)}
    {cmap : Option (ControlMap K)} (hw : BuiltHeater w cap sched cmap) (hh : HotEnough supply sched cmap)
    (hst : supply ≤ storage) : ∀ hour < 24, ∀ x, IsOutlet [w] storage hour x → supply ≤ x := by
  rintro hour _ x (⟨⟨v, hv, c, ⟨l, m, mode, h1, h2, h3, h4⟩, rfl⟩, _⟩ | ⟨_, rfl⟩)
  · simp only [List.mem_singleton] at hv
    subst hv
    exact hh l m (hw.isSched.symm.trans h1) (hw.isMap.symm.trans h2) mode (List.mem_of_getElem? h3) c h4
  · exact hst

theorem keeps_same {sim : SwingSim K} {s : SwingSys K} {slope : K} {sched : Option (List String)}
    {cmap : Option (ControlMap K)} (h : s.build slope sched cmap = .ok sim) {tmCap : K} (hc : s.tmCap = some tmCap) :
    SameHeater (swingHeater sim.supply tmCap) sim.tmHeater := by
  obtain ⟨cap, vol, tmVol, tmCap', h1, h2, h3, h4, rfl⟩ := swingBuild_ok h
  rw [hc] at h4
  injection h4 with h4
  subst h4
  exact ⟨rfl, rfl, rfl⟩

/-- **C118, sized swing system.** A system from `from_size`, simulated on a building whose cold water is not warmer than the
supply temperature, delivers at supply temperature or above at every step up to which the primary storage has not run out;
a run that is reported successful is complete. -/
theorem C118_sized {db : ShapeFiles K} {c : SysCfg K} {ret flow sf : K} {b b' : Building K}
    {sched : Option (List String)} {cmap : Option (ControlMap K)} {slope fract vol : K} {s : SwingSys K}
    {sim sim' : SwingSim K} (h : SwingSys.fromSize db c ret flow sf b sched cmap slope fract = (b', .ok (s, sim)))
    (hflow : 0 < flow) (hret : ret < c.supply) (hst : c.supply ≤ c.storage) (hslope : 0 < slope)
    (hvol : (swingResults s).minStorage = some vol) (hv : 0 < vol) (hot : HotEnough c.supply sched cmap)
    (b2 : Building K) (hin : ∀ i ts x, b2.getInlet i ts = .ok x → x ≤ c.supply)
    (hcold : ∀ x, designInletOr b2 = .ok x → x ≤ c.supply) (thr : K) (maxMin : Int) (duration : String) (r : SimRun K)
    (hr : sim.simulate b2 thr maxMin duration = .ok (sim', r)) :
    r.tmTemp.length = r.usable.length ∧
    (∀ i < r.usable.length, (∀ j ≤ i, 0 < r.usable.getD j 0) → c.supply ≤ r.tmTemp.getD i 0) ∧
    (0 ≤ thr → r.isSuccessful = true → r.stopped = false) := by
  obtain ⟨cap, vol', tmVol, tmCap, r1, bs, htv, hsf, htc⟩ := C117_swing_built h
  obtain ⟨-, s0, hz, hbd, rfl⟩ := swingFromSize_ok h
  have hL := loss_pos hflow hret
  have r1' := r1
  simp only [swingResults, SizingResults.mk.injEq, Option.map_eq_some_iff, Prod.mk.injEq] at r1'
  obtain ⟨-, -, tv, -, -, htcap⟩ := r1'
  rw [r1] at hvol
  injection hvol with hvol
  subst hvol
  obtain ⟨w, hw, hfix⟩ := bs.primary
  have := C118_supply_until_outage sim sim' b2 tmCap thr maxMin duration r (keeps_same hbd htcap)
    (by rw [bs.isSupply, bs.loop.1, bs.loop.2, htc]; exact le_mul_of_one_le_left hL.le hsf.le)
    (by rw [bs.loop.2]; exact hflow) (by rw [bs.loop.1, bs.isSupply]; exact hret)
    (by rw [bs.tank.1]; exact hv) (by rw [bs.tank.2]; exact hslope) (by rw [bs.swing]; exact htv)
    (by rw [hw, bs.isStorage, bs.isSupply]; exact hotEnough_outlet hfix hot hst)
    (by rw [bs.isSupply]; exact hin) (by rw [bs.isSupply]; exact hcold) hr
  rwa [bs.isSupply] at this

/-- **C118, sized trade-off system.** -/
theorem C118_sized_er {db : ShapeFiles K} {c : SysCfg K} {ret flow sf erSf : K} {b b' : Building K}
    {sched : Option (List String)} {cmap : Option (ControlMap K)} {slope fract vol : K} {e : ErSys K}
    {sim sim' : SwingSim K} (h : ErSys.fromSize db c ret flow sf erSf b sched cmap slope fract = (b', .ok (e, sim)))
    (hesf : 0 ≤ erSf)
    (hflow : 0 < flow) (hret : ret < c.supply) (hst : c.supply ≤ c.storage) (hslope : 0 < slope)
    (hvol : (swingResults e.sw).minStorage = some vol) (hv : 0 < vol) (hot : HotEnough c.supply sched cmap)
    (b2 : Building K) (hin : ∀ i ts x, b2.getInlet i ts = .ok x → x ≤ c.supply)
    (hcold : ∀ x, designInletOr b2 = .ok x → x ≤ c.supply) (thr : K) (maxMin : Int) (duration : String) (r : SimRun K)
    (hr : sim.simulate b2 thr maxMin duration = .ok (sim', r)) :
    r.tmTemp.length = r.usable.length ∧
    (∀ i < r.usable.length, (∀ j ≤ i, 0 < r.usable.getD j 0) → c.supply ≤ r.tmTemp.getD i 0) ∧
    (0 ≤ thr → r.isSuccessful = true → r.stopped = false) := by
  obtain ⟨cap, vol', tmVol, er, he, r1, bs, htv, hsf, her⟩ := C117_er_built h
  obtain ⟨-, s0, e0, hz, _, hbd, rfl⟩ := erFromSize_ok h
  have hL := loss_pos hflow hret
  have r1' := r1
  simp only [swingResults, SizingResults.mk.injEq, Option.map_eq_some_iff, Prod.mk.injEq] at r1'
  obtain ⟨-, -, tv, -, -, htcap⟩ := r1'
  rw [r1] at hvol
  injection hvol with hvol
  subst hvol
  obtain ⟨w, hw, hfix⟩ := bs.primary
  have := C118_supply_until_outage sim sim' b2 _ thr maxMin duration r (keeps_same hbd htcap)
    (by
      rw [bs.isSupply, bs.loop.1, bs.loop.2]
      have := le_mul_of_one_le_left hL.le hsf.le
      have := her hesf
      linarith)
    (by rw [bs.loop.2]; exact hflow) (by rw [bs.loop.1, bs.isSupply]; exact hret)
    (by rw [bs.tank.1]; exact hv) (by rw [bs.tank.2]; exact hslope) (by rw [bs.swing]; exact htv)
    (by rw [hw, bs.isStorage, bs.isSupply]; exact hotEnough_outlet hfix hot hst)
    (by rw [bs.isSupply]; exact hin) (by rw [bs.isSupply]; exact hcold) hr
  rwa [bs.isSupply] at this

/-! ## Examples -/

theorem swingFromSize_of {db : ShapeFiles K} {c : SysCfg K} {ret flow sf : K} {b b' : Building K}
    {sched : Option (List String)} {cmap : Option (ControlMap K)} {slope fract : K} {s0 : SwingSys K}
    {sim : SwingSim K} (hsf : 1 < sf)
    (hz : (⟨{ cfg := c }, ret, flow, sf, none, none, none, 1⟩ : SwingSys K).size db b sched cmap slope fract
      = ((s0, b'), .ok ())) (hb : s0.build slope sched cmap = .ok sim) :
    SwingSys.fromSize db c ret flow sf b sched cmap slope fract
      = (b', .ok ({ s0 with base := { s0.base with heaterMap := cmap } }, sim)) := by
  unfold SwingSys.fromSize SwingSys.new
  rw [if_neg (not_le.2 hsf)]
  simp only [hz, hb, ok_bind, pure_eq_ok]

namespace Demo

theorem evenDay_answers : Answers evenDay := by
  refine ⟨fun _ _ => ⟨20, rfl⟩, fun _ _ => ⟨50, rfl⟩, ?_, ⟨some 50, rfl⟩⟩
  intro i ts avg
  unfold Building.getDhwLoad
  have e : (if avg then evenDay.avgShape else evenDay.peakShape) = List.replicate 24 (1 / 24) := by cases avg <;> rfl
  simp only [e]
  rw [if_neg (by decide)]
  rw [pyGet_of_lt (Nat.mod_lt _ (by decide))]
  exact ⟨_, rfl⟩

theorem controlled : Controlled (some sched) (some map) := by
  have h : ∀ hour < 24, (sched[hour]?.bind (dictGet? map)).isSome = true := by decide +kernel
  refine ⟨_, _, rfl, rfl, fun hour hh => ?_⟩
  obtain ⟨c, hc⟩ := Option.isSome_iff_exists.1 (h hour hh)
  obtain ⟨mode, h1, h2⟩ := Option.bind_eq_some_iff.1 hc
  exact ⟨mode, c, h1, h2⟩

theorem hotEnough : HotEnough 120 (some sched) (some map) := by
  intro l m h1 h2
  injection h1 with h1; injection h2 with h2
  subst h1 h2
  decide +kernel

/-- A swing system sized for load shifting on the even day. -/
theorem steady_fromSize : ∃ s sim, SwingSys.fromSize noFiles cfg 115 (8372 / 2103) (6 / 5) evenDay (some sched) (some map)
    (28 / 10) 1 = (evenDay, .ok (s, sim)) ∧ (swingResults s).minStorage = some (35280280 / 216609) := by
  have hz := steadySized_eq none none none none none none 1
  generalize hs : steadySized = s at hz
  have h1 : s.base.minCap = some (5012121/100000) := by rw [← hs]; rfl
  have h2 : s.base.minStorage = some (35280280/216609) := by rw [← hs]; rfl
  have h4 : s.tmVol = some 40 := by rw [← hs]; rfl
  have h5 : s.tmCap = some (10490369253 / 876250000) := by rw [← hs]; rfl
  have hb : ∃ sim, s.build (28 / 10) (some sched) (some map) = .ok sim := by
    unfold SwingSys.build
    simp only [h1, h2, h4, h5]
    exact ⟨_, rfl⟩
  obtain ⟨sim, hb⟩ := hb
  exact ⟨_, _, swingFromSize_of (by norm_num) hz hb, h2⟩

end Demo

/-- C117 and C118 apply: the system runs through its three days, and starts with hot water in the primary storage. -/
example : ∃ s sim sim' r, SwingSys.fromSize Demo.noFiles Demo.cfg 115 (8372 / 2103) (6 / 5) Demo.evenDay (some Demo.sched)
      (some Demo.map) (28 / 10) 1 = (Demo.evenDay, .ok (s, sim)) ∧
    sim.simulate Demo.evenDay 5 10 "3day" = .ok (sim', r) ∧
    (∀ i < r.usable.length, (∀ j ≤ i, 0 < r.usable.getD j 0) → 120 ≤ r.tmTemp.getD i 0) := by
  obtain ⟨s, sim, h, hv⟩ := Demo.steady_fromSize
  have hin : ∀ i ts x, Demo.evenDay.getInlet i ts = .ok x → x ≤ Demo.cfg.supply := by
    intro i ts x hx
    have : (.ok 50 : Py ℚ) = .ok x := hx
    injection this with this
    rw [← this]; decide +kernel
  obtain ⟨sim', r, hr⟩ := C117_swing_simulates_partial h (by norm_num) (by rw [hv]; norm_num) Demo.controlled Demo.evenDay
    Demo.evenDay_answers hin 5 10 "3day" (.inl rfl)
  refine ⟨s, sim, sim', r, h, hr, (C118_sized h (by norm_num) (by decide +kernel) (by decide +kernel) (by norm_num) hv
    (by norm_num) Demo.hotEnough Demo.evenDay hin ?_ 5 10 "3day" r hr).2.1⟩
  intro x hx
  have : designInletOr Demo.evenDay = .ok 50 := by decide +kernel
  rw [this] at hx
  injection hx with hx
  rw [← hx]; decide +kernel

/-- The first step of that run: hot water is left in the primary storage, and the swing tank is above supply temperature. -/
example : (match SwingSys.build Demo.steadySized (28 / 10) (some Demo.sched) (some Demo.map) with
    | .ok s => match swingSimStep Demo.evenDay 1 { s with
        tank := s.tank.init s.storage 50 (initialUseable s.heaters), tm := s.tm.init 128 50 } 0 with
      | .ok (_, o) => decide (0 < o.usable ∧ 120 ≤ o.tmTemp.getD 0)
      | .error _ => false
    | .error _ => false) = true := by decide +kernel

theorem erFromSize_of {db : ShapeFiles K} {c : SysCfg K} {ret flow sf erSf : K} {b b' : Building K}
    {sched : Option (List String)} {cmap : Option (ControlMap K)} {slope fract : K} {s0 : SwingSys K} {e0 : ErSys K}
    {sim : SwingSim K} (hsf : 1 < sf)
    (hz : (⟨{ cfg := c }, ret, flow, sf, none, none, none, 1⟩ : SwingSys K).size db b sched cmap slope fract
      = ((s0, b'), .ok ())) (he : ErSys.sizeEr ⟨s0, erSf, none⟩ b' = (e0, .ok ()))
    (hb : e0.sw.build slope sched cmap = .ok sim) :
    ErSys.fromSize db c ret flow sf erSf b sched cmap slope fract
      = (b', .ok ({ e0 with sw := { e0.sw with base := { e0.sw.base with heaterMap := cmap } } }, sim)) := by
  unfold ErSys.fromSize ErSys.new SwingSys.new ErSys.size
  rw [if_neg (not_le.2 hsf)]
  simp only [Except.map, hz, he, hb, ok_bind, pure_eq_ok]

/-- The trade-off system is built too. -/
example : ∃ e sim, ErSys.fromSize Demo.noFiles Demo.cfg 115 (8372 / 2103) (6 / 5) 1 Demo.evenDay (some Demo.sched)
      (some Demo.map) (28 / 10) 1 = (Demo.evenDay, .ok (e, sim)) := by
  have hz := steadySized_eq none none none none none none 1
  have hp : Demo.steadySized.params
      = .ok ⟨40, recircLossKbtuh 120 115 (8372 / 2103), 10490369253 / 876250000, 120⟩ := rfl
  generalize hs : Demo.steadySized = s at hz hp
  have h1 : s.base.minCap = some (5012121/100000) := by rw [← hs]; rfl
  have h2 : s.base.minStorage = some (35280280/216609) := by rw [← hs]; rfl
  have h3 : s.base.cfg.storage = 150 := by rw [← hs]; rfl
  have h4 : s.tmVol = some 40 := by rw [← hs]; rfl
  obtain ⟨e', he⟩ := C84_er_sizing_never_fails_partial (e := ⟨s, 1, none⟩) (b := Demo.evenDay) hp h1 h2 (inlet := 50)
    (by decide +kernel) (by norm_num) (by norm_num) (by norm_num) (by rw [h3]; norm_num) (by decide +kernel)
    (by decide +kernel)
  have hb : ∃ sim, e'.sw.build (28 / 10) (some Demo.sched) (some Demo.map) = .ok sim := by
    have h5 : s.tmCap = some (10490369253 / 876250000) := by rw [← hs]; rfl
    rcases sizeEr_cases ⟨s, 1, none⟩ Demo.evenDay with ⟨x, hx⟩ | ⟨er, hx⟩
    · rw [hx] at he; simp at he
    · rw [hx] at he
      simp only [Prod.mk.injEq, and_true] at he
      rw [← he]
      unfold SwingSys.build
      simp only [h1, h2, h4, h5, Option.map_some]
      exact ⟨_, rfl⟩
  obtain ⟨sim, hsim⟩ := hb
  exact ⟨_, _, erFromSize_of (by norm_num) hz he hsim⟩

/-- The parallel loop with its default settings is built. -/
example : (match (ParSys.fromSize baseMethods Demo.noFiles Demo.cfg Demo.tm Demo.building (some Demo.sched) (some Demo.map)
      (28 / 10) 1).2 with
    | .ok p => match p.build (28 / 10) (some Demo.sched) (some Demo.map) with
      | .ok sim => decide (0 < sim.tmTank.vol ∧ ((parResults p).minStorage.getD 0) ≠ 0)
      | .error _ => false
    | .error _ => false) = true := by decide +kernel

theorem swingFromSize_building (db : ShapeFiles K) (c : SysCfg K) (ret flow sf : K) {b : Building K}
    (sched : Option (List String)) (cmap : Option (ControlMap K)) (slope fract : K) (hd : b.isAnnual = false) :
    (SwingSys.fromSize db c ret flow sf b sched cmap slope fract).1 = b := by
  have key : ∀ s : SwingSys K, (s.size db b sched cmap slope fract).1.2 = b := by
    intro s
    unfold SwingSys.size
    simp only [hd, Bool.false_eq_true, if_false]
    split <;> rfl
  unfold SwingSys.fromSize
  split
  · rfl
  · rename_i s _
    have := key s
    split <;> rename_i h <;> rw [h] at this <;> exact this

/-- **C117 fails in general.** For a building that uses the same in every hour the sized storage of a swing system without
load shifting is zero gallons, and its simulation raises `ZeroDivisionError`. -/
theorem C117_flat_use_crashes : ∃ (s : SwingSys ℚ) (sim : SwingSim ℚ),
    SwingSys.fromSize Demo.noFiles Demo.cfg 115 (8372 / 2103) (6 / 5) Demo.evenDay (some Demo.allNormal) (some Demo.highSensor)
      (28 / 10) 1 = (Demo.evenDay, .ok (s, sim)) ∧ (swingResults s).minStorage = some 0 ∧
    sim.simulate Demo.evenDay 5 10 "3day" = .error .zeroDivision := by
  have h : (match (SwingSys.fromSize Demo.noFiles Demo.cfg 115 (8372 / 2103) (6 / 5) Demo.evenDay (some Demo.allNormal)
      (some Demo.highSensor) (28 / 10) 1).2 with
    | .ok (s, sim) => decide ((swingResults s).minStorage = some 0) &&
        (match sim.simulate Demo.evenDay 5 10 "3day" with
        | .error .zeroDivision => true
        | _ => false)
    | .error _ => false) = true := by decide +kernel
  split at h
  · rename_i s sim hs
    simp only [Bool.and_eq_true, decide_eq_true_eq] at h
    refine ⟨s, sim, Prod.ext (swingFromSize_building _ _ _ _ _ _ _ _ _ (by decide +kernel)) hs, h.1, ?_⟩
    have h2 := h.2
    split at h2
    · assumption
    · simp at h2
  · simp at h

end Eco
