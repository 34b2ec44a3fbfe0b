import Verif.Model.Rtp
import Verif.Spec.Loop
import Verif.Lemmas.Py
import Verif.Props.Size
import Verif.Props.Demo
import Mathlib.Tactic.FieldSimp
import Mathlib.Tactic.LinearCombination

/-! C70 and C85 to C87: sizing of the single-pass return-to-primary system. -/

namespace Eco
set_option linter.unusedSectionVars false
variable {K : Type} [Field K] [LinearOrder K] [IsStrictOrderedRing K]

/-! ## C70: the building is left as it was -/

theorem boosted_restores (b : Building K) (r : K) (f : Building K → Py K) : (boosted b r f).1 = b := by
  simp [boosted]

theorem spGenRateLs_restores (l : RtpLoop K) (c : SysCfg K) (sched : List String) (m : ControlMap K) (b : Building K)
    (slope fract : K) : (spGenRateLs l c sched m b slope fract).1 = b := by
  unfold spGenRateLs
  split
  · rfl
  · exact boosted_restores _ _ _

theorem spRunVolLs_restores (l : RtpLoop K) (c : SysCfg K) (sched : List String) (b : Building K) (gen fract : K) :
    (spRunVolLs l c sched b gen fract).1 = b := by
  unfold spRunVolLs
  split
  · rfl
  · exact boosted_restores _ _ _

theorem StPy.bind_const {α β : Type} {x : StPy K α} {f : α → StPy K β} {b : Building K} {y : Py α} {g : α → Py β}
    (hx : x b = (b, y)) (hf : ∀ a, y = .ok a → f a b = (b, g a)) : x.bind f b = (b, y >>= g) := by
  unfold StPy.bind
  rw [hx]
  cases y with
  | error e => rfl
  | ok a => exact hf a rfl

/-- **C70 (the building, inside the calculation).** With every method free to change the building, the whole
calculation of `size` ends with the building it started with, also when it raises, and its result is the one of the
methods that only read the building. -/
theorem C70_calculation_restores_building (l : RtpLoop K) (c : SysCfg K) (ls : Option (List String × ControlMap K))
    (cmap : Option (ControlMap K)) (slope fract : K) (b : Building K) :
    sizeCoreSt l c ls cmap slope fract b = (b, sizeCore (spMethods l) c b ls cmap slope fract) := by
  unfold sizeCoreSt sizeCore
  refine StPy.bind_const rfl fun inlet hin => ?_
  refine StPy.bind_const rfl fun cap _ => ?_
  refine StPy.bind_const rfl fun rv _ => ?_
  refine StPy.bind_const rfl fun sf _ => ?_
  refine StPy.bind_const rfl fun st _ => ?_
  cases ls with
  | none => rfl
  | some p =>
    obtain ⟨sched, m⟩ := p
    refine StPy.bind_const ?_ fun capLs _ => ?_
    · unfold spRequiredCapacityLsSt
      simp only [spMethods, rtpRequiredCapacityLs, requiredCapacityLs, bind_assoc]
      refine StPy.bind_const rfl fun inlet _ => ?_
      refine StPy.bind_const (Prod.ext (spGenRateLs_restores _ _ _ _ _ _ _) rfl) fun g _ => ?_
      refine StPy.bind_const rfl fun dhw _ => ?_
      rfl
    · refine StPy.bind_const (Prod.ext (spGenRateLs_restores _ _ _ _ _ _ _) rfl) fun gen _ => ?_
      refine StPy.bind_const (Prod.ext (spRunVolLs_restores _ _ _ _ _ _) rfl) fun rvLs _ => ?_
      refine StPy.bind_const rfl fun stLs _ => ?_
      rfl

theorem setToDaily_dailyGal {db : ShapeFiles K} {b b1 : Building K} (h : b.setToDaily db = .ok b1) :
    b1.dailyGal = b.dailyGal ∧ b1.climate = b.climate := by
  obtain ⟨d, _, _, _, a, _, rfl⟩ := setToAnnual_of_setToDaily h
  exact ⟨rfl, rfl⟩

theorem dailyView_dailyGal {db : ShapeFiles K} {b b1 : Building K} (h : dailyView db b = .ok b1) :
    b1.dailyGal = b.dailyGal ∧ b1.climate = b.climate := by
  unfold dailyView at h
  split at h
  · exact setToDaily_dailyGal h
  · cases h; exact ⟨rfl, rfl⟩

theorem setToAnnual_dailyGal {db : ShapeFiles K} {b b1 : Building K} (h : b.setToAnnual db = .ok b1) :
    b1.dailyGal = b.dailyGal := by
  unfold Building.setToAnnual at h
  split at h
  · simp at h
  · simp only [bind_eq_ok, pure_eq_ok, Except.ok.injEq] at h
    obtain ⟨d, _, rfl⟩ := h
    rfl

theorem size_dailyGal (M : SizingMethods K) (db : ShapeFiles K) (s : DhwSys K) (b : Building K)
    (sched : Option (List String)) (cmap : Option (ControlMap K)) (slope fract : K) :
    (size M db s b sched cmap slope fract).1.2.dailyGal = b.dailyGal := by
  rcases size_cases M db s b sched cmap slope fract with
    ⟨e, _, he⟩ | ⟨b', hb', ⟨e, _, he⟩ | ⟨cap, st, hc, ⟨e, _, he⟩ | ⟨ws', b2, hw, he, h1, h2⟩⟩⟩
  · rw [he]
  · rw [he]; exact (dailyView_dailyGal hb').1
  · rw [he]; exact (dailyView_dailyGal hb').1
  · rw [he]
    cases hA : b.isAnnual with
    | false => rw [h1 hA]
    | true => exact (setToAnnual_dailyGal (h2 hA)).trans (dailyView_dailyGal hb').1

/-- **C70 (the building, whole call).** A `size` call leaves the daily use as it was, on every path. -/
theorem C70_daily_use_unchanged (db : ShapeFiles K) (s : SpSys K) (b : Building K) (sched : Option (List String))
    (cmap : Option (ControlMap K)) (slope fract : K) :
    (SpSys.size db s b sched cmap slope fract).1.2.dailyGal = b.dailyGal := by
  have h := size_dailyGal (spMethods s.loop) db s.base b sched cmap slope fract
  unfold SpSys.size
  split
  · rename_i heq; rw [heq] at h; exact h
  · rename_i heq
    rw [heq] at h
    split <;> exact h

/-! ## C70: the capacity -/

theorem requireDesignInlet_congr {b b' : Building K} (h : b'.climate = b.climate) :
    requireDesignInlet b' = requireDesignInlet b := by
  simp [requireDesignInlet, Building.getDesignInlet, h]

theorem requiredCapacity_eq {c : SysCfg K} {b : Building K} {x : K} (h : requiredCapacity c b = .ok x) :
    ∃ inlet, requireDesignInlet b = .ok inlet ∧ c.maxRunHr ≠ 0 ∧ c.defrost ≠ 0 ∧
      x * c.defrost * c.maxRunHr = Spec.heatKbtu b.dailyGal inlet c.supply := by
  simp only [requiredCapacity, capacityOfGenRate, bind_eq_ok, fdiv_eq_ok, Except.ok.injEq] at h
  obtain ⟨inlet, h1, g, ⟨hm, rfl⟩, y, ⟨hd, rfl⟩, rfl⟩ := h
  refine ⟨inlet, h1, hm, hd, ?_⟩
  unfold Spec.heatKbtu
  field_simp

theorem rtpRecircCap_eq {c : SysCfg K} {l : RtpLoop K} {x : K} (h : rtpRecircCap c l = .ok x) :
    x * c.defrost * c.maxRunHr = Spec.loopLossKbtu l.flow c.supply l.ret 24 := by
  simp only [rtpRecircCap, bind_eq_ok, fdiv_eq_ok] at h
  obtain ⟨y, ⟨hm, rfl⟩, hd, rfl⟩ := h
  unfold Spec.loopLossKbtu rtpLossKbtuh
  field_simp

/-- The required capacity of both return-to-primary classes, run for the daily run hours, is the heat of the daily use
plus 24 hours of loop loss. -/
theorem rtpRequiredCapacity_eq {l : RtpLoop K} {c : SysCfg K} {b : Building K} {x : K}
    (h : rtpRequiredCapacity l c b = .ok x) :
    ∃ inlet, requireDesignInlet b = .ok inlet ∧ c.maxRunHr ≠ 0 ∧ c.defrost ≠ 0 ∧
      x * c.defrost * c.maxRunHr =
        Spec.heatKbtu b.dailyGal inlet c.supply + Spec.loopLossKbtu l.flow c.supply l.ret 24 := by
  simp only [rtpRequiredCapacity, bind_eq_ok, pure_eq_ok, Except.ok.injEq] at h
  obtain ⟨d, hd, r, hr, rfl⟩ := h
  obtain ⟨inlet, h1, h2, h3, h4⟩ := requiredCapacity_eq hd
  refine ⟨inlet, h1, h2, h3, ?_⟩
  rw [← h4, ← rtpRecircCap_eq hr]; ring

/-- What a successful `size` of a single-pass system stored. -/
theorem spSize_ok {db : ShapeFiles K} {s s' : SpSys K} {b b' : Building K} {sched : Option (List String)}
    {cmap : Option (ControlMap K)} {slope fract : K} {ws : Warnings}
    (h : SpSys.size db s b sched cmap slope fract = ((s', b'), .ok ws)) :
    ∃ b1 cap st r, dailyView db b = .ok b1 ∧
      sizeCore (spMethods s.loop) (cappedCfg s.base.cfg (lsInputs sched cmap)) b1 (lsInputs sched cmap) cmap slope
        fract = .ok (cap, st) ∧
      rtpRecircCap s.base.cfg s.loop = .ok r ∧
      s'.base.cfg = s.base.cfg ∧ s'.base.minCap = some cap ∧ s'.base.minStorage = some st ∧ s'.recircCap = some r := by
  rcases size_cases (spMethods s.loop) db s.base b sched cmap slope fract with
    ⟨e, _, he⟩ | ⟨b1, hb1, ⟨e, _, he⟩ | ⟨cap, st, hc, ⟨e, _, he⟩ | ⟨ws', b2, hw, he, _, _⟩⟩⟩
  · simp [SpSys.size, he] at h
  · simp [SpSys.size, he] at h
  · simp [SpSys.size, he] at h
  · simp only [SpSys.size, he] at h
    cases hr : rtpRecircCap s.base.cfg s.loop with
    | error e => simp [hr] at h
    | ok r =>
      simp only [hr, Prod.mk.injEq, Except.ok.injEq] at h
      obtain ⟨⟨rfl, rfl⟩, rfl⟩ := h
      exact ⟨b1, cap, st, r, hb1, hc, rfl, rfl, rfl, rfl, rfl⟩

/-- **C70 (capacity, no load shifting).** The stored capacity, run for `max_daily_run_hr` hours at the defrost factor,
delivers exactly the heat of the daily use plus 24 hours of loop loss. -/
theorem C70_capacity_exact (db : ShapeFiles K) (s s' : SpSys K) (b b' : Building K) (sched : Option (List String))
    (cmap : Option (ControlMap K)) (slope fract : K) (ws : Warnings)
    (hls : lsInputs sched cmap = none)
    (h : SpSys.size db s b sched cmap slope fract = ((s', b'), .ok ws)) :
    ∃ cap inlet, getMinCapacity s'.base = .ok cap ∧ requireDesignInlet b = .ok inlet ∧
      cap * s.base.cfg.defrost * s.base.cfg.maxRunHr =
        Spec.heatKbtu b.dailyGal inlet s.base.cfg.supply +
          Spec.loopLossKbtu s.loop.flow s.base.cfg.supply s.loop.ret 24 := by
  obtain ⟨b1, cap, st, r, hb1, hc, _, _, hcap, _, _⟩ := spSize_ok h
  rw [hls] at hc
  simp only [sizeCore, bind_eq_ok, pure_eq_ok, Except.ok.injEq, Prod.mk.injEq] at hc
  obtain ⟨inlet, h1, cap', h2, rv, h3, sf, h4, st', h5, rfl, rfl⟩ := hc
  obtain ⟨i2, h6, _, _, h7⟩ := rtpRequiredCapacity_eq h2
  obtain ⟨g1, g2⟩ := dailyView_dailyGal hb1
  refine ⟨cap', i2, by simp [getMinCapacity, hcap], ?_, ?_⟩
  · rw [← requireDesignInlet_congr g2]; exact h6
  · rw [← g1]; exact h7

/-- **C70 (capacity, load shifting).** The stored capacity covers the same heat within the hours in which the heater may
run: `max_daily_run_hr` or, if fewer, the hours that are not shed. It then also covers it in `max_daily_run_hr`
hours. -/
theorem C70_capacity_load_shift (db : ShapeFiles K) (s s' : SpSys K) (b b' : Building K) (sched : List String)
    (m : ControlMap K) (slope fract : K) (ws : Warnings)
    (hs : sched ≠ []) (hm : dictHas m "shed" = true)
    (hrun : 0 ≤ s.base.cfg.maxRunHr) (hdef : 0 ≤ s.base.cfg.defrost)
    (h : SpSys.size db s b (some sched) (some m) slope fract = ((s', b'), .ok ws)) :
    ∃ cap inlet, getMinCapacity s'.base = .ok cap ∧ requireDesignInlet b = .ok inlet ∧
      let hours := min s.base.cfg.maxRunHr (sched.countP (fun x => decide (x ≠ "shed")) : K)
      let need := Spec.heatKbtu b.dailyGal inlet s.base.cfg.supply +
        Spec.loopLossKbtu s.loop.flow s.base.cfg.supply s.loop.ret 24
      need ≤ cap * s.base.cfg.defrost * hours ∧
      (0 ≤ need → need ≤ cap * s.base.cfg.defrost * s.base.cfg.maxRunHr) := by
  obtain ⟨b1, cap, st, r, hb1, hc, _, _, hcap, _, _⟩ := spSize_ok h
  have hls : lsInputs (some sched) (some m) = some (sched, m) := by
    obtain ⟨x, xs, rfl⟩ := List.exists_cons_of_ne_nil hs
    simp [lsInputs, truthySched, hm]
  rw [hls] at hc
  simp only [sizeCore, bind_eq_ok] at hc
  obtain ⟨inlet, h1, cap', h2, rv, h3, sf, h4, st', h5, h6⟩ := hc
  obtain ⟨capLs, h7, gen, h8, rvLs, h9, stLs, h10, h11⟩ := h6
  simp only [pure_eq_ok, Except.ok.injEq, Prod.mk.injEq] at h11
  obtain ⟨rfl, rfl⟩ := h11
  obtain ⟨i2, h12, hm0, hd0, h13⟩ := rtpRequiredCapacity_eq h2
  obtain ⟨g1, g2⟩ := dailyView_dailyGal hb1
  simp only [cappedCfg] at h13 hm0 hd0
  have hd : 0 < s.base.cfg.defrost := lt_of_le_of_ne hdef (Ne.symm hd0)
  have hn : (0 : K) ≤ (nonShed sched : K) := Nat.cast_nonneg _
  have hh : 0 < min s.base.cfg.maxRunHr (nonShed sched : K) :=
    lt_of_le_of_ne (le_min hrun hn) (Ne.symm hm0)
  refine ⟨max cap' capLs, i2, by simp [getMinCapacity, hcap], ?_, ?_⟩
  · rw [← requireDesignInlet_congr g2]; exact h12
  · intro hours need
    have e : need = cap' * s.base.cfg.defrost * min s.base.cfg.maxRunHr (nonShed sched : K) := by
      rw [h13, g1]
    have e1 : need ≤ max cap' capLs * s.base.cfg.defrost * min s.base.cfg.maxRunHr (nonShed sched : K) := by
      rw [e]
      exact mul_le_mul_of_nonneg_right (mul_le_mul_of_nonneg_right (le_max_left _ _) hd.le) hh.le
    refine ⟨e1, fun hp => e1.trans ?_⟩
    have hc0 : 0 ≤ max cap' capLs * s.base.cfg.defrost := by
      by_contra hneg
      push Not at hneg
      exact absurd (lt_of_le_of_lt e1 (mul_neg_of_neg_of_pos hneg hh)) (not_lt.mpr hp)
    exact mul_le_mul_of_nonneg_left (min_le_left _ _) hc0

/-! ## C85: how often the loop loss is counted when load shifting -/

theorem genRateLs_no_loadUp {c : SysCfg K} {sched : List String} {m : ControlMap K} {b : Building K} {slope fract : K}
    {block : List Nat} (hb : firstShedBlock sched = .ok (block, 0)) (hm : c.maxRunHr ≠ 0) :
    genRateLs c sched m b slope fract = .ok (b.dailyGal / c.maxRunHr) := by
  simp [genRateLs, hb, fdiv_ok _ hm]

/-- **C85 (false as stated).** A schedule without load-up hours: the load-shift capacity, run for its hours, delivers the
heat of the daily use plus *twice* 24 hours of loop loss. The loop loss is in the generation rate and is added again
to the capacity. -/
theorem C85_loop_loss_counted_twice (db : ShapeFiles K) (s s' : SpSys K) (b b' : Building K) (sched : List String)
    (m : ControlMap K) (slope fract : K) (ws : Warnings) (block : List Nat)
    (hs : sched ≠ []) (hm : dictHas m "shed" = true) (hblock : firstShedBlock sched = .ok (block, 0))
    (hrun : 0 ≤ s.base.cfg.maxRunHr) (hdef : 0 ≤ s.base.cfg.defrost)
    (hloss : 0 ≤ Spec.loopLossKbtu s.loop.flow s.base.cfg.supply s.loop.ret 24)
    (h : SpSys.size db s b (some sched) (some m) slope fract = ((s', b'), .ok ws)) :
    ∃ cap inlet, getMinCapacity s'.base = .ok cap ∧ requireDesignInlet b = .ok inlet ∧
      cap * s.base.cfg.defrost * min s.base.cfg.maxRunHr (sched.countP (fun x => decide (x ≠ "shed")) : K) =
        Spec.heatKbtu b.dailyGal inlet s.base.cfg.supply +
          2 * Spec.loopLossKbtu s.loop.flow s.base.cfg.supply s.loop.ret 24 := by
  obtain ⟨b1, cap, st, r, hb1, hc, _, _, hcap, _, _⟩ := spSize_ok h
  have hls : lsInputs (some sched) (some m) = some (sched, m) := by
    obtain ⟨x, xs, rfl⟩ := List.exists_cons_of_ne_nil hs
    simp [lsInputs, truthySched, hm]
  rw [hls] at hc
  simp only [sizeCore, bind_eq_ok] at hc
  obtain ⟨inlet, h1, cap', h2, rv, h3, sf, h4, st', h5, h6⟩ := hc
  obtain ⟨capLs, h7, gen, h8, rvLs, h9, stLs, h10, h11⟩ := h6
  simp only [pure_eq_ok, Except.ok.injEq, Prod.mk.injEq] at h11
  obtain ⟨rfl, rfl⟩ := h11
  obtain ⟨i2, h12, hm0, hd0, h13⟩ := rtpRequiredCapacity_eq h2
  obtain rfl : inlet = i2 := by rw [h1] at h12; injection h12
  obtain ⟨g1, g2⟩ := dailyView_dailyGal hb1
  set c := cappedCfg s.base.cfg (some (sched, m)) with hcdef
  have hcd : c.defrost = s.base.cfg.defrost := rfl
  have hcs : c.supply = s.base.cfg.supply := rfl
  have hcr : c.maxRunHr = min s.base.cfg.maxRunHr (nonShed sched : K) := rfl
  have hd : 0 < c.defrost := lt_of_le_of_ne hdef (Ne.symm hd0)
  have hn : (0 : K) ≤ (nonShed sched : K) := Nat.cast_nonneg _
  have hh : 0 < c.maxRunHr := lt_of_le_of_ne (le_min hrun hn) (Ne.symm hm0)
  have h7' : rtpRequiredCapacityLs s.loop (fun c sched m b slope fract =>
      (spGenRateLs s.loop c sched m b slope fract).2) c sched m b1 slope fract = .ok capLs := h7
  simp only [rtpRequiredCapacityLs, requiredCapacityLs, bind_eq_ok, pure_eq_ok, Except.ok.injEq] at h7'
  obtain ⟨dhw, ⟨i3, h14, g, h15, h16⟩, rc, h17, rfl⟩ := h7'
  obtain rfl : inlet = i3 := by rw [h1] at h14; injection h14
  simp only [capacityOfGenRate, bind_eq_ok, fdiv_eq_ok, Except.ok.injEq] at h16
  obtain ⟨y, ⟨_, rfl⟩, rfl⟩ := h16
  have hrc := rtpRecircCap_eq h17
  -- the boosted generation rate
  have hg : ∃ q, recircDaily c s.loop b1 = .ok q ∧ g = (b1.dailyGal + q) / c.maxRunHr := by
    unfold spGenRateLs at h15
    cases hq : recircDaily c s.loop b1 with
    | error e => simp [hq] at h15
    | ok q =>
      simp only [hq, boosted, genRateLs_no_loadUp hblock hh.ne', Except.ok.injEq] at h15
      exact ⟨q, rfl, h15.symm⟩
  obtain ⟨q, hq, rfl⟩ := hg
  simp only [recircDaily, bind_eq_ok, pure_eq_ok, Except.ok.injEq, fdiv_eq_ok] at hq
  obtain ⟨i4, h18, y, ⟨hne, rfl⟩, rfl⟩ := hq
  obtain rfl : inlet = i4 := by rw [h1] at h18; injection h18
  have hρ : (rhoCp K : K) ≠ 0 := by unfold rhoCp; norm_num
  have hΔ : c.supply - inlet ≠ 0 := fun h0 => hne (by rw [h0]; ring)
  have key : (((b1.dailyGal + rtpLossKbtuh c s.loop * 1000 / (rhoCp K * (c.supply - inlet)) * 24) / c.maxRunHr) *
      rhoCp K * (c.supply - inlet) / c.defrost / 1000 + rc) * c.defrost * c.maxRunHr =
      Spec.heatKbtu b1.dailyGal inlet c.supply + 2 * Spec.loopLossKbtu s.loop.flow c.supply s.loop.ret 24 := by
    have hr := hh.ne'
    have : (((b1.dailyGal + rtpLossKbtuh c s.loop * 1000 / (rhoCp K * (c.supply - inlet)) * 24) / c.maxRunHr) *
      rhoCp K * (c.supply - inlet) / c.defrost / 1000) * c.defrost * c.maxRunHr =
      Spec.heatKbtu b1.dailyGal inlet c.supply + Spec.loopLossKbtu s.loop.flow c.supply s.loop.ret 24 := by
      unfold Spec.heatKbtu Spec.loopLossKbtu rtpLossKbtuh
      field_simp
    linear_combination this + hrc
  have hle : cap' ≤ ((b1.dailyGal + rtpLossKbtuh c s.loop * 1000 / (rhoCp K * (c.supply - inlet)) * 24) / c.maxRunHr) *
      rhoCp K * (c.supply - inlet) / c.defrost / 1000 + rc := by
    by_contra hlt
    push Not at hlt
    have := mul_lt_mul_of_pos_right (mul_lt_mul_of_pos_right hlt hd) hh
    rw [key, h13] at this
    have hl : 0 ≤ Spec.loopLossKbtu s.loop.flow c.supply s.loop.ret 24 := hloss
    linarith
  refine ⟨_, inlet, by rw [getMinCapacity, hcap], ?_, ?_⟩
  · rw [← requireDesignInlet_congr g2]; exact h1
  · rw [max_eq_right hle]
    rw [← g1]
    exact key

/-! ## C86: the storage volume and the loop -/

/-- **C86 (false as stated).** Without load shifting the sized storage does not depend on the loop at all: two systems
that differ in loop flow and return temperature only get the same storage volume. -/
theorem C86_storage_ignores_loop (db : ShapeFiles K) (s1 s2 s1' s2' : SpSys K) (b b1' b2' : Building K)
    (sched : Option (List String)) (cmap : Option (ControlMap K)) (slope fract : K) (ws1 ws2 : Warnings)
    (hls : lsInputs sched cmap = none) (hcfg : s1.base.cfg = s2.base.cfg)
    (h1 : SpSys.size db s1 b sched cmap slope fract = ((s1', b1'), .ok ws1))
    (h2 : SpSys.size db s2 b sched cmap slope fract = ((s2', b2'), .ok ws2)) :
    s1'.base.minStorage = s2'.base.minStorage := by
  obtain ⟨b1, cap, st, r, hb1, hc, _, _, _, hst, _⟩ := spSize_ok h1
  obtain ⟨b2, cap2, st2, r2, hb2, hc2, _, _, _, hst2, _⟩ := spSize_ok h2
  obtain rfl : b1 = b2 := by rw [hb1] at hb2; injection hb2
  rw [hls, hcfg] at hc
  rw [hls] at hc2
  simp only [sizeCore, bind_eq_ok, pure_eq_ok, Except.ok.injEq, Prod.mk.injEq, spMethods, spRunVol] at hc hc2
  obtain ⟨i, e1, c1, _, rv, ⟨q, _, e2⟩, sf, e3, st', e4, rfl, rfl⟩ := hc
  obtain ⟨i', f1, c1', _, rv', ⟨q', _, f2⟩, sf', f3, st'', f4, rfl, rfl⟩ := hc2
  rw [e1] at f1; cases f1
  rw [e2] at f2; cases f2
  rw [e3] at f3; cases f3
  rw [e4] at f4; cases f4
  rw [hst, hst2]

/-! ## C87: the reported recirculation share -/

/-- **C87 (partial: without load shifting).** The reported recirculation capacity is what the loop adds: the stored
capacity minus it, run for the daily run hours, delivers exactly the heat of the daily use. -/
theorem C87_reported_share_partial (db : ShapeFiles K) (s s' : SpSys K) (b b' : Building K)
    (sched : Option (List String)) (cmap : Option (ControlMap K)) (slope fract : K) (ws : Warnings)
    (hls : lsInputs sched cmap = none)
    (h : SpSys.size db s b sched cmap slope fract = ((s', b'), .ok ws)) :
    ∃ cap r inlet, getMinCapacity s'.base = .ok cap ∧ s'.getRecircCapacity = .ok r ∧
      requireDesignInlet b = .ok inlet ∧
      (cap - r) * s.base.cfg.defrost * s.base.cfg.maxRunHr = Spec.heatKbtu b.dailyGal inlet s.base.cfg.supply ∧
      r * s.base.cfg.defrost * s.base.cfg.maxRunHr = Spec.loopLossKbtu s.loop.flow s.base.cfg.supply s.loop.ret 24 := by
  obtain ⟨cap, inlet, h1, h2, h3⟩ := C70_capacity_exact db s s' b b' sched cmap slope fract ws hls h
  obtain ⟨b1, cap', st, r, hb1, hc, hr, _, hcap, _, hrs⟩ := spSize_ok h
  have hr' := rtpRecircCap_eq hr
  refine ⟨cap, r, inlet, h1, by simp [SpSys.getRecircCapacity, hrs], h2, ?_, hr'⟩
  linear_combination h3 - hr'

/-- **C87 (false with load shifting).** Without load-up hours, the stored capacity minus the reported share still runs
over the heat of the daily use by `2 - hours/max_daily_run_hr` times the loop loss, where `hours` are the hours that
the heater may run: the share is reported for the uncapped run hours, and the loop is counted twice. -/
theorem C87_share_wrong_when_shifting (db : ShapeFiles K) (s s' : SpSys K) (b b' : Building K) (sched : List String)
    (m : ControlMap K) (slope fract : K) (ws : Warnings) (block : List Nat)
    (hs : sched ≠ []) (hm : dictHas m "shed" = true) (hblock : firstShedBlock sched = .ok (block, 0))
    (hrun : 0 < s.base.cfg.maxRunHr) (hdef : 0 ≤ s.base.cfg.defrost)
    (hloss : 0 ≤ Spec.loopLossKbtu s.loop.flow s.base.cfg.supply s.loop.ret 24)
    (h : SpSys.size db s b (some sched) (some m) slope fract = ((s', b'), .ok ws)) :
    ∃ cap r inlet, getMinCapacity s'.base = .ok cap ∧ s'.getRecircCapacity = .ok r ∧
      requireDesignInlet b = .ok inlet ∧
      let hours := min s.base.cfg.maxRunHr (sched.countP (fun x => decide (x ≠ "shed")) : K)
      (cap - r) * s.base.cfg.defrost * hours = Spec.heatKbtu b.dailyGal inlet s.base.cfg.supply +
        (2 - hours / s.base.cfg.maxRunHr) * Spec.loopLossKbtu s.loop.flow s.base.cfg.supply s.loop.ret 24 := by
  obtain ⟨cap, inlet, h1, h2, h3⟩ :=
    C85_loop_loss_counted_twice db s s' b b' sched m slope fract ws block hs hm hblock hrun.le hdef hloss h
  obtain ⟨b1, cap', st, r, hb1, hc, hr, _, hcap, _, hrs⟩ := spSize_ok h
  have hr' := rtpRecircCap_eq hr
  refine ⟨cap, r, inlet, h1, by simp [SpSys.getRecircCapacity, hrs], h2, ?_⟩
  intro hours
  have e : r * s.base.cfg.defrost * hours =
      hours / s.base.cfg.maxRunHr * Spec.loopLossKbtu s.loop.flow s.base.cfg.supply s.loop.ret 24 := by
    rw [← hr']; field_simp
  have h3' : cap * s.base.cfg.defrost * hours = Spec.heatKbtu b.dailyGal inlet s.base.cfg.supply +
          2 * Spec.loopLossKbtu s.loop.flow s.base.cfg.supply s.loop.ret 24 := h3
  linear_combination h3' - e

/-! ## Concrete cases -/

namespace Demo

def sp : SpSys ℚ := { base := { cfg := cfg }, loop := ⟨110, 3⟩ }

/-- A shed block in the evening with no load-up hours before it. -/
def schedNoLoadUp : List String := List.replicate 17 "normal" ++ List.replicate 3 "shed" ++ List.replicate 4 "normal"

/-- Twelve shed hours, so that fewer than 16 hours are left. -/
def schedLongShed : List String := List.replicate 8 "normal" ++ List.replicate 12 "shed" ++ List.replicate 4 "normal"

end Demo

/-- Normal sizing succeeds, with the hypotheses of `C70_capacity_exact`, `C86` and `C87_reported_share_partial`. -/
example : lsInputs (K := ℚ) none (some Demo.map) = none ∧
    (SpSys.size Demo.noFiles Demo.sp Demo.building none (some Demo.map) (17 / 10) 1).2.isOk = true := by
  decide +kernel

/-- Load-shift sizing succeeds with and without load-up hours, and the loop loses heat. -/
example : (SpSys.size Demo.noFiles Demo.sp Demo.building (some Demo.sched) (some Demo.map) (17 / 10) 1).2.isOk = true ∧
    (SpSys.size Demo.noFiles Demo.sp Demo.building (some Demo.schedNoLoadUp) (some Demo.map) (17 / 10) 1).2.isOk = true ∧
    (SpSys.size Demo.noFiles Demo.sp Demo.building (some Demo.schedLongShed) (some Demo.map) (17 / 10) 1).2.isOk = true ∧
    firstShedBlock Demo.schedNoLoadUp = .ok ([17, 18, 19], 0) ∧
    (firstShedBlock Demo.schedLongShed).map (·.2) = .ok 0 ∧
    (0 : ℚ) < Spec.loopLossKbtu 3 120 110 24 := by
  decide +kernel

/-- A path that raises after the load-shift overrides have changed the building: the load shape is too short. -/
example : (SpSys.size Demo.noFiles Demo.sp { Demo.building with avgShape := [1] } (some Demo.sched) (some Demo.map)
    (17 / 10) 1).2.isOk = false := by
  decide +kernel

end Eco
