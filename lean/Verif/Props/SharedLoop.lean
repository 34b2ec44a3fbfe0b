import Verif.Spec.SharedLoop
import Verif.Props.Shared
import Verif.Props.ParallelLoop
set_option linter.unusedSectionVars false

/-! C146 for systems with a parallel loop. -/

namespace Eco
open Spec
variable {K : Type} [Field K] [LinearOrder K] [IsStrictOrderedRing K]

theorem loop_parts {M : SizingMethods K} {db : ShapeFiles K} {s : ParSys K} {sched : Option (List String)}
    {cmap : Option (ControlMap K)} {slope fract flow : K} {b : Building K} {r : LoopSizes K}
    (h : LoopSizedAs M db s sched cmap slope fract b flow r) :
    SizedAs M db s.base sched cmap slope fract b (r.cap, r.storage) ∧
      r.loopVol = flow * ((s.base.cfg.supply - s.tm.ret) * 60 * (s.tm.offTime / (s.tm.off - s.tm.on))) ∧
      r.loopCap = flow * ((s.base.cfg.supply - s.tm.ret) * rhoCp K * 60 * s.tm.sf / 1000) := by
  obtain ⟨s1, b1, w, h, e1, e2, e3, e4⟩ := h
  simp only [ParSys.size] at h
  cases hv : validateTm { s.tm with flow := flow } with
  | error e => rw [hv] at h; simp at h
  | ok u =>
    rw [hv] at h
    simp only at h
    have hc : (size M db s.base b sched cmap slope fract).1.1.cfg = s.base.cfg := by
      rcases size_cases M db s.base b sched cmap slope fract with
        ⟨e', _, he⟩ | ⟨b', hb', ⟨e', _, he⟩ | ⟨cap, st, hcore, ⟨e', hw, he⟩ | ⟨ws', b3, hw, he, -, -⟩⟩⟩ <;> rw [he]
    generalize hr : size M db s.base b sched cmap slope fract = q at h hc
    obtain ⟨⟨d, d1⟩, v⟩ := q
    cases v with
    | error e => simp at h
    | ok v =>
      simp only at h hc
      cases hx : sizeTm d.cfg.supply { s.tm with flow := flow } with
      | error e => rw [hx] at h; simp at h
      | ok x =>
        rw [hx] at h
        simp only [Prod.mk.injEq, Except.ok.injEq] at h
        obtain ⟨⟨rfl, rfl⟩, rfl⟩ := h
        simp only [Option.some.injEq] at e3 e4
        simp only [sizeTm, bind_eq_ok, pure_eq_ok, Except.ok.injEq, fdiv_eq_ok] at hx
        obtain ⟨q, ⟨_, rfl⟩, rfl⟩ := hx
        refine ⟨⟨d, d1, v, hr, e1, e2⟩, ?_, ?_⟩
        · have := (rhoCp_pos (K := K)).ne'
          rw [← e4, hc, recircLossKbtuh]
          field_simp
        · rw [← e3, hc, recircLossKbtuh]
          ring

/-- **C146, parallel loop.** One system for several buildings, whose loop circulates what their loops circulate together: the
heating capacities of the plant and of the loop tank and the volume of the loop tank are the sums of those of the separate systems, and
the storage is at most the sum. -/
theorem C146_parallel_loop {b : Building K} {ps : List (Building K × K)} (hB : Houses b (ps.map (·.1))) (hb : FullDay b)
    (hbs : ∀ p ∈ ps, FullDay p.1) {db : ShapeFiles K} {s : ParSys K} (h0 : 0 < s.base.cfg.maxRunHr) (h24 : s.base.cfg.maxRunHr ≤ 24)
    {sched : Option (List String)} {cmap : Option (ControlMap K)} (hs : ¬ AsksShift sched cmap) {slope fract : K}
    {x : LoopSizes K} {xs : List (LoopSizes K)}
    (h : LoopSizedAs baseMethods db s sched cmap slope fract b (ps.map (·.2)).sum x)
    (h' : List.Forall₂ (fun p r => LoopSizedAs baseMethods db s sched cmap slope fract p.1 p.2 r) ps xs)
    (hpos : ∀ y ∈ xs, 0 ≤ y.storage) :
    x.cap = (xs.map (·.cap)).sum ∧ x.storage ≤ (xs.map (·.storage)).sum ∧ x.loopCap = (xs.map (·.loopCap)).sum ∧
      x.loopVol = (xs.map (·.loopVol)).sum := by
  obtain ⟨k, kv, kc⟩ := loop_parts h
  have f : List.Forall₂ (SizedAs baseMethods db s.base sched cmap slope fract) (ps.map (·.1)) (xs.map (fun y => (y.cap, y.storage))) := by
    rw [List.forall₂_map_left_iff, List.forall₂_map_right_iff]
    exact h'.imp (fun p y hy => (loop_parts hy).1)
  have main := C146_primary hB hb (fun p hp => by
    obtain ⟨q, hq, rfl⟩ := List.mem_map.1 hp
    exact hbs q hq) h0 h24 hs k f (fun y hy => by
    obtain ⟨q, hq, rfl⟩ := List.mem_map.1 hy
    exact hpos q hq)
  simp only [List.map_map] at main
  refine ⟨main.1, main.2, ?_, ?_⟩
  · rw [kc]
    clear main f hB hbs hpos k kv kc h
    induction h' with
    | nil => simp
    | cons h1 _ ih => rw [List.map_cons, List.map_cons, List.sum_cons, List.sum_cons, add_mul, ih, (loop_parts h1).2.2]
  · rw [kv]
    clear main f hB hbs hpos k kv kc h
    induction h' with
    | nil => simp
    | cons h1 _ ih => rw [List.map_cons, List.map_cons, List.sum_cons, List.sum_cons, add_mul, ih, (loop_parts h1).2.1]

/-- **C146, parallel loop with load shifting.** The heating capacity of the shared plant is at most the sum. -/
theorem C146_parallel_loop_shift_capacity {b : Building K} {ps : List (Building K × K)} (hB : Houses b (ps.map (·.1))) (hb : FullDay b)
    (hbs : ∀ p ∈ ps, FullDay p.1) {db : ShapeFiles K} {s : ParSys K}
    (hcold : ∀ t, b.getDesignInlet = .ok (some t) → t ≤ s.base.cfg.supply) (hd : 0 ≤ s.base.cfg.defrost)
    {sched : Option (List String)} {cmap : Option (ControlMap K)} {slope fract : K}
    {x : LoopSizes K} {xs : List (LoopSizes K)}
    (h : LoopSizedAs baseMethods db s sched cmap slope fract b (ps.map (·.2)).sum x)
    (h' : List.Forall₂ (fun p r => LoopSizedAs baseMethods db s sched cmap slope fract p.1 p.2 r) ps xs) :
    x.cap ≤ (xs.map (·.cap)).sum := by
  have f : List.Forall₂ (SizedAs baseMethods db s.base sched cmap slope fract) (ps.map (·.1)) (xs.map (fun y => (y.cap, y.storage))) := by
    rw [List.forall₂_map_left_iff, List.forall₂_map_right_iff]
    exact h'.imp (fun p y hy => (loop_parts hy).1)
  have main := C146_load_shift_capacity hB hb (fun p hp => by
    obtain ⟨q, hq, rfl⟩ := List.mem_map.1 hp
    exact hbs q hq) hcold hd (loop_parts h).1 f
  simp only [List.map_map] at main
  exact main

/-- The sizes that a sizing run of the example reports. -/
def Demo.loopSizes (b : Building ℚ) (flow : ℚ) : Option (LoopSizes ℚ) :=
  let r := ParSys.size baseMethods Demo.noFiles { base := { cfg := Demo.cfg }, tm := { Demo.tm with flow := flow } } b none
    (some Demo.map) (28/10) 1
  match r.2.toOption, r.1.1.base.minCap, r.1.1.base.minStorage, r.1.1.minTmCap, r.1.1.minTmVol with
  | some _, some a, some c, some d, some e => some ⟨a, c, d, e⟩
  | _, _, _, _, _ => none

theorem Demo.loopSizes_some {b : Building ℚ} {flow : ℚ} (h : (Demo.loopSizes b flow).isSome = true) :
    ∃ x, Demo.loopSizes b flow = some x ∧
      LoopSizedAs baseMethods Demo.noFiles { base := { cfg := Demo.cfg }, tm := Demo.tm } none (some Demo.map) (28/10) 1 b flow x := by
  obtain ⟨x, hx⟩ := Option.isSome_iff_exists.1 h
  refine ⟨x, hx, ?_⟩
  simp only [Demo.loopSizes] at hx
  unfold LoopSizedAs
  simp only
  generalize ParSys.size baseMethods Demo.noFiles { base := { cfg := Demo.cfg }, tm := { Demo.tm with flow := flow } } b none
    (some Demo.map) (28/10) 1 = r at hx ⊢
  obtain ⟨⟨s1, b1⟩, w⟩ := r
  cases w with
  | error e => simp [Except.toOption] at hx
  | ok w =>
    refine ⟨s1, b1, w, rfl, ?_⟩
    revert hx
    simp only [Except.toOption]
    cases s1.base.minCap <;> cases s1.base.minStorage <;> cases s1.minTmCap <;> cases s1.minTmVol <;>
      simp_all
    rintro rfl
    simp

/-- Non-vacuity of C146 for parallel loops: the two houses with loops of 5 and 3 gallons a minute. -/
example : ∃ x xs, LoopSizedAs baseMethods Demo.noFiles { base := { cfg := Demo.cfg }, tm := Demo.tm } none (some Demo.map) (28/10) 1
      Demo.bothHouses (([(Demo.houseA, 5), (Demo.houseB, 3)] : List (Building ℚ × ℚ)).map (·.2)).sum x ∧
    List.Forall₂ (fun p r => LoopSizedAs baseMethods Demo.noFiles { base := { cfg := Demo.cfg }, tm := Demo.tm } none (some Demo.map)
      (28/10) 1 p.1 p.2 r) [(Demo.houseA, 5), (Demo.houseB, 3)] xs ∧ (∀ y ∈ xs, 0 ≤ y.storage) ∧
    x.loopVol = (xs.map (·.loopVol)).sum := by
  obtain ⟨x, ex, hx⟩ := Demo.loopSizes_some (b := Demo.bothHouses) (flow := 8) (by decide +kernel)
  obtain ⟨y, ey, hy⟩ := Demo.loopSizes_some (b := Demo.houseA) (flow := 5) (by decide +kernel)
  obtain ⟨z, ez, hz⟩ := Demo.loopSizes_some (b := Demo.houseB) (flow := 3) (by decide +kernel)
  have py : (Demo.loopSizes Demo.houseA 5).any (fun y => decide (0 ≤ y.storage)) = true := by decide +kernel
  have pz : (Demo.loopSizes Demo.houseB 3).any (fun y => decide (0 ≤ y.storage)) = true := by decide +kernel
  rw [ey] at py
  rw [ez] at pz
  simp only [Option.any_some, decide_eq_true_eq] at py pz
  have e8 : (([(Demo.houseA, 5), (Demo.houseB, 3)] : List (Building ℚ × ℚ)).map (·.2)).sum = 8 := by norm_num
  have h := hx
  rw [← e8] at h
  have h' : List.Forall₂ (fun p r => LoopSizedAs baseMethods Demo.noFiles { base := { cfg := Demo.cfg }, tm := Demo.tm } none
      (some Demo.map) (28/10) 1 p.1 p.2 r) [(Demo.houseA, 5), (Demo.houseB, 3)] [y, z] := .cons hy (.cons hz .nil)
  have hpos : ∀ q ∈ [y, z], 0 ≤ q.storage := by
    intro q hq
    rcases List.mem_cons.1 hq with rfl | hq
    · exact py
    · rw [List.mem_singleton] at hq
      subst hq
      exact pz
  exact ⟨x, [y, z], h, h', hpos, (C146_parallel_loop (ps := [(Demo.houseA, 5), (Demo.houseB, 3)]) Demo.bothHouses_houses
    Demo.bothHouses_fullDay (fun p hp => Demo.houses_fullDay p.1 (List.mem_map_of_mem (f := Prod.fst) hp)) (by decide +kernel) (by decide +kernel)
    (by rintro ⟨_, _, h, _⟩; simp at h) h h' hpos).2.2.2⟩

end Eco
