import Verif.Spec.SharedSwing
import Verif.Props.Shared
import Verif.Props.SwingSize
set_option linter.unusedSectionVars false

/-! C146 for swing tanks. -/

namespace Eco
open Spec

section
variable {K : Type} [Field K] [LinearOrder K] [IsStrictOrderedRing K]

/-- No table entry is more than 8/5 of the one before. -/
theorem table_step {r : K} {v : ℕ} (h : minEntry swingTable r = .ok v) : r ≤ (v : K) ∧ 40 ≤ v ∧ (v : K) ≤ max 40 (8 / 5 * r) := by
  obtain ⟨⟨hm, hr⟩, hl⟩ := minEntry_ok.1 h
  have above : ∀ u : ℕ, u ∈ swingTable → u < v → (u : K) < r := fun u hu huv => by
    by_contra hc
    exact absurd (hl ⟨hu, not_lt.1 hc⟩) (not_le.2 huv)
  have step : ∀ u ∈ swingTable, u = 40 ∨ ∃ p ∈ swingTable, p < u ∧ 5 * u ≤ 8 * p := by decide
  refine ⟨hr, (by decide : ∀ u ∈ swingTable, 40 ≤ u) v hm, ?_⟩
  rcases step v hm with rfl | ⟨p, hp, hpv, h58⟩
  · exact le_max_of_le_left (by norm_num)
  · apply le_max_of_le_right
    have h1 := above p hp hpv
    have h2 : (5 * v : K) ≤ 8 * p := by exact_mod_cast h58
    linarith

/-- The volume and the capacity of the swing tank, for a building with the busiest hour `m`. -/
theorem swingTank_parts {db : ShapeFiles K} {s : SwingSys K} {sched : Option (List String)} {cmap : Option (ControlMap K)}
    {slope fract flow : K} {b : Building K} {r : K × K} (hb : FullDay b)
    (h : SwingSizedAs db s sched cmap slope fract b flow r) :
    ∃ m, IsGreatest {f | f ∈ b.peakShape} m ∧
      flow * ((s.base.cfg.supply - s.ret) * rhoCp K * 60 / (100 * wToKbtuh K)) ≤ r.1 ∧ b.dailyGal * m ≤ 60 * r.1 ∧ 40 ≤ r.1 ∧
      r.1 ≤ max 40 (8 / 5 * max (flow * ((s.base.cfg.supply - s.ret) * rhoCp K * 60 / (100 * wToKbtuh K))) (b.dailyGal * m / 60)) ∧
      r.2 = flow * (s.sf * (s.base.cfg.supply - s.ret) * rhoCp K * 60 / 1000) := by
  obtain ⟨s1, b1, h, e1, e2⟩ := h
  have hd : dailyView db b = .ok b := by unfold dailyView; rw [if_neg (by simp [notAnnual hb])]
  obtain ⟨b1', inlet', vol, ca, cap, rv, eff, capP, st, mix, d1, -, htm, -, -, rfl⟩ := swingSize_ok h
  obtain rfl : b = b1' := Except.ok.inj (hd.symm.trans d1)
  rw [cappedCfg_supply] at htm
  simp only [Option.some.injEq] at e1 e2
  simp only [sizeSwingTm, swingRequired, npMax] at htm
  cases hm : b.peakShape.max? with
  | none => rw [hm] at htm; simp [error_bind] at htm
  | some m =>
    rw [hm] at htm
    simp only [ok_bind, pure_eq_ok] at htm
    split at htm
    · simp at htm
    · simp only [bind_eq_ok, Except.ok.injEq, Prod.mk.injEq] at htm
      obtain ⟨v, hv, c, -, rfl, rfl, rfl⟩ := htm
      obtain ⟨k1, k2, k3⟩ := table_step hv
      rw [List.max?_eq_some_iff] at hm
      have el : recircLossKbtuh s.base.cfg.supply s.ret flow * 1000 / (100 * wToKbtuh K) =
          flow * ((s.base.cfg.supply - s.ret) * rhoCp K * 60 / (100 * wToKbtuh K)) := by
        unfold recircLossKbtuh
        ring
      rw [el] at k1 k3
      have k2' : (40 : K) ≤ (v : K) := by exact_mod_cast k2
      rw [e1] at k1 k3 k2'
      refine ⟨m, ⟨hm.1, fun y hy => hm.2 y hy⟩, (le_max_left _ _).trans k1, ?_, k2', k3, ?_⟩
      · have := (le_max_right _ _).trans k1
        linarith
      · rw [← e2]
        unfold recircLossKbtuh
        ring

theorem sums_of_parts {c1 c2 : K} {g : Building K × K → K} {ps : List (Building K × K)} {xs : List (K × K)}
    (h : List.Forall₂ (fun p r => p.2 * c1 ≤ r.1 ∧ g p ≤ 60 * r.1 ∧ 40 ≤ r.1 ∧ r.2 = p.2 * c2) ps xs) :
    (ps.map (·.2)).sum * c1 ≤ (xs.map (·.1)).sum ∧ (ps.map g).sum ≤ 60 * (xs.map (·.1)).sum ∧
      (xs.map (·.2)).sum = (ps.map (·.2)).sum * c2 ∧ (ps ≠ [] → 40 ≤ (xs.map (·.1)).sum) := by
  have key : (ps.map (·.2)).sum * c1 ≤ (xs.map (·.1)).sum ∧ (ps.map g).sum ≤ 60 * (xs.map (·.1)).sum ∧
      (xs.map (·.2)).sum = (ps.map (·.2)).sum * c2 ∧ (ps ≠ [] → 40 ≤ (xs.map (·.1)).sum) ∧ 0 ≤ (xs.map (·.1)).sum := by
    induction h with
    | nil => simp
    | cons h1 _ ih =>
      obtain ⟨i1, i2, i3, i4, i5⟩ := ih
      obtain ⟨j1, j2, j3, j4⟩ := h1
      simp only [List.map_cons, List.sum_cons, add_mul, mul_add]
      exact ⟨add_le_add j1 i1, add_le_add j2 i2, by rw [j4, i3], fun _ => by linarith, by linarith⟩
  exact ⟨key.1, key.2.1, key.2.2.1, key.2.2.2.1⟩

/-- **C146, the swing tank (partial).** One plant for several buildings, with a loop that circulates as much as theirs together:
the heating capacity of its swing tank is the sum of those of the separate plants, and its volume is at most 8/5 of the sum. The
property asks for the sum itself, which `C146_swing_fails` refutes. -/
theorem C146_swing_tank_partial {b : Building K} {ps : List (Building K × K)} (hne : ps ≠ []) (hB : Houses b (ps.map (·.1)))
    (hb : FullDay b) (hbs : ∀ p ∈ ps, FullDay p.1) {db : ShapeFiles K} {s : SwingSys K} {sched : Option (List String)}
    {cmap : Option (ControlMap K)} {slope fract : K} {x : K × K} {xs : List (K × K)}
    (h : SwingSizedAs db s sched cmap slope fract b (ps.map (·.2)).sum x)
    (h' : List.Forall₂ (fun p r => SwingSizedAs db s sched cmap slope fract p.1 p.2 r) ps xs) :
    x.1 ≤ 8 / 5 * (xs.map (·.1)).sum ∧ x.2 = (xs.map (·.2)).sum := by
  obtain ⟨m, hm, -, -, -, k1, k2⟩ := swingTank_parts hb h
  obtain ⟨t, ht, e⟩ := List.getElem_of_mem hm.1
  have hu : b.dailyGal * m = (ps.map (fun p => use p.1.dailyGal p.1.peakShape t)).sum := by
    have := hB.peak t
    rw [List.map_map] at this
    rw [show (ps.map (fun p => use p.1.dailyGal p.1.peakShape t)).sum = _ from this.symm, use, Nat.mod_eq_of_lt ht, List.getD,
      List.getElem?_eq_getElem ht, e, Option.getD_some]
  rw [hu] at k1
  rw [k2]
  have parts : List.Forall₂ (fun p r => p.2 * ((s.base.cfg.supply - s.ret) * rhoCp K * 60 / (100 * wToKbtuh K)) ≤ r.1 ∧
      use p.1.dailyGal p.1.peakShape t ≤ 60 * r.1 ∧ 40 ≤ r.1 ∧
      r.2 = p.2 * (s.sf * (s.base.cfg.supply - s.ret) * rhoCp K * 60 / 1000)) ps xs := by
    refine forall₂_mem h' (fun p hp y hy => ?_)
    obtain ⟨m', hm', j1, j2, j3, -, j4⟩ := swingTank_parts (hbs p hp) hy
    refine ⟨j1, le_trans (mul_le_mul_of_nonneg_left ?_ (hbs p hp).gal) j2, j3, j4⟩
    have hlt : t % p.1.peakShape.length < p.1.peakShape.length := Nat.mod_lt _ (by rw [(hbs p hp).hours]; norm_num)
    rw [List.getD, List.getElem?_eq_getElem hlt, Option.getD_some]
    exact hm'.2 (List.getElem_mem hlt)
  obtain ⟨j1, j2, j3, j4⟩ := sums_of_parts parts
  have h40 := j4 hne
  refine ⟨k1.trans (max_le (by linarith) (mul_le_mul_of_nonneg_left (max_le j1 (by linarith)) (by norm_num))), j3.symm⟩

end

/-- Two demo buildings together. -/
def Demo.twins : Building ℚ := { Demo.building with dailyGal := 2000 }

/-- A swing system whose loop circulates `flow`. -/
def Demo.swingFlow (flow : ℚ) : SwingSys ℚ := { Demo.swing with flow := flow }

theorem Demo.twins_houses : Houses Demo.twins [Demo.building, Demo.building] where
  place := by simp [Demo.twins]
  daily := by decide +kernel
  peak h := by
    simp only [use, Demo.twins, List.map_cons, List.map_nil, List.sum_cons, List.sum_nil]
    rw [show Demo.building.dailyGal = (1000 : ℚ) from rfl]
    ring
  avg h := by
    simp only [use, Demo.twins, List.map_cons, List.map_nil, List.sum_cons, List.sum_nil]
    rw [show Demo.building.dailyGal = (1000 : ℚ) from rfl]
    ring

theorem Demo.twins_swing : SwingSizedAs Demo.noFiles Demo.swing none (some Demo.map) (28/10) 1 Demo.twins (6 + 6)
    (240, 6/5 * recircLossKbtuh 120 110 12) := by
  have htm : sizeSwingTm (K := ℚ) (Demo.swingFlow (6 + 6)).base.cfg.supply (Demo.swingFlow (6 + 6)).ret (Demo.swingFlow (6 + 6)).flow
      (Demo.swingFlow (6 + 6)).sf (some Demo.twins) = .ok (240, 288, 6/5 * recircLossKbtuh 120 110 12) := by decide +kernel
  obtain ⟨s, h, hv, hc, -⟩ := C67_size_never_fails (db := Demo.noFiles) (s := Demo.swingFlow (6 + 6)) (b := Demo.twins)
    (sched := none) (cmap := some Demo.map) (slope := 28/10) (fract := 1) (inlet := 50)
    (factor := 307/392) (by simp [lsInputs, truthySched]) (by decide +kernel) (by decide +kernel)
    (by decide +kernel) (by decide +kernel) (by decide +kernel) (by decide +kernel) htm (by decide +kernel)
    (by decide +kernel) (by decide +kernel) (by decide +kernel) (by decide +kernel) (by decide +kernel)
    (by decide +kernel) (by norm_num)
  exact ⟨s, _, h, by simpa using hv, hc⟩

theorem Demo.twin_swing : SwingSizedAs Demo.noFiles Demo.swing none (some Demo.map) (28/10) 1 Demo.building 6
    (100, 6/5 * recircLossKbtuh 120 110 6) := by
  have htm : sizeSwingTm (K := ℚ) (Demo.swingFlow 6).base.cfg.supply (Demo.swingFlow 6).ret (Demo.swingFlow 6).flow
      (Demo.swingFlow 6).sf (some Demo.building) = .ok (100, 96, 6/5 * recircLossKbtuh 120 110 6) := by decide +kernel
  obtain ⟨s, h, hv, hc, -⟩ := C67_size_never_fails (db := Demo.noFiles) (s := Demo.swingFlow 6) (b := Demo.building)
    (sched := none) (cmap := some Demo.map) (slope := 28/10) (fract := 1) (inlet := 50)
    (factor := 307/392) (by simp [lsInputs, truthySched]) (by decide +kernel) (by decide +kernel)
    (by decide +kernel) (by decide +kernel) (by decide +kernel) (by decide +kernel) htm (by decide +kernel)
    (by decide +kernel) (by decide +kernel) (by decide +kernel) (by decide +kernel) (by decide +kernel)
    (by decide +kernel) (by norm_num)
  exact ⟨s, _, h, by simpa using hv, hc⟩

/-- **C146 is false of swing tanks.** Two equal buildings with a loop of 6 gallons a minute each get swing tanks of 100
gallons; one plant for both, with a loop of 12 gallons a minute, gets a swing tank of 240 gallons, the next entry of the table. -/
theorem C146_swing_fails : ∃ x y : ℚ × ℚ, Houses Demo.twins [Demo.building, Demo.building] ∧
    SwingSizedAs Demo.noFiles Demo.swing none (some Demo.map) (28/10) 1 Demo.twins (6 + 6) x ∧
    SwingSizedAs Demo.noFiles Demo.swing none (some Demo.map) (28/10) 1 Demo.building 6 y ∧ 0 ≤ y.1 ∧ y.1 + y.1 < x.1 :=
  ⟨_, _, Demo.twins_houses, Demo.twins_swing, Demo.twin_swing, by norm_num, by norm_num⟩

/-- The same buildings show that the hypotheses of `C146_swing_tank_partial` can be met. -/
example : (240 : ℚ) ≤ 8 / 5 * (100 + 100) ∧
    (6/5 * recircLossKbtuh 120 110 12 : ℚ) = 6/5 * recircLossKbtuh 120 110 6 + 6/5 * recircLossKbtuh 120 110 6 := by
  have fb : FullDay Demo.building := ⟨by decide +kernel, by decide +kernel, by decide +kernel⟩
  have := C146_swing_tank_partial (b := Demo.twins) (ps := [(Demo.building, 6), (Demo.building, 6)]) (by simp) Demo.twins_houses
    ⟨by decide +kernel, by decide +kernel, by decide +kernel⟩ (by simp [fb]) (by simpa using Demo.twins_swing)
    (.cons Demo.twin_swing (.cons Demo.twin_swing .nil))
  simpa using this

end Eco
