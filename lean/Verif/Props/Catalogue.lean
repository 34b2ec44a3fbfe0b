import Verif.Props.PerfMap
import Verif.Props.Simulate

/-! C91 for heaters of the catalogue: a heater with a well-formed performance map is ready to be simulated. -/

set_option linter.unusedSectionVars false

namespace Eco
open Spec
variable {K : Type} [Field K] [LinearOrder K] [IsStrictOrderedRing K]

theorem ready_of_map {w : Heater K} {m : PerfMap K} (hp : w.perf = some m) (hc : ∀ hour < 24, ∃ c, InForce w hour c)
    (h : ∀ oat outlet inlet, (∃ q, m.getCapacity (some oat) outlet inlet = .ok q) ∧
      ∃ p, m.getPower (some oat) outlet inlet = .ok p) : Ready w := by
  refine ⟨hc, ?_, ?_⟩
  · intro oat outlet inlet
    obtain ⟨q, hq⟩ := (h oat outlet inlet).1
    unfold Heater.getCapacity
    simp only [hp, hq, ok_bind, pure_eq_ok]
    exact ⟨_, rfl⟩
  · intro oat outlet inlet
    obtain ⟨p, h'⟩ := (h oat outlet inlet).2
    unfold Heater.getPower
    simp only [hp]
    exact ⟨_, h'⟩

/-- **C91 (grid map).** A heater with controls for every hour and a well-formed grid map never raises an exception, so that the
simulations of C91 complete. -/
theorem C91_grid_heater (w : Heater K) (m : PklMap K) (g : GoodGrid m) (hp : w.perf = some (.pkl m))
    (hc : ∀ hour < 24, ∃ c, InForce w hour c) : Ready w := by
  refine ready_of_map hp hc ?_
  intro oat outlet inlet
  obtain ⟨r, _, h1, h2⟩ := C28_total m g oat outlet inlet
  exact ⟨⟨_, h1⟩, ⟨_, by unfold PerfMap.getPower; simp only [h2, ok_bind, pure_eq_ok]; rfl⟩⟩

theorem perUnit_total {m : SimMap K} (g : GoodMap m) (hn : m.numUnits ≠ 0) (oat inlet outlet : K) :
    ∃ r, m.perUnit (some oat) inlet outlet = .ok r := by
  have hn' : (m.numUnits : K) ≠ 0 := Nat.cast_ne_zero.mpr hn
  have h2 := g.two
  rw [perUnit_multi g]
  split
  · have : ∃ er, m.erPerUnit = .ok er := by
      unfold SimMap.erPerUnit
      split
      · exact ⟨_, fdiv_ok _ hn'⟩
      · split
        · exact ⟨_, rfl⟩
        · rename_i e es he
          obtain ⟨f1, f2⟩ := g.full e (by rw [he]; simp)
          rw [quad_ok f2, quad_ok f1]
          exact ⟨_, rfl⟩
    obtain ⟨er, h⟩ := this
    rw [h]; exact ⟨_, rfl⟩
  · rename_i i h
    have hi : i + 1 < m.entries.length := by
      rw [List.findIdx?_eq_some_iff_getElem] at h
      exact h.1
    rw [between_ok g hi]; exact ⟨_, rfl⟩
  · have e : m.entries.length - 1 = m.entries.length - 2 + 1 := by omega
    rw [e, between_ok g (by omega)]; exact ⟨_, rfl⟩

theorem sim_answers {m : SimMap K} (h : ∀ oat inlet outlet, ∃ r, m.perUnit (some oat) inlet outlet = .ok r) (oat outlet : K)
    (inlet : Option K) : (∃ q, (PerfMap.sim m).getCapacity (some oat) outlet inlet = .ok q) ∧
      ∃ p, (PerfMap.sim m).getPower (some oat) outlet inlet = .ok p := by
  obtain ⟨r, hr⟩ := h oat (inlet.getD m.designInlet) outlet
  unfold PerfMap.getCapacity PerfMap.getPower SimMap.getCapacity SimMap.getPower
  simp only [hr, ok_bind, pure_eq_ok]
  exact ⟨⟨_, rfl⟩, ⟨_, rfl⟩⟩

/-- **C91 (map of several outdoor temperatures).** -/
theorem C91_table_heater (w : Heater K) (m : SimMap K) (g : GoodMap m) (hn : m.numUnits ≠ 0) (hp : w.perf = some (.sim m))
    (hc : ∀ hour < 24, ∃ c, InForce w hour c) : Ready w :=
  ready_of_map hp hc (sim_answers (perUnit_total g hn))

theorem poly11_total {c : List K} (h : 11 ≤ c.length) (a b d : K) : ∃ x, poly11 c a b d = .ok x := by
  unfold poly11
  match c, h with
  | _ :: _ :: _ :: _ :: _ :: _ :: _ :: _ :: _ :: _ :: _ :: _, _ => exact ⟨_, rfl⟩

theorem poly6_total {c : List K} (h : 6 ≤ c.length) (a b : K) : ∃ x, poly6 c a b = .ok x := by
  unfold poly6
  match c, h with
  | _ :: _ :: _ :: _ :: _ :: _ :: _, _ => exact ⟨_, rfl⟩

/-- **C91 (map of a single entry).** A single entry needs six coefficients for a multi-pass heater and eleven for another. -/
theorem C91_formula_heater (w : Heater K) (m : SimMap K) (e : SimEntry K) (he : m.entries = [e])
    (hl : (if m.multipass then 6 else 11) ≤ e.cop.length ∧ (if m.multipass then 6 else 11) ≤ e.pow.length)
    (hp : w.perf = some (.sim m)) (hc : ∀ hour < 24, ∃ c, InForce w hour c) : Ready w := by
  refine ready_of_map hp hc (sim_answers ?_)
  intro oat inlet outlet
  unfold SimMap.perUnit
  simp only [he]
  cases hm : m.multipass with
  | true =>
    simp only [hm, if_true] at hl ⊢
    obtain ⟨x, hx⟩ := poly6_total hl.2 oat inlet
    obtain ⟨y, hy⟩ := poly6_total hl.1 oat inlet
    rw [hx, hy]; exact ⟨_, rfl⟩
  | false =>
    simp only [hm, Bool.false_eq_true, if_false] at hl ⊢
    obtain ⟨x, hx⟩ := poly11_total hl.2 oat outlet inlet
    obtain ⟨y, hy⟩ := poly11_total hl.1 oat outlet inlet
    rw [hx, hy]; exact ⟨_, rfl⟩

namespace Demo

/-- The two-point map with a backup element. -/
def twoPoint : SimMap ℚ := { simMap with nominal := some 40 }

/-- A heat pump of the two-point map that runs by the normal controls all day. -/
def heatPump : Heater ℚ := ⟨some (.sim twoPoint), some allNormal, some highSensor, false⟩

theorem heatPump_ready : Ready heatPump := by
  refine C91_table_heater heatPump twoPoint ⟨goodMap_demo.two, goodMap_demo.sorted, goodMap_demo.full⟩ (by decide) rfl ?_
  intro hour hh
  refine ⟨⟨8 / 10, 110, 6 / 10, 120, 150⟩, allNormal, highSensor, "normal", rfl, rfl, ?_, by decide +kernel⟩
  unfold allNormal; rw [List.getElem?_replicate, if_pos hh]

/-- A primary plant with that heat pump. -/
def pumped : Prim ℚ := ⟨120, 150, [heatPump], some (StratTank.new 200 2)⟩

end Demo

/-- Non-vacuity of C91 for the catalogue: a plant with a heat pump completes its year. -/
example : ∃ s' r, Demo.pumped.simulate Demo.building 5 60 "annual" = .ok (s', r) :=
  C91_completes_partial Demo.pumped Demo.building 5 60 "annual" (.inr rfl) Demo.answers
    (by intro w hw; obtain rfl : w = Demo.heatPump := by simpa [Demo.pumped] using hw
        exact Demo.heatPump_ready)
    (by rintro t h
        obtain rfl : StratTank.new 200 2 = t := by simpa [Demo.pumped] using h
        exact ⟨by norm_num [StratTank.new], by norm_num [StratTank.new]⟩)

end Eco
