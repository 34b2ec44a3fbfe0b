import Verif.Props.Report

/-! C109: the plotted traces of a run. -/

namespace Eco
variable {K : Type} [Field K] [LinearOrder K] [IsStrictOrderedRing K]

set_option linter.unusedSectionVars false

open Spec

theorem simRecord_supply {ts : ℕ} {supply : K} {r r' : SimRun K} {o : StepOut K} {stop : Bool}
    (h : simRecord ts supply r o = .ok (r', stop)) : r'.supply = r.supply := by
  unfold simRecord SimRun.record at h
  simp only [bind_eq_ok, pure_eq_ok, Except.ok.injEq] at h
  obtain ⟨r1, ⟨t, _, rfl⟩, h⟩ := h
  split at h
  · simp at h
  · unfold SimRun.checkDeficit SimRun.recordOutage at h
    simp only [Except.ok.injEq] at h
    split_ifs at h <;> (simp only [Prod.mk.injEq] at h; obtain ⟨rfl, _⟩ := h; rfl)

theorem simLoop_supply {S : Type} (step : S → ℕ → Py (S × StepOut K)) (ts : ℕ) (supply : K) :
    ∀ (n i : ℕ) (s s' : S) (r r' : SimRun K), simLoop step ts supply n i s r = .ok (s', r') → r'.supply = r.supply := by
  intro n
  induction n with
  | zero =>
    intro i s s' r r' h
    simp only [simLoop, Except.ok.injEq, Prod.mk.injEq] at h
    rw [h.2]
  | succ n ih =>
    intro i s s' r r' h
    simp only [simLoop, bind_eq_ok] at h
    obtain ⟨⟨s1, o⟩, _, ⟨r1, stop⟩, h2, h3⟩ := h
    have := simRecord_supply h2
    simp only at h3
    split at h3
    · simp only [pure_eq_ok, Except.ok.injEq, Prod.mk.injEq] at h3; rw [← h3.2, this]
    · rw [ih _ _ _ _ _ h3, this]

/-- **C109 (demand).** The plotted demand of every step is a rate in gallons per hour: kept up for the length of the step
it gives the recorded volume, so the area under the trace is the recorded total. -/
theorem C109_demand {S : Type} (step : ℕ → S → ℕ → Py (S × StepOut K)) (supply : K) (tm : Bool) (thr : K)
    (maxMin : Int) (duration : String) (s s' : S) (r : SimRun K)
    (h : simulateFrom step supply tm thr maxMin duration s = .ok (s', r)) :
    ∃ l, r.demandTrace = .ok l ∧ l.map (· * hours r) = r.demand ∧ (l.map (· * hours r)).sum = r.demand.sum := by
  obtain ⟨dur, ts, outs, h1, h2, h3, _⟩ := simulate_spec step supply tm thr maxMin duration s s' r h
  have hts : ts ≠ 0 := by
    unfold simDuration at h1
    split at h1
    · simp at h1; omega
    · split at h1
      · simp at h1; omega
      · simp at h1
  have hk : (r.ts : K) ≠ 0 := by rw [h3]; exact_mod_cast hts
  unfold SimRun.demandTrace
  rw [fdiv_ok 60 hk]
  simp only [ok_bind, pure_eq_ok]
  have e : (r.demand.map (fun v => v * (60 / (r.ts : K)))).map (· * hours r) = r.demand := by
    rw [List.map_map]
    conv_rhs => rw [← List.map_id r.demand]
    apply List.map_congr_left
    intro v _
    unfold hours
    simp only [Function.comp, id]
    field_simp
  exact ⟨_, rfl, e, by rw [e]⟩

/-- **C109 (generation).** The plotted generation of every step is the flow, in gallons per hour, that the recorded
heater output raises from the recorded inlet temperature to the supply temperature, taking a rise of at least one
degree. -/
theorem C109_generation {S : Type} (step : ℕ → S → ℕ → Py (S × StepOut K)) (supply : K) (tm : Bool) (thr : K)
    (maxMin : Int) (duration : String) (s s' : S) (r : SimRun K)
    (h : simulateFrom step supply tm thr maxMin duration s = .ok (s', r)) :
    ∃ l, r.generationTrace = some l ∧ l.length = r.demand.length ∧
      ∀ (i : ℕ) (q inlet : K), r.output[i]? = some q → r.inlet[i]? = some inlet →
        ∃ v, l[i]? = some v ∧ v * rhoCp K * max 1 (supply - inlet) = 1000 * q := by
  have hs : r.supply = some supply := by
    have h' := h
    unfold simulateFrom at h'
    simp only [bind_eq_ok] at h'
    obtain ⟨_, _, _, _, h4⟩ := h'
    rw [simLoop_supply _ _ _ _ _ _ _ _ _ h4]
  obtain ⟨dur, ts, outs, h1, h2, h3, h4, h5, _⟩ := simulate_spec step supply tm thr maxMin duration s s' r h
  unfold SimRun.generationTrace
  rw [hs, Option.map_some]
  refine ⟨_, rfl, ?_, ?_⟩
  · rw [List.length_zipWith, h5.output, h5.inlet, h5.demand]; simp
  · intro i q inlet hq hi
    refine ⟨q * 1000 / (rhoCp K * max 1 (supply - inlet)), ?_, ?_⟩
    · rw [List.getElem?_zipWith, hq, hi]
    · have a := (rho_pos (K := K)).ne'
      have b : max 1 (supply - inlet) ≠ 0 := (lt_of_lt_of_le one_pos (le_max_left _ _)).ne'
      field_simp

/-- Both traces of the run of `Demo.withTm`: one gallon per minute is plotted as 60 gallons per hour. -/
example : ∃ r l g, simulateFrom Demo.withTm 120 false 5 10 "3day" () = .ok ((), r) ∧ r.demandTrace = .ok l ∧
    l.map (· * hours r) = r.demand ∧ r.generationTrace = some g ∧ g.length = r.demand.length := by
  obtain ⟨r, hr, _⟩ := C98_peak_ignores_tm
  obtain ⟨l, h1, h2, _⟩ := C109_demand _ _ _ _ _ _ _ _ r hr
  obtain ⟨g, h3, h4, _⟩ := C109_generation _ _ _ _ _ _ _ _ r hr
  exact ⟨r, l, g, hr, h1, h2, h3, h4⟩

end Eco
