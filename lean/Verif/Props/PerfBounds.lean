import Verif.Model.PerfBounds
import Verif.Props.PerfMap

/-! # C133: the operating range of a performance map -/

set_option linter.unusedSectionVars false

namespace Eco
variable {K : Type} [Field K] [LinearOrder K] [IsStrictOrderedRing K]

namespace Spec

/-- The map reports an electric element of capacity `n` (kBTU/hr): all the power becomes heat. -/
def IsElement (m : PerfMap K) (oat outlet : K) (inlet : Option K) (n : K) : Prop :=
  m.getCapacity (some oat) outlet inlet = .ok n ∧ m.getPower (some oat) outlet inlet = .ok (some (n / wToKbtuh K))

/-- The same map for another nominal capacity. -/
def withNominal (n : Option K) : PerfMap K → PerfMap K
  | .nominal c => .nominal c
  | .pkl p => .pkl { p with nominal := n }
  | .sim p => .sim { p with nominal := n }

/-- The nominal capacity plays no role: the reports come from the data of the map. -/
def FromData (m : PerfMap K) (oat outlet : K) (inlet : Option K) : Prop :=
  ∀ n, (withNominal n m).getCapacity (some oat) outlet inlet = m.getCapacity (some oat) outlet inlet ∧
    (withNominal n m).getPower (some oat) outlet inlet = m.getPower (some oat) outlet inlet

end Spec

open Spec

/-- **C133.** The range query answers for every outdoor temperature and every map with data: it says yes exactly from the first
tabulated temperature on. -/
theorem C133_query (p : SimMap K) (q : PklMap K) (e : SimEntry K) (es : List (SimEntry K)) (t : K) (ts : List K)
    (hp : p.entries = e :: es) (hq : q.oats = t :: ts) (oat : K) :
    (PerfMap.sim p).isWithinBounds (some oat) = .ok (some (decide (e.t ≤ oat))) ∧
    (PerfMap.pkl q).isWithinBounds (some oat) = .ok (some (decide (t ≤ oat))) := by
  constructor
  · unfold PerfMap.isWithinBounds
    simp only [hp]
    rfl
  · unfold PerfMap.isWithinBounds PklMap.oatMin pyGet
    simp only [hq]
    rfl

/-- **C133, multi-point maps.** Outside the range the heat pump is an electric element of its nominal capacity; inside, its
reports come from the data points alone. -/
theorem C133_points (p : SimMap K) (n : K) (hn : p.nominal = some n) (hu : p.numUnits ≠ 0) (hl : 2 ≤ p.entries.length)
    (oat outlet : K) (inlet : Option K) :
    ((PerfMap.sim p).isWithinBounds (some oat) = .ok (some false) → IsElement (.sim p) oat outlet inlet n) ∧
    ((PerfMap.sim p).isWithinBounds (some oat) = .ok (some true) → FromData (.sim p) oat outlet inlet) := by
  obtain ⟨e, e2, es, he⟩ : ∃ e e2 es, p.entries = e :: e2 :: es := by
    match h : p.entries, hl with
    | e :: e2 :: es, _ => exact ⟨e, e2, es, rfl⟩
  have hq := (C133_query p ⟨fun _ => none, fun _ => none, [0], [], 0, 0, 0, 0, 1, false, false, 0, none, 0⟩ e (e2 :: es) 0 [] he rfl oat).1
  have hu' : (p.numUnits : K) ≠ 0 := by exact_mod_cast hu
  have hw : wToKbtuh K ≠ 0 := wToKbtuh_pos.ne'
  constructor
  · intro h
    rw [hq] at h
    have h : oat < e.t := by simpa using h
    have hper : ∀ inl, p.perUnit (some oat) inl outlet = .ok (n / p.numUnits, n / p.numUnits) := by
      intro inl
      have hf : (e :: e2 :: es).findIdx? (fun e => decide (oat < e.t)) = some 0 := by
        rw [List.findIdx?_cons]; simp [h]
      unfold SimMap.perUnit SimMap.erPerUnit
      simp only [he, hf, hn, fdiv, if_neg hu', ok_bind, pure_eq_ok]
    constructor
    · show p.getCapacity _ _ _ = _
      unfold SimMap.getCapacity
      simp only [hper, ok_bind, pure_eq_ok]
      rw [div_mul_cancel₀ _ hu']
    · show (do return some (← p.getPower _ _ _)) = _
      unfold SimMap.getPower
      simp only [hper, ok_bind, pure_eq_ok]
      rw [div_right_comm, div_mul_cancel₀ _ hu']
  · intro h
    rw [hq] at h
    have h : e.t ≤ oat := by simpa using h
    intro n'
    have hper : ∀ inl, ({ p with nominal := n' } : SimMap K).perUnit (some oat) inl outlet = p.perUnit (some oat) inl outlet := by
      intro inl
      unfold SimMap.perUnit SimMap.between
      simp only [he]
      cases hf : (e :: e2 :: es).findIdx? (fun e => decide (oat < e.t)) with
      | none => rfl
      | some i =>
        cases i with
        | zero =>
          rw [List.findIdx?_cons] at hf
          rw [if_neg (by simpa using h)] at hf
          simp at hf
        | succ i => rfl
    constructor
    · show SimMap.getCapacity _ _ _ _ = SimMap.getCapacity _ _ _ _
      unfold SimMap.getCapacity
      simp only [hper]
    · show (do return some (← SimMap.getPower _ _ _ _)) = (do return some (← SimMap.getPower _ _ _ _))
      unfold SimMap.getPower
      simp only [hper]

/-- **C133, partial, grid maps.** The same where the interpolation has a value exactly inside the range. Missing: inside the range
it may have none (`C133_grid_fails`). -/
theorem C133_grid_partial (q : PklMap K) (g : GoodGrid q) (n : K) (hn : q.nominal = some n) (oat outlet : K) (inlet : Option K) :
    ((PerfMap.pkl q).isWithinBounds (some oat) = .ok (some false) →
      q.rawQuery (q.resolveTemps outlet inlet).1 (q.resolveTemps outlet inlet).2 oat = none →
      IsElement (.pkl q) oat outlet inlet n) ∧
    ((PerfMap.pkl q).isWithinBounds (some oat) = .ok (some true) →
      q.rawQuery (q.resolveTemps outlet inlet).1 (q.resolveTemps outlet inlet).2 oat ≠ none →
      FromData (.pkl q) oat outlet inlet) := by
  obtain ⟨t, ts, ht⟩ := List.exists_cons_of_ne_nil g.some
  have hq := (C133_query ⟨[⟨0, [], []⟩], 1, false, none, 0⟩ q ⟨0, [], []⟩ [] t ts rfl ht oat).2
  have hu' : (q.numUnits : K) ≠ 0 := by exact_mod_cast g.units
  have hw : wToKbtuh K ≠ 0 := wToKbtuh_pos.ne'
  have hlen : q.oats.length - 1 < q.oats.length := by rw [ht]; simp
  have hget : pyGet q.oats (q.oats.length - 1) = .ok q.oats[q.oats.length - 1] := pyGet_of_lt hlen
  have hge : t ≤ q.oats[q.oats.length - 1] := by
    have h0 : q.oats[0]'(by omega) = t := by simp [ht]
    rcases Nat.eq_zero_or_pos (q.oats.length - 1) with h | h
    · simp only [h, h0, le_refl]
    · rw [← h0]; exact (List.pairwise_iff_getElem.mp g.sorted 0 (q.oats.length - 1) _ hlen h).le
  have hget0 : pyGet q.oats 0 = .ok t := by unfold pyGet; simp [ht]
  constructor
  · intro h hr
    rw [hq] at h
    have h : oat < t := by simpa using h
    have hper : q.perUnit (some oat) (q.resolveTemps outlet inlet).1 (q.resolveTemps outlet inlet).2 =
        .ok (n / q.numUnits / wToKbtuh K, n / q.numUnits / wToKbtuh K) := by
      unfold PklMap.perUnit
      simp only [hget, ok_bind, hr, hget0]
      rw [if_neg (not_le.2 (h.trans_le hge)), if_pos h]
      unfold PklMap.erPerUnit
      rw [hn]
      simp only [fdiv, if_neg hu', ok_bind, pure_eq_ok]
    constructor
    · show q.getCapacity _ _ _ = _
      unfold PklMap.getCapacity
      simp only [hper, ok_bind, pure_eq_ok]
      congr 1
      field_simp
    · show (do return some (← q.getPower _ _ _)) = _
      unfold PklMap.getPower
      simp only [hper, ok_bind, pure_eq_ok]
      congr 2
      field_simp
  · intro _ hr n'
    have hper : ({ q with nominal := n' } : PklMap K).perUnit (some oat) (q.resolveTemps outlet inlet).1 (q.resolveTemps outlet inlet).2 =
        q.perUnit (some oat) (q.resolveTemps outlet inlet).1 (q.resolveTemps outlet inlet).2 := by
      obtain ⟨r, hr⟩ := Option.ne_none_iff_exists'.1 hr
      have hr' : ({ q with nominal := n' } : PklMap K).rawQuery (q.resolveTemps outlet inlet).1 (q.resolveTemps outlet inlet).2 oat = some r := hr
      unfold PklMap.perUnit
      simp only [hr, hr', hget, ok_bind]
    have hres : ({ q with nominal := n' } : PklMap K).resolveTemps outlet inlet = q.resolveTemps outlet inlet := rfl
    constructor
    · show PklMap.getCapacity _ _ _ _ = PklMap.getCapacity _ _ _ _
      unfold PklMap.getCapacity
      simp only [hres, hper]
    · show (do return some (← PklMap.getPower _ _ _ _)) = (do return some (← PklMap.getPower _ _ _ _))
      unfold PklMap.getPower
      simp only [hres, hper]

namespace Demo

/-- A map given by one polynomial: COP 3 and 2 kW under all conditions, valid from 40 °F. -/
def onePoint : SimMap ℚ := ⟨[⟨40, [3, 0, 0, 0, 0, 0, 0, 0, 0, 0, 0], [2, 0, 0, 0, 0, 0, 0, 0, 0, 0, 0]⟩], 1, false, some 100, 50⟩

/-- A grid map without a value at 40 °F. -/
def gap : PklMap ℚ := { pklMap with outInterp := fun _ => none, nominal := some 100 }

end Demo

/-- **C133 fails for single-polynomial maps.** Outside its range the map reports the polynomial, here with COP 3. -/
theorem C133_polynomial_fails :
    (PerfMap.sim Demo.onePoint).isWithinBounds (some 0) = .ok (some false) ∧
    (PerfMap.sim Demo.onePoint).getCop (some 0) 140 none = .ok (some 3) ∧
    ¬ IsElement (.sim Demo.onePoint) 0 140 none 100 := by
  refine ⟨by decide +kernel, by decide +kernel, ?_⟩
  rintro ⟨h, _⟩
  exact absurd h (by decide +kernel)

/-- **C133 fails for grid maps.** Inside its range, with no value at the conditions or near them, the map reports its nominal
capacity with COP 1.5. -/
theorem C133_grid_fails :
    (PerfMap.pkl Demo.gap).isWithinBounds (some 40) = .ok (some true) ∧
    (PerfMap.pkl Demo.gap).getCapacity (some 40) 140 none = .ok 100 ∧
    (PerfMap.pkl Demo.gap).getCop (some 40) 140 none = .ok (some (3 / 2)) := by
  decide +kernel

/-- The hypotheses are met: a multi-point map inside and outside, and a grid map (well-formed, see C28) both ways. -/
example : (PerfMap.sim { Demo.simMap with nominal := some (100 : ℚ) }).isWithinBounds (some 10) = .ok (some false) ∧
    (PerfMap.sim { Demo.simMap with nominal := some (100 : ℚ) }).isWithinBounds (some 50) = .ok (some true) ∧
    2 ≤ Demo.simMap.entries.length ∧ Demo.simMap.numUnits ≠ 0 ∧
    (PerfMap.pkl Demo.pklMap).isWithinBounds (some 40) = .ok (some true) ∧ Demo.pklMap.rawQuery 60 140 40 ≠ none ∧
    (PerfMap.pkl Demo.pklMap).isWithinBounds (some 30) = .ok (some false) ∧ Demo.pklMap.rawQuery 60 140 30 = none := by decide +kernel

end Eco
