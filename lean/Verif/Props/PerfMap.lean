import Verif.Model.PerfMap
import Verif.Lemmas.Py
import Mathlib.Algebra.Order.Field.Rat
import Mathlib.Tactic.NormNum
import Mathlib.Tactic.Linarith
import Mathlib.Tactic.Ring
import Mathlib.Tactic.FieldSimp
import Mathlib.Tactic.LinearCombination
import Mathlib.Tactic.Positivity
import Mathlib.Topology.Algebra.Order.Field
import Mathlib.Topology.Instances.Real.Lemmas

/-! C26 to C28: performance maps. -/

namespace Eco
set_option linter.unusedSectionVars false
variable {K : Type} [Field K] [LinearOrder K] [IsStrictOrderedRing K]

namespace Spec

/-- The quadratic through which a data point depends on the inlet temperature. -/
def quadAt (c : List K) (x : K) : K := c.getD 0 0 + c.getD 1 0 * x + c.getD 2 0 * x ^ 2

/-- COP of a data point. -/
def pointCop (e : SimEntry K) (inlet : K) : K := quadAt e.cop inlet

/-- Electric input of a data point in kW (the table has watts). -/
def pointKw (e : SimEntry K) (inlet : K) : K := quadAt e.pow inlet / 1000

/-- The point at the relative position of `x` between `x0` and `x1` on the way from `y0` to `y1`. -/
def lerp (x x0 x1 y0 y1 : K) : K := (1 - (x - x0) / (x1 - x0)) * y0 + (x - x0) / (x1 - x0) * y1

/-- A usable multi-point map: two or more points in order of temperature, with complete
coefficient lists. -/
structure GoodMap (m : SimMap K) : Prop where
  two : 2 ≤ m.entries.length
  sorted : m.entries.Pairwise (fun a b => a.t < b.t)
  full : ∀ e ∈ m.entries, 3 ≤ e.cop.length ∧ 3 ≤ e.pow.length

end Spec
open Spec

theorem quad_ok {c : List K} (h : 3 ≤ c.length) (x : K) : quad c x = .ok (quadAt c x) := by
  match c, h with
  | a :: b :: d :: l, _ => simp [quad, quadAt, pyGet]; ring

theorem linearInterp_ok {x0 x1 : K} (h : x0 < x1) (x y0 y1 : K) :
    linearInterp x x0 x1 y0 y1 = .ok (lerp x x0 x1 y0 y1) := by
  have : x1 - x0 ≠ 0 := ne_of_gt (sub_pos.mpr h)
  unfold linearInterp lerp
  rw [fdiv_ok _ this, ok_bind]
  simp only [pure_eq_ok, Except.ok.injEq]
  field_simp
  ring

theorem lerp_left {x0 x1 : K} (y0 y1 : K) : lerp x0 x0 x1 y0 y1 = y0 := by simp [lerp]

theorem lerp_right {x0 x1 : K} (h : x0 < x1) (y0 y1 : K) : lerp x1 x0 x1 y0 y1 = y1 := by
  have : x1 - x0 ≠ 0 := ne_of_gt (sub_pos.mpr h)
  simp [lerp, div_self this]

theorem lerp_bounds {x x0 x1 : K} (h : x0 < x1) (h0 : x0 ≤ x) (h1 : x ≤ x1) (y0 y1 : K) :
    min y0 y1 ≤ lerp x x0 x1 y0 y1 ∧ lerp x x0 x1 y0 y1 ≤ max y0 y1 := by
  unfold lerp
  have hp : 0 < x1 - x0 := sub_pos.mpr h
  set l := (x - x0) / (x1 - x0) with hl
  have l0 : 0 ≤ l := div_nonneg (by linarith) hp.le
  have l1 : l ≤ 1 := by rw [hl, div_le_one hp]; linarith
  constructor
  · have a := min_le_left y0 y1
    have b := min_le_right y0 y1
    nlinarith [mul_le_mul_of_nonneg_left a (sub_nonneg.mpr l1), mul_le_mul_of_nonneg_left b l0]
  · have a := le_max_left y0 y1
    have b := le_max_right y0 y1
    nlinarith [mul_le_mul_of_nonneg_left a (sub_nonneg.mpr l1), mul_le_mul_of_nonneg_left b l0]

/-! ## C26 -/

section
variable {m : SimMap K}

theorem sorted_lt (g : GoodMap m) {i j : ℕ} (hj : j < m.entries.length) (hij : i < j) :
    (m.entries[i]'(hij.trans hj)).t < m.entries[j].t :=
  List.pairwise_iff_getElem.mp g.sorted i j _ hj hij

theorem sorted_le (g : GoodMap m) {i j : ℕ} (hj : j < m.entries.length) (hij : i ≤ j) :
    (m.entries[i]'(lt_of_le_of_lt hij hj)).t ≤ m.entries[j].t := by
  rcases Nat.lt_or_eq_of_le hij with h | h
  · exact (sorted_lt g hj h).le
  · subst h; exact le_rfl

theorem between_ok (g : GoodMap m) {i : ℕ} (hi : i + 1 < m.entries.length) (oat inlet : K) :
    m.between i (i + 1) oat inlet = .ok
      (lerp oat m.entries[i].t m.entries[i+1].t (pointCop m.entries[i] inlet)
        (pointCop m.entries[i+1] inlet),
       lerp oat m.entries[i].t m.entries[i+1].t (pointKw m.entries[i] inlet)
        (pointKw m.entries[i+1] inlet)) := by
  have h0 : i < m.entries.length := by omega
  have hlt := sorted_lt g hi (Nat.lt_succ_self i)
  have f0 := g.full _ (List.getElem_mem h0)
  have f1 := g.full _ (List.getElem_mem hi)
  unfold SimMap.between
  rw [pyGet_of_lt h0, ok_bind, pyGet_of_lt hi, ok_bind, quad_ok f0.1, ok_bind, quad_ok f1.1, ok_bind,
    quad_ok f0.2, ok_bind, quad_ok f1.2, ok_bind, linearInterp_ok hlt, ok_bind, linearInterp_ok hlt,
    ok_bind]
  rfl

/-- What the code does for `two` or more entries. -/
theorem perUnit_multi (g : GoodMap m) (oat inlet outlet : K) :
    m.perUnit (some oat) inlet outlet =
      match m.entries.findIdx? (fun e => decide (oat < e.t)) with
      | some 0 => do let er ← m.erPerUnit; return (er, er)
      | some (i + 1) => do
        let r ← m.between i (i + 1) oat inlet
        return (r.1 * r.2 * wToKbtuh K, r.2 * wToKbtuh K)
      | none => do
        let r ← m.between (m.entries.length - 2) (m.entries.length - 1) oat inlet
        return (r.1 * r.2 * wToKbtuh K, r.2 * wToKbtuh K) := by
  have h := g.two
  unfold SimMap.perUnit
  match hm : m.entries with
  | [] => rw [hm] at h; simp at h
  | [e] => rw [hm] at h; simp at h
  | e :: f :: l => rfl

theorem findIdx_bracket (g : GoodMap m) {i : ℕ} (hi : i + 1 < m.entries.length) {oat : K}
    (h0 : m.entries[i].t ≤ oat) (h1 : oat < m.entries[i+1].t) :
    m.entries.findIdx? (fun e => decide (oat < e.t)) = some (i + 1) := by
  rw [List.findIdx?_eq_some_iff_getElem]
  refine ⟨hi, by simpa using h1, ?_⟩
  intro j hj
  have := sorted_le g (i := j) (j := i) (by omega) (by omega)
  simpa using this.trans h0

theorem findIdx_above (g : GoodMap m) {oat : K}
    (h0 : (m.entries[m.entries.length - 1]'(by have := g.two; omega)).t ≤ oat) :
    m.entries.findIdx? (fun e => decide (oat < e.t)) = none := by
  rw [List.findIdx?_eq_none_iff]
  intro e he
  obtain ⟨j, hj, rfl⟩ := List.getElem_of_mem he
  have := sorted_le g (i := j) (j := m.entries.length - 1) (by omega) (by omega)
  simpa using this.trans h0

/-- The per-unit pair on a closed bracket. -/
theorem perUnit_bracket (g : GoodMap m) {i : ℕ} (hi : i + 1 < m.entries.length) {oat : K}
    (h0 : m.entries[i].t ≤ oat) (h1 : oat ≤ m.entries[i+1].t) (inlet outlet : K) :
    m.perUnit (some oat) inlet outlet = .ok
      (lerp oat m.entries[i].t m.entries[i+1].t (pointCop m.entries[i] inlet)
        (pointCop m.entries[i+1] inlet) *
       lerp oat m.entries[i].t m.entries[i+1].t (pointKw m.entries[i] inlet)
        (pointKw m.entries[i+1] inlet) * wToKbtuh K,
       lerp oat m.entries[i].t m.entries[i+1].t (pointKw m.entries[i] inlet)
        (pointKw m.entries[i+1] inlet) * wToKbtuh K) := by
  rw [perUnit_multi g]
  rcases lt_or_eq_of_le h1 with h1 | h1
  · rw [findIdx_bracket g hi h0 h1]
    simp only [between_ok g hi, ok_bind, pure_eq_ok]
  · have hlt := sorted_lt g hi (Nat.lt_succ_self i)
    rcases Nat.lt_or_ge (i + 2) m.entries.length with h2 | h2
    · have hlt2 := sorted_lt g h2 (Nat.lt_succ_self (i + 1))
      rw [findIdx_bracket g h2 h1.ge (by rw [h1]; exact hlt2)]
      simp only [between_ok g h2, ok_bind, pure_eq_ok]
      rw [h1, lerp_left, lerp_left, lerp_right hlt, lerp_right hlt]
    · have e1 : m.entries.length - 1 = i + 1 := by omega
      have e2 : m.entries.length - 2 = i := by omega
      rw [findIdx_above g (by simp only [e1]; exact h1.ge)]
      simp only [e1, e2, between_ok g hi, ok_bind, pure_eq_ok]

/-- The per-unit pair above the last data point: the last line, extended. -/
theorem perUnit_above (g : GoodMap m) {i : ℕ} (hi : i + 2 = m.entries.length) {oat : K}
    (h0 : m.entries[i+1].t ≤ oat) (inlet outlet : K) :
    m.perUnit (some oat) inlet outlet = .ok
      (lerp oat m.entries[i].t m.entries[i+1].t (pointCop m.entries[i] inlet)
        (pointCop m.entries[i+1] inlet) *
       lerp oat m.entries[i].t m.entries[i+1].t (pointKw m.entries[i] inlet)
        (pointKw m.entries[i+1] inlet) * wToKbtuh K,
       lerp oat m.entries[i].t m.entries[i+1].t (pointKw m.entries[i] inlet)
        (pointKw m.entries[i+1] inlet) * wToKbtuh K) := by
  have e1 : m.entries.length - 1 = i + 1 := by omega
  have e2 : m.entries.length - 2 = i := by omega
  rw [perUnit_multi g, findIdx_above g (by simp only [e1]; exact h0)]
  simp only [e1, e2, between_ok g (by omega : i + 1 < m.entries.length), ok_bind, pure_eq_ok]

end

theorem wToKbtuh_pos : (0 : K) < wToKbtuh K := by unfold wToKbtuh; norm_num

/-- **C26 (interpolation).** Between two neighbouring data points, both included, COP and
electric input are interpolated linearly, and the heat delivered is their product. -/
theorem C26_interpolates (m : SimMap K) (g : GoodMap m) (i : ℕ) (hi : i + 1 < m.entries.length)
    (oat inlet outlet : K) (h0 : m.entries[i].t ≤ oat) (h1 : oat ≤ m.entries[i+1].t) :
    let a := m.entries[i]
    let b := m.entries[i+1]
    let kw := lerp oat a.t b.t (pointKw a inlet) (pointKw b inlet)
    let cop := lerp oat a.t b.t (pointCop a inlet) (pointCop b inlet)
    m.getPower (some oat) outlet (some inlet) = .ok (kw * m.numUnits) ∧
    m.getCapacity (some oat) outlet (some inlet) = .ok (cop * kw * wToKbtuh K * m.numUnits) := by
  intro a b kw cop
  have hw : wToKbtuh K ≠ 0 := ne_of_gt wToKbtuh_pos
  unfold SimMap.getPower SimMap.getCapacity
  simp only [Option.getD_some, perUnit_bracket g hi h0 h1, ok_bind, pure_eq_ok, Except.ok.injEq]
  refine ⟨?_, rfl⟩
  rw [mul_div_assoc, div_self hw, mul_one]

/-- **C26 (data points).** At a tabulated temperature the reported values are those of the data
point, whichever of the two brackets it belongs to. -/
theorem C26_agrees_at_points (m : SimMap K) (g : GoodMap m) (i : ℕ) (hi : i < m.entries.length)
    (inlet outlet : K) :
    let e := m.entries[i]
    m.getPower (some e.t) outlet (some inlet) = .ok (pointKw e inlet * m.numUnits) ∧
    m.getCapacity (some e.t) outlet (some inlet) =
      .ok (pointCop e inlet * pointKw e inlet * wToKbtuh K * m.numUnits) := by
  intro e
  rcases Nat.lt_or_ge (i + 1) m.entries.length with h | h
  · have := C26_interpolates m g i h e.t inlet outlet le_rfl (sorted_lt g h (Nat.lt_succ_self i)).le
    simpa only [e, lerp_left] using this
  · obtain ⟨k, rfl⟩ : ∃ k, i = k + 1 := ⟨i - 1, by have := g.two; omega⟩
    have hlt := sorted_lt g hi (Nat.lt_succ_self k)
    have := C26_interpolates m g k hi e.t inlet outlet hlt.le le_rfl
    simpa only [e, lerp_right hlt] using this

/-- **C26 (range of the input).** Between two data points the electric input lies between theirs. -/
theorem C26_power_between (m : SimMap K) (g : GoodMap m) (i : ℕ) (hi : i + 1 < m.entries.length)
    (oat inlet outlet p pa pb : K) (h0 : m.entries[i].t ≤ oat) (h1 : oat ≤ m.entries[i+1].t)
    (hp : m.getPower (some oat) outlet (some inlet) = .ok p)
    (hpa : m.getPower (some m.entries[i].t) outlet (some inlet) = .ok pa)
    (hpb : m.getPower (some m.entries[i+1].t) outlet (some inlet) = .ok pb) :
    min pa pb ≤ p ∧ p ≤ max pa pb := by
  have e := (C26_interpolates m g i hi oat inlet outlet h0 h1).1
  have ea := (C26_agrees_at_points m g i (by omega) inlet outlet).1
  have eb := (C26_agrees_at_points m g (i+1) hi inlet outlet).1
  rw [e, Except.ok.injEq] at hp
  rw [ea, Except.ok.injEq] at hpa
  rw [eb, Except.ok.injEq] at hpb
  subst hp hpa hpb
  have hn : (0 : K) ≤ m.numUnits := Nat.cast_nonneg _
  obtain ⟨b1, b2⟩ := lerp_bounds (sorted_lt g hi (Nat.lt_succ_self i)) h0 h1
    (pointKw m.entries[i] inlet) (pointKw m.entries[i+1] inlet)
  rw [← min_mul_of_nonneg _ _ hn, ← max_mul_of_nonneg _ _ hn]
  exact ⟨mul_le_mul_of_nonneg_right b1 hn, mul_le_mul_of_nonneg_right b2 hn⟩

/-- **C26 (range of the output), partial.** If COP and input of the warmer point are both at least
those of the colder one and not negative, or both at most, the capacity lies between the
two data points'. Missing: points whose COP rises while the input falls, for
which it fails (`C26_capacity_above_both_points`). -/
theorem C26_capacity_between_partial (m : SimMap K) (g : GoodMap m) (i : ℕ)
    (hi : i + 1 < m.entries.length) (oat inlet outlet q qa qb : K)
    (h0 : m.entries[i].t ≤ oat) (h1 : oat ≤ m.entries[i+1].t)
    (hpos : 0 ≤ pointCop m.entries[i] inlet ∧ 0 ≤ pointKw m.entries[i] inlet ∧
      0 ≤ pointCop m.entries[i+1] inlet ∧ 0 ≤ pointKw m.entries[i+1] inlet)
    (hmono : (pointCop m.entries[i] inlet ≤ pointCop m.entries[i+1] inlet ∧
        pointKw m.entries[i] inlet ≤ pointKw m.entries[i+1] inlet) ∨
      (pointCop m.entries[i+1] inlet ≤ pointCop m.entries[i] inlet ∧
        pointKw m.entries[i+1] inlet ≤ pointKw m.entries[i] inlet))
    (hq : m.getCapacity (some oat) outlet (some inlet) = .ok q)
    (hqa : m.getCapacity (some m.entries[i].t) outlet (some inlet) = .ok qa)
    (hqb : m.getCapacity (some m.entries[i+1].t) outlet (some inlet) = .ok qb) :
    min qa qb ≤ q ∧ q ≤ max qa qb := by
  have e := (C26_interpolates m g i hi oat inlet outlet h0 h1).2
  have ea := (C26_agrees_at_points m g i (by omega) inlet outlet).2
  have eb := (C26_agrees_at_points m g (i+1) hi inlet outlet).2
  rw [e, Except.ok.injEq] at hq
  rw [ea, Except.ok.injEq] at hqa
  rw [eb, Except.ok.injEq] at hqb
  subst hq hqa hqb
  have hn : (0 : K) ≤ wToKbtuh K * m.numUnits := mul_nonneg wToKbtuh_pos.le (Nat.cast_nonneg _)
  have hlt := sorted_lt g hi (Nat.lt_succ_self i)
  obtain ⟨c1, c2⟩ := lerp_bounds hlt h0 h1 (pointCop m.entries[i] inlet) (pointCop m.entries[i+1] inlet)
  obtain ⟨b1, b2⟩ := lerp_bounds hlt h0 h1 (pointKw m.entries[i] inlet) (pointKw m.entries[i+1] inlet)
  simp only [mul_assoc _ (wToKbtuh K)]
  rw [← min_mul_of_nonneg _ _ hn, ← max_mul_of_nonneg _ _ hn]
  obtain ⟨p1, p2, p3, p4⟩ := hpos
  rcases hmono with ⟨m1, m2⟩ | ⟨m1, m2⟩
  · rw [min_eq_left m1] at c1
    rw [max_eq_right m1] at c2
    rw [min_eq_left m2] at b1
    rw [max_eq_right m2] at b2
    rw [min_eq_left (mul_le_mul m1 m2 p2 p3), max_eq_right (mul_le_mul m1 m2 p2 p3)]
    exact ⟨mul_le_mul_of_nonneg_right (mul_le_mul c1 b1 p2 (p1.trans c1)) hn,
      mul_le_mul_of_nonneg_right (mul_le_mul c2 b2 (p2.trans b1) p3) hn⟩
  · rw [min_eq_right m1] at c1
    rw [max_eq_left m1] at c2
    rw [min_eq_right m2] at b1
    rw [max_eq_left m2] at b2
    rw [min_eq_right (mul_le_mul m1 m2 p4 p1), max_eq_left (mul_le_mul m1 m2 p4 p1)]
    exact ⟨mul_le_mul_of_nonneg_right (mul_le_mul c1 b1 p4 (p3.trans c1)) hn,
      mul_le_mul_of_nonneg_right (mul_le_mul c2 b2 (p4.trans b1) p1) hn⟩

/-- **C26 (backup).** Below the lowest tabulated temperature the electric backup is reported: heat
and input are the same power. -/
theorem C26_backup_below (m : SimMap K) (g : GoodMap m) (oat outlet : K) (inlet : Option K)
    (h : oat < (m.entries[0]'(by have := g.two; omega)).t) (hn : m.numUnits ≠ 0) :
    ∃ kw, m.getPower (some oat) outlet inlet = .ok kw ∧
      m.getCapacity (some oat) outlet inlet = .ok (kw * wToKbtuh K) ∧
      ∀ nom, m.nominal = some nom → kw * wToKbtuh K = nom := by
  have hw : wToKbtuh K ≠ 0 := ne_of_gt wToKbtuh_pos
  have hn' : (m.numUnits : K) ≠ 0 := Nat.cast_ne_zero.mpr hn
  have hf : m.entries.findIdx? (fun e => decide (oat < e.t)) = some 0 := by
    rw [List.findIdx?_eq_some_iff_getElem]
    exact ⟨by have := g.two; omega, by simpa using h, by simp⟩
  have her : ∃ er, m.erPerUnit = .ok er ∧ ∀ nom, m.nominal = some nom → er * m.numUnits = nom := by
    unfold SimMap.erPerUnit
    cases hnom : m.nominal with
    | some nom =>
      exact ⟨_, fdiv_ok _ hn', by rintro n ⟨rfl⟩; field_simp⟩
    | none =>
      match hm : m.entries with
      | [] => exact ⟨0, rfl, by simp⟩
      | e :: l =>
        have f := g.full e (by simp [hm])
        simp only [quad_ok f.1, quad_ok f.2, ok_bind]
        exact ⟨_, rfl, by simp⟩
  obtain ⟨er, h1, h2⟩ := her
  refine ⟨er / wToKbtuh K * m.numUnits, ?_, ?_, ?_⟩
  · unfold SimMap.getPower
    rw [perUnit_multi g, hf]
    simp [h1]
  · unfold SimMap.getCapacity
    rw [perUnit_multi g, hf]
    simp only [h1, ok_bind, pure_eq_ok, Except.ok.injEq]
    field_simp
  · intro nom hnom
    rw [← h2 nom hnom]
    field_simp

/-- **C26 (continuity).** Over the reals the reported input, COP and heat of a good map are
continuous functions of the outdoor temperature from the lowest data point up. -/
theorem C26_continuous (m : SimMap ℝ) (g : GoodMap m) (inlet outlet : ℝ) :
    ∃ cap pow : ℝ → ℝ, (∀ oat, (m.entries[0]'(by have := g.two; omega)).t ≤ oat →
        m.getCapacity (some oat) outlet (some inlet) = .ok (cap oat) ∧
        m.getPower (some oat) outlet (some inlet) = .ok (pow oat)) ∧
      ContinuousOn cap (Set.Ici (m.entries[0]'(by have := g.two; omega)).t) ∧
      ContinuousOn pow (Set.Ici (m.entries[0]'(by have := g.two; omega)).t) := by
  have hlen := g.two
  let val : ℝ → ℝ × ℝ := fun oat =>
    match m.perUnit (some oat) inlet outlet with | .ok r => r | .error _ => (0, 0)
  obtain ⟨n, hn⟩ : ∃ n, n + 2 = m.entries.length := ⟨m.entries.length - 2, by omega⟩
  -- the line of bracket i
  let line : ℕ → ℝ → ℝ × ℝ := fun i oat => if hi : i + 1 < m.entries.length then
      (lerp oat m.entries[i].t m.entries[i+1].t (pointCop m.entries[i] inlet)
        (pointCop m.entries[i+1] inlet) *
       lerp oat m.entries[i].t m.entries[i+1].t (pointKw m.entries[i] inlet)
        (pointKw m.entries[i+1] inlet) * wToKbtuh ℝ,
       lerp oat m.entries[i].t m.entries[i+1].t (pointKw m.entries[i] inlet)
        (pointKw m.entries[i+1] inlet) * wToKbtuh ℝ) else (0, 0)
  have hline : ∀ i, Continuous (line i) := by
    intro i
    by_cases hi : i + 1 < m.entries.length
    · simp only [line, hi, dite_true, lerp]
      fun_prop
    · simp only [line, hi, dite_false]
      exact continuous_const
  have hb : ∀ i (hi : i + 1 < m.entries.length) oat, m.entries[i].t ≤ oat → oat ≤ m.entries[i+1].t →
      m.perUnit (some oat) inlet outlet = .ok (line i oat) := by
    intro i hi oat h0 h1
    rw [perUnit_bracket g hi h0 h1]
    simp only [line, hi, dite_true]
  have ha : ∀ oat, (m.entries[n+1]'(by omega)).t ≤ oat →
      m.perUnit (some oat) inlet outlet = .ok (line n oat) := by
    intro oat h0
    rw [perUnit_above g hn h0]
    have hi : n + 1 < m.entries.length := by omega
    simp only [line, hi, dite_true]
  have hval : ∀ oat r, m.perUnit (some oat) inlet outlet = .ok r → val oat = r := by
    intro oat r h; simp only [val, h]
  -- continuous up to every data point
  have hup : ∀ k (hk : k < m.entries.length),
      ContinuousOn val (Set.Icc (m.entries[0]'(by omega)).t m.entries[k].t) ∧
      ∀ oat ∈ Set.Icc (m.entries[0]'(by omega)).t m.entries[k].t,
        ∃ r, m.perUnit (some oat) inlet outlet = .ok r := by
    intro k
    induction k with
    | zero =>
      intro hk
      rw [Set.Icc_self]
      refine ⟨continuousOn_singleton _ _, ?_⟩
      intro oat ho
      rw [Set.mem_singleton_iff.mp ho]
      exact ⟨_, hb 0 (by omega) _ le_rfl (sorted_lt g (by omega) (by omega)).le⟩
    | succ k ih =>
      intro hk
      obtain ⟨c, d⟩ := ih (by omega)
      have hlt := sorted_lt g hk (Nat.lt_succ_self k)
      have h0k := sorted_le g (i := 0) (j := k) (by omega) (by omega)
      rw [← Set.Icc_union_Icc_eq_Icc h0k hlt.le]
      have e : ∀ oat ∈ Set.Icc m.entries[k].t m.entries[k+1].t,
          m.perUnit (some oat) inlet outlet = .ok (line k oat) :=
        fun oat ho => hb k hk oat ho.1 ho.2
      refine ⟨?_, ?_⟩
      · apply ContinuousOn.union_of_isClosed c _ isClosed_Icc isClosed_Icc
        exact ((hline k).continuousOn).congr (fun oat ho => hval _ _ (e oat ho))
      · rintro oat (ho | ho)
        · exact d oat ho
        · exact ⟨_, e oat ho⟩
  obtain ⟨c, d⟩ := hup (n + 1) (by omega)
  have h0n := sorted_le g (i := 0) (j := n + 1) (by omega) (by omega)
  have hcov : Set.Ici (m.entries[0]'(by omega)).t =
      Set.Icc (m.entries[0]'(by omega)).t (m.entries[n+1]'(by omega)).t ∪
        Set.Ici (m.entries[n+1]'(by omega)).t := by
    rw [Set.Icc_union_Ici_eq_Ici h0n]
  have hcont : ContinuousOn val (Set.Ici (m.entries[0]'(by omega)).t) := by
    rw [hcov]
    apply ContinuousOn.union_of_isClosed c _ isClosed_Icc isClosed_Ici
    exact ((hline n).continuousOn).congr (fun oat ho => hval _ _ (ha oat ho))
  have hdef : ∀ oat, (m.entries[0]'(by omega)).t ≤ oat →
      m.perUnit (some oat) inlet outlet = .ok (val oat) := by
    intro oat ho
    have : oat ∈ Set.Ici (m.entries[0]'(by omega)).t := ho
    rw [hcov] at this
    rcases this with h | h
    · obtain ⟨r, hr⟩ := d oat h
      rw [hr, hval _ _ hr]
    · rw [ha oat h, hval _ _ (ha oat h)]
  refine ⟨fun oat => (val oat).1 * m.numUnits, fun oat => (val oat).2 / wToKbtuh ℝ * m.numUnits,
    ?_, ?_, ?_⟩
  · intro oat ho
    unfold SimMap.getCapacity SimMap.getPower
    simp only [Option.getD_some, hdef oat ho, ok_bind, pure_eq_ok, and_self]
  · exact (continuous_fst.comp_continuousOn hcont).mul continuousOn_const
  · exact ((continuous_snd.comp_continuousOn hcont).div_const _).mul continuousOn_const

namespace Demo

/-- A two-point map: COP 1 at 20 °F rising to 3 at 60 °F, input falling from 3 kW to 1 kW. -/
def simMap : SimMap ℚ :=
  ⟨[⟨20, [1, 0, 0], [3000, 0, 0]⟩, ⟨60, [3, 0, 0], [1000, 0, 0]⟩], 2, false, none, 50⟩

end Demo

theorem goodMap_demo : GoodMap Demo.simMap :=
  ⟨by decide, by
    simp only [Demo.simMap, List.pairwise_cons, List.mem_singleton, forall_eq]
    refine ⟨by norm_num, by simp, List.Pairwise.nil⟩, by
    intro e he
    simp only [Demo.simMap, List.mem_cons, List.not_mem_nil, or_false] at he
    rcases he with rfl | rfl <;> simp⟩

/-- **C26 fails for the heat delivered.** Both data points deliver the same heat, and half way between
them the map reports a third more than either. -/
theorem C26_capacity_above_both_points :
    GoodMap Demo.simMap ∧
    Demo.simMap.getCapacity (some 20) 140 (some 50) = .ok (6 * wToKbtuh ℚ) ∧
    Demo.simMap.getCapacity (some 60) 140 (some 50) = .ok (6 * wToKbtuh ℚ) ∧
    Demo.simMap.getCapacity (some 40) 140 (some 50) = .ok (8 * wToKbtuh ℚ) :=
  ⟨goodMap_demo, by decide +kernel, by decide +kernel, by decide +kernel⟩

/-- Above the last data point the last line is extended without limit, so that far enough out a
negative input is reported. -/
theorem C26_extrapolates_negative :
    Demo.simMap.getPower (some 90) 140 (some 50) = .ok (-1) := by decide +kernel

/-! ## C27 -/

/-- **C27 (definition).** A reported COP is heat over input in the same unit, and it is reported exactly
if the input is known and positive. -/
theorem C27_cop (m : PerfMap K) (oat : Option K) (outlet : K) (inlet : Option K) (cap : K)
    (p : Option K) (hc : m.getCapacity oat outlet inlet = .ok cap)
    (hp : m.getPower oat outlet inlet = .ok p) :
    (∀ kw, p = some kw → 0 < kw →
      ∃ cop, m.getCop oat outlet inlet = .ok (some cop) ∧ cop * (kw * wToKbtuh K) = cap ∧
        (0 < cap → 0 < cop)) ∧
    (p = none → m.getCop oat outlet inlet = .ok none) ∧
    (∀ kw, p = some kw → kw ≤ 0 → m.getCop oat outlet inlet = .ok none) := by
  have hw := wToKbtuh_pos (K := K)
  unfold PerfMap.getCop
  rw [hc, hp]
  simp only [ok_bind]
  refine ⟨?_, ?_, ?_⟩
  · rintro kw rfl hk
    refine ⟨cap / wToKbtuh K / kw, by simp only [if_neg (not_le.mpr hk), pure_eq_ok], ?_,
      fun h => by positivity⟩
    field_simp
  · rintro rfl; rfl
  · rintro kw rfl hk; simp only [if_pos hk, pure_eq_ok]

/-- Two per-unit results that differ by a positive factor at most. -/
def Spec.Proportional (a b : Py (K × K)) : Prop :=
  ∃ r : K, 0 < r ∧ b = a.map (fun x => (r * x.1, r * x.2))

theorem proportional_refl (a : Py (K × K)) : Proportional a a :=
  ⟨1, one_pos, by cases a <;> simp [Except.map]⟩

theorem sim_proportional (m : SimMap K) {n k : ℕ} (hn : 0 < n) (hk : 0 < k) (oat : Option K)
    (inlet outlet : K) :
    Proportional (SimMap.perUnit { m with numUnits := n } oat inlet outlet)
      (SimMap.perUnit { m with numUnits := k } oat inlet outlet) := by
  have hn' : (0 : K) < n := by exact_mod_cast hn
  have hk' : (0 : K) < k := by exact_mod_cast hk
  have her : Proportional
      (do let er ← SimMap.erPerUnit { m with numUnits := n }; return (er, er))
      (do let er ← SimMap.erPerUnit { m with numUnits := k }; return (er, er)) := by
    unfold SimMap.erPerUnit
    cases hnom : m.nominal with
    | some nom =>
      refine ⟨n / k, by positivity, ?_⟩
      simp only [fdiv_ok _ hn'.ne', fdiv_ok _ hk'.ne', ok_bind, pure_eq_ok, Except.map,
        Except.ok.injEq, Prod.mk.injEq]
      constructor <;> field_simp
    | none => exact proportional_refl _
  unfold SimMap.perUnit
  cases oat with
  | none => exact proportional_refl _
  | some oat =>
    dsimp only
    match hm : m.entries with
    | [] => simpa only [hm] using her
    | [e] => exact proportional_refl _
    | e :: f :: l =>
      simp only
      cases hf : List.findIdx? (fun e => decide (oat < e.t)) (e :: f :: l) with
      | none => exact proportional_refl _
      | some i =>
        cases i with
        | zero => simpa only [hm] using her
        | succ i => exact proportional_refl _

theorem pkl_proportional (m : PklMap K) {n k : ℕ} (hn : 0 < n) (hk : 0 < k) (oat : Option K)
    (inlet outlet : K) :
    Proportional (PklMap.perUnit { m with numUnits := n } oat inlet outlet)
      (PklMap.perUnit { m with numUnits := k } oat inlet outlet) := by
  have hn' : (0 : K) < n := by exact_mod_cast hn
  have hk' : (0 : K) < k := by exact_mod_cast hk
  have her : ∀ d : K, Proportional
      (do let er ← PklMap.erPerUnit { m with numUnits := n }; return (er, er / d))
      (do let er ← PklMap.erPerUnit { m with numUnits := k }; return (er, er / d)) := by
    intro d
    unfold PklMap.erPerUnit
    cases hnom : m.nominal with
    | some nom =>
      refine ⟨n / k, by positivity, ?_⟩
      simp only [fdiv_ok _ hn'.ne', fdiv_ok _ hk'.ne', ok_bind, pure_eq_ok, Except.map,
        Except.ok.injEq, Prod.mk.injEq]
      constructor <;> field_simp
    | none => exact proportional_refl _
  unfold PklMap.perUnit
  cases oat with
  | none => exact proportional_refl _
  | some oat =>
    dsimp only
    cases hmax : pyGet m.oats (m.oats.length - 1) with
    | error e => exact proportional_refl _
    | ok oatMax =>
      simp only [ok_bind]
      split
      · exact proportional_refl _
      · have hraw : PklMap.rawQuery { m with numUnits := k } inlet outlet oat =
            PklMap.rawQuery { m with numUnits := n } inlet outlet oat := rfl
        rw [hraw]
        cases PklMap.rawQuery { m with numUnits := n } inlet outlet oat with
        | some r => exact proportional_refl _
        | none =>
          simp only
          cases hmin : pyGet m.oats 0 with
          | error e => exact proportional_refl _
          | ok oatMin =>
            simp only [ok_bind]
            split
            · simpa only [div_one] using her 1
            · have hfc : PklMap.forceClosest { m with numUnits := k } inlet outlet oat =
                PklMap.forceClosest { m with numUnits := n } inlet outlet oat := rfl
              rw [hfc]
              cases PklMap.forceClosest { m with numUnits := n } inlet outlet oat with
              | error e => exact proportional_refl _
              | ok o =>
                cases o with
                | some r => exact proportional_refl _
                | none => exact her (3 / 2)

/-- The COP as a function of a per-unit result, for maps with `n` units whose pair is in
kBTU/hr (`u = wToKbtuh`) or kW (`u = 1`) respectively. -/
theorem cop_of_proportional {a b : Py (K × K)} (h : Proportional a b) {n k : ℕ} (hn : 0 < n)
    (hk : 0 < k) (u v : K) :
    (b >>= fun r => if r.2 * v * k ≤ 0 then (.ok none : Py (Option K))
        else .ok (some (r.1 * u * k / wToKbtuh K / (r.2 * v * k)))) =
    (a >>= fun r => if r.2 * v * n ≤ 0 then (.ok none : Py (Option K))
        else .ok (some (r.1 * u * n / wToKbtuh K / (r.2 * v * n)))) := by
  have hn' : (0 : K) < n := by exact_mod_cast hn
  have hk' : (0 : K) < k := by exact_mod_cast hk
  have hw := wToKbtuh_pos (K := K)
  obtain ⟨r, hr, rfl⟩ := h
  cases a with
  | error e => rfl
  | ok x =>
    obtain ⟨o, i⟩ := x
    simp only [Except.map, ok_bind]
    have e1 : r * i * v * k ≤ 0 ↔ i * v * n ≤ 0 := by
      have e : r * i * v * k = (r * k) * (i * v) := by ring
      rw [e, mul_comm (i * v)]
      have p1 : 0 < r * k := by positivity
      constructor
      · intro h
        have : i * v ≤ 0 := by
          by_contra hc
          exact absurd h (not_le.mpr (mul_pos p1 (not_le.mp hc)))
        exact mul_nonpos_of_nonneg_of_nonpos hn'.le this
      · intro h
        have : i * v ≤ 0 := by
          by_contra hc
          exact absurd h (not_le.mpr (mul_pos hn' (not_le.mp hc)))
        exact mul_nonpos_of_nonneg_of_nonpos p1.le this
    by_cases hc : i * v * n ≤ 0
    · rw [if_pos hc, if_pos (e1.mpr hc)]
    · rw [if_neg hc, if_neg (fun h => hc (e1.mp h))]
      have hiv : i * v * n ≠ 0 := ne_of_gt (not_le.mp hc)
      have hi : i ≠ 0 := by rintro rfl; simp at hiv
      have hv : v ≠ 0 := by rintro rfl; simp at hiv
      simp only [Except.ok.injEq, Option.some.injEq]
      field_simp

/-- **C27 (scaling).** The COP does not depend on the number of units. -/
theorem C27_units_irrelevant (m : PerfMap K) (n k : ℕ) (hn : 0 < n) (hk : 0 < k) (oat : Option K)
    (outlet : K) (inlet : Option K) :
    (m.withUnits n).getCop oat outlet inlet = (m.withUnits k).getCop oat outlet inlet := by
  have hw := (wToKbtuh_pos (K := K)).ne'
  cases m with
  | nominal cap => rfl
  | pkl m =>
    have key : ∀ j : ℕ, (PerfMap.withUnits (.pkl m) j).getCop oat outlet inlet =
        (PklMap.perUnit { m with numUnits := j } oat (m.resolveTemps outlet inlet).1
          (m.resolveTemps outlet inlet).2 >>= fun r =>
          if r.2 * 1 * j ≤ 0 then (.ok none : Py (Option K))
          else .ok (some (r.1 * wToKbtuh K * j / wToKbtuh K / (r.2 * 1 * j)))) := by
      intro j
      simp only [PerfMap.withUnits, PerfMap.getCop, PerfMap.getCapacity, PerfMap.getPower,
        PklMap.getCapacity, PklMap.getPower]
      have hres : PklMap.resolveTemps { m with numUnits := j } outlet inlet = m.resolveTemps outlet inlet := rfl
      rw [hres]
      cases PklMap.perUnit { m with numUnits := j } oat (m.resolveTemps outlet inlet).1
          (m.resolveTemps outlet inlet).2 with
      | error e => rfl
      | ok r =>
        simp only [ok_bind, pure_eq_ok, mul_one]
        rw [mul_right_comm r.1]
    rw [key n, key k]
    exact (cop_of_proportional (pkl_proportional m hn hk oat _ _) hn hk _ _).symm
  | sim m =>
    have key : ∀ j : ℕ, (PerfMap.withUnits (.sim m) j).getCop oat outlet inlet =
        (SimMap.perUnit { m with numUnits := j } oat (inlet.getD m.designInlet) outlet >>= fun r =>
          if r.2 * (wToKbtuh K)⁻¹ * j ≤ 0 then (.ok none : Py (Option K))
          else .ok (some (r.1 * 1 * j / wToKbtuh K / (r.2 * (wToKbtuh K)⁻¹ * j)))) := by
      intro j
      simp only [PerfMap.withUnits, PerfMap.getCop, PerfMap.getCapacity, PerfMap.getPower,
        SimMap.getCapacity, SimMap.getPower]
      cases SimMap.perUnit { m with numUnits := j } oat (inlet.getD m.designInlet) outlet with
      | error e => rfl
      | ok r =>
        simp only [ok_bind, pure_eq_ok, mul_one, div_eq_mul_inv]
    rw [key n, key k]
    exact (cop_of_proportional (sim_proportional m hn hk oat _ _) hn hk _ _).symm

/-- Non-vacuity of C27. -/
example : (PerfMap.sim Demo.simMap).getCop (some 40) 140 (some 50) = .ok (some 2) ∧
    ((PerfMap.sim Demo.simMap).withUnits 7).getCop (some 40) 140 (some 50) = .ok (some 2) ∧
    (PerfMap.nominal (100 : ℚ)).getCop (some 40) 140 none = .ok none := by
  decide +kernel

/-! ## C28 -/

namespace Spec

/-- A well-formed grid map: tabulated outdoor temperatures in order, one non-empty row of inlet
temperatures in order for each, and outlet temperatures for each inlet. -/
structure GoodGrid (m : PklMap K) : Prop where
  some : m.oats ≠ []
  sorted : m.oats.Pairwise (· < ·)
  rows : m.grid.length = m.oats.length
  filled : ∀ row ∈ m.grid, row ≠ [] ∧ row.Pairwise (fun a b => a.1 < b.1) ∧ ∀ e ∈ row, e.2 ≠ []
  units : m.numUnits ≠ 0

/-- `t` is a tabulated value nearest to `x`. -/
def Nearest (l : List K) (x t : K) : Prop := t ∈ l ∧ ∀ s ∈ l, |t - x| ≤ |s - x|

/-- `e` is the entry of the row with the least inlet temperature not below `x`; if there is none, the
entry with the greatest. -/
def InletFor (row : List (K × List K)) (x : K) (e : K × List K) : Prop :=
  e ∈ row ∧ ((x ≤ e.1 ∧ ∀ d ∈ row, x ≤ d.1 → e.1 ≤ d.1) ∨
    ((∀ d ∈ row, d.1 < x) ∧ ∀ d ∈ row, d.1 ≤ e.1))

/-- The correction applied when the tabulated outlet is colder than the one asked for. -/
def adjusted (si so outlet : K) (r : K × K) : K × K :=
  if so < outlet ∧ si < outlet then
    (r.1 + r.1 * (outlet - so) / (outlet - si), r.2 + r.1 * (outlet - so) / (outlet - si))
  else r

/-- The electric backup per unit in kW. -/
def backup (m : PklMap K) : K :=
  match m.nominal with
  | .some n => n / m.numUnits / wToKbtuh K
  | .none => m.outLow

end Spec

theorem nearestLoop_spec (x : K) (ts : List K) (i : ℕ) (best : K) (idx : ℕ) :
    (PklMap.nearestLoop x ts i best idx = idx ∧ ∀ t ∈ ts, best ≤ |t - x|) ∨
    ∃ k, ∃ h : k < ts.length, PklMap.nearestLoop x ts i best idx = i + k ∧ |ts[k] - x| < best ∧
      ∀ t ∈ ts, |ts[k] - x| ≤ |t - x| := by
  induction ts generalizing i best idx with
  | nil => left; simp [PklMap.nearestLoop]
  | cons a ts ih =>
    unfold PklMap.nearestLoop
    split
    · rename_i hlt
      rcases ih (i + 1) |a - x| i with ⟨h1, h2⟩ | ⟨k, hk, h1, h2, h3⟩
      · right
        refine ⟨0, by simp, by rw [h1]; rfl, by simpa using hlt, ?_⟩
        intro t ht
        rcases List.mem_cons.mp ht with rfl | ht
        · simp
        · simpa using h2 t ht
      · right
        refine ⟨k + 1, by simpa using hk, by rw [h1]; omega, ?_, ?_⟩
        · simpa using h2.trans hlt
        · intro t ht
          rcases List.mem_cons.mp ht with rfl | ht
          · simpa using h2.le
          · simpa using h3 t ht
    · rename_i hge
      rcases ih (i + 1) best idx with ⟨h1, h2⟩ | ⟨k, hk, h1, h2, h3⟩
      · left
        refine ⟨h1, ?_⟩
        intro t ht
        rcases List.mem_cons.mp ht with rfl | ht
        · exact not_lt.mp hge
        · exact h2 t ht
      · right
        refine ⟨k + 1, by simpa using hk, by rw [h1]; omega, by simpa using h2, ?_⟩
        intro t ht
        rcases List.mem_cons.mp ht with rfl | ht
        · simpa using h2.le.trans (not_lt.mp hge)
        · simpa using h3 t ht

theorem nearestInletLoop_spec (x : K) (es : List (K × List K)) (i : ℕ) (best : K) (idx : ℕ) :
    (PklMap.nearestInletLoop x es i best idx = idx ∧ ∀ e ∈ es, x ≤ e.1 → best ≤ |e.1 - x|) ∨
    ∃ k, ∃ h : k < es.length, PklMap.nearestInletLoop x es i best idx = i + k ∧ x ≤ es[k].1 ∧
      |es[k].1 - x| < best ∧ ∀ e ∈ es, x ≤ e.1 → |es[k].1 - x| ≤ |e.1 - x| := by
  induction es generalizing i best idx with
  | nil => left; simp [PklMap.nearestInletLoop]
  | cons a es ih =>
    unfold PklMap.nearestInletLoop
    split
    · rename_i hlt
      rcases ih (i + 1) |a.1 - x| i with ⟨h1, h2⟩ | ⟨k, hk, h1, h4, h2, h3⟩
      · right
        refine ⟨0, by simp, by rw [h1]; rfl, by simpa using hlt.2, by simpa using hlt.1, ?_⟩
        intro t ht hx
        rcases List.mem_cons.mp ht with rfl | ht
        · simp
        · simpa using h2 t ht hx
      · right
        refine ⟨k + 1, by simpa using hk, by rw [h1]; omega, by simpa using h4, ?_, ?_⟩
        · simpa using h2.trans hlt.1
        · intro t ht hx
          rcases List.mem_cons.mp ht with rfl | ht
          · simpa using h2.le
          · simpa using h3 t ht hx
    · rename_i hge
      rcases ih (i + 1) best idx with ⟨h1, h2⟩ | ⟨k, hk, h1, h4, h2, h3⟩
      · left
        refine ⟨h1, ?_⟩
        intro t ht hx
        rcases List.mem_cons.mp ht with rfl | ht
        · exact not_lt.mp (fun h => hge ⟨h, hx⟩)
        · exact h2 t ht hx
      · right
        refine ⟨k + 1, by simpa using hk, by rw [h1]; omega, by simpa using h4, by simpa using h2, ?_⟩
        intro t ht hx
        rcases List.mem_cons.mp ht with rfl | ht
        · simpa using h2.le.trans (not_lt.mp (fun h => hge ⟨h, hx⟩))
        · simpa using h3 t ht hx

theorem idxNearestOat_spec (m : PklMap K) (g : GoodGrid m) (oat : K) :
    ∃ k, ∃ h : k < m.oats.length, m.idxNearestOat oat = .ok k ∧ Nearest m.oats oat m.oats[k] := by
  unfold PklMap.idxNearestOat
  match hm : m.oats with
  | [] => exact absurd hm g.some
  | t :: ts =>
    rcases nearestLoop_spec oat ts 1 |t - oat| 0 with ⟨h1, h2⟩ | ⟨k, hk, h1, h2, h3⟩
    · refine ⟨0, by simp, by simp only [h1], by simp, ?_⟩
      intro s hs
      rcases List.mem_cons.mp hs with rfl | hs
      · simp
      · simpa using h2 s hs
    · refine ⟨k + 1, by simpa using hk, by simp only [h1, Nat.add_comm], by simp, ?_⟩
      intro s hs
      rcases List.mem_cons.mp hs with rfl | hs
      · simpa using h2.le
      · simpa using h3 s hs

theorem idxNearestInlet_spec (row : List (K × List K)) (hne : row ≠ [])
    (hs : row.Pairwise (fun a b => a.1 < b.1)) (x : K) :
    ∃ k, ∃ h : k < row.length, PklMap.idxNearestInlet row x = .ok k ∧ InletFor row x row[k] := by
  have hlen : 0 < row.length := List.length_pos_iff.mpr hne
  have hlast : row.getLast? = some (row[row.length - 1]'(by omega)) := by
    rw [List.getLast?_eq_getElem?]; simp
  have hle : ∀ d ∈ row, d.1 ≤ (row[row.length - 1]'(by omega)).1 := by
    intro d hd
    obtain ⟨j, hj, rfl⟩ := List.getElem_of_mem hd
    rcases Nat.lt_or_eq_of_le (by omega : j ≤ row.length - 1) with h | h
    · exact (List.pairwise_iff_getElem.mp hs j _ hj (by omega) h).le
    · subst h; exact le_rfl
  unfold PklMap.idxNearestInlet
  rw [hlast]
  rcases nearestInletLoop_spec x row 0 |(row[row.length - 1]'(by omega)).1 - x| (row.length - 1) with
    ⟨h1, h2⟩ | ⟨k, hk, h1, h4, h2, h3⟩
  · refine ⟨row.length - 1, by omega, by simp only [h1], List.getElem_mem _, ?_⟩
    by_cases hx : x ≤ (row[row.length - 1]'(by omega)).1
    · left
      refine ⟨hx, ?_⟩
      intro d hd hxd
      have := h2 d hd hxd
      rw [abs_of_nonneg (by linarith), abs_of_nonneg (by linarith)] at this
      linarith
    · right
      refine ⟨?_, hle⟩
      intro d hd
      exact lt_of_le_of_lt (hle d hd) (not_le.mp hx)
  · refine ⟨k, hk, by simp only [h1, Nat.zero_add], List.getElem_mem _, Or.inl ⟨h4, ?_⟩⟩
    intro d hd hxd
    have := h3 d hd hxd
    rw [abs_of_nonneg (by linarith), abs_of_nonneg (by linarith)] at this
    linarith

theorem nearestOutlet_spec (oat0 : K) (outs : List K) (hne : outs ≠ []) (x : K) :
    ∃ o, PklMap.nearestOutlet oat0 outs x = .ok o ∧ o ∈ outs ∧
      ((∃ s ∈ outs, |s - x| < |oat0 - x|) → Nearest outs x o) := by
  have hlen : 0 < outs.length := List.length_pos_iff.mpr hne
  unfold PklMap.nearestOutlet
  rcases nearestLoop_spec x outs 0 |oat0 - x| 0 with ⟨h1, h2⟩ | ⟨k, hk, h1, h2, h3⟩
  · rw [h1, pyGet_of_lt hlen]
    refine ⟨_, rfl, List.getElem_mem _, ?_⟩
    rintro ⟨s, hs, hlt⟩
    exact absurd (h2 s hs) (not_le.mpr hlt)
  · rw [h1, Nat.zero_add, pyGet_of_lt hk]
    exact ⟨_, rfl, List.getElem_mem _, fun _ => ⟨List.getElem_mem _, h3⟩⟩

theorem erPerUnit_backup (m : PklMap K) (g : GoodGrid m) : m.erPerUnit = .ok (backup m) := by
  have : (m.numUnits : K) ≠ 0 := Nat.cast_ne_zero.mpr g.units
  unfold PklMap.erPerUnit backup
  cases m.nominal with
  | none => rfl
  | some n => simp [fdiv_ok _ this]

/-- **C28.** The lookup of a well-formed grid map never fails, and its result (kW per unit) is, in this
order: the high default at or above the greatest tabulated outdoor temperature; the interpolated pair
if defined; the COP-1 backup below the least tabulated temperature; the pair at the
nearest tabulated outdoor temperature and the next inlet temperature of its row, first for the outlet
asked for, then (corrected for a colder outlet) for a tabulated outlet of that entry; the COP-1.5 default. -/
theorem C28_fallback_order (m : PklMap K) (g : GoodGrid m) (lo hi : K)
    (hlo : IsLeast {t | t ∈ m.oats} lo) (hhi : IsGreatest {t | t ∈ m.oats} hi)
    (oat inlet outlet : K) :
    ∃ r, m.perUnit (some oat) inlet outlet = .ok r ∧
      (hi ≤ oat → r = (m.outHigh, m.inHigh)) ∧
      (oat < hi → ∀ q, m.rawQuery inlet outlet oat = some q → r = q) ∧
      (oat < hi → m.rawQuery inlet outlet oat = none → oat < lo → r = (backup m, backup m)) ∧
      (oat < hi → m.rawQuery inlet outlet oat = none → lo ≤ oat →
        ∃ k, ∃ h : k < m.oats.length, ∃ h' : k < m.grid.length, Nearest m.oats oat m.oats[k] ∧
        ∃ e, InletFor m.grid[k] inlet e ∧
          (∀ q, m.rawQuery e.1 outlet m.oats[k] = some q → r = q) ∧
          (m.rawQuery e.1 outlet m.oats[k] = none → ∃ so ∈ e.2,
            ((∃ s ∈ e.2, |s - outlet| < |lo - outlet|) → Nearest e.2 outlet so) ∧
            (∀ q, m.rawQuery e.1 so m.oats[k] = some q → r = adjusted e.1 so outlet q) ∧
            (m.rawQuery e.1 so m.oats[k] = none → r = (backup m, backup m / (3 / 2))))) := by
  have hlen : 0 < m.oats.length := List.length_pos_iff.mpr g.some
  have hle : ∀ i j (hj : j < m.oats.length) (hij : i ≤ j), (m.oats[i]'(by omega)) ≤ m.oats[j] := by
    intro i j hj hij
    rcases Nat.lt_or_eq_of_le hij with h | h
    · exact (List.pairwise_iff_getElem.mp g.sorted i j _ hj h).le
    · subst h; exact le_rfl
  have e0 : m.oats[0] = lo := by
    apply le_antisymm
    · obtain ⟨j, hj, e⟩ := List.getElem_of_mem hlo.1
      rw [← e]; exact hle 0 j hj (by omega)
    · exact hlo.2 (List.getElem_mem hlen)
  have e1 : (m.oats[m.oats.length - 1]'(by omega)) = hi := by
    apply le_antisymm
    · exact hhi.2 (List.getElem_mem _)
    · obtain ⟨j, hj, e⟩ := List.getElem_of_mem hhi.1
      rw [← e]; exact hle j _ (by omega) (by omega)
  unfold PklMap.perUnit
  simp only [pyGet_of_lt (by omega : m.oats.length - 1 < m.oats.length), ok_bind, e1]
  by_cases hge : hi ≤ oat
  · simp only [if_pos hge]
    exact ⟨_, rfl, fun _ => rfl, fun h => absurd hge (not_le.mpr h), fun h => absurd hge (not_le.mpr h),
      fun h => absurd hge (not_le.mpr h)⟩
  simp only [if_neg hge]
  cases hraw : m.rawQuery inlet outlet oat with
  | some q =>
    exact ⟨q, rfl, fun h => absurd h hge, fun _ q' h => by simpa using h, fun _ h => by simp at h,
      fun _ h => by simp at h⟩
  | none =>
    simp only [pyGet_of_lt hlen, ok_bind, e0]
    by_cases hlt : oat < lo
    · rw [if_pos hlt, erPerUnit_backup m g]
      exact ⟨_, rfl, fun h => absurd h hge, fun _ q h => by simp at h, fun _ _ _ => rfl,
        fun _ _ h => absurd hlt (not_lt.mpr h)⟩
    rw [if_neg hlt]
    obtain ⟨k, hk, hk1, hk2⟩ := idxNearestOat_spec m g oat
    have hk' : k < m.grid.length := by rw [g.rows]; exact hk
    obtain ⟨f1, f2, f3⟩ := g.filled _ (List.getElem_mem hk')
    obtain ⟨j, hj, hj1, hj2⟩ := idxNearestInlet_spec m.grid[k] f1 f2 inlet
    obtain ⟨so, ho1, ho2, ho3⟩ := nearestOutlet_spec lo m.grid[k][j].2 (f3 _ (List.getElem_mem hj)) outlet
    unfold PklMap.forceClosest
    simp only [hk1, ok_bind, pyGet_of_lt hk', hj1, pyGet_of_lt hk, pyGet_of_lt hj, pyGet_of_lt hlen, e0]
    cases hraw2 : m.rawQuery m.grid[k][j].1 outlet m.oats[k] with
    | some q =>
      refine ⟨q, rfl, fun h => absurd h hge, fun _ q h => by simp at h, fun _ _ h => absurd h hlt,
        fun _ _ _ => ⟨k, hk, hk', hk2, _, hj2, ?_, ?_⟩⟩
      · intro q' h; rw [hraw2] at h; simpa using h
      · intro h; rw [hraw2] at h; simp at h
    | none =>
      simp only [ho1, ok_bind]
      cases hraw3 : m.rawQuery m.grid[k][j].1 so m.oats[k] with
      | none =>
        simp only [pure_eq_ok, ok_bind, erPerUnit_backup m g]
        refine ⟨_, rfl, fun h => absurd h hge, fun _ q h => by simp at h, fun _ _ h => absurd h hlt,
          fun _ _ _ => ⟨k, hk, hk', hk2, _, hj2, ?_, ?_⟩⟩
        · intro q' h; rw [hraw2] at h; simp at h
        · intro _
          refine ⟨so, ho2, ho3, ?_, fun _ => rfl⟩
          intro q h; rw [hraw3] at h; simp at h
      | some q =>
        refine ⟨adjusted m.grid[k][j].1 so outlet q, ?_, fun h => absurd h hge,
          fun _ q h => by simp at h, fun _ _ h => absurd h hlt,
          fun _ _ _ => ⟨k, hk, hk', hk2, _, hj2, ?_, ?_⟩⟩
        · unfold adjusted
          obtain ⟨o, i⟩ := q
          dsimp only
          by_cases hc : so < outlet ∧ m.grid[k][j].1 < outlet
          · simp only [if_pos hc, pure_eq_ok, ok_bind, sub_sub_sub_cancel_right]
          · simp only [if_neg hc, pure_eq_ok, ok_bind]
        · intro q' h; rw [hraw2] at h; simp at h
        · intro _
          refine ⟨so, ho2, ho3, ?_, ?_⟩
          · intro q' h; rw [hraw3] at h; simp only [Option.some.injEq] at h; rw [h]
          · intro h; rw [hraw3] at h; simp at h

/-- **C28 (reported values).** Capacity and power of a well-formed map are always defined: the pair of
`C28_fallback_order` at the resolved temperatures, times the number of units, in kBTU/hr and kW. -/
theorem C28_total (m : PklMap K) (g : GoodGrid m) (oat outlet : K) (inlet : Option K) :
    ∃ r, m.perUnit (some oat) (m.resolveTemps outlet inlet).1 (m.resolveTemps outlet inlet).2 = .ok r ∧
      m.getCapacity (some oat) outlet inlet = .ok (r.1 * m.numUnits * wToKbtuh K) ∧
      m.getPower (some oat) outlet inlet = .ok (r.2 * m.numUnits) := by
  have hlen : 0 < m.oats.length := List.length_pos_iff.mpr g.some
  have hle : ∀ i j (hj : j < m.oats.length) (hij : i ≤ j), (m.oats[i]'(by omega)) ≤ m.oats[j] := by
    intro i j hj hij
    rcases Nat.lt_or_eq_of_le hij with h | h
    · exact (List.pairwise_iff_getElem.mp g.sorted i j _ hj h).le
    · subst h; exact le_rfl
  have hlo : IsLeast {t | t ∈ m.oats} m.oats[0] := by
    refine ⟨List.getElem_mem _, ?_⟩
    intro t ht
    obtain ⟨j, hj, rfl⟩ := List.getElem_of_mem ht
    exact hle 0 j hj (by omega)
  have hhi : IsGreatest {t | t ∈ m.oats} (m.oats[m.oats.length - 1]'(by omega)) := by
    refine ⟨List.getElem_mem _, ?_⟩
    intro t ht
    obtain ⟨j, hj, rfl⟩ := List.getElem_of_mem ht
    exact hle j _ (by omega) (by omega)
  obtain ⟨r, h, _⟩ := C28_fallback_order m g _ _ hlo hhi oat (m.resolveTemps outlet inlet).1
    (m.resolveTemps outlet inlet).2
  refine ⟨r, h, ?_, ?_⟩
  · unfold PklMap.getCapacity; simp only [h, ok_bind, pure_eq_ok]
  · unfold PklMap.getPower; simp only [h, ok_bind, pure_eq_ok]

/-- The "nearest outlet" of the closest-point search is not always nearest: the search starts from the
distance to the least tabulated outdoor temperature, so here 160 is taken for 50 although
120 is tabulated. -/
theorem C28_outlet_not_nearest :
    PklMap.nearestOutlet (40 : ℚ) [160, 120] 50 = .ok 160 ∧ ¬ Nearest [160, 120] (50 : ℚ) 160 := by
  refine ⟨by decide +kernel, ?_⟩
  rintro ⟨_, h⟩
  have := h 120 (by simp)
  norm_num [abs] at this

namespace Demo

/-- A grid map with two outdoor temperatures and no interpolated value except at its nodes. -/
def pklMap : PklMap ℚ where
  outInterp := fun row => if row = [60, 140, 40] then some 10 else none
  inInterp := fun row => if row = [60, 140, 40] then some 4 else none
  oats := [40, 80]
  grid := [[(50, [120, 140]), (60, [120, 140])], [(50, [120, 140])]]
  inletMax := 100
  outHigh := 20
  inHigh := 5
  outLow := 8
  numUnits := 1
  twoInput := false
  secondaryHx := false
  hxIncrease := 0
  nominal := none
  designInlet := 50

end Demo

/-- Non-vacuity of C28: the demo map is well-formed and reaches all the fallbacks. -/
example : GoodGrid Demo.pklMap ∧
    Demo.pklMap.perUnit (some 90) 60 140 = .ok (20, 5) ∧
    Demo.pklMap.perUnit (some 40) 60 140 = .ok (10, 4) ∧
    Demo.pklMap.perUnit (some 30) 60 140 = .ok (8, 8) ∧
    Demo.pklMap.perUnit (some 45) 55 140 = .ok (10, 4) ∧
    Demo.pklMap.perUnit (some 45) 55 150 = .ok (100/9, 46/9) ∧
    Demo.pklMap.perUnit (some 70) 55 140 = .ok (8, 16/3) := by
  refine ⟨⟨by decide, by decide +kernel, by decide, ?_, by decide⟩, by decide +kernel,
    by decide +kernel, by decide +kernel, by decide +kernel, by decide +kernel, by decide +kernel⟩
  intro row hrow
  simp only [Demo.pklMap, List.mem_cons, List.not_mem_nil, or_false] at hrow
  rcases hrow with rfl | rfl
  · refine ⟨by simp, by decide +kernel, by decide⟩
  · refine ⟨by simp, by decide +kernel, by decide⟩

end Eco
