import Verif.Model.Sizing
import Mathlib.Algebra.BigOperators.Intervals
import Mathlib.Algebra.Order.BigOperators.Group.Finset
import Mathlib.Tactic.Linarith
import Mathlib.Tactic.Ring

/-! Helper lemmas about running sums, folds with `max`, and windows of a periodic sequence. -/

set_option linter.unusedSectionVars false

namespace Eco
open Finset

variable {K : Type} [Field K] [LinearOrder K] [IsStrictOrderedRing K]

/-! ### cumsum -/

theorem length_cumsumFrom (a : K) (l : List K) : (cumsumFrom a l).length = l.length := by
  induction l generalizing a with
  | nil => rfl
  | cons x xs ih => simp [cumsumFrom, ih]

theorem mem_cumsumFrom {a : K} {l : List K} {x : K} :
    x ∈ cumsumFrom a l ↔ ∃ k < l.length, x = a + ((l.take (k + 1)).sum) := by
  induction l generalizing a with
  | nil => simp [cumsumFrom]
  | cons y ys ih =>
    simp only [cumsumFrom, List.mem_cons, ih, List.length_cons]
    constructor
    · rintro (h | ⟨k, hk, h⟩)
      · exact ⟨0, by omega, by simp [h]⟩
      · exact ⟨k + 1, by omega, by rw [h]; simp [add_assoc]⟩
    · rintro ⟨k, hk, h⟩
      cases k with
      | zero => left; simpa using h
      | succ k => right; exact ⟨k, by omega, by rw [h]; simp [add_assoc]⟩

theorem mem_cumsum {l : List K} {x : K} :
    x ∈ cumsum l ↔ ∃ k < l.length, x = (l.take (k + 1)).sum := by
  simp [cumsum, mem_cumsumFrom]

theorem worstNegative_nonneg (l : List K) : 0 ≤ worstNegative l := by
  unfold worstNegative
  split
  · exact le_refl _
  · rename_i m hm
    have := List.min?_mem hm
    simp at this
    linarith [this.2]

theorem worstNegative_ge {l : List K} {x : K} (hx : x ∈ l) : -x ≤ worstNegative l := by
  unfold worstNegative
  split
  · rename_i h
    rw [List.min?_eq_none_iff] at h
    have : ¬ (x < 0) := by
      intro hlt
      have : x ∈ l.filter (fun x => decide (x < 0)) := by simp [hx, hlt]
      rw [h] at this; simp at this
    linarith
  · rename_i m hm
    by_cases hlt : x < 0
    · have hmem : x ∈ l.filter (fun x => decide (x < 0)) := by simp [hx, hlt]
      have := (List.min?_eq_some_iff.mp hm).2 x hmem
      linarith
    · have := List.min?_mem hm
      simp at this
      linarith [this.2]

theorem worstNegative_attained (l : List K) : worstNegative l = 0 ∨ ∃ x ∈ l, worstNegative l = -x := by
  unfold worstNegative
  split
  · left; rfl
  · rename_i m hm
    right
    have := List.min?_mem hm
    simp at this
    exact ⟨m, this.1, rfl⟩

/-! ### folds with `max` -/

theorem le_foldl_max {α : Type} (f : α → K) (l : List α) (a : K) :
    a ≤ l.foldl (fun r x => max r (f x)) a := by
  induction l generalizing a with
  | nil => simp
  | cons x xs ih => exact le_trans (le_max_left _ _) (ih _)

theorem le_foldl_max_of_mem {α : Type} (f : α → K) {l : List α} (a : K) {x : α} (hx : x ∈ l) :
    f x ≤ l.foldl (fun r x => max r (f x)) a := by
  induction l generalizing a with
  | nil => simp at hx
  | cons y ys ih =>
    rcases List.mem_cons.mp hx with rfl | h
    · exact le_trans (le_max_right _ _) (le_foldl_max f ys _)
    · exact ih _ h

theorem foldl_max_attained {α : Type} (f : α → K) (l : List α) (a : K) :
    l.foldl (fun r x => max r (f x)) a = a ∨ ∃ x ∈ l, l.foldl (fun r x => max r (f x)) a = f x := by
  induction l generalizing a with
  | nil => simp
  | cons y ys ih =>
    rcases ih (max a (f y)) with h | ⟨x, hx, h⟩
    · rcases max_choice a (f y) with h' | h'
      · left; simp only [List.foldl_cons]; rw [h, h']
      · right; exact ⟨y, by simp, by simp only [List.foldl_cons]; rw [h, h']⟩
    · right; exact ⟨x, by simp [hx], h⟩

/-- The loop body of the running volume is `max rv (worstNegative …)` as long as `rv` is not
negative. -/
theorem runningVolumeOfDiff_eq (d : List K) :
    runningVolumeOfDiff d = (peakIndices d).foldl
      (fun rv idx => max rv (worstNegative (cumsum ((d ++ d).drop idx)))) 0 := by
  unfold runningVolumeOfDiff
  have key : ∀ (l : List Nat) (rv : K), 0 ≤ rv →
      l.foldl (fun rv idx =>
        match ((cumsum ((d ++ d).drop idx)).filter (fun x => decide (x < 0))).min? with
        | none => rv
        | some m => max rv (-m)) rv =
      l.foldl (fun rv idx => max rv (worstNegative (cumsum ((d ++ d).drop idx)))) rv := by
    intro l
    induction l with
    | nil => intro rv _; rfl
    | cons i is ih =>
      intro rv hrv
      simp only [List.foldl_cons]
      have hstep : (match ((cumsum ((d ++ d).drop i)).filter (fun x => decide (x < 0))).min? with
        | none => rv
        | some m => max rv (-m)) = max rv (worstNegative (cumsum ((d ++ d).drop i))) := by
        unfold worstNegative
        cases ((cumsum ((d ++ d).drop i)).filter (fun x => decide (x < 0))).min? with
        | none => simp [max_eq_left hrv]
        | some m => rfl
      rw [hstep]
      exact ih _ (le_trans hrv (le_max_left _ _))
  exact key _ _ (le_refl _)

/-! ### windows of a periodic sequence -/

/-- The list `d` repeated for ever. -/
def rep (d : List K) (h : Nat) : K := d.getD (h % d.length) 0

theorem rep_add_length (d : List K) (h : Nat) : rep d (h + d.length) = rep d h := by
  simp [rep]

theorem rep_add_mul (d : List K) (h k : Nat) : rep d (h + d.length * k) = rep d h := by
  simp [rep]

theorem rep_mod (d : List K) (h : Nat) : rep d (h % d.length) = rep d h := by
  simp [rep]

theorem rep_lt (d : List K) {h : Nat} (hh : h < d.length) : rep d h = d[h] := by
  simp [rep, Nat.mod_eq_of_lt hh, hh]

/-- Net gain over the window of `n` hours from hour `s`. -/
def wsum (d : List K) (s n : Nat) : K := ∑ i ∈ range n, rep d (s + i)

theorem wsum_zero (d : List K) (s : Nat) : wsum d s 0 = 0 := by simp [wsum]

theorem wsum_add (d : List K) (s m n : Nat) : wsum d s (m + n) = wsum d s m + wsum d (s + m) n := by
  simp [wsum, sum_range_add, add_assoc]

theorem wsum_succ (d : List K) (s n : Nat) : wsum d s (n + 1) = wsum d s n + rep d (s + n) := by
  simp [wsum, sum_range_succ]

theorem wsum_succ' (d : List K) (s n : Nat) : wsum d s (n + 1) = rep d s + wsum d (s + 1) n := by
  rw [Nat.add_comm n 1, wsum_add]; simp [wsum]

theorem wsum_shift (d : List K) (s n k : Nat) : wsum d (s + d.length * k) n = wsum d s n := by
  apply sum_congr rfl
  intro i _
  rw [show s + d.length * k + i = s + i + d.length * k by ring, rep_add_mul]

theorem wsum_mod (d : List K) (s n : Nat) : wsum d (s % d.length) n = wsum d s n := by
  conv_rhs => rw [← Nat.mod_add_div s d.length]
  rw [wsum_shift]

theorem take_sum_eq_wsum_zero (d : List K) {k : Nat} (h : k ≤ d.length) :
    (d.take k).sum = wsum d 0 k := by
  induction k with
  | zero => simp [wsum]
  | succ k ih =>
    have hlt : k < d.length := by omega
    rw [wsum_succ, ← ih (by omega), List.take_add_one, List.getElem?_eq_getElem hlt]
    simp only [Option.toList_some, List.sum_append, List.sum_cons, List.sum_nil, add_zero, zero_add,
      rep_lt d hlt]

theorem wsum_zero_length (d : List K) : wsum d 0 d.length = d.sum := by
  rw [← take_sum_eq_wsum_zero d (le_refl _), List.take_length]

theorem wsum_length (d : List K) (s : Nat) : wsum d s d.length = d.sum := by
  induction s with
  | zero => exact wsum_zero_length d
  | succ s ih =>
    have h1 := wsum_succ' d s d.length
    have h2 := wsum_succ d s d.length
    rw [rep_add_length] at h2
    rw [← ih]; linarith

theorem take_sum_eq_wsum (d : List K) {p k : Nat} (h : p + k ≤ 2 * d.length) :
    (((d ++ d).drop p).take k).sum = wsum d p k := by
  induction k with
  | zero => simp [wsum]
  | succ k ih =>
    rw [wsum_succ, ← ih (by omega)]
    have hlt : k < ((d ++ d).drop p).length := by simp; omega
    rw [List.take_add_one, List.getElem?_eq_getElem hlt]
    simp only [Option.toList_some, List.sum_append, List.sum_cons, List.sum_nil, add_zero]
    congr 1
    rw [List.getElem_drop, List.getElem_append]
    split
    · rename_i h1; exact (rep_lt d h1).symm
    · rename_i h1
      have : p + k = (p + k - d.length) + d.length := by omega
      conv_rhs => rw [this, rep_add_length]
      exact (rep_lt d (by omega)).symm

/-- Windows can be shortened below a day without losing shortfall when the day breaks even. -/
theorem shorten (d : List K) (hd : d ≠ []) (hS : 0 ≤ d.sum) (s n : Nat) :
    ∃ m < d.length, m ≤ n ∧ wsum d s m ≤ wsum d s n := by
  induction n using Nat.strong_induction_on with
  | _ n ih =>
    by_cases h : n < d.length
    · exact ⟨n, h, le_refl _, le_refl _⟩
    · have hpos : 0 < d.length := List.length_pos_iff.mpr hd
      obtain ⟨m, hm, hmn, hle⟩ := ih (n - d.length) (by omega)
      refine ⟨m, hm, by omega, le_trans hle ?_⟩
      have : n = (n - d.length) + d.length := by omega
      conv_rhs => rw [this, wsum_add, wsum_length]
      linarith

theorem mem_peakIndices {d : List K} {i : Nat} :
    i ∈ peakIndices d ↔ i < d.length ∧ 0 ≤ rep d (i + d.length - 1) ∧ rep d i < 0 := by
  unfold peakIndices
  simp only [List.mem_filter, List.mem_range, Bool.and_eq_true, decide_eq_true_eq]
  constructor
  · rintro ⟨h, h1, h2⟩
    refine ⟨h, h1, ?_⟩
    rw [rep_lt d h]; simpa [List.getD_eq_getElem?_getD, h] using h2
  · rintro ⟨h, h1, h2⟩
    refine ⟨h, h1, ?_⟩
    rw [rep_lt d h] at h2; simpa [List.getD_eq_getElem?_getD, h] using h2

/-- Every window with a shortfall is dominated by a window, shorter than a day, that starts at a
peak index. -/
theorem dominated (d : List K) (hS : 0 ≤ d.sum) (s n : Nat) (hneg : wsum d s n < 0) :
    ∃ p ∈ peakIndices d, ∃ m < d.length, wsum d p m ≤ wsum d s n := by
  have hd : d ≠ [] := by
    rintro rfl
    simp [wsum, rep] at hneg
  have hpos : 0 < d.length := List.length_pos_iff.mpr hd
  -- move right to a start with a deficit
  have right : ∀ n s, wsum d s n < 0 → ∃ s' n', rep d s' < 0 ∧ wsum d s' n' ≤ wsum d s n := by
    intro n
    induction n with
    | zero => intro s h; simp [wsum] at h
    | succ n ih =>
      intro s h
      by_cases hs : rep d s < 0
      · exact ⟨s, n + 1, hs, le_refl _⟩
      · push Not at hs
        rw [wsum_succ'] at h
        obtain ⟨s', n', h1, h2⟩ := ih (s + 1) (by linarith)
        exact ⟨s', n', h1, by rw [wsum_succ']; linarith⟩
  obtain ⟨s1, n1, hs1, hle1⟩ := right n s hneg
  -- there is a non-deficit hour within the day before `s1 + length`
  have exists_nonneg : ∃ t, s1 ≤ t ∧ t < s1 + d.length ∧ 0 ≤ rep d t := by
    by_contra hcon
    push Not at hcon
    have : wsum d s1 d.length < 0 := by
      unfold wsum
      apply Finset.sum_neg
      · intro i hi
        exact hcon (s1 + i) (by omega) (by have := Finset.mem_range.mp hi; omega)
      · exact ⟨0, by simp [hpos]⟩
    rw [wsum_length] at this
    linarith
  -- move left from `s1 + length` to the first deficit hour of its run
  have left : ∀ k s n, rep d s < 0 → (∃ t, s ≤ t + k ∧ t < s ∧ 0 ≤ rep d t) →
      ∃ p m, 0 < p ∧ 0 ≤ rep d (p - 1) ∧ rep d p < 0 ∧ wsum d p m ≤ wsum d s n := by
    intro k
    induction k with
    | zero => rintro s n _ ⟨t, h1, h2, _⟩; omega
    | succ k ih =>
      rintro s n hs ⟨t, h1, h2, h3⟩
      by_cases hp : 0 ≤ rep d (s - 1)
      · exact ⟨s, n, by omega, hp, hs, le_refl _⟩
      · push Not at hp
        have hts : t ≠ s - 1 := by rintro rfl; linarith
        obtain ⟨p, m, a, b, c, e⟩ := ih (s - 1) (n + 1) hp ⟨t, by omega, by omega, h3⟩
        refine ⟨p, m, a, b, c, le_trans e ?_⟩
        rw [wsum_succ', show s - 1 + 1 = s by omega]
        linarith
  obtain ⟨t, ht1, ht2, ht3⟩ := exists_nonneg
  obtain ⟨p, m, hp0, hp1, hp2, hle2⟩ := left d.length (s1 + d.length) n1
    (by rw [rep_add_length]; exact hs1) ⟨t, by omega, by omega, ht3⟩
  have hshift : wsum d (s1 + d.length) n1 = wsum d s1 n1 := by
    have := wsum_shift d s1 n1 1; simpa using this
  obtain ⟨m', hm', _, hle3⟩ := shorten d hd hS p m
  refine ⟨p % d.length, ?_, m', hm', ?_⟩
  · rw [mem_peakIndices]
    refine ⟨Nat.mod_lt _ hpos, ?_, by rw [rep_mod]; exact hp2⟩
    have : rep d (p % d.length + d.length - 1) = rep d (p - 1) := by
      have hdiv := Nat.mod_add_div p d.length
      have : rep d (p % d.length + d.length - 1 + d.length * (p / d.length))
          = rep d (p - 1 + d.length) := by congr 1; omega
      rwa [rep_add_mul, rep_add_length] at this
    rw [this]; exact hp1
  · rw [wsum_mod]
    linarith

theorem runningVolumeOfDiff_nonneg (d : List K) : 0 ≤ runningVolumeOfDiff d := by
  rw [runningVolumeOfDiff_eq]; exact le_foldl_max _ _ _

/-- The running volume dominates every window. -/
theorem wsum_ge_neg_runningVolume (d : List K) (hS : 0 ≤ d.sum) (s n : Nat) :
    -wsum d s n ≤ runningVolumeOfDiff d := by
  by_cases h : wsum d s n < 0
  · obtain ⟨p, hp, m, hm, hle⟩ := dominated d hS s n h
    have hp' := mem_peakIndices.mp hp
    cases m with
    | zero => rw [wsum_zero] at hle; linarith
    | succ m =>
      have hmem : wsum d p (m + 1) ∈ cumsum ((d ++ d).drop p) := by
        rw [mem_cumsum]
        refine ⟨m, by simp; omega, ?_⟩
        rw [take_sum_eq_wsum d (by omega)]
      have h1 := worstNegative_ge hmem
      have h2 := le_foldl_max_of_mem (fun idx => worstNegative (cumsum ((d ++ d).drop idx))) 0 hp
      rw [runningVolumeOfDiff_eq]
      linarith
  · push Not at h
    linarith [runningVolumeOfDiff_nonneg d]

/-- The running volume is attained by some window. -/
theorem runningVolumeOfDiff_attained (d : List K) :
    ∃ s n, s < d.length + 1 ∧ runningVolumeOfDiff d = -wsum d s n := by
  rw [runningVolumeOfDiff_eq]
  rcases foldl_max_attained (fun idx => worstNegative (cumsum ((d ++ d).drop idx)))
    (peakIndices d) 0 with h | ⟨p, hp, h⟩
  · exact ⟨0, 0, by omega, by simpa [wsum] using h⟩
  · have hp' := mem_peakIndices.mp hp
    rcases worstNegative_attained (cumsum ((d ++ d).drop p)) with h0 | ⟨x, hx, h0⟩
    · exact ⟨0, 0, by omega, by rw [h, h0]; simp [wsum]⟩
    · obtain ⟨k, hk, hxk⟩ := mem_cumsum.mp hx
      refine ⟨p, k + 1, by omega, ?_⟩
      rw [h, h0, hxk, take_sum_eq_wsum d]
      simp at hk; omega

end Eco
