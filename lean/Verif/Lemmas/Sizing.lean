import Verif.Lemmas.Windows
import Verif.Spec.Store

set_option linter.unusedSectionVars false

namespace Eco
open Finset

variable {K : Type} [Field K] [LinearOrder K] [IsStrictOrderedRing K]

theorem runningVolume_ok {daily r : K} {shape : List K} (h : r ≠ 0) :
    runningVolume daily r shape = .ok (runningVolumeOfDiff (hourlyDiff (daily / r) daily shape)) := by
  simp [runningVolume, fdiv, h, bind, Except.bind, pure, Except.pure]

theorem hourlyDiff_sum (gen daily : K) (shape : List K) :
    (hourlyDiff gen daily shape).sum = shape.length * gen - daily * shape.sum := by
  induction shape with
  | nil => simp [hourlyDiff]
  | cons x xs ih =>
    simp only [hourlyDiff, List.map_cons, List.sum_cons, List.length_cons] at *
    rw [ih]; push_cast; ring

theorem rep_hourlyDiff (gen daily : K) (shape : List K) (hs : shape ≠ []) (h : ℕ) :
    rep (hourlyDiff gen daily shape) h = gen - Spec.use daily shape h := by
  have hpos : 0 < shape.length := List.length_pos_iff.mpr hs
  have hlt : h % shape.length < shape.length := Nat.mod_lt _ hpos
  simp [rep, hourlyDiff, Spec.use, List.getD_eq_getElem?_getD, hlt]

theorem shortfall_eq_wsum (gen daily : K) (shape : List K) (hs : shape ≠ []) (s n : ℕ) :
    Spec.shortfall (Spec.use daily shape) (fun _ => gen) s n = -wsum (hourlyDiff gen daily shape) s n := by
  unfold Spec.shortfall wsum
  rw [← Finset.sum_neg_distrib]
  apply Finset.sum_congr rfl
  intro i _
  rw [rep_hourlyDiff _ _ _ hs]; ring

theorem shortfall_zero (u g : ℕ → K) (s : ℕ) : Spec.shortfall u g s 0 = 0 := by
  simp [Spec.shortfall]

theorem shortfall_succ (u g : ℕ → K) (s n : ℕ) :
    Spec.shortfall u g s (n + 1) = Spec.shortfall u g s n + (u (s + n) - g (s + n)) := by
  simp only [Spec.shortfall, Finset.sum_range_succ]

theorem shortfall_mono_gen {u g g' : ℕ → K} (h : ∀ i, g i ≤ g' i) (s n : ℕ) :
    Spec.shortfall u g' s n ≤ Spec.shortfall u g s n := by
  apply Finset.sum_le_sum
  intro i _
  linarith [h (s + i)]

/-- A full store at any time before is at most full, so the level is bounded by every window ending
now. -/
theorem level_le_window (V : K) (u g : ℕ → K) (s a n : ℕ) :
    Spec.level V u g s (a + n) ≤ V - Spec.shortfall u g (s + a) n := by
  induction n with
  | zero =>
    simp only [Nat.add_zero, shortfall_zero, sub_zero]
    cases a with
    | zero => exact le_refl _
    | succ a => exact min_le_left _ _
  | succ n ih =>
    rw [shortfall_succ, ← Nat.add_assoc]
    refine le_trans (min_le_right _ _) ?_
    rw [Nat.add_assoc s a n]
    linarith

/-- The level is attained by some window ending now. -/
theorem level_eq_window (V : K) (u g : ℕ → K) (s n : ℕ) :
    ∃ a m, a + m = n ∧ Spec.level V u g s n = V - Spec.shortfall u g (s + a) m := by
  induction n with
  | zero => exact ⟨0, 0, rfl, by simp [shortfall_zero, Spec.level]⟩
  | succ n ih =>
    obtain ⟨a, m, ham, h⟩ := ih
    rcases min_choice V (Spec.level V u g s n + g (s + n) - u (s + n)) with hc | hc
    · exact ⟨n + 1, 0, rfl, by rw [shortfall_zero, sub_zero]; exact hc⟩
    · refine ⟨a, m + 1, by omega, ?_⟩
      show min _ _ = _
      rw [hc, h, shortfall_succ, show s + a + m = s + n by omega]
      ring

end Eco
