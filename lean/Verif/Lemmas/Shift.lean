import Verif.Model.LoadShift
import Verif.Spec.Shift
import Verif.Lemmas.Py
import Verif.Lemmas.Sizing

/-! Lemmas about the load-shift calculations. -/

namespace Eco
set_option linter.unusedSectionVars false

theorem filter_range'_cons {P : Nat → Bool} {a n h0 : Nat} {rest : List Nat}
    (h : (List.range' a n).filter P = h0 :: rest) :
    ∃ k < n, h0 = a + k ∧ (∀ x, a ≤ x → x < h0 → P x = false) ∧ P h0 = true ∧
      rest = (List.range' (h0 + 1) (n - k - 1)).filter P := by
  induction n generalizing a with
  | zero => simp at h
  | succ n ih =>
    rw [List.range'_succ, List.filter_cons] at h
    split at h
    · rename_i hp
      simp only [List.cons.injEq] at h
      obtain ⟨rfl, rfl⟩ := h
      refine ⟨0, by omega, rfl, ?_, hp, by simp⟩
      intro x h1 h2; omega
    · rename_i hp
      obtain ⟨k, hk, h1, h2, h3, h4⟩ := ih h
      refine ⟨k + 1, by omega, by omega, ?_, h3, ?_⟩
      · intro x h5 h6
        by_cases hx : x = a
        · subst hx; simpa using hp
        · exact h2 x (by omega) h6
      · rw [h4]; congr 2; omega

theorem extendBlock_filter (P : Nat → Bool) (last n : Nat) :
    ∃ m ≤ n, extendBlock last ((List.range' (last + 1) n).filter P) = List.range' (last + 1) m ∧
      (∀ x, last + 1 ≤ x → x < last + 1 + m → P x = true) ∧
      (m = n ∨ P (last + 1 + m) = false) := by
  induction n generalizing last with
  | zero => exact ⟨0, le_refl _, by simp [extendBlock], by intro x h1 h2; omega, Or.inl rfl⟩
  | succ n ih =>
    rw [List.range'_succ, List.filter_cons]
    split
    · rename_i hp
      obtain ⟨m, hm, h1, h2, h3⟩ := ih (last + 1)
      refine ⟨m + 1, by omega, ?_, ?_, ?_⟩
      · simp only [extendBlock, if_true]
        rw [h1, List.range'_succ]
      · intro x h4 h5
        by_cases hx : x = last + 1
        · subst hx; exact hp
        · exact h2 x (by omega) (by omega)
      · rcases h3 with h3 | h3
        · left; omega
        · right; rw [← h3]; congr 1; omega
    · rename_i hp
      refine ⟨0, by omega, ?_, by intro x h1 h2; omega, Or.inr (by simpa using hp)⟩
      cases hf : (List.range' (last + 1 + 1) n).filter P with
      | nil => simp [extendBlock]
      | cons y ys =>
        have : y ∈ (List.range' (last + 1 + 1) n).filter P := by rw [hf]; simp
        simp only [List.mem_filter, List.mem_range'_1] at this
        simp only [extendBlock]
        rw [if_neg (by omega)]
        simp

theorem countLoadUp_spec (sched : List String) (h0 : Nat) :
    countLoadUp sched h0 ≤ h0 ∧
    (∀ x, h0 - countLoadUp sched h0 ≤ x → x < h0 → sched[x]? = some "loadUp") ∧
    (countLoadUp sched h0 = h0 ∨ sched[h0 - countLoadUp sched h0 - 1]? ≠ some "loadUp") := by
  induction h0 with
  | zero => exact ⟨by simp [countLoadUp], by intro x h1 h2; omega, Or.inl (by simp [countLoadUp])⟩
  | succ h ih =>
    obtain ⟨h1, h2, h3⟩ := ih
    unfold countLoadUp
    split
    · rename_i hp
      refine ⟨by omega, ?_, ?_⟩
      · intro x h4 h5
        by_cases hx : x = h
        · subst hx; exact hp
        · exact h2 x (by omega) (by omega)
      · rcases h3 with h3 | h3
        · left; omega
        · right
          rw [show h + 1 - (countLoadUp sched h + 1) - 1 = h - countLoadUp sched h - 1 by omega]
          exact h3
    · rename_i hp
      exact ⟨by omega, by intro x h4 h5; omega, Or.inr (by simpa using hp)⟩

/-- What `firstShedBlock` returns when there is a shed hour. -/
theorem firstShedBlock_cons {sched : List String} {h0 lu : Nat} {t : List Nat}
    (h : firstShedBlock sched = .ok (h0 :: t, lu)) :
    24 ≤ sched.length ∧ ∃ n, h0 :: t = List.range' h0 (n + 1) ∧ h0 + (n + 1) ≤ 24 ∧
      (∀ x < h0, sched[x]? ≠ some "shed") ∧
      (∀ x, h0 ≤ x → x < h0 + (n + 1) → sched[x]? = some "shed") ∧
      (h0 + (n + 1) = 24 ∨ sched[h0 + (n + 1)]? ≠ some "shed") ∧
      lu = countLoadUp sched h0 := by
  unfold firstShedBlock at h
  split at h
  · simp at h
  rename_i hlen
  refine ⟨by omega, ?_⟩
  rw [List.range_eq_range'] at h
  split at h
  · simp at h
  · rename_i h0' rest hf
    simp only [Except.ok.injEq, Prod.mk.injEq, List.cons.injEq] at h
    obtain ⟨⟨rfl, rfl⟩, rfl⟩ := h
    obtain ⟨k, hk, e1, e2, e3, e4⟩ := filter_range'_cons hf
    obtain ⟨m, hm, f1, f2, f3⟩ :=
      extendBlock_filter (fun h => decide (sched[h]? = some "shed")) h0' (24 - k - 1)
    refine ⟨m, ?_, by omega, ?_, ?_, ?_, rfl⟩
    · rw [List.range'_succ, e4, f1]
    · intro x hx; simpa using e2 x (by omega) hx
    · intro x h1 h2
      by_cases hx : x = h0'
      · subst hx; simpa using e3
      · simpa using f2 x (by omega) (by omega)
    · rcases f3 with f3 | f3
      · left; omega
      · right; rw [show h0' + (m + 1) = h0' + 1 + m by omega]; simpa using f3

section
variable {K : Type} [Field K] [LinearOrder K] [IsStrictOrderedRing K]

theorem sumHours_range' {shape : List K} (daily : K) {a n : Nat} (h : a + n ≤ shape.length) :
    sumHours shape daily (List.range' a n) = .ok (∑ i ∈ Finset.range n, Spec.use daily shape (a + i)) := by
  have key : ∀ n a, a + n ≤ shape.length → ∃ vs : List K,
      (List.range' a n).mapM (fun h => pyGet shape h) = .ok vs ∧
      (vs.map (fun f => f * daily)).sum = ∑ i ∈ Finset.range n, Spec.use daily shape (a + i) := by
    intro n
    induction n with
    | zero => intro a _; exact ⟨[], by simp, by simp⟩
    | succ n ih =>
      intro a ha
      obtain ⟨vs, h1, h2⟩ := ih (a + 1) (by omega)
      refine ⟨shape[a]'(by omega) :: vs, ?_, ?_⟩
      · rw [List.range'_succ, List.mapM_cons, pyGet_of_lt (by omega : a < shape.length), h1]
        rfl
      · rw [List.map_cons, List.sum_cons, h2, Finset.sum_range_succ' _ n]
        simp only [Spec.use, Nat.add_zero, Nat.mod_eq_of_lt (by omega : a < shape.length),
          List.getD_eq_getElem?_getD, List.getElem?_eq_getElem (by omega : a < shape.length),
          Option.getD_some]
        rw [add_comm, mul_comm daily]
        congr 1
        apply Finset.sum_congr rfl
        intro i _
        rw [show a + 1 + i = a + (i + 1) by ring]
  obtain ⟨vs, h1, h2⟩ := key n a h
  unfold sumHours
  rw [h1]
  simp [h2]

theorem use_nonneg {daily : K} {shape : List K} (hd : 0 ≤ daily) (hs : ∀ f ∈ shape, 0 ≤ f) (h : ℕ) :
    0 ≤ Spec.use daily shape h := by
  unfold Spec.use
  apply mul_nonneg hd
  rw [List.getD_eq_getElem?_getD]
  cases hx : shape[h % shape.length]? with
  | none => simp
  | some f => exact hs f (List.mem_of_getElem? hx)

/-- The preliminary volumes in closed form. -/
theorem prelimVols_eq {sched : List String} {b : Building K} {fract : K} {h0 lu n : Nat} {t : List Nat}
    (h : firstShedBlock sched = .ok (h0 :: t, lu)) (hr : h0 :: t = List.range' h0 (n + 1))
    (hl : h0 + (n + 1) ≤ b.avgShape.length) :
    prelimVols sched b fract = .ok
      ((∑ i ∈ Finset.range (n + 1), Spec.use b.dailyGal b.avgShape (h0 + i)) * fract,
       ∑ i ∈ Finset.range lu, Spec.use b.dailyGal b.avgShape (h0 - lu + i)) := by
  obtain ⟨_, _, _, _, _, _, _, hlu⟩ := firstShedBlock_cons h
  have hle := (countLoadUp_spec sched h0).1
  rw [← hlu] at hle
  unfold prelimVols
  rw [h]
  simp only [ok_bind]
  rw [hr, sumHours_range' _ hl]
  simp only [ok_bind]
  rw [sumHours_range' _ (by omega)]
  rfl

theorem lsDiff_length (sched : List String) (gen daily : K) (shape : List K) :
    (lsDiff sched gen daily shape).length = shape.length := by simp [lsDiff]

theorem rep_lsDiff (sched : List String) (gen daily : K) {shape : List K} (hl : shape.length = 24)
    (h : ℕ) :
    rep (lsDiff sched gen daily shape) h = Spec.shedGen sched gen h - Spec.use daily shape h := by
  have hlt : h % 24 < 24 := Nat.mod_lt _ (by norm_num)
  simp [rep, lsDiff, Spec.use, Spec.shedGen, List.getD_eq_getElem?_getD, hl, hlt]

theorem shortfall_eq_wsum_ls (sched : List String) (gen daily : K) {shape : List K}
    (hl : shape.length = 24) (s n : ℕ) :
    Spec.shortfall (Spec.use daily shape) (Spec.shedGen sched gen) s n =
      -wsum (lsDiff sched gen daily shape) s n := by
  unfold Spec.shortfall wsum
  rw [← Finset.sum_neg_distrib]
  apply Finset.sum_congr rfl
  intro i _
  rw [rep_lsDiff _ _ _ hl]; ring

theorem shortfall_add (u g : ℕ → K) (s m n : ℕ) :
    Spec.shortfall u g s (m + n) = Spec.shortfall u g s m + Spec.shortfall u g (s + m) n := by
  simp only [Spec.shortfall, Finset.sum_range_add, add_assoc]

/-- The net daily gain of the load-shift profile. -/
theorem lsDiff_sum (sched : List String) (gen daily : K) {shape : List K} (hl : shape.length = 24)
    (hs : sched.length = 24) :
    (lsDiff sched gen daily shape).sum = gen * (sched.countP (fun x => decide (x ≠ "shed")) : K)
      - daily * shape.sum := by
  have key : ∀ (sched : List String) (shape : List K), sched.length = shape.length →
      (shape.mapIdx (fun h f => (if sched[h]? = some "shed" then 0 else gen) - daily * f)).sum =
        gen * (sched.countP (fun x => decide (x ≠ "shed")) : K) - daily * shape.sum := by
    intro sched shape
    induction shape generalizing sched with
    | nil => intro h; simp at h; simp [h]
    | cons f fs ih =>
      intro h
      cases sched with
      | nil => simp at h
      | cons x xs =>
        simp only [List.length_cons, Nat.add_right_cancel_iff] at h
        rw [List.mapIdx_cons, List.sum_cons, List.countP_cons, List.sum_cons]
        have := ih xs h
        simp only [List.getElem?_cons_succ, List.getElem?_cons_zero, Option.some.injEq] at this ⊢
        rw [this]
        by_cases hx : x = "shed"
        · simp [hx]; ring
        · simp [hx]; ring
  exact key sched shape (by omega)

end

end Eco
