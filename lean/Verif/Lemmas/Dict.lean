import Verif.Py
import Mathlib.Algebra.Order.Field.Basic

/-! Lemmas about dicts kept as association lists. -/

namespace Eco
variable {α β : Type} [DecidableEq α]

theorem dictGet?_cons (p : α × β) (m : List (α × β)) (k : α) :
    dictGet? (p :: m) k = if p.1 = k then some p.2 else dictGet? m k := by
  unfold dictGet?
  rw [List.find?_cons]
  by_cases h : p.1 = k <;> simp [h]

theorem dictGet?_append (m m' : List (α × β)) (k : α) :
    dictGet? (m ++ m') k = (dictGet? m k).or (dictGet? m' k) := by
  induction m with
  | nil => simp [dictGet?]
  | cons p m ih =>
    rw [List.cons_append, dictGet?_cons, dictGet?_cons, ih]
    split <;> simp

theorem dictGet?_map_set (m : List (α × β)) (k k' : α) (v : β) :
    dictGet? (m.map (fun p => if p.1 = k then (k, v) else p)) k' =
      if k = k' then (dictGet? m k').map (fun _ => v) else dictGet? m k' := by
  induction m with
  | nil => simp [dictGet?]
  | cons p m ih =>
    rw [List.map_cons, dictGet?_cons, dictGet?_cons, ih]
    by_cases h1 : p.1 = k
    · by_cases h2 : k = k'
      · simp [h1, h2]
      · simp [h1, h2]
    · by_cases h2 : k = k'
      · subst h2; simp [h1]
      · simp [h1, h2]

theorem dictGet?_dictSet (m : List (α × β)) (k k' : α) (v : β) :
    dictGet? (dictSet m k v) k' = if k = k' then some v else dictGet? m k' := by
  unfold dictSet dictHas
  by_cases h : (dictGet? m k).isSome
  · rw [if_pos h, dictGet?_map_set]
    by_cases h2 : k = k'
    · subst h2
      obtain ⟨x, hx⟩ := Option.isSome_iff_exists.mp h
      simp [hx]
    · simp [h2]
  · rw [if_neg h, dictGet?_append, dictGet?_cons]
    simp only [Bool.not_eq_true, Option.isSome_eq_false_iff, Option.isNone_iff_eq_none] at h
    by_cases h2 : k = k'
    · subst h2; simp [h]
    · simp [h2, dictGet?]

theorem dictHas_iff_mem (m : List (α × β)) (k : α) : dictHas m k = true ↔ k ∈ m.map (·.1) := by
  unfold dictHas
  induction m with
  | nil => simp [dictGet?]
  | cons p m ih =>
    rw [dictGet?_cons]
    by_cases h : p.1 = k
    · simp [h]
    · have : ¬ k = p.1 := fun h' => h h'.symm
      rw [if_neg h, ih]
      simp [this]

theorem dictSet_keys (m : List (α × β)) (k : α) (v : β) :
    (dictSet m k v).map (·.1) = if k ∈ m.map (·.1) then m.map (·.1) else m.map (·.1) ++ [k] := by
  unfold dictSet
  by_cases h : dictHas m k = true
  · rw [if_pos h, if_pos ((dictHas_iff_mem m k).mp h), List.map_map]
    apply List.map_congr_left
    intro p _
    by_cases hp : p.1 = k <;> simp [hp]
  · rw [if_neg h, if_neg (fun h' => h ((dictHas_iff_mem m k).mpr h'))]
    simp

theorem dictSet_nodup {m : List (α × β)} (h : (m.map (·.1)).Nodup) (k : α) (v : β) :
    ((dictSet m k v).map (·.1)).Nodup := by
  rw [dictSet_keys]
  split
  · exact h
  · rename_i hk
    rw [List.nodup_append]
    refine ⟨h, by simp, ?_⟩
    intro a ha b hb
    simp only [List.mem_singleton] at hb
    subst hb
    rintro rfl
    exact hk ha

theorem dictGet?_eq_some_of_mem {m : List (α × β)} (h : (m.map (·.1)).Nodup) {k : α} {v : β}
    (hm : (k, v) ∈ m) : dictGet? m k = some v := by
  induction m with
  | nil => simp at hm
  | cons p m ih =>
    rw [dictGet?_cons]
    simp only [List.map_cons, List.nodup_cons] at h
    rcases List.mem_cons.mp hm with rfl | hm
    · simp
    · have : p.1 ≠ k := by
        rintro rfl
        exact h.1 (List.mem_map.mpr ⟨_, hm, rfl⟩)
      rw [if_neg this]
      exact ih h.2 hm

theorem mem_of_dictGet? {m : List (α × β)} {k : α} {v : β} (h : dictGet? m k = some v) :
    (k, v) ∈ m := by
  unfold dictGet? at h
  cases hf : m.find? (fun p => decide (p.1 = k)) with
  | none => simp [hf] at h
  | some p =>
    rw [hf] at h
    simp only [Option.map_some, Option.some.injEq] at h
    have h1 := List.find?_some hf
    have h2 := List.mem_of_find?_eq_some hf
    simp only [decide_eq_true_eq] at h1
    rw [← h, ← h1]
    exact h2

/-! Counting with a dict. -/

/-- `for x in xs: d[f x] = d.get(f x, 0) + 1`. -/
theorem count_foldl {γ : Type} (f : γ → α) (xs : List γ) (m : List (α × Nat)) (k : α) :
    (dictGet? (xs.foldl (fun m x => dictSet m (f x) ((dictGet? m (f x)).getD 0 + 1)) m) k).getD 0 =
      (dictGet? m k).getD 0 + xs.countP (fun x => decide (f x = k)) := by
  induction xs generalizing m with
  | nil => simp
  | cons x xs ih =>
    rw [List.foldl_cons, ih, dictGet?_dictSet, List.countP_cons]
    by_cases h : f x = k
    · subst h; simp; omega
    · simp [h]

theorem count_foldl_isSome {γ : Type} (f : γ → α) (xs : List γ) (m : List (α × Nat)) (k : α) :
    (dictGet? (xs.foldl (fun m x => dictSet m (f x) ((dictGet? m (f x)).getD 0 + 1)) m) k).isSome =
      ((dictGet? m k).isSome || xs.any (fun x => decide (f x = k))) := by
  induction xs generalizing m with
  | nil => simp
  | cons x xs ih =>
    rw [List.foldl_cons, ih, dictGet?_dictSet, List.any_cons]
    by_cases h : f x = k
    · simp [h]
    · simp [h]

theorem dictSet_sum_count (m : List (α × Nat)) (h : (m.map (·.1)).Nodup) (k : α) :
    ((dictSet m k ((dictGet? m k).getD 0 + 1)).map (·.2)).sum = (m.map (·.2)).sum + 1 := by
  have key : ∀ (m : List (α × Nat)), (m.map (·.1)).Nodup → ∀ c, dictGet? m k = some c →
      ((m.map (fun p => if p.1 = k then (k, c + 1) else p)).map (·.2)).sum = (m.map (·.2)).sum + 1 := by
    intro m
    induction m with
    | nil => intro _ c hc; simp [dictGet?] at hc
    | cons p m ih =>
      intro hn c hc
      simp only [List.map_cons, List.nodup_cons] at hn
      rw [dictGet?_cons] at hc
      by_cases hp : p.1 = k
      · rw [if_pos hp] at hc
        simp only [Option.some.injEq] at hc
        have : m.map (fun p => if p.1 = k then (k, c + 1) else p) = m := by
          conv_rhs => rw [← List.map_id m]
          apply List.map_congr_left
          intro q hq
          rw [if_neg]; · rfl
          intro hqk
          exact hn.1 (List.mem_map.mpr ⟨q, hq, by rw [hqk, hp]⟩)
        rw [List.map_cons, this]
        simp [hp, hc]; omega
      · rw [if_neg hp] at hc
        have := ih hn.2 c hc
        simp only [List.map_cons, List.sum_cons, if_neg hp, this]
        omega
  unfold dictSet dictHas
  cases hg : dictGet? m k with
  | none => simp
  | some c => simp only [Option.isSome_some, if_true, Option.getD_some]; exact key m h c hg

theorem count_foldl_sum {γ : Type} (f : γ → α) (xs : List γ) (m : List (α × Nat))
    (h : (m.map (·.1)).Nodup) :
    (((xs.foldl (fun m x => dictSet m (f x) ((dictGet? m (f x)).getD 0 + 1)) m).map (·.1)).Nodup ∧
    ((xs.foldl (fun m x => dictSet m (f x) ((dictGet? m (f x)).getD 0 + 1)) m).map (·.2)).sum =
      (m.map (·.2)).sum + xs.length) := by
  induction xs generalizing m with
  | nil => simp [h]
  | cons x xs ih =>
    rw [List.foldl_cons]
    obtain ⟨h1, h2⟩ := ih _ (dictSet_nodup h (f x) _)
    refine ⟨h1, ?_⟩
    rw [h2, dictSet_sum_count m h]
    simp; omega

end Eco
