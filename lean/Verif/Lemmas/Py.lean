import Verif.Py
import Mathlib.Data.List.Forall2

/-! Inversion lemmas for `Py` computations and basic facts about dictionaries. -/

namespace Eco

theorem bind_eq_ok {α β : Type} {x : Py α} {f : α → Py β} {y : β} :
    (x >>= f) = .ok y ↔ ∃ a, x = .ok a ∧ f a = .ok y := by
  cases x with
  | error e => simp [bind, Except.bind]
  | ok a => simp [bind, Except.bind]

theorem bind_eq_error {α β : Type} {x : Py α} {f : α → Py β} {e : PyErr} :
    (x >>= f) = .error e ↔ x = .error e ∨ ∃ a, x = .ok a ∧ f a = .error e := by
  cases x with
  | error e => simp [bind, Except.bind]
  | ok a => simp [bind, Except.bind]

@[simp] theorem ok_bind {α β : Type} (a : α) (f : α → Py β) : ((.ok a : Py α) >>= f) = f a := rfl

@[simp] theorem error_bind {α β : Type} (e : PyErr) (f : α → Py β) :
    ((.error e : Py α) >>= f) = .error e := rfl

@[simp] theorem pure_eq_ok {α : Type} (a : α) : (pure a : Py α) = .ok a := rfl

section
variable {K : Type} [Field K] [LinearOrder K]

theorem fdiv_eq_ok {a b x : K} : fdiv a b = .ok x ↔ b ≠ 0 ∧ x = a / b := by
  unfold fdiv
  split <;> simp_all [eq_comm]

theorem fdiv_ok {b : K} (a : K) (h : b ≠ 0) : fdiv a b = .ok (a / b) := by simp [fdiv, h]

end

theorem mapM_eq_ok {α β : Type} {f : α → Py β} {l : List α} {ys : List β} :
    l.mapM f = .ok ys ↔ List.Forall₂ (fun a b => f a = .ok b) l ys := by
  induction l generalizing ys with
  | nil => rw [List.mapM_nil, List.forall₂_nil_left_iff]; simp only [pure_eq_ok, Except.ok.injEq]; exact eq_comm
  | cons a l ih =>
    rw [List.mapM_cons]
    simp only [bind_eq_ok, pure_eq_ok, ih]
    constructor
    · rintro ⟨b, hb, bs, hbs, h⟩
      obtain rfl : b :: bs = ys := by injection h
      exact List.Forall₂.cons hb hbs
    · intro h
      cases h with
      | cons hb hbs => exact ⟨_, hb, _, hbs, rfl⟩

theorem pyGet_eq_ok {α : Type} {l : List α} {i : Nat} {a : α} : pyGet l i = .ok a ↔ l[i]? = some a := by
  unfold pyGet
  split <;> simp_all

theorem pyGet_of_lt {α : Type} {l : List α} {i : Nat} (h : i < l.length) : pyGet l i = .ok l[i] := by
  rw [pyGet_eq_ok]; simp [h]

theorem pyGet_of_ge {α : Type} {l : List α} {i : Nat} (h : l.length ≤ i) :
    pyGet l i = .error .indexError := by
  simp [pyGet, List.getElem?_eq_none h]

theorem dictGet_eq_ok {α β : Type} [DecidableEq α] {m : List (α × β)} {k : α} {b : β} :
    dictGet m k = .ok b ↔ dictGet? m k = some b := by
  unfold dictGet
  split <;> simp_all

end Eco
