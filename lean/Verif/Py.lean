import Mathlib.Algebra.Order.Field.Basic

/-!
Python-level conventions shared by the whole model: exceptions as values, guarded division,
and the few list operations of Python/numpy that the code uses.
-/

namespace Eco

/-- The Python exceptions the modelled code can raise (explicitly or through the interpreter). -/
inductive PyErr where
  | valueError
  | runtimeError
  | indexError
  | keyError
  | zeroDivision
  | typeError
  | attributeError
  | unboundLocal
  deriving DecidableEq, Repr

/-- The result of a Python call: a value or an exception. -/
abbrev Py (α : Type) := Except PyErr α

section
variable {K : Type} [Field K] [LinearOrder K]

/-- Python's `a / b` on floats: raises `ZeroDivisionError` when the divisor is zero. -/
def fdiv (a b : K) : Py K := if b = 0 then .error .zeroDivision else .ok (a / b)

/-- `np.cumsum` (running sums), as used in `DHWSystem.py:911`, `:1482`.
`acc` is the sum of what came before. -/
def cumsumFrom (acc : K) : List K → List K
  | [] => []
  | x :: xs => (acc + x) :: cumsumFrom (acc + x) xs

/-- `np.cumsum`. -/
def cumsum (l : List K) : List K := cumsumFrom 0 l

/-- `float(-np.min(neg))` for `neg = cum[cum < 0]`, or `0.0` when there is no negative entry
(`DHWSystem.py:912-914` and `:1483-1484`). -/
def worstNegative (cum : List K) : K :=
  match (cum.filter (fun x => decide (x < 0))).min? with
  | none => 0
  | some m => -m

/-- Python list indexing `l[i]` for a non-negative `i`: `IndexError` when out of range. -/
def pyGet {α : Type} (l : List α) (i : Nat) : Py α :=
  match l[i]? with
  | some a => .ok a
  | none => .error .indexError

/-- `dict.get` on an association list (Python dicts keep insertion order; keys are unique). -/
def dictGet? {α β : Type} [DecidableEq α] (m : List (α × β)) (k : α) : Option β :=
  (m.find? (fun p => decide (p.1 = k))).map (·.2)

/-- `m[k]` on a dict: `KeyError` when missing. -/
def dictGet {α β : Type} [DecidableEq α] (m : List (α × β)) (k : α) : Py β :=
  match dictGet? m k with
  | some b => .ok b
  | none => .error .keyError

/-- `k in m`. -/
def dictHas {α β : Type} [DecidableEq α] (m : List (α × β)) (k : α) : Bool :=
  (dictGet? m k).isSome

/-- `m[k] = v`: overwrite in place, or append a new key. -/
def dictSet {α β : Type} [DecidableEq α] (m : List (α × β)) (k : α) (v : β) : List (α × β) :=
  if dictHas m k then m.map (fun p => if p.1 = k then (k, v) else p) else m ++ [(k, v)]

end

end Eco
