import Verif.Model.Building

/-!
Model of the argument handling of `Building.from_building_type` (`objects/building/Building.py:119-277`): one building type or
a list of them, with magnitudes and load shapes to match. The `isinstance` checks become cases of the types below.
-/

namespace Eco
variable {K : Type} [Field K] [LinearOrder K]

/-- An argument that is one value or a list of values. -/
inductive OneOr (α : Type) where
  | one (a : α)
  | many (l : List α)

/-- A list of one entry is replaced by the entry (`Building.py:191-194`). -/
def OneOr.collapse {α : Type} : OneOr α → OneOr α
  | .many [a] => .one a
  | x => x

/-- A load-shape argument: `None`, one list of numbers, or a list of load shapes and `None`s. Mixed lists are not modelled. -/
inductive ShapeArg (K : Type) where
  | none
  | numbers (l : List K)
  | shapes (l : List (Option (List K)))

/-- What a part of a multi-use building gets as its custom load shape; a number if the caller passed one list of numbers. -/
inductive ShapeEntry (K : Type) where
  | number
  | shape (s : Option (List K))

namespace Building

/-- `_normalize_multi_use_shapes` (`Building.py:279-300`). -/
def normaliseShapes (a : ShapeArg K) (n : Nat) : Py (List (ShapeEntry K)) :=
  match a with
  | .none => .ok (List.replicate n (.shape none))
  | .numbers l =>
    if l.length = 24 then .error .valueError
    else if l.length ≠ n then .error .valueError
    else .ok (List.replicate n .number)
  | .shapes l => if l.length ≠ n then .error .valueError else .ok (l.map .shape)

/-- The daily use of a named type, with the check of the magnitude before it (`Building.py:353-389`). -/
def namedGal (db : ShapeFiles K) (bt : String) (mag : Option K) (o : GpdOpts K) : Py K :=
  match mag with
  | none => .error .valueError
  | some m => if m ≤ 0 then .error .valueError else namedDailyGal db bt m o

/-- `_compute_single_gal_and_shapes` (`Building.py:302-409`) when the peak shape is a number: `list(…)` is a `TypeError`. -/
def numberPeak (db : ShapeFiles K) (bt : Option String) (mag : Option K) (o : GpdOpts K) : Py (K × List K × List K) :=
  match bt with
  | none => .error .typeError
  | some bt => do
    let _ ← namedGal db bt mag o
    .error .typeError

/-- `_compute_single_gal_and_shapes` (`Building.py:302-409`) when the average shape is a number: a `TypeError`, after all that
is done before. -/
def numberAvg (db : ShapeFiles K) (bt : Option String) (mag : Option K) (peak : Option (List K)) (o : GpdOpts K) :
    Py (K × List K × List K) :=
  match bt with
  | none => do
    let _ ← computeSingle db none mag peak none o
    .error .typeError
  | some bt => do
    let _ ← namedGal db bt mag o
    let _ ← namedPeak db bt peak
    .error .typeError

/-- One turn of the loop over the parts (`Building.py:255-262`). -/
def computePart (db : ShapeFiles K) (o : GpdOpts K) (x : Option String × Option K × ShapeEntry K × ShapeEntry K) :
    Py (K × List K × List K) :=
  match x.2.2.1, x.2.2.2 with
  | .number, _ => numberPeak db x.1 x.2.1 o
  | .shape p, .number => numberAvg db x.1 x.2.1 p o
  | .shape p, .shape a => computeSingle db x.1 x.2.1 p a o

/-- The blend of the parts (`Building.py:264-277`). -/
def blend (subs : List (K × List K × List K)) (climate : Option (ClimateZone K)) (dO dI : Option K) : Py (Building K) :=
  let total := (subs.map (·.1)).sum
  if total = 0 then .error .zeroDivision
  else do
    let peak ← weightedSum (subs.map (fun s => (s.1, s.2.1)))
    let avg ← weightedSum (subs.map (fun s => (s.1, s.2.2)))
    return mk' climate total (peak.map (· / total)) (avg.map (· / total)) "multi_use" dO dI

/-- `_from_multi_use` (`Building.py:223-277`). -/
def fromMultiArgs (db : ShapeFiles K) (types : List (Option String)) (mags : OneOr (Option K)) (peak avg : ShapeArg K)
    (climate : Option (ClimateZone K)) (o : GpdOpts K) (dO dI : Option K) : Py (Building K) :=
  match mags with
  | .one _ => .error .valueError
  | .many ms =>
    if ms.length ≠ types.length then .error .valueError
    else do
      let ps ← normaliseShapes peak types.length
      let as ← normaliseShapes avg types.length
      let subs ← (types.zip (ms.zip (ps.zip as))).mapM (computePart db o)
      blend subs climate dO dI

/-- `raw = list(custom_peak_ls); raw_sum = sum(raw)` (`Building.py:322-327`) for a custom building. -/
def customRaw : ShapeArg K → Py (List K)
  | .none => .error .valueError
  | .numbers l => .ok l
  | .shapes [] => .ok []
  | .shapes (_ :: _) => .error .typeError

/-- `_compute_single_gal_and_shapes` (`Building.py:318-349`) for a custom building. -/
def customArgs (db : ShapeFiles K) (mag : OneOr (Option K)) (peak avg : ShapeArg K) (o : GpdOpts K) :
    Py (K × List K × List K) := do
  let raw ← customRaw peak
  match mag with
  | .many _ => .error .typeError
  | .one m =>
    match avg with
    | .none => computeSingle db none m (some raw) none o
    | .numbers l => computeSingle db none m (some raw) (some l) o
    | .shapes [] => computeSingle db none m (some raw) (some []) o
    | .shapes (_ :: _) => do
      let _ ← computeSingle db none m (some raw) none o
      .error .typeError

/-- `_validate_load_shape` (`Building.py:43-52`) on a list of load shapes: the wrong length, or a sum of lists. -/
def validateShapes (l : List (Option (List K))) : PyErr := if l.length ≠ 24 then .valueError else .typeError

/-- `_compute_single_gal_and_shapes` (`Building.py:351-409`) for a named type. -/
def namedArgs (db : ShapeFiles K) (bt : String) (mag : OneOr (Option K)) (peak avg : ShapeArg K) (o : GpdOpts K) :
    Py (K × List K × List K) :=
  match mag with
  | .many _ => .error .valueError
  | .one m =>
    match peak, avg with
    | .shapes l, _ => do
      let _ ← namedGal db bt m o
      .error (validateShapes l)
    | .none, .shapes l => do
      let _ ← namedGal db bt m o
      let _ ← namedPeak db bt none
      .error (validateShapes l)
    | .numbers p, .shapes l => do
      let _ ← namedGal db bt m o
      let _ ← namedPeak db bt (some p)
      .error (validateShapes l)
    | .none, .none => computeSingle db (some bt) m none none o
    | .none, .numbers a => computeSingle db (some bt) m none (some a) o
    | .numbers p, .none => computeSingle db (some bt) m (some p) none o
    | .numbers p, .numbers a => computeSingle db (some bt) m (some p) (some a) o

/-- `from_building_type` (`Building.py:119-221`). A multi-use building does not look at `annual`. -/
def fromArgs (db : ShapeFiles K) (types : OneOr (Option String)) (mags : OneOr (Option K)) (peak avg : ShapeArg K)
    (climate : Option (ClimateZone K)) (o : GpdOpts K) (annual : Bool) (dO dI : Option K) : Py (Building K) :=
  match types.collapse with
  | .many ts => fromMultiArgs db ts mags.collapse peak avg climate o dO dI
  | .one bt => do
    let (daily, p, a) ← (match bt with
      | none => customArgs db mags.collapse peak avg o
      | some t => namedArgs db t mags.collapse peak avg o)
    let b := mk' climate daily p a (bt.getD "custom") dO dI
    if annual then setToAnnual db b else return b

end Building
end Eco
