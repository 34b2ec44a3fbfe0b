import Verif.Model.MultiPass
import Mathlib.Algebra.Order.Floor.Ring

/-! Model of the sizing curve of a multi-pass system (`objects/dhwsystems/rtp_systems/MultiPassRTPSystem.py:262-414`). -/

namespace Eco
variable {K : Type} [Field K] [LinearOrder K]

/-- Python's `round(x, 1)` of an exact number. -/
def pyRound1 [FloorRing K] (x : K) : K := (pyRound (x * 10) : K) / 10

/-- The point read off a sized system (`MultiPassRTPSystem.py:353-360`, `:370-372`): `none` is the `break` at a storage
of 0. The arithmetic with a missing result is a `TypeError`. -/
def mpPoint [FloorRing K] (numerator defrost : K) (s : DhwSys K) : Py (Option (K × K × K)) :=
  if s.minStorage = some 0 then .ok none
  else
    match s.minCap, s.minStorage with
    | some cap, some vol => do
      let q ← fdiv numerator (cap * defrost)
      return some (pyRound1 q, cap, vol)
    | _, _ => .error .typeError

/-- The system of one run-hour value (`MultiPassRTPSystem.py:329-352`): the system itself at its own run hours, a new one
below. `none` is `break`. -/
def mpTry (db : ShapeFiles K) (s : MpSys K) (sched : Option (List String)) (slope pu : K) (b : Building K) (h : K) :
    Building K × Py (Option (DhwSys K)) :=
  if h = s.base.cfg.maxRunHr then (b, .ok (some s.base))
  else if h < 9 then (b, .ok none)
  else
    match mpFromSize db { s.base.cfg with maxRunHr := h } s.loop b sched s.base.heaterMap slope pu 2 1 with
    | (b', .error .valueError) => (b', .ok none)
    | (b', .error .runtimeError) => (b', .ok none)
    | (b', .error .zeroDivision) => (b', .ok none)
    | (b', .error e) => (b', .error e)
    | (b', .ok (p, _)) => (b', .ok (some p.base))

/-- What the loop carries: the points so far and `rec_back_hr`. -/
abbrev MpAcc (K : Type) := List (K × K × K) × Option K

/-- Lines `MultiPassRTPSystem.py:362-372` for one point. -/
def mpNote (acc : MpAcc K) (p : K × K × K) : MpAcc K :=
  (if acc.1.any (fun q => decide (q.1 ≤ p.1)) then acc.1 else acc.1 ++ [p], some (acc.2.getD p.1))

/-- The sweep (`MultiPassRTPSystem.py:329-372`) over the remaining run hours. -/
def mpSweep [FloorRing K] (db : ShapeFiles K) (s : MpSys K) (sched : Option (List String)) (slope pu numerator : K) :
    List K → Building K → MpAcc K → Building K × Py (MpAcc K)
  | [], b, acc => (b, .ok acc)
  | h :: hs, b, acc =>
    match mpTry db s sched slope pu b h with
    | (b', .error e) => (b', .error e)
    | (b', .ok none) => (b', .ok acc)
    | (b', .ok (some d)) =>
      match mpPoint numerator s.base.cfg.defrost d with
      | .error e => (b', .error e)
      | .ok none => (b', .ok acc)
      | .ok (some p) => mpSweep db s sched slope pu numerator hs b' (mpNote acc p)

/-- `min(range(len(l)), key=…)`: the first position of a least value; 0 for an empty list. -/
def firstArgmin (l : List K) : Nat :=
  if l = [] then 0 else l.findIdx (fun x => l.all (fun y => decide (x ≤ y)))

/-- Sorting and the recommended index (`MultiPassRTPSystem.py:374-402`). -/
def mpFinish (acc : MpAcc K) : Curve K :=
  let pts := acc.1.mergeSort (fun a b => decide (b.1 ≤ a.1))
  ⟨pts, firstArgmin (pts.map (fun p => |p.1 - acc.2.getD 0|))⟩

/-- The values computed before the sweep (`MultiPassRTPSystem.py:311-325`). -/
def mpCurveSetup [FloorRing K] (s : MpSys K) (b : Building K) (step : K) : Py (K × List K) := do
  let inlet ← requireDesignInlet b
  let numerator := b.dailyGal * rhoCp K * (s.base.cfg.supply - inlet) / 1000 + rtpLossKbtuh s.base.cfg s.loop * 24
  let mx ← npMax b.peakShape
  let inv ← fdiv 1 mx
  if step = 0 then .error .zeroDivision
  else return (numerator, arangeDown s.base.cfg.maxRunHr (inv * (1001 / 1000)) step)

/-- The `try` block (`MultiPassRTPSystem.py:311-409`) for a building in daily mode. -/
def mpCurveBody [FloorRing K] (db : ShapeFiles K) (s : MpSys K) (sched : Option (List String)) (pu : K) (b : Building K)
    (slope step : K) : Building K × Py (Curve K) :=
  match mpCurveSetup s b step with
  | .error e => (b, .error e)
  | .ok (numerator, hs) =>
    match mpSweep db s sched slope pu numerator hs b ([], none) with
    | (b', .error e) => (b', .error e)
    | (b', .ok acc) => (b', .ok (mpFinish acc))

/-- `get_sizing_curve` (`MultiPassRTPSystem.py:262-414`): the building and the curve or the exception. The system is not
written to. `sched` is the schedule of its heater, `pu` the usable fraction of its tank. -/
def mpSizingCurve [FloorRing K] (db : ShapeFiles K) (s : MpSys K) (sched : Option (List String)) (pu : K)
    (b : Building K) (slope step : K) : Building K × Py (Curve K) :=
  match (if b.isAnnual then b.setToDaily db else .ok b) with
  | .error e => (b, .error e)
  | .ok b1 =>
    let r := mpCurveBody db s sched pu b1 (s.base.sizingSlope.getD slope) step
    if b.isAnnual then
      match r.1.setToAnnual db with
      | .error e => (r.1, .error e)
      | .ok b2 => (b2, r.2)
    else r

end Eco
