import Verif.Model.Constants
import Verif.Py
import Mathlib.Algebra.Order.Group.Unbundled.Abs

/-!
Model of `objects/components/heating/PerformanceMap.py`. The registry file and the pickled scipy
interpolators are parameters: an interpolator is a function from the argument row to a number, or
to `none` for NaN.
-/

namespace Eco
variable {K : Type} [Field K] [LinearOrder K]

/-- `PklPerformanceMap` (`PerformanceMap.py:273-310`). `grid` is `_inTs_outTs`: per tabulated
OAT the list of `(inlet, outlets)`. `default_in_low_kw`, which no method reads, is left out. -/
structure PklMap (K : Type) where
  outInterp : List K → Option K
  inInterp : List K → Option K
  oats : List K
  grid : List (List (K × List K))
  inletMax : K
  outHigh : K
  inHigh : K
  outLow : K
  numUnits : Nat
  twoInput : Bool
  secondaryHx : Bool
  hxIncrease : K
  nominal : Option K
  designInlet : K

namespace PklMap

/-- `_resolve_temps` (`PerformanceMap.py:321-331`): `(inlet, outlet)`. -/
def resolveTemps (m : PklMap K) (outlet : K) (inlet : Option K) : K × K :=
  let i := inlet.getD m.designInlet
  let (i, o) := if m.secondaryHx then (i + m.hxIncrease, outlet + m.hxIncrease) else (i, outlet)
  (min i m.inletMax, o)

/-- `_raw_query` (`PerformanceMap.py:333-344`), with both NaN tests that follow every call: `none`
if either value is NaN. -/
def rawQuery (m : PklMap K) (inlet outlet oat : K) : Option (K × K) :=
  let row := if m.twoInput then [inlet, oat] else [inlet, outlet, oat]
  match m.outInterp row, m.inInterp row with
  | some o, some i => some (o, i)
  | _, _ => none

/-- The search loops of `_idx_nearest_oat` and `_nearest_outlet`: `i` is the index of the head of the
list, `best` and `idx` the loop variables. -/
def nearestLoop (x : K) : List K → Nat → K → Nat → Nat
  | [], _, _, idx => idx
  | t :: ts, i, best, idx =>
    if |t - x| < best then nearestLoop x ts (i + 1) |t - x| i else nearestLoop x ts (i + 1) best idx

/-- `_idx_nearest_oat` (`PerformanceMap.py:346-352`). -/
def idxNearestOat (m : PklMap K) (oat : K) : Py Nat :=
  match m.oats with
  | [] => .error .indexError
  | t :: ts => .ok (nearestLoop oat ts 1 |t - oat| 0)

/-- The loop of `_idx_nearest_inlet` (`PerformanceMap.py:362-365`). -/
def nearestInletLoop (x : K) : List (K × List K) → Nat → K → Nat → Nat
  | [], _, _, idx => idx
  | e :: es, i, best, idx =>
    if |e.1 - x| < best ∧ x ≤ e.1 then nearestInletLoop x es (i + 1) |e.1 - x| i
    else nearestInletLoop x es (i + 1) best idx

/-- `_idx_nearest_inlet` (`PerformanceMap.py:354-366`) on the entries of one OAT; the index `-1`
of the code is the last index. -/
def idxNearestInlet (entries : List (K × List K)) (inlet : K) : Py Nat :=
  match entries.getLast? with
  | none => .error .indexError
  | some e => .ok (nearestInletLoop inlet entries 0 |e.1 - inlet| (entries.length - 1))

/-- `_nearest_outlet` (`PerformanceMap.py:368-377`) on the outlets of one grid entry; `oat0` is
`_unique_oats[0]`, against which the code initialises its search. -/
def nearestOutlet (oat0 : K) (outlets : List K) (outlet : K) : Py K :=
  pyGet outlets (nearestLoop outlet outlets 0 |oat0 - outlet| 0)

/-- `_force_closest` (`PerformanceMap.py:379-413`). The `try` around the inlet search turns its
exceptions (an OAT index beyond the grid, an OAT without entries) into `None`. -/
def forceClosest (m : PklMap K) (inlet outlet oat : K) : Py (Option (K × K)) := do
  let oi ← m.idxNearestOat oat
  match (do let es ← pyGet m.grid oi; idxNearestInlet es inlet) with
  | .error _ => return none
  | .ok ii => do
    let so ← pyGet m.oats oi
    let es ← pyGet m.grid oi
    let e ← pyGet es ii
    let si := e.1
    match m.rawQuery si outlet so with
    | some r => return some r
    | none => do
      let oat0 ← pyGet m.oats 0
      let sOut ← nearestOutlet oat0 e.2 outlet
      match m.rawQuery si sOut so with
      | none => return none
      | some (o, i) =>
        if sOut < outlet ∧ si < outlet then
          let adj := o * ((outlet - si) - (sOut - si)) / (outlet - si)
          return some (o + adj, i + adj)
        else return some (o, i)

/-- `_er_per_unit_kw` (`PerformanceMap.py:415-419`). -/
def erPerUnit (m : PklMap K) : Py K :=
  match m.nominal with
  | some n => do
    let q ← fdiv n (m.numUnits : K)
    return q / wToKbtuh K
  | none => .ok m.outLow

/-- `_get_per_unit_kw` (`PerformanceMap.py:421-454`): `(output, input)` in kW per unit. -/
def perUnit (m : PklMap K) (oat : Option K) (inlet outlet : K) : Py (K × K) :=
  match oat with
  | none => .error .valueError
  | some oat => do
    let oatMax ← pyGet m.oats (m.oats.length - 1)
    if oatMax ≤ oat then return (m.outHigh, m.inHigh)
    else match m.rawQuery inlet outlet oat with
      | some r => return r
      | none => do
        let oatMin ← pyGet m.oats 0
        if oat < oatMin then do
          let er ← m.erPerUnit
          return (er, er)
        else do
          match ← m.forceClosest inlet outlet oat with
          | some r => return r
          | none => do
            let er ← m.erPerUnit
            return (er, er / (3 / 2))

/-- `get_capacity_kbtuh` (`PerformanceMap.py:460-468`). -/
def getCapacity (m : PklMap K) (oat : Option K) (outlet : K) (inlet : Option K) : Py K := do
  let (i, o) := m.resolveTemps outlet inlet
  let r ← m.perUnit oat i o
  return r.1 * m.numUnits * wToKbtuh K

/-- `get_power_in_kw` (`PerformanceMap.py:470-478`). -/
def getPower (m : PklMap K) (oat : Option K) (outlet : K) (inlet : Option K) : Py K := do
  let (i, o) := m.resolveTemps outlet inlet
  let r ← m.perUnit oat i o
  return r.2 * m.numUnits

end PklMap

/-- One entry of an HPWHsim map (`PerformanceMap.py:494-500`). -/
structure SimEntry (K : Type) where
  t : K
  cop : List K
  pow : List K

/-- `HPWHsimPerformanceMap` (`PerformanceMap.py:510-525`). -/
structure SimMap (K : Type) where
  entries : List (SimEntry K)
  numUnits : Nat
  multipass : Bool
  nominal : Option K
  designInlet : K

/-- `_linear_interp` (`PerformanceMap.py:534-536`). -/
def linearInterp (x x0 x1 y0 y1 : K) : Py K := do
  let q ← fdiv ((x - x0) * (y1 - y0)) (x1 - x0)
  return y0 + q

/-- `_quad` (`PerformanceMap.py:538-540`); a short coefficient list is an `IndexError`. -/
def quad (c : List K) (x : K) : Py K := do
  let c0 ← pyGet c 0
  let c1 ← pyGet c 1
  let c2 ← pyGet c 2
  return c0 + c1 * x + c2 * x * x

/-- `_poly11` (`PerformanceMap.py:542-552`). -/
def poly11 (c : List K) (oat out inl : K) : Py K :=
  match c with
  | c0 :: c1 :: c2 :: c3 :: c4 :: c5 :: c6 :: c7 :: c8 :: c9 :: c10 :: _ =>
    .ok (c0 + c1 * oat + c2 * out + c3 * inl + c4 * oat * oat + c5 * out * out + c6 * inl * inl
      + c7 * oat * out + c8 * oat * inl + c9 * out * inl + c10 * oat * out * inl)
  | _ => .error .indexError

/-- `_poly6` (`PerformanceMap.py:554-560`). -/
def poly6 (c : List K) (x1 x2 : K) : Py K :=
  match c with
  | c0 :: c1 :: c2 :: c3 :: c4 :: c5 :: _ =>
    .ok (c0 + c1 * x1 + c2 * x2 + c3 * x1 * x1 + c4 * x2 * x2 + c5 * x1 * x2)
  | _ => .error .indexError

namespace SimMap

/-- `_er_per_unit_kbtuh` (`PerformanceMap.py:562-573`). -/
def erPerUnit (m : SimMap K) : Py K :=
  match m.nominal with
  | some n => fdiv n (m.numUnits : K)
  | none =>
    match m.entries with
    | [] => .ok 0
    | e :: _ => do
      let inp ← quad e.pow m.designInlet
      let c ← quad e.cop m.designInlet
      return max (max c 0 * (inp / 1000) * wToKbtuh K) 0

/-- The interpolation between entries `i` and `j` (`PerformanceMap.py:606-614`): `(cop, kW)`. -/
def between (m : SimMap K) (i j : Nat) (oat inlet : K) : Py (K × K) := do
  let e1 ← pyGet m.entries i
  let e2 ← pyGet m.entries j
  let c1 ← quad e1.cop inlet
  let c2 ← quad e2.cop inlet
  let p1 ← quad e1.pow inlet
  let p2 ← quad e2.pow inlet
  let cop ← linearInterp oat e1.t e2.t c1 c2
  let kw ← linearInterp oat e1.t e2.t (p1 / 1000) (p2 / 1000)
  return (cop, kw)

/-- `_get_per_unit_kbtuh` (`PerformanceMap.py:575-625`): `(output, input)` in kBTU/hr per unit. The
loop over the entries stops at the first whose temperature is above the OAT. -/
def perUnit (m : SimMap K) (oat : Option K) (inlet outlet : K) : Py (K × K) :=
  match oat with
  | none => .error .valueError
  | some oat =>
    match m.entries with
    | [] => do
      let er ← m.erPerUnit
      return (er, er)
    | [e] => do
      let kw ← (if m.multipass then poly6 e.pow oat inlet else poly11 e.pow oat outlet inlet)
      let cop ← (if m.multipass then poly6 e.cop oat inlet else poly11 e.cop oat outlet inlet)
      return (cop * kw * wToKbtuh K, kw * wToKbtuh K)
    | _ =>
      match m.entries.findIdx? (fun e => decide (oat < e.t)) with
      | some 0 => do
        let er ← m.erPerUnit
        return (er, er)
      | some (i + 1) => do
        let r ← m.between i (i + 1) oat inlet
        return (r.1 * r.2 * wToKbtuh K, r.2 * wToKbtuh K)
      | none => do
        let r ← m.between (m.entries.length - 2) (m.entries.length - 1) oat inlet
        return (r.1 * r.2 * wToKbtuh K, r.2 * wToKbtuh K)

/-- `get_capacity_kbtuh` (`PerformanceMap.py:631-639`). -/
def getCapacity (m : SimMap K) (oat : Option K) (outlet : K) (inlet : Option K) : Py K := do
  let r ← m.perUnit oat (inlet.getD m.designInlet) outlet
  return r.1 * m.numUnits

/-- `get_power_in_kw` (`PerformanceMap.py:641-649`). -/
def getPower (m : SimMap K) (oat : Option K) (outlet : K) (inlet : Option K) : Py K := do
  let r ← m.perUnit oat (inlet.getD m.designInlet) outlet
  return r.2 / wToKbtuh K * m.numUnits

end SimMap

/-- The concrete performance maps. -/
inductive PerfMap (K : Type) where
  /-- `NominalPerformanceMap` (`PerformanceMap.py:223-248`). -/
  | nominal (cap : K)
  | pkl (m : PklMap K)
  | sim (m : SimMap K)

namespace PerfMap

/-- `get_capacity_kbtuh` of the three classes. -/
def getCapacity (m : PerfMap K) (oat : Option K) (outlet : K) (inlet : Option K) : Py K :=
  match m with
  | .nominal cap => .ok cap
  | .pkl m => m.getCapacity oat outlet inlet
  | .sim m => m.getCapacity oat outlet inlet

/-- `get_power_in_kw` of the three classes; the nominal map inherits the stub that returns `None`
(`PerformanceMap.py:192-199`). -/
def getPower (m : PerfMap K) (oat : Option K) (outlet : K) (inlet : Option K) : Py (Option K) :=
  match m with
  | .nominal _ => .ok none
  | .pkl m => do return some (← m.getPower oat outlet inlet)
  | .sim m => do return some (← m.getPower oat outlet inlet)

/-- `get_cop` (`PerformanceMap.py:201-212`). -/
def getCop (m : PerfMap K) (oat : Option K) (outlet : K) (inlet : Option K) : Py (Option K) := do
  let cap ← m.getCapacity oat outlet inlet
  match ← m.getPower oat outlet inlet with
  | none => return none
  | some p => if p ≤ 0 then return none else return some (cap / wToKbtuh K / p)

/-- The map for another number of identical units. -/
def withUnits (m : PerfMap K) (n : Nat) : PerfMap K :=
  match m with
  | .nominal cap => .nominal cap
  | .pkl m => .pkl { m with numUnits := n }
  | .sim m => .sim { m with numUnits := n }

end PerfMap

end Eco
