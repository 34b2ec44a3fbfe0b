import Verif.Model.Swing
import Verif.Model.Heater

/-!
Model of `objects/dhwsystems/recirc_systems/SwingERTrdOffSystem.py`: the swing tank system whose element is enlarged
by an electric resistance (ER) addition.
-/

namespace Eco
variable {K : Type} [Field K] [LinearOrder K]

/-- A `SwingERTrdOffSystem` (`SwingERTrdOffSystem.py:70-97`). -/
structure ErSys (K : Type) where
  sw : SwingSys K
  erSf : K
  erCap : Option K

/-- `__init__` (`SwingERTrdOffSystem.py:70-97`). -/
def ErSys.new (c : SysCfg K) (ret flow sf erSf : K) : Py (ErSys K) :=
  (SwingSys.new c ret flow sf).map (fun s => ⟨s, erSf, none⟩)

/-- The temperature of the water that flows into the swing tank (`SwingERTrdOffSystem.py:390-400`). -/
def erFeed (inlet storage gen level hw : K) : K :=
  if hw ≤ 0 ∨ level + gen ≤ 0 then inlet
  else if hw ≤ level + gen then storage
  else ((level + gen) * storage + (hw - (level + gen)) * inlet) / hw

/-- The level of the primary storage after the minute (`SwingERTrdOffSystem.py:402-406`). -/
def erLevel (gen full level hw : K) : K := min (max (level + gen - hw) 0) full

/-- The swing tank's minute before the deficit is recorded (`SwingERTrdOffSystem.py:472-501`): element state and
temperature. -/
def erRaw (p : SwingParams K) (heating : Bool) (t hw feed : K) : Py (Bool × K) := do
  let mixed ← swingMixed p.vol t hw feed
  let loss ← fdiv (p.lossKbtuh * 1000 / 60) (rhoCp K * p.vol)
  let dT ← fdiv (p.capKbtuh * 1000 / 60) (rhoCp K * p.vol)
  let r ← swingElement p.supply heating (mixed - loss) dT
  return (r.1, r.2.1)

/-- `_run_one_swing_step_er` (`SwingERTrdOffSystem.py:427-509`): element state, temperature and deficit. -/
def erStep (p : SwingParams K) (heating : Bool) (t hw feed : K) : Py (Bool × K × K) := do
  let r ← erRaw p heating t hw feed
  return if r.2 < p.supply then (r.1, p.supply, p.supply - r.2) else (r.1, r.2, 0)

/-- One simulated minute: the state it starts from, what flows in, and the deficit that is recorded. -/
structure ErMin (K : Type) where
  heating : Bool
  temp : K
  level : K
  hw : K
  feed : K
  deficit : K
  deriving DecidableEq

/-- The inner loop of `_size_er_element` (`SwingERTrdOffSystem.py:375-412`). -/
def erRun (p : SwingParams K) (inlet storage gen full : K) :
    Bool → K → K → List K → Py (List (ErMin K))
  | _, _, _, [] => .ok []
  | heating, t, level, d :: ds => do
    let hw := swingDraw p.supply inlet t d
    let feed := erFeed inlet storage gen level hw
    let r ← erStep p heating t hw feed
    let rest ← erRun p inlet storage gen full r.1 r.2.1 (erLevel gen full level hw) ds
    return ⟨heating, t, level, hw, feed, r.2.2⟩ :: rest

/-- Both scenarios (`SwingERTrdOffSystem.py:369-412`): the primary storage starts empty, then full. -/
def erScenarios (p : SwingParams K) (inlet storage gen full : K) (ds : List K) : Py (List (ErMin K)) := do
  let empty ← erRun p inlet storage gen full false p.supply 0 ds
  let ready ← erRun p inlet storage gen full false p.supply full ds
  return empty ++ ready

/-- `max_deficit` (`SwingERTrdOffSystem.py:367`, `411-412`). -/
def maxDeficit (rows : List (ErMin K)) : K := rows.foldl (fun m r => if m < r.deficit then r.deficit else m) 0

/-- The 48 hours of demand from the first peak (`SwingERTrdOffSystem.py:351-361`) [gal/h at supply temperature]. With a
zero `max_daily_run_hr` numpy's `1/0` is infinite and there is no peak. -/
def erHours (c : SysCfg K) (b : Building K) : List K :=
  let peaks := if c.maxRunHr = 0 then [] else peakIndices (b.peakShape.map (fun f => 1 / c.maxRunHr - f))
  let day := b.peakShape.map (fun f => f * b.dailyGal)
  ((day ++ day ++ day).drop (peaks.head?.getD 0)).take 48

/-- The capacity added by `_size_er_element` (`SwingERTrdOffSystem.py:297-422`) [kBTU/h]: `p` carries the base
element, `minCap` and `full` are the primary capacity and volume. A shape that does not have 24 entries fails to broadcast
(a one-entry shape, which would broadcast, is treated the same). -/
def erCapacity (c : SysCfg K) (p : SwingParams K) (minCap full erSf : K) (b : Building K) : Py K := do
  let inlet ← requireDesignInlet b
  let g ← fdiv (minCap * 1000) (rhoCp K * (c.storage - inlet))
  if b.peakShape.length ≠ 24 then .error .valueError
  else
    let rows ← erScenarios p inlet c.storage (g / 60) full (perMinute (erHours c b))
    return p.vol * rhoCp K * 60 * maxDeficit rows / 1000 * erSf

/-- `_size_er_element` (`SwingERTrdOffSystem.py:297-425`): the object left behind, and the outcome. An object that has
not been sized fails with a `TypeError` on `None`. -/
def ErSys.sizeEr (e : ErSys K) (b : Building K) : ErSys K × Py Unit :=
  let r : Py K :=
    match e.sw.params, e.sw.base.minCap, e.sw.base.minStorage with
    | .ok p, some cap, some full => erCapacity e.sw.base.cfg p cap full e.erSf b
    | _, _, _ => do
      let _ ← requireDesignInlet b
      .error .typeError
  match r with
  | .error x => (e, .error x)
  | .ok er => ({ e with erCap := some er, sw := { e.sw with tmCap := e.sw.tmCap.map (· + er) } }, .ok ())

/-- `size` (`SwingERTrdOffSystem.py:277-295`). -/
def ErSys.size (db : ShapeFiles K) (e : ErSys K) (b : Building K) (sched : Option (List String))
    (cmap : Option (ControlMap K)) (slope fract : K) : (ErSys K × Building K) × Py Unit :=
  match e.sw.size db b sched cmap slope fract with
  | ((s, b'), .error x) => (({ e with sw := s }, b'), .error x)
  | ((s, b'), .ok ()) =>
    let r := ErSys.sizeEr { e with sw := s } b'
    ((r.1, b'), r.2)

/-- The capacity of one primary heater at design conditions (`SwingERTrdOffSystem.py:178-181`). A heater without a
performance map is an `AttributeError`. -/
def designCapacity (w : Heater K) (oat : Option K) (storage : K) (inlet : K) : Py K :=
  match w.perf with
  | none => .error .attributeError
  | some m => m.getCapacity oat storage (some inlet)

/-- `from_components` (`SwingERTrdOffSystem.py:103-204`): the system, and the heater of its swing tank. The constructor's
default `tm_safety_factor` is 1.2, `max_daily_run_hr` 24 and `defrost_factor` 1. -/
def ErSys.fromComponents (heaters : List (Heater K)) (tankVol tmVol tmCap : K) (b : Building K)
    (supply storage ret flow erSf : K) : Py (ErSys K × Heater K) := do
  let e ← ErSys.new ⟨supply, storage, 24, 1⟩ ret flow (6 / 5) erSf
  let oat ← b.getDesignOat
  let inlet ← requireDesignInlet b
  let caps ← heaters.mapM (fun w => designCapacity w oat storage inlet)
  let e1 : ErSys K := { e with sw := { e.sw with
    base := { e.sw.base with minCap := some caps.sum, minStorage := some tankVol },
    tmVol := some tmVol, tmCap := some tmCap } }
  match e1.sizeEr b with
  | (_, .error x) => .error x
  | (e2, .ok ()) => return (e2, Heater.fromNominal (e2.sw.tmCap.getD 0) (some (List.replicate 24 "normal"))
      (some [("normal", swingControls supply)]))

/-- The percentages that are tried (`SwingERTrdOffSystem.py:578-599`), from the highest down. -/
def erPercents : List Nat := [120, 110, 100, 90, 80, 70, 60, 50, 40, 30, 20, 10]

/-- One iteration of `get_er_sized_points` for a percentage other than 100 (`SwingERTrdOffSystem.py:585-592`): the object
and building left behind and the outcome. `tm` is the base element, `sf` the original and `extra` the additional safety
factor. -/
def erIteration (tm daily sf extra : K) (e : ErSys K) (b : Building K) (i : Nat) :
    (ErSys K × Building K) × Py Unit :=
  let b1 := { b with dailyGal := daily * ((i : K) / 100) }
  let e1 : ErSys K := { sw := { e.sw with tmCap := some tm }, erCap := none, erSf := extra }
  match e1.sizeEr b1 with
  | (e2, .error x) => ((e2, b1), .error x)
  | (e2, .ok ()) => (({ e2 with erSf := sf }, b1), .ok ())

/-- The loop (`SwingERTrdOffSystem.py:579-599`): the object and building left behind, and the points in the order they are
computed. `total` is the original element. -/
def erPoints (total tm daily sf extra : K) :
    ErSys K → Building K → List Nat → (ErSys K × Building K) × Py (List (Nat × K))
  | e, b, [] => ((e, b), .ok [])
  | e, b, i :: is =>
    if i = 100 then
      let r := erPoints total tm daily sf extra e b is
      (r.1, r.2.map (fun ps => (i, total) :: ps))
    else
      match erIteration tm daily sf extra e b i with
      | (eb, .error x) => (eb, .error x)
      | (eb, .ok ()) =>
        let x := eb.1.sw.tmCap.getD 0
        if 0 < eb.1.erCap.getD 0 then
          let r := erPoints total tm daily sf extra eb.1 eb.2 is
          (r.1, r.2.map (fun ps => (i, x) :: ps))
        else (eb, .ok [(i, x)])

/-- What `get_er_sized_points` answers: rounded element capacities [kW], percentages, and the index of the start point. -/
structure ErCurve (K : Type) where
  kw : List Int
  percents : List Nat
  start : Nat

/-- The lists of the answer (`SwingERTrdOffSystem.py:594-609`): both are reversed at the end, and the start index, `0` unless the
loop reached 100, is counted from the other end. -/
def erCurve [FloorRing K] (ps : List (Nat × K)) : ErCurve K :=
  ⟨(ps.map (fun p => pyRound (p.2 / wToKbtuh K))).reverse, (ps.map (·.1)).reverse,
    ps.length - 1 - (if 100 ∈ ps.map (·.1) then (ps.map (·.1)).idxOf 100 else 0)⟩

/-- `get_er_sized_points` (`SwingERTrdOffSystem.py:529-611`): the object and building left behind, and the outcome. -/
def ErSys.getErSizedPoints [FloorRing K] (e : ErSys K) (b : Building K) (extra : K) :
    (ErSys K × Building K) × Py (ErCurve K) :=
  match e.erCap, e.sw.tmCap with
  | some er, some total =>
    if er ≤ 0 then ((e, b), .error .runtimeError)
    else
      match erPoints total (total - er) b.dailyGal e.erSf extra e b erPercents with
      | (eb, .error x) => (eb, .error x)
      | (eb, .ok ps) =>
        (({ eb.1 with sw := { eb.1.sw with tmCap := some total }, erCap := some er },
          { eb.2 with dailyGal := b.dailyGal }), .ok (erCurve ps))
  | some er, none => ((e, b), .error (if er ≤ 0 then .runtimeError else .typeError))
  | none, _ => ((e, b), .error .runtimeError)

end Eco
