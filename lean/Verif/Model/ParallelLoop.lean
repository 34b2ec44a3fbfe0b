import Verif.Model.Size
import Verif.Model.Heater
import Verif.Model.MixedTank

/-! `recirc_systems/RecircSystem.py` and `recirc_systems/ParallelLoopSystem.py`: the temperature
maintenance (TM) tank beside the primary system. -/

namespace Eco
variable {K : Type} [Field K] [LinearOrder K]

/-- `get_recirc_loss_kbtuh` (`RecircSystem.py:55-74`). -/
def recircLossKbtuh (supply ret flow : K) : K := flow * (supply - ret) * rhoCp K * 60 / 1000

/-- `get_daily_recirc_loss_kbtu` (`RecircSystem.py:76-84`). -/
def dailyRecircLossKbtu (supply ret flow : K) : K := recircLossKbtuh supply ret flow * 24

/-- The loop and TM settings of a `ParallelLoopSystem` (`ParallelLoopSystem.py:110-116`). -/
structure TmCfg (K : Type) where
  ret : K
  flow : K
  on : K
  off : K
  offTime : K
  sf : K
  num : Nat

/-- A `ParallelLoopSystem` (`ParallelLoopSystem.py:100-120`). -/
structure ParSys (K : Type) where
  base : DhwSys K
  tm : TmCfg K
  minTmVol : Option K := none
  minTmCap : Option K := none
  tmTank : Option (MixedTank K) := none
  tmHeater : Option (Heater K) := none

/-- `_validate_tm_inputs` (`ParallelLoopSystem.py:239-260`); `_TM_MIN_RUNTIME_HR = 20/60`
(`ParallelLoopSystem.py:14`). -/
def validateTm (t : TmCfg K) : Py Unit :=
  if t.sf ≤ 1 then .error .valueError
  else if ¬ (0 < t.offTime ∧ t.offTime ≤ 1) then .error .valueError
  else if t.off ≤ t.on then .error .valueError
  else
    let expected := t.offTime / (t.sf - 1)
    if 20 / 60 ≥ expected then .error .valueError else .ok ()

/-- `size_tm_system` (`ParallelLoopSystem.py:292-316`): volume and capacity. -/
def sizeTm (supply : K) (t : TmCfg K) : Py (K × K) := do
  let lossBtu := recircLossKbtuh supply t.ret t.flow * 1000
  let q ← fdiv t.offTime (t.off - t.on)
  return (lossBtu / rhoCp K * q, t.sf * lossBtu / 1000)

/-- `size` (`ParallelLoopSystem.py:266-290`). `RecircSystem` does not override the sizing methods. -/
def ParSys.size (M : SizingMethods K) (db : ShapeFiles K) (s : ParSys K) (b : Building K)
    (sched : Option (List String)) (cmap : Option (ControlMap K)) (slope fract : K) :
    (ParSys K × Building K) × Py Warnings :=
  match validateTm s.tm with
  | .error e => ((s, b), .error e)
  | .ok () =>
    match Eco.size M db s.base b sched cmap slope fract with
    | ((base, b'), .error e) => (({ s with base := base }, b'), .error e)
    | ((base, b'), .ok w) =>
      match sizeTm base.cfg.supply s.tm with
      | .error e => (({ s with base := base }, b'), .error e)
      | .ok (v, c) => (({ s with base := base, minTmVol := some v, minTmCap := some c }, b'), .ok w)

/-- The controls of the TM heater (`ParallelLoopSystem.py:220-226`). -/
def tmControls (t : TmCfg K) : Controls K := ⟨1 / 2, t.on, 1 / 2, t.off, t.off⟩

/-- `from_size` (`ParallelLoopSystem.py:126-233`). -/
def ParSys.fromSize (M : SizingMethods K) (db : ShapeFiles K) (c : SysCfg K) (t : TmCfg K)
    (b : Building K) (sched : Option (List String)) (cmap : Option (ControlMap K)) (slope fract : K) :
    Building K × Py (ParSys K) :=
  match ParSys.size M db { base := { cfg := c }, tm := t } b sched cmap slope fract with
  | ((_, b'), .error e) => (b', .error e)
  | ((s, b'), .ok _) =>
    match s.minTmVol, s.minTmCap with
    | some v, some cap => (b', do
        let each ← fdiv cap (t.num : K)
        return { s with
          base := { s.base with heaterMap := cmap }
          tmTank := some ⟨v, 0, 0⟩
          tmHeater := some (Heater.fromNominal each (some (List.replicate 24 "normal"))
            (some [("normal", tmControls t)])) })
    | _, _ => (b', .error .typeError)

/-- What `simulate_step` records about the TM side (`ParallelLoopSystem.py:414-416`). -/
structure TmOut (K : Type) where
  temp : K
  kbtuh : K
  kw : Option K

/-- The TM part of `simulate_step` (`ParallelLoopSystem.py:381-416`): recirculation loss, heater
decision, heat. The first component is the state left behind, also on an exception. -/
def tmStep (t : TmCfg K) (oat : Option K) (hour : Nat) (dur : K) (s : MixedTank K × Heater K) :
    (MixedTank K × Heater K) × Py (TmOut K) :=
  if s.1.vol = 0 then (s, .error .zeroDivision)
  else
    let tank := s.1.recirc t.flow t.ret dur
    match s.2.updateState (fun f => .ok (tank.tempAt f)) hour with
    | (w, .error e) => ((tank, w), .error e)
    | (w, .ok ()) =>
      let top := tank.tempAt 1
      let inlet := (t.off + t.on) / 2
      match w.getOutput oat top (some inlet) with
      | .error e => ((tank, w), .error e)
      | .ok each =>
        let kbtuh := each * (t.num : K)
        match (if w.active then w.getPower oat top (some inlet) else .ok none) with
        | .error e => ((tank, w), .error e)
        | .ok kw =>
          let tank' := tank.heat kbtuh dur t.off
          ((tank', w), .ok ⟨tank'.tempAt (1 / 2), kbtuh, kw.map (· * (t.num : K))⟩)

/-- A simulated run of the TM side: `steps` calls of the TM part of `simulate_step` with interval
`dur`, starting at step number `start` (`Simulator.py`, `ParallelLoopSystem.py:384`). `oat` gives the
outdoor temperature recorded by the primary step. Stops where a step raises. -/
def tmRun (t : TmCfg K) (oat : Nat → Option K) (dur : Nat) :
    Nat → Nat → MixedTank K × Heater K → Py (MixedTank K × Heater K)
  | _, 0, s => .ok s
  | start, n + 1, s =>
    match tmStep t (oat start) ((start * dur / 60) % 24) (dur : K) s with
    | (_, .error e) => .error e
    | (s', .ok _) => tmRun t oat dur (start + 1) n s'

end Eco
