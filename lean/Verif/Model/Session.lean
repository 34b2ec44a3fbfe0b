import Verif.Model.Report

/-!
Model of an `EcosizerEngine` object for the schematic without recirculation, and of the sequences of calls a user can make on
it. The figure of `plot_simulation` is that of the run (`SimRun.shades` and the traces); here the call is the simulation it
starts.
-/

namespace Eco
variable {K : Type} [Field K] [LinearOrder K]

/-- The class `DHWSystem` as the engine calls it: `from_size` (`DHWSystem.py:136-221`) and the constructor with a
`StratifiedTank` (`EcosizerEngine.py:1005-1023`, `DHWSystem.py:63-134`), whose slope is 2.8 if none is passed. A missing volume is
a `ValueError`. The engine picks this class for the schematic `primary_no_recirc` alone, so the class argument is not looked at
and the theorems ask for that schematic. -/
def dhwApi (db : ShapeFiles K) (model : String → Nat → K → Option K → Py (PerfMap K)) (invCdf : K → K) :
    SystemApi K (DhwSys K × Prim K) where
  fromSize _ b a := dhwFromSize db b a
  construct _ a :=
    match a.tankVol with
    | none => .error .valueError
    | some v => .ok ({ cfg := ⟨a.supply, a.storage, a.maxRunHr.getD 24, a.defrost⟩ },
        ⟨a.supply, a.storage, a.heaters, some (StratTank.new v (a.slope.getD (28 / 10)))⟩)
  model := model
  invCdf := invCdf

/-- An engine object after its constructor: its parameters, building and system (`EcosizerEngine.py:464-681`). -/
structure EngineObj (K : Type) where
  params : EngineParams K
  sys : DhwSys K
  prim : Prim K
  bld : Building K

/-- The constructor (`EcosizerEngine.py:464-681`). -/
def EngineObj.new (db : ShapeFiles K) (t : ClimateZone.Tables K) (model : String → Nat → K → Option K → Py (PerfMap K))
    (invCdf : K → K) (p : EngineParams K) : Py (EngineObj K) := do
  let r ← p.build (dhwApi db model invCdf) db t
  return ⟨p, r.2.1, r.2.2, r.1⟩

/-- The public calls (`EcosizerEngine.py:1145-1381`). A simulation is called with a deficit threshold and a number of minutes
(`SimulationRun.py:35-60`). -/
inductive EngineCall (K : Type) where
  | results
  | magnitude
  | plot (slope : K)
  | simulate (threshold : K) (maxMin : Int) (duration : String)

/-- What a call returns. -/
inductive EngineAnswer (K : Type) where
  | results (r : SizingResults K)
  | magnitude (gal : K)
  | plot (fig pts : CurvePlot K)
  | run (r : SimRun K)

/-- What a simulation that raised can leave of a system: its heaters with any on/off state, its tank with any contents. -/
def Prim.Leftover (s s' : Prim K) : Prop :=
  s'.supply = s.supply ∧ s'.storage = s.storage ∧
  List.Forall₂ (fun w w' => w'.perf = w.perf ∧ w'.sched = w.sched ∧ w'.cmap = w.cmap) s.heaters s'.heaters ∧
  s'.tank.map (fun t => (t.vol, t.slope)) = s.tank.map (fun t => (t.vol, t.slope))

/-- One call: the object before, the call, the object after and the answer or exception. `get_sizing_results`
(`EcosizerEngine.py:1145-1164`), `get_hw_magnitude` (`:1236-1244`), `plot_sizing_curve` (`:1290-1381`), `simulate_3day` and
`simulate_annual` (`:1170-1199`, `Simulator.py:113-146`) and `plot_simulation` (`:1246-1288`). Where exactly a simulation
was when it raised is left open (`Prim.Leftover`). -/
inductive EngineObj.Step [FloorRing K] (db : ShapeFiles K) (invCdf : K → K) :
    EngineObj K → EngineCall K → EngineObj K → Py (EngineAnswer K) → Prop
  | results (e) : Step db invCdf e .results e (.ok (.results (sizingResults e.sys)))
  | magnitude (e) : Step db invCdf e .magnitude e (.ok (.magnitude e.bld.dailyGal))
  | plot (e) (slope : K) :
      Step db invCdf e (.plot slope)
        { e with sys := (enginePlot baseMethods db invCdf e.params e.sys e.bld slope).1.1,
                 bld := (enginePlot baseMethods db invCdf e.params e.sys e.bld slope).1.2 }
        ((enginePlot baseMethods db invCdf e.params e.sys e.bld slope).2.map (fun r => .plot r.1 r.2))
  | run (e) (thr : K) (maxMin : Int) (d : String) (p : Prim K) (r : SimRun K)
      (h : e.prim.simulate e.bld thr maxMin d = .ok (p, r)) :
      Step db invCdf e (.simulate thr maxMin d) { e with prim := p } (.ok (.run r))
  | raised (e) (thr : K) (maxMin : Int) (d : String) (p : Prim K) (x : PyErr)
      (h : e.prim.simulate e.bld thr maxMin d = .error x) (hp : e.prim.Leftover p) :
      Step db invCdf e (.simulate thr maxMin d) { e with prim := p } (.error x)

/-- A history of calls, whatever their answers. -/
inductive EngineObj.History [FloorRing K] (db : ShapeFiles K) (invCdf : K → K) :
    EngineObj K → List (EngineCall K) → EngineObj K → Prop
  | nil (e) : History db invCdf e [] e
  | cons {e e1 e2 q qs a} (h : EngineObj.Step db invCdf e q e1 a) (hs : History db invCdf e1 qs e2) :
      History db invCdf e (q :: qs) e2

end Eco
