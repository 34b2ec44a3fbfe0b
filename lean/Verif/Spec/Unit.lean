import Verif.Model.ParallelLoop
import Verif.Model.MultiPass
import Verif.Model.Swing

/-! The same plant with all temperatures stretched: every water temperature is multiplied by `u`, and so is the heat that
warms a given amount of water from one temperature to another. -/

namespace Eco.Spec
variable {K : Type} [Field K] [LinearOrder K]

/-- Control settings with the three temperatures stretched. -/
def unitControls (u : K) (c : Controls K) : Controls K := ⟨c.onFract, u * c.onTrig, c.offFract, u * c.offTrig, u * c.outlet⟩

/-- All settings of a control map stretched. -/
def unitMap (u : K) (m : ControlMap K) : ControlMap K := m.map (fun p => (p.1, unitControls u p.2))

/-- Supply and storage temperature stretched. -/
def unitCfg (u : K) (c : SysCfg K) : SysCfg K := ⟨u * c.supply, u * c.storage, c.maxRunHr, c.defrost⟩

/-- The cold water of all months stretched; the outdoor air is left as it is. -/
def unitClimate (u : K) (c : ClimateZone K) : ClimateZone K :=
  ⟨c.zoneId, c.oatByHour, c.inletByMonth.map (List.map (u * ·)), c.constOat, c.constInlet.map (u * ·)⟩

/-- A building with the cold water stretched. -/
def unitBuilding (u : K) (b : Building K) : Building K :=
  ⟨b.climate.map (unitClimate u), b.dailyGal, b.peakShape, b.avgShape, b.buildingType⟩

/-- A system object: temperatures, the stored gradient and the capacity found are stretched, the storage volume
found is the same. -/
def unitSys (u : K) (s : DhwSys K) : DhwSys K :=
  ⟨unitCfg u s.cfg, s.minCap.map (u * ·), s.minStorage, s.sizingSlope.map (u * ·), s.heaterMap.map (unitMap u)⟩

/-- A return-to-primary loop stretched. -/
def unitLoop (u : K) (l : RtpLoop K) : RtpLoop K := ⟨u * l.ret, l.flow⟩

/-- A single-pass return-to-primary system stretched. -/
def unitSp (u : K) (s : SpSys K) : SpSys K := ⟨unitSys u s.base, unitLoop u s.loop, s.recircCap.map (u * ·)⟩

/-- The settings of a parallel loop stretched. -/
def unitTm (u : K) (t : TmCfg K) : TmCfg K := ⟨u * t.ret, t.flow, u * t.on, u * t.off, t.offTime, t.sf, t.num⟩

/-- A parallel-loop system stretched: the volume of the loop tank is the same (tank
and heater objects, which sizing does not read, are left as they are). -/
def unitPar (u : K) (s : ParSys K) : ParSys K :=
  { s with base := unitSys u s.base, tm := unitTm u s.tm, minTmCap := s.minTmCap.map (u * ·) }

/-- A multi-pass system stretched. -/
def unitMp (u : K) (s : MpSys K) : MpSys K := ⟨unitSys u s.base, unitLoop u s.loop, s.avgOutlet.map (u * ·)⟩

/-- A swing system stretched; volumes and the mix fraction are the same. -/
def unitSwing (u : K) (s : SwingSys K) : SwingSys K :=
  ⟨unitSys u s.base, u * s.ret, s.flow, s.sf, s.tmVol, s.tmCa, s.tmCap.map (u * ·), s.effMix⟩

/-- A sizing curve stretched: run hours and storage volumes are the same, capacities are multiplied. -/
def unitCurve (u : K) (c : Curve K) : Curve K := ⟨c.points.map (fun p => (p.1, u * p.2.1, p.2.2)), c.recIndex⟩

/-- The outcome of a call that changes the object and the building, stretched; warnings and exceptions are the same. -/
def unitOutcome {S W : Type} (f : S → S) (u : K) (r : (S × Building K) × Py W) : (S × Building K) × Py W :=
  ((f r.1.1, unitBuilding u r.1.2), r.2)

end Eco.Spec
