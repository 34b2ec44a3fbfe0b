import Verif.Model.MultiPass
import Verif.Model.Swing
import Verif.Model.Simulate

/-! The same plant on another temperature scale: every water temperature is `d` degrees higher. -/

namespace Eco.Spec
variable {K : Type} [Field K] [LinearOrder K]

/-- Control settings with the three temperatures raised. -/
def hotterControls (d : K) (c : Controls K) : Controls K := ⟨c.onFract, c.onTrig + d, c.offFract, c.offTrig + d, c.outlet + d⟩

/-- All settings of a control map raised. -/
def hotterMap (d : K) (m : ControlMap K) : ControlMap K := m.map (fun p => (p.1, hotterControls d p.2))

/-- Supply and storage temperature raised. -/
def hotterCfg (d : K) (c : SysCfg K) : SysCfg K := ⟨c.supply + d, c.storage + d, c.maxRunHr, c.defrost⟩

/-- The cold water of all months raised; the outdoor air is left as it is. -/
def hotterClimate (d : K) (c : ClimateZone K) : ClimateZone K :=
  ⟨c.zoneId, c.oatByHour, c.inletByMonth.map (List.map (· + d)), c.constOat, c.constInlet.map (· + d)⟩

/-- A building with the cold water raised. -/
def hotterBuilding (d : K) (b : Building K) : Building K :=
  ⟨b.climate.map (hotterClimate d), b.dailyGal, b.peakShape, b.avgShape, b.buildingType⟩

/-- A system object: the settings raised, the sizing results untouched. -/
def hotterSys (d : K) (s : DhwSys K) : DhwSys K :=
  ⟨hotterCfg d s.cfg, s.minCap, s.minStorage, s.sizingSlope, s.heaterMap.map (hotterMap d)⟩

/-- A return-to-primary loop with the return temperature raised. -/
def hotterLoop (d : K) (l : RtpLoop K) : RtpLoop K := ⟨l.ret + d, l.flow⟩

/-- A parallel loop with its temperatures raised. -/
def hotterTm (d : K) (t : TmCfg K) : TmCfg K := ⟨t.ret + d, t.flow, t.on + d, t.off + d, t.offTime, t.sf, t.num⟩

/-- A swing system with its temperatures raised. -/
def hotterSwing (d : K) (s : SwingSys K) : SwingSys K :=
  ⟨hotterSys d s.base, s.ret + d, s.flow, s.sf, s.tmVol, s.tmCa, s.tmCap, s.effMix⟩

/-- A multi-pass system with its temperatures raised. -/
def hotterMp (d : K) (s : MpSys K) : MpSys K := ⟨hotterSys d s.base, hotterLoop d s.loop, s.avgOutlet.map (· + d)⟩

/-- The outcome of a call that changes the object and the building, with the temperatures raised. -/
def hotterOutcome {S W : Type} (f : S → S) (d : K) (r : (S × Building K) × Py W) : (S × Building K) × Py W :=
  ((f r.1.1, hotterBuilding d r.1.2), r.2)

/-! Simulated plants. -/

/-- `w'` has the settings of `w` raised, and the same capacity and power between the same two temperatures. -/
structure HotterHeater (d : K) (w w' : Heater K) : Prop where
  sched : w'.sched = w.sched
  cmap : w'.cmap = w.cmap.map (hotterMap d)
  active : w'.active = w.active
  capacity : ∀ oat outlet inlet, w'.getCapacity oat (outlet + d) (inlet.map (· + d)) = w.getCapacity oat outlet inlet
  power : ∀ oat outlet inlet, w'.getPower oat (outlet + d) (inlet.map (· + d)) = w.getPower oat outlet inlet

/-- The water of a stratified tank raised. -/
def hotterTank (d : K) (t : StratTank K) : StratTank K := ⟨t.vol, t.slope, t.delta, t.inter + d, t.inlet + d, t.outlet + d⟩

/-- The water of a mixed tank raised. -/
def hotterMixed (d : K) (t : MixedTank K) : MixedTank K := ⟨t.vol, t.temp + d, t.cold + d⟩

/-- `s'` is the primary system `s`, which has a tank with a positive slope, with all its temperatures raised. -/
structure HotterPrim (d : K) (s s' : Prim K) : Prop where
  supply : s'.supply = s.supply + d
  storage : s'.storage = s.storage + d
  heaters : List.Forall₂ (HotterHeater d) s.heaters s'.heaters
  tank : ∃ t, s.tank = some t ∧ 0 < t.slope ∧ s'.tank = some (hotterTank d t)

/-- `s'` is the parallel-loop system `s` with all its temperatures raised. -/
structure HotterParSim (d : K) (s s' : ParSim K) : Prop where
  prim : HotterPrim d s.prim s'.prim
  tmTank : s'.tmTank = hotterMixed d s.tmTank
  tmHeater : HotterHeater d s.tmHeater s'.tmHeater

/-- `s'` is the swing system `s`, whose tank has a positive slope, with all its temperatures raised. -/
structure HotterSwingSim (d : K) (s s' : SwingSim K) : Prop where
  supply : s'.supply = s.supply + d
  storage : s'.storage = s.storage + d
  heaters : List.Forall₂ (HotterHeater d) s.heaters s'.heaters
  slope : 0 < s.tank.slope
  tank : s'.tank = hotterTank d s.tank
  ret : s'.ret = s.ret + d
  flow : s'.flow = s.flow
  tm : s'.tm = hotterMixed d s.tm
  tmHeater : HotterHeater d s.tmHeater s'.tmHeater

/-- The heaters never aim below `cold`. -/
def AimAbove (ws : List (Heater K)) (storage cold : K) : Prop :=
  cold ≤ storage ∧ ∀ w ∈ ws, ∀ m, w.cmap = some m → ∀ p ∈ m, cold ≤ p.2.outlet

/-- The same report with the water temperatures raised. -/
def hotterOut (d : K) (o : StepOut K) : StepOut K :=
  { o with inlet := o.inlet + d, temps := o.temps.map (· + d), tmTemp := o.tmTemp.map (· + d), delivery := o.delivery.map (· + d) }

/-- The same run with the recorded water temperatures raised: the volumes, the heat, the power, the minutes without hot water and
the verdict are the same. -/
def hotterRun (d : K) (r : SimRun K) : SimRun K :=
  { r with inlet := r.inlet.map (· + d), temps := r.temps.map (List.map (· + d)), tmTemp := r.tmTemp.map (· + d),
           supply := r.supply.map (· + d) }

/-- A multi-pass tank with all its temperatures raised. -/
def hotterSlugTank (d : K) (t : SlugTank K) : SlugTank K :=
  { t with base := { t.base with cold := t.base.cold + d, storage := t.base.storage + d }, supply := t.supply + d,
           slugTemp := t.slugTemp + d }

/-- `s'` is the multi-pass system `s` with all its temperatures raised. -/
structure HotterMpSim (d : K) (s s' : MpSim K) : Prop where
  supply : s'.supply = s.supply + d
  storage : s'.storage = s.storage + d
  loop : s'.loop = hotterLoop d s.loop
  heaters : List.Forall₂ (HotterHeater d) s.heaters s'.heaters
  tank : s'.tank = hotterSlugTank d s.tank

/-- The same multi-pass run with the recorded temperatures raised. Multi-pass systems report the temperature at the top of the tank
as the outdoor temperature, so it is raised as well. -/
def hotterMpRun (d : K) (r : SimRun K) : SimRun K := { hotterRun d r with oat := r.oat.map (· + d) }

end Eco.Spec
