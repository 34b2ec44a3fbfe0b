import Verif.Model.Size

/-!
Model of the sizing of `objects/dhwsystems/rtp_systems/RTPSystem.py` and
`objects/dhwsystems/rtp_systems/SinglePassRTPSystem.py`.

The load-shift overrides of the single-pass class change `building.daily_dhw_use_supplyT_gal` while the base method
runs and change it back in a `finally`. They are modelled as functions that return the building as well
(`boosted`), and the calculation inside `size` is modelled twice: with the building as a state that every call may
change (`sizeCoreSt`), and, as for the other classes, with methods that only read it (`spMethods`). `Props/Rtp.lean`
proves that both are the same.
-/

namespace Eco
variable {K : Type} [Field K] [LinearOrder K]

/-- The loop settings of an `RTPSystem` (`RTPSystem.py:51-52`). -/
structure RtpLoop (K : Type) where
  ret : K
  flow : K

/-- `get_recirc_loss_kbtuh` (`RTPSystem.py:58-76`). -/
def rtpLossKbtuh (c : SysCfg K) (l : RtpLoop K) : K := l.flow * 60 * rhoCp K * (c.supply - l.ret) / 1000

/-- `recirc_cap` (`RTPSystem.py:105-110`, `:145-150`, `SinglePassRTPSystem.py:157-162`). -/
def rtpRecircCap (c : SysCfg K) (l : RtpLoop K) : Py K := do
  let a ← fdiv (rtpLossKbtuh c l * 24) c.maxRunHr
  fdiv a c.defrost

/-- `_calc_required_capacity` (`RTPSystem.py:82-111`). -/
def rtpRequiredCapacity (l : RtpLoop K) (c : SysCfg K) (b : Building K) : Py K := do
  let dhw ← requiredCapacity c b
  let r ← rtpRecircCap c l
  return dhw + r

/-- `_calc_required_capacity_ls_kbtuh` (`RTPSystem.py:113-151`); `gen` is the overridable
`_calc_gen_rate_ls_gph`. -/
def rtpRequiredCapacityLs (l : RtpLoop K)
    (gen : SysCfg K → List String → ControlMap K → Building K → K → K → Py K)
    (c : SysCfg K) (sched : List String) (m : ControlMap K) (b : Building K) (slope fract : K) : Py K := do
  let dhw ← requiredCapacityLs gen c sched m b slope fract
  let r ← rtpRecircCap c l
  return dhw + r

/-- `recirc_daily_supplyT_gal` (`SinglePassRTPSystem.py:216-222`, `:249-255`, `:305-311`). -/
def recircDaily (c : SysCfg K) (l : RtpLoop K) (b : Building K) : Py K := do
  let inlet ← requireDesignInlet b
  let q ← fdiv (rtpLossKbtuh c l * 1000) (rhoCp K * (c.supply - inlet))
  return q * 24

/-- `building.daily_dhw_use_supplyT_gal += r; try: … finally: building.daily_dhw_use_supplyT_gal -= r`
(`SinglePassRTPSystem.py:257-264`, `:313-320`). -/
def boosted (b : Building K) (r : K) (f : Building K → Py K) : Building K × Py K :=
  let b1 := { b with dailyGal := b.dailyGal + r }
  let res := f b1
  ({ b1 with dailyGal := b1.dailyGal - r }, res)

/-- `_calc_running_volume_supplyT_gal` (`SinglePassRTPSystem.py:184-229`): the recirculation volume is computed, and
may raise, but the lines that use it are commented out. -/
def spRunVol (l : RtpLoop K) (c : SysCfg K) (b : Building K) : Py K := do
  let _ ← recircDaily c l b
  runningVolume b.dailyGal c.maxRunHr b.peakShape

/-- `_calc_gen_rate_ls_gph` (`SinglePassRTPSystem.py:231-264`). -/
def spGenRateLs (l : RtpLoop K) (c : SysCfg K) (sched : List String) (m : ControlMap K) (b : Building K)
    (slope fract : K) : Building K × Py K :=
  match recircDaily c l b with
  | .error e => (b, .error e)
  | .ok r => boosted b r (fun b => genRateLs c sched m b slope fract)

/-- `_calc_running_volume_ls_supplyT_gal` (`SinglePassRTPSystem.py:266-320`). -/
def spRunVolLs (l : RtpLoop K) (c : SysCfg K) (sched : List String) (b : Building K) (gen fract : K) :
    Building K × Py K :=
  match recircDaily c l b with
  | .error e => (b, .error e)
  | .ok r => boosted b r (fun b => runningVolumeLs sched b gen fract)

/-- The methods of `SinglePassRTPSystem` as functions that read the building. -/
def spMethods (l : RtpLoop K) : SizingMethods K where
  reqCapacity := rtpRequiredCapacity l
  runVol := fun c b _ => spRunVol l c b
  genRateLs := fun c sched m b slope fract => (spGenRateLs l c sched m b slope fract).2
  reqCapacityLs := rtpRequiredCapacityLs l (fun c sched m b slope fract => (spGenRateLs l c sched m b slope fract).2)
  runVolLs := fun c sched b gen fract => (spRunVolLs l c sched b gen fract).2

/-! ### The same calculation with the building as a state -/

/-- A computation that may change the building, even when it raises. -/
abbrev StPy (K α : Type) := Building K → Building K × Py α

/-- Sequencing; an exception keeps the building as it is at that moment. -/
def StPy.bind {α β : Type} (x : StPy K α) (f : α → StPy K β) : StPy K β := fun b =>
  match x b with
  | (b', .error e) => (b', .error e)
  | (b', .ok a) => f a b'

/-- A computation that only reads the building. -/
def StPy.read {α : Type} (f : Building K → Py α) : StPy K α := fun b => (b, f b)

/-- `RTPSystem._calc_required_capacity_ls_kbtuh` on a single-pass system, which calls
`self._calc_gen_rate_ls_gph` (`RTPSystem.py:142-151`, `DHWSystem.py:1424-1428`). -/
def spRequiredCapacityLsSt (l : RtpLoop K) (c : SysCfg K) (sched : List String) (m : ControlMap K) (slope fract : K) :
    StPy K K :=
  (StPy.read requireDesignInlet).bind fun inlet =>
  StPy.bind (fun b => spGenRateLs l c sched m b slope fract) fun g =>
  (StPy.read (fun _ => capacityOfGenRate c g inlet)).bind fun dhw =>
  StPy.read fun _ => rtpRecircCap c l >>= fun r => .ok (dhw + r)

/-- `sizeCore` (`DHWSystem.py:344-369`) of a single-pass system, with the building as a state. -/
def sizeCoreSt (l : RtpLoop K) (c : SysCfg K) (ls : Option (List String × ControlMap K))
    (cmap : Option (ControlMap K)) (slope fract : K) : StPy K (K × K) :=
  (StPy.read requireDesignInlet).bind fun inlet =>
  (StPy.read (rtpRequiredCapacity l c)).bind fun cap =>
  (StPy.read (spRunVol l c)).bind fun rv =>
  (StPy.read (fun _ => stratFactor c cmap slope inlet)).bind fun sf =>
  (StPy.read (fun _ => storageVolume rv sf)).bind fun st =>
  match ls with
  | none => StPy.read fun _ => .ok (cap, st)
  | some (sched, m) =>
    (spRequiredCapacityLsSt l c sched m slope fract).bind fun capLs =>
    StPy.bind (fun b => spGenRateLs l c sched m b slope fract) fun gen =>
    StPy.bind (fun b => spRunVolLs l c sched b gen fract) fun rvLs =>
    (StPy.read (fun _ => storageVolumeLs c rvLs m slope inlet)).bind fun stLs =>
    StPy.read fun _ => .ok (max cap capLs, max st stLs)

/-- A `SinglePassRTPSystem`. -/
structure SpSys (K : Type) where
  base : DhwSys K
  loop : RtpLoop K
  recircCap : Option K := none

/-- `size` (`SinglePassRTPSystem.py:126-162`): the base sizing, then the recirculation share from the run hours that
the base sizing has restored. -/
def SpSys.size (db : ShapeFiles K) (s : SpSys K) (b : Building K) (sched : Option (List String))
    (cmap : Option (ControlMap K)) (slope fract : K) : (SpSys K × Building K) × Py Warnings :=
  match Eco.size (spMethods s.loop) db s.base b sched cmap slope fract with
  | ((base, b'), .error e) => (({ s with base := base }, b'), .error e)
  | ((base, b'), .ok ws) =>
    match rtpRecircCap base.cfg s.loop with
    | .error e => (({ s with base := base }, b'), .error e)
    | .ok r => (({ s with base := base, recircCap := some r }, b'), .ok ws)

/-- `get_recirc_capacity_kbtuh` (`SinglePassRTPSystem.py:164-178`). -/
def SpSys.getRecircCapacity (s : SpSys K) : Py K :=
  match s.recircCap with
  | none => .error .runtimeError
  | some r => .ok r

end Eco
