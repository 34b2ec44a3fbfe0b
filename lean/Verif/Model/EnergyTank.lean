import Verif.Model.Constants

/-! `EnergyTank` (`/repo/src/ecoengine/objects/components/storage/EnergyTank.py`).

The slope is a divisor; the theorems assume it positive. Literals such as `1e-6` are the exact rationals. -/

namespace Eco
variable {K : Type} [Field K] [LinearOrder K]

/-- The state of an `EnergyTank` (`EnergyTank.py:62-70`). -/
structure EnergyTank (K : Type) where
  vol : K
  cold : K
  storage : K
  slope : K
  energy : K
  coldPct : K

namespace EnergyTank

/-- `__init__` (`EnergyTank.py:42-70`). -/
def new (vol cold storage slope : K) : EnergyTank K := ⟨vol, cold, storage, slope, 0, 0⟩

/-- `_max_energy_btu` (`EnergyTank.py:76-79`). -/
def maxEnergy (s : EnergyTank K) : K := (1 - s.coldPct / 100) * s.vol * rhoCp K * (s.storage - s.cold)

/-- `_energy_at_shift_pct` (`EnergyTank.py:81-102`). -/
def energyAt (s : EnergyTank K) (sh : K) : K :=
  let dT := s.storage - s.cold
  if dT ≤ 0 then 0
  else
    let ramp := dT / s.slope
    let a := max s.coldPct (min 100 (-sh))
    let b := max s.coldPct (min 100 (ramp - sh))
    let i := s.slope / 2 * ((b + sh) ^ 2 - (a + sh) ^ 2) + dT * (100 - b)
    rhoCp K * s.vol / 100 * i

/-- The bisection of `_shift_pct_from_energy` (`EnergyTank.py:123-132`) with `n` rounds left. -/
def bisect (s : EnergyTank K) (e tol : K) : Nat → K → K → K
  | 0, lo, hi => (lo + hi) * (1 / 2)
  | n + 1, lo, hi =>
    let mid := (lo + hi) * (1 / 2)
    let eMid := s.energyAt mid
    if |eMid - e| < tol then (lo + hi) * (1 / 2)
    else if eMid < e then bisect s e tol n mid hi
    else bisect s e tol n lo mid

/-- `_shift_pct_from_energy` (`EnergyTank.py:104-132`). -/
def shift (s : EnergyTank K) : K :=
  let dT := s.storage - s.cold
  if dT ≤ 0 then 0
  else
    let e := max 0 (min s.energy s.maxEnergy)
    if e ≤ 0 then -100
    else if s.maxEnergy ≤ e then dT / s.slope
    else s.bisect e (1 / 1000000 * max e 1) 30 (-100) (dT / s.slope)

/-- `initialize` (`EnergyTank.py:138-163`). -/
def init (s : EnergyTank K) (storage cold pu : K) : EnergyTank K :=
  let s := { s with cold := cold, storage := storage }
  { s with energy := s.energyAt ((pu - 1) * 100) }

/-- `get_temperature_at_fraction` (`EnergyTank.py:169-182`). -/
def tempAt (s : EnergyTank K) (fract : K) : K :=
  let x := fract * 100
  if x < s.coldPct then s.cold
  else max s.cold (min s.storage (s.slope * (x + s.shift) + s.cold))

/-- `get_usable_volume_supplyT_gal` (`EnergyTank.py:184-189`). -/
def usable (s : EnergyTank K) (supply : K) : K :=
  let x := (supply - s.cold) / s.slope - s.shift
  let x := max 0 (min 100 x)
  (100 - x) / 100 * s.vol

/-- `draw` (`EnergyTank.py:195-214`). -/
def draw (s : EnergyTank K) (vol cold supply : K) : EnergyTank K :=
  let s := { s with cold := cold }
  if vol ≤ 0 ∨ supply ≤ cold then s
  else { s with energy := max 0 (s.energy - vol * rhoCp K * (supply - cold)) }

/-- `add_energy_btu` (`EnergyTank.py:216-219`). -/
def addEnergy (s : EnergyTank K) (btu : K) : EnergyTank K :=
  if 0 < btu then { s with energy := min (s.energy + btu) s.maxEnergy } else s

/-- `heat` (`EnergyTank.py:221-236`). -/
def heat (s : EnergyTank K) (kbtuh dur outlet : K) : EnergyTank K :=
  if kbtuh ≤ 0 ∨ outlet ≤ s.cold then s
  else { s with energy := min (s.energy + kbtuh * 1000 * dur / 60) s.maxEnergy }

/-- `add_recirc_return` (`EnergyTank.py:238-261`). -/
def recirc (s : EnergyTank K) (flow ret dur : K) (supply : Option K) : EnergyTank K :=
  let tSupply := supply.getD s.storage
  { s with energy := max 0 (s.energy - flow * dur * rhoCp K * (tSupply - ret)) }

/-- `_zone_average_temp_f` (`EnergyTank.py:263-298`). -/
def zoneAvg (s : EnergyTank K) (lo hi : K) : K :=
  if hi ≤ lo then s.cold
  else
    let dT := s.storage - s.cold
    let ramp := if 0 < dT then dT / s.slope else 0
    let xCold := max 0 (min 100 (-s.shift))
    let xHot := max 0 (min 100 (ramp - s.shift))
    let coldI := s.cold * max 0 (min hi xCold - max lo 0)
    let a := max lo xCold
    let b := min hi xHot
    let trans := if a < b then s.slope / 2 * ((b + s.shift) ^ 2 - (a + s.shift) ^ 2) + s.cold * (b - a) else 0
    let hot := s.storage * max 0 (min hi 100 - max lo xHot)
    (coldI + trans + hot) / (hi - lo)

/-- `get_average_draw_temp_f` (`EnergyTank.py:300-312`). -/
def avgDraw (s : EnergyTank K) (gal : K) : K :=
  let draw := min gal s.vol
  if draw ≤ 0 then s.storage
  else s.zoneAvg (max 0 (100 - draw / s.vol * 100)) 100

/-- `draw_physical_gal` (`EnergyTank.py:314-346`). -/
def drawPhysical (s : EnergyTank K) (gal inlet : K) (updateCold : Bool) : EnergyTank K :=
  let s := if updateCold then { s with cold := inlet } else s
  if gal ≤ 0 then s
  else { s with energy := max 0 (s.energy - gal * rhoCp K * max 0 (s.avgDraw gal - inlet)) }

end EnergyTank

end Eco
