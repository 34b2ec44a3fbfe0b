import Verif.Model.Constants

/-! `StratifiedTank` (`/repo/src/ecoengine/objects/components/storage/StratifiedTank.py`).

Every query of the Python class divides by the tank volume and the slope, so a tank with volume or slope 0 raises
`ZeroDivisionError`. The functions here are total; all theorems about them assume a positive volume and slope, and the
system model (`Model/Simulate.lean`) raises the exception for a volume of 0. -/

namespace Eco
variable {K : Type} [Field K] [LinearOrder K]

/-- The state of a `StratifiedTank` (`StratifiedTank.py:37-61`). -/
structure StratTank (K : Type) where
  vol : K
  slope : K
  delta : K
  inter : K
  inlet : K
  outlet : K

namespace StratTank

/-- `__init__` (`StratifiedTank.py:37-61`). -/
def new (vol slope : K) : StratTank K := ⟨vol, slope, 0, 0, 50, 140⟩

/-- `initialize` (`StratifiedTank.py:67-98`). -/
def init (s : StratTank K) (storage cold pu : K) : StratTank K :=
  { s with inlet := cold, outlet := storage, delta := 0, inter := cold - s.slope * ((1 - pu) * 100) }

/-- `shift_pct` (`StratifiedTank.py:119`, `138`, `351`). -/
def shift (s : StratTank K) : K := s.delta / s.vol * 100

/-- `get_temperature_at_fraction` (`StratifiedTank.py:104-121`). -/
def tempAt (s : StratTank K) (fract : K) : K :=
  max s.inlet (min s.outlet (s.slope * (fract * 100 + s.shift) + s.inter))

/-- `get_usable_volume_supplyT_gal` (`StratifiedTank.py:123-142`). -/
def usable (s : StratTank K) (supply : K) : K :=
  let x := (supply - s.inter) / s.slope - s.shift
  let x := max 0 (min 100 x)
  (100 - x) / 100 * s.vol

/-- `_delta_gal_floor` (`StratifiedTank.py:148-164`). -/
def deltaFloor (s : StratTank K) (minTemp : Option K) : K :=
  let tFloor := minTemp.getD s.inlet
  ((tFloor - s.inter) / s.slope - 100) * s.vol / 100

/-- `get_average_draw_temp_f` (`StratifiedTank.py:328-382`). -/
def avgDraw (s : StratTank K) (gal : K) : K :=
  let draw := min gal s.vol
  if draw ≤ 0 then s.outlet
  else
    let xDraw := max 0 (100 - draw / s.vol * 100)
    let xCold := max 0 (min 100 ((s.inlet - s.inter) / s.slope - s.shift))
    let xHot := max 0 (min 100 ((s.outlet - s.inter) / s.slope - s.shift))
    let cold := s.inlet * max 0 (min 100 xCold - max xDraw 0)
    let a := max xDraw xCold
    let b := min 100 xHot
    let trans := if a < b
      then s.slope / 2 * ((b + s.shift) ^ 2 - (a + s.shift) ^ 2) + s.inter * (b - a)
      else 0
    let hot := s.outlet * max 0 (100 - max xDraw xHot)
    let width := 100 - xDraw
    if width ≤ 0 then s.outlet else (cold + trans + hot) / width

/-- The yield of a draw of `mid` gallons in supply-temperature gallons (`StratifiedTank.py:234-238`). -/
def yieldAt (s : StratTank K) (cold supply mid : K) : K :=
  let avg := s.avgDraw mid
  if cold < avg then mid * (avg - cold) / (supply - cold) else 0

/-- The binary search of `draw` (`StratifiedTank.py:232-244`) with at most `n` rounds left. -/
def search (s : StratTank K) (vol cold supply : K) : Nat → K → K → K × K
  | 0, lo, hi => (lo, hi)
  | n + 1, lo, hi =>
    let mid := (lo + hi) * (1 / 2)
    let (lo, hi) := if s.yieldAt cold supply mid < vol then (mid, hi) else (lo, mid)
    if hi - lo < 1 / 1000000 then (lo, hi) else search s vol cold supply n lo hi

/-- The physical volume `draw` takes, before the floor (`StratifiedTank.py:212-246`). `supply = cold` cannot reach the
search: then the volume is 0 and the average temperature is the outlet temperature. -/
def drawVol (s : StratTank K) (vol cold supply outlet : K) : K :=
  let phys := vol * (supply - cold) / (outlet - cold)
  if outlet - 1 / 1000000 ≤ s.avgDraw phys then phys
  else
    let (lo, hi) := s.search vol cold supply 52 phys s.vol
    min ((lo + hi) * (1 / 2)) s.vol

/-- `draw` (`StratifiedTank.py:166-247`). -/
def draw (s : StratTank K) (vol cold supply outlet : K) : StratTank K :=
  let s := { s with inlet := cold, outlet := outlet }
  if outlet ≤ cold ∨ vol ≤ 0 then s
  else { s with delta := max (s.delta - s.drawVol vol cold supply outlet) (s.deltaFloor (some supply)) }

/-- `heat` (`StratifiedTank.py:249-288`). -/
def heat (s : StratTank K) (kbtuh dur outlet : K) : StratTank K :=
  let s := { s with outlet := outlet }
  if kbtuh ≤ 0 ∨ outlet ≤ s.inlet then s
  else
    let kbtu := kbtuh * dur / 60
    let heated := kbtu * 1000 / (rhoCp K * (outlet - s.inlet))
    let cap := (outlet - s.inter) / s.slope * s.vol / 100
    { s with delta := min (s.delta + heated) cap }

/-- `add_recirc_return` (`StratifiedTank.py:290-326`). -/
def recirc (s : StratTank K) (flow ret dur : K) (supply : Option K) : StratTank K :=
  if s.outlet ≤ s.inlet then s
  else
    let tSupply := supply.getD s.outlet
    let loss := flow * dur * rhoCp K * (tSupply - ret) / 1000
    { s with delta := s.delta - loss * 1000 / (rhoCp K * (s.outlet - s.inlet)) }

/-- `draw_physical_gal` (`StratifiedTank.py:384-413`). -/
def drawPhysical (s : StratTank K) (gal inlet : K) (supply : Option K) : StratTank K :=
  let s := { s with inlet := inlet }
  if 0 < gal then { s with delta := max (s.delta - gal) (s.deltaFloor supply) } else s

/-- `get_stratification_factor` (`StratifiedTank.py:419-446`). -/
def stratFactor (s : StratTank K) (on supply storage : K) : K :=
  if storage ≤ supply then 0 else max 0 ((storage - supply) / s.slope * (1 - on))

end StratTank

end Eco
