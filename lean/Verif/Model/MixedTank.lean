import Verif.Model.Constants

/-! `MixedStorageTank` (`/repo/src/ecoengine/objects/components/storage/MixedStorageTank.py`).

The volume is a divisor; a zero volume raises `ZeroDivisionError` in Python, the theorems assume it positive. -/

namespace Eco
variable {K : Type} [Field K] [LinearOrder K]

/-- The state of a `MixedStorageTank` (`MixedStorageTank.py:27-35`, `_cold_temp_f` from `:63`). -/
structure MixedTank (K : Type) where
  vol : K
  temp : K
  cold : K

namespace MixedTank

/-- `initialize` (`MixedStorageTank.py:41-63`). -/
def init (s : MixedTank K) (storage cold : K) : MixedTank K := { s with temp := storage, cold := cold }

/-- `get_temperature_at_fraction` (`MixedStorageTank.py:69-71`) and `get_average_draw_temp_f` (`:241-243`). -/
def tempAt (s : MixedTank K) (_fract : K) : K := s.temp

/-- `get_usable_volume_supplyT_gal` (`MixedStorageTank.py:73-75`). -/
def usable (s : MixedTank K) (supply : K) : K := if supply ≤ s.temp then s.vol else 0

/-- `draw` (`MixedStorageTank.py:81-125`). -/
def draw (s : MixedTank K) (vol cold supply : K) : MixedTank K :=
  let s := { s with cold := cold }
  if s.temp ≤ cold ∨ vol ≤ 0 then s
  else
    let phys := vol * (supply - cold) / max (s.temp - cold) (1 / 1000000)
    let remaining := s.vol - phys
    if remaining ≤ 0 then { s with temp := cold }
    else { s with temp := (remaining * rhoCp K * s.temp + phys * rhoCp K * cold) / (s.vol * rhoCp K) }

/-- `heat` (`MixedStorageTank.py:127-153`); the outlet temperature is not used (the cap is commented out). -/
def heat (s : MixedTank K) (kbtuh dur _outlet : K) : MixedTank K :=
  if kbtuh ≤ 0 then s
  else { s with temp := s.temp + kbtuh * dur / 60 * 1000 / (s.vol * rhoCp K) }

/-- `add_recirc_return` (`MixedStorageTank.py:155-188`). -/
def recirc (s : MixedTank K) (flow ret dur : K) : MixedTank K :=
  { s with temp := s.temp + flow * dur * (ret - s.temp) / s.vol }

/-- `apply_fixed_heat_loss_kbtuh` (`MixedStorageTank.py:190-209`). -/
def loss (s : MixedTank K) (kbtuh dur : K) : MixedTank K :=
  if kbtuh ≤ 0 ∨ dur ≤ 0 then s
  else { s with temp := s.temp - kbtuh * dur / 60 * 1000 / (s.vol * rhoCp K) }

/-- `mix_primary_inflow` (`MixedStorageTank.py:211-239`). -/
def mix (s : MixedTank K) (gal primary : K) : MixedTank K :=
  if gal ≤ 0 then s
  else
    let remaining := s.vol - gal
    if remaining ≤ 0 then { s with temp := primary }
    else { s with temp := (gal * rhoCp K * primary + remaining * rhoCp K * s.temp) / (s.vol * rhoCp K) }

/-- `draw_physical_gal` (`MixedStorageTank.py:245-269`). -/
def drawPhysical (s : MixedTank K) (gal inlet : K) : MixedTank K :=
  if gal ≤ 0 then s
  else
    let remaining := s.vol - gal
    if remaining ≤ 0 then { s with temp := inlet }
    else { s with temp := (remaining * rhoCp K * s.temp + gal * rhoCp K * inlet) / (s.vol * rhoCp K) }

end MixedTank

end Eco
