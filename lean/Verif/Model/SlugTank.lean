import Verif.Model.EnergyTank

/-! `SlugOverlayTank` (`/repo/src/ecoengine/objects/components/storage/SlugOverlayTank.py`), a subclass of
`EnergyTank`. The inherited `draw`, `heat`, `add_energy_btu` and `add_recirc_return` act on `base` alone.
Volume and slope are divisors; the theorems assume them positive. -/

namespace Eco
variable {K : Type} [Field K] [LinearOrder K]

/-- The state of a `SlugOverlayTank` (`SlugOverlayTank.py:72-82`); `orig` is `_original_slug_vol_gal`, which the
code sets at activation and reads only while the slug is active. -/
structure SlugTank (K : Type) where
  base : EnergyTank K
  supply : K
  pu : K
  maxUsable : K
  active : Bool
  slugVol : K
  slugTemp : K
  slugTop : K
  orig : K

namespace SlugTank

/-- `__init__` (`SlugOverlayTank.py:47-82`). -/
def new (vol cold storage supply pu slope : K) : SlugTank K :=
  let coldPct := (1 - pu) * 100
  ⟨{ EnergyTank.new vol cold storage slope with coldPct := coldPct }, supply, pu, pu * vol, false, 0, cold, coldPct, 0⟩

/-- `initialize` (`SlugOverlayTank.py:88-123`). -/
def init (s : SlugTank K) (storage cold pu : K) : SlugTank K :=
  let b := { s.base with cold := cold, storage := storage }
  let s := { s with base := b, active := false, slugVol := 0, slugTemp := cold, slugTop := b.coldPct }
  if storage - cold ≤ 0 ∨ b.slope ≤ 0 ∨ pu ≤ 0 then { s with base := { b with energy := 0 } }
  else
    let xSupply := (1 - pu) * 100
    let shift := (s.supply - cold) / b.slope - xSupply
    { s with base := { b with energy := max 0 (min (b.energyAt shift) b.maxEnergy) } }

/-- The height expression used for `_slug_top_pct` (`SlugOverlayTank.py:165-168`, `:193-196`). -/
def topOf (s : SlugTank K) (vol : K) : K :=
  if 0 < s.base.vol then s.base.coldPct + vol / s.base.vol * 100 else s.base.coldPct

/-- `activate_slug` (`SlugOverlayTank.py:133-169`). -/
def activate (s : SlugTank K) (supply : K) : SlugTank K :=
  if s.active then s
  else
    let x := (supply - s.base.cold) / s.base.slope - s.base.shift
    let x := max s.base.coldPct (min 100 x)
    let vol := max 0 ((x - s.base.coldPct) / 100 * s.base.vol)
    let temp := if 0 < vol then s.base.zoneAvg s.base.coldPct x else s.base.cold
    { s with active := true, slugVol := vol, slugTemp := temp, slugTop := s.topOf vol, orig := vol }

/-- `add_to_slug` (`SlugOverlayTank.py:171-196`); the docstring's cap is not in the code. -/
def addToSlug (s : SlugTank K) (gal inlet : K) : SlugTank K :=
  if !s.active ∨ gal ≤ 0 then s
  else if s.slugVol ≤ 0 then { s with slugTemp := inlet, slugVol := gal, slugTop := s.topOf gal }
  else
    { s with
      slugTemp := (s.slugVol * s.slugTemp + gal * inlet) / (s.slugVol + gal)
      slugVol := s.slugVol + gal
      slugTop := s.topOf (s.slugVol + gal) }

/-- `heat_slug` (`SlugOverlayTank.py:198-211`); the docstring's cap is not in the code. -/
def heatSlug (s : SlugTank K) (kbtuh dur : K) : SlugTank K :=
  if !s.active ∨ s.slugVol ≤ 0 ∨ kbtuh ≤ 0 then s
  else { s with slugTemp := s.slugTemp + kbtuh * 1000 * dur / 60 / (s.slugVol * rhoCp K) }

/-- `deactivate_slug` (`SlugOverlayTank.py:218-254`). -/
def deactivate (s : SlugTank K) : SlugTank K :=
  if !s.active then s
  else
    let slugBtu := max 0 (s.slugVol * rhoCp K * (s.slugTemp - s.base.cold))
    let energy :=
      if 100 ≤ s.slugTop then slugBtu
      else
        let growth := s.slugVol - s.orig
        let aboveGal := max 0 (s.maxUsable - s.slugVol)
        let abovePct := 100 - s.slugTop
        let top := 100 - growth / s.base.vol * 100
        let aboveTemp := s.base.zoneAvg (top - abovePct) top
        max 0 (aboveGal * rhoCp K * (aboveTemp - s.base.cold)) + slugBtu
    { s with
      base := { s.base with energy := energy }
      active := false
      slugVol := 0
      orig := 0
      slugTemp := s.base.cold
      slugTop := s.base.coldPct }

/-- `get_average_draw_temp_f` (`SlugOverlayTank.py:260-276`). -/
def avgDraw (s : SlugTank K) (gal : K) : K :=
  if !s.active then s.base.avgDraw gal
  else
    let pct := gal / s.base.vol * 100
    if s.slugTop ≤ 100 - pct then s.base.avgDraw gal
    else
      let non := 100 - s.slugTop
      (s.base.avgDraw (s.base.vol * (non / 100)) * non + s.slugTemp * (pct - non)) / pct

/-- `get_temperature_at_fraction` (`SlugOverlayTank.py:278-298`). -/
def tempAt (s : SlugTank K) (fract : K) : K :=
  if !s.active then s.base.tempAt fract
  else
    let x := fract * 100
    if x < s.base.coldPct then s.base.cold
    else if x ≤ s.slugTop then max s.base.cold (min s.base.storage s.slugTemp)
    else s.base.tempAt (fract - (s.slugVol - s.orig) / s.base.vol)

/-- `get_usable_volume_supplyT_gal` (`SlugOverlayTank.py:300-312`). -/
def usable (s : SlugTank K) (supply : K) : K :=
  if !s.active then min (s.base.usable supply) (s.base.vol * s.pu)
  else (s.maxUsable - s.slugVol) + (if supply ≤ s.slugTemp then s.slugVol else 0)

/-- `draw_physical_gal` (`SlugOverlayTank.py:314-352`). -/
def drawPhysical (s : SlugTank K) (gal inlet : K) (updateCold : Bool) : SlugTank K :=
  if !s.active then { s with base := s.base.drawPhysical gal inlet updateCold }
  else
    let available := max 0 (s.maxUsable - s.slugVol)
    if available < gal then
      let s1 := { s with slugVol := s.slugVol - (gal - available) }
      { s1.addToSlug gal inlet with slugTop := 100, slugVol := s.maxUsable }
    else s.addToSlug gal inlet

end SlugTank

end Eco
