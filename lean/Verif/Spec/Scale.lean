import Verif.Model.Size
import Verif.Model.ParallelLoop
import Verif.Model.Rtp
import Verif.Model.MultiPass

/-! Buildings, systems and records of a different size. -/

namespace Eco.Spec
variable {K : Type} [Field K] [LinearOrder K]

/-- The same building with `k` times the daily hot water use. -/
def times (k : K) (b : Building K) : Building K := { b with dailyGal := k * b.dailyGal }

/-- The same system with `k` times the minimum capacity and storage. -/
def timesSys (k : K) (s : DhwSys K) : DhwSys K :=
  { s with minCap := s.minCap.map (k * ·), minStorage := s.minStorage.map (k * ·) }

/-- The same curve with `k` times the capacities and storage volumes. -/
def timesCurve (k : K) (c : Curve K) : Curve K := ⟨c.points.map (fun p => (p.1, k * p.2.1, k * p.2.2)), c.recIndex⟩

/-- The same loop with `k` times the flow. -/
def timesLoop (k : K) (l : RtpLoop K) : RtpLoop K := { l with flow := k * l.flow }

/-- The same temperature maintenance settings with `k` times the loop flow. -/
def timesTm (k : K) (t : TmCfg K) : TmCfg K := { t with flow := k * t.flow }

/-- `k` times the primary system, the loop flow and the temperature maintenance sizes. -/
def timesPar (k : K) (s : ParSys K) : ParSys K :=
  { s with base := timesSys k s.base, tm := timesTm k s.tm, minTmVol := s.minTmVol.map (k * ·), minTmCap := s.minTmCap.map (k * ·) }

/-- `k` times the system, the loop flow and the recirculation share. -/
def timesSp (k : K) (s : SpSys K) : SpSys K :=
  { s with base := timesSys k s.base, loop := timesLoop k s.loop, recircCap := s.recircCap.map (k * ·) }

/-- `k` times the system and the loop flow; the outlet temperature is the same. -/
def timesMp (k : K) (s : MpSys K) : MpSys K := { s with base := timesSys k s.base, loop := timesLoop k s.loop }

end Eco.Spec
