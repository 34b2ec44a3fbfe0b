import Verif.Model.ParallelLoop
import Verif.Props.Size
import Verif.Props.Demo
import Verif.Props.MixedTank
import Mathlib.Algebra.Order.Archimedean.Basic

set_option linter.unusedSectionVars false

/-! C64, C65 and C78: the temperature-maintenance tank of the parallel-loop system. -/

namespace Eco
variable {K : Type} [Field K] [LinearOrder K] [IsStrictOrderedRing K]

/-! ## C64: sizing -/

/-- **C64 (validation).** Parameters are accepted exactly if the safety factor exceeds 1, the off time is
positive and at most an hour, OFF is above ON, and the expected run time is longer than 20 minutes.
Everything else is a `ValueError`. -/
theorem C64_validation (t : TmCfg K) :
    (validateTm t = .ok () ↔ 1 < t.sf ∧ 0 < t.offTime ∧ t.offTime ≤ 1 ∧ t.on < t.off ∧
      20 / 60 < t.offTime / (t.sf - 1)) ∧
    (validateTm t ≠ .ok () → validateTm t = .error .valueError) := by
  unfold validateTm
  simp only [ge_iff_le]
  refine ⟨⟨fun h => ?_, fun ⟨h1, h2, h3, h4, h5⟩ => ?_⟩, fun h => ?_⟩
  · split_ifs at h with h1 h2 h3 h4
    exact ⟨not_le.1 h1, h2.1, h2.2, not_le.1 h3, not_le.1 h4⟩
  · rw [if_neg (not_le.2 h1), if_neg (not_not.2 ⟨h2, h3⟩), if_neg (not_le.2 h4), if_neg (not_le.2 h5)]
  · split_ifs at h ⊢ with h1 h2 h3 h4 <;> first | rfl | exact absurd rfl h

/-- The error text for a too short run time advises a higher safety factor. That never helps: a rejected
configuration stays rejected with every larger safety factor. -/
theorem C64_advice_never_helps (t : TmCfg K) (sf' : K) (hsf : t.sf ≤ sf')
    (hrun : t.offTime / (t.sf - 1) ≤ 20 / 60) (h1 : 1 < t.sf) :
    validateTm { t with sf := sf' } = .error .valueError := by
  refine (C64_validation { t with sf := sf' }).2 (fun h => ?_)
  obtain ⟨h2, h3, _, _, h5⟩ := (C64_validation { t with sf := sf' }).1.1 h
  have : t.offTime / (sf' - 1) ≤ t.offTime / (t.sf - 1) :=
    div_le_div_of_nonneg_left h3.le (by linarith) (by linarith)
  exact absurd h5 (not_lt.2 (this.trans hrun))

theorem loss_pos {supply ret flow : K} (h1 : 0 < flow) (h2 : ret < supply) :
    0 < recircLossKbtuh supply ret flow := by
  have hr := rho_pos (K := K)
  have : 0 < supply - ret := by linarith
  unfold recircLossKbtuh
  positivity

/-- The sized volume in plain form: minutes of off time times the loop's flow times the ratio of the two
temperature differences. -/
theorem sizeTm_eq {supply v c : K} {t : TmCfg K} (h : sizeTm supply t = .ok (v, c)) :
    t.off - t.on ≠ 0 ∧ v = t.flow * (supply - t.ret) * 60 * t.offTime / (t.off - t.on) ∧
      c = t.sf * recircLossKbtuh supply t.ret t.flow := by
  have hr := rho_pos (K := K)
  simp only [sizeTm, bind_eq_ok, pure_eq_ok, Except.ok.injEq, Prod.mk.injEq, fdiv_eq_ok] at h
  obtain ⟨q, ⟨h0, rfl⟩, rfl, rfl⟩ := h
  refine ⟨h0, ?_, ?_⟩
  · unfold recircLossKbtuh
    field_simp
  · field_simp

/-- **C64 (cooling).** A tank of the sized volume at OFF temperature, losing heat at the design rate,
is above ON for every shorter time and at ON after exactly the configured off time. -/
theorem C64_cools_in_off_time {supply v c : K} {t : TmCfg K} (hval : validateTm t = .ok ())
    (hs : sizeTm supply t = .ok (v, c)) (hf : 0 < t.flow) (hr : t.ret < supply) (cold : K) :
    (∀ m, 0 ≤ m → m < 60 * t.offTime →
      t.on < ((MixedTank.mk v t.off cold).loss (recircLossKbtuh supply t.ret t.flow) m).tempAt 0) ∧
    ((MixedTank.mk v t.off cold).loss (recircLossKbtuh supply t.ret t.flow) (60 * t.offTime)).tempAt 0
      = t.on := by
  obtain ⟨h1, h2, h3, h4, h5⟩ := (C64_validation t).1.1 hval
  obtain ⟨h0, rfl, -⟩ := sizeTm_eq hs
  have hrho := rho_pos (K := K)
  have hL := loss_pos hf hr
  have hD : 0 < supply - t.ret := by linarith
  have hB : 0 < t.off - t.on := by linarith
  have key : ∀ m, recircLossKbtuh supply t.ret t.flow * m / 60 * 1000 /
      (t.flow * (supply - t.ret) * 60 * t.offTime / (t.off - t.on) * rhoCp K)
      = m * (t.off - t.on) / (60 * t.offTime) := by
    intro m
    unfold recircLossKbtuh
    field_simp
  refine ⟨fun m hm hlt => ?_, ?_⟩
  · unfold MixedTank.loss MixedTank.tempAt
    split
    · exact h4
    · simp only [key]
      have : m * (t.off - t.on) / (60 * t.offTime) < t.off - t.on := by
        rw [div_lt_iff₀ (by linarith)]
        nlinarith
      linarith
  · unfold MixedTank.loss MixedTank.tempAt
    rw [if_neg (by push Not; exact ⟨hL, by linarith⟩)]
    simp only [key]
    field_simp
    ring

/-- **C64 (recovery).** With the sized heater on against the same loss, a tank at ON is below OFF for every
time shorter than off time/(safety factor − 1) and at OFF exactly then. -/
theorem C64_recovers {supply v c : K} {t : TmCfg K} (hval : validateTm t = .ok ())
    (hs : sizeTm supply t = .ok (v, c)) (hf : 0 < t.flow) (hr : t.ret < supply) (cold outlet : K) :
    (∀ m, 0 ≤ m → m < 60 * (t.offTime / (t.sf - 1)) →
      (((MixedTank.mk v t.on cold).heat c m outlet).loss (recircLossKbtuh supply t.ret t.flow) m).tempAt 0
        < t.off) ∧
    (((MixedTank.mk v t.on cold).heat c (60 * (t.offTime / (t.sf - 1))) outlet).loss
      (recircLossKbtuh supply t.ret t.flow) (60 * (t.offTime / (t.sf - 1)))).tempAt 0 = t.off := by
  obtain ⟨h1, h2, h3, h4, h5⟩ := (C64_validation t).1.1 hval
  obtain ⟨h0, rfl, rfl⟩ := sizeTm_eq hs
  have hrho := rho_pos (K := K)
  have hL := loss_pos hf hr
  have hD : 0 < supply - t.ret := by linarith
  have hB : 0 < t.off - t.on := by linarith
  have hS : 0 < t.sf - 1 := by linarith
  have hsf : 0 < t.sf := by linarith
  have key : ∀ m, recircLossKbtuh supply t.ret t.flow * m / 60 * 1000 /
      (t.flow * (supply - t.ret) * 60 * t.offTime / (t.off - t.on) * rhoCp K)
      = m * (t.off - t.on) / (60 * t.offTime) := by
    intro m
    unfold recircLossKbtuh
    field_simp
  have key2 : ∀ m, t.sf * recircLossKbtuh supply t.ret t.flow * m / 60 * 1000 /
      (t.flow * (supply - t.ret) * 60 * t.offTime / (t.off - t.on) * rhoCp K)
      = t.sf * (m * (t.off - t.on) / (60 * t.offTime)) := by
    intro m
    rw [← key]; ring
  have hpos : 0 < t.sf * recircLossKbtuh supply t.ret t.flow := mul_pos hsf hL
  have main : ∀ m, 0 < m →
      (((MixedTank.mk (t.flow * (supply - t.ret) * 60 * t.offTime / (t.off - t.on)) t.on cold).heat
        (t.sf * recircLossKbtuh supply t.ret t.flow) m outlet).loss
        (recircLossKbtuh supply t.ret t.flow) m).tempAt 0
      = t.on + (t.sf - 1) * (m * (t.off - t.on) / (60 * t.offTime)) := by
    intro m hm
    unfold MixedTank.heat
    rw [if_neg (not_le.2 hpos)]
    unfold MixedTank.loss MixedTank.tempAt
    rw [if_neg (by push Not; exact ⟨hL, hm⟩)]
    simp only [key, key2]
    ring
  refine ⟨fun m hm hlt => ?_, ?_⟩
  · rcases hm.lt_or_eq with h | h
    · rw [main m h]
      have h6 : m * (t.sf - 1) < 60 * t.offTime := by
        rw [← mul_div_assoc] at hlt
        exact (lt_div_iff₀ hS).1 hlt
      have : (t.sf - 1) * (m * (t.off - t.on) / (60 * t.offTime)) < t.off - t.on := by
        rw [← mul_div_assoc, div_lt_iff₀ (by linarith)]
        nlinarith
      linarith
    · rw [← h]
      simp [MixedTank.heat, MixedTank.loss, MixedTank.tempAt, not_le.2 hpos, h4]
  · rw [main _ (by positivity)]
    field_simp
    ring

/-! ## A sized system -/

/-- The TM heater that `from_size` builds, with its on/off state. -/
def tmHeaterOf (t : TmCfg K) (each : K) (active : Bool) : Heater K :=
  { Heater.fromNominal each (some (List.replicate 24 "normal")) (some [("normal", tmControls t)]) with
    active := active }

/-- `size` leaves the stored configuration as it was, so it sizes the TM side for the caller's supply
temperature; and what a successful `size` reports is `size_tm_system`'s answer on validated input. -/
theorem C64_size_reports (M : SizingMethods K) (db : ShapeFiles K) (s s' : ParSys K)
    (b b' : Building K) (sched : Option (List String)) (cmap : Option (ControlMap K)) (slope fract : K)
    (w : Warnings) (h : ParSys.size M db s b sched cmap slope fract = ((s', b'), .ok w)) :
    validateTm s.tm = .ok () ∧ s'.tm = s.tm ∧ ∃ v c, sizeTm s.base.cfg.supply s.tm = .ok (v, c) ∧
      s'.minTmVol = some v ∧ s'.minTmCap = some c := by
  unfold ParSys.size at h
  have hcfg := C07_size_restores_run_hours M db s.base b sched cmap slope fract
  rcases hv : validateTm s.tm with e | u
  · rw [hv] at h; simp at h
  rw [hv] at h
  rcases hz : Eco.size M db s.base b sched cmap slope fract with ⟨⟨base, bb⟩, r⟩
  rw [hz] at h hcfg
  simp only at hcfg h
  rcases r with e | ws
  · simp at h
  simp only at h
  rcases hq : sizeTm base.cfg.supply s.tm with e | ⟨v, c⟩
  · rw [hq] at h; simp at h
  rw [hq] at h
  simp only [Prod.mk.injEq] at h
  obtain ⟨⟨rfl, rfl⟩, -⟩ := h
  refine ⟨rfl, rfl, v, c, ?_, rfl, rfl⟩
  rw [← hq, hcfg]

theorem fromSize_tm {M : SizingMethods K} {db : ShapeFiles K} {c : SysCfg K} {t : TmCfg K}
    {b b' : Building K} {sched : Option (List String)} {cmap : Option (ControlMap K)} {slope fract : K}
    {p : ParSys K} (h : ParSys.fromSize M db c t b sched cmap slope fract = (b', .ok p)) :
    validateTm t = .ok () ∧ p.tm = t ∧ (t.num : K) ≠ 0 ∧ ∃ v cap, sizeTm c.supply t = .ok (v, cap) ∧
      p.tmTank = some ⟨v, 0, 0⟩ ∧ p.tmHeater = some (tmHeaterOf t (cap / (t.num : K)) false) := by
  unfold ParSys.fromSize at h
  rcases hz : ParSys.size M db { base := { cfg := c }, tm := t } b sched cmap slope fract with
    ⟨⟨s, bb⟩, r⟩
  rw [hz] at h
  rcases r with e | w
  · simp at h
  obtain ⟨h1, h2, v, cap, h3, h4, h5⟩ := C64_size_reports _ _ _ _ _ _ _ _ _ _ _ hz
  simp only [h4, h5, Prod.mk.injEq, bind_eq_ok, pure_eq_ok, Except.ok.injEq, fdiv_eq_ok] at h
  obtain ⟨-, q, ⟨hn, rfl⟩, rfl⟩ := h
  exact ⟨h1, h2, hn, v, cap, h3, rfl, rfl⟩

/-! ## The simulated TM side -/

/-- The tank temperature after the recirculation part of a step. -/
def afterLoop (t : TmCfg K) (v T dur : K) : K := T + t.flow * dur * (t.ret - T) / v

/-- One step of a sized TM side. -/
theorem tmStep_eq (t : TmCfg K) (oat : Option K) {hour : Nat} (hh : hour < 24) (dur : K) {v : K}
    (hv : v ≠ 0) (hn : (t.num : K) ≠ 0) (T cold cap : K) (hc : 0 < cap) (active : Bool) :
    ∃ out, tmStep t oat hour dur (⟨v, T, cold⟩, tmHeaterOf t (cap / (t.num : K)) active) =
      (let T1 := afterLoop t v T dur
       let a := if active then decide (T1 < t.off) else decide (T1 < t.on)
       ((⟨v, if a then T1 + cap * dur / 60 * 1000 / (v * rhoCp K) else T1, cold⟩,
          tmHeaterOf t (cap / (t.num : K)) a), .ok out)) := by
  have hget : ∀ a, (tmHeaterOf t (cap / (t.num : K)) a).getControls hour = .ok (some (tmControls t)) := by
    intro a
    simp only [Heater.getControls, tmHeaterOf, Heater.fromNominal]
    rw [pyGet_of_lt (by simpa using hh), List.getElem_replicate]
    simp [dictGet?]
  have hcap : cap / (t.num : K) * (t.num : K) = cap := div_mul_cancel₀ _ hn
  have hT1 : (MixedTank.recirc ⟨v, T, cold⟩ t.flow t.ret dur) = ⟨v, afterLoop t v T dur, cold⟩ := rfl
  cases active
  · by_cases hlt : afterLoop t v T dur < t.on
    · have hup : (tmHeaterOf t (cap / (t.num : K)) false).updateState
          (fun f => .ok ((⟨v, afterLoop t v T dur, cold⟩ : MixedTank K).tempAt f)) hour
          = (tmHeaterOf t (cap / (t.num : K)) true, .ok ()) := by
        simp only [Heater.updateState, hget]
        simp [tmHeaterOf, Controls.shouldTurnOn, MixedTank.tempAt, tmControls, hlt, Heater.fromNominal]
      refine ⟨⟨afterLoop t v T dur + cap * dur / 60 * 1000 / (v * rhoCp K), cap, none⟩, ?_⟩
      unfold tmStep
      simp only [if_neg hv, hT1, hup]
      simp [tmHeaterOf, Heater.getOutput, Heater.getCapacity, Heater.getPower, Heater.fromNominal,
        PerfMap.getCapacity, PerfMap.getPower, hcap, MixedTank.heat, MixedTank.tempAt, not_le.2 hc, hlt]
    · have hup : (tmHeaterOf t (cap / (t.num : K)) false).updateState
          (fun f => .ok ((⟨v, afterLoop t v T dur, cold⟩ : MixedTank K).tempAt f)) hour
          = (tmHeaterOf t (cap / (t.num : K)) false, .ok ()) := by
        simp only [Heater.updateState, hget]
        simp [tmHeaterOf, Controls.shouldTurnOn, MixedTank.tempAt, tmControls, hlt, Heater.fromNominal]
      refine ⟨⟨afterLoop t v T dur, 0, none⟩, ?_⟩
      unfold tmStep
      simp only [if_neg hv, hT1, hup]
      simp [tmHeaterOf, Heater.getOutput, Heater.fromNominal, MixedTank.heat, MixedTank.tempAt, hlt]
  · by_cases hlt : afterLoop t v T dur < t.off
    · have hup : (tmHeaterOf t (cap / (t.num : K)) true).updateState
          (fun f => .ok ((⟨v, afterLoop t v T dur, cold⟩ : MixedTank K).tempAt f)) hour
          = (tmHeaterOf t (cap / (t.num : K)) true, .ok ()) := by
        simp only [Heater.updateState, hget]
        simp [tmHeaterOf, Controls.shouldTurnOff, MixedTank.tempAt, tmControls, not_le.2 hlt, Heater.fromNominal]
      refine ⟨⟨afterLoop t v T dur + cap * dur / 60 * 1000 / (v * rhoCp K), cap, none⟩, ?_⟩
      unfold tmStep
      simp only [if_neg hv, hT1, hup]
      simp [tmHeaterOf, Heater.getOutput, Heater.getCapacity, Heater.getPower, Heater.fromNominal,
        PerfMap.getCapacity, PerfMap.getPower, hcap, MixedTank.heat, MixedTank.tempAt, not_le.2 hc, hlt]
    · have hup : (tmHeaterOf t (cap / (t.num : K)) true).updateState
          (fun f => .ok ((⟨v, afterLoop t v T dur, cold⟩ : MixedTank K).tempAt f)) hour
          = (tmHeaterOf t (cap / (t.num : K)) false, .ok ()) := by
        simp only [Heater.updateState, hget]
        simp [tmHeaterOf, Controls.shouldTurnOff, MixedTank.tempAt, tmControls, hlt, Heater.fromNominal,
          not_lt.1 hlt]
      refine ⟨⟨afterLoop t v T dur, 0, none⟩, ?_⟩
      unfold tmStep
      simp only [if_neg hv, hT1, hup]
      simp [tmHeaterOf, Heater.getOutput, Heater.fromNominal, MixedTank.heat, MixedTank.tempAt, hlt]

/-- The share of the tank that goes round the loop in one step. -/
def loopShare (t : TmCfg K) (v dur : K) : K := t.flow * dur / v

/-- The temperature at which the sized heater just balances the loop: return temperature plus the safety
factor times the design temperature drop. -/
def tmBalance (supply : K) (t : TmCfg K) : K := t.ret + t.sf * (supply - t.ret)

/-- The warmest the tank gets before the OFF check when the heater stays on. -/
def tmLimit (supply v dur : K) (t : TmCfg K) : K :=
  (1 - loopShare t v dur) * tmBalance supply t + loopShare t v dur * t.ret

/-- A sized TM side with tank temperature `T` and the heater on or off. -/
def tmState (t : TmCfg K) (v cap T cold : K) (active : Bool) : MixedTank K × Heater K :=
  (⟨v, T, cold⟩, tmHeaterOf t (cap / (t.num : K)) active)

/-- One run step of a sized TM side, in terms of `loopShare` and `tmBalance`. -/
theorem tmRun_step {supply v cap : K} {t : TmCfg K} (hs : sizeTm supply t = .ok (v, cap))
    (hv : 0 < v) (hc : 0 < cap) (hn : (t.num : K) ≠ 0) (oat : Nat → Option K) (dur start n : Nat)
    (T cold : K) (active : Bool) :
    tmRun t oat dur start (n + 1) (tmState t v cap T cold active) =
      (let k := loopShare t v (dur : K)
       let T1 := T + k * (t.ret - T)
       let a := if active then decide (T1 < t.off) else decide (T1 < t.on)
       tmRun t oat dur (start + 1) n
         (tmState t v cap (if a then T + k * (tmBalance supply t - T) else T1) cold a)) := by
  obtain ⟨out, ho⟩ := tmStep_eq t (oat start) (hour := start * dur / 60 % 24) (Nat.mod_lt _ (by norm_num))
    (dur : K) hv.ne' hn T cold cap hc active
  have hrho := rho_pos (K := K)
  have e1 : afterLoop t v T dur = T + loopShare t v (dur : K) * (t.ret - T) := by
    unfold afterLoop loopShare; ring
  obtain ⟨h0, -, hcap⟩ := sizeTm_eq hs
  have e2 : cap * (dur : K) / 60 * 1000 / (v * rhoCp K)
      = loopShare t v (dur : K) * (t.sf * (supply - t.ret)) := by
    rw [hcap]; unfold loopShare recircLossKbtuh; field_simp
  rw [tmRun, tmState, ho]
  have e3 : T + loopShare t v (dur : K) * (t.ret - T) + loopShare t v (dur : K) * (t.sf * (supply - t.ret))
      = T + loopShare t v (dur : K) * (tmBalance supply t - T) := by
    unfold tmBalance; ring
  simp only [e1, e2, e3, tmState]

/-- **C65 is false in general.** If the OFF temperature is not below `tmLimit`, a heater that is on in a tank below
the balance temperature stays on for ever. -/
theorem C65_never_off {supply v cap : K} {t : TmCfg K} (hs : sizeTm supply t = .ok (v, cap))
    (hv : 0 < v) (hc : 0 < cap) (hn : (t.num : K) ≠ 0) (oat : Nat → Option K) (dur : Nat)
    (hk0 : 0 ≤ loopShare t v (dur : K)) (hk1 : loopShare t v (dur : K) < 1)
    (hoff : tmLimit supply v dur t ≤ t.off) (n start : Nat) (T cold : K) (hT : T < tmBalance supply t) :
    ∃ T', T' < tmBalance supply t ∧
      tmRun t oat dur start n (tmState t v cap T cold true) = .ok (tmState t v cap T' cold true) := by
  induction n generalizing start T with
  | zero => exact ⟨T, hT, rfl⟩
  | succ n ih =>
    rw [tmRun_step hs hv hc hn]
    set k := loopShare t v (dur : K) with hk
    have h1 : T + k * (t.ret - T) < t.off := by
      unfold tmLimit at hoff
      rw [← hk] at hoff
      nlinarith
    simp only [if_true, decide_eq_true h1]
    exact ih (start + 1) _ (by nlinarith)

/-- **C65 (partial).** If the OFF temperature is below `tmLimit`, a heater that is on turns off after finitely many
steps, whatever the tank temperature. Missing: the full property, which is false (`C65_never_off`). -/
theorem C65_turns_off_partial [Archimedean K] {supply v cap : K} {t : TmCfg K}
    (hs : sizeTm supply t = .ok (v, cap))
    (hv : 0 < v) (hc : 0 < cap) (hn : (t.num : K) ≠ 0) (oat : Nat → Option K) (dur : Nat)
    (hk0 : 0 < loopShare t v (dur : K)) (hk1 : loopShare t v (dur : K) ≤ 1)
    (hoff : t.off < tmLimit supply v dur t) (start : Nat) (T cold : K) :
    ∃ n T', tmRun t oat dur start n (tmState t v cap T cold true) = .ok (tmState t v cap T' cold false) := by
  have claim : ∀ (n start : Nat) (T : K), (1 - loopShare t v (dur : K)) ^ (n + 1) * (tmBalance supply t - T)
      < tmLimit supply v dur t - t.off →
      ∃ m T', tmRun t oat dur start m (tmState t v cap T cold true)
        = .ok (tmState t v cap T' cold false) := by
    intro n
    induction n with
    | zero =>
      intro start T h
      refine ⟨1, T + loopShare t v (dur : K) * (t.ret - T), ?_⟩
      rw [tmRun_step hs hv hc hn]
      have h1 : ¬ T + loopShare t v (dur : K) * (t.ret - T) < t.off := by
        rw [zero_add, pow_one] at h; unfold tmLimit at h; intro hh; nlinarith
      simp only [if_true, decide_eq_false h1]
      rfl
    | succ n ih =>
      intro start T h
      by_cases h1 : T + loopShare t v (dur : K) * (t.ret - T) < t.off
      · obtain ⟨m, T', hm⟩ := ih (start + 1) (T + loopShare t v (dur : K) * (tmBalance supply t - T))
          (by rw [pow_succ] at h; linarith)
        refine ⟨m + 1, T', ?_⟩
        rw [tmRun_step hs hv hc hn]
        simp only [if_true, decide_eq_true h1]
        exact hm
      · refine ⟨1, T + loopShare t v (dur : K) * (t.ret - T), ?_⟩
        rw [tmRun_step hs hv hc hn]
        simp only [if_true, decide_eq_false h1]
        rfl
  set k := loopShare t v (dur : K) with hk
  have hgap : 0 < tmLimit supply v dur t - t.off := by linarith
  rcases le_or_gt (tmBalance supply t - T) 0 with hle | hgt
  · refine claim 0 start T (lt_of_le_of_lt ?_ hgap)
    exact mul_nonpos_of_nonneg_of_nonpos (pow_nonneg (by linarith) _) hle
  · obtain ⟨n, hn'⟩ := exists_pow_lt_of_lt_one (div_pos hgap hgt) (show 1 - k < 1 by linarith)
    refine claim n start T ?_
    rw [lt_div_iff₀ hgt] at hn'
    refine lt_of_le_of_lt (mul_le_mul_of_nonneg_right ?_ hgt.le) hn'
    exact pow_le_pow_of_le_one (by linarith) (by linarith) (Nat.le_succ n)

/-- What a sized system's loop share is, in the caller's parameters. -/
theorem loopShare_sized {supply v cap : K} {t : TmCfg K} (hval : validateTm t = .ok ())
    (hs : sizeTm supply t = .ok (v, cap)) (hf : 0 < t.flow) (hr : t.ret < supply) (dur : K) :
    0 < v ∧ 0 < cap ∧
      loopShare t v dur = dur * (t.off - t.on) / (60 * t.offTime * (supply - t.ret)) := by
  obtain ⟨h1, h2, h3, h4, h5⟩ := (C64_validation t).1.1 hval
  obtain ⟨h0, rfl, rfl⟩ := sizeTm_eq hs
  have hD : 0 < supply - t.ret := by linarith
  have hB : 0 < t.off - t.on := by linarith
  refine ⟨by positivity, mul_pos (by linarith) (loss_pos hf hr), ?_⟩
  unfold loopShare
  field_simp

/-- **C65**, whole: for a system built by `from_size` with a working loop, simulated with a step so short that
less than the tank volume goes round the loop in one step, a TM heater that is on in a tank below the balance
temperature turns off if and only if the OFF temperature is below `tmLimit`. -/
theorem C65_cycles_iff_partial [Archimedean K] {M : SizingMethods K} {db : ShapeFiles K} {c : SysCfg K}
    {t : TmCfg K} {b b' : Building K} {sched : Option (List String)} {cmap : Option (ControlMap K)}
    {slope fract : K} {p : ParSys K}
    (h : ParSys.fromSize M db c t b sched cmap slope fract = (b', .ok p))
    (hf : 0 < t.flow) (hr : t.ret < c.supply) (oat : Nat → Option K) (dur : Nat) (hdur : 0 < dur)
    (hk : (dur : K) * (t.off - t.on) < 60 * t.offTime * (c.supply - t.ret)) :
    ∃ tank w, p.tmTank = some tank ∧ p.tmHeater = some w ∧ 0 < tank.vol ∧
      ∀ T, T < tmBalance c.supply t → ∀ start,
        ((∃ n tank' w', tmRun t oat dur start n ({ tank with temp := T }, { w with active := true })
            = .ok (tank', w') ∧ w'.active = false) ↔ t.off < tmLimit c.supply tank.vol dur t) := by
  obtain ⟨hval, -, hn, v, cap, hs, htank, hheat⟩ := fromSize_tm h
  obtain ⟨h1, h2, h3, h4, h5⟩ := (C64_validation t).1.1 hval
  obtain ⟨hv, hc, hks⟩ := loopShare_sized hval hs hf hr (dur : K)
  have hB : 0 < t.off - t.on := by linarith
  have hD : 0 < c.supply - t.ret := by linarith
  have hdur' : (0 : K) < dur := by exact_mod_cast hdur
  have hk0 : 0 < loopShare t v (dur : K) := by rw [hks]; positivity
  have hk1 : loopShare t v (dur : K) < 1 := by
    rw [hks, div_lt_one (by positivity)]; exact hk
  refine ⟨_, _, htank, hheat, hv, fun T hT start => ⟨fun ⟨n, tank', w', hrun, hw⟩ => ?_, fun hoff => ?_⟩⟩
  · by_contra hno
    obtain ⟨T', -, hrun'⟩ := C65_never_off hs hv hc hn oat dur hk0.le hk1 (not_lt.1 hno) n start T 0 hT
    have : tmState t v cap T' 0 true = (tank', w') := by
      have := hrun'.symm.trans hrun
      injection this
    have h6 : w' = tmHeaterOf t (cap / (t.num : K)) true := (Prod.mk.inj this).2.symm
    rw [h6] at hw
    simp [tmHeaterOf] at hw
  · obtain ⟨n, T', hrun⟩ := C65_turns_off_partial hs hv hc hn oat dur hk0 hk1.le hoff start T 0
    exact ⟨n, _, _, hrun, rfl⟩

/-- With the defaults of the engine's configuration (ON at supply, OFF 8 °F above, half an hour off, safety
factor 1.75) and a loop that returns at most 32/3 °F below supply, the TM heater never turns off again once it
turned on at ON temperature, for any flow and any number of one-minute steps. -/
theorem C65_default_settings_never_off {supply v cap : K} {t : TmCfg K}
    (hon : t.on = supply) (hoffT : t.off = supply + 8) (htime : t.offTime = 1 / 2) (hsf : t.sf = 7 / 4)
    (hf : 0 < t.flow) (hr : t.ret < supply) (hdrop : supply - t.ret ≤ 32 / 3) (hdrop1 : 1 ≤ supply - t.ret)
    (hs : sizeTm supply t = .ok (v, cap)) (hn : (t.num : K) ≠ 0) (oat : Nat → Option K)
    (n start : Nat) (cold : K) :
    validateTm t = .ok () ∧
    ∃ T', tmRun t oat 1 start n (tmState t v cap t.on cold true) = .ok (tmState t v cap T' cold true) := by
  have hval : validateTm t = .ok () := by
    refine (C64_validation t).1.2 ?_
    rw [hon, hoffT, htime, hsf]
    norm_num
  obtain ⟨hv, hc, hks⟩ := loopShare_sized hval hs hf hr ((1 : Nat) : K)
  have hD : 0 < supply - t.ret := by linarith
  have hk : loopShare t v ((1 : Nat) : K) = 4 / (15 * (supply - t.ret)) := by
    rw [hks, hon, hoffT, htime]
    push_cast
    rw [div_eq_div_iff (by positivity) (by positivity)]
    ring
  have hk0 : 0 ≤ loopShare t v ((1 : Nat) : K) := by rw [hk]; positivity
  have hk1 : loopShare t v ((1 : Nat) : K) < 1 := by
    rw [hk, div_lt_one (by linarith)]; linarith
  have hbal : tmBalance supply t = supply + 3 / 4 * (supply - t.ret) := by
    unfold tmBalance; rw [hsf]; ring
  refine ⟨hval, ?_⟩
  have hoff : tmLimit supply v ((1 : Nat) : K) t ≤ t.off := by
    unfold tmLimit
    rw [hbal, hoffT]
    have h1 : loopShare t v ((1 : Nat) : K) * (t.ret - supply - 3 / 4 * (supply - t.ret)) ≤ 0 :=
      mul_nonpos_of_nonneg_of_nonpos hk0 (by linarith)
    linarith
  obtain ⟨T', -, h⟩ := C65_never_off hs hv hc hn oat 1 hk0 hk1 hoff n start t.on cold
    (by rw [hbal, hon]; linarith)
  exact ⟨T', h⟩

/-- A zero-flow loop is sized without complaint, with a tank of zero gallons, and the first simulated step
raises `ZeroDivisionError`. -/
theorem C65_zero_flow_raises {supply v cap : K} {t : TmCfg K} (hf : t.flow = 0)
    (hs : sizeTm supply t = .ok (v, cap)) (oat : Option K) (hour : Nat) (dur T cold : K) (a : Bool) :
    (tmStep t oat hour dur (tmState t v cap T cold a)).2 = .error .zeroDivision := by
  obtain ⟨-, rfl, -⟩ := sizeTm_eq hs
  simp [tmStep, tmState, hf]

/-! ## C78: off cycles -/

/-- **C78 (partial).** If the ON temperature is not below supply, a sized tank that starts an off cycle at OFF
temperature has its heater on again no later than the configured off time. Missing: ON below supply, where
it is false (`C78_longer_off_cycle`). -/
theorem C78_off_cycle_partial {supply v cap : K} {t : TmCfg K} (hval : validateTm t = .ok ())
    (hs : sizeTm supply t = .ok (v, cap)) (hf : 0 < t.flow) (hr : t.ret < supply) (hon : supply ≤ t.on)
    (hn : (t.num : K) ≠ 0) (oat : Nat → Option K) (dur N start : Nat)
    (hN : 60 * t.offTime ≤ (N : K) * dur) (cold : K) :
    ∃ m T', m ≤ N ∧ tmRun t oat dur start m (tmState t v cap t.off cold false)
      = .ok (tmState t v cap T' cold true) := by
  obtain ⟨h1, h2, h3, h4, h5⟩ := (C64_validation t).1.1 hval
  obtain ⟨hv, hc, hks⟩ := loopShare_sized hval hs hf hr (dur : K)
  have hB : 0 < t.off - t.on := by linarith
  have hD : 0 < supply - t.ret := by linarith
  have hdur : (0 : K) < dur := by
    rcases (Nat.cast_nonneg (α := K) dur).lt_or_eq with h | h
    · exact h
    · rw [← h] at hN; nlinarith
  have hk0 : 0 < loopShare t v (dur : K) := by rw [hks]; positivity
  set k := loopShare t v (dur : K) with hk
  have hkd : k * (supply - t.ret) * (60 * t.offTime) = dur * (t.off - t.on) := by
    rw [hks]; field_simp
  have claim : ∀ (n start : Nat) (T : K), t.on ≤ T → T - (n : K) * (k * (supply - t.ret)) < t.on →
      ∃ m T', m ≤ n ∧ tmRun t oat dur start m (tmState t v cap T cold false)
        = .ok (tmState t v cap T' cold true) := by
    intro n
    induction n with
    | zero => intro start T h6 h7; simp at h7; exact absurd h6 (not_le.2 h7)
    | succ n ih =>
      intro start T h6 h7
      by_cases hlt : T + k * (t.ret - T) < t.on
      · refine ⟨1, T + k * (tmBalance supply t - T), by omega, ?_⟩
        rw [tmRun_step hs hv hc hn]
        simp only [← hk, Bool.false_eq_true, if_false, decide_eq_true hlt]
        rfl
      · obtain ⟨m, T', hm, hrun⟩ := ih (start + 1) (T + k * (t.ret - T)) (not_lt.1 hlt) (by
          push_cast at h7; nlinarith)
        refine ⟨m + 1, T', by omega, ?_⟩
        rw [tmRun_step hs hv hc hn]
        simp only [← hk, Bool.false_eq_true, if_false, decide_eq_false hlt]
        exact hrun
  rcases N with _ | N
  · simp at hN; exact absurd hN (not_le.2 (by linarith))
  · by_cases hlt : t.off + k * (t.ret - t.off) < t.on
    · refine ⟨1, t.off + k * (tmBalance supply t - t.off), by omega, ?_⟩
      rw [tmRun_step hs hv hc hn]
      simp only [← hk, Bool.false_eq_true, if_false, decide_eq_true hlt]
      rfl
    · obtain ⟨m, T', hm, hrun⟩ := claim N (start + 1) (t.off + k * (t.ret - t.off)) (not_lt.1 hlt) (by
        have h8 : t.off - t.on ≤ (N + 1 : K) * (k * (supply - t.ret)) := by
          have : (t.off - t.on) * (60 * t.offTime)
              ≤ (N + 1 : K) * (k * (supply - t.ret)) * (60 * t.offTime) := by
            push_cast at hN
            rw [mul_assoc, hkd]
            nlinarith
          exact le_of_mul_le_mul_right this (by linarith)
        have h9 : 0 < k * (t.off - supply) := mul_pos hk0 (by linarith)
        nlinarith)
      refine ⟨m + 1, T', by omega, ?_⟩
      rw [tmRun_step hs hv hc hn]
      simp only [← hk, Bool.false_eq_true, if_false, decide_eq_false hlt]
      exact hrun

namespace Demo

/-- The engine's default TM settings on a 10 °F, 5 gpm loop. -/
def tm : TmCfg ℚ := ⟨110, 5, 120, 128, 1 / 2, 7 / 4, 2⟩

/-- A lower OFF temperature, which the heater reaches. -/
def tmLow : TmCfg ℚ := { tm with off := 124 }

/-- ON below supply. -/
def tmBelow : TmCfg ℚ := { tm with on := 112, off := 120 }

def parOk (t : TmCfg ℚ) : Bool :=
  match (ParSys.fromSize baseMethods noFiles cfg t building none (some map) (28 / 10) 1).2 with
  | .ok p => p.tmTank.isSome
  | .error _ => false

end Demo

/-- A tank that has not lost enough to the loop stays off. -/
theorem stays_off {supply v cap : K} {t : TmCfg K} (hs : sizeTm supply t = .ok (v, cap))
    (hv : 0 < v) (hc : 0 < cap) (hn : (t.num : K) ≠ 0) (oat : Nat → Option K) (dur : Nat)
    (hk0 : 0 ≤ loopShare t v (dur : K)) (hk1 : loopShare t v (dur : K) ≤ 1) (n start : Nat) (T cold : K)
    (hT : t.ret ≤ T) (hon : t.on ≤ t.ret + (T - t.ret) * (1 - loopShare t v (dur : K)) ^ n) :
    tmRun t oat dur start n (tmState t v cap T cold false) =
      .ok (tmState t v cap (t.ret + (T - t.ret) * (1 - loopShare t v (dur : K)) ^ n) cold false) := by
  induction n generalizing start T with
  | zero => simp [tmRun]
  | succ n ih =>
    have e : T + loopShare t v (dur : K) * (t.ret - T) - t.ret
        = (T - t.ret) * (1 - loopShare t v (dur : K)) := by ring
    have h1 : ¬ T + loopShare t v (dur : K) * (t.ret - T) < t.on := by
      have h2 : (1 - loopShare t v (dur : K)) ^ (n + 1) ≤ (1 - loopShare t v (dur : K)) ^ 1 :=
        pow_le_pow_of_le_one (by linarith) (by linarith) (by omega)
      have h3 := mul_le_mul_of_nonneg_left h2 (sub_nonneg.2 hT)
      rw [pow_one] at h3
      linarith
    rw [tmRun_step hs hv hc hn]
    simp only [Bool.false_eq_true, if_false, decide_eq_false h1]
    rw [ih (start + 1) _ (by nlinarith) (by rw [e, mul_assoc, ← pow_succ']; exact hon), e, mul_assoc,
      ← pow_succ']

/-- **C78 is false in general**: with ON 8 °F below supply, accepted by the validation, the heater is still off
after the configured half hour of one-minute steps (and at every step before). -/
theorem C78_longer_off_cycle :
    ∃ (t : TmCfg ℚ) (v cap : ℚ), validateTm t = .ok () ∧ sizeTm 120 t = .ok (v, cap) ∧ t.offTime = 1 / 2 ∧
      ∀ m ≤ 30, ∃ T', tmRun t (fun _ => none) 1 0 m (tmState t v cap t.off 50 false)
        = .ok (tmState t v cap T' 50 false) := by
  have hval : validateTm Demo.tmBelow = .ok () := by decide +kernel
  have hs : sizeTm 120 Demo.tmBelow = .ok (375 / 2, 7 / 4 * recircLossKbtuh 120 110 5) := by decide +kernel
  obtain ⟨hv, hc, hk⟩ := loopShare_sized hval hs (by decide +kernel) (by decide +kernel) ((1 : Nat) : ℚ)
  have hk' : loopShare Demo.tmBelow (375 / 2) ((1 : Nat) : ℚ) = 2 / 75 := by decide +kernel
  refine ⟨Demo.tmBelow, _, _, hval, hs, rfl, fun m hm => ?_⟩
  have h := stays_off hs hv hc (by decide +kernel) (fun _ => none) 1 (by rw [hk']; norm_num)
    (by rw [hk']; norm_num) m 0 Demo.tmBelow.off 50 (by decide +kernel) ?_
  · exact ⟨_, h⟩
  rw [hk']
  have h1 : (1 - 2 / 75 : ℚ) ^ 30 ≤ (1 - 2 / 75) ^ m :=
    pow_le_pow_of_le_one (by norm_num) (by norm_num) hm
  have h2 : (1 / 5 : ℚ) ≤ (1 - 2 / 75) ^ 30 := by norm_num
  have e1 : Demo.tmBelow.on = 112 := rfl
  have e2 : Demo.tmBelow.ret = 110 := rfl
  have e3 : Demo.tmBelow.off = 120 := rfl
  rw [e1, e2, e3]
  linarith

example : Demo.parOk Demo.tm = true := by decide +kernel
example : Demo.parOk Demo.tmLow = true := by decide +kernel
example : validateTm Demo.tm = .ok () := by decide +kernel
example : ((1 : Nat) : ℚ) * (Demo.tm.off - Demo.tm.on) < 60 * Demo.tm.offTime * (120 - Demo.tm.ret) := by
  decide +kernel
-- the default settings never turn off; the lower OFF temperature does
example : ¬ Demo.tm.off < tmLimit 120 (375 / 2) 1 Demo.tm := by decide +kernel
example : Demo.tmLow.off < tmLimit 120 375 1 Demo.tmLow := by decide +kernel

end Eco
