import Verif.Props.Swing
import Verif.Props.Size
import Verif.Props.Curves

set_option linter.unusedSectionVars false

/-! C07 and C08 for swing systems, C81 and C82: the `size` call and the curves of a swing system. -/

namespace Eco
variable {K : Type} [Field K] [LinearOrder K] [IsStrictOrderedRing K]

theorem sizeSwingBody_cfg (s : SwingSys K) (b : Building K) (ls : Option (List String × ControlMap K))
    (cmap : Option (ControlMap K)) (slope fract : K) :
    (sizeSwingBody s b ls cmap slope fract).1.base.cfg = s.base.cfg := by
  unfold sizeSwingBody
  split
  · rfl
  · split
    · rfl
    · dsimp only
      split
      · rfl
      · split <;> rfl

theorem cappedCfg_restore (c : SysCfg K) (ls : Option (List String × ControlMap K)) :
    ({ cappedCfg c ls with maxRunHr := c.maxRunHr } : SysCfg K) = c := by
  unfold cappedCfg; split <;> rfl

/-- The system inside `size`, with its run hours capped. -/
def SwingSys.capped (s : SwingSys K) (ls : Option (List String × ControlMap K)) : SwingSys K :=
  { s with base := { s.base with cfg := cappedCfg s.base.cfg ls } }

/-- The system with its run hours put back. -/
def SwingSys.restore (s : SwingSys K) (r : K) : SwingSys K :=
  { s with base := { s.base with cfg := { s.base.cfg with maxRunHr := r } } }

theorem swingSize_eq (db : ShapeFiles K) (s : SwingSys K) (b : Building K) (sched : Option (List String))
    (cmap : Option (ControlMap K)) (slope fract : K) :
    (∃ e, dailyView db b = .error e ∧ s.size db b sched cmap slope fract = ((s, b), .error e)) ∨
    ∃ b1 b2, dailyView db b = .ok b1 ∧
      s.size db b sched cmap slope fract =
        ((((sizeSwingBody (s.capped (lsInputs sched cmap)) b1 (lsInputs sched cmap) cmap slope fract).1.restore
            s.base.cfg.maxRunHr), b2),
          (sizeSwingBody (s.capped (lsInputs sched cmap)) b1 (lsInputs sched cmap) cmap slope fract).2) ∧
      (b.isAnnual = false → b2 = b) ∧
      (∀ u, (s.size db b sched cmap slope fract).2 = .ok u → b.isAnnual = true →
        b1.setToAnnual db = .ok b2) ∧
      (∀ e, (s.size db b sched cmap slope fract).2 = .error e → b2 = b1) := by
  cases hb : dailyView db b with
  | error e =>
    left
    refine ⟨e, rfl, ?_⟩
    rw [dailyView] at hb
    unfold SwingSys.size
    simp only [hb]
  | ok b1 =>
    right
    have hb' := hb
    rw [dailyView] at hb'
    unfold SwingSys.size
    simp only [hb']
    change ∃ b1_1 b2, Except.ok b1 = Except.ok b1_1 ∧ _
    have key : ∀ r : SwingSys K × Py Unit, ∃ b2,
        (match r.2 with
          | .error e => ((r.1.restore s.base.cfg.maxRunHr, b1), .error e)
          | .ok () =>
            if b.isAnnual then
              match b1.setToAnnual db with
              | .error e => ((r.1.restore s.base.cfg.maxRunHr, b1), .error e)
              | .ok b2 => ((r.1.restore s.base.cfg.maxRunHr, b2), .ok ())
            else ((r.1.restore s.base.cfg.maxRunHr, b1), .ok ())
            : (SwingSys K × Building K) × Py Unit)
          = ((r.1.restore s.base.cfg.maxRunHr, b2), r.2) ∧
        (b.isAnnual = false → b2 = b) ∧
        (∀ u, r.2 = .ok u → b.isAnnual = true → b1.setToAnnual db = .ok b2) ∧
        (∀ e, r.2 = .error e → b2 = b1) := by
      intro r
      have hfalse : b.isAnnual = false → b1 = b := by
        intro h
        simp only [h] at hb'
        injection hb' with h'; exact h'.symm
      cases hr : r.2 with
      | error e => exact ⟨b1, rfl, hfalse, by simp, by simp⟩
      | ok u =>
        cases hA : b.isAnnual with
        | false => exact ⟨b1, by simp, fun _ => hfalse hA, by simp, by simp⟩
        | true =>
          simp only [hA, if_true] at hb'
          obtain ⟨d, _, _, h3, _⟩ := setToAnnual_of_setToDaily hb'
          exact ⟨_, by simp only [if_true, h3], by simp, fun _ _ _ => h3, by simp⟩
    obtain ⟨b2, h1, h2, h3, h4⟩ := key
      (sizeSwingBody (s.capped (lsInputs sched cmap)) b1 (lsInputs sched cmap) cmap slope fract)
    refine ⟨b1, b2, rfl, h1, h2, ?_, ?_⟩
    · intro u hu
      exact h3 u (by rw [← hu]; exact (congrArg Prod.snd h1).symm)
    · intro e he
      exact h4 e (by rw [← he]; exact (congrArg Prod.snd h1).symm)

/-- **C07 (swing systems).** Whatever `size` of a swing system is given and however it ends, the run hours, the
temperatures and the defrost factor are what they were. -/
theorem C07_swing_size_restores_run_hours (db : ShapeFiles K) (s : SwingSys K) (b : Building K)
    (sched : Option (List String)) (cmap : Option (ControlMap K)) (slope fract : K) :
    (s.size db b sched cmap slope fract).1.1.base.cfg = s.base.cfg := by
  rcases swingSize_eq db s b sched cmap slope fract with ⟨e, _, he⟩ | ⟨b1, b2, _, he, _⟩
  · rw [he]
  · rw [he]
    simp only [SwingSys.restore, sizeSwingBody_cfg, SwingSys.capped]
    exact cappedCfg_restore _ _

/-- **C08 (swing systems), negation.** An annual multi-family building without a climate zone is left on the
24-hour shape when sizing a swing system raises. -/
theorem C08_swing_not_restored_on_error (db : ShapeFiles K) (s : SwingSys K)
    (b : Building K) (sched : Option (List String)) (cmap : Option (ControlMap K))
    (slope fract : K) (f : ShapeFile K) (a : List K)
    (hannual : b.isAnnual = true) (htype : b.buildingType = "multi_family")
    (hfile : db "multi_family" = some f) (ha : f.streamAvg = some a) (hlen : f.stream.length = 24)
    (hclimate : b.climate = none) :
    (s.size db b sched cmap slope fract).2 = .error .valueError ∧
      (s.size db b sched cmap slope fract).1.2.isAnnual = false := by
  have hb : dailyView db b = .ok { b with peakShape := f.stream, avgShape := a } := by
    simp [dailyView, hannual, Building.setToDaily, htype, loadShapeJson, hfile, ha]
  rcases swingSize_eq db s b sched cmap slope fract with ⟨e, h1, he⟩ | ⟨b1, b2, h1, he, h2, h3, h4⟩
  · rw [hb] at h1; simp at h1
  · rw [hb] at h1
    injection h1 with h1
    subst h1
    have herr : (s.size db b sched cmap slope fract).2 = .error .valueError := by
      rw [he]
      simp [sizeSwingBody, requireDesignInlet, Building.getDesignInlet, hclimate]
    refine ⟨herr, ?_⟩
    have := h4 _ herr
    rw [he, this]
    simp [Building.isAnnual, hlen]

/-- **C08 (swing systems), partial.** A building on the daily shape is never touched, and a successful call puts an
annual building back. Missing: restoration when `size` raises. -/
theorem C08_swing_mode_restored_partial (db : ShapeFiles K) (s : SwingSys K) (b : Building K)
    (sched : Option (List String)) (cmap : Option (ControlMap K)) (slope fract : K) :
    (b.isAnnual = false → (s.size db b sched cmap slope fract).1.2 = b) ∧
    ((s.size db b sched cmap slope fract).2 = .ok () →
      (∀ f, db "multi_family" = some f → f.annual.length = 8760) →
      (s.size db b sched cmap slope fract).1.2.isAnnual = b.isAnnual) := by
  rcases swingSize_eq db s b sched cmap slope fract with ⟨e, h1, he⟩ | ⟨b1, b2, h1, he, h2, h3, h4⟩
  · rw [he]; simp
  · refine ⟨fun h => by rw [he]; exact h2 h, fun hok hlen => ?_⟩
    cases hA : b.isAnnual with
    | false => rw [he]; simp only; rw [h2 hA]; exact hA
    | true =>
      have h5 := h3 _ hok hA
      simp only [dailyView, hA, if_true] at h1
      obtain ⟨d, hd, _, h6, _⟩ := setToAnnual_of_setToDaily h1
      rw [h5] at h6
      injection h6 with h6
      rw [he, h6]
      simp [Building.isAnnual, hlen d hd]

/-! ## C81: the sized plant carries the day -/

/-- What a successful `size` without load shifting has computed. -/
theorem swingSize_ok {db : ShapeFiles K} {s s' : SwingSys K} {b b' : Building K}
    {sched : Option (List String)} {cmap : Option (ControlMap K)} {slope fract : K}
    (h : s.size db b sched cmap slope fract = ((s', b'), .ok ())) :
    ∃ b1 inlet, ∃ vol : Nat, ∃ ca cap rv eff capP st mix,
      let ls := lsInputs sched cmap
      let c := cappedCfg s.base.cfg ls
      let sT : SwingSys K := { s.capped ls with tmVol := some (vol : K), tmCa := some ca, tmCap := some cap, effMix := 1 }
      let sE : SwingSys K := { sT with effMix := eff.getD 1 }
      dailyView db b = .ok b1 ∧ requireDesignInlet b1 = .ok inlet ∧
      sizeSwingTm c.supply s.ret s.flow s.sf (some b1) = .ok (vol, ca, cap) ∧
      runVolSwing sT b1 = .ok (rv, eff) ∧
      sizeSwingRest sE b1 ls cmap slope fract inlet rv = .ok (capP, st, mix) ∧
      s' = { s with
        base := { s.base with minCap := some capP, minStorage := some st, sizingSlope := some slope }
        tmVol := some (vol : K), tmCa := some ca, tmCap := some cap, effMix := mix } := by
  rcases swingSize_eq db s b sched cmap slope fract with ⟨e, h1, he⟩ | ⟨b1, b2, h1, he, -⟩
  · rw [he] at h; simp at h
  · rw [he] at h
    simp only [Prod.mk.injEq] at h
    obtain ⟨⟨hs', -⟩, hok⟩ := h
    unfold sizeSwingBody at hs' hok
    cases hin : requireDesignInlet b1 with
    | error e => simp [hin] at hok
    | ok inlet =>
      simp only [hin] at hs' hok
      cases htm : sizeSwingTm (cappedCfg s.base.cfg (lsInputs sched cmap)).supply s.ret s.flow s.sf (some b1) with
      | error e => simp [SwingSys.capped, htm] at hok
      | ok t =>
        obtain ⟨vol, ca, cap⟩ := t
        simp only [SwingSys.capped, htm] at hs' hok
        cases hrv : runVolSwing { s.capped (lsInputs sched cmap) with
            tmVol := some (vol : K), tmCa := some ca, tmCap := some cap, effMix := 1 } b1 with
        | error e => simp only [SwingSys.capped] at hrv; simp [hrv] at hok
        | ok t =>
          obtain ⟨rv, eff⟩ := t
          have hrv' := hrv
          simp only [SwingSys.capped] at hrv'
          simp only [hrv'] at hs' hok
          cases hrest : sizeSwingRest { s.capped (lsInputs sched cmap) with
              tmVol := some (vol : K), tmCa := some ca, tmCap := some cap, effMix := eff.getD 1 } b1
              (lsInputs sched cmap) cmap slope fract inlet rv with
          | error e => simp only [SwingSys.capped] at hrest; simp [hrest] at hok
          | ok t =>
            obtain ⟨capP, st, mix⟩ := t
            have hrest' := hrest
            simp only [SwingSys.capped] at hrest'
            simp only [hrest', SwingSys.restore, cappedCfg_restore] at hs'
            exact ⟨b1, inlet, vol, ca, cap, rv, eff, capP, st, mix, h1, hin, htm, hrv, hrest, hs'.symm⟩


theorem sizeSwingTm_vol_pos {supply ret flow sf : K} {b : Option (Building K)} {vol ca : Nat} {cap : K}
    (h : sizeSwingTm supply ret flow sf b = .ok (vol, ca, cap)) :
    0 < vol ∧ cap = sf * recircLossKbtuh supply ret flow := by
  simp only [sizeSwingTm, bind_eq_ok] at h
  obtain ⟨req, -, h⟩ := h
  split at h
  · simp at h
  · simp only [bind_eq_ok, pure_eq_ok, Except.ok.injEq, Prod.mk.injEq] at h
    obtain ⟨v, hv, w, -, rfl, rfl, rfl⟩ := h
    refine ⟨?_, by rw [← mul_assoc, mul_div_assoc, div_self (by norm_num), mul_one]⟩
    have := (minEntry_ok.1 hv).1.1
    simp only [swingTable, List.mem_cons, List.not_mem_nil, or_false] at this
    omega

theorem dayFrom_nonneg {shape : List K} {daily : K} (hd : 0 ≤ daily) (hs : ∀ f ∈ shape, 0 ≤ f) (start : Nat) :
    ∀ d ∈ Spec.dayFrom shape daily start, 0 ≤ d := by
  intro d h
  obtain ⟨f, hf, rfl⟩ := dayFrom_mem h
  exact div_nonneg (mul_nonneg (hs f hf) hd) (by norm_num)

/-- **C81.** The primary capacity that `size` reports for a swing system without load shifting, run for the allowed
hours and derated for defrost, makes exactly the day's heat: either the unreduced day (when no start of deficit sets
the volume), or, for the start hour that sets the volume, demand plus loop loss plus the change of the swing
tank's heat, less what the element adds (the first minute's draw comes at storage temperature). -/
theorem C81_capacity_balances_day {db : ShapeFiles K} {s s' : SwingSys K} {b b' b1 : Building K}
    {sched : Option (List String)} {cmap : Option (ControlMap K)} {slope fract : K} {inlet : K}
    (hls : lsInputs sched cmap = none)
    (h : s.size db b sched cmap slope fract = ((s', b'), .ok ()))
    (hb1 : dailyView db b = .ok b1) (hin : requireDesignInlet b1 = .ok inlet)
    (hcold : inlet < s.base.cfg.supply) (hd : 0 < b1.dailyGal) (hshape : ∀ f ∈ b1.peakShape, 0 ≤ f) :
    ∃ capP, ∃ vol : Nat, ∃ tmCap, s'.base.minCap = some capP ∧ s'.tmVol = some (vol : K) ∧ s'.tmCap = some tmCap ∧
      (capP * s.base.cfg.defrost * s.base.cfg.maxRunHr * 1000
          = b1.dailyGal * rhoCp K * (s.base.cfg.storage - inlet) ∨
        ∃ start, ∃ (row0 : SwingMin K) (rows : List (SwingMin K)) (d0 : K) (ds : List K),
          Spec.dayFrom b1.peakShape b1.dailyGal start = d0 :: ds ∧
          simSwing ⟨(vol : K), recircLossKbtuh s.base.cfg.supply s.ret s.flow, tmCap, s.base.cfg.supply⟩ inlet
            s.base.cfg.storage (s.base.cfg.supply + 1 / 10) (d0 :: ds) = .ok (row0 :: rows) ∧
          capP * s.base.cfg.defrost * s.base.cfg.maxRunHr * 1000 + (rows.map (·.run)).sum * (tmCap * 1000 / 60)
            = d0 * rhoCp K * (s.base.cfg.storage - inlet)
              + ds.sum * rhoCp K * (s.base.cfg.supply - inlet)
              + (ds.length : K) * (recircLossKbtuh s.base.cfg.supply s.ret s.flow * 1000 / 60)
              + (vol : K) * rhoCp K * (lastTemp (s.base.cfg.supply + 1 / 10) rows
                - (s.base.cfg.supply + 1 / 10))) := by
  obtain ⟨b1', inlet', vol, ca, cap, rv, eff, capP, st, mix, e1, e2, e3, e4, e5, e6⟩ := swingSize_ok h
  rw [hb1] at e1
  injection e1 with e1
  subst e1
  rw [hin] at e2
  injection e2 with e2
  subst e2
  rw [hls] at e3 e4 e5
  simp only [SwingSys.capped, cappedCfg] at e3 e4 e5
  refine ⟨capP, vol, cap, by rw [e6], by rw [e6], by rw [e6], ?_⟩
  -- the capacity
  simp only [sizeSwingRest, bind_eq_ok, pure_eq_ok, Except.ok.injEq, Prod.mk.injEq] at e5
  obtain ⟨sf, -, st', -, cap', hcap, rfl, rfl, rfl⟩ := e5
  simp only [requiredCapacitySwing, hin, ok_bind, bind_eq_ok, pure_eq_ok, Except.ok.injEq, fdiv_eq_ok] at hcap
  obtain ⟨g, ⟨hr, rfl⟩, x, ⟨hdf, rfl⟩, rfl⟩ := hcap
  have hbal : b1.dailyGal * eff.getD 1 / s.base.cfg.maxRunHr * rhoCp K * (s.base.cfg.storage - inlet)
      / s.base.cfg.defrost / 1000 * s.base.cfg.defrost * s.base.cfg.maxRunHr * 1000
      = b1.dailyGal * eff.getD 1 * rhoCp K * (s.base.cfg.storage - inlet) := by
    field_simp
  rw [hbal]
  cases eff with
  | none => left; simp
  | some e =>
    obtain ⟨inlet', v, f1, f2, f3, f4, f5, f6⟩ := C80_running_volume hd.ne' e4
    rw [hin] at f1
    injection f1 with f1
    subst f1
    rcases f6 with ⟨-, rfl⟩ | ⟨start, hst, p, rows, n, hp, hrows, heff, -⟩
    · left; simp
    · right
      simp only [SwingSys.params, Except.ok.injEq] at hp
      subst hp
      cases hday : Spec.dayFrom b1.peakShape b1.dailyGal start with
      | nil => rw [hday] at hrows; simp [simSwing] at hrows
      | cons d0 ds =>
        rw [hday] at hrows
        have hrows0 := hrows
        simp only [simSwing, bind_eq_ok, pure_eq_ok, Except.ok.injEq] at hrows
        obtain ⟨rest, hrest, rfl⟩ := hrows
        have hv : (vol : K) ≠ 0 := by
          have := (sizeSwingTm_vol_pos e3).1
          exact_mod_cast this.ne'
        have := C79_heat_conserved (p := ⟨(vol : K), recircLossKbtuh s.base.cfg.supply s.ret s.flow, cap,
          s.base.cfg.supply⟩) hv hcold (by unfold swingInit; simp) ds
          (fun d hdm => dayFrom_nonneg hd.le hshape start d (by rw [hday]; simp [hdm])) hrows0
        refine ⟨start, _, rest, d0, ds, hday, hrows0, ?_⟩
        simp only [List.map_cons, List.sum_cons] at heff
        simp only [Option.getD_some]
        rw [mul_comm b1.dailyGal e, heff]
        unfold swingInit at this
        linear_combination this

/-! ## C82: the curves of a swing system -/

theorem swingSweep_spec {b : Building K} {factor : K} (s : SwingSys K) (hs : List K) :
    ∃ e r, (swingSweep b factor s hs).1 = ({ s with effMix := e } : SwingSys K).restore r := by
  induction hs generalizing s with
  | nil => exact ⟨s.effMix, s.base.cfg.maxRunHr, rfl⟩
  | cons h hs ih =>
    have hpt : ∃ e, (swingCurvePoint (s.restore h) b factor).1 = { s.restore h with effMix := e } := by
      unfold swingCurvePoint
      split
      · exact ⟨_, rfl⟩
      · dsimp only; split <;> exact ⟨_, rfl⟩
    obtain ⟨e, he⟩ := hpt
    unfold swingSweep
    change ∃ e r, (match swingCurvePoint (s.restore h) b factor with
      | (s1, .error e) => (s1, .error e)
      | (s1, .ok none) => (s1, .ok [])
      | (s1, .ok (some p)) =>
        ((swingSweep b factor s1 hs).1, (swingSweep b factor s1 hs).2 >>= fun ps => .ok (p :: ps))
        : SwingSys K × Py (List (K × K × K))).1 = _
    rcases hq : swingCurvePoint (s.restore h) b factor with ⟨s1, e' | _ | p⟩
    · rw [hq] at he
      exact ⟨e, h, he⟩
    · rw [hq] at he
      exact ⟨e, h, he⟩
    · rw [hq] at he
      obtain ⟨e2, r2, h2⟩ := ih s1
      simp only at he ⊢
      rw [h2, he]
      exact ⟨e2, r2, rfl⟩

/-- **C82 (state).** However it ends, the sizing curve of a swing system leaves the run hours, the sized results and
the swing tank as they were; the only thing it may change is the effective mix fraction. -/
theorem C82_sizing_curve_keeps_results [FloorRing K] (db : ShapeFiles K) (s : SwingSys K) (b : Building K)
    (slope step : K) :
    ∃ e, (s.getSizingCurve db b slope step).1.1 = { s with effMix := e } := by
  unfold SwingSys.getSizingCurve
  split
  · exact ⟨s.effMix, rfl⟩
  · rename_i b1 hb1
    have key : ∃ e, (match curveSetup s.base b1 (s.base.sizingSlope.getD slope) step with
      | .error e => (s, .error e)
      | .ok (factor, arr1, arr2) =>
        let r := swingSweep b1 factor s (arr1 ++ arr2)
        let s' := { r.1 with base := { r.1.base with
          cfg := { r.1.base.cfg with maxRunHr := s.base.cfg.maxRunHr } } }
        match r.2 with
        | .error e => (s', .error e)
        | .ok pts => (s', .ok ⟨pts, min arr1.length (pts.length - 1)⟩)
        : SwingSys K × Py (Curve K)).1 = { s with effMix := e } := by
      split
      · exact ⟨s.effMix, rfl⟩
      · rename_i factor a1 a2 _
        obtain ⟨e, r, he⟩ := swingSweep_spec (b := b1) (factor := factor) s (a1 ++ a2)
        refine ⟨e, ?_⟩
        dsimp only
        split <;> (simp only [he]; rfl)
    obtain ⟨e, he⟩ := key
    refine ⟨e, ?_⟩
    dsimp only
    split
    · split <;> exact he
    · exact he

/-- **C82 (state, load shifting).** The same for the load-shift curve. -/
theorem C82_ls_curve_keeps_results [FloorRing K] (db : ShapeFiles K) (s : SwingSys K) (b : Building K)
    (sched : List String) (m : ControlMap K) (slope : K) (fractOf : K → Py K) (pct : K) :
    ∃ e, (s.getLsSizingCurve db b sched m slope fractOf pct).1.1 = { s with effMix := e } := by
  have hbody : ∀ (s1 : SwingSys K) (b1 : Building K) (sl : K),
      ∃ e, (swingLsBody s1 b1 sched m sl fractOf pct).1 = { s1 with effMix := e } := by
    intro s1 b1 sl
    unfold swingLsBody
    split
    · exact ⟨s1.effMix, rfl⟩
    · split
      · exact ⟨s1.effMix, rfl⟩
      · split
        · exact ⟨s1.effMix, rfl⟩
        · exact ⟨_, rfl⟩
  unfold SwingSys.getLsSizingCurve
  split
  · exact ⟨s.effMix, rfl⟩
  · split
    · exact ⟨s.effMix, rfl⟩
    · rename_i b1 _
      obtain ⟨e, he⟩ := hbody { s with base := { s.base with
        cfg := { s.base.cfg with maxRunHr := min s.base.cfg.maxRunHr (nonShed sched : K) } } } b1
        (s.base.sizingSlope.getD slope)
      refine ⟨e, ?_⟩
      dsimp only
      split
      · split <;> (simp only [he])
      · simp only [he]


theorem runVolSwing_effMix (s : SwingSys K) (b : Building K) (e : K) :
    runVolSwing { s with effMix := e } b = runVolSwing s b := rfl

theorem runVolSwing_some {s : SwingSys K} {b : Building K} {rv : K} {eff : Option K}
    (h : runVolSwing s b = .ok (rv, eff)) (hne : rv ≠ 0) : ∃ e, eff = some e := by
  simp only [runVolSwing, bind_eq_ok, pure_eq_ok] at h
  obtain ⟨inlet, -, h⟩ := h
  split at h
  · simp at h
  · split at h
    · simp only [Except.ok.injEq, Prod.mk.injEq] at h
      exact absurd h.1.symm hne
    · split at h
      · simp only [Except.ok.injEq, Prod.mk.injEq] at h
        exact absurd h.1.symm hne
      · simp only [bind_eq_ok, Except.ok.injEq, Prod.mk.injEq] at h
        obtain ⟨r, -, q, -, -, rfl⟩ := h
        exact ⟨_, rfl⟩

/-- What a point of the curve is. -/
def SwingPoint (s : SwingSys K) (b : Building K) (factor : K) (p : K × K × K) : Prop :=
  ∃ rv e, runVolSwing (s.restore p.1) b = .ok (rv, some e) ∧ rv ≠ 0 ∧
    requiredCapacitySwing { s.restore p.1 with effMix := e } b = .ok p.2.1 ∧
    storageVolume rv factor = .ok p.2.2

theorem swingCurvePoint_some {s s1 : SwingSys K} {b : Building K} {factor h : K} {p : K × K × K}
    (hp : swingCurvePoint (s.restore h) b factor = (s1, .ok (some p))) :
    p.1 = h ∧ SwingPoint s b factor p ∧ ∃ e, s1 = { s.restore h with effMix := e } := by
  unfold swingCurvePoint at hp
  cases hrv : runVolSwing (s.restore h) b with
  | error e =>
    rw [hrv] at hp
    simp only [Prod.mk.injEq] at hp
    obtain ⟨-, hp⟩ := hp
    cases e <;> simp at hp
  | ok t =>
    obtain ⟨rv, eff⟩ := t
    rw [hrv] at hp
    simp only at hp
    split at hp
    · simp at hp
    · rename_i hne
      obtain ⟨e, rfl⟩ := runVolSwing_some hrv hne
      simp only [Prod.mk.injEq, Option.getD_some] at hp
      obtain ⟨rfl, hp⟩ := hp
      split at hp
      · simp at hp
      · simp at hp
      · simp only [bind_eq_ok, pure_eq_ok, Except.ok.injEq, Option.some.injEq] at hp
        obtain ⟨cap, h1, st, h2, rfl⟩ := hp
        exact ⟨rfl, ⟨rv, e, hrv, hne, h1, h2⟩, e, rfl⟩

theorem swingPoint_effMix {s : SwingSys K} {b : Building K} {factor e h : K} {p : K × K × K}
    (hp : SwingPoint ({ s with effMix := e } : SwingSys K) b factor p) : SwingPoint s b factor p := hp

theorem swingPoint_restore {s : SwingSys K} {b : Building K} {factor e h : K} {p : K × K × K}
    (hp : SwingPoint ({ s.restore h with effMix := e } : SwingSys K) b factor p) :
    SwingPoint s b factor p := hp

theorem swingSweep_points {b : Building K} {factor : K} {s : SwingSys K} {hs : List K}
    {pts : List (K × K × K)} (h : (swingSweep b factor s hs).2 = .ok pts) :
    pts.map (·.1) <+: hs ∧ ∀ p ∈ pts, SwingPoint s b factor p := by
  induction hs generalizing s pts with
  | nil =>
    simp only [swingSweep, Except.ok.injEq] at h
    subst h; simp
  | cons x hs ih =>
    unfold swingSweep at h
    change (match swingCurvePoint (s.restore x) b factor with
      | (s1, .error e) => (s1, .error e)
      | (s1, .ok none) => (s1, .ok [])
      | (s1, .ok (some p)) =>
        ((swingSweep b factor s1 hs).1, (swingSweep b factor s1 hs).2 >>= fun ps => .ok (p :: ps))
        : SwingSys K × Py (List (K × K × K))).2 = _ at h
    rcases hq : swingCurvePoint (s.restore x) b factor with ⟨s1, e' | _ | p⟩
    · rw [hq] at h; simp at h
    · rw [hq] at h
      simp only [Except.ok.injEq] at h
      subst h; simp
    · rw [hq] at h
      simp only [bind_eq_ok, Except.ok.injEq] at h
      obtain ⟨ps, h1, rfl⟩ := h
      obtain ⟨h2, h3, e, rfl⟩ := swingCurvePoint_some hq
      obtain ⟨h4, h5⟩ := ih h1
      constructor
      · simp only [List.map_cons]
        rw [h2, List.cons_prefix_cons]
        exact ⟨rfl, h4⟩
      · intro q hq
        rcases List.mem_cons.mp hq with rfl | hq
        · exact h3
        · exact swingPoint_restore (h5 q hq)

/-- The swing tank has been sized for this building: what `size` has left, and what a curve relies on. -/
def TmSizedFor (s : SwingSys K) (b : Building K) : Prop :=
  ∃ vol ca cap, sizeSwingTm s.base.cfg.supply s.ret s.flow s.sf (some b) = .ok (vol, ca, cap) ∧
    s.tmVol = some (vol : K) ∧ s.tmCa = some ca ∧ s.tmCap = some cap

theorem cappedCfg_supply (c : SysCfg K) (ls : Option (List String × ControlMap K)) :
    (cappedCfg c ls).supply = c.supply := by unfold cappedCfg; split <;> rfl

theorem swingSize_tm {db : ShapeFiles K} {s s' : SwingSys K} {b b' b1 : Building K}
    {sched : Option (List String)} {cmap : Option (ControlMap K)} {slope fract : K}
    (h : s.size db b sched cmap slope fract = ((s', b'), .ok ())) (hb1 : dailyView db b = .ok b1) :
    TmSizedFor s' b1 := by
  obtain ⟨b1', inlet', vol, ca, cap, rv, eff, capP, st, mix, e1, e2, e3, e4, e5, e6⟩ := swingSize_ok h
  rw [hb1] at e1
  injection e1 with e1
  subst e1
  rw [cappedCfg_supply] at e3
  rw [e6]
  exact ⟨vol, ca, cap, e3, rfl, rfl, rfl⟩

/-- Sizing a system whose swing tank is already sized for the building, from its parts. -/
theorem swingSize_of_parts {db : ShapeFiles K} {s : SwingSys K} {b b1 : Building K}
    {sched : Option (List String)} {cmap : Option (ControlMap K)} {slope fract inlet rv capP st mix : K}
    {eff : Option K} (hb1 : dailyView db b = .ok b1) (hin : requireDesignInlet b1 = .ok inlet)
    (htm : TmSizedFor s b1) (hrv : runVolSwing (s.capped (lsInputs sched cmap)) b1 = .ok (rv, eff))
    (hrest : sizeSwingRest { s.capped (lsInputs sched cmap) with effMix := eff.getD 1 } b1
      (lsInputs sched cmap) cmap slope fract inlet rv = .ok (capP, st, mix)) :
    let r := s.size db b sched cmap slope fract
    getMinCapacity r.1.1.base = .ok capP ∧ getMinStorage r.1.1.base = .ok st ∧ r.1.1.effMix = mix := by
  intro r
  obtain ⟨vol, ca, cap, h1, h2, h3, h4⟩ := htm
  obtain ⟨base, ret, flow, sf, tv, tc, tp, em⟩ := s
  dsimp only at h2 h3 h4
  subst h2 h3 h4
  set s : SwingSys K := ⟨base, ret, flow, sf, some vol, some ca, some cap, em⟩ with hs
  have hbody : sizeSwingBody (s.capped (lsInputs sched cmap)) b1 (lsInputs sched cmap) cmap slope fract
      = ({ s.capped (lsInputs sched cmap) with
            base := { (s.capped (lsInputs sched cmap)).base with
              minCap := some capP, minStorage := some st, sizingSlope := some slope }, effMix := mix }, .ok ()) := by
    have e1 : sizeSwingTm (s.capped (lsInputs sched cmap)).base.cfg.supply (s.capped (lsInputs sched cmap)).ret
        (s.capped (lsInputs sched cmap)).flow (s.capped (lsInputs sched cmap)).sf (some b1)
        = .ok (vol, ca, cap) := by
      rw [← h1]
      unfold SwingSys.capped
      simp only [cappedCfg_supply]
    unfold sizeSwingBody
    simp only [hin, e1]
    have hrv' : runVolSwing { s.capped (lsInputs sched cmap) with
        tmVol := some (vol : K), tmCa := some ca, tmCap := some cap, effMix := 1 } b1 = .ok (rv, eff) := hrv
    have hrest' : sizeSwingRest { s.capped (lsInputs sched cmap) with
        tmVol := some (vol : K), tmCa := some ca, tmCap := some cap, effMix := eff.getD 1 } b1
        (lsInputs sched cmap) cmap slope fract inlet rv = .ok (capP, st, mix) := hrest
    simp only [hrv', hrest']
    rfl
  rcases swingSize_eq db s b sched cmap slope fract with ⟨e, h5, he⟩ | ⟨b1', b2, h5, he, -⟩
  · rw [hb1] at h5; simp at h5
  · rw [hb1] at h5
    injection h5 with h5
    subst h5
    rw [hbody] at he
    have hr : r = s.size db b sched cmap slope fract := rfl
    rw [hr, he]
    exact ⟨rfl, rfl, rfl⟩

/-- **C82 (sizing curve).** For a swing system whose tank is sized for the building, every point of the sizing curve
is what `size` would store for that many run hours. -/
theorem C82_points_are_direct_sizing [FloorRing K] (db : ShapeFiles K) (s s' : SwingSys K)
    (b b' b1 : Building K) (slope step fract : K) (cv : Curve K) (hb1 : dailyView db b = .ok b1)
    (htm : TmSizedFor s b1)
    (h : s.getSizingCurve db b slope step = ((s', b'), .ok cv)) (p : K × K × K) (hp : p ∈ cv.points) :
    let r := (s.restore p.1).size db b none s.base.heaterMap (s.base.sizingSlope.getD slope) fract
    getMinCapacity r.1.1.base = .ok p.2.1 ∧ getMinStorage r.1.1.base = .ok p.2.2 := by
  have hb1' := hb1
  rw [dailyView] at hb1'
  unfold SwingSys.getSizingCurve at h
  simp only [hb1'] at h
  obtain ⟨factor, a1, a2, hset, hpts⟩ : ∃ factor a1 a2,
      curveSetup s.base b1 (s.base.sizingSlope.getD slope) step = .ok (factor, a1, a2) ∧
      (swingSweep b1 factor s (a1 ++ a2)).2 = .ok cv.points := by
    cases hset : curveSetup s.base b1 (s.base.sizingSlope.getD slope) step with
    | error e =>
      rw [hset] at h
      split at h
      · split at h <;> simp at h
      · simp at h
    | ok t =>
      obtain ⟨factor, a1, a2⟩ := t
      refine ⟨factor, a1, a2, rfl, ?_⟩
      rw [hset] at h
      cases hsw : (swingSweep b1 factor s (a1 ++ a2)).2 with
      | error e =>
        simp only [hsw] at h
        split at h
        · split at h <;> simp at h
        · simp at h
      | ok pts =>
        simp only [hsw] at h
        split at h
        · split at h
          · simp at h
          · simp only [Prod.mk.injEq, Except.ok.injEq] at h
            rw [← h.2]
        · simp only [Prod.mk.injEq, Except.ok.injEq] at h
          rw [← h.2]
  obtain ⟨inlet, mx, h1, h2, -⟩ := curveSetup_ok hset
  obtain ⟨rv, e, g1, g2, g3, g4⟩ := (swingSweep_points hpts).2 p hp
  have hls : lsInputs (K := K) none s.base.heaterMap = none := by simp [lsInputs, truthySched]
  obtain ⟨r1, r2, -⟩ := swingSize_of_parts (s := s.restore p.1) (sched := none) (cmap := s.base.heaterMap)
    (slope := s.base.sizingSlope.getD slope) (fract := fract) (rv := rv) (eff := some e) (capP := p.2.1)
    (st := p.2.2) (mix := e) hb1 h1 htm
    (by rw [hls]; exact g1) (by
      rw [hls]
      have e4 : stratFactor (cappedCfg (s.restore p.1).base.cfg none) s.base.heaterMap
          (s.base.sizingSlope.getD slope) inlet = .ok factor := h2
      have g3' : requiredCapacitySwing { (s.restore p.1).capped none with effMix := e } b1 = .ok p.2.1 := g3
      simp only [sizeSwingRest, Option.getD_some, g3']
      simp only [SwingSys.capped, e4, g4, ok_bind, pure_eq_ok])
  exact ⟨r1, r2⟩

/-- **C82 (load-shift curve), partial.** For a swing system whose tank is sized for the building and whose stored
effective mix fraction is the one its normal sizing finds, the load-shift curve changes nothing in the system and
each of its 76 points is what `size` stores for the coverage fraction of that percentile. Missing: systems
whose load-shift sizing needed the larger volume; they store the load-shift fraction instead, and the curve then
differs: `C82_ls_curve_below_sizing`. -/
theorem C82_ls_points_are_ls_sizing_partial [FloorRing K] (db : ShapeFiles K) (s s' : SwingSys K)
    (b b' b1 : Building K) (sched : List String) (m : ControlMap K) (slope : K) (fractOf : K → Py K) (pct : K)
    (cv : Curve K) (hsched : sched ≠ []) (hb1 : dailyView db b = .ok b1) (htm : TmSizedFor s b1)
    (hmix : ∀ rv eff, runVolSwing (s.capped (some (sched, m))) b1 = .ok (rv, eff) → eff.getD 1 = s.effMix)
    (h : s.getLsSizingCurve db b sched m slope fractOf pct = ((s', b'), .ok cv)) :
    s' = s ∧ cv.points.length = 76 ∧ cv.recIndex = lsRecIndex pct ∧
    ∀ i < 76, ∃ fract cap st, fractOf (((25 + i : ℕ) : K) / 100) = .ok fract ∧
      cv.points[i]? = some (((25 + i : ℕ) : K) / 100, cap, st) ∧
      let r := s.size db b (some sched) (some m) (s.base.sizingSlope.getD slope) fract
      getMinCapacity r.1.1.base = .ok cap ∧ getMinStorage r.1.1.base = .ok st := by
  have hb1' := hb1
  rw [dailyView] at hb1'
  unfold SwingSys.getLsSizingCurve at h
  split at h
  · simp at h
  rename_i hshed
  simp only [Bool.not_eq_false] at hshed
  simp only [hb1'] at h
  have hls : lsInputs (some sched) (some m) = some (sched, m) := by
    obtain ⟨x, xs, rfl⟩ := List.exists_cons_of_ne_nil hsched
    simp [lsInputs, truthySched, hshed]
  have hr : (swingLsBody (s.capped (some (sched, m))) b1 sched m (s.base.sizingSlope.getD slope) fractOf pct).2
      = .ok cv ∧ s' = (swingLsBody (s.capped (some (sched, m))) b1 sched m (s.base.sizingSlope.getD slope)
        fractOf pct).1.restore s.base.cfg.maxRunHr := by
    split at h
    · split at h
      · simp at h
      · simp only [Prod.mk.injEq] at h
        exact ⟨h.2, h.1.1.symm⟩
    · simp only [Prod.mk.injEq] at h
      exact ⟨h.2, h.1.1.symm⟩
  obtain ⟨hr, hs'⟩ := hr
  unfold swingLsBody at hr hs'
  cases hin : requireDesignInlet b1 with
  | error e => simp [hin] at hr
  | ok inlet =>
    simp only [hin] at hr hs'
    cases hcap : requiredCapacitySwing (s.capped (some (sched, m))) b1 with
    | error e => simp [hcap] at hr
    | ok capN =>
      simp only [hcap] at hr hs'
      cases hrv : runVolSwing (s.capped (some (sched, m))) b1 with
      | error e => simp [hrv] at hr
      | ok t =>
        obtain ⟨rv, eff⟩ := t
        have hmix := hmix rv eff hrv
        have hmix' : eff.getD (s.capped (some (sched, m))).effMix = s.effMix := by
          cases eff with
          | none => rfl
          | some e => exact hmix
        simp only [hrv, hmix'] at hr hs'
        have hsame : ({ s.capped (some (sched, m)) with effMix := s.effMix } : SwingSys K)
            = s.capped (some (sched, m)) := rfl
        rw [hsame] at hr hs'
        simp only [bind_eq_ok, pure_eq_ok, Except.ok.injEq] at hr
        obtain ⟨sf, hsf, stN, hstN, pts, hpts, rfl⟩ := hr
        rw [mapM_eq_ok] at hpts
        refine ⟨?_, ?_, rfl, ?_⟩
        · rw [hs']
          rfl
        · have := hpts.length_eq
          simp only [lsPercents, List.length_map, List.length_range'] at this
          exact this.symm
        · intro i hi
          have hget : (lsPercents : List K)[i]? = some (((25 + i : ℕ) : K) / 100) := by
            simp only [lsPercents, List.getElem?_map]
            rw [List.getElem?_eq_getElem (by simpa using hi), List.getElem_range']
            simp
          obtain ⟨p, hp1, hp2⟩ := forall₂_getElem? hpts i _ hget
          unfold swingLsPoint at hp2
          simp only [bind_eq_ok, pure_eq_ok, Except.ok.injEq] at hp2
          obtain ⟨fract, k1, capLs, k2, gen, k3, ⟨rvLs, effLs⟩, k4, stLs, k5, rfl⟩ := hp2
          refine ⟨fract, _, _, k1, hp1, ?_⟩
          intro r
          obtain ⟨r1, r2, -⟩ := swingSize_of_parts (s := s) (sched := some sched) (cmap := some m)
            (slope := s.base.sizingSlope.getD slope) (fract := fract) (rv := rv) (eff := eff)
            (capP := max capN capLs) (st := max stN stLs)
            (mix := if stN < stLs then effLs else s.effMix) hb1 hin htm (by rw [hls]; exact hrv) (by
              rw [hls, hmix]
              have : ({ s.capped (some (sched, m)) with effMix := s.effMix } : SwingSys K)
                = s.capped (some (sched, m)) := rfl
              rw [this]
              simp only [sizeSwingRest, hsf, hstN, hcap, ok_bind, sizeSwingLs, k3, k2, k4, k5, pure_eq_ok]
              split
              · rename_i hlt; rw [max_eq_right hlt.le]
              · rename_i hlt; rw [max_eq_left (not_lt.1 hlt)]; rfl)
          exact ⟨r1, r2⟩


/-! ## C67: the whole call -/

/-- **C67 (the whole call).** For a building on its daily shape with a positive need of at most 1250 gallons whose
busiest minute is below the chosen table size, a positive loop loss, a safety factor above one and
inlet < supply ≤ storage, sizing without load shifting succeeds whenever the stratification factor of the
control map can be computed and is not zero. -/
theorem C67_size_never_fails {db : ShapeFiles K} {s : SwingSys K} {b : Building K}
    {sched : Option (List String)} {cmap : Option (ControlMap K)} {slope fract inlet factor : K}
    {vol ca : Nat} {cap : K}
    (hls : lsInputs sched cmap = none) (hday : b.isAnnual = false)
    (hin : requireDesignInlet b = .ok inlet) (hcold : inlet < s.base.cfg.supply)
    (hhot : s.base.cfg.supply ≤ s.base.cfg.storage)
    (hloss : 0 < recircLossKbtuh s.base.cfg.supply s.ret s.flow) (hsf : 1 < s.sf)
    (htm : sizeSwingTm s.base.cfg.supply s.ret s.flow s.sf (some b) = .ok (vol, ca, cap))
    (hlen : b.peakShape.length = 24) (hd : 0 < b.dailyGal)
    (hshape : ∀ f ∈ b.peakShape, 0 ≤ f ∧ f * b.dailyGal / 60 < (vol : K)) (hsum : b.peakShape.sum ≤ 1)
    (hrun : s.base.cfg.maxRunHr ≠ 0) (hdef : s.base.cfg.defrost ≠ 0)
    (hfac : stratFactor s.base.cfg cmap slope inlet = .ok factor) (hf0 : factor ≠ 0) :
    ∃ s', s.size db b sched cmap slope fract = ((s', b), .ok ()) ∧ s'.tmVol = some (vol : K) ∧ s'.tmCap = some cap ∧
      0 ≤ s'.effMix ∧ s'.effMix ≤ 1 := by
  obtain ⟨hvol, hcap⟩ := sizeSwingTm_vol_pos htm
  set sT : SwingSys K := { s with tmVol := some (vol : K), tmCa := some ca, tmCap := some cap, effMix := 1 } with hsT
  have hp : sT.params = .ok ⟨(vol : K), recircLossKbtuh s.base.cfg.supply s.ret s.flow, cap, s.base.cfg.supply⟩ :=
    rfl
  obtain ⟨rv, eff, hrv, -, heff⟩ := C67_running_volume_never_fails (s := sT) (b := b) hp hin
    ⟨(Nat.cast_pos.2 hvol : (0 : K) < (vol : K)), hloss, by
      rw [hcap]; exact lt_mul_of_one_lt_left hloss hsf, hcold, hhot⟩ rfl hlen hd hshape hsum
  have hb : dailyView db b = .ok b := by simp [dailyView, hday]
  have hcapd : s.capped (lsInputs sched cmap) = s := by rw [hls]; rfl
  have hst : ∃ st, storageVolume rv factor = .ok st := by
    unfold storageVolume
    exact ⟨_, fdiv_ok _ hf0⟩
  obtain ⟨st, hst⟩ := hst
  have hreq : ∃ c, requiredCapacitySwing { sT with effMix := eff.getD 1 } b = .ok c := by
    unfold requiredCapacitySwing
    have h1 : sT.base.cfg.maxRunHr ≠ 0 := hrun
    have h2 : sT.base.cfg.defrost ≠ 0 := hdef
    simp only [hin, ok_bind, fdiv_ok _ h1, fdiv_ok _ h2, pure_eq_ok]
    exact ⟨_, rfl⟩
  obtain ⟨c, hc⟩ := hreq
  rcases swingSize_eq db s b sched cmap slope fract with ⟨e, h1, he⟩ | ⟨b1, b2, h1, he, h2, -⟩
  · rw [hb] at h1; simp at h1
  · rw [hb] at h1
    injection h1 with h1
    subst h1
    rw [h2 hday, hcapd] at he
    have hbody : sizeSwingBody s b (lsInputs sched cmap) cmap slope fract =
        ({ sT with base := { sT.base with minCap := some c, minStorage := some st, sizingSlope := some slope },
                   effMix := eff.getD 1 }, .ok ()) := by
      have hfac' : stratFactor sT.base.cfg cmap slope inlet = .ok factor := hfac
      unfold sizeSwingBody
      rw [hls]
      simp only [hin, htm]
      rw [← hsT]
      simp only [hrv, sizeSwingRest]
      have hc' := hc
      rw [hsT] at hc' hfac'
      simp only at hc' hfac'
      simp only [hsT, hfac', hst, hc', ok_bind, pure_eq_ok]
    rw [hbody] at he
    refine ⟨_, he, rfl, rfl, ?_⟩
    simp only [SwingSys.restore]
    cases eff with
    | none => exact ⟨zero_le_one, le_refl _⟩
    | some e => exact heff e rfl

namespace Demo

def swing : SwingSys ℚ := ⟨{ cfg := Demo.cfg }, 110, 3, 6/5, none, none, none, 1⟩

end Demo

/-- The hypotheses of C67, C81 and C82 are met: the demo building can be sized with a swing tank. -/
example : ∃ s', Demo.swing.size Demo.noFiles Demo.building none (some Demo.map) (28/10) 1
    = ((s', Demo.building), .ok ()) ∧ s'.tmVol = some 50 := by
  have htm : sizeSwingTm (K := ℚ) Demo.swing.base.cfg.supply Demo.swing.ret Demo.swing.flow Demo.swing.sf
      (some Demo.building) = .ok (50, 80, 6/5 * recircLossKbtuh 120 110 3) := by decide +kernel
  obtain ⟨s', h1, h2, -⟩ := C67_size_never_fails (db := Demo.noFiles) (s := Demo.swing) (b := Demo.building)
    (sched := none) (cmap := some Demo.map) (slope := 28/10) (fract := 1) (inlet := 50)
    (factor := 307/392) (by simp [lsInputs, truthySched]) (by decide +kernel) (by decide +kernel)
    (by decide +kernel) (by decide +kernel) (by decide +kernel) (by decide +kernel) htm (by decide +kernel)
    (by decide +kernel) (by decide +kernel) (by decide +kernel) (by decide +kernel) (by decide +kernel)
    (by decide +kernel) (by norm_num)
  exact ⟨s', h1, h2⟩

/-! ## C82: the load-shift curve after a load-shift sizing -/

namespace Demo

/-- The day is even, and the loop takes from the swing tank just what the draws bring into it. -/
def evenDay : Building ℚ :=
  { building with dailyGal := 960, avgShape := List.replicate 24 (1/24), peakShape := List.replicate 24 (1/24) }

def steadySwing : SwingSys ℚ := ⟨{ cfg := Demo.cfg }, 115, 8372/2103, 6/5, none, none, none, 1⟩

/-- What `size` leaves behind. -/
def steadyAt (a1 a2 a3 : Option ℚ) (e : ℚ) : SwingSys ℚ :=
  ⟨⟨Demo.cfg, a1, a2, a3, none⟩, 115, 8372/2103, 6/5, some 40, some 80, some (10490369253/876250000), e⟩

def steadySized : SwingSys ℚ :=
  steadyAt (some (5012121/100000)) (some (35280280/216609)) (some (28/10)) (1008001/1009440)

end Demo

theorem simSwingFrom_steady {p : SwingParams K} {inlet storage t d hw : K} (hhw : swingDraw p.supply inlet t d = hw)
    (h : swingStep p false t hw storage = .ok (false, t, 0)) (n : ℕ) :
    simSwingFrom p inlet storage false t (List.replicate n d) = .ok (List.replicate n ⟨t, 0, hw⟩) := by
  induction n with
  | zero => rfl
  | succ n ih =>
    rw [List.replicate_succ, List.replicate_succ]
    simp only [simSwingFrom, hhw, h, ok_bind, ih, pure_eq_ok]

theorem perMinute_replicate (n : ℕ) (x : K) : perMinute (List.replicate n x) = List.replicate (n * 60) (x / 60) := by
  induction n with
  | zero => simp [perMinute]
  | succ n ih =>
    unfold perMinute at ih ⊢
    rw [List.replicate_succ, List.flatMap_cons, ih, List.replicate_append_replicate]
    congr 1
    omega

/-- Away from the last minutes nothing changes in the steady swing tank. -/
theorem steady_primary (a1 a2 a3 : Option ℚ) (e : ℚ) (n : ℕ) :
    swingPrimary (Demo.steadyAt a1 a2 a3 e) 50 (List.replicate (n + 1) 40)
      = .ok ((2/3 : ℚ) :: List.replicate (n * 60 + 59) (1400/2103)) := by
  have hp : (Demo.steadyAt a1 a2 a3 e).params =
      .ok ⟨40, recircLossKbtuh 120 115 (8372/2103), 10490369253/876250000, 120⟩ := rfl
  have hs : (Demo.steadyAt a1 a2 a3 e).base.cfg.storage = 150 := rfl
  have hsup : (Demo.steadyAt a1 a2 a3 e).base.cfg.supply = 120 := rfl
  have hd : (40 : ℚ) / 60 = 2/3 := by norm_num
  have key := simSwingFrom_steady (p := (⟨40, recircLossKbtuh 120 115 (8372/2103), 10490369253/876250000, 120⟩ :
    SwingParams ℚ)) (inlet := 50) (storage := 150) (t := 1201/10) (d := 2/3) (hw := 1400/2103)
    (by decide +kernel) (by decide +kernel) (n * 60 + 59)
  have hi : swingInit (120 : ℚ) = 1201/10 := by norm_num [swingInit]
  unfold swingPrimary
  rw [hp]
  simp only [ok_bind, perMinute_replicate, hd, hs, hsup, hi]
  rw [show (n + 1) * 60 = n * 60 + 59 + 1 by omega, List.replicate_succ]
  simp only [simSwing, key, ok_bind, pure_eq_ok, List.map_cons, List.map_replicate]

theorem zipWith_replicate_append {α β γ : Type} (f : α → β → γ) (n : ℕ) (a : α) (b : β) (l : List α) (l' : List β) :
    List.zipWith f (List.replicate n a ++ l) (List.replicate n b ++ l') =
      List.replicate n (f a b) ++ List.zipWith f l l' := by
  induction n with
  | zero => rfl
  | succ n ih => simp only [List.replicate_succ, List.cons_append, List.zipWith_cons_cons, ih]

/-- A profile that gains first and then loses no more than it gained has no deficit. -/
theorem worstNegative_two (x y z : K) (m n : ℕ) (hx : 0 ≤ x) (hy : 0 ≤ y) (hz : 0 ≤ x + m * y + n * z) :
    worstNegative (cumsum (x :: (List.replicate m y ++ List.replicate n z))) = 0 := by
  rcases worstNegative_attained (cumsum (x :: (List.replicate m y ++ List.replicate n z))) with h | ⟨v, hv, h⟩
  · exact h
  · have hnn := worstNegative_nonneg (cumsum (x :: (List.replicate m y ++ List.replicate n z)))
    rw [mem_cumsum] at hv
    obtain ⟨k, hk, rfl⟩ := hv
    have hs : 0 ≤ (List.take (k + 1) (x :: (List.replicate m y ++ List.replicate n z))).sum := by
      rw [List.take_succ_cons, List.sum_cons, List.take_append, List.sum_append, List.take_replicate,
        List.take_replicate, List.sum_replicate, List.sum_replicate, List.length_replicate]
      simp only [nsmul_eq_mul]
      have hmy : 0 ≤ (m : K) * y := mul_nonneg (Nat.cast_nonneg _) hy
      by_cases hkm : k ≤ m
      · rw [Nat.min_eq_left hkm, show k - m = 0 by omega, Nat.zero_min]
        have : 0 ≤ (k : K) * y := mul_nonneg (Nat.cast_nonneg _) hy
        simp only [Nat.cast_zero, zero_mul]
        linarith
      · rw [Nat.min_eq_right (by omega)]
        rcases le_or_gt 0 z with h0 | h0
        · have : 0 ≤ ((min (k - m) n : ℕ) : K) * z := mul_nonneg (Nat.cast_nonneg _) h0
          linarith
        · have : (n : K) * z ≤ ((min (k - m) n : ℕ) : K) * z :=
            mul_le_mul_of_nonpos_right (Nat.cast_le.2 (Nat.min_le_right _ _)) h0.le
          linarith
    linarith

theorem steady_deficit (gen : ℚ) (hg : 378004/6309 ≤ gen) :
    worstNegative (cumsum (List.zipWith (fun g x => g - x)
      (perMinute (((((List.range 24).map (fun h => if Demo.sched[h]? = some "shed" then (0 : ℚ) else gen)) ++
        ((List.range 24).map (fun h => if Demo.sched[h]? = some "shed" then (0 : ℚ) else gen))).drop 20).take 24))
      ((2/3 : ℚ) :: List.replicate (23 * 60 + 59) (1400/2103)))) = 0 := by
  have e1 : (((((List.range 24).map (fun h => if Demo.sched[h]? = some "shed" then (0 : ℚ) else gen)) ++
        ((List.range 24).map (fun h => if Demo.sched[h]? = some "shed" then (0 : ℚ) else gen))).drop 20).take 24)
      = List.replicate 21 gen ++ List.replicate 3 0 := rfl
  have e2 : perMinute (List.replicate 21 gen ++ List.replicate 3 (0 : ℚ))
      = (gen / 60) :: (List.replicate 1259 (gen / 60) ++ List.replicate 180 (0 / 60)) := by
    have : perMinute (List.replicate 21 gen ++ List.replicate 3 (0 : ℚ))
        = perMinute (List.replicate 21 gen) ++ perMinute (List.replicate 3 0) := by
      simp only [perMinute, List.flatMap_append]
    rw [this, perMinute_replicate, perMinute_replicate, show 21 * 60 = 1259 + 1 from rfl, List.replicate_succ]
    rfl
  have e3 : List.replicate (23 * 60 + 59) (1400/2103 : ℚ)
      = List.replicate 1259 (1400/2103) ++ (List.replicate 180 (1400/2103) ++ []) := by
    rw [List.append_nil, List.replicate_append_replicate]
  have e4 : List.replicate 180 (0 / 60 : ℚ) = List.replicate 180 (0 / 60) ++ [] := (List.append_nil _).symm
  rw [e1, e2, e3, List.zipWith_cons_cons, zipWith_replicate_append, e4, zipWith_replicate_append, List.zipWith_nil_left,
    List.append_nil]
  apply worstNegative_two
  · linarith
  · linarith
  · push_cast; linarith

theorem steady_prelim (a1 a2 a3 : Option ℚ) (e : ℚ) : prelimVolsSwing (Demo.steadyAt a1 a2 a3 e) Demo.sched Demo.evenDay 1
    = .ok (252002/2103, 168002/2103) := by
  have h1 : requireDesignInlet Demo.evenDay = .ok 50 := by decide +kernel
  have h2 : firstShedBlock Demo.sched = .ok ([17, 18, 19], 2) := by decide +kernel
  have h3 : [17, 18, 19].mapM (fun h => pyGet Demo.evenDay.avgShape h) = .ok (List.replicate 3 (1/24)) := by
    decide +kernel
  have h4 : (List.range' (17 - 2) 2).mapM (fun h => pyGet Demo.evenDay.avgShape h) = .ok (List.replicate 2 (1/24)) := by
    decide +kernel
  have h5 : ∀ n, (List.replicate n (1/24 : ℚ)).map (fun f => f * Demo.evenDay.dailyGal) = List.replicate n 40 := by
    intro n
    rw [List.map_replicate, show (1/24 : ℚ) * Demo.evenDay.dailyGal = 40 by norm_num [Demo.evenDay]]
  unfold prelimVolsSwing
  simp only [h1, h2, h3, h4, h5, ok_bind]
  simp only [steady_primary _ _ _ _ 2, steady_primary _ _ _ _ 1, ok_bind, List.sum_replicate, List.sum_cons, Except.map]
  norm_num

theorem steady_genRate (a1 a2 a3 : Option ℚ) (e gen : ℚ) (hg : gen = max (60 * e) (378004/6309)) :
    genRateLsSwing (Demo.steadyAt a1 a2 a3 e) Demo.sched Demo.map Demo.evenDay (28/10) 1 = .ok gen := by
  have h2 : firstShedBlock Demo.sched = .ok ([17, 18, 19], 2) := by decide +kernel
  have h3 : fdiv (Demo.evenDay.dailyGal * e) (Demo.steadyAt a1 a2 a3 e).base.cfg.maxRunHr = .ok (60 * e) := by
    have hc : (Demo.steadyAt a1 a2 a3 e).base.cfg.maxRunHr = 16 := rfl
    have hd : Demo.evenDay.dailyGal = 960 := rfl
    rw [hc, hd, fdiv_ok _ (by norm_num)]
    congr 1
    ring
  have h4 : lsControls Demo.map = .ok (Demo.normal, Demo.loadUp, Demo.shed) := by decide +kernel
  have h5 : stratPctOfTank Demo.cfg Demo.loadUp.onFract Demo.loadUp.onTrig (28/10) = .ok (199/280) := by
    decide +kernel
  have h6 : stratPctOfTank Demo.cfg Demo.normal.onFract Demo.normal.onTrig (28/10) = .ok (143/280) := by
    decide +kernel
  have h7 : stratPctOfTank Demo.cfg Demo.shed.onFract Demo.shed.onTrig (28/10) = .ok (31/280) := by
    decide +kernel
  have h8 : (Demo.steadyAt a1 a2 a3 e).base.cfg = Demo.cfg := rfl
  rw [h8] at h3
  unfold genRateLsSwing
  have h9 : (Demo.steadyAt a1 a2 a3 e).effMix = e := rfl
  simp only [h8, h9, h2, h3, h4, h5, h6, h7, steady_prelim, ok_bind, pure_eq_ok]
  rw [if_neg (by norm_num), if_neg (by norm_num), hg]
  congr 2
  norm_num

theorem steady_capLs (a1 a2 a3 : Option ℚ) (e gen cap : ℚ) (hg : gen = max (60 * e) (378004/6309)) (hc : cap = gen * rhoCp ℚ * 100 / 1000) :
    requiredCapacityLsSwing (Demo.steadyAt a1 a2 a3 e) Demo.sched Demo.map Demo.evenDay (28/10) 1
      = .ok cap := by
  have h1 : requireDesignInlet Demo.evenDay = .ok 50 := by decide +kernel
  have h2 : (Demo.steadyAt a1 a2 a3 e).base.cfg.storage = 150 := rfl
  have h3 : (Demo.steadyAt a1 a2 a3 e).base.cfg.defrost = 1 := rfl
  unfold requiredCapacityLsSwing
  simp only [h1, steady_genRate a1 a2 a3 e gen hg, ok_bind, h2, h3, fdiv_ok _ (one_ne_zero : (1 : ℚ) ≠ 0), pure_eq_ok]
  rw [hc]
  norm_num

theorem steady_runVolLs (a1 a2 a3 : Option ℚ) (e gen : ℚ) (hg : 378004/6309 ≤ gen) :
    runVolLsSwing (Demo.steadyAt a1 a2 a3 e) Demo.sched Demo.evenDay gen 1
      = .ok ((0 + 252002/2103) * (10/7), 1008001/1009440) := by
  have hd := steady_deficit gen hg
  have h1 : requireDesignInlet Demo.evenDay = .ok 50 := by decide +kernel
  have h2 : firstShedBlock Demo.sched = .ok ([17, 18, 19], 2) := by decide +kernel
  have h3 := steady_prelim a1 a2 a3 e
  have h4 : ((((Demo.evenDay.avgShape ++ Demo.evenDay.avgShape).drop 20).take 24).map
      (fun f => f * Demo.evenDay.dailyGal)) = List.replicate (23 + 1) 40 := by decide +kernel
  have h5 : Demo.evenDay.avgShape.length = 24 := by decide +kernel
  have h6 : ((2/3 : ℚ) :: List.replicate (23 * 60 + 59) (1400/2103)).sum / Demo.evenDay.dailyGal
      = 1008001/1009440 := by
    rw [List.sum_cons, List.sum_replicate]
    norm_num [Demo.evenDay]
  have h7 : fdiv ((Demo.steadyAt a1 a2 a3 e).base.cfg.storage - 50) ((Demo.steadyAt a1 a2 a3 e).base.cfg.supply - 50) = .ok (10/7) := by
    have : fdiv (Demo.cfg.storage - 50) (Demo.cfg.supply - 50) = .ok (10/7) := by decide +kernel
    exact this
  unfold runVolLsSwing
  simp only [h1, h2, h3, ok_bind, h5, ne_eq, not_true_eq_false, if_false]
  simp only [List.getLast?_cons_cons, List.getLast?_singleton, h4, steady_primary, ok_bind, h6, h7]
  simp only [Nat.reduceAdd, hd, pure_eq_ok]

theorem steady_ls : lsInputs (some Demo.sched) (some Demo.map) = some (Demo.sched, Demo.map) := by decide +kernel

theorem steady_cappedCfg : cappedCfg Demo.cfg (some (Demo.sched, Demo.map)) = Demo.cfg := by decide +kernel

theorem steady_runVol (a1 a2 a3 : Option ℚ) (e : ℚ) :
    runVolSwing (Demo.steadyAt a1 a2 a3 e) Demo.evenDay = .ok (0, none) := by
  have h1 : requireDesignInlet Demo.evenDay = .ok 50 := by decide +kernel
  have h2 : Demo.evenDay.peakShape.length = 24 := by decide +kernel
  have h3 : (Demo.steadyAt a1 a2 a3 e).base.cfg.maxRunHr = 16 := rfl
  have h4 : peakIndices (Demo.evenDay.peakShape.map (fun f => 1 / 16 - f)) = [] := by decide +kernel
  unfold runVolSwing
  simp only [h1, h2, h3, h4, ok_bind, ne_eq, not_true_eq_false, if_false, if_true, pure_eq_ok]
  rw [if_neg (by norm_num)]

theorem steady_cap (a1 a2 a3 : Option ℚ) (e cap : ℚ) (hc : cap = 60 * e * rhoCp ℚ * 100 / 1000) :
    requiredCapacitySwing (Demo.steadyAt a1 a2 a3 e) Demo.evenDay = .ok cap := by
  have h1 : requireDesignInlet Demo.evenDay = .ok 50 := by decide +kernel
  have h2 : (Demo.steadyAt a1 a2 a3 e).base.cfg = ⟨120, 150, 16, 1⟩ := rfl
  have h3 : (Demo.steadyAt a1 a2 a3 e).effMix = e := rfl
  have h4 : Demo.evenDay.dailyGal = 960 := rfl
  unfold requiredCapacitySwing
  simp only [h1, h2, h3, h4, ok_bind, fdiv_ok _ (one_ne_zero : (1 : ℚ) ≠ 0), fdiv_ok _ (by norm_num : (16 : ℚ) ≠ 0),
    pure_eq_ok]
  rw [hc]
  congr 1
  ring

theorem steady_rest (a1 a2 a3 : Option ℚ) : sizeSwingRest (Demo.steadyAt a1 a2 a3 1) Demo.evenDay
    (some (Demo.sched, Demo.map)) (some Demo.map) (28/10) 1 50 0
      = .ok (5012121/100000, 35280280/216609, 1008001/1009440) := by
  have h0 : (Demo.steadyAt a1 a2 a3 1).base.cfg = Demo.cfg := rfl
  have h1 : stratFactor Demo.cfg (some Demo.map) (28/10) 50 = .ok (307/392) := by decide +kernel
  have h2 : storageVolume (0 : ℚ) (307/392) = .ok 0 := by decide +kernel
  have h3 := steady_cap a1 a2 a3 1 (5012121/100000) (by norm_num [rhoCp])
  have h4 := steady_genRate a1 a2 a3 1 60 (by norm_num)
  have h5 := steady_capLs a1 a2 a3 1 60 (5012121/100000) (by norm_num) (by norm_num [rhoCp])
  have h6 := steady_runVolLs a1 a2 a3 1 60 (by norm_num)
  have h7 : storageVolumeLs Demo.cfg ((0 + 252002/2103) * (10/7)) Demo.map (28/10) 50
      = .ok (35280280/216609) := by decide +kernel
  unfold sizeSwingRest
  simp only [h0, h1, h2, h3, ok_bind, sizeSwingLs, h4, h5, h6, h7, pure_eq_ok]
  norm_num

/-- What `size` leaves behind on a building with its daily shape, from the parts of the calculation. -/
theorem swingSize_state {db : ShapeFiles K} {c c' : SysCfg K} {b : Building K} {sched : Option (List String)}
    {cmap : Option (ControlMap K)} {ls : Option (List String × ControlMap K)} {slope fract inlet rv capP st mix : K}
    {eff : Option K} {a1 a2 a3 : Option K} {hm : Option (ControlMap K)} {ret flow sf cap volK : K} {vol ca : ℕ}
    {t1 : Option K} {t2 : Option ℕ} {t3 : Option K} {e : K}
    (hday : b.isAnnual = false) (hls : lsInputs sched cmap = ls) (hc : cappedCfg c ls = c')
    (hin : requireDesignInlet b = .ok inlet)
    (htm : sizeSwingTm c'.supply ret flow sf (some b) = .ok (vol, ca, cap)) (hvol : (vol : K) = volK)
    (hrv : runVolSwing ⟨⟨c', a1, a2, a3, hm⟩, ret, flow, sf, some volK, some ca, some cap, 1⟩ b = .ok (rv, eff))
    (hrest : sizeSwingRest ⟨⟨c', a1, a2, a3, hm⟩, ret, flow, sf, some volK, some ca, some cap, eff.getD 1⟩ b ls cmap
      slope fract inlet rv = .ok (capP, st, mix)) :
    (⟨⟨c, a1, a2, a3, hm⟩, ret, flow, sf, t1, t2, t3, e⟩ : SwingSys K).size db b sched cmap slope fract
      = ((⟨⟨{ c' with maxRunHr := c.maxRunHr }, some capP, some st, some slope, hm⟩, ret, flow, sf, some volK, some ca,
        some cap, mix⟩, b), .ok ()) := by
  subst hls hc hvol
  unfold SwingSys.size
  simp only [hday, Bool.false_eq_true, if_false]
  unfold sizeSwingBody
  simp only [hin, htm, hrv, hrest]

theorem steadySized_eq (a1 a2 a3 : Option ℚ) (t1 : Option ℚ) (t2 : Option ℕ) (t3 : Option ℚ) (e : ℚ) :
    (⟨⟨Demo.cfg, a1, a2, a3, none⟩, 115, 8372/2103, 6/5, t1, t2, t3, e⟩ : SwingSys ℚ).size Demo.noFiles Demo.evenDay
      (some Demo.sched) (some Demo.map) (28/10) 1 = ((Demo.steadySized, Demo.evenDay), .ok ()) := by
  have hd : Demo.evenDay.isAnnual = false := by decide +kernel
  have e1 : requireDesignInlet Demo.evenDay = .ok 50 := by decide +kernel
  have e2 : sizeSwingTm (K := ℚ) Demo.cfg.supply 115 (8372/2103) (6/5) (some Demo.evenDay)
      = .ok (40, 80, 10490369253/876250000) := by decide +kernel
  have e3 := steady_runVol a1 a2 a3 1
  have e4 := steady_rest a1 a2 a3
  unfold Demo.steadyAt at e3 e4
  exact swingSize_state hd steady_ls steady_cappedCfg e1 e2 (Nat.cast_ofNat) e3 e4

theorem mapM_pointwise {α β : Type} (f : α → Py β) (g : α → β) (l : List α) (h : ∀ x ∈ l, f x = .ok (g x)) :
    l.mapM f = .ok (l.map g) := by
  rw [mapM_eq_ok]
  induction l with
  | nil => exact .nil
  | cons x l ih =>
    exact .cons (h x (by simp)) (ih (fun y hy => h y (by simp [hy])))

/-- **C82 fails for the load-shift curve.** A swing system sized for load shifting, asked for its load-shift curve with
the schedule, the map and the coverage it has just been sized with, gets a curve whose every capacity is below the one
`size` stored, and which `size` would store again: the curve works with the effective mix fraction of the load-shift
day that `size` has left behind, `size` with that of the design day. -/
theorem C82_ls_curve_below_sizing :
    ∃ (s : SwingSys ℚ) (cap : ℚ),
      Demo.steadySwing.size Demo.noFiles Demo.evenDay (some Demo.sched) (some Demo.map) (28/10) 1
        = ((s, Demo.evenDay), .ok ()) ∧
      s.size Demo.noFiles Demo.evenDay (some Demo.sched) (some Demo.map) (28/10) 1
        = ((s, Demo.evenDay), .ok ()) ∧
      getMinCapacity s.base = .ok cap ∧
      ∃ cv, s.getLsSizingCurve Demo.noFiles Demo.evenDay Demo.sched Demo.map (28/10) (fun _ => .ok 1) (1/2)
          = ((s, Demo.evenDay), .ok cv) ∧ cv.points.length = 76 ∧ ∀ p ∈ cv.points, p.2.1 < cap := by
  refine ⟨Demo.steadySized, 5012121/100000, steadySized_eq _ _ _ _ _ _ _, steadySized_eq _ _ _ _ _ _ _,
    rfl, ?_⟩
  have hd : Demo.evenDay.isAnnual = false := by decide +kernel
  have hsh : dictHas Demo.map "shed" = true := by decide +kernel
  have hc : ({ Demo.steadySized with base := { Demo.steadySized.base with cfg := { Demo.steadySized.base.cfg with
      maxRunHr := min Demo.steadySized.base.cfg.maxRunHr (nonShed Demo.sched : ℚ) } } } : SwingSys ℚ)
      = Demo.steadySized := by
    have := steady_cappedCfg
    simp only [cappedCfg] at this
    have h0 : Demo.steadySized.base.cfg = Demo.cfg := rfl
    simp only [h0, this]
    rfl
  have h1 : requireDesignInlet Demo.evenDay = .ok 50 := by decide +kernel
  have h2 : requiredCapacitySwing Demo.steadySized Demo.evenDay = .ok (1684074326707/33648000000) :=
    steady_cap _ _ _ (1008001/1009440) _ (by norm_num [rhoCp])
  have h3 : runVolSwing Demo.steadySized Demo.evenDay = .ok (0, none) := steady_runVol _ _ _ _
  have h4 : stratFactor Demo.cfg (some Demo.map) (28/10) 50 = .ok (307/392) := by decide +kernel
  have h5 : storageVolume (0 : ℚ) (307/392) = .ok 0 := by decide +kernel
  have h6 : genRateLsSwing Demo.steadySized Demo.sched Demo.map Demo.evenDay (28/10) 1 = .ok (378004/6309) :=
    steady_genRate _ _ _ (1008001/1009440) _ (by norm_num)
  have h7 : requiredCapacityLsSwing Demo.steadySized Demo.sched Demo.map Demo.evenDay (28/10) 1
      = .ok (157883482207/3154500000) :=
    steady_capLs _ _ _ (1008001/1009440) (378004/6309) _ (by norm_num) (by norm_num [rhoCp])
  have h8 : runVolLsSwing Demo.steadySized Demo.sched Demo.evenDay (378004/6309) 1
      = .ok ((0 + 252002/2103) * (10/7), 1008001/1009440) := steady_runVolLs _ _ _ _ _ le_rfl
  have h9 : storageVolumeLs Demo.cfg ((0 + 252002/2103) * (10/7)) Demo.map (28/10) 50
      = .ok (35280280/216609) := by decide +kernel
  have hpt : ∀ pct ∈ (lsPercents : List ℚ), swingLsPoint Demo.steadySized Demo.evenDay Demo.sched Demo.map (28/10) 50
      (1684074326707/33648000000) 0 (fun _ => .ok 1) pct
      = .ok (pct, (157883482207/3154500000 : ℚ), (35280280/216609 : ℚ)) := by
    intro pct _
    unfold swingLsPoint
    have h0 : Demo.steadySized.base.cfg = Demo.cfg := rfl
    simp only [h0, h6, h7, h8, h9, ok_bind, pure_eq_ok]
    norm_num
  have hbody : swingLsBody Demo.steadySized Demo.evenDay Demo.sched Demo.map (28/10) (fun _ => .ok 1) (1/2)
      = (Demo.steadySized, .ok ⟨(lsPercents : List ℚ).map (fun p => (p, (157883482207/3154500000 : ℚ),
        (35280280/216609 : ℚ))), lsRecIndex (1/2 : ℚ)⟩) := by
    unfold swingLsBody
    have he : ({ Demo.steadySized with effMix := (none : Option ℚ).getD Demo.steadySized.effMix } : SwingSys ℚ)
        = Demo.steadySized := rfl
    have h0 : Demo.steadySized.base.cfg = Demo.cfg := rfl
    simp only [h1, h2, h3, he, h0, h4, h5, ok_bind, mapM_pointwise _ _ _ hpt, pure_eq_ok]
  refine ⟨⟨(lsPercents : List ℚ).map (fun p => (p, (157883482207/3154500000 : ℚ),
        (35280280/216609 : ℚ))), lsRecIndex (1/2 : ℚ)⟩, ?_, ?_, ?_⟩
  · unfold SwingSys.getLsSizingCurve
    have hsl : Demo.steadySized.base.sizingSlope.getD (28/10) = 28/10 := rfl
    simp only [hsh, hd, Bool.false_eq_true, Bool.true_eq_false, if_false, hc, hsl, hbody]
  · simp [lsPercents]
  · intro p hp
    simp only [List.mem_map] at hp
    obtain ⟨x, -, rfl⟩ := hp
    norm_num

end Eco
