import Verif.Model.Size
import Verif.Lemmas.Py
import Verif.Props.Running
import Verif.Props.Demo

/-!
C06 to C09: the `size` call as a state machine. Every theorem that does not look into the
calculations holds for every class that inherits `size` (any `SizingMethods`).
-/

namespace Eco
set_option linter.unusedSectionVars false
variable {K : Type} [Field K] [LinearOrder K] [IsStrictOrderedRing K]

/-! ## Helper lemmas -/

theorem setToAnnual_of_setToDaily {db : ShapeFiles K} {b b1 : Building K}
    (h : b.setToDaily db = .ok b1) :
    ∃ d, db "multi_family" = some d ∧ b.buildingType = "multi_family" ∧
      b1.setToAnnual db = .ok { b with peakShape := d.annual, avgShape := d.annual } ∧
      ∃ a, d.streamAvg = some a ∧ b1 = { b with peakShape := d.stream, avgShape := a } := by
  unfold Building.setToDaily at h
  split at h
  · simp at h
  · rename_i ht
    simp only [ne_eq, not_not] at ht
    simp only [loadShapeJson] at h
    cases hd : db "multi_family" with
    | none => simp [hd] at h
    | some d =>
      simp only [hd, ok_bind] at h
      cases ha : d.streamAvg with
      | none => simp [ha] at h
      | some a =>
        simp only [ha, pure_eq_ok] at h
        obtain rfl : { b with peakShape := d.stream, avgShape := a } = b1 := by injection h
        exact ⟨d, rfl, ht, by simp [Building.setToAnnual, ht, loadShapeJson, hd], a, ha, rfl⟩

/-- The state of the building inside `size`. -/
def dailyView (db : ShapeFiles K) (b : Building K) : Py (Building K) :=
  if b.isAnnual then b.setToDaily db else .ok b

/-- What `size` does, in closed form, when the building can be switched to its daily shape. -/
theorem size_eq {M : SizingMethods K} {db : ShapeFiles K} {s : DhwSys K} {b b1 : Building K}
    {sched : Option (List String)} {cmap : Option (ControlMap K)} {slope fract : K}
    (hb : dailyView db b = .ok b1) :
    let c := cappedCfg s.cfg (lsInputs sched cmap)
    (∀ e, sizeCore M c b1 (lsInputs sched cmap) cmap slope fract = .error e →
      size M db s b sched cmap slope fract = ((s, b1), .error e)) ∧
    (∀ cap st, sizeCore M c b1 (lsInputs sched cmap) cmap slope fract = .ok (cap, st) →
      let s' : DhwSys K :=
        { s with minCap := some cap, minStorage := some st, sizingSlope := some slope }
      (∀ e, warnStep c cmap cap st = .error e →
        size M db s b sched cmap slope fract = ((s', b1), .error e)) ∧
      (∀ ws, warnStep c cmap cap st = .ok ws →
        ∃ b2, size M db s b sched cmap slope fract = ((s', b2), .ok ws) ∧
          (b.isAnnual = false → b2 = b) ∧
          (b.isAnnual = true → b1.setToAnnual db = .ok b2))) := by
  intro c
  have hcfg : ({ cappedCfg s.cfg (lsInputs sched cmap) with maxRunHr := s.cfg.maxRunHr } : SysCfg K)
      = s.cfg := by
    unfold cappedCfg; split <;> rfl
  unfold dailyView at hb
  refine ⟨?_, ?_⟩
  · intro e he
    unfold size
    simp only [hb, c] at he ⊢
    simp only [he, hcfg]
  · intro cap st hc s'
    refine ⟨?_, ?_⟩
    · intro e he
      unfold size
      simp only [hb, c, s'] at he hc ⊢
      simp only [hc, he, hcfg]
    · intro ws hw
      unfold size
      simp only [hb, c, s'] at hw hc ⊢
      simp only [hc, hw, hcfg]
      by_cases hA : b.isAnnual = true
      · rw [if_pos hA] at hb
        obtain ⟨d, _, _, h3, _⟩ := setToAnnual_of_setToDaily hb
        refine ⟨_, ?_, by simp [hA], fun _ => h3⟩
        simp [hA, h3]
      · simp only [hA] at hb
        simp only [Bool.not_eq_true] at hA
        refine ⟨b, ?_, by simp, by simp [hA]⟩
        have : b1 = b := by
          have : (Except.ok b : Py (Building K)) = .ok b1 := by simpa using hb
          injection this with h; exact h.symm
        simp [hA, this]

theorem size_error_daily {M : SizingMethods K} {db : ShapeFiles K} {s : DhwSys K} {b : Building K}
    {sched : Option (List String)} {cmap : Option (ControlMap K)} {slope fract : K} {e : PyErr}
    (hb : dailyView db b = .error e) :
    size M db s b sched cmap slope fract = ((s, b), .error e) := by
  unfold dailyView at hb
  unfold size
  simp only [hb]


/-- The four ways a `size` call can go. -/
theorem size_cases (M : SizingMethods K) (db : ShapeFiles K) (s : DhwSys K) (b : Building K)
    (sched : Option (List String)) (cmap : Option (ControlMap K)) (slope fract : K) :
    (∃ e, dailyView db b = .error e ∧
      size M db s b sched cmap slope fract = ((s, b), .error e)) ∨
    ∃ b1, dailyView db b = .ok b1 ∧
      ((∃ e, sizeCore M (cappedCfg s.cfg (lsInputs sched cmap)) b1 (lsInputs sched cmap) cmap slope
            fract = .error e ∧
          size M db s b sched cmap slope fract = ((s, b1), .error e)) ∨
        ∃ cap st, sizeCore M (cappedCfg s.cfg (lsInputs sched cmap)) b1 (lsInputs sched cmap) cmap
            slope fract = .ok (cap, st) ∧
          ((∃ e, warnStep (cappedCfg s.cfg (lsInputs sched cmap)) cmap cap st = .error e ∧
              size M db s b sched cmap slope fract =
                (({ s with minCap := some cap, minStorage := some st, sizingSlope := some slope },
                  b1), .error e)) ∨
            ∃ ws b2, warnStep (cappedCfg s.cfg (lsInputs sched cmap)) cmap cap st = .ok ws ∧
              size M db s b sched cmap slope fract =
                (({ s with minCap := some cap, minStorage := some st, sizingSlope := some slope },
                  b2), .ok ws) ∧
              (b.isAnnual = false → b2 = b) ∧
              (b.isAnnual = true → b1.setToAnnual db = .ok b2))) := by
  cases hb : dailyView db b with
  | error e => exact Or.inl ⟨e, rfl, size_error_daily hb⟩
  | ok b1 =>
    right
    refine ⟨b1, rfl, ?_⟩
    obtain ⟨h1, h2⟩ := size_eq (M := M) (s := s) (sched := sched) (cmap := cmap) (slope := slope)
      (fract := fract) hb
    cases hc : sizeCore M (cappedCfg s.cfg (lsInputs sched cmap)) b1 (lsInputs sched cmap) cmap
      slope fract with
    | error e => exact Or.inl ⟨e, rfl, h1 e hc⟩
    | ok p =>
      right
      obtain ⟨cap, st⟩ := p
      obtain ⟨h3, h4⟩ := h2 cap st hc
      refine ⟨cap, st, rfl, ?_⟩
      cases hw : warnStep (cappedCfg s.cfg (lsInputs sched cmap)) cmap cap st with
      | error e => exact Or.inl ⟨e, rfl, h3 e hw⟩
      | ok ws =>
        obtain ⟨b2, e1, e2, e3⟩ := h4 ws hw
        exact Or.inr ⟨ws, b2, rfl, e1, e2, e3⟩

theorem foldlM_ok {α β : Type} (f : α → β → Py α) (l : List β) (a : α)
    (h : ∀ a, ∀ x ∈ l, ∃ a', f a x = .ok a') : ∃ a', l.foldlM f a = .ok a' := by
  induction l generalizing a with
  | nil => exact ⟨a, rfl⟩
  | cons x xs ih =>
    obtain ⟨a', ha'⟩ := h a x (by simp)
    simp only [List.foldlM_cons, ha', ok_bind]
    exact ih a' (fun a y hy => h a y (by simp [hy]))

/-- The short-cycling check raises nothing when the sized capacity is not zero. -/
theorem warnStep_ok (c : SysCfg K) (cmap : Option (ControlMap K)) {cap : K} (st : K)
    (h : cap ≠ 0) : ∃ ws, warnStep c cmap cap st = .ok ws := by
  unfold warnStep
  split
  · unfold warnShortCycling
    simp only
    split
    · exact ⟨_, rfl⟩
    · rename_i hd
      push Not at hd
      apply foldlM_ok
      intro ws p _
      split
      · exact ⟨_, rfl⟩
      · have hr : cap * 1000 / (rhoCp K * (c.storage - c.supply)) ≠ 0 := by
          have : (rhoCp K : K) ≠ 0 := by unfold rhoCp; norm_num
          have : (1000 : K) ≠ 0 := by norm_num
          have := hd.ne'
          positivity
        rw [fdiv_ok _ hr]
        exact ⟨_, rfl⟩
  · exact ⟨_, rfl⟩

/-! ## C06 -/

/-- **C06 (against normal sizing).** If load-shift sizing stores results, normal sizing of the same
building with the run hours capped to the non-shed hours stores results too, and neither the
capacity nor the storage is larger. -/
theorem C06_load_shift_never_shrinks (M : SizingMethods K) (db : ShapeFiles K) (s : DhwSys K)
    (b : Building K) (sched : List String) (m : ControlMap K) (slope fract : K)
    (s1 : DhwSys K) (b1 : Building K) (ws : Warnings)
    (hsched : sched ≠ []) (hshed : dictHas m "shed" = true)
    (h : size M db s b (some sched) (some m) slope fract = ((s1, b1), .ok ws)) :
    ∃ cap st cap' st',
      getMinCapacity s1 = .ok cap ∧ getMinStorage s1 = .ok st ∧
      let s' : DhwSys K := { s with cfg := { s.cfg with
        maxRunHr := min s.cfg.maxRunHr (sched.countP (fun x => decide (x ≠ "shed")) : K) } }
      let r := size M db s' b none (some m) slope fract
      getMinCapacity r.1.1 = .ok cap' ∧ getMinStorage r.1.1 = .ok st' ∧ cap' ≤ cap ∧ st' ≤ st := by
  have hls : lsInputs (some sched) (some m) = some (sched, m) := by
    obtain ⟨x, xs, rfl⟩ := List.exists_cons_of_ne_nil hsched
    simp [lsInputs, truthySched, hshed]
  rcases size_cases M db s b (some sched) (some m) slope fract with
    ⟨e, _, he⟩ | ⟨b', hb', ⟨e, _, he⟩ | ⟨cap, st, hc, ⟨e, _, he⟩ | ⟨ws', b2, hw, he, _, _⟩⟩⟩
  · simp [he] at h
  · simp [he] at h
  · simp [he] at h
  · rw [he] at h
    rw [hls] at hc
    have hs1 : DhwSys.mk s.cfg (some cap) (some st) (some slope) s.heaterMap = s1 := by
      simp only [Prod.mk.injEq] at h; exact h.1.1
    subst hs1
    unfold sizeCore at hc
    simp only [bind_eq_ok] at hc
    obtain ⟨inlet, h1, cap', h2, rv, h3, sf, h4, st', h5, h6⟩ := hc
    obtain ⟨capLs, h7, gen, h8, rvLs, h9, stLs, h10, h11⟩ := h6
    simp only [pure_eq_ok, Except.ok.injEq, Prod.mk.injEq] at h11
    refine ⟨cap, st, cap', st', rfl, rfl, ?_⟩
    intro s' r
    have hls' : lsInputs (K := K) none (some m) = none := by simp [lsInputs, truthySched]
    have hcore : sizeCore M (cappedCfg s'.cfg (lsInputs none (some m))) b'
        (lsInputs none (some m)) (some m) slope fract = .ok (cap', st') := by
      rw [hls']
      unfold sizeCore
      have e2 : M.reqCapacity (cappedCfg s'.cfg none) b' = .ok cap' := h2
      have e3 : M.runVol (cappedCfg s'.cfg none) b' cap' = .ok rv := h3
      have e4 : stratFactor (cappedCfg s'.cfg none) (some m) slope inlet = .ok sf := h4
      simp only [h1, e2, e3, e4, h5, ok_bind, pure_eq_ok]
    have hr : r.1.1.minCap = some cap' ∧ r.1.1.minStorage = some st' := by
      rcases size_cases M db s' b none (some m) slope fract with
        ⟨e, hd, _⟩ | ⟨b'', hb'', ⟨e, hd, _⟩ | ⟨c2, st2, hd, hrest⟩⟩
      · rw [hb'] at hd; simp at hd
      · rw [hb'] at hb''
        obtain rfl : b' = b'' := by injection hb''
        rw [hcore] at hd; simp at hd
      · rw [hb'] at hb''
        obtain rfl : b' = b'' := by injection hb''
        rw [hcore] at hd
        simp only [Except.ok.injEq, Prod.mk.injEq] at hd
        obtain ⟨rfl, rfl⟩ := hd
        rcases hrest with ⟨e, _, hs⟩ | ⟨_, _, _, hs, _⟩ <;> simp [r, hs]
    refine ⟨by simp [getMinCapacity, hr.1], by simp [getMinStorage, hr.2], ?_, ?_⟩
    · rw [← h11.1]; exact le_max_left _ _
    · rw [← h11.2]; exact le_max_left _ _

/-- **C06 (against the same system without load shifting).** The sized capacity is at least that of
the system sized without a schedule. -/
theorem C06_capacity_ge_without_shed (db : ShapeFiles K) (s : DhwSys K)
    (b : Building K) (sched : List String) (m : ControlMap K) (cmap' : Option (ControlMap K))
    (slope fract : K) (s1 s2 : DhwSys K) (b1 b2 : Building K) (ws ws2 : Warnings)
    (hsched : sched ≠ []) (hshed : dictHas m "shed" = true)
    (hrun : 0 < s.cfg.maxRunHr) (hdef : 0 < s.cfg.defrost) (hday : 0 ≤ b.dailyGal)
    (hwarm : ∀ t, requireDesignInlet b = .ok t → t ≤ s.cfg.supply)
    (h : size baseMethods db s b (some sched) (some m) slope fract = ((s1, b1), .ok ws))
    (h' : size baseMethods db s b none cmap' slope fract = ((s2, b2), .ok ws2)) :
    ∃ cap cap', getMinCapacity s1 = .ok cap ∧ getMinCapacity s2 = .ok cap' ∧ cap' ≤ cap := by
  have hls : lsInputs (some sched) (some m) = some (sched, m) := by
    obtain ⟨x, xs, rfl⟩ := List.exists_cons_of_ne_nil hsched
    simp [lsInputs, truthySched, hshed]
  have hls' : lsInputs (K := K) none cmap' = none := by simp [lsInputs, truthySched]
  rcases size_cases baseMethods db s b (some sched) (some m) slope fract with
    ⟨e, _, he⟩ | ⟨b', hb', ⟨e, _, he⟩ | ⟨cap, st, hc, ⟨e, _, he⟩ | ⟨ws', b3, hw, he, _, _⟩⟩⟩
  · simp [he] at h
  · simp [he] at h
  · simp [he] at h
  rcases size_cases baseMethods db s b none cmap' slope fract with
    ⟨e, _, he'⟩ | ⟨b'', hb'', ⟨e, _, he'⟩ | ⟨cap2, st2, hc2, ⟨e, _, he'⟩ | ⟨ws'', b4, hw', he', _, _⟩⟩⟩
  · simp [he'] at h'
  · simp [he'] at h'
  · simp [he'] at h'
  rw [he] at h; rw [he'] at h'
  rw [hb'] at hb''
  obtain rfl : b' = b'' := by injection hb''
  simp only [Prod.mk.injEq] at h h'
  rw [← h.1.1, ← h'.1.1]
  refine ⟨cap, cap2, rfl, rfl, ?_⟩
  rw [hls] at hc; rw [hls'] at hc2
  unfold sizeCore at hc hc2
  simp only [bind_eq_ok] at hc hc2
  obtain ⟨inlet, h1, capN, h2, rv, h3, sf, h4, st', h5, capLs, h7, gen, h8, rvLs, h9, stLs, h10, h11⟩ := hc
  obtain ⟨inlet', g1, capN', g2, rv', g3, sf', g4, st'', g5, g6⟩ := hc2
  simp only [pure_eq_ok, Except.ok.injEq, Prod.mk.injEq] at h11 g6
  rw [h1] at g1
  obtain rfl : inlet = inlet' := by injection g1
  have hb1 : b'.dailyGal = b.dailyGal ∧ requireDesignInlet b' = requireDesignInlet b := by
    unfold dailyView at hb'
    split at hb'
    · obtain ⟨d, _, _, _, a, _, rfl⟩ := setToAnnual_of_setToDaily hb'
      exact ⟨rfl, rfl⟩
    · have : b = b' := by injection hb'
      rw [this]; exact ⟨rfl, rfl⟩
  have hne := (C03_capacity_errors _ _).mp ⟨_, h2⟩
  have hle : capN' ≤ capN := by
    refine C03_capacity_mono (cappedCfg s.cfg none) (cappedCfg s.cfg (some (sched, m))) b' b' inlet
      inlet capN' capN h1 h1 g2 h2 rfl (by rw [hb1.1]; exact hday) (le_refl _) ?_ ?_ hdef (le_refl _)
      (le_refl _) (hwarm _ (by rw [← hb1.2]; exact h1))
    · have h0 : (0 : K) ≤ (nonShed sched : K) := Nat.cast_nonneg _
      have : (0 : K) ≤ (cappedCfg s.cfg (some (sched, m))).maxRunHr := le_min hrun.le h0
      exact lt_of_le_of_ne this (Ne.symm hne.2.1)
    · exact min_le_left _ _
  rw [← h11.1, ← g6.1]
  exact le_trans hle (le_max_left _ _)

/-! ## C07 -/

/-- **C07.** Whatever `size` is given and however it ends, the run hours (and supply temperature,
storage temperature and defrost factor) are what they were before the call. -/
theorem C07_size_restores_run_hours (M : SizingMethods K) (db : ShapeFiles K) (s : DhwSys K)
    (b : Building K) (sched : Option (List String)) (cmap : Option (ControlMap K))
    (slope fract : K) :
    (size M db s b sched cmap slope fract).1.1.cfg = s.cfg := by
  rcases size_cases M db s b sched cmap slope fract with
    ⟨e, _, he⟩ | ⟨b', hb', ⟨e, _, he⟩ | ⟨cap, st, hc, ⟨e, _, he⟩ | ⟨ws', b3, hw, he, _, _⟩⟩⟩ <;>
  rw [he]

/-! ## C08 -/

/-- **C08 is false as stated.** Sizing an annual multi-family building that has no climate zone raises
the documented `ValueError` and leaves the building on the 24-hour shape. -/
theorem C08_not_restored_on_error (M : SizingMethods K) (db : ShapeFiles K) (s : DhwSys K)
    (b : Building K) (sched : Option (List String)) (cmap : Option (ControlMap K))
    (slope fract : K) (f : ShapeFile K) (a : List K)
    (hannual : b.isAnnual = true) (htype : b.buildingType = "multi_family")
    (hfile : db "multi_family" = some f) (ha : f.streamAvg = some a) (hlen : f.stream.length = 24)
    (hclimate : b.climate = none) :
    (size M db s b sched cmap slope fract).2 = .error .valueError ∧
      (size M db s b sched cmap slope fract).1.2.isAnnual = false := by
  have hb : dailyView db b = .ok { b with peakShape := f.stream, avgShape := a } := by
    simp [dailyView, hannual, Building.setToDaily, htype, loadShapeJson, hfile, ha]
  have hc : sizeCore M (cappedCfg s.cfg (lsInputs sched cmap))
      { b with peakShape := f.stream, avgShape := a } (lsInputs sched cmap) cmap slope fract
      = .error .valueError := by
    simp [sizeCore, requireDesignInlet, Building.getDesignInlet, hclimate]
  rw [(size_eq hb).1 _ hc]
  simp [Building.isAnnual, hlen]

/-- The hypotheses of `C08_not_restored_on_error` are met. -/
example : ∃ (db : ShapeFiles ℚ) (b : Building ℚ) (f : ShapeFile ℚ) (a : List ℚ),
    b.isAnnual = true ∧ b.buildingType = "multi_family" ∧ db "multi_family" = some f ∧
    f.streamAvg = some a ∧ f.stream.length = 24 ∧ b.climate = none := by
  refine ⟨fun _ => some ⟨midnightPeak, some midnightPeak, List.replicate 8760 1, [], fun _ => 0⟩,
    ⟨none, 100, List.replicate 8760 1, List.replicate 8760 1, "multi_family"⟩,
    ⟨midnightPeak, some midnightPeak, List.replicate 8760 1, [], fun _ => 0⟩, midnightPeak,
    ?_, rfl, rfl, rfl, rfl, rfl⟩
  simp only [Building.isAnnual, List.length_replicate, decide_true]

/-- **C08, partial.** After a successful call the building is in the mode it was in (given that the
annual shape of the file has 8760 entries), and a building on the daily shape is never touched,
whatever the outcome. Missing: restoration when `size` raises, which the code does not do. -/
theorem C08_mode_restored_partial (M : SizingMethods K) (db : ShapeFiles K) (s : DhwSys K)
    (b : Building K) (sched : Option (List String)) (cmap : Option (ControlMap K))
    (slope fract : K) :
    (b.isAnnual = false → (size M db s b sched cmap slope fract).1.2 = b) ∧
    (∀ ws, (size M db s b sched cmap slope fract).2 = .ok ws →
      (∀ f, db "multi_family" = some f → f.annual.length = 8760) →
      (size M db s b sched cmap slope fract).1.2.isAnnual = b.isAnnual) := by
  constructor
  · intro hA
    have hb : dailyView db b = .ok b := by simp [dailyView, hA]
    rcases size_cases M db s b sched cmap slope fract with
      ⟨e, _, he⟩ | ⟨b', hb', ⟨e, _, he⟩ | ⟨cap, st, hc, ⟨e, _, he⟩ | ⟨ws', b3, hw, he, h, _⟩⟩⟩
    · rw [he]
    · rw [hb] at hb'; rw [he]; injection hb' with h; exact h.symm
    · rw [hb] at hb'; rw [he]; injection hb' with h; exact h.symm
    · rw [he]; exact h hA
  · intro ws hws hlen
    rcases size_cases M db s b sched cmap slope fract with
      ⟨e, _, he⟩ | ⟨b', hb', ⟨e, _, he⟩ | ⟨cap, st, hc, ⟨e, _, he⟩ | ⟨ws', b3, hw, he, h1, h2⟩⟩⟩
    · rw [he] at hws; simp at hws
    · rw [he] at hws; simp at hws
    · rw [he] at hws; simp at hws
    · rw [he]
      cases hA : b.isAnnual with
      | false => simp only; rw [h1 hA]; exact hA
      | true =>
        have h3 := h2 hA
        simp only [dailyView, hA, if_true] at hb'
        obtain ⟨d, hd, _, h4, _⟩ := setToAnnual_of_setToDaily hb'
        rw [h3] at h4
        obtain rfl : b3 = { b with peakShape := d.annual, avgShape := d.annual } := by
          injection h4
        simp [Building.isAnnual, hlen d hd]

/-! ## C09 -/

/-- The arguments of one `size` call. -/
structure SizeCall (K : Type) where
  building : Building K
  sched : Option (List String)
  cmap : Option (ControlMap K)
  slope : K
  fract : K

/-- Run a history of `size` calls on one system (each call sees the building it is given). -/
def runCalls (M : SizingMethods K) (db : ShapeFiles K) (s : DhwSys K) (calls : List (SizeCall K)) :
    DhwSys K :=
  calls.foldl (fun s q => (size M db s q.building q.sched q.cmap q.slope q.fract).1.1) s

/-- A call succeeds on a system with configuration `c`. -/
def Succeeds (M : SizingMethods K) (db : ShapeFiles K) (c : SysCfg K) (q : SizeCall K) : Prop :=
  ∃ ws, (size M db { cfg := c } q.building q.sched q.cmap q.slope q.fract).2 = .ok ws

/-- The pair of results that a fresh system reports after the call. -/
def freshResults (M : SizingMethods K) (db : ShapeFiles K) (c : SysCfg K) (q : SizeCall K) :
    Py K × Py K :=
  let r := size M db { cfg := c } q.building q.sched q.cmap q.slope q.fract
  (getMinCapacity r.1.1, getMinStorage r.1.1)

open Classical in
/-- The results a user expects after a history: none before the first success, else those of the
last successful call. -/
noncomputable def expectedResults (M : SizingMethods K) (db : ShapeFiles K) (c : SysCfg K)
    (calls : List (SizeCall K)) : Py K × Py K :=
  match (calls.filter (fun q => decide (Succeeds M db c q))).getLast? with
  | none => (.error .runtimeError, .error .runtimeError)
  | some q => freshResults M db c q

/-- A call on a system with a history does what it does on a fresh one, except that results that
are not overwritten stay. -/
theorem size_fresh (M : SizingMethods K) (db : ShapeFiles K) (s : DhwSys K) (b : Building K)
    (sched : Option (List String)) (cmap : Option (ControlMap K)) (slope fract : K) :
    let r := size M db { cfg := s.cfg } b sched cmap slope fract
    size M db s b sched cmap slope fract =
      ((⟨s.cfg, r.1.1.minCap <|> s.minCap, r.1.1.minStorage <|> s.minStorage,
          r.1.1.sizingSlope <|> s.sizingSlope, s.heaterMap⟩, r.1.2), r.2) := by
  have hcfg : ({ cappedCfg s.cfg (lsInputs sched cmap) with maxRunHr := s.cfg.maxRunHr } : SysCfg K)
      = s.cfg := by
    unfold cappedCfg; split <;> rfl
  intro r
  simp only [r]
  unfold size
  simp only
  cases (if b.isAnnual = true then Building.setToDaily db b else Except.ok b) with
  | error e => rfl
  | ok b1 =>
    simp only
    cases sizeCore M (cappedCfg s.cfg (lsInputs sched cmap)) b1 (lsInputs sched cmap) cmap slope
      fract with
    | error e => simp [hcfg]
    | ok p =>
      obtain ⟨cap, st⟩ := p
      simp only
      cases warnStep (cappedCfg s.cfg (lsInputs sched cmap)) cmap cap st with
      | error e => simp [hcfg]
      | ok ws =>
        simp only
        by_cases hA : b.isAnnual = true
        · simp only [hA, if_true]
          cases Building.setToAnnual db b1 with
          | error e => simp [hcfg]
          | ok b2 => simp [hcfg]
        · simp [hA, hcfg]

theorem size_fresh_error {M : SizingMethods K} {db : ShapeFiles K} {c : SysCfg K} {b : Building K}
    {sched : Option (List String)} {cmap : Option (ControlMap K)} {slope fract : K} {e : PyErr}
    (h : (size M db { cfg := c } b sched cmap slope fract).2 = .error e)
    (h0 : (size M db { cfg := c } b sched cmap slope fract).1.1.minCap ≠ some 0) :
    (size M db { cfg := c } b sched cmap slope fract).1.1 = { cfg := c } := by
  rcases size_cases M db { cfg := c } b sched cmap slope fract with
    ⟨e', _, he⟩ | ⟨b', hb', ⟨e', _, he⟩ | ⟨cap, st, hc, ⟨e', hw, he⟩ | ⟨ws', b3, hw, he, h1, h2⟩⟩⟩
  · rw [he]
  · rw [he]
  · rw [he] at h0
    obtain ⟨ws, hws⟩ := warnStep_ok (cappedCfg c (lsInputs sched cmap)) cmap (cap := cap) st
      (by simpa using h0)
    simp only at hw
    rw [hws] at hw; simp at hw
  · rw [he] at h; simp at h

theorem size_fresh_ok {M : SizingMethods K} {db : ShapeFiles K} {c : SysCfg K} {b : Building K}
    {sched : Option (List String)} {cmap : Option (ControlMap K)} {slope fract : K} {ws : Warnings}
    (h : (size M db { cfg := c } b sched cmap slope fract).2 = .ok ws) :
    ∃ cap st, (size M db { cfg := c } b sched cmap slope fract).1.1 =
      { cfg := c, minCap := some cap, minStorage := some st, sizingSlope := some slope } := by
  rcases size_cases M db { cfg := c } b sched cmap slope fract with
    ⟨e', _, he⟩ | ⟨b', hb', ⟨e', _, he⟩ | ⟨cap, st, hc, ⟨e', hw, he⟩ | ⟨ws', b3, hw, he, h1, h2⟩⟩⟩
  · rw [he] at h; simp at h
  · rw [he] at h; simp at h
  · rw [he] at h; simp at h
  · rw [he]; exact ⟨cap, st, rfl⟩

theorem runCalls_cfg (M : SizingMethods K) (db : ShapeFiles K) (s : DhwSys K)
    (calls : List (SizeCall K)) : (runCalls M db s calls).cfg = s.cfg := by
  induction calls generalizing s with
  | nil => rfl
  | cons q qs ih =>
    simp only [runCalls, List.foldl_cons] at ih ⊢
    rw [ih, C07_size_restores_run_hours]

/-- **C09, partial.** For every history of `size` calls on a new system in which no call arrives at
a capacity of exactly zero: the getters raise `RuntimeError` as long as no call has succeeded, and
afterwards report what a fresh system sized by the last successful call reports. Missing: calls
that compute a zero capacity, where the statement is false (`C09_failed_call_stores_results`). -/
theorem C09_results_of_last_success_partial (M : SizingMethods K) (db : ShapeFiles K)
    (c : SysCfg K) (calls : List (SizeCall K))
    (hne : ∀ q ∈ calls, (freshResults M db c q).1 ≠ .ok 0) :
    (getMinCapacity (runCalls M db { cfg := c } calls),
      getMinStorage (runCalls M db { cfg := c } calls)) = expectedResults M db c calls := by
  classical
  induction calls using List.reverseRecOn with
  | nil => rfl
  | append_singleton qs q ih =>
    have ih := ih (fun x hx => hne x (by simp [hx]))
    have hq : (size M db { cfg := c } q.building q.sched q.cmap q.slope q.fract).1.1.minCap
        ≠ some 0 := by
      intro h
      apply hne q (by simp)
      simp [freshResults, getMinCapacity, h]
    have hrun : runCalls M db { cfg := c } (qs ++ [q]) =
        (size M db (runCalls M db { cfg := c } qs) q.building q.sched q.cmap q.slope q.fract).1.1 := by
      simp [runCalls]
    rw [hrun, size_fresh, runCalls_cfg]
    simp only
    unfold expectedResults
    rw [List.filter_append]
    cases hr : (size M db { cfg := c } q.building q.sched q.cmap q.slope q.fract).2 with
    | error e =>
      have hs : ¬ Succeeds M db c q := by
        rintro ⟨ws, h⟩; rw [hr] at h; simp at h
      have h1 := size_fresh_error hr hq
      simp only [List.filter_cons, hs, decide_false, Bool.false_eq_true, if_false, List.filter_nil,
        List.append_nil]
      unfold expectedResults at ih
      rw [← ih, h1]
      simp [getMinCapacity, getMinStorage]
    | ok ws =>
      have hs : Succeeds M db c q := ⟨ws, hr⟩
      obtain ⟨cap, st, h1⟩ := size_fresh_ok hr
      simp only [List.filter_cons, hs, decide_true, if_true, List.filter_nil,
        List.getLast?_append, List.getLast?_singleton, Option.some_or]
      simp [freshResults, h1, getMinCapacity, getMinStorage]

/-- **C09 (idempotence).** Repeating a successful call changes nothing: same results, same building,
same warnings. -/
theorem C09_size_idempotent (M : SizingMethods K) (db : ShapeFiles K) (s s1 : DhwSys K)
    (b b1 : Building K) (sched : Option (List String)) (cmap : Option (ControlMap K))
    (slope fract : K) (ws : Warnings)
    (hlen : ∀ f, db "multi_family" = some f → f.annual.length = 8760)
    (h : size M db s b sched cmap slope fract = ((s1, b1), .ok ws)) :
    size M db s1 b1 sched cmap slope fract = ((s1, b1), .ok ws) := by
  rcases size_cases M db s b sched cmap slope fract with
    ⟨e', _, he⟩ | ⟨b', hb', ⟨e', _, he⟩ | ⟨cap, st, hc, ⟨e', hw, he⟩ | ⟨ws', b3, hw, he, h1, h2⟩⟩⟩
  · rw [he] at h; simp at h
  · rw [he] at h; simp at h
  · rw [he] at h; simp at h
  · rw [he] at h
    simp only [Prod.mk.injEq, Except.ok.injEq] at h
    obtain ⟨⟨rfl, rfl⟩, rfl⟩ := h
    have hA : b3.isAnnual = b.isAnnual := by
      have := (C08_mode_restored_partial M db s b sched cmap slope fract).2 ws' (by rw [he]) hlen
      rwa [he] at this
    have hb3 : dailyView db b3 = .ok b' := by
      cases hA' : b.isAnnual with
      | false => rw [h1 hA']; exact hb'
      | true =>
        have h3 := h2 hA'
        simp only [dailyView, hA', if_true] at hb'
        obtain ⟨d, hd, ht, h4, a, ha, hb1⟩ := setToAnnual_of_setToDaily hb'
        rw [h3] at h4
        obtain rfl : b3 = { b with peakShape := d.annual, avgShape := d.annual } := by injection h4
        rw [hb1]
        rw [dailyView, if_pos (hA.trans hA')]
        simp [Building.setToDaily, ht, loadShapeJson, hd, ha]
    obtain ⟨b4, g1, g2, g3⟩ := ((size_eq (M := M)
      (s := { s with minCap := some cap, minStorage := some st, sizingSlope := some slope })
      (sched := sched) (cmap := cmap) (slope := slope) (fract := fract) hb3).2 cap st hc).2 ws' hw
    rw [g1]
    have : b4 = b3 := by
      cases hA' : b.isAnnual with
      | false => exact g2 (by rw [hA, hA'])
      | true =>
        have e1 := g3 (by rw [hA, hA'])
        have e2 := h2 hA'
        rw [e1] at e2
        injection e2
    rw [this]

/-- **C09 is false as stated.** A building that uses no water is sized to a capacity of zero; the
short-cycling check then divides by zero, `size` raises, and yet the getters report results. -/
theorem C09_failed_call_stores_results :
    let r := size baseMethods Demo.noFiles { cfg := Demo.cfg }
      { Demo.building with dailyGal := 0 } none (some [("normal", Demo.normal)]) (28/10) 1
    r.2 = .error .zeroDivision ∧ getMinCapacity r.1.1 = .ok 0 ∧ getMinStorage r.1.1 = .ok 0 := by
  decide +kernel

/-- Such a building can be made: a custom load shape with a daily use of 0. -/
example : (Building.fromBuildingType Demo.noFiles
    ⟨none, some 0, some Demo.shape, none⟩ none ⟨some 0, none, none⟩ false none (some 50)).map
      (fun b => b.dailyGal) = .ok 0 := by decide +kernel

/-- Non-vacuity of C06, C07, C09: the demo building is sized with and without load shifting. -/
example :
    let r := size baseMethods Demo.noFiles { cfg := Demo.cfg } Demo.building (some Demo.sched)
      (some Demo.map) (28/10) 1
    let r' := size baseMethods Demo.noFiles { cfg := Demo.cfg } Demo.building none
      (some Demo.map) (28/10) 1
    r.2 = .ok [("loadUp", false), ("shed", false)] ∧
    r'.2 = .ok [("normal", false), ("loadUp", false), ("shed", false)] ∧
    getMinCapacity r.1.1 = .ok (81864643 / 2000000) ∧
    getMinCapacity r'.1.1 = .ok (11694949 / 320000) ∧
    getMinStorage r.1.1 = .ok (20580 / 103) ∧ getMinStorage r'.1.1 = .ok (24500 / 307) := by
  decide +kernel

end Eco
