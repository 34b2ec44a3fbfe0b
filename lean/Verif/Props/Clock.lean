import Verif.Spec.Clock
import Verif.Props.Running
import Verif.Props.Curves
import Verif.Props.Shapes
import Verif.Props.SwingSize
import Verif.Props.MultiPass
set_option linter.unusedSectionVars false

/-! C143: sizing does not depend on the hour from which the day is counted. -/

namespace Eco
open Spec
variable {K : Type} [Field K] [LinearOrder K] [IsStrictOrderedRing K]

theorem use_rotate (daily : K) (shape : List K) (n h : ℕ) : Spec.use daily (shape.rotate n) h = Spec.use daily shape (h + n) := by
  unfold Spec.use
  rcases eq_or_ne shape [] with rfl | hne
  · simp
  · have hpos : 0 < shape.length := List.length_pos_iff.mpr hne
    have hlt : h % shape.length < shape.length := Nat.mod_lt _ hpos
    rw [List.length_rotate, List.getD_eq_getElem?_getD, List.getD_eq_getElem?_getD, List.getElem?_rotate hlt, Nat.mod_add_mod]

theorem shortfalls_rotate (daily gen : K) (shape : List K) (n : ℕ) (hne : shape ≠ []) :
    shortfalls daily gen (shape.rotate n) = shortfalls daily gen shape := by
  have hpos : 0 < shape.length := List.length_pos_iff.mpr hne
  have key : ∀ s m, Spec.shortfall (Spec.use daily (shape.rotate n)) (fun _ => gen) s m =
      Spec.shortfall (Spec.use daily shape) (fun _ => gen) (s + n) m := by
    intro s m
    unfold Spec.shortfall
    refine Finset.sum_congr rfl fun i _ => ?_
    rw [use_rotate, show s + i + n = s + n + i by omega]
  have per : ∀ s m k, Spec.shortfall (Spec.use daily shape) (fun _ => gen) (s + k * shape.length) m =
      Spec.shortfall (Spec.use daily shape) (fun _ => gen) s m := by
    intro s m k
    unfold Spec.shortfall Spec.use
    refine Finset.sum_congr rfl fun i _ => ?_
    rw [show s + k * shape.length + i = s + i + k * shape.length by omega, Nat.add_mul_mod_self_right]
  ext x
  constructor
  · rintro ⟨s, m, rfl⟩
    exact ⟨s + n, m, key s m⟩
  · rintro ⟨s, m, rfl⟩
    refine ⟨s + n * (shape.length - 1), m, ?_⟩
    rw [key, ← per s m n]
    congr 1
    obtain ⟨k, hk⟩ : ∃ k, shape.length = k + 1 := ⟨shape.length - 1, by omega⟩
    rw [hk, Nat.add_sub_cancel]
    ring

/-- The running volume of a day does not depend on where the day starts. -/
theorem runningVolume_rotate {daily r : K} {shape : List K} (n : ℕ)
    (hcover : daily * shape.sum ≤ shape.length * (daily / r)) :
    runningVolume daily r (shape.rotate n) = runningVolume daily r shape := by
  rcases eq_or_ne shape [] with rfl | hne
  · simp
  · by_cases hr : r = 0
    · subst hr
      simp [runningVolume, fdiv, bind, Except.bind]
    · have hs : (shape.rotate n).sum = shape.sum := (List.rotate_perm shape n).sum_eq
      obtain ⟨v, hv, hg⟩ := C01_running_volume_isGreatest daily r shape hne hr hcover
      obtain ⟨v', hv', hg'⟩ := C01_running_volume_isGreatest daily r (shape.rotate n) (by simpa using hne) hr
        (by rw [hs, List.length_rotate]; exact hcover)
      rw [shortfalls_rotate _ _ _ _ hne] at hg'
      rw [hv, hv', hg'.unique hg]

theorem max?_rotate (l : List K) (n : ℕ) : (l.rotate n).max? = l.max? := by
  have hp := List.rotate_perm l n
  cases h : l.max? with
  | none =>
    rw [List.max?_eq_none_iff] at h
    simp [h]
  | some m =>
    rw [List.max?_eq_some_iff] at h ⊢
    exact ⟨hp.mem_iff.2 h.1, fun b hb => h.2 b (hp.mem_iff.1 hb)⟩

/-- Methods that do not see where the day starts, for at most 24 run hours. -/
structure ReadsDay (M : SizingMethods K) : Prop where
  cap : ∀ c (b : Building K) n, M.reqCapacity c (countedFrom n b) = M.reqCapacity c b
  vol : ∀ (c : SysCfg K) (b : Building K) x n, FullDay b → 0 < c.maxRunHr → c.maxRunHr ≤ 24 →
    M.runVol c (countedFrom n b) x = M.runVol c b x

theorem base_readsDay : ReadsDay (baseMethods (K := K)) where
  cap c b n := rfl
  vol c b x n h h0 h24 := runningVolume_rotate n (cover_of_normalised h.gal h.hours h.sum h0 h24)

theorem sp_readsDay (l : RtpLoop K) : ReadsDay (spMethods l) where
  cap c b n := rfl
  vol c b x n h h0 h24 := by
    have := runningVolume_rotate (daily := b.dailyGal) n (cover_of_normalised h.gal h.hours h.sum h0 h24)
    show spRunVol l c (countedFrom n b) = spRunVol l c b
    unfold spRunVol
    simp only [show recircDaily c l (countedFrom n b) = recircDaily c l b from rfl]
    cases recircDaily c l b with
    | error e => rfl
    | ok r => exact this

section
variable {b : Building K}

theorem notAnnual (hb : FullDay b) : b.isAnnual = false := by
  simp [Building.isAnnual, hb.hours]

theorem isAnnual_from (n : ℕ) : (countedFrom n b).isAnnual = b.isAnnual := by
  simp [Building.isAnnual, countedFrom]

theorem sizeCore_from {M : SizingMethods K} (hM : ReadsDay M) (hb : FullDay b) (n : ℕ) {c : SysCfg K} (h0 : 0 < c.maxRunHr)
    (h24 : c.maxRunHr ≤ 24) (cmap : Option (ControlMap K)) (slope fract : K) :
    sizeCore M c (countedFrom n b) none cmap slope fract = sizeCore M c b none cmap slope fract := by
  simp only [sizeCore, show requireDesignInlet (countedFrom n b) = requireDesignInlet b from rfl, hM.cap,
    hM.vol _ _ _ _ hb h0 h24]

theorem size_from {M : SizingMethods K} (hM : ReadsDay M) (hb : FullDay b) (n : ℕ) (db : ShapeFiles K) (s : DhwSys K)
    (h0 : 0 < s.cfg.maxRunHr) (h24 : s.cfg.maxRunHr ≤ 24) {sched : Option (List String)} {cmap : Option (ControlMap K)}
    (hs : ¬ AsksShift sched cmap) (slope fract : K) :
    size M db s (countedFrom n b) sched cmap slope fract =
      (((size M db s b sched cmap slope fract).1.1, countedFrom n b), (size M db s b sched cmap slope fract).2) := by
  simp only [size, lsInputs_none hs, isAnnual_from, notAnnual hb, if_false, Bool.false_eq_true,
    sizeCore_from hM hb n (c := cappedCfg s.cfg none) h0 h24]
  split <;> rfl

/-- **C143, primary systems.** Without load shifting, the system sized for a building, the warnings and the exceptions are the
same from whichever hour its days are counted. -/
theorem C143_primary (hb : FullDay b) (n : ℕ) (db : ShapeFiles K) (s : DhwSys K) (h0 : 0 < s.cfg.maxRunHr)
    (h24 : s.cfg.maxRunHr ≤ 24) {sched : Option (List String)} {cmap : Option (ControlMap K)} (hs : ¬ AsksShift sched cmap)
    (slope fract : K) :
    (size baseMethods db s (countedFrom n b) sched cmap slope fract).1.1 = (size baseMethods db s b sched cmap slope fract).1.1 ∧
    (size baseMethods db s (countedFrom n b) sched cmap slope fract).2 = (size baseMethods db s b sched cmap slope fract).2 := by
  rw [size_from base_readsDay hb n db s h0 h24 hs]
  exact ⟨rfl, rfl⟩

/-- **C143, single-pass return to primary.** -/
theorem C143_single_pass (hb : FullDay b) (n : ℕ) (db : ShapeFiles K) (s : SpSys K) (h0 : 0 < s.base.cfg.maxRunHr)
    (h24 : s.base.cfg.maxRunHr ≤ 24) {sched : Option (List String)} {cmap : Option (ControlMap K)} (hs : ¬ AsksShift sched cmap)
    (slope fract : K) :
    (s.size db (countedFrom n b) sched cmap slope fract).1.1 = (s.size db b sched cmap slope fract).1.1 ∧
    (s.size db (countedFrom n b) sched cmap slope fract).2 = (s.size db b sched cmap slope fract).2 := by
  simp only [SpSys.size, size_from (sp_readsDay s.loop) hb n db s.base h0 h24 hs]
  generalize size (spMethods s.loop) db s.base b sched cmap slope fract = r
  obtain ⟨⟨d, b1⟩, w⟩ := r
  cases w with
  | error e => exact ⟨rfl, rfl⟩
  | ok w => simp only; cases rtpRecircCap d.cfg s.loop <;> exact ⟨rfl, rfl⟩

/-- **C143, parallel loop.** -/
theorem C143_parallel (hb : FullDay b) (n : ℕ) (db : ShapeFiles K) (s : ParSys K) (h0 : 0 < s.base.cfg.maxRunHr)
    (h24 : s.base.cfg.maxRunHr ≤ 24) {sched : Option (List String)} {cmap : Option (ControlMap K)} (hs : ¬ AsksShift sched cmap)
    (slope fract : K) :
    (s.size baseMethods db (countedFrom n b) sched cmap slope fract).1.1 = (s.size baseMethods db b sched cmap slope fract).1.1 ∧
    (s.size baseMethods db (countedFrom n b) sched cmap slope fract).2 = (s.size baseMethods db b sched cmap slope fract).2 := by
  simp only [ParSys.size, size_from base_readsDay hb n db s.base h0 h24 hs]
  generalize size baseMethods db s.base b sched cmap slope fract = r
  obtain ⟨⟨d, b1⟩, w⟩ := r
  cases validateTm s.tm with
  | error e => exact ⟨rfl, rfl⟩
  | ok u =>
    cases w with
    | error e => exact ⟨rfl, rfl⟩
    | ok w => simp only; cases sizeTm d.cfg.supply s.tm <;> exact ⟨rfl, rfl⟩

/-- **C143, tankless systems.** -/
theorem C143_tankless (n : ℕ) (s : Instant K) : s.size (countedFrom n b) = s.size b := by
  simp only [Instant.size, show (countedFrom n b).peakShape = b.peakShape.rotate n from rfl, max?_rotate]
  rfl

theorem sweep_from {M : SizingMethods K} (hM : ReadsDay M) (hb : FullDay b) (n : ℕ) (factor : K) (hs : List K)
    (hh : ∀ x ∈ hs, 0 < x ∧ x ≤ 24) (c : SysCfg K) : sweep M (countedFrom n b) factor c hs = sweep M b factor c hs := by
  induction hs generalizing c with
  | nil => rfl
  | cons x xs ih =>
    have hx := hh x (by simp)
    simp only [sweep, curvePoint, hM.cap, hM.vol { c with maxRunHr := x } b _ n hb hx.1 hx.2,
      ih (fun y hy => hh y (by simp [hy]))]

/-- **C143, the sizing curve** of a primary system or a single-pass return to primary. -/
theorem C143_curve [FloorRing K] {M : SizingMethods K} (hM : M = baseMethods ∨ ∃ l, M = spMethods l) (hb : FullDay b)
    (hpos : ∀ f ∈ b.peakShape, 0 ≤ f) (n : ℕ) (db : ShapeFiles K) (s : DhwSys K) (h0 : 0 < s.cfg.maxRunHr)
    (h24 : s.cfg.maxRunHr ≤ 24) (slope : K) {step : K} (hstep : 0 < step) :
    (getSizingCurve M db s (countedFrom n b) slope step).1.1 = (getSizingCurve M db s b slope step).1.1 ∧
    (getSizingCurve M db s (countedFrom n b) slope step).2 = (getSizingCurve M db s b slope step).2 := by
  have hR : ReadsDay M := by
    rcases hM with rfl | ⟨l, rfl⟩
    · exact base_readsDay
    · exact sp_readsDay l
  have hset : ∀ sl, curveSetup s (countedFrom n b) sl step = curveSetup s b sl step := by
    intro sl
    simp only [curveSetup, npMax, show (countedFrom n b).peakShape = b.peakShape.rotate n from rfl, max?_rotate]
    rfl
  have hbody : ∀ sl, sizingCurveBody M s (countedFrom n b) sl step = sizingCurveBody M s b sl step := by
    intro sl
    simp only [sizingCurveBody, hset]
    cases hc : curveSetup s b sl step with
    | error e => rfl
    | ok x =>
      obtain ⟨factor, a1, a2⟩ := x
      obtain ⟨inlet, mx, -, -, hmx, hne, rfl, rfl⟩ := curveSetup_ok hc
      rw [List.max?_eq_some_iff] at hmx
      have hmx0 : 0 < mx := lt_of_le_of_ne (hpos _ hmx.1) (Ne.symm hne)
      simp only
      rw [sweep_from hR hb n factor _ (by
        intro x hx
        rcases List.mem_append.1 hx with hx | hx
        · obtain ⟨p, q⟩ := mem_arangeDown hstep hx
          exact ⟨h0.trans p, q⟩
        · obtain ⟨p, q⟩ := mem_arangeDown hstep hx
          exact ⟨lt_trans (by positivity) p, q.trans h24⟩)]
  simp only [getSizingCurve, isAnnual_from, notAnnual hb, if_false, Bool.false_eq_true, hbody, and_self]

/-! ### Swing tanks -/

theorem window_rotate {l : List K} {i : ℕ} (hl : l.length = 24) (hi : i ≤ 24) : ((l ++ l).drop i).take 24 = l.rotate i := by
  rw [List.drop_append_of_le_length (by omega), List.rotate_eq_drop_append_take (by omega), List.take_append]
  congr 1
  · rw [List.take_of_length_le (by simp; omega)]
  · rw [List.length_drop, hl, show 24 - (24 - i) = i by omega]

theorem dayFrom_rotate {l : List K} (hl : l.length = 24) (daily : K) {n i : ℕ} (hi : i < 24) :
    Spec.dayFrom (l.rotate n) daily i = Spec.dayFrom l daily ((n + i) % 24) := by
  unfold Spec.dayFrom
  rw [window_rotate (by simpa using hl) hi.le, window_rotate hl (Nat.mod_lt _ (by norm_num)).le, List.rotate_rotate, ← hl,
    List.rotate_mod]

theorem deficit_rotate {l : List K} (hl : l.length = 24) (r : K) {n i : ℕ} (h : Spec.DeficitStart (l.rotate n) r i) :
    i < 24 ∧ Spec.DeficitStart l r ((n + i) % 24) := by
  obtain ⟨f, g, h1, h2, h3, h4⟩ := h
  obtain ⟨hi, -⟩ := List.getElem?_eq_some_iff.mp h1
  rw [List.length_rotate, hl] at hi
  refine ⟨hi, f, g, ?_, ?_, h3, h4⟩
  · rw [List.getElem?_rotate (by omega), hl] at h1
    rw [← h1, Nat.add_comm]
  · rw [List.length_rotate, List.getElem?_rotate (Nat.mod_lt _ (by omega)), hl] at h2
    rw [← h2, hl]
    congr 1
    omega

theorem tried_rotate {l : List K} (hl : l.length = 24) {r : K} (hno : ¬ Spec.DeficitStart l r 23) {n i : ℕ}
    (h : Spec.TriedStart (l.rotate n) r i) : Spec.TriedStart l r ((n + i) % 24) := by
  obtain ⟨hi, h⟩ := h
  refine ⟨Nat.mod_lt _ (by norm_num), ?_⟩
  rcases h with h | ⟨j, h, rfl⟩
  · exact .inl (deficit_rotate hl r h).2
  · have hd := (deficit_rotate hl r h).2
    refine .inr ⟨_, hd, ?_⟩
    have : (n + j) % 24 ≠ 23 := fun e => hno (e ▸ hd)
    omega

theorem swing_vol_le {s : SwingSys K} {rv rv' eff eff' : K} (hb : b.peakShape.length = 24) (hd : b.dailyGal ≠ 0) (n : ℕ)
    (hsup : ∀ inlet, requireDesignInlet b = .ok inlet → 0 ≤ (s.base.cfg.storage - inlet) / (s.base.cfg.supply - inlet))
    (hno : ¬ Spec.DeficitStart b.peakShape s.base.cfg.maxRunHr 23) (h : runVolSwing s b = .ok (rv, some eff))
    (h' : runVolSwing s (countedFrom n b) = .ok (rv', some eff')) : rv' ≤ rv := by
  obtain ⟨inlet, v, hin, -, rfl, h0, hall, -⟩ := C80_running_volume hd h
  obtain ⟨inlet', v', hin', -, rfl, -, -, hat⟩ := C80_running_volume (b := countedFrom n b) hd h'
  obtain rfl : inlet = inlet' := by
    have : requireDesignInlet b = .ok inlet' := hin'
    rw [hin] at this
    exact Except.ok.inj this
  refine mul_le_mul_of_nonneg_right ?_ (hsup _ hin)
  rcases hat with ⟨rfl, -⟩ | ⟨i, hi, p, rows, m, hp, hrows, -, rfl⟩
  · exact h0
  · obtain ⟨p2, rows2, hp2, hrows2, hsh⟩ := hall _ (tried_rotate hb hno hi)
    obtain rfl : p = p2 := Except.ok.inj (hp.symm.trans hp2)
    rw [show (countedFrom n b).peakShape = b.peakShape.rotate n from rfl, dayFrom_rotate hb _ hi.1,
      show (countedFrom n b).dailyGal = b.dailyGal from rfl, hrows2] at hrows
    obtain rfl : rows2 = rows := Except.ok.inj hrows
    exact hsh m

theorem runVol_none {s : SwingSys K} {rv : K} (h : runVolSwing s b = .ok (rv, none)) :
    rv = 0 ∧ b.peakShape.length = 24 ∧ (s.base.cfg.maxRunHr = 0 ∨ ∀ i, ¬ Spec.DeficitStart b.peakShape s.base.cfg.maxRunHr i) := by
  unfold runVolSwing at h
  simp only [bind_eq_ok, pure_eq_ok] at h
  obtain ⟨inlet, hin, h⟩ := h
  split at h
  · simp at h
  · rename_i hl
    split at h
    · rename_i h0
      simp only [Except.ok.injEq, Prod.mk.injEq, and_true] at h
      exact ⟨h.symm, not_not.1 hl, .inl h0⟩
    · split at h
      · rename_i hp
        simp only [Except.ok.injEq, Prod.mk.injEq, and_true] at h
        refine ⟨h.symm, not_not.1 hl, .inr fun i hi => ?_⟩
        rw [← mem_deficit, hp] at hi
        simp at hi
      · simp only [bind_eq_ok, Except.ok.injEq, Prod.mk.injEq, reduceCtorEq, and_false, exists_false, exists_const] at h

theorem swing_vol_none {s : SwingSys K} {rv rv' : K} {eff' : Option K} (hd : b.dailyGal ≠ 0) (n : ℕ)
    (hrun : s.base.cfg.maxRunHr ≠ 0) (h : runVolSwing s b = .ok (rv, none))
    (h' : runVolSwing s (countedFrom n b) = .ok (rv', eff')) : rv' = rv := by
  obtain ⟨rfl, hl, hno⟩ := runVol_none h
  have hno := hno.resolve_left hrun
  cases eff' with
  | none => exact (runVol_none h').1
  | some e =>
    obtain ⟨inlet', v', hin', -, rfl, -, -, hat⟩ := C80_running_volume (b := countedFrom n b) hd h'
    rcases hat with ⟨rfl, -⟩ | ⟨i, hi, -⟩
    · rw [zero_mul]
    · rcases hi.2 with hx | ⟨j, hx, -⟩
      · exact absurd (deficit_rotate hl _ hx).2 (hno _)
      · exact absurd (deficit_rotate hl _ hx).2 (hno _)

theorem runVol_back {s : SwingSys K} (hl : b.peakShape.length = 24) (n : ℕ) :
    runVolSwing s (countedFrom (24 - n % 24) (countedFrom n b)) = runVolSwing s b := by
  have e : (b.peakShape.rotate n).rotate (24 - n % 24) = b.peakShape := by
    rw [List.rotate_rotate, ← List.rotate_mod, hl, show (n + (24 - n % 24)) % 24 = 0 by omega, List.rotate_zero]
  have : countedFrom (24 - n % 24) (countedFrom n b) = withAverage ((b.avgShape.rotate n).rotate (24 - n % 24)) b := by
    unfold countedFrom withAverage
    simp only [e]
  rw [this]
  rfl

/-- **C143, swing tanks (partial).** If no deficit begins in the last hour of the day, counted in either way, the storage volume
and the swing tank are the same. (The sizing run tries the hour after the start of a deficit only if it is still on the same day;
the heating capacity can depend on which of two equally bad starts comes first.) -/
theorem C143_swing_partial (hb : FullDay b) (hgal : b.dailyGal ≠ 0) (n : ℕ) (db : ShapeFiles K) (s s1 s2 : SwingSys K)
    (b1 b2 : Building K) (h0 : 0 < s.base.cfg.maxRunHr) {sched : Option (List String)} {cmap : Option (ControlMap K)}
    (hs : ¬ AsksShift sched cmap) (slope fract : K)
    (hcold : ∀ inlet, b.getDesignInlet = .ok (some inlet) → inlet < s.base.cfg.supply)
    (hhot : s.base.cfg.supply ≤ s.base.cfg.storage)
    (h23 : ¬ Spec.DeficitStart b.peakShape s.base.cfg.maxRunHr 23)
    (h23' : ¬ Spec.DeficitStart (b.peakShape.rotate n) s.base.cfg.maxRunHr 23)
    (h1 : s.size db b sched cmap slope fract = ((s1, b1), .ok ()))
    (h2 : s.size db (countedFrom n b) sched cmap slope fract = ((s2, b2), .ok ())) :
    s2.base.minStorage = s1.base.minStorage ∧ s2.tmVol = s1.tmVol ∧ s2.tmCap = s1.tmCap := by
  obtain ⟨c1, inlet, vol, ca, cap, rv, eff, capP, st, mix, hv1, hin, htm, hrv, hrest, rfl⟩ := swingSize_ok h1
  obtain ⟨c2, inlet', vol', ca', cap', rv', eff', capP', st', mix', hv2, hin', htm', hrv', hrest', rfl⟩ := swingSize_ok h2
  have d1 : dailyView db b = .ok b := by unfold dailyView; rw [if_neg (by simp [notAnnual hb])]
  have d2 : dailyView db (countedFrom n b) = .ok (countedFrom n b) := by
    unfold dailyView; rw [if_neg (by simp [isAnnual_from, notAnnual hb])]
  obtain rfl : b = c1 := Except.ok.inj (d1.symm.trans hv1)
  obtain rfl : countedFrom n b = c2 := Except.ok.inj (d2.symm.trans hv2)
  rw [lsInputs_none hs] at *
  obtain rfl : inlet = inlet' := Except.ok.inj (hin.symm.trans hin')
  have htm2 : sizeSwingTm (cappedCfg s.base.cfg none).supply s.ret s.flow s.sf (some (countedFrom n b)) =
      sizeSwingTm (cappedCfg s.base.cfg none).supply s.ret s.flow s.sf (some b) := by
    simp only [sizeSwingTm, swingRequired, npMax, show (countedFrom n b).peakShape = b.peakShape.rotate n from rfl, max?_rotate]
    rfl
  rw [htm2, htm] at htm'
  simp only [Except.ok.injEq, Prod.mk.injEq] at htm'
  obtain ⟨rfl, rfl, rfl⟩ := htm'
  refine ⟨?_, rfl, rfl⟩
  have hq : ∀ x, requireDesignInlet b = .ok x → 0 ≤ (s.base.cfg.storage - x) / (s.base.cfg.supply - x) := by
    intro x hx
    have : b.getDesignInlet = .ok (some x) := by
      unfold requireDesignInlet at hx
      cases hg : b.getDesignInlet with
      | error e => simp [hg, bind, Except.bind] at hx
      | ok o =>
        cases o with
        | none => simp [hg, bind, Except.bind] at hx
        | some y =>
          simp only [hg, ok_bind, pure_eq_ok, Except.ok.injEq] at hx
          rw [hx]
    have := hcold x this
    exact div_nonneg (by linarith) (by linarith)
  have e : rv' = rv := by
    have hback := runVol_back (s := { s.capped none with tmVol := some (vol : K), tmCa := some ca, tmCap := some cap, effMix := 1 })
      hb.hours n
    rw [hrv] at hback
    cases eff with
    | none => exact swing_vol_none hgal n (by exact h0.ne') hrv hrv'
    | some x =>
      cases eff' with
      | none => exact (swing_vol_none (b := countedFrom n b) hgal _ (by exact h0.ne') hrv' hback).symm
      | some y =>
        refine le_antisymm (swing_vol_le hb.hours hgal n (by exact hq) (by exact h23) hrv hrv') ?_
        exact swing_vol_le (b := countedFrom n b) (by simpa [countedFrom] using hb.hours) hgal _ (by exact hq) (by exact h23') hrv' hback
  subst e
  simp only [sizeSwingRest, bind_eq_ok, pure_eq_ok, Except.ok.injEq, Prod.mk.injEq] at hrest hrest'
  obtain ⟨f, hf, w, hw, -, -, -, rfl, -⟩ := hrest
  obtain ⟨f', hf', w', hw', -, -, -, rfl, -⟩ := hrest'
  obtain rfl : f = f' := Except.ok.inj (hf.symm.trans hf')
  obtain rfl : w = w' := Except.ok.inj (hw.symm.trans hw')
  rfl

end

/-- The storage volume, if a multi-pass sizing succeeds. -/
def mpStorage (r : (MpSys ℚ × Building ℚ) × Py Unit) : Option ℚ :=
  match r with
  | ((s, _), .ok ()) => s.base.minStorage
  | _ => none

theorem mpStorage_some {r : (MpSys ℚ × Building ℚ) × Py Unit} {x : ℚ} (h : mpStorage r = some x) :
    ∃ s b, r = ((s, b), .ok ()) ∧ s.base.minStorage = some x := by
  obtain ⟨⟨s, b⟩, w⟩ := r
  cases w with
  | error e => simp [mpStorage] at h
  | ok u => exact ⟨s, b, rfl, h⟩

/-- A multi-pass system that may run all day. -/
def Demo.mpAllDay : MpSys ℚ := { base := { cfg := ⟨120, 150, 24, 1⟩ }, loop := ⟨118, 1⟩ }

set_option maxRecDepth 100000 in
/-- **C143 is false for multi-pass systems.** Their storage is the largest slug of a run that starts at hour 0 with a hot tank. A
building sized for 1225 gallons needs 720 gallons if its days are counted from 7 in the morning. -/
theorem C143_multi_pass_fails : ∃ s1 b1 s2 b2,
    Demo.mpAllDay.size Demo.noFiles Demo.building (some Demo.lowSensor) 2 = ((s1, b1), .ok ()) ∧
    Demo.mpAllDay.size Demo.noFiles (countedFrom 7 Demo.building) (some Demo.lowSensor) 2 = ((s2, b2), .ok ()) ∧
    s1.base.minStorage = some (134193920 / 109561) ∧ s2.base.minStorage = some (78939840 / 109561) := by
  have e1 : mpStorage (Demo.mpAllDay.size Demo.noFiles Demo.building (some Demo.lowSensor) 2) = some (134193920 / 109561) := by
    decide +kernel
  have e2 : mpStorage (Demo.mpAllDay.size Demo.noFiles (countedFrom 7 Demo.building) (some Demo.lowSensor) 2) =
      some (78939840 / 109561) := by decide +kernel
  obtain ⟨s1, b1, h1, k1⟩ := mpStorage_some e1
  obtain ⟨s2, b2, h2, k2⟩ := mpStorage_some e2
  exact ⟨s1, b1, s2, b2, h1, h2, k1, k2⟩

/-- **C143 is false with load shifting**, even if the schedule is counted from the same hour: a shed block that runs over midnight
is cut in two. The building needs 200 gallons to shed from 17 to 20 h, and 80 gallons if its days are counted from 19 h. -/
theorem C143_load_shift_fails :
    (size baseMethods Demo.noFiles { cfg := Demo.cfg } Demo.building (some Demo.sched) (some Demo.map) (28/10) 1).1.1.minStorage =
      some (20580 / 103) ∧
    (size baseMethods Demo.noFiles { cfg := Demo.cfg } (countedFrom 19 Demo.building) (some (Demo.sched.rotate 19)) (some Demo.map)
      (28/10) 1).1.1.minStorage = some (24500 / 307) ∧
    (size baseMethods Demo.noFiles { cfg := Demo.cfg } Demo.building (some Demo.sched) (some Demo.map) (28/10) 1).2.isOk = true ∧
    (size baseMethods Demo.noFiles { cfg := Demo.cfg } (countedFrom 19 Demo.building) (some (Demo.sched.rotate 19)) (some Demo.map)
      (28/10) 1).2.isOk = true := by
  decide +kernel

theorem Demo.fullDay : FullDay Demo.building := ⟨by decide +kernel, by decide +kernel, by decide +kernel⟩

/-- Non-vacuity of C143: a day counted from 7 in the morning has its peak elsewhere and gets the same tank. -/
example : (countedFrom 7 Demo.building).peakShape ≠ Demo.building.peakShape ∧
    (size baseMethods Demo.noFiles { cfg := Demo.cfg } (countedFrom 7 Demo.building) none (some Demo.map) (28/10) 1).1.1.minStorage =
      some (24500 / 307) := by
  refine ⟨by decide +kernel, ?_⟩
  rw [(C143_primary Demo.fullDay 7 Demo.noFiles { cfg := Demo.cfg } (by decide +kernel) (by decide +kernel)
    (sched := none) (cmap := some Demo.map) (by rintro ⟨_, _, h, _⟩; simp at h) (28/10) 1).1]
  decide +kernel

/-- Non-vacuity of C143 for swing tanks: both sizings succeed and no deficit starts late in the evening. -/
example : ∃ s1 s2 : SwingSys ℚ,
    Demo.swing.size Demo.noFiles Demo.building none (some Demo.map) (28/10) 1 = ((s1, Demo.building), .ok ()) ∧
    Demo.swing.size Demo.noFiles (countedFrom 3 Demo.building) none (some Demo.map) (28/10) 1 =
      ((s2, countedFrom 3 Demo.building), .ok ()) ∧ s2.base.minStorage = s1.base.minStorage := by
  have htm : sizeSwingTm (K := ℚ) Demo.swing.base.cfg.supply Demo.swing.ret Demo.swing.flow Demo.swing.sf
      (some Demo.building) = .ok (50, 80, 6/5 * recircLossKbtuh 120 110 3) := by decide +kernel
  have htm2 : sizeSwingTm (K := ℚ) Demo.swing.base.cfg.supply Demo.swing.ret Demo.swing.flow Demo.swing.sf
      (some (countedFrom 3 Demo.building)) = .ok (50, 80, 6/5 * recircLossKbtuh 120 110 3) := by decide +kernel
  obtain ⟨s1, h1, -⟩ := C67_size_never_fails (db := Demo.noFiles) (s := Demo.swing) (b := Demo.building)
    (sched := none) (cmap := some Demo.map) (slope := 28/10) (fract := 1) (inlet := 50)
    (factor := 307/392) (by simp [lsInputs, truthySched]) (by decide +kernel) (by decide +kernel)
    (by decide +kernel) (by decide +kernel) (by decide +kernel) (by decide +kernel) htm (by decide +kernel)
    (by decide +kernel) (by decide +kernel) (by decide +kernel) (by decide +kernel) (by decide +kernel)
    (by decide +kernel) (by norm_num)
  obtain ⟨s2, h2, -⟩ := C67_size_never_fails (db := Demo.noFiles) (s := Demo.swing) (b := countedFrom 3 Demo.building)
    (sched := none) (cmap := some Demo.map) (slope := 28/10) (fract := 1) (inlet := 50)
    (factor := 307/392) (by simp [lsInputs, truthySched]) (by decide +kernel) (by decide +kernel)
    (by decide +kernel) (by decide +kernel) (by decide +kernel) (by decide +kernel) htm2 (by decide +kernel)
    (by decide +kernel) (by decide +kernel) (by decide +kernel) (by decide +kernel) (by decide +kernel)
    (by decide +kernel) (by norm_num)
  have no : ∀ l : List ℚ, 23 ∉ peakIndices (l.map (fun f => 1 / (16 : ℚ) - f)) → ¬ Spec.DeficitStart l 16 23 :=
    fun l h hd => h ((mem_deficit l 16 23).2 hd)
  refine ⟨s1, s2, h1, h2, ?_⟩
  exact (C143_swing_partial Demo.fullDay (by decide +kernel) 3 Demo.noFiles Demo.swing s1 s2 _ _ (by decide +kernel)
    (by rintro ⟨_, _, h, _⟩; simp at h) (28/10) 1
    (by intro inlet h
        have e : Demo.building.getDesignInlet = .ok (some 50) := by decide +kernel
        rw [e] at h
        obtain rfl : (50 : ℚ) = inlet := by simpa using h
        decide +kernel) (by decide +kernel)
    (no _ (by decide +kernel)) (no _ (by decide +kernel)) h1 h2).1

end Eco
