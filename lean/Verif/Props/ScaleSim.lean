import Verif.Spec.ScaleSim
import Verif.Props.Scale
import Verif.Props.Simulate
import Verif.Props.RunHeat
import Verif.Props.Larger

/-! C131: a plant `k` times as large for a building `k` times as large. -/

namespace Eco
set_option linter.unusedSectionVars false
variable {K : Type} [Field K] [LinearOrder K] [IsStrictOrderedRing K]

open Spec

theorem times_nonpos {k : K} (hk : 0 < k) {x : K} : k * x ≤ 0 ↔ x ≤ 0 := by
  constructor
  · intro h; by_contra hx; exact absurd (mul_pos hk (not_le.1 hx)) (not_lt.2 h)
  · exact fun h => mul_nonpos_of_nonneg_of_nonpos hk.le h

/-! ### The tank -/

theorem shift_times {k : K} (hk : k ≠ 0) (t : StratTank K) : (timesTank k t).shift = t.shift := by
  unfold StratTank.shift timesTank
  rw [mul_div_mul_left _ _ hk]

theorem tempAt_times {k : K} (hk : k ≠ 0) (t : StratTank K) (f : K) : (timesTank k t).tempAt f = t.tempAt f := by
  unfold StratTank.tempAt
  rw [shift_times hk]; rfl

theorem tempAtPy_times {k : K} (hk : k ≠ 0) (t : StratTank K) : (timesTank k t).tempAtPy = t.tempAtPy := by
  funext f
  unfold StratTank.tempAtPy
  rw [tempAt_times hk]
  have : ((timesTank k t).vol = 0) ↔ (t.vol = 0) := by unfold timesTank; simp [hk]
  by_cases h : t.vol = 0
  · rw [if_pos h, if_pos (this.2 h)]
  · rw [if_neg h, if_neg (fun x => h (this.1 x))]

theorem usable_times {k : K} (hk : k ≠ 0) (t : StratTank K) (su : K) : (timesTank k t).usable su = k * t.usable su := by
  unfold StratTank.usable
  rw [shift_times hk]
  unfold timesTank
  ring

theorem floor_times {k : K} (t : StratTank K) (m : Option K) : (timesTank k t).deltaFloor m = k * t.deltaFloor m := by
  unfold StratTank.deltaFloor timesTank
  ring

theorem avgDraw_times {k : K} (hk : 0 < k) (t : StratTank K) (g : K) : (timesTank k t).avgDraw (k * g) = t.avgDraw g := by
  unfold StratTank.avgDraw
  simp only
  rw [shift_times hk.ne']
  unfold timesTank
  simp only
  rw [← mul_min_of_nonneg _ _ hk.le, mul_div_mul_left _ _ hk.ne']
  by_cases h : min g t.vol ≤ 0
  · rw [if_pos h, if_pos ((times_nonpos hk).2 h)]
  · rw [if_neg h, if_neg (fun x => h ((times_nonpos hk).1 x))]

theorem init_times {k : K} (t : StratTank K) (st cold pu : K) :
    (timesTank k t).init st cold pu = timesTank k (t.init st cold pu) := by
  unfold StratTank.init timesTank
  simp

theorem heat_times {k : K} (hk : 0 < k) (t : StratTank K) (q dur out : K) :
    (timesTank k t).heat (k * q) dur out = timesTank k (t.heat q dur out) := by
  unfold StratTank.heat
  dsimp only
  by_cases h : q ≤ 0 ∨ out ≤ t.inlet
  · have h' : k * q ≤ 0 ∨ out ≤ (timesTank k t).inlet := h.imp (times_nonpos hk).2 id
    rw [if_pos h, if_pos h']; rfl
  · have h' : ¬ (k * q ≤ 0 ∨ out ≤ (timesTank k t).inlet) := fun x => h (x.imp (times_nonpos hk).1 id)
    rw [if_neg h, if_neg h']
    unfold timesTank
    simp only
    congr 1
    rw [mul_min_of_nonneg _ _ hk.le]
    congr 1 <;> ring

theorem drawPhysical_times {k : K} (hk : 0 < k) (t : StratTank K) (g inlet : K) (su : Option K) :
    (timesTank k t).drawPhysical (k * g) inlet su = timesTank k (t.drawPhysical g inlet su) := by
  unfold StratTank.drawPhysical
  simp only [mul_pos_iff_of_pos_left hk]
  have hf := floor_times (k := k) { t with inlet := inlet } su
  unfold timesTank at *
  split_ifs with h
  · simp only at hf ⊢
    rw [hf, mul_max_of_nonneg _ _ hk.le, mul_sub]
  · rfl

/-- A draw that is served at outlet temperature. -/
def HotDraw (t : StratTank K) (vol cold su out : K) : Prop :=
  out ≤ cold ∨ vol ≤ 0 ∨ out - 1 / 1000000 ≤ ({ t with inlet := cold, outlet := out } : StratTank K).avgDraw (vol * (su - cold) / (out - cold))

theorem draw_times {k : K} (hk : 0 < k) (t : StratTank K) (vol cold su out : K) (h : HotDraw t vol cold su out) :
    (timesTank k t).draw (k * vol) cold su out = timesTank k (t.draw vol cold su out) := by
  unfold StratTank.draw
  simp only [times_nonpos hk]
  by_cases hc : out ≤ cold ∨ vol ≤ 0
  · rw [if_pos hc, if_pos hc]; rfl
  rw [if_neg hc, if_neg hc]
  push Not at hc
  rcases h with h | h | h
  · exact absurd h (not_le.2 hc.1)
  · exact absurd h (not_le.2 hc.2)
  have hf := floor_times (k := k) ({ t with inlet := cold, outlet := out } : StratTank K) (some su)
  have ha := avgDraw_times hk ({ t with inlet := cold, outlet := out } : StratTank K) (vol * (su - cold) / (out - cold))
  have hv : k * vol * (su - cold) / (out - cold) = k * (vol * (su - cold) / (out - cold)) := by ring
  unfold StratTank.drawVol
  simp only
  have e : ({ timesTank k t with inlet := cold, outlet := out } : StratTank K) =
      timesTank k ({ t with inlet := cold, outlet := out } : StratTank K) := rfl
  rw [e, hv, ha, if_pos h, if_pos h, hf]
  unfold timesTank
  simp only
  congr 1
  rw [mul_max_of_nonneg _ _ hk.le, mul_sub k]

/-! ### The mixed tank -/

theorem mixedHeat_times {k : K} (hk : 0 < k) (t : MixedTank K) (q dur out : K) :
    (timesMixed k t).heat (k * q) dur out = timesMixed k (t.heat q dur out) := by
  unfold MixedTank.heat timesMixed
  simp only [times_nonpos hk]
  split_ifs
  · rfl
  · simp only
    congr 2
    rw [show k * q * dur / 60 * 1000 = k * (q * dur / 60 * 1000) by ring, mul_assoc, mul_div_mul_left _ _ hk.ne']

theorem mixedLoss_times {k : K} (hk : 0 < k) (t : MixedTank K) (q dur : K) :
    (timesMixed k t).loss (k * q) dur = timesMixed k (t.loss q dur) := by
  unfold MixedTank.loss timesMixed
  simp only [times_nonpos hk]
  split_ifs
  · rfl
  · simp only
    congr 2
    rw [show k * q * dur / 60 * 1000 = k * (q * dur / 60 * 1000) by ring, mul_assoc, mul_div_mul_left _ _ hk.ne']

theorem mixedRecirc_times {k : K} (hk : 0 < k) (t : MixedTank K) (flow ret dur : K) :
    (timesMixed k t).recirc (k * flow) ret dur = timesMixed k (t.recirc flow ret dur) := by
  unfold MixedTank.recirc timesMixed
  simp only
  congr 2
  rw [show k * flow * dur * (ret - t.temp) = k * (flow * dur * (ret - t.temp)) by ring, mul_div_mul_left _ _ hk.ne']

theorem mix_times {k : K} (hk : 0 < k) (t : MixedTank K) (g T : K) :
    (timesMixed k t).mix (k * g) T = timesMixed k (t.mix g T) := by
  unfold MixedTank.mix timesMixed
  simp only [times_nonpos hk, ← mul_sub]
  split_ifs
  · rfl
  · rfl
  · simp only
    congr 1
    rw [show k * g * rhoCp K * T + k * (t.vol - g) * rhoCp K * t.temp =
      k * (g * rhoCp K * T + (t.vol - g) * rhoCp K * t.temp) by ring, mul_assoc k t.vol, mul_div_mul_left _ _ hk.ne']

/-! ### Heaters -/

/-- What a step reads of two heaters, one `k` times the other. -/
structure HeaterRel (k : K) (w w' : Heater K) : Prop where
  sched : w'.sched = w.sched
  controls : ∀ hour, w'.getControls hour = w.getControls hour
  shifting : w'.isLoadShifting = w.isLoadShifting
  start : w'.cmap.bind normalOrFirst = w.cmap.bind normalOrFirst
  active : w'.active = w.active
  capacity : ∀ oat outlet inlet, w'.getCapacity oat outlet inlet = (w.getCapacity oat outlet inlet).map (Option.map (k * ·))
  power : ∀ oat outlet inlet, w'.getPower oat outlet inlet = (w.getPower oat outlet inlet).map (Option.map (k * ·))

structure PrimRel (k : K) (s s' : Prim K) : Prop where
  supply : s'.supply = s.supply
  storage : s'.storage = s.storage
  heaters : List.Forall₂ (HeaterRel k) s.heaters s'.heaters
  tank : s'.tank = s.tank.map (timesTank k)

structure SwingRel (k : K) (s s' : SwingSim K) : Prop where
  supply : s'.supply = s.supply
  storage : s'.storage = s.storage
  heaters : List.Forall₂ (HeaterRel k) s.heaters s'.heaters
  tank : s'.tank = timesTank k s.tank
  ret : s'.ret = s.ret
  flow : s'.flow = k * s.flow
  tm : s'.tm = timesMixed k s.tm
  tmHeater : HeaterRel k s.tmHeater s'.tmHeater

theorem Spec.TimesHeater.rel {k : K} {w w' : Heater K} (h : TimesHeater k w w') : HeaterRel k w w' :=
  ⟨h.sched, fun hour => by unfold Heater.getControls; rw [h.sched, h.cmap], by unfold Heater.isLoadShifting; rw [h.cmap],
    by rw [h.cmap], h.active, h.capacity, h.power⟩

theorem rel_heaters {k : K} {ws ws' : List (Heater K)} (h : List.Forall₂ (TimesHeater k) ws ws') :
    List.Forall₂ (HeaterRel k) ws ws' := h.imp (fun _ _ h => h.rel)

theorem Spec.TimesPrim.rel {k : K} {s s' : Prim K} (h : TimesPrim k s s') : PrimRel k s s' :=
  ⟨h.supply, h.storage, rel_heaters h.heaters, h.tank⟩

theorem Spec.TimesSwing.rel {k : K} {s s' : SwingSim K} (h : TimesSwing k s s') : SwingRel k s s' :=
  ⟨h.supply, h.storage, rel_heaters h.heaters, h.tank, h.ret, h.flow, h.tm, h.tmHeater.rel⟩

theorem HeaterRel.outletTemp {k : K} {w w' : Heater K} (h : HeaterRel k w w') (hour : ℕ) :
    w'.getOutletTemp hour = w.getOutletTemp hour := by
  unfold Heater.getOutletTemp; rw [h.controls]

theorem HeaterRel.output {k : K} {w w' : Heater K} (h : HeaterRel k w w') (oat : Option K) (out : K) (inlet : Option K) :
    w'.getOutput oat out inlet = (w.getOutput oat out inlet).map (k * ·) := by
  unfold Heater.getOutput
  rw [h.active, h.capacity]
  split
  · simp [Except.map]
  · cases w.getCapacity oat out inlet with
    | error e => rfl
    | ok x => cases x <;> simp [Except.map, bind, Except.bind, pure, Except.pure]

theorem HeaterRel.withActive {k : K} {w w' : Heater K} (h : HeaterRel k w w') (a : Bool) :
    HeaterRel k { w with active := a } { w' with active := a } :=
  ⟨h.sched, h.controls, h.shifting, h.start, rfl, h.capacity, h.power⟩

/-- Both heaters decide the same. -/
theorem HeaterRel.update {k : K} {w w' : Heater K} (h : HeaterRel k w w') (f : K → Py K) (hour : ℕ) :
    HeaterRel k (w.updateState f hour).1 (w'.updateState f hour).1 ∧
      (w'.updateState f hour).2 = (w.updateState f hour).2 := by
  unfold Heater.updateState
  rw [h.controls, h.active]
  cases w.getControls hour with
  | error e => exact ⟨h, rfl⟩
  | ok x =>
    cases x with
    | none => exact ⟨h, rfl⟩
    | some c =>
      simp only
      cases w.active with
      | true =>
        simp only [if_true]
        cases c.shouldTurnOff f with
        | error e => exact ⟨h, rfl⟩
        | ok b => cases b with
          | true => exact ⟨h.withActive false, rfl⟩
          | false => exact ⟨h, rfl⟩
      | false =>
        simp only [Bool.false_eq_true, if_false]
        cases c.shouldTurnOn f with
        | error e => exact ⟨h, rfl⟩
        | ok b => cases b with
          | true => exact ⟨h.withActive true, rfl⟩
          | false => exact ⟨h, rfl⟩

/-- Two results that agree up to a relation: the same exception, or related values. -/
def PyRel {α β : Type} (R : α → β → Prop) (x : Py α) (y : Py β) : Prop :=
  match x, y with
  | .error e, .error e' => e = e'
  | .ok a, .ok b => R a b
  | _, _ => False

theorem pyRel_mapM {α α' β β' : Type} {R : α → α' → Prop} {Q : β → β' → Prop} {f : α → Py β} {g : α' → Py β'}
    {l : List α} {l' : List α'} (h : List.Forall₂ R l l') (hf : ∀ a a', R a a' → PyRel Q (f a) (g a')) :
    PyRel (List.Forall₂ Q) (l.mapM f) (l'.mapM g) := by
  induction h with
  | nil => exact List.Forall₂.nil
  | cons h1 _ ih =>
    simp only [List.mapM_cons]
    have := hf _ _ h1
    revert this ih
    generalize f _ = x
    generalize g _ = y
    generalize List.mapM f _ = xs
    generalize List.mapM g _ = ys
    intro ih h2
    cases x <;> cases y <;> simp only [PyRel] at h2
    · subst h2; simp only [PyRel, bind, Except.bind]
    · cases xs <;> cases ys <;> simp only [PyRel] at ih
      · subst ih; simp only [PyRel, bind, Except.bind]
      · exact List.Forall₂.cons h2 ih

theorem pyRel_bind {α α' β β' : Type} {R : α → α' → Prop} {Q : β → β' → Prop} {x : Py α} {y : Py α'} {f : α → Py β} {g : α' → Py β'}
    (h : PyRel R x y) (hf : ∀ a a', R a a' → PyRel Q (f a) (g a')) : PyRel Q (x >>= f) (y >>= g) := by
  cases x <;> cases y <;> simp only [PyRel] at h
  · subst h; rfl
  · exact hf _ _ h

theorem pyRel_refl {α : Type} (x : Py α) : PyRel (fun a b => b = a) x x := by cases x <;> simp [PyRel]

theorem pyRel_map {α β : Type} (f : α → β) (x : Py α) : PyRel (fun a b => b = f a) x (x.map f) := by
  cases x <;> simp [PyRel, Except.map]

theorem pyRel_eq {α α' : Type} {f : α → α'} {x : Py α} {y : Py α'} (h : PyRel (fun a b => b = f a) x y) : y = x.map f := by
  cases x <;> cases y <;> simp_all [PyRel, Except.map]

theorem pyRel_forall₂ {α β : Type} {f : α → β} {x : Py (List α)} {y : Py (List β)}
    (h : PyRel (List.Forall₂ (fun a b => b = f a)) x y) : PyRel (fun a b => b = a.map f) x y := by
  cases x <;> cases y <;> simp only [PyRel] at h ⊢
  · exact h
  · induction h with
    | nil => rfl
    | cons h1 _ ih => rw [List.map_cons, ← ih, h1]

theorem updateAll_times {k : K} {ws ws' : List (Heater K)} (h : List.Forall₂ (HeaterRel k) ws ws') (f : K → Py K) (hour : ℕ) :
    PyRel (List.Forall₂ (HeaterRel k)) (updateAll ws f hour) (updateAll ws' f hour) := by
  unfold updateAll
  refine pyRel_mapM h (fun w w' hw => ?_)
  obtain ⟨a, b⟩ := hw.update f hour
  revert a b
  generalize w.updateState f hour = x
  generalize w'.updateState f hour = y
  obtain ⟨x1, x2⟩ := x
  obtain ⟨y1, y2⟩ := y
  rintro a rfl
  cases y2 with
  | error e => rfl
  | ok u => exact a

theorem forall₂_sum {k : K} {l l' : List K} (h : List.Forall₂ (fun a b => b = k * a) l l') : l'.sum = k * l.sum := by
  induction h with
  | nil => simp
  | cons h1 _ ih => simp only [List.sum_cons, h1, ih]; ring

theorem totalOutput_times {k : K} {ws ws' : List (Heater K)} (h : List.Forall₂ (HeaterRel k) ws ws') (oat : K) (hour : ℕ)
    (inlet : Option K) : totalOutput ws' oat hour inlet = (totalOutput ws oat hour inlet).map (k * ·) := by
  apply pyRel_eq
  unfold totalOutput
  refine pyRel_bind (pyRel_mapM (Q := fun a b => b = k * a) h (fun w w' hw => ?_)) (fun a b hab => forall₂_sum hab)
  rw [hw.outletTemp]
  refine pyRel_bind (pyRel_refl _) ?_
  rintro a _ rfl
  rw [hw.output]
  exact pyRel_map _ _

theorem filterActive_times {k : K} {ws ws' : List (Heater K)} (h : List.Forall₂ (HeaterRel k) ws ws') :
    List.Forall₂ (HeaterRel k) (ws.filter (·.active)) (ws'.filter (·.active)) := by
  induction h with
  | nil => exact .nil
  | cons h1 _ ih =>
    simp only [List.filter_cons, h1.active]
    split
    · exact .cons h1 ih
    · exact ih

theorem activeKws_times {k : K} {ws ws' : List (Heater K)} (h : List.Forall₂ (HeaterRel k) ws ws') (oat : K) (hour : ℕ)
    (inlet : Option K) :
    activeKws ws' oat hour inlet = (activeKws ws oat hour inlet).map (List.map (Option.map (k * ·))) := by
  apply pyRel_eq
  unfold activeKws
  refine pyRel_forall₂ (pyRel_mapM (Q := fun (a b : Option K) => b = a.map (k * ·)) (filterActive_times h) (fun w w' hw => ?_))
  rw [hw.outletTemp]
  refine pyRel_bind (pyRel_refl _) ?_
  rintro a _ rfl
  rw [hw.power]
  exact pyRel_map _ _

theorem kws_sum (k : K) (l : List (Option K)) :
    ((l.map (Option.map (k * ·))).map (·.getD 0)).sum = k * (l.map (·.getD 0)).sum := by
  induction l with
  | nil => simp
  | cons a l ih => cases a <;> simp_all [mul_add]

theorem totalKw_times (k : K) (l : List (Option K)) :
    totalKw (l.map (Option.map (k * ·))) = (totalKw l).map (k * ·) := by
  unfold totalKw
  rw [kws_sum]
  have : (l.map (Option.map (k * ·))).any (·.isSome) = l.any (·.isSome) := by
    rw [List.any_map]; congr 1; funext x; cases x <;> rfl
  rw [this]
  split <;> rfl

theorem swingKw_times (k : K) (l : List (Option K)) (t : Option K) :
    swingKw (l.map (Option.map (k * ·))) (t.map (k * ·)) = (swingKw l t).map (k * ·) := by
  unfold swingKw
  simp only [kws_sum, List.map_eq_nil_iff]
  by_cases h : l = []
  · simp only [h, if_true]
    cases t <;> simp
  · simp only [h, if_false]
    simp

theorem forall₂_any {k : K} {ws ws' : List (Heater K)} (h : List.Forall₂ (HeaterRel k) ws ws') :
    ws'.any (·.isLoadShifting) = ws.any (·.isLoadShifting) := by
  induction h with
  | nil => rfl
  | cons h1 _ ih => simp only [List.any_cons, ih, h1.shifting]

theorem outletAt_times {k : K} {ws ws' : List (Heater K)} (h : List.Forall₂ (HeaterRel k) ws ws') (st : K) (hour : ℕ) :
    outletAt ws' st hour = outletAt ws st hour := by
  unfold outletAt
  have : ws'.mapM (fun w => w.getControls hour) = ws.mapM (fun w => w.getControls hour) := by
    induction h with
    | nil => rfl
    | cons h1 _ ih => rw [List.mapM_cons, List.mapM_cons, ih, h1.controls]
  rw [this]

theorem modeAt_times {k : K} {ws ws' : List (Heater K)} (h : List.Forall₂ (HeaterRel k) ws ws') (hour : ℕ) :
    modeAt ws' hour = modeAt ws hour := by
  cases h with
  | nil => rfl
  | cons h1 _ => unfold modeAt; dsimp only; rw [h1.sched]

theorem initialUseable_times {k : K} {ws ws' : List (Heater K)} (h : List.Forall₂ (HeaterRel k) ws ws') :
    initialUseable ws' = initialUseable ws := by
  induction h with
  | nil => rfl
  | cons h1 _ ih => unfold initialUseable; rw [h1.start, ih]

theorem load_times (k : K) (b : Building K) (t i : Nat) (avg : Bool) :
    (times k b).getDhwLoad t i avg = (b.getDhwLoad t i avg).map (k * ·) := by
  unfold Building.getDhwLoad times
  dsimp only
  generalize (if avg = true then b.avgShape else b.peakShape) = l
  split
  · rfl
  · cases pyGet l (t * i / 60 % l.length) with
    | error e => rfl
    | ok f => simp only [Except.map, ok_bind, pure_eq_ok]; congr 1; ring

/-- The same inputs with `k` times the demand. -/
def timesIn (k : K) (i : StepIn K) : StepIn K := { i with demand := k * i.demand }

theorem inputs_times {k : K} {s s' : Prim K} (hst : s'.storage = s.storage) (hw : List.Forall₂ (HeaterRel k) s.heaters s'.heaters)
    (b : Building K) (t int : ℕ) :
    s'.inputs (times k b) t int = (s.inputs b t int).map (timesIn k) := by
  apply pyRel_eq
  unfold Prim.inputs
  rw [forall₂_any hw, load_times, hst]
  refine pyRel_bind (pyRel_map _ _) ?_
  rintro d _ rfl
  refine pyRel_bind (pyRel_refl (b.getOat t int)) ?_
  rintro o _ rfl
  refine pyRel_bind (pyRel_refl (b.getInlet t int)) ?_
  rintro c _ rfl
  dsimp only
  rw [outletAt_times hw, modeAt_times hw]
  refine pyRel_bind (pyRel_refl _) ?_
  rintro x _ rfl
  refine pyRel_bind (pyRel_refl _) ?_
  rintro y _ rfl
  rfl

theorem heatPrimary_times {k : K} (hk : 0 < k) {ws ws' : List (Heater K)} (hw : List.Forall₂ (HeaterRel k) ws ws')
    (t : StratTank K) (i : StepIn K) (int : ℕ) :
    PyRel (fun x y => List.Forall₂ (HeaterRel k) x.1 y.1 ∧ y.2.1 = timesTank k x.2.1 ∧ y.2.2.1 = k * x.2.2.1 ∧
        y.2.2.2 = x.2.2.2.map (Option.map (k * ·)))
      (heatPrimary ws t i int) (heatPrimary ws' (timesTank k t) (timesIn k i) int) := by
  unfold heatPrimary
  rw [tempAtPy_times hk.ne']
  refine pyRel_bind (updateAll_times hw t.tempAtPy i.hour) (fun v v' hv => ?_)
  refine pyRel_bind (pyRel_refl _) (fun _ _ _ => ?_)
  change PyRel _ _ (totalOutput v' i.oat i.hour (some i.inlet) >>= _)
  rw [totalOutput_times hv]
  refine pyRel_bind (pyRel_map _ _) ?_
  rintro q _ rfl
  change PyRel _ _ (activeKws v' i.oat i.hour (some i.inlet) >>= _)
  rw [activeKws_times hv]
  refine pyRel_bind (pyRel_map _ _) ?_
  rintro kws _ rfl
  change PyRel _ _ (if t.slope = 0 then _ else _)
  split
  · rfl
  · exact ⟨hv, heat_times hk t q _ _, rfl, rfl⟩

/-! ### From one step to a run -/

theorem record_times (k : K) (r : SimRun K) (o : StepOut K) :
    (timesRun k r).record (timesOut k o) = (r.record o).map (timesRun k) := by
  apply pyRel_eq
  unfold SimRun.record
  refine pyRel_bind (pyRel_refl (SimRun.pushTemps r.temps o.temps)) ?_
  rintro x _ rfl
  simp only [pure_eq_ok, PyRel, timesRun, timesOut, List.map_append, List.map_cons, List.map_nil]
  cases o.tmOutput <;> cases o.tmInput <;> simp

theorem simRecord_times {k : K} (hk : 0 < k) (ts : ℕ) (supply : K) (r : SimRun K) (o : StepOut K) :
    simRecord ts supply (timesRun k r) (timesOut k o) = (simRecord ts supply r o).map (fun p => (timesRun k p.1, p.2)) := by
  apply pyRel_eq
  unfold simRecord
  rw [record_times]
  refine pyRel_bind (pyRel_map _ _) ?_
  rintro x _ rfl
  have hu : ((timesOut k o).usable ≤ 0) ↔ o.usable ≤ 0 := by
    unfold timesOut; exact times_nonpos hk
  have ht : (timesOut k o).temps = o.temps := rfl
  have hd : (timesOut k o).delivery = o.delivery := rfl
  simp only [hu, ht, hd]
  cases o.temps.getLast? with
  | none => rfl
  | some top =>
    simp only [pure_eq_ok, PyRel]
    unfold SimRun.checkDeficit SimRun.recordOutage timesRun
    split_ifs <;> rfl

/-- Steps that keep two systems `k` times apart give runs that are `k` times apart. -/
theorem simLoop_times {k : K} (hk : 0 < k) {S : Type} {step step' : S → ℕ → Py (S × StepOut K)} (R : S → S → Prop)
    (hstep : ∀ s s' i, R s s' → PyRel (fun x y => R x.1 y.1 ∧ y.2 = timesOut k x.2) (step s i) (step' s' i))
    (ts : ℕ) (supply : K) (n : ℕ) : ∀ (i : ℕ) (s s' : S) (r : SimRun K), R s s' →
      PyRel (fun x y => R x.1 y.1 ∧ y.2 = timesRun k x.2) (simLoop step ts supply n i s r)
        (simLoop step' ts supply n i s' (timesRun k r)) := by
  induction n with
  | zero => intro i s s' r h; exact ⟨h, rfl⟩
  | succ n ih =>
    intro i s s' r h
    unfold simLoop
    refine pyRel_bind (hstep s s' i h) ?_
    rintro ⟨a, o⟩ ⟨a', o'⟩ ⟨h1, h2⟩
    simp only at h1 h2
    subst h2
    dsimp only
    rw [simRecord_times hk]
    refine pyRel_bind (pyRel_map _ _) ?_
    rintro ⟨r1, stop⟩ _ rfl
    cases stop with
    | true => exact ⟨h1, rfl⟩
    | false => exact ih (i + 1) a a' r1 h1

theorem simulateFrom_times {k : K} (hk : 0 < k) {S : Type} {step step' : ℕ → S → ℕ → Py (S × StepOut K)} (R : S → S → Prop)
    (hstep : ∀ ts s s' i, R s s' → PyRel (fun x y => R x.1 y.1 ∧ y.2 = timesOut k x.2) (step ts s i) (step' ts s' i))
    (supply : K) (tm : Bool) (thr : K) (maxMin : Int) (d : String) (s s' : S) (h : R s s') :
    PyRel (fun x y => R x.1 y.1 ∧ y.2 = timesRun k x.2) (simulateFrom step supply tm thr maxMin d s)
      (simulateFrom step' supply tm thr maxMin d s') := by
  unfold simulateFrom
  refine pyRel_bind (pyRel_refl _) ?_
  rintro ⟨dur, ts⟩ _ rfl
  dsimp only
  cases e : (SimRun.new dur ts thr maxMin : Py (SimRun K)) with
  | error e => rfl
  | ok r =>
    have : timesRun k { r with supply := some supply, showTm := tm } = { r with supply := some supply, showTm := tm } := by
      unfold SimRun.new at e
      split at e
      · exact absurd e (by simp)
      · injection e with e; subst e; rfl
    simp only [ok_bind]
    conv => arg 3; rw [← this]
    exact simLoop_times hk R (hstep ts) ts supply _ 0 s s' _ h

/-! ### The swing tank -/

theorem pyRel_run {α α' β : Type} {R : α → α' → Prop} {f : β → β} {x : Py (α × β)} {y : Py (α' × β)}
    (h : PyRel (fun x y => R x.1 y.1 ∧ y.2 = f x.2) x y) : y.map (·.2) = x.map (fun x => f x.2) := by
  cases x <;> cases y <;> simp only [PyRel] at h
  · rw [h]; rfl
  · simp only [Except.map]; rw [h.2]

theorem swingFlow_times (k supply inlet t d : K) :
    swingFlow supply inlet t (k * d) = (swingFlow supply inlet t d).map (k * ·) := by
  unfold swingFlow
  split
  · rw [mul_assoc, fdiv_scale]
  · rfl

theorem recircLoss_times (k supply ret flow : K) :
    recircLossKbtuh supply ret (k * flow) = k * recircLossKbtuh supply ret flow := by
  unfold recircLossKbtuh; ring

theorem swingTm_times {k : K} (hk : 0 < k) {w w' : Heater K} (hw : HeaterRel k w w') (tm : MixedTank K) (oat : K) (hour : ℕ)
    (int : K) :
    PyRel (fun x y => HeaterRel k x.1 y.1 ∧ y.2.1 = k * x.2.1 ∧ y.2.2.1 = x.2.2.1.map (k * ·) ∧ y.2.2.2 = timesMixed k x.2.2.2)
      (swingTm w tm oat hour int) (swingTm w' (timesMixed k tm) oat hour int) := by
  unfold swingTm
  have ht : ∀ f, (timesMixed k tm).tempAt f = tm.tempAt f := fun _ => rfl
  simp only [ht]
  obtain ⟨a, b⟩ := hw.update (fun f => .ok (tm.tempAt f)) hour
  revert a b
  generalize w.updateState (fun f => .ok (tm.tempAt f)) hour = x
  generalize w'.updateState (fun f => .ok (tm.tempAt f)) hour = y
  obtain ⟨x1, x2⟩ := x
  obtain ⟨y1, y2⟩ := y
  rintro a b
  simp only at a b
  subst b
  cases y2 with
  | error e => rfl
  | ok u =>
    simp only
    rw [a.output]
    refine pyRel_bind (pyRel_map _ _) ?_
    rintro q _ rfl
    rw [a.active, a.power]
    have hp : (if x1.active = true then (x1.getPower (some oat) (tm.tempAt 1) none).map (Option.map (k * ·)) else .ok none) =
        (if x1.active = true then x1.getPower (some oat) (tm.tempAt 1) none else .ok none).map (Option.map (k * ·)) := by
      split <;> rfl
    rw [hp]
    refine pyRel_bind (pyRel_map _ _) ?_
    rintro kw _ rfl
    rw [a.outletTemp]
    refine pyRel_bind (pyRel_refl _) ?_
    rintro _ out rfl
    exact ⟨a, rfl, rfl, mixedHeat_times hk tm q int out⟩

theorem swingStep_times {k : K} (hk : 0 < k) (b : Building K) (int : ℕ) (s s' : SwingSim K) (t : ℕ) (h : SwingRel k s s') :
    PyRel (fun x y => SwingRel k x.1 y.1 ∧ y.2 = timesOut k x.2) (swingSimStep b int s t)
      (swingSimStep (times k b) int s' t) := by
  unfold swingSimStep
  rw [inputs_times (s := Prim.mk s.supply s.storage s.heaters (some s.tank)) h.storage h.heaters, h.tank, h.tm, h.supply, h.ret, h.flow]
  refine pyRel_bind (pyRel_map _ _) ?_
  rintro i _ rfl
  refine pyRel_bind (heatPrimary_times hk h.heaters s.tank i int) ?_
  rintro ⟨ws, tank, q, kws⟩ ⟨ws', _, _, _⟩ ⟨hws, h1, h2, h3⟩
  simp only at hws h1 h2 h3
  subst h1 h2 h3
  dsimp only
  have ht : ∀ f, (timesMixed k s.tm).tempAt f = s.tm.tempAt f := fun _ => rfl
  rw [ht, show (timesIn k i).demand = k * i.demand from rfl, show (timesIn k i).inlet = i.inlet from rfl, swingFlow_times]
  refine pyRel_bind (pyRel_map _ _) ?_
  rintro hw _ rfl
  rw [avgDraw_times hk, mix_times hk, recircLoss_times, mixedLoss_times hk]
  by_cases hv : s.tm.vol = 0
  · rw [if_pos hv, if_pos (show (timesMixed k s.tm).vol = 0 by unfold timesMixed; simp [hv])]; rfl
  rw [if_neg hv, if_neg (show ¬ (timesMixed k s.tm).vol = 0 by unfold timesMixed; simp [hv, hk.ne'])]
  refine pyRel_bind (swingTm_times hk h.tmHeater _ i.oat i.hour int) ?_
  rintro ⟨w, tq, tkw, tm⟩ ⟨w', _, _, _⟩ ⟨hw1, h1, h2, h3⟩
  simp only at hw1 h1 h2 h3
  subst h1 h2 h3
  dsimp only
  rw [drawPhysical_times hk]
  refine ⟨⟨rfl, h.storage, hws, rfl, rfl, rfl, rfl, hw1⟩, ?_⟩
  simp only [timesOut, swingKw_times, usable_times hk.ne', Option.map_some, timesIn]
  have hu : (if s.tm.tempAt (1 / 2) < s.supply then 0 else k * (tank.drawPhysical hw i.inlet (some s.supply)).usable s.supply) =
      k * (if s.tm.tempAt (1 / 2) < s.supply then 0 else (tank.drawPhysical hw i.inlet (some s.supply)).usable s.supply) := by
    split <;> simp
  have hn : nodeFracts.map (timesTank k (tank.drawPhysical hw i.inlet (some s.supply))).tempAt =
      nodeFracts.map (tank.drawPhysical hw i.inlet (some s.supply)).tempAt :=
    List.map_congr_left (fun f _ => tempAt_times hk.ne' _ f)
  rw [hu, hn, mul_div_assoc]
  rfl

theorem designInletOr_times (k : K) (b : Building K) : designInletOr (times k b) = designInletOr b := rfl

theorem swingSimulate_times {k : K} (hk : 0 < k) (tmOff : K) {s s' : SwingSim K} (b : Building K) (h : SwingRel k s s') (thr : K)
    (maxMin : Int) (d : String) :
    (swingSimulate tmOff s' (times k b) thr maxMin d).map (·.2) =
      (swingSimulate tmOff s b thr maxMin d).map (fun x => timesRun k x.2) := by
  have key : PyRel (fun x y => SwingRel k x.1 y.1 ∧ y.2 = timesRun k x.2) (swingSimulate tmOff s b thr maxMin d)
      (swingSimulate tmOff s' (times k b) thr maxMin d) := by
    unfold swingSimulate
    refine pyRel_bind (pyRel_refl _) (fun _ _ _ => ?_)
    rw [designInletOr_times]
    refine pyRel_bind (pyRel_refl _) ?_
    rintro cold _ rfl
    dsimp only
    rw [h.supply, h.storage, h.tank, h.tm, initialUseable_times h.heaters, init_times]
    exact simulateFrom_times hk (SwingRel k) (fun ts s s' i hs => swingStep_times hk b ts s s' i hs) _ _ _ _ _ _ _
      ⟨rfl, rfl, h.heaters, rfl, h.ret, h.flow, rfl, h.tmHeater⟩
  exact pyRel_run key

/-- **C131, swing systems.** `k` times the heaters, the tanks and the loop flow, for a building with `k` times the hot water
use: the simulation gives the same run with `k` times the volumes, the heat and the power, or the same exception. -/
theorem C131_swing (k : K) (hk : 0 < k) (tmOff : K) (s s' : SwingSim K) (b : Building K) (h : TimesSwing k s s') (thr : K)
    (maxMin : Int) (d : String) :
    (swingSimulate tmOff s' (times k b) thr maxMin d).map (·.2) =
      (swingSimulate tmOff s b thr maxMin d).map (fun x => timesRun k x.2) :=
  swingSimulate_times hk tmOff b h.rel thr maxMin d

/-! ### More units of the same model -/

theorem fdiv_times {c : K} (hc : c ≠ 0) (x y : K) : fdiv (c * x) (c * y) = fdiv x y := by
  unfold fdiv
  by_cases hy : y = 0
  · rw [if_pos hy, if_pos (by simp [hy])]
  · rw [if_neg hy, if_neg (mul_ne_zero hc hy), mul_div_mul_left _ _ hc]

theorem pklUnits (m : ℕ) (hm : 0 < m) (p : PklMap K) (oat : Option K) (i o : K) :
    ({ p with numUnits := m * p.numUnits, nominal := p.nominal.map ((m : K) * ·) } : PklMap K).perUnit oat i o = p.perUnit oat i o := by
  have hc : (m : K) ≠ 0 := by exact_mod_cast hm.ne'
  have he : ({ p with numUnits := m * p.numUnits, nominal := p.nominal.map ((m : K) * ·) } : PklMap K).erPerUnit = p.erPerUnit := by
    unfold PklMap.erPerUnit
    cases p.nominal with
    | none => rfl
    | some n => simp only [Option.map_some, Nat.cast_mul]; rw [fdiv_times hc]
  unfold PklMap.perUnit
  cases oat with
  | none => rfl
  | some t => simp only [he]; rfl

theorem simUnits (m : ℕ) (hm : 0 < m) (p : SimMap K) (oat : Option K) (i o : K) :
    ({ p with numUnits := m * p.numUnits, nominal := p.nominal.map ((m : K) * ·) } : SimMap K).perUnit oat i o = p.perUnit oat i o := by
  have hc : (m : K) ≠ 0 := by exact_mod_cast hm.ne'
  have he : ({ p with numUnits := m * p.numUnits, nominal := p.nominal.map ((m : K) * ·) } : SimMap K).erPerUnit = p.erPerUnit := by
    unfold SimMap.erPerUnit
    cases p.nominal with
    | none => rfl
    | some n => simp only [Option.map_some, Nat.cast_mul]; rw [fdiv_times hc]
  unfold SimMap.perUnit
  cases oat with
  | none => rfl
  | some t => simp only [he]; rfl

/-- **C131, units.** `m` times as many identical units are a heater with `m` times the capacity and the power, under all
conditions. -/
theorem C131_units (m : ℕ) (hm : 0 < m) (w : Heater K) : TimesHeater (m : K) w { w with perf := w.perf.map (moreUnits m) } := by
  refine ⟨rfl, rfl, rfl, ?_, ?_⟩
  · intro oat out inl
    unfold Heater.getCapacity
    cases w.perf with
    | none => rfl
    | some p =>
      cases p with
      | nominal c => rfl
      | pkl p =>
        simp only [Option.map_some, moreUnits, PerfMap.getCapacity, PklMap.getCapacity, PklMap.resolveTemps, pklUnits m hm]
        cases p.perUnit oat _ _ with
        | error e => rfl
        | ok r => simp only [ok_bind, pure_eq_ok, Except.map, Option.map_some, Nat.cast_mul]; congr 2; ring
      | sim p =>
        simp only [Option.map_some, moreUnits, PerfMap.getCapacity, SimMap.getCapacity, simUnits m hm]
        cases p.perUnit oat _ _ with
        | error e => rfl
        | ok r => simp only [ok_bind, pure_eq_ok, Except.map, Option.map_some, Nat.cast_mul]; congr 2; ring
  · intro oat out inl
    unfold Heater.getPower
    cases w.perf with
    | none => rfl
    | some p =>
      cases p with
      | nominal c => rfl
      | pkl p =>
        simp only [Option.map_some, moreUnits, PerfMap.getPower, PklMap.getPower, PklMap.resolveTemps, pklUnits m hm]
        cases p.perUnit oat _ _ with
        | error e => rfl
        | ok r => simp only [ok_bind, pure_eq_ok, Except.map, Option.map_some, Nat.cast_mul]; congr 2; ring
      | sim p =>
        simp only [Option.map_some, moreUnits, PerfMap.getPower, SimMap.getPower, simUnits m hm]
        cases p.perUnit oat _ _ with
        | error e => rfl
        | ok r => simp only [ok_bind, pure_eq_ok, Except.map, Option.map_some, Nat.cast_mul]; congr 2; ring

/-! ### Primary systems -/

/-- After a draw that leaves the top of the tank at outlet temperature, the draw was served at outlet temperature. -/
theorem hotDraw_of_top (t : StratTank K) (hv : 0 < t.vol) (hs : 0 < t.slope) {x cold su T : K} (hT : su < T)
    (h : T ≤ (t.draw x cold su T).tempAt 1) : HotDraw t x cold su T := by
  by_cases hc : T ≤ cold
  · exact .inl hc
  by_cases hx : x ≤ 0
  · exact .inr (.inl hx)
  refine .inr (.inr ?_)
  push Not at hc hx
  set p := x * (su - cold) / (T - cold) with hp
  set t1 : StratTank K := { t with inlet := cold, outlet := T } with ht1
  have hT0 : 0 < T - cold := by linarith
  by_cases hsu : su ≤ cold
  · have hp0 : p ≤ 0 := div_nonpos_of_nonpos_of_nonneg (mul_nonpos_of_nonneg_of_nonpos hx.le (by linarith)) hT0.le
    have : t1.avgDraw p = T := by
      unfold StratTank.avgDraw
      rw [if_pos ((min_le_left _ _).trans hp0)]
    rw [this]; linarith
  push Not at hsu
  have hp0 : 0 < p := div_pos (mul_pos hx (by linarith)) hT0
  obtain ⟨d1, d2, d3, d4⟩ := draw_fields t x cold su T
  rw [StratTank.top_iff _ (by rw [d1]; exact hv) (by rw [d2]; exact hs) (by rw [d3]; exact hc) (by rw [d4])] at h
  have hdraw : t.draw x cold su T = { t1 with delta := max (t1.delta - t1.drawVol x cold su T) (t1.deltaFloor (some su)) } := by
    unfold StratTank.draw
    simp only
    rw [if_neg (by rw [not_or, not_le, not_le]; exact ⟨hc, hx⟩)]
  rw [hdraw] at h
  have hvs : 0 < t.vol / (100 * t.slope) := by positivity
  have hfl : t1.deltaFloor (some su) = (su - t.inter) / t.slope * t.vol / 100 - t.vol := by
    unfold StratTank.deltaFloor; simp only [Option.getD_some, ht1]; ring
  have hraw : ∀ d, ({ t1 with delta := d } : StratTank K).rawUsable T = t.vol - (T - t.inter) / t.slope * t.vol / 100 + d := fun d => rfl
  rw [hraw, hfl] at h
  have hgap : (su - t.inter) / t.slope * t.vol / 100 < (T - t.inter) / t.slope * t.vol / 100 := by
    have : (T - t.inter) / t.slope * t.vol / 100 - (su - t.inter) / t.slope * t.vol / 100 = (T - su) * (t.vol / (100 * t.slope)) := by
      field_simp; ring
    have := mul_pos (sub_pos.2 hT) hvs
    linarith
  rcases le_total (t1.delta - t1.drawVol x cold su T) ((su - t.inter) / t.slope * t.vol / 100 - t.vol) with hm | hm
  · rw [max_eq_right hm] at h; linarith
  rw [max_eq_left hm] at h
  by_contra hcold
  have hdv : min p t1.vol ≤ t1.drawVol x cold su T := by
    unfold StratTank.drawVol
    simp only
    rw [← hp, if_neg hcold]
    have := search_ge t1 x cold su (min p t1.vol) 52 p t1.vol (min_le_left _ _) (min_le_right _ _)
    exact le_min (by linarith [this.1, this.2]) (min_le_right _ _)
  have := StratTank.avgDraw_hot t1 hv hs hc.le hp0 (by
    have : t1.rawUsable t1.outlet = t.vol - (T - t.inter) / t.slope * t.vol / 100 + t1.delta := rfl
    rw [this]; linarith)
  exact hcold (by rw [this]; show T - _ ≤ T; linarith)

theorem trace_det {S : Type} {step : S → ℕ → Py (S × StepOut K)} : ∀ (a b : List (StepOut K)) (s x y : S) (i : ℕ),
    Trace step s i a x → Trace step s i b y → a.length = b.length → a = b := by
  intro a
  induction a with
  | nil => intro b s x y i _ _ h; cases b with
    | nil => rfl
    | cons => simp at h
  | cons o os ih =>
    intro b s x y i h1 h2 h
    cases b with
    | nil => simp at h
    | cons o' os' =>
      obtain ⟨s1, e1, t1⟩ := h1
      obtain ⟨s2, e2, t2⟩ := h2
      rw [e1] at e2
      simp only [Except.ok.injEq, Prod.mk.injEq] at e2
      obtain ⟨rfl, rfl⟩ := e2
      rw [ih os' s1 x y (i + 1) t1 t2 (by simpa using h)]

theorem simRecord_usable {ts : ℕ} {supply : K} {r r1 : SimRun K} {o : StepOut K} {stop : Bool}
    (h : simRecord ts supply r o = .ok (r1, stop)) : r1.usable = r.usable ++ [o.usable] := by
  unfold simRecord at h
  rw [bind_eq_ok] at h
  obtain ⟨r2, h2, h⟩ := h
  have e : r2.usable = r.usable ++ [o.usable] := by
    unfold SimRun.record at h2
    simp only [bind_eq_ok, pure_eq_ok, Except.ok.injEq] at h2
    obtain ⟨_, _, rfl⟩ := h2
    rfl
  rw [← e]
  dsimp only at h
  split at h
  · simp at h
  · simp only [pure_eq_ok, Except.ok.injEq] at h
    have : r1 = (SimRun.checkDeficit (if o.usable ≤ 0 then r2.recordOutage ts else r2) (o.delivery.getD ‹K›) supply).1 := by rw [h]
    rw [this]
    unfold SimRun.checkDeficit SimRun.recordOutage
    split_ifs <;> rfl

theorem simLoop_trace {S : Type} (step : S → ℕ → Py (S × StepOut K)) (ts : ℕ) (supply : K) (n : ℕ) :
    ∀ (i : ℕ) (s sf : S) (r rf : SimRun K), simLoop step ts supply n i s r = .ok (sf, rf) →
      ∃ outs, Trace step s i outs sf ∧ rf.usable.length = r.usable.length + outs.length := by
  induction n with
  | zero =>
    intro i s sf r rf h
    unfold simLoop at h
    simp only [Except.ok.injEq, Prod.mk.injEq] at h
    obtain ⟨rfl, rfl⟩ := h
    exact ⟨[], rfl, by simp⟩
  | succ n ih =>
    intro i s sf r rf h
    unfold simLoop at h
    simp only [bind_eq_ok] at h
    obtain ⟨⟨s1, o⟩, h1, ⟨r1, stop⟩, h2, h⟩ := h
    have hu := simRecord_usable h2
    cases stop with
    | true =>
      simp only [if_true, pure_eq_ok, Except.ok.injEq, Prod.mk.injEq] at h
      obtain ⟨rfl, rfl⟩ := h
      exact ⟨[o], ⟨s1, h1, rfl⟩, by rw [hu]; simp⟩
    | false =>
      simp only [Bool.false_eq_true, if_false] at h
      obtain ⟨outs, t1, t2⟩ := ih (i + 1) s1 sf r1 rf h
      exact ⟨o :: outs, ⟨s1, h1, t1⟩, by rw [t2, hu]; simp; omega⟩

/-- A run whose reports are all good, and its scaled twin. -/
theorem simLoop_times_good {k : K} (hk : 0 < k) {S : Type} {step step' : S → ℕ → Py (S × StepOut K)} (R : S → S → Prop)
    (Good : ℕ → StepOut K → Prop)
    (hstep : ∀ s s' i s1 o, R s s' → step s i = .ok (s1, o) → Good i o → ∃ s1', step' s' i = .ok (s1', timesOut k o) ∧ R s1 s1')
    (ts : ℕ) (supply : K) (n : ℕ) : ∀ (i : ℕ) (s s' sf : S) (r rf : SimRun K), R s s' →
      simLoop step ts supply n i s r = .ok (sf, rf) →
      ∃ outs, Trace step s i outs sf ∧ rf.usable.length = r.usable.length + outs.length ∧
        ((∀ j o, outs[j]? = some o → Good (i + j) o) →
          ∃ sf', simLoop step' ts supply n i s' (timesRun k r) = .ok (sf', timesRun k rf)) := by
  induction n with
  | zero =>
    intro i s s' sf r rf _ h
    unfold simLoop at h
    simp only [Except.ok.injEq, Prod.mk.injEq] at h
    obtain ⟨rfl, rfl⟩ := h
    exact ⟨[], rfl, by simp, fun _ => ⟨s', rfl⟩⟩
  | succ n ih =>
    intro i s s' sf r rf hR h
    unfold simLoop at h
    simp only [bind_eq_ok] at h
    obtain ⟨⟨s1, o⟩, h1, ⟨r1, stop⟩, h2, h⟩ := h
    have hu := simRecord_usable h2
    have hrec : simRecord ts supply (timesRun k r) (timesOut k o) = .ok (timesRun k r1, stop) := by
      rw [simRecord_times hk, h2]; rfl
    cases stop with
    | true =>
      simp only [if_true, pure_eq_ok, Except.ok.injEq, Prod.mk.injEq] at h
      obtain ⟨rfl, rfl⟩ := h
      refine ⟨[o], ⟨s1, h1, rfl⟩, by rw [hu]; simp, ?_⟩
      intro hg
      obtain ⟨s1', e1, _⟩ := hstep s s' i s1 o hR h1 (hg 0 o rfl)
      refine ⟨s1', ?_⟩
      unfold simLoop
      simp only [e1, ok_bind, hrec]
      rfl
    | false =>
      simp only [Bool.false_eq_true, if_false] at h
      by_cases hgo : Good i o
      · obtain ⟨s1', e1, hR1⟩ := hstep s s' i s1 o hR h1 hgo
        obtain ⟨outs, t1, t2, t3⟩ := ih (i + 1) s1 s1' sf r1 rf hR1 h
        refine ⟨o :: outs, ⟨s1, h1, t1⟩, by rw [t2, hu]; simp; omega, ?_⟩
        intro hg
        obtain ⟨sf', e2⟩ := t3 (fun j x hx => by
          have := hg (j + 1) x (by simpa using hx)
          rwa [show i + (j + 1) = i + 1 + j by omega] at this)
        refine ⟨sf', ?_⟩
        unfold simLoop
        simp only [e1, ok_bind, hrec]
        exact e2
      · have := simLoop_trace step ts supply n (i + 1) s1 sf r1 rf h
        obtain ⟨outs, t1, t2⟩ := this
        exact ⟨o :: outs, ⟨s1, h1, t1⟩, by rw [t2, hu]; simp; omega, fun hg => absurd (hg 0 o rfl) hgo⟩

theorem simulateFrom_times_good {k : K} (hk : 0 < k) {S : Type} {step step' : ℕ → S → ℕ → Py (S × StepOut K)} (R : S → S → Prop)
    (hot : ℕ → K → Prop)
    (hsix : ∀ ts s i s1 o, step ts s i = .ok (s1, o) → o.temps.length = 6)
    (hstep : ∀ ts s s' i s1 o, R s s' → step ts s i = .ok (s1, o) → hot (hourOf i ts) (o.temps.getD 5 0) →
      ∃ s1', step' ts s' i = .ok (s1', timesOut k o) ∧ R s1 s1')
    (supply : K) (tm : Bool) (thr : K) (maxMin : Int) (d : String) (s s' sf : S) (r : SimRun K) (h : R s s')
    (hrun : simulateFrom step supply tm thr maxMin d s = .ok (sf, r))
    (hgood : ∀ i < r.usable.length, hot (hourOf i r.ts) (nodeTemp r 5 i)) :
    ∃ sf', simulateFrom step' supply tm thr maxMin d s' = .ok (sf', timesRun k r) := by
  obtain ⟨dur, ts, outs, h1, h2, h3, h4, h5, _⟩ := simulate_spec step supply tm thr maxMin d s sf r hrun
  have hlen : r.usable.length = outs.length := by rw [h5.usable, List.length_map]
  have six : ∀ o ∈ outs, o.temps.length = 6 := by
    intro o ho
    obtain ⟨j, hj⟩ := List.mem_iff_getElem?.1 ho
    obtain ⟨_, good⟩ := trace_forall (fun _ => True) (fun _ o => o.temps.length = 6)
      (fun s i s1 o _ hst => ⟨trivial, hsix ts s i s1 o hst⟩) outs s sf 0 trivial h4
    exact good j o hj
  unfold simulateFrom at hrun ⊢
  simp only [h1, ok_bind] at hrun ⊢
  cases e : (SimRun.new dur ts thr maxMin : Py (SimRun K)) with
  | error e => rw [e] at hrun; exact absurd hrun (by simp [bind, Except.bind])
  | ok r0 =>
    rw [e] at hrun
    simp only [ok_bind] at hrun ⊢
    have h0 : timesRun k { r0 with supply := some supply, showTm := tm } = { r0 with supply := some supply, showTm := tm } ∧
        r0.usable = [] := by
      unfold SimRun.new at e
      split at e
      · exact absurd e (by simp)
      · injection e with e; subst e; exact ⟨rfl, rfl⟩
    obtain ⟨outs', t1, t2, t3⟩ := simLoop_times_good hk R (fun i o => hot (hourOf i ts) (o.temps.getD 5 0)) (hstep ts) ts supply
      (dur / ts) 0 s s' sf _ r h hrun
    have : outs' = outs := by
      refine trace_det outs' outs s sf sf 0 t1 h4 ?_
      simp only [h0.2, List.length_nil, Nat.zero_add] at t2
      omega
    subst this
    rw [h0.1] at t3
    refine t3 ?_
    intro j o ho
    have hj := (List.getElem?_eq_some_iff.1 ho).1
    have := hgood j (by omega)
    rw [h3] at this
    unfold nodeTemp at this
    rw [h5.temps six 5 (by omega), List.getD_eq_getElem?_getD, List.getElem?_map, ho] at this
    rw [Nat.zero_add]
    exact this

/-- The relation kept by a primary run and its scaled twin. -/
def PrimPair (k : K) (s0 s s' : Prim K) : Prop :=
  PrimRel k s s' ∧ s.supply = s0.supply ∧ s.storage = s0.storage ∧ List.Forall₂ SameHeater s0.heaters s.heaters ∧
  ∃ t, s.tank = some t ∧ 0 < t.vol ∧ 0 < t.slope

theorem primStep_times {k : K} (hk : 0 < k) {s0 : Prim K} (hsu : ∀ hour x, IsOutlet s0.heaters s0.storage hour x → s0.supply < x)
    (b : Building K) (ts : ℕ) (s s' : Prim K) (i : ℕ) (s1 : Prim K) (o : StepOut K) (hp : PrimPair k s0 s s')
    (h : Prim.step b ts s i = .ok (s1, o))
    (hg : ∀ x, IsOutlet s0.heaters s0.storage (hourOf i ts) x → x ≤ o.temps.getD 5 0) :
    ∃ s1', Prim.step (times k b) ts s' i = .ok (s1', timesOut k o) ∧ PrimPair k s0 s1 s1' := by
  obtain ⟨hT, e1, e2, e3, t, ht, hv, hs⟩ := hp
  have ht' : s'.tank = some (timesTank k t) := by rw [hT.tank, ht]; rfl
  unfold Prim.step at h
  rw [ht] at h
  simp only [bind_eq_ok] at h
  obtain ⟨inp, hi, ⟨ws, tank, q, kws⟩, hh, h⟩ := h
  simp only [pure_eq_ok, Except.ok.injEq, Prod.mk.injEq] at h
  obtain ⟨rfl, rfl⟩ := h
  obtain ⟨i1, i2, i3, i4, i5, i6⟩ := inputs_ok hi
  have hout : IsOutlet s0.heaters s0.storage (hourOf i ts) inp.outlet := by
    rw [← i4, ← e2]; exact isOutlet_congr e3 _ _ _ i5
  have htop := hg _ hout
  have hhp := heatPrimary_times hk hT.heaters t inp ts
  rw [hh] at hhp
  obtain ⟨k1, _, _, _, _, rfl⟩ := heatPrimary_ok hh
  obtain ⟨f1, f2, f3, f4⟩ := heat_fields t q ts inp.outlet
  set tank := t.heat q ts inp.outlet with htank
  have hd : HotDraw tank inp.demand inp.inlet s.supply inp.outlet := by
    refine hotDraw_of_top tank (by rw [f1]; exact hv) (by rw [f2]; exact hs) (by rw [e1]; exact hsu _ _ hout) ?_
    simpa [nodeFracts] using htop
  cases e : heatPrimary s'.heaters (timesTank k t) (timesIn k inp) ts with
  | error e' => rw [e] at hhp; exact hhp.elim
  | ok y =>
    obtain ⟨ws', tank', q', kws'⟩ := y
    rw [e] at hhp
    obtain ⟨a1, a2, a3, a4⟩ := hhp
    simp only at a1 a2 a3 a4
    subst a2 a3 a4
    obtain ⟨d1, d2, d3, d4⟩ := draw_fields tank inp.demand inp.inlet s.supply inp.outlet
    refine ⟨{ s' with heaters := ws', tank := some (timesTank k (tank.draw inp.demand inp.inlet s.supply inp.outlet)) }, ?_,
      ⟨hT.supply, hT.storage, a1, rfl⟩, e1, e2, forall₂_trans e3 (updateAll_same k1), _, rfl, by rw [d1, f1]; exact hv,
      by rw [d2, f2]; exact hs⟩
    unfold Prim.step
    rw [inputs_times hT.storage hT.heaters, hi, ht']
    simp only [Except.map, ok_bind, e, pure_eq_ok]
    have hdr : (timesTank k tank).draw (timesIn k inp).demand (timesIn k inp).inlet s'.supply (timesIn k inp).outlet =
        timesTank k (tank.draw inp.demand inp.inlet s.supply inp.outlet) := by
      rw [hT.supply]; exact draw_times hk tank _ _ _ _ hd
    rw [hdr, hT.supply, usable_times hk.ne', totalKw_times]
    have hn : nodeFracts.map (timesTank k (tank.draw inp.demand inp.inlet s.supply inp.outlet)).tempAt =
        nodeFracts.map (tank.draw inp.demand inp.inlet s.supply inp.outlet).tempAt :=
      List.map_congr_left (fun f _ => tempAt_times hk.ne' _ f)
    rw [hn]
    rfl

theorem primInit_times {k : K} {s s' s1 : Prim K} {b : Building K} (h : PrimRel k s s') (hi : s.init b = .ok s1) :
    ∃ s1', s'.init (times k b) = .ok s1' ∧ PrimRel k s1 s1' := by
  unfold Prim.init at hi ⊢
  rw [designInletOr_times]
  simp only [bind_eq_ok, pure_eq_ok, Except.ok.injEq] at hi
  obtain ⟨c, h1, rfl⟩ := hi
  simp only [h1, ok_bind, pure_eq_ok]
  refine ⟨_, rfl, h.supply, h.storage, h.heaters, ?_⟩
  simp only [h.tank, h.storage, initialUseable_times h.heaters, Option.map_map]
  congr 1
  funext t
  exact init_times t _ _ _

theorem primStep_six {s s1 : Prim K} {b : Building K} {ts i : ℕ} {o : StepOut K} (h : Prim.step b ts s i = .ok (s1, o)) :
    o.temps.length = 6 := by
  unfold Prim.step at h
  simp only [bind_eq_ok] at h
  obtain ⟨inp, hi, h⟩ := h
  split at h
  · simp only [pure_eq_ok, Except.ok.injEq, Prod.mk.injEq] at h
    obtain ⟨rfl, rfl⟩ := h; rfl
  · simp only [bind_eq_ok] at h
    obtain ⟨⟨ws, tank, q, kws⟩, hh, h⟩ := h
    simp only [pure_eq_ok, Except.ok.injEq, Prod.mk.injEq] at h
    obtain ⟨rfl, rfl⟩ := h; rfl

/-- **C131, primary systems, partial.** `k` times the heaters and the tank, for a building with `k` times the hot water use:
a run in which the top of the tank is always at the outlet temperature of the hour comes out `k` times as large. Missing: runs
with a cooler top, for which it is false (`C131_primary_not_exact`). -/
theorem C131_primary_partial (k : K) (hk : 0 < k) (s s' sf : Prim K) (b : Building K) (h : TimesPrim k s s') (tank : StratTank K)
    (ht : s.tank = some tank) (hv : 0 < tank.vol) (hs : 0 < tank.slope)
    (hsu : ∀ hour x, IsOutlet s.heaters s.storage hour x → s.supply < x) (thr : K) (maxMin : Int) (d : String) (r : SimRun K)
    (hrun : s.simulate b thr maxMin d = .ok (sf, r))
    (hhot : ∀ i < r.usable.length, ∀ x, IsOutlet s.heaters s.storage (hourOf i r.ts) x → nodeTemp r 5 i = x) :
    ∃ sf', s'.simulate (times k b) thr maxMin d = .ok (sf', timesRun k r) := by
  unfold Prim.simulate at hrun ⊢
  simp only [bind_eq_ok] at hrun
  obtain ⟨x, hx, s1, hi, hrun⟩ := hrun
  obtain ⟨s1', hi', hT⟩ := primInit_times h.rel hi
  obtain ⟨p1, p2, p3, t, p4, p5, p6⟩ := primInit_inv ht hi
  simp only [hx, hi', ok_bind, hT.supply]
  exact simulateFrom_times_good hk (PrimPair k s) (fun hour y => ∀ x, IsOutlet s.heaters s.storage hour x → x ≤ y)
    (fun _ _ _ _ _ hst => primStep_six hst)
    (fun ts a a' i a1 o hR hst hg => primStep_times hk hsu b ts a a' i a1 o hR hst hg) s1.supply false thr maxMin d s1 s1' sf r
    ⟨hT, p1, p2, p3, t, p4, by rw [p5]; exact hv, by rw [p6]; exact hs⟩ hrun (fun i hi x hx => (hhot i hi x hx).ge)

theorem tmStep_times {k : K} (hk : 0 < k) {w w' : Heater K} (hw : HeaterRel k w w') (c : TmCfg K) (oat : Option K) (hour : ℕ)
    (dur : K) (t : MixedTank K) {t1 : MixedTank K} {w1 : Heater K} {o : TmOut K}
    (h : tmStep c oat hour dur (t, w) = ((t1, w1), .ok o)) :
    ∃ w1', tmStep (timesTm k c) oat hour dur (timesMixed k t, w') =
        ((timesMixed k t1, w1'), .ok ⟨o.temp, k * o.kbtuh, o.kw.map (k * ·)⟩) ∧ HeaterRel k w1 w1' := by
  unfold tmStep at h ⊢
  dsimp only at h ⊢
  by_cases hv : t.vol = 0
  · rw [if_pos hv] at h; simp at h
  rw [if_neg hv] at h
  rw [if_neg (show ¬ (timesMixed k t).vol = 0 by unfold timesMixed; simp [hv, hk.ne'])]
  have hr : (timesMixed k t).recirc (timesTm k c).flow (timesTm k c).ret dur = timesMixed k (t.recirc c.flow c.ret dur) :=
    mixedRecirc_times hk t _ _ _
  rw [hr]
  generalize t.recirc c.flow c.ret dur = t2 at h ⊢
  have htt : ∀ f, (timesMixed k t2).tempAt f = t2.tempAt f := fun _ => rfl
  simp only [htt]
  obtain ⟨a, b⟩ := hw.update (fun f => .ok (t2.tempAt f)) hour
  revert a b h
  generalize w.updateState (fun f => .ok (t2.tempAt f)) hour = x
  generalize w'.updateState (fun f => .ok (t2.tempAt f)) hour = y
  obtain ⟨x1, x2⟩ := x
  obtain ⟨y1, y2⟩ := y
  rintro h a b
  simp only at a b
  subst b
  cases y2 with
  | error e => simp at h
  | ok u =>
    simp only at h ⊢
    rw [a.output, a.active, a.power]
    simp only [show (timesTm k c).off = c.off from rfl, show (timesTm k c).on = c.on from rfl, show (timesTm k c).num = c.num from rfl]
    cases e1 : x1.getOutput oat (t2.tempAt 1) (some ((c.off + c.on) / 2)) with
    | error e => rw [e1] at h; simp at h
    | ok q =>
      rw [e1] at h
      rw [show Except.map (fun x => k * x) (.ok q : Py K) = .ok (k * q) from rfl]
      simp only at h ⊢
      have hp : (if x1.active = true then (x1.getPower oat (t2.tempAt 1) (some ((c.off + c.on) / 2))).map (Option.map (k * ·)) else .ok none) =
          (if x1.active = true then x1.getPower oat (t2.tempAt 1) (some ((c.off + c.on) / 2)) else .ok none).map (Option.map (k * ·)) := by
        split <;> rfl
      cases e2 : (if x1.active = true then x1.getPower oat (t2.tempAt 1) (some ((c.off + c.on) / 2)) else .ok none) with
      | error e => rw [e2] at h; simp at h
      | ok kw =>
        rw [e2] at h hp
        simp only [Prod.mk.injEq, Except.ok.injEq] at h
        obtain ⟨⟨rfl, rfl⟩, rfl⟩ := h
        refine ⟨y1, ?_, a⟩
        rw [hp]
        have hh := mixedHeat_times hk t2 (q * (c.num : K)) dur c.off
        rw [← mul_assoc] at hh
        simp only [Except.map, hh, htt]
        cases kw with
        | none => simp [timesMixed, MixedTank.tempAt, mul_assoc]
        | some z => simp [timesMixed, MixedTank.tempAt, mul_assoc]

/-- **C131, parallel-loop systems, partial.** The same with `k` times the loop flow, the loop tank and its heater. -/
theorem C131_parallel_partial (k : K) (hk : 0 < k) (c : TmCfg K) (s s' sf : ParSim K) (b : Building K) (h : TimesParSim k s s')
    (tank : StratTank K) (ht : s.prim.tank = some tank) (hv : 0 < tank.vol) (hs : 0 < tank.slope)
    (hsu : ∀ hour x, IsOutlet s.prim.heaters s.prim.storage hour x → s.prim.supply < x) (thr : K) (maxMin : Int) (d : String)
    (r : SimRun K) (hrun : parSimulate c s b thr maxMin d = .ok (sf, r))
    (hhot : ∀ i < r.usable.length, ∀ x, IsOutlet s.prim.heaters s.prim.storage (hourOf i r.ts) x → nodeTemp r 5 i = x) :
    ∃ sf', parSimulate (timesTm k c) s' (times k b) thr maxMin d = .ok (sf', timesRun k r) := by
  unfold parSimulate at hrun ⊢
  simp only [bind_eq_ok] at hrun
  obtain ⟨x, hx, s1, hi, cold, hc, hrun⟩ := hrun
  obtain ⟨s1', hi', hT⟩ := primInit_times h.prim.rel hi
  obtain ⟨p1, p2, p3, t, p4, p5, p6⟩ := primInit_inv ht hi
  simp only [hx, hi', designInletOr_times, hc, ok_bind, hT.supply, h.tmTank]
  refine simulateFrom_times_good hk
    (fun a a' : ParSim K => PrimPair k s.prim a.prim a'.prim ∧ a'.tmTank = timesMixed k a.tmTank ∧ HeaterRel k a.tmHeater a'.tmHeater)
    (fun hour y => ∀ x, IsOutlet s.prim.heaters s.prim.storage hour x → x ≤ y) ?_ ?_ s1.supply false thr maxMin d
    { s with prim := s1, tmTank := s.tmTank.init c.off cold } _ sf r
    ⟨⟨hT, p1, p2, p3, t, p4, by rw [p5]; exact hv, by rw [p6]; exact hs⟩, rfl, h.tmHeater.rel⟩ hrun (fun i hi x hx => (hhot i hi x hx).ge)
  · intro ts a i a1 o hst
    unfold parStep at hst
    simp only [bind_eq_ok] at hst
    obtain ⟨⟨p, o1⟩, e1, hst⟩ := hst
    have := primStep_six e1
    dsimp only at hst
    split at hst
    · simp at hst
    · simp only [pure_eq_ok, Except.ok.injEq, Prod.mk.injEq] at hst
      rw [← hst.2]; exact this
  · rintro ts a a' i a1 o ⟨hp, hmt, hmh⟩ hst hg
    unfold parStep at hst
    simp only [bind_eq_ok] at hst
    obtain ⟨⟨p, o1⟩, e1, hst⟩ := hst
    dsimp only at hst
    cases e2 : tmStep c (some o1.oat) (i * ts / 60 % 24) (ts : K) (a.tmTank, a.tmHeater) with
    | mk st res =>
      obtain ⟨t1, w1⟩ := st
      rw [e2] at hst
      cases res with
      | error e => simp at hst
      | ok tmo =>
        simp only [pure_eq_ok, Except.ok.injEq, Prod.mk.injEq] at hst
        obtain ⟨rfl, rfl⟩ := hst
        obtain ⟨p', e3, hp'⟩ := primStep_times hk hsu b ts a.prim a'.prim i p o1 hp e1 hg
        obtain ⟨w1', e4, hw1⟩ := tmStep_times hk hmh c _ _ _ _ e2
        refine ⟨⟨p', timesMixed k t1, w1'⟩, ?_, hp', rfl, hw1⟩
        unfold parStep
        rw [e3]
        simp only [ok_bind]
        rw [hmt, show (timesOut k o1).oat = o1.oat from rfl, e4]
        rfl

/-! ### Cases -/

theorem times_nominal (k cap : K) (sched : Option (List String)) (cmap : Option (ControlMap K)) :
    TimesHeater k (Heater.fromNominal cap sched cmap) (Heater.fromNominal (k * cap) sched cmap) :=
  ⟨rfl, rfl, rfl, fun _ _ _ => rfl, fun _ _ _ => rfl⟩

theorem times_plain (k q : K) (c : Controls K) (a : Bool) : TimesHeater k (plainHeater q c a) (plainHeater (k * q) c a) :=
  ⟨rfl, rfl, rfl, fun _ _ _ => rfl, fun _ _ _ => rfl⟩

theorem step_top {s s1 : Prim K} {b : Building K} {ts i : ℕ} {o : StepOut K} {t : StratTank K}
    (h : Prim.step b ts s i = .ok (s1, o)) (ht : s1.tank = some t) : o.temps.getD 5 0 = t.tempAt 1 := by
  unfold Prim.step at h
  simp only [bind_eq_ok] at h
  obtain ⟨inp, hi, h⟩ := h
  split at h
  · rename_i hn
    simp only [pure_eq_ok, Except.ok.injEq, Prod.mk.injEq] at h
    obtain ⟨rfl, rfl⟩ := h
    rw [hn] at ht; simp at ht
  · simp only [bind_eq_ok] at h
    obtain ⟨⟨ws, tank, q, kws⟩, hh, h⟩ := h
    simp only [pure_eq_ok, Except.ok.injEq, Prod.mk.injEq] at h
    obtain ⟨rfl, rfl⟩ := h
    simp only [Option.some.injEq] at ht
    subst ht
    simp [nodeFracts]

namespace Demo

/-- 100 gallons and a heater of one gallon in a minute, for a building that draws one gallon of it in every minute. -/
def evenPlant : Prim ℚ := plainSys 120 150 (1 * 6 * rhoCp ℚ) usual false (StratTank.new 100 (28 / 10))

def evenRates : List ℚ := List.replicate 24 1

/-- Three times the plant. -/
def evenPlant3 : Prim ℚ := plainSys 120 150 (3 * (1 * 6 * rhoCp ℚ)) usual false (StratTank.new 300 (28 / 10))

theorem evenPlant3_times : TimesPrim 3 evenPlant evenPlant3 := by
  refine ⟨rfl, rfl, .cons (times_plain _ _ _ _) .nil, ?_⟩
  simp only [evenPlant, evenPlant3, plainSys, Option.map_some, timesTank, StratTank.new]
  norm_num

theorem usual_outlet (q : ℚ) (a : Bool) (hour : ℕ) (x : ℚ) (h : IsOutlet [plainHeater q usual a] 150 hour x) : x = 150 := by
  rcases h with h | h
  · obtain ⟨w, hw, c, ⟨sched, cmap, mode, h1, h2, h3, h4⟩, rfl⟩ := h.1
    simp only [List.mem_singleton] at hw
    subst hw
    simp only [plainHeater, Option.some.injEq] at h1 h2
    subst h1 h2
    have : mode = "normal" := by
      rw [List.getElem?_replicate] at h3
      split at h3
      · simpa using h3.symm
      · simp at h3
    subst this
    obtain rfl : usual = c := by simpa [dictGet?] using h4
    rfl
  · exact h.2

theorem even_one (t : ℕ) : evenRates.getD (t / 60 % 24) 0 = 1 := by
  have : t / 60 % 24 < 24 := Nat.mod_lt _ (by norm_num)
  unfold evenRates
  rw [List.getD_eq_getElem?_getD, List.getElem?_replicate, if_pos this]; rfl

theorem even_step {i : ℕ} {a : Bool} {s1 : Prim ℚ} {o : StepOut ℚ}
    (hst : Prim.step (hourly evenRates 24 1) 1 (sysAt 100 1 a 0) i = .ok (s1, o)) :
    s1 = sysAt 100 1 true 0 ∧ o.temps.length = 6 ∧ o.temps.getD 5 0 = 150 ∧ 0 < o.demand := by
  have hb := hourly_asks evenRates 24 1 (by norm_num) rfl i
  rw [even_one, mul_one] at hb
  have hg : goes 100 a 0 = true := by cases a <;> norm_num [goes]
  obtain ⟨e1, _, _⟩ := level_step _ i 100 1 0 1 a s1 o hb (by norm_num) (by norm_num) (by norm_num) (by norm_num)
    (by rw [hg]; norm_num) hst
  rw [hg] at e1
  norm_num at e1
  refine ⟨e1, primStep_six hst, ?_, ?_⟩
  · rw [step_top hst (by rw [e1]; rfl)]
    norm_num [StratTank.tempAt, level, StratTank.shift]
  · unfold Prim.step at hst
    rw [bind_eq_ok] at hst
    obtain ⟨inp, hin, hst⟩ := hst
    have hd : o.demand = inp.demand := by
      have ht : (sysAt 100 1 a 0).tank = some (level 100 0) := rfl
      simp only [ht, bind_eq_ok] at hst
      obtain ⟨⟨ws, tank, q, kws⟩, hh, hst⟩ := hst
      simp only [pure_eq_ok, Except.ok.injEq, Prod.mk.injEq] at hst
      rw [← hst.2]
    obtain ⟨i1, _⟩ := inputs_ok hin
    rw [hourly_load evenRates 24 1 (by norm_num) rfl, even_one] at i1
    rw [hd, ← Except.ok.inj i1]; norm_num

theorem even_run {S : Type} {step : ℕ → S → ℕ → Py (S × StepOut ℚ)} (P : S → Prop)
    (hP : ∀ s i s1 o, P s → step 1 s i = .ok (s1, o) → P s1 ∧ o.temps.length = 6 ∧ o.temps.getD 5 0 = 150 ∧ 0 < o.demand)
    {supply : ℚ} {tm : Bool} {thr : ℚ} {maxMin : Int} {s sf : S} {r : SimRun ℚ} (h0 : P s)
    (h : simulateFrom step supply tm thr maxMin "3day" s = .ok (sf, r)) :
    0 < r.usable.length ∧ ∀ i < r.usable.length, nodeTemp r 5 i = 150 ∧ 0 < r.demand.getD i 0 := by
  obtain ⟨dur, ts, outs, h1, h2, h3, h4, h5, _, _, _, h6⟩ := simulate_spec _ _ _ thr maxMin "3day" _ sf r h
  obtain ⟨rfl, rfl⟩ : 4320 = dur ∧ 1 = ts := by simpa [simDuration] using h1
  have hlen : r.usable.length = outs.length := by rw [h5.usable, List.length_map]
  have key := trace_forall P (fun _ o => o.temps.length = 6 ∧ o.temps.getD 5 0 = 150 ∧ 0 < o.demand) hP outs _ sf 0 h0 h4
  have six : ∀ o ∈ outs, o.temps.length = 6 := fun o ho => by
    obtain ⟨j, hj⟩ := List.mem_iff_getElem?.1 ho
    exact (key.2 j o hj).1
  refine ⟨?_, ?_⟩
  · rw [hlen]
    rcases h6 with h6 | h6
    · rw [h6.2.1]; norm_num
    · exact h6.2.1
  · intro i hi
    rw [hlen] at hi
    have ho : outs[i]? = some outs[i] := List.getElem?_eq_getElem hi
    obtain ⟨_, k2, k3⟩ := key.2 i _ ho
    constructor
    · unfold nodeTemp
      rw [h5.temps six 5 (by omega), List.getD_eq_getElem?_getD, List.getElem?_map, ho]
      exact k2
    · rw [h5.demand, List.getD_eq_getElem?_getD, List.getElem?_map, ho]
      exact k3

theorem evenPlant_hot (thr : ℚ) (maxMin : Int) : ∃ sf r, evenPlant.simulate (hourly evenRates 24 1) thr maxMin "3day" = .ok (sf, r) ∧
    0 < r.usable.length ∧ ∀ i < r.usable.length, nodeTemp r 5 i = 150 ∧ 0 < r.demand.getD i 0 := by
  obtain ⟨sf, r, h⟩ := given_runs evenRates 24 1 100 1 rfl (by norm_num) thr maxMin
  refine ⟨sf, r, h, ?_⟩
  have hi := given_init evenRates 24 1 100 1
  unfold Prim.simulate at h
  simp only [hi, ok_bind, bind_eq_ok] at h
  obtain ⟨x, hx, h⟩ := h
  exact even_run (fun s => ∃ a, s = sysAt 100 1 a 0) (fun s i s1 o ⟨a, hs⟩ hst => by
    subst hs
    obtain ⟨e1, e2⟩ := even_step hst
    exact ⟨⟨true, e1⟩, e2⟩) ⟨false, rfl⟩ h

/-- The same plant with a loop tank of 50 gallons. -/
def evenPar : ParSim ℚ := ⟨evenPlant, ⟨50, 0, 0⟩, plainHeater 20 ⟨1 / 2, 120, 1 / 2, 128, 128⟩ false⟩

def evenPar3 : ParSim ℚ := ⟨evenPlant3, ⟨150, 0, 0⟩, plainHeater 60 ⟨1 / 2, 120, 1 / 2, 128, 128⟩ false⟩

def evenTm : TmCfg ℚ := ⟨110, 5, 120, 128, 1 / 2, 7 / 4, 1⟩

theorem evenPar3_times : TimesParSim 3 evenPar evenPar3 := by
  refine ⟨evenPlant3_times, ?_, ?_⟩
  · simp only [evenPar, evenPar3, timesMixed]; norm_num
  · have := times_plain (3 : ℚ) 20 ⟨1 / 2, 120, 1 / 2, 128, 128⟩ false
    rwa [show (3 : ℚ) * 20 = 60 by norm_num] at this

theorem evenPlant_ready : (∀ w ∈ evenPlant.heaters, Ready w) ∧ ∀ t, evenPlant.tank = some t → t.vol ≠ 0 ∧ t.slope ≠ 0 := by
  refine ⟨fun w hw => ?_, fun t ht => ?_⟩
  · obtain rfl : w = plainHeater (1 * 6 * rhoCp ℚ) usual false := by simpa [evenPlant, plainSys] using hw
    exact plain_ready _ _ _
  · obtain rfl : StratTank.new 100 (28 / 10) = t := by simpa [evenPlant, plainSys] using ht
    exact ⟨by decide +kernel, by decide +kernel⟩

theorem evenPar_hot (thr : ℚ) (maxMin : Int) : ∃ sf r, parSimulate evenTm evenPar (hourly evenRates 24 1) thr maxMin "3day" = .ok (sf, r) ∧
    0 < r.usable.length ∧ ∀ i < r.usable.length, nodeTemp r 5 i = 150 ∧ 0 < r.demand.getD i 0 := by
  obtain ⟨sf, r, h⟩ := C91_completes_parallel_loop evenTm evenPar (hourly evenRates 24 1) thr maxMin "3day" (.inl rfl)
    (hourly_answers evenRates 24 1 rfl) evenPlant_ready.1 evenPlant_ready.2 (plain_ready _ _ _) (by decide +kernel)
  refine ⟨sf, r, h, ?_⟩
  have hi : evenPar.prim.init (hourly evenRates 24 1) = .ok (sysAt 100 1 false 0) := given_init evenRates 24 1 100 1
  unfold parSimulate at h
  simp only [hi, ok_bind, bind_eq_ok] at h
  obtain ⟨x, hx, c, hc, h⟩ := h
  refine even_run (fun s => ∃ a, s.prim = sysAt 100 1 a 0) ?_ ⟨false, rfl⟩ h
  rintro s i s1 o ⟨a, hs⟩ hst
  unfold parStep at hst
  simp only [bind_eq_ok] at hst
  obtain ⟨⟨p, o1⟩, e1, hst⟩ := hst
  rw [hs] at e1
  obtain ⟨f1, f2⟩ := even_step e1
  dsimp only at hst
  split at hst
  · simp at hst
  · simp only [pure_eq_ok, Except.ok.injEq, Prod.mk.injEq] at hst
    rw [← hst.1, ← hst.2]
    exact ⟨⟨true, f1⟩, f2⟩

/-- The same plant with a swing tank of 80 gallons. -/
def evenSwing (k : ℚ) : SwingSim ℚ :=
  ⟨120, 150, [plainHeater (k * (6 * rhoCp ℚ)) usual false], StratTank.new (k * 100) (28 / 10), 110, k * 2, ⟨k * 80, 0, 0⟩,
    plainHeater (k * 20) ⟨1 / 2, 120, 1 / 2, 128, 128⟩ false⟩

theorem evenSwing_times (k : ℚ) : TimesSwing k (evenSwing 1) (evenSwing k) := by
  refine ⟨rfl, rfl, .cons ?_ .nil, ?_, rfl, ?_, ?_, ?_⟩
  · have := times_plain k (1 * (6 * rhoCp ℚ)) usual false
    rwa [show k * (1 * (6 * rhoCp ℚ)) = k * (6 * rhoCp ℚ) by ring] at this
  · simp only [evenSwing, timesTank, StratTank.new]; norm_num
  · simp [evenSwing]
  · simp [evenSwing, timesMixed]
  · have := times_plain k (1 * 20) ⟨1 / 2, 120, 1 / 2, 128, 128⟩ false
    rwa [show k * (1 * 20) = k * 20 by ring] at this

end Demo

/-- The plant of 100 gallons meets the hypotheses of `C131_primary_partial`: three times the plant goes through the same three
days with three times the volumes. -/
example (thr : ℚ) (maxMin : Int) : ∃ sf sf' r, Demo.evenPlant.simulate (Demo.hourly Demo.evenRates 24 1) thr maxMin "3day" = .ok (sf, r) ∧
    Demo.evenPlant3.simulate (times 3 (Demo.hourly Demo.evenRates 24 1)) thr maxMin "3day" = .ok (sf', timesRun 3 r) := by
  obtain ⟨sf, r, h, _, hh⟩ := Demo.evenPlant_hot thr maxMin
  obtain ⟨sf', h'⟩ := C131_primary_partial 3 (by norm_num) Demo.evenPlant Demo.evenPlant3 sf (Demo.hourly Demo.evenRates 24 1)
    Demo.evenPlant3_times (StratTank.new 100 (28 / 10)) rfl (by decide +kernel) (by decide +kernel)
    (fun hour x hx => by rw [Demo.usual_outlet _ _ hour x hx]; show (120 : ℚ) < 150; norm_num) thr maxMin "3day" r h
    (fun i hi x hx => by rw [Demo.usual_outlet _ _ _ x hx]; exact (hh i hi).1)
  exact ⟨sf, sf', r, h, h'⟩

/-- The same for the parallel loop. -/
example (thr : ℚ) (maxMin : Int) : ∃ sf sf' r,
    parSimulate Demo.evenTm Demo.evenPar (Demo.hourly Demo.evenRates 24 1) thr maxMin "3day" = .ok (sf, r) ∧
    parSimulate (timesTm 3 Demo.evenTm) Demo.evenPar3 (times 3 (Demo.hourly Demo.evenRates 24 1)) thr maxMin "3day" =
      .ok (sf', timesRun 3 r) := by
  obtain ⟨sf, r, h, _, hh⟩ := Demo.evenPar_hot thr maxMin
  obtain ⟨sf', h'⟩ := C131_parallel_partial 3 (by norm_num) Demo.evenTm Demo.evenPar Demo.evenPar3 sf
    (Demo.hourly Demo.evenRates 24 1) Demo.evenPar3_times (StratTank.new 100 (28 / 10)) rfl (by decide +kernel) (by decide +kernel)
    (fun hour x hx => by rw [Demo.usual_outlet _ _ hour x hx]; show (120 : ℚ) < 150; norm_num) thr maxMin "3day" r h
    (fun i hi x hx => by rw [Demo.usual_outlet _ _ _ x hx]; exact (hh i hi).1)
  exact ⟨sf, sf', r, h, h'⟩

/-- A swing system and its scaled twin, which finish their runs. -/
example (k thr : ℚ) (maxMin : Int) : TimesSwing k (Demo.evenSwing 1) (Demo.evenSwing k) ∧
    ∃ sf r, swingSimulate 128 (Demo.evenSwing 1) Demo.building thr maxMin "3day" = .ok (sf, r) := by
  refine ⟨Demo.evenSwing_times k, C91_completes_swing 128 (Demo.evenSwing 1) Demo.building thr maxMin "3day" (.inl rfl) Demo.answers
    ?_ (by decide +kernel) (plain_ready _ _ _) (by decide +kernel) ?_⟩
  · intro w hw
    obtain rfl : w = plainHeater (1 * (6 * rhoCp ℚ)) Demo.usual false := by simpa [Demo.evenSwing] using hw
    exact plain_ready _ _ _
  · intro i ts x hx
    obtain rfl : (50 : ℚ) = x := by
      have : Demo.building.getInlet i ts = .ok 50 := rfl
      rw [this] at hx; exact Except.ok.inj hx
    decide +kernel

namespace Demo

/-- A tank that starts 30 % full, with a top below the outlet temperature. -/
def coolMap : ControlMap ℚ := [("normal", ⟨7 / 10, 110, 6 / 10, 120, 150⟩)]

def coolPlant (k : ℚ) : Prim ℚ := Prim.ofSized cfg (k * 10) (k * 100) (28 / 10) (some allNormal) (some coolMap)

theorem coolPlant_times (k : ℚ) : TimesPrim k (coolPlant 1) (coolPlant k) := by
  refine ⟨rfl, rfl, .cons ?_ .nil, ?_⟩
  · have := times_nominal k 10 (some allNormal) (some coolMap)
    rwa [show (10 : ℚ) = 1 * 10 by norm_num, show k * (1 * 10) = k * 10 by ring] at this
  · simp only [coolPlant, Prim.ofSized, Option.map_some, timesTank, StratTank.new]
    norm_num

theorem coolPlant_runs (k : ℚ) (hk : 0 < k) (thr : ℚ) (maxMin : Int) :
    ∃ sf r, (coolPlant k).simulate (times k building) thr maxMin "3day" = .ok (sf, r) := by
  refine C91_completes_partial _ _ thr maxMin "3day" (.inl rfl) ?_ ?_ ?_
  · refine ⟨answers.oat, answers.inlet, fun i ts avg => ?_, answers.design⟩
    obtain ⟨x, hx⟩ := answers.demand i ts avg
    exact ⟨k * x, by rw [load_times, hx]; rfl⟩
  · intro w hw
    obtain rfl : w = Heater.fromNominal (k * 10) (some allNormal) (some coolMap) := by
      simpa [coolPlant, Prim.ofSized] using hw
    refine ready_of (cap := k * 10) rfl ?_
    intro hour hh
    refine ⟨⟨7 / 10, 110, 6 / 10, 120, 150⟩, allNormal, coolMap, "normal", rfl, rfl, ?_, by decide +kernel⟩
    unfold allNormal; rw [List.getElem?_replicate, if_pos hh]
  · intro t ht
    obtain rfl : StratTank.new (k * 100) (28 / 10) = t := by simpa [coolPlant, Prim.ofSized] using ht
    exact ⟨by simp only [StratTank.new]; positivity, by show (28 : ℚ) / 10 ≠ 0; norm_num⟩

/-- The usable volume after the first minute. -/
def firstUsable (k : ℚ) : Option ℚ :=
  match (coolPlant k).init (times k building) with
  | .error _ => none
  | .ok s => match Prim.step (times k building) 1 s 0 with
    | .error _ => none
    | .ok (_, o) => some o.usable

theorem firstUsable_of {k thr : ℚ} {maxMin : Int} {sf : Prim ℚ} {r : SimRun ℚ}
    (h : (coolPlant k).simulate (times k building) thr maxMin "3day" = .ok (sf, r)) : firstUsable k = r.usable.head? := by
  unfold Prim.simulate at h
  simp only [bind_eq_ok] at h
  obtain ⟨x, hx, s1, hi, h⟩ := h
  obtain ⟨dur, ts, outs, h1, h2, h3, h4, h5, _, _, _, h6⟩ := simulate_spec _ _ _ thr maxMin "3day" s1 sf r h
  obtain ⟨rfl, rfl⟩ : 4320 = dur ∧ 1 = ts := by simpa [simDuration] using h1
  unfold firstUsable
  rw [hi, h5.usable]
  cases outs with
  | nil => simp at h6
  | cons o os =>
    obtain ⟨s2, e, _⟩ := h4
    simp only [e, List.map_cons, List.head?_cons]

end Demo

/-- **C131 refuted for cool tops.** The search for the drawn volume stops at a fixed width of a millionth of a gallon, so a
twice as large plant does not go through exactly the same run: this one already differs after the first minute. -/
theorem C131_primary_not_exact : ∃ (s s' : Prim ℚ) (b : Building ℚ), TimesPrim 2 s s' ∧ ∀ (thr : ℚ) (maxMin : Int),
    ∃ sf r sf' r', s.simulate b thr maxMin "3day" = .ok (sf, r) ∧ s'.simulate (times 2 b) thr maxMin "3day" = .ok (sf', r') ∧
      r'.usable.head? ≠ (timesRun 2 r).usable.head? := by
  refine ⟨Demo.coolPlant 1, Demo.coolPlant 2, times 1 Demo.building, Demo.coolPlant_times 2, fun thr maxMin => ?_⟩
  obtain ⟨sf, r, h⟩ := Demo.coolPlant_runs 1 one_pos thr maxMin
  obtain ⟨sf', r', h'⟩ := Demo.coolPlant_runs 2 two_pos thr maxMin
  have e : times 2 (times 1 Demo.building) = times 2 Demo.building := by simp [times]
  refine ⟨sf, r, sf', r', h, by rw [e]; exact h', ?_⟩
  rw [← Demo.firstUsable_of h', timesRun, List.head?_map, ← Demo.firstUsable_of h]
  decide +kernel

end Eco
