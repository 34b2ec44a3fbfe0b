import Verif.Spec.Order
import Verif.Props.Unused
import Verif.Props.MultiPassSim
import Mathlib.Data.List.Perm.Basic

/-! C137: the order in which the heaters of a system are listed. -/

set_option linter.unusedSectionVars false

namespace Eco
open Spec
variable {K : Type} [Field K] [LinearOrder K] [IsStrictOrderedRing K]

/-- If the first computation succeeds, so does the second, with a related value. -/
def OkRel {α β : Type} (R : α → β → Prop) (x : Py α) (y : Py β) : Prop := ∀ a, x = .ok a → ∃ b, y = .ok b ∧ R a b

theorem okRel_bind {α β γ δ : Type} {R : α → β → Prop} {Q : γ → δ → Prop} {x : Py α} {y : Py β} {f : α → Py γ} {g : β → Py δ}
    (h : OkRel R x y) (hf : ∀ a b, R a b → OkRel Q (f a) (g b)) : OkRel Q (x >>= f) (y >>= g) := by
  intro c hc
  rw [bind_eq_ok] at hc
  obtain ⟨a, h1, h2⟩ := hc
  obtain ⟨b, h3, h4⟩ := h a h1
  obtain ⟨e, h5, h6⟩ := hf a b h4 c h2
  exact ⟨e, by rw [h3, ok_bind, h5], h6⟩

theorem okRel_refl {α : Type} (x : Py α) : OkRel (fun a b => a = b) x x := fun a h => ⟨a, h, rfl⟩

theorem okRel_ok {α β : Type} {R : α → β → Prop} {a : α} {b : β} (h : R a b) : OkRel R (.ok a) (.ok b) := by
  intro c hc
  obtain rfl : a = c := by simpa using hc
  exact ⟨b, rfl, h⟩

theorem okRel_error {α β : Type} {R : α → β → Prop} {e : PyErr} {y : Py β} : OkRel R (.error e : Py α) y := by
  intro c hc; simp at hc

theorem okRel_mapM {α β : Type} (f : α → Py β) {l l' : List α} (h : l.Perm l') :
    OkRel List.Perm (l.mapM f) (l'.mapM f) := by
  intro r hr
  obtain ⟨r', h1, h2⟩ := List.perm_comp_forall₂ h.symm (mapM_eq_ok.mp hr)
  exact ⟨r', mapM_eq_ok.mpr h1, h2.symm⟩

theorem max?_perm {l l' : List K} (h : l.Perm l') : l.max? = l'.max? := by
  cases e : l.max? with
  | none =>
    rw [List.max?_eq_none_iff] at e
    subst e
    rw [h.symm.eq_nil]; rfl
  | some a =>
    obtain ⟨h1, h2⟩ := (List.max?_eq_some_iff).mp e
    symm
    rw [List.max?_eq_some_iff]
    exact ⟨h.mem_iff.mp h1, fun b hb => h2 b (h.mem_iff.mpr hb)⟩

theorem any_perm {α : Type} {l l' : List α} (p : α → Bool) (h : l.Perm l') : l.any p = l'.any p := by
  rw [Bool.eq_iff_iff]; simp only [List.any_eq_true, h.mem_iff]

/-! ### Heaters -/

theorem order_outlet {ws ws' : List (Heater K)} (h : ws.Perm ws') (storage : K) (hour : ℕ) :
    OkRel (fun a b => a = b) (outletAt ws storage hour) (outletAt ws' storage hour) := by
  unfold outletAt
  refine okRel_bind (okRel_mapM _ h) ?_
  intro cs cs' hcs
  exact okRel_ok (by rw [max?_perm ((hcs.filterMap id).map _)])

theorem order_output {ws ws' : List (Heater K)} (h : ws.Perm ws') (oat : K) (hour : ℕ) (inlet : Option K) :
    OkRel (fun a b => a = b) (totalOutput ws oat hour inlet) (totalOutput ws' oat hour inlet) := by
  unfold totalOutput
  refine okRel_bind (okRel_mapM _ h) ?_
  intro vs vs' hvs
  exact okRel_ok hvs.sum_eq

theorem order_kws {ws ws' : List (Heater K)} (h : ws.Perm ws') (oat : K) (hour : ℕ) (inlet : Option K) :
    OkRel List.Perm (activeKws ws oat hour inlet) (activeKws ws' oat hour inlet) :=
  okRel_mapM _ (h.filter _)

theorem order_totalKw {l l' : List (Option K)} (h : l.Perm l') : totalKw l = totalKw l' := by
  unfold totalKw
  rw [any_perm _ h, (h.map _).sum_eq]

theorem order_swingKw {l l' : List (Option K)} (h : l.Perm l') (tm : Option K) : swingKw l tm = swingKw l' tm := by
  unfold swingKw
  have : l = [] ↔ l' = [] := ⟨fun e => by rw [e] at h; exact h.symm.eq_nil, fun e => by rw [e] at h; exact h.eq_nil⟩
  simp only [this, (h.map (fun x : Option K => x.getD 0)).sum_eq]

theorem order_update {ws ws' : List (Heater K)} (h : ws.Perm ws') (tempAt : K → Py K) (hour : ℕ) :
    OkRel List.Perm (updateAll ws tempAt hour) (updateAll ws' tempAt hour) := okRel_mapM _ h

/-- The decisions keep what makes the heaters alike. -/
theorem alike_update {ws ws' : List (Heater K)} (h : Alike ws) {tempAt : K → Py K} {hour : ℕ}
    (hu : updateAll ws tempAt hour = .ok ws') : Alike ws' := by
  have key : ∀ w' ∈ ws', ∃ w ∈ ws, w'.sched = w.sched ∧ w'.cmap = w.cmap := by
    intro w' hw'
    have hF := mapM_eq_ok.mp hu
    obtain ⟨w, hw, e⟩ : ∃ w ∈ ws, (match w.updateState tempAt hour with
        | (_, .error e) => .error e
        | (w', .ok ()) => .ok w' : Py (Heater K)) = .ok w' := by
      clear hu
      induction hF with
      | nil => simp at hw'
      | cons h1 h2 ih =>
        rename_i a b as bs
        rcases List.mem_cons.mp hw' with rfl | hm
        · exact ⟨a, List.mem_cons_self, h1⟩
        · obtain ⟨w, hw, e⟩ := ih ⟨⟨h.sched.choose, fun w hw => h.sched.choose_spec w (List.mem_cons_of_mem _ hw)⟩,
            ⟨h.sensor.choose, fun w hw => h.sensor.choose_spec w (List.mem_cons_of_mem _ hw)⟩⟩ hm
          exact ⟨w, List.mem_cons_of_mem _ hw, e⟩
    have hfix := updateState_fixed w ⟨tempAt, hour⟩
    refine ⟨w, hw, ?_⟩
    generalize w.updateState tempAt hour = x at e hfix
    obtain ⟨x1, x2⟩ := x
    cases x2 with
    | error _ => simp at e
    | ok _ =>
      obtain rfl : x1 = w' := by simpa using e
      exact ⟨hfix.1, hfix.2.1⟩
  obtain ⟨sc, h1⟩ := h.sched
  obtain ⟨f, h2⟩ := h.sensor
  refine ⟨⟨sc, ?_⟩, f, ?_⟩
  · intro w' hw'
    obtain ⟨w, hw, e1, e2⟩ := key w' hw'
    rw [e1, h1 w hw]
  · intro w' hw'
    obtain ⟨w, hw, e1, e2⟩ := key w' hw'
    obtain ⟨m, c, g⟩ := h2 w hw
    exact ⟨m, c, by rw [e2]; exact g⟩

theorem order_mode {ws ws' : List (Heater K)} (h : ws.Perm ws') (ha : Alike ws) (hour : ℕ) :
    modeAt ws hour = modeAt ws' hour := by
  obtain ⟨sc, hs⟩ := ha.sched
  cases ws with
  | nil => rw [h.symm.eq_nil]
  | cons w ws =>
    cases ws' with
    | nil => exact absurd h.eq_nil (by simp)
    | cons w' ws' =>
      unfold modeAt
      dsimp only
      rw [hs w List.mem_cons_self, hs w' (h.mem_iff.mpr List.mem_cons_self)]

theorem order_initial {ws ws' : List (Heater K)} (h : ws.Perm ws') (ha : Alike ws) :
    initialUseable ws = initialUseable ws' := by
  obtain ⟨f, hf⟩ := ha.sensor
  have key : ∀ l : List (Heater K), (∀ w ∈ l, w ∈ ws) → l ≠ [] → initialUseable l = max 0 (min 1 (1 - f)) := by
    intro l hl hne
    cases l with
    | nil => exact absurd rfl hne
    | cons w l =>
      obtain ⟨m, c, e1, e2, e3⟩ := hf w (hl w List.mem_cons_self)
      have e4 : dictGet? m "normal" = some c := e2
      unfold initialUseable
      simp only [e1, Option.bind_some, normalOrFirst, e4, e3]
  by_cases hn : ws = []
  · subst hn; rw [h.symm.eq_nil]
  · rw [key ws (fun _ h => h) hn, key ws' (fun w hw => h.mem_iff.mpr hw) (fun e => by rw [e] at h; exact hn h.eq_nil)]

theorem order_heat {ws ws' : List (Heater K)} (h : ws.Perm ws') (ha : Alike ws) (tank : StratTank K) (i : StepIn K) (int : ℕ) :
    OkRel (fun x y => x.1.Perm y.1 ∧ Alike x.1 ∧ x.2.1 = y.2.1 ∧ x.2.2.1 = y.2.2.1 ∧ x.2.2.2.Perm y.2.2.2)
      (heatPrimary ws tank i int) (heatPrimary ws' tank i int) := by
  unfold heatPrimary
  intro out ho
  rw [bind_eq_ok] at ho
  obtain ⟨vs, h1, ho⟩ := ho
  obtain ⟨vs', h2, h3⟩ := order_update h tank.tempAtPy i.hour vs h1
  rw [h2, ok_bind]
  have ha' := alike_update ha h1
  revert out
  show OkRel _ _ _
  refine okRel_bind (okRel_refl _) (fun _ _ _ => ?_)
  refine okRel_bind (order_output h3 _ _ _) ?_
  rintro q _ rfl
  refine okRel_bind (order_kws h3 _ _ _) ?_
  intro k k' hk
  split
  · exact okRel_error
  · exact okRel_ok ⟨h3, ha', rfl, rfl, hk⟩

theorem order_inputs {ws ws' : List (Heater K)} (h : ws.Perm ws') (ha : Alike ws) (supply storage : K) (tank tank' : Option (StratTank K))
    (b : Building K) (t int : ℕ) :
    OkRel (fun x y => x = y) ((Prim.mk supply storage ws tank).inputs b t int) ((Prim.mk supply storage ws' tank').inputs b t int) := by
  unfold Prim.inputs
  dsimp only
  rw [any_perm _ h, order_mode h ha]
  refine okRel_bind (okRel_refl _) ?_
  rintro d _ rfl
  refine okRel_bind (okRel_refl _) ?_
  rintro o _ rfl
  refine okRel_bind (okRel_refl _) ?_
  rintro x _ rfl
  refine okRel_bind (order_outlet h _ _) ?_
  rintro y _ rfl
  refine okRel_bind (okRel_refl _) ?_
  rintro m _ rfl
  exact okRel_ok rfl

/-! ### Steps -/

/-- Reordered and alike. -/
def OrderPrim (s s' : Prim K) : Prop := ReorderPrim s s' ∧ Alike s.heaters

theorem order_step (b : Building K) (int : ℕ) (s s' : Prim K) (t : ℕ) (h : OrderPrim s s') :
    OkRel (fun x y => OrderPrim x.1 y.1 ∧ x.2 = y.2) (Prim.step b int s t) (Prim.step b int s' t) := by
  obtain ⟨⟨ws, hp, rfl⟩, ha⟩ := h
  obtain ⟨supply, storage, hs, tank⟩ := s
  unfold Prim.step
  refine okRel_bind (order_inputs hp ha _ _ _ _ _ _ _) ?_
  rintro i _ rfl
  cases tank with
  | none => exact okRel_ok ⟨⟨⟨ws, hp, rfl⟩, ha⟩, rfl⟩
  | some tank =>
    refine okRel_bind (order_heat hp ha tank i int) ?_
    rintro ⟨x1, x2, x3, x4⟩ ⟨y1, y2, y3, y4⟩ ⟨g1, g2, g3, g4, g5⟩
    dsimp only at g1 g2 g3 g4 g5
    subst g3 g4
    exact okRel_ok ⟨⟨⟨y1, g1, rfl⟩, g2⟩, by dsimp only; rw [order_totalKw g5]⟩

theorem order_spStep (l : RtpLoop K) (b : Building K) (int : ℕ) (s s' : Prim K) (t : ℕ) (h : OrderPrim s s') :
    OkRel (fun x y => OrderPrim x.1 y.1 ∧ x.2 = y.2) (spStep l b int s t) (spStep l b int s' t) := by
  unfold spStep
  refine okRel_bind (order_step b int s s' t h) ?_
  rintro ⟨x, o⟩ ⟨y, o'⟩ ⟨⟨⟨ws, g1, g2⟩, g3⟩, rfl⟩
  dsimp only at g1 g2 g3 ⊢
  subst g2
  dsimp only
  cases e : x.tank with
  | none => exact okRel_ok ⟨⟨⟨ws, g1, by dsimp only; rw [e]⟩, g3⟩, rfl⟩
  | some tank => exact okRel_ok ⟨⟨⟨ws, g1, rfl⟩, g3⟩, rfl⟩

/-- Reordered and alike. -/
def OrderPar (s s' : ParSim K) : Prop := ReorderPar s s' ∧ Alike s.prim.heaters

theorem order_parStep (c : TmCfg K) (b : Building K) (int : ℕ) (s s' : ParSim K) (t : ℕ) (h : OrderPar s s') :
    OkRel (fun x y => OrderPar x.1 y.1 ∧ x.2 = y.2) (parStep c b int s t) (parStep c b int s' t) := by
  obtain ⟨⟨p, hp, rfl⟩, ha⟩ := h
  unfold parStep
  refine okRel_bind (order_step b int s.prim p t ⟨hp, ha⟩) ?_
  rintro ⟨x, o⟩ ⟨y, o'⟩ ⟨g1, g2⟩
  dsimp only at g1 g2 ⊢
  subst g2
  generalize tmStep c (some o.oat) ((t * int / 60) % 24) (int : K) (s.tmTank, s.tmHeater) = q
  obtain ⟨⟨q1, q2⟩, q3⟩ := q
  cases q3 with
  | error e => exact okRel_error
  | ok tm => exact okRel_ok ⟨⟨⟨y, g1.1, rfl⟩, g1.2⟩, rfl⟩

/-- Reordered and alike. -/
def OrderSwing (s s' : SwingSim K) : Prop := ReorderSwing s s' ∧ Alike s.heaters

theorem order_swingStep (b : Building K) (int : ℕ) (s s' : SwingSim K) (t : ℕ) (h : OrderSwing s s') :
    OkRel (fun x y => OrderSwing x.1 y.1 ∧ x.2 = y.2) (swingSimStep b int s t) (swingSimStep b int s' t) := by
  obtain ⟨⟨ws, hp, rfl⟩, ha⟩ := h
  unfold swingSimStep
  dsimp only
  refine okRel_bind (order_inputs hp ha _ _ _ _ _ _ _) ?_
  rintro i _ rfl
  refine okRel_bind (order_heat hp ha s.tank i int) ?_
  rintro ⟨x1, x2, x3, x4⟩ ⟨y1, y2, y3, y4⟩ ⟨g1, g2, g3, g4, g5⟩
  dsimp only at g1 g2 g3 g4 g5 ⊢
  subst g3 g4
  refine okRel_bind (okRel_refl _) ?_
  rintro hw _ rfl
  split
  · exact okRel_error
  · refine okRel_bind (okRel_refl _) ?_
    rintro ⟨w, q, k, tm⟩ _ rfl
    exact okRel_ok ⟨⟨⟨y1, g1, rfl⟩, g2⟩, by dsimp only; rw [order_swingKw g5]⟩

/-- Reordered and alike. -/
def OrderMp (s s' : MpSim K) : Prop := ReorderMp s s' ∧ Alike s.heaters

theorem order_mpOutput {ws ws' : List (Heater K)} (h : ws.Perm ws') (oat : K) (hour : ℕ) :
    OkRel (fun a b => a = b) (mpOutput ws oat hour) (mpOutput ws' oat hour) := by
  unfold mpOutput
  refine okRel_bind (order_output h _ _ _) ?_
  rintro q _ rfl
  refine okRel_bind (order_kws h _ _ _) ?_
  intro k k' hk
  exact okRel_ok (by rw [order_totalKw hk])

theorem order_mpStep (b : Building K) (int : ℕ) (s s' : MpSim K) (t : ℕ) (h : OrderMp s s') :
    OkRel (fun x y => OrderMp x.1 y.1 ∧ x.2 = y.2) (mpStep b int s t) (mpStep b int s' t) := by
  obtain ⟨⟨ws, hp, rfl⟩, ha⟩ := h
  unfold mpStep
  dsimp only
  rw [order_mode hp ha, any_perm _ hp]
  refine okRel_bind (okRel_refl _) ?_
  rintro d _ rfl
  refine okRel_bind (okRel_refl _) ?_
  rintro o _ rfl
  refine okRel_bind (okRel_refl _) ?_
  rintro x _ rfl
  refine okRel_bind (okRel_refl _) ?_
  rintro m _ rfl
  split
  · exact okRel_error
  · intro out ho
    rw [bind_eq_ok] at ho
    obtain ⟨vs, h1, ho⟩ := ho
    obtain ⟨vs', h2, h3⟩ := order_update hp _ _ vs h1
    rw [h2, ok_bind]
    have ha' := alike_update ha h1
    revert out
    show OkRel _ _ _
    rw [any_perm _ h3]
    refine okRel_bind (order_mpOutput h3 _ _) ?_
    rintro ⟨q, k⟩ _ rfl
    refine okRel_bind (okRel_refl _) ?_
    rintro ⟨e, f⟩ _ rfl
    exact okRel_ok ⟨⟨⟨vs', h3, rfl⟩, ha'⟩, rfl⟩

/-! ### Runs -/

theorem order_loop {S : Type} (R : S → S → Prop) (step : S → ℕ → Py (S × StepOut K))
    (hs : ∀ s s' i, R s s' → OkRel (fun x y => R x.1 y.1 ∧ x.2 = y.2) (step s i) (step s' i)) (ts : ℕ) (supply : K) (n i : ℕ) (s s' : S)
    (h : R s s') (r : SimRun K) :
    OkRel (fun x y => x.2 = y.2) (simLoop step ts supply n i s r) (simLoop step ts supply n i s' r) := by
  induction n generalizing i s s' r with
  | zero => exact okRel_ok rfl
  | succ n ih =>
    unfold simLoop
    refine okRel_bind (hs s s' i h) ?_
    rintro ⟨x, o⟩ ⟨y, o'⟩ ⟨g1, g2⟩
    dsimp only at g1 g2 ⊢
    subst g2
    refine okRel_bind (okRel_refl _) ?_
    rintro ⟨r', stop⟩ _ rfl
    split
    · exact okRel_ok rfl
    · exact ih _ _ _ g1 _

theorem order_from {S : Type} (R : S → S → Prop) (step : ℕ → S → ℕ → Py (S × StepOut K))
    (hs : ∀ ts s s' i, R s s' → OkRel (fun x y => R x.1 y.1 ∧ x.2 = y.2) (step ts s i) (step ts s' i)) (supply : K) (tm : Bool) (thr : K)
    (maxMin : Int) (d : String) (s s' : S) (h : R s s') :
    OkRel (fun x y => x.2 = y.2) (simulateFrom step supply tm thr maxMin d s) (simulateFrom step supply tm thr maxMin d s') := by
  unfold simulateFrom
  refine okRel_bind (okRel_refl _) ?_
  rintro ⟨dur, ts⟩ _ rfl
  refine okRel_bind (okRel_refl _) ?_
  rintro r _ rfl
  exact order_loop R (step ts) (hs ts) _ _ _ _ _ _ h _

theorem order_init {s s' : Prim K} (h : OrderPrim s s') (b : Building K) : OkRel OrderPrim (s.init b) (s'.init b) := by
  obtain ⟨⟨ws, hp, rfl⟩, ha⟩ := h
  unfold Prim.init
  refine okRel_bind (okRel_refl _) ?_
  rintro cold _ rfl
  exact okRel_ok ⟨⟨ws, hp, by rw [order_initial hp ha]⟩, ha⟩

theorem OrderPrim.supply {s s' : Prim K} (h : OrderPrim s s') : s.supply = s'.supply := by
  obtain ⟨⟨ws, hp, rfl⟩, ha⟩ := h; rfl

theorem alike_perm {ws ws' : List (Heater K)} (h : ws.Perm ws') (ha : Alike ws) : Alike ws' := by
  obtain ⟨⟨sc, h1⟩, f, h2⟩ := ha
  exact ⟨⟨sc, fun w hw => h1 w (h.mem_iff.mpr hw)⟩, f, fun w hw => h2 w (h.mem_iff.mpr hw)⟩

theorem OrderPrim.symm {s s' : Prim K} (h : OrderPrim s s') : OrderPrim s' s := by
  obtain ⟨⟨ws, hp, rfl⟩, ha⟩ := h
  exact ⟨⟨s.heaters, hp.symm, rfl⟩, alike_perm hp ha⟩

theorem runs_iff {α : Type} {x y : Py (α × SimRun K)} (h1 : OkRel (fun x y => x.2 = y.2) x y) (h2 : OkRel (fun x y => x.2 = y.2) y x)
    (r : SimRun K) : (∃ a, x = .ok (a, r)) ↔ ∃ a, y = .ok (a, r) := by
  constructor
  · rintro ⟨a, e⟩
    obtain ⟨⟨b, r'⟩, e', rfl⟩ := h1 _ e
    exact ⟨b, e'⟩
  · rintro ⟨a, e⟩
    obtain ⟨⟨b, r'⟩, e', rfl⟩ := h2 _ e
    exact ⟨b, e'⟩

/-- **C137, partial, primary systems.** A system whose heaters follow one schedule and have their normal ON sensors at one
height gives the same run whatever the order of its heaters: one order gives a run if the other does, and it is that run. -/
theorem C137_primary_partial (s s' : Prim K) (h : ReorderPrim s s') (ha : Alike s.heaters) (b : Building K) (thr : K) (maxMin : Int)
    (d : String) (r : SimRun K) :
    (∃ a, s.simulate b thr maxMin d = .ok (a, r)) ↔ ∃ a, s'.simulate b thr maxMin d = .ok (a, r) := by
  have key : ∀ s s' : Prim K, OrderPrim s s' →
      OkRel (fun x y => x.2 = y.2) (s.simulate b thr maxMin d) (s'.simulate b thr maxMin d) := by
    intro s s' h
    unfold Prim.simulate
    refine okRel_bind (okRel_refl _) (fun _ _ _ => ?_)
    refine okRel_bind (order_init h b) ?_
    intro x y hxy
    rw [hxy.supply]
    exact order_from OrderPrim (Prim.step b) (order_step b) _ _ _ _ _ _ _ hxy
  have h : OrderPrim s s' := ⟨h, ha⟩
  exact runs_iff (key s s' h) (key s' s h.symm) r

/-- **C137, partial, single-pass return to primary.** -/
theorem C137_single_pass_partial (l : RtpLoop K) (s s' : Prim K) (h : ReorderPrim s s') (ha : Alike s.heaters) (b : Building K) (thr : K)
    (maxMin : Int) (d : String) (r : SimRun K) :
    (∃ a, spSimulate l s b thr maxMin d = .ok (a, r)) ↔ ∃ a, spSimulate l s' b thr maxMin d = .ok (a, r) := by
  have key : ∀ s s' : Prim K, OrderPrim s s' →
      OkRel (fun x y => x.2 = y.2) (spSimulate l s b thr maxMin d) (spSimulate l s' b thr maxMin d) := by
    intro s s' h
    unfold spSimulate
    refine okRel_bind (okRel_refl _) (fun _ _ _ => ?_)
    refine okRel_bind (order_init h b) ?_
    intro x y hxy
    rw [hxy.supply]
    exact order_from OrderPrim (spStep l b) (order_spStep l b) _ _ _ _ _ _ _ hxy
  have h : OrderPrim s s' := ⟨h, ha⟩
  exact runs_iff (key s s' h) (key s' s h.symm) r

/-- **C137, partial, parallel loops.** -/
theorem C137_parallel_partial (c : TmCfg K) (s s' : ParSim K) (h : ReorderPar s s') (ha : Alike s.prim.heaters) (b : Building K) (thr : K)
    (maxMin : Int) (d : String) (r : SimRun K) :
    (∃ a, parSimulate c s b thr maxMin d = .ok (a, r)) ↔ ∃ a, parSimulate c s' b thr maxMin d = .ok (a, r) := by
  have key : ∀ (s : ParSim K) (p : Prim K), OrderPrim s.prim p →
      OkRel (fun x y => x.2 = y.2) (parSimulate c s b thr maxMin d) (parSimulate c { s with prim := p } b thr maxMin d) := by
    intro s p h
    unfold parSimulate
    refine okRel_bind (okRel_refl _) (fun _ _ _ => ?_)
    refine okRel_bind (order_init h b) ?_
    intro x y hxy
    refine okRel_bind (okRel_refl _) ?_
    rintro cold _ rfl
    rw [hxy.supply]
    exact order_from OrderPar (parStep c b) (order_parStep c b) _ _ _ _ _ _ _ ⟨⟨y, hxy.1, rfl⟩, hxy.2⟩
  obtain ⟨p, hp, rfl⟩ := h
  have h : OrderPrim s.prim p := ⟨hp, ha⟩
  exact runs_iff (key s p h) (key { s with prim := p } s.prim h.symm) r

/-- **C137, partial, swing tanks.** -/
theorem C137_swing_partial (tmOff : K) (s s' : SwingSim K) (h : ReorderSwing s s') (ha : Alike s.heaters) (b : Building K) (thr : K)
    (maxMin : Int) (d : String) (r : SimRun K) :
    (∃ a, swingSimulate tmOff s b thr maxMin d = .ok (a, r)) ↔ ∃ a, swingSimulate tmOff s' b thr maxMin d = .ok (a, r) := by
  have key : ∀ (s : SwingSim K) (ws : List (Heater K)), s.heaters.Perm ws → Alike s.heaters →
      OkRel (fun x y => x.2 = y.2) (swingSimulate tmOff s b thr maxMin d) (swingSimulate tmOff { s with heaters := ws } b thr maxMin d) := by
    intro s ws h ha
    unfold swingSimulate
    refine okRel_bind (okRel_refl _) (fun _ _ _ => ?_)
    refine okRel_bind (okRel_refl _) ?_
    rintro cold _ rfl
    exact order_from OrderSwing (swingSimStep b) (order_swingStep b) _ _ _ _ _ _ _ ⟨⟨ws, h, by rw [order_initial h ha]⟩, ha⟩
  obtain ⟨ws, hp, rfl⟩ := h
  exact runs_iff (key s ws hp ha) (key { s with heaters := ws } s.heaters hp.symm (alike_perm hp ha)) r

/-- **C137, partial, multi-pass return to primary.** -/
theorem C137_multi_pass_partial (s s' : MpSim K) (h : ReorderMp s s') (ha : Alike s.heaters) (b : Building K) (thr : K)
    (maxMin : Int) (d : String) (r : SimRun K) :
    (∃ a, mpSimulate s b thr maxMin d = .ok (a, r)) ↔ ∃ a, mpSimulate s' b thr maxMin d = .ok (a, r) := by
  have key : ∀ (s : MpSim K) (ws : List (Heater K)), s.heaters.Perm ws → Alike s.heaters →
      OkRel (fun x y => x.2 = y.2) (mpSimulate s b thr maxMin d) (mpSimulate { s with heaters := ws } b thr maxMin d) := by
    intro s ws h ha
    unfold mpSimulate
    refine okRel_bind (okRel_refl _) (fun _ _ _ => ?_)
    refine okRel_bind (okRel_refl _) ?_
    rintro cold _ rfl
    exact order_from OrderMp (mpStep b) (order_mpStep b) _ _ _ _ _ _ _ ⟨⟨ws, h, by rw [order_initial h ha]⟩, ha⟩
  obtain ⟨ws, hp, rfl⟩ := h
  exact runs_iff (key s ws hp ha) (key { s with heaters := ws } s.heaters hp.symm (alike_perm hp ha)) r

namespace Demo

/-- A heater of 10 kBTU/h with its ON sensor at height `f`. -/
def atHeight (f : ℚ) : Heater ℚ := Heater.fromNominal 10 (some allNormal) (some [("normal", ⟨f, 110, 6 / 10, 120, 150⟩)])

/-- Two heaters with their ON sensors at heights `f` and `g`. -/
def twoSensors (f g : ℚ) : Prim ℚ := ⟨120, 150, [atHeight f, atHeight g], some (StratTank.new 100 (28 / 10))⟩

theorem twoSensors_swap (f g : ℚ) : ReorderPrim (twoSensors f g) (twoSensors g f) :=
  ⟨[atHeight g, atHeight f], List.Perm.swap _ _ _, rfl⟩

theorem atHeight_ready (f : ℚ) : Ready (atHeight f) := by
  refine ready_of (cap := 10) rfl ?_
  intro hour hh
  refine ⟨⟨f, 110, 6 / 10, 120, 150⟩, allNormal, [("normal", ⟨f, 110, 6 / 10, 120, 150⟩)], "normal", rfl, rfl, ?_, rfl⟩
  unfold allNormal; rw [List.getElem?_replicate, if_pos hh]

theorem twoSensors_runs (f g : ℚ) (thr : ℚ) (maxMin : Int) :
    ∃ sf r, (twoSensors f g).simulate building thr maxMin "3day" = .ok (sf, r) := by
  refine C91_completes_partial _ _ thr maxMin "3day" (.inl rfl) answers ?_ ?_
  · intro w hw
    rcases (by simpa [twoSensors] using hw : w = atHeight f ∨ w = atHeight g) with rfl | rfl <;> exact atHeight_ready _
  · rintro t ⟨⟩
    exact ⟨by decide +kernel, by decide +kernel⟩

/-- The usable volume after the first minute. -/
def firstOf (s : Prim ℚ) : Option ℚ :=
  match s.init building with
  | .error _ => none
  | .ok s => match Prim.step building 1 s 0 with
    | .error _ => none
    | .ok (_, o) => some o.usable

theorem firstOf_run {s : Prim ℚ} {thr : ℚ} {maxMin : Int} {sf : Prim ℚ} {r : SimRun ℚ}
    (h : s.simulate building thr maxMin "3day" = .ok (sf, r)) : firstOf s = r.usable.head? := by
  unfold Prim.simulate at h
  simp only [bind_eq_ok] at h
  obtain ⟨x, hx, s1, hi, h⟩ := h
  obtain ⟨dur, ts, outs, h1, h2, h3, h4, h5, _, _, _, h6⟩ := simulate_spec _ _ _ thr maxMin "3day" s1 sf r h
  obtain ⟨rfl, rfl⟩ : 4320 = dur ∧ 1 = ts := by simpa [simDuration] using h1
  unfold firstOf
  rw [hi, h5.usable]
  cases outs with
  | nil => simp at h6
  | cons o os =>
    obtain ⟨s2, e, _⟩ := h4
    simp only [e, List.map_cons, List.head?_cons]

/-- Heaters of different capacities. -/
def bigSmall : Prim ℚ := ⟨120, 150, [Heater.fromNominal 30 (some allNormal) (some highSensor),
  Heater.fromNominal 10 (some allNormal) (some highSensor)], some (StratTank.new 100 (28 / 10))⟩

end Demo

/-- **C137 fails for heaters with sensors at different heights.** The tank starts charged to the ON sensor of the heater that is
listed first: with the lower sensor first there is hot water in the first minute, and the same heaters the other way round start
with none and the run is reported as failed. -/
theorem C137_order_matters : ∃ (s s' : Prim ℚ) (b : Building ℚ), ReorderPrim s s' ∧ ∀ (thr : ℚ) (maxMin : Int),
    ∃ sf r sf' r', s.simulate b thr maxMin "3day" = .ok (sf, r) ∧ s'.simulate b thr maxMin "3day" = .ok (sf', r') ∧
      (∃ u, r.usable.head? = some u ∧ 0 < u) ∧ r'.usable.head? = some 0 ∧ r'.isSuccessful = false := by
  refine ⟨Demo.twoSensors (3 / 10) 1, Demo.twoSensors 1 (3 / 10), Demo.building, Demo.twoSensors_swap _ _, fun thr maxMin => ?_⟩
  obtain ⟨sf, r, h⟩ := Demo.twoSensors_runs (3 / 10) 1 thr maxMin
  obtain ⟨sf', r', h'⟩ := Demo.twoSensors_runs 1 (3 / 10) thr maxMin
  have h0 : r'.usable.head? = some 0 := by rw [← Demo.firstOf_run h']; decide +kernel
  refine ⟨sf, r, sf', r', h, h', ?_, h0, ?_⟩
  · rw [← Demo.firstOf_run h]
    have : ∃ u, Demo.firstOf (Demo.twoSensors (3 / 10) 1) = some u ∧ 0 < u := by
      have e : ((Demo.firstOf (Demo.twoSensors (3 / 10) 1)).map (fun u => decide (0 < u))) = some true := by decide +kernel
      obtain ⟨u, hu, hd⟩ := Option.map_eq_some_iff.mp e
      exact ⟨u, hu, by simpa using hd⟩
    exact this
  · rw [Bool.eq_false_iff]
    intro hs
    unfold Prim.simulate at h'
    simp only [bind_eq_ok] at h'
    obtain ⟨_, _, s1, _, h'⟩ := h'
    have := (C42_outage_partial _ _ _ thr maxMin "3day" s1 sf' r' h').2.mp hs 0 (List.mem_of_mem_head? h0)
    exact lt_irrefl _ this

/-- Non-vacuity of C137: heaters of different capacities with one schedule and one set of controls are alike, and the system
that has them the other way round is the reordered one. -/
example : Alike Demo.bigSmall.heaters ∧ ReorderPrim Demo.bigSmall { Demo.bigSmall with heaters := Demo.bigSmall.heaters.reverse } := by
  refine ⟨⟨⟨some Demo.allNormal, ?_⟩, 8 / 10, ?_⟩, _, (List.reverse_perm _).symm, rfl⟩
  · intro w hw
    rcases (by simpa [Demo.bigSmall] using hw : w = _ ∨ w = _) with rfl | rfl <;> rfl
  · intro w hw
    refine ⟨Demo.highSensor, ⟨8 / 10, 110, 6 / 10, 120, 150⟩, ?_, by decide +kernel, rfl⟩
    rcases (by simpa [Demo.bigSmall] using hw : w = _ ∨ w = _) with rfl | rfl <;> rfl

end Eco
