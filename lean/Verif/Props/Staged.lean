import Verif.Spec.Staged
import Verif.Model.Build
import Verif.Props.Unused
import Verif.Props.StrongElement
import Verif.Props.RepeatLoop
import Verif.Props.PerfMap

/-! # C134: heating capacity spread over several heaters -/

set_option linter.unusedSectionVars false

namespace Eco
open Spec
variable {K : Type} [Field K] [LinearOrder K] [IsStrictOrderedRing K]

/-! ### Sums -/

theorem addUp_append (l l' : List (Option K)) :
    addUp (l ++ l') = match addUp l, addUp l' with
      | none, y => y
      | some x, y => some (x + y.getD 0) := by
  induction l with
  | nil => rfl
  | cons a l ih =>
    cases a with
    | none => exact ih
    | some x =>
      simp only [List.cons_append, addUp, ih]
      cases addUp l <;> cases addUp l' <;> simp [add_assoc]

theorem addUp_getD (l : List (Option K)) : (addUp l).getD 0 = (l.map (·.getD 0)).sum := by
  induction l with
  | nil => rfl
  | cons a l ih => cases a <;> simp [addUp, ih]

theorem totalKw_addUp (l : List (Option K)) : totalKw l = addUp l := by
  unfold totalKw
  rw [← addUp_getD]
  induction l with
  | nil => rfl
  | cons a l ih => cases a with
    | none => simpa [addUp] using ih
    | some x => simp [addUp]

/-- Two lists of powers with the same sum, both empty or both not. -/
def KwsRel (l l' : List (Option K)) : Prop := addUp l' = addUp l ∧ (l' = [] ↔ l = [])

theorem KwsRel.append {a a' b b' : List (Option K)} (h : KwsRel a a') (h' : KwsRel b b') : KwsRel (a ++ b) (a' ++ b') := by
  refine ⟨by rw [addUp_append, addUp_append, h.1, h'.1], ?_⟩
  simp only [List.append_eq_nil_iff, h.2, h'.2]

theorem KwsRel.total {l l' : List (Option K)} (h : KwsRel l l') : totalKw l' = totalKw l := by
  rw [totalKw_addUp, totalKw_addUp, h.1]

theorem KwsRel.swing {l l' : List (Option K)} (h : KwsRel l l') (t : Option K) : swingKw l' t = swingKw l t := by
  unfold swingKw
  simp only [← addUp_getD, h.1, h.2]

/-! ### One heater and its parts -/

theorem pyRel_same {α : Type} {x y : Py α} (h : PyRel (fun a b => b = a) x y) : y = x := by
  cases x <;> cases y <;> simp_all [PyRel]

theorem pyRel_imp {α β : Type} {R Q : α → β → Prop} {x : Py α} {y : Py β} (h : PyRel R x y) (hq : ∀ a b, R a b → Q a b) :
    PyRel Q x y := by
  cases x <;> cases y <;> simp only [PyRel] at h ⊢
  · exact h
  · exact hq _ _ h

theorem mapM_congr_mem {α β : Type} {f g : α → Py β} {l : List α} (h : ∀ a ∈ l, f a = g a) : l.mapM f = l.mapM g := by
  induction l with
  | nil => rfl
  | cons a l ih => rw [List.mapM_cons, List.mapM_cons, h a (by simp), ih (fun b hb => h b (by simp [hb]))]

theorem mapM_same {α β : Type} {f : α → Py β} {x : Py β} {l : List α} (hne : l ≠ []) (h : ∀ a ∈ l, f a = x) :
    l.mapM f = x.map (List.replicate l.length) := by
  induction l with
  | nil => exact absurd rfl hne
  | cons a l ih =>
    rw [List.mapM_cons, h a (by simp)]
    by_cases hl : l = []
    · subst hl; cases x <;> rfl
    · rw [ih hl (fun b hb => h b (by simp [hb]))]
      cases x <;> rfl

theorem together_controls {w : Heater K} {g : List (Heater K)} (h : Together w g) {v : Heater K} (hv : v ∈ g) (hour : ℕ) :
    v.getControls hour = w.getControls hour := by
  unfold Heater.getControls; rw [(h.same v hv).1, (h.same v hv).2.1]

theorem together_outletTemp {w : Heater K} {g : List (Heater K)} (h : Together w g) {v : Heater K} (hv : v ∈ g) (hour : ℕ) :
    v.getOutletTemp hour = w.getOutletTemp hour := by
  unfold Heater.getOutletTemp; rw [together_controls h hv]

/-- Whether a heater is on after `update_state`. -/
def nowOn (w : Heater K) (f : K → Py K) (hour : ℕ) : Py Bool :=
  match w.updateState f hour with
  | (_, .error e) => .error e
  | (w', .ok ()) => .ok w'.active

theorem update_decision (w : Heater K) (f : K → Py K) (hour : ℕ) :
    (match w.updateState f hour with
      | (_, .error e) => .error e
      | (w', .ok ()) => .ok w' : Py (Heater K)) = (nowOn w f hour).map (fun a => { w with active := a }) := by
  unfold nowOn Heater.updateState
  cases w.getControls hour with
  | error e => rfl
  | ok x =>
    cases x with
    | none => rfl
    | some c =>
      dsimp only
      cases ha : w.active with
      | true =>
        simp only [if_true]
        cases c.shouldTurnOff f with
        | error e => rfl
        | ok b => cases b with
          | true => rfl
          | false => simp only [Except.map, ha]; rw [← ha]
      | false =>
        simp only [Bool.false_eq_true, if_false]
        cases c.shouldTurnOn f with
        | error e => rfl
        | ok b => cases b with
          | true => rfl
          | false => simp only [Except.map, ha]; rw [← ha]

theorem together_decision {w : Heater K} {g : List (Heater K)} (h : Together w g) {v : Heater K} (hv : v ∈ g) (f : K → Py K)
    (hour : ℕ) : nowOn v f hour = nowOn w f hour := by
  unfold nowOn Heater.updateState
  rw [together_controls h hv, (h.same v hv).2.2]
  cases w.getControls hour with
  | error e => rfl
  | ok x =>
    cases x with
    | none => rfl
    | some c =>
      dsimp only
      cases ha : w.active with
      | true =>
        simp only [if_true]
        cases c.shouldTurnOff f with
        | error e => rfl
        | ok b => cases b with
          | true => rfl
          | false => simp only [ha, (h.same v hv).2.2]
      | false =>
        simp only [Bool.false_eq_true, if_false]
        cases c.shouldTurnOn f with
        | error e => rfl
        | ok b => cases b with
          | true => rfl
          | false => simp only [ha, (h.same v hv).2.2]

theorem mapM_map_same {α β γ : Type} {f : α → Py β} {x : Py γ} {u : α → γ → β} {l : List α} (hne : l ≠ [])
    (h : ∀ a ∈ l, f a = x.map (u a)) : l.mapM f = x.map (fun c => l.map (fun a => u a c)) := by
  induction l with
  | nil => exact absurd rfl hne
  | cons a l ih =>
    rw [List.mapM_cons, h a (by simp)]
    by_cases hl : l = []
    · subst hl; cases x <;> rfl
    · rw [ih hl (fun b hb => h b (by simp [hb]))]
      cases x <;> rfl

theorem mapM_map_list {α β γ : Type} (f : β → Py γ) (u : α → β) (l : List α) : (l.map u).mapM f = l.mapM (fun a => f (u a)) := by
  induction l with
  | nil => rfl
  | cons a l ih => rw [List.map_cons, List.mapM_cons, List.mapM_cons, ih]

theorem together_active {w : Heater K} {g : List (Heater K)} (h : Together w g) (a : Bool) :
    Together { w with active := a } (g.map (fun v => { v with active := a })) := by
  refine ⟨by simpa using h.nonempty, ?_, ?_, ?_⟩
  · intro v hv
    obtain ⟨u, hu, rfl⟩ := List.mem_map.1 hv
    exact ⟨(h.same u hu).1, (h.same u hu).2.1, rfl⟩
  · intro o t i
    rw [mapM_map_list]; exact h.capacity o t i
  · intro o t i
    rw [mapM_map_list]; exact h.power o t i

theorem together_update {w : Heater K} {g : List (Heater K)} (h : Together w g) (f : K → Py K) (hour : ℕ) :
    PyRel Together (match w.updateState f hour with
      | (_, .error e) => .error e
      | (w', .ok ()) => .ok w' : Py (Heater K)) (updateAll g f hour) := by
  rw [update_decision]
  unfold updateAll
  rw [mapM_map_same (x := nowOn w f hour) (u := fun v a => { v with active := a }) h.nonempty
    (fun v hv => by exact (update_decision v f hour).trans (by rw [together_decision h hv]))]
  cases nowOn w f hour with
  | error e => rfl
  | ok a => exact together_active h a

theorem mapM_bind_same {α β γ : Type} {f : α → Py β} {x : Py γ} {u : α → γ → Py β} {l : List α} (hne : l ≠ [])
    (h : ∀ a ∈ l, f a = x >>= u a) : l.mapM f = x >>= fun c => l.mapM (fun a => u a c) := by
  cases x with
  | error e => 
    rw [mapM_same (x := .error e) hne h]; rfl
  | ok c =>
    rw [ok_bind]
    clear hne
    induction l with
    | nil => rfl
    | cons a l ih =>
      rw [List.mapM_cons, List.mapM_cons, h a (by simp), ih (fun b hb => h b (by simp [hb]))]; rfl

theorem together_output {w : Heater K} {g : List (Heater K)} (h : Together w g) (oat : K) (hour : ℕ) (inlet : Option K) :
    PyRel (fun a l => l.sum = a) (w.getOutletTemp hour >>= fun o => w.getOutput (some oat) o inlet)
      (g.mapM (fun v => v.getOutletTemp hour >>= fun o => v.getOutput (some oat) o inlet)) := by
  rw [mapM_bind_same (x := w.getOutletTemp hour) h.nonempty (fun v hv => by rw [together_outletTemp h hv])]
  refine pyRel_bind (pyRel_refl _) ?_
  rintro _ o rfl
  unfold Heater.getOutput
  by_cases ha : w.active = false
  · rw [if_pos ha, mapM_same (x := .ok 0) h.nonempty (fun v hv => by rw [if_pos ((h.same v hv).2.2.trans ha)])]
    simp [PyRel, Except.map]
  · rw [if_neg ha]
    rw [show (g.mapM fun v => if v.active = false then (.ok 0 : Py K) else do return (← v.getCapacity (some oat) o inlet).getD 0) =
      g.mapM (fun v : Heater K => do return (← v.getCapacity (some oat) o inlet).getD 0) from
      mapM_congr_mem (fun v hv => by rw [if_neg (by rw [(h.same v hv).2.2]; exact ha)])]
    have e : g.mapM (fun v : Heater K => do return (← v.getCapacity (some oat) o inlet).getD 0) =
        (g.mapM (fun v : Heater K => v.getCapacity (some oat) o inlet)).map (List.map (·.getD 0)) := by
      clear h ha
      induction g with
      | nil => rfl
      | cons a l ih =>
        rw [List.mapM_cons, List.mapM_cons, ih]
        cases a.getCapacity (some oat) o inlet with
        | error e => rfl
        | ok x => cases List.mapM (fun v : Heater K => v.getCapacity (some oat) o inlet) l <;> rfl
    rw [e, ← h.capacity (some oat) o inlet]
    cases List.mapM (fun v : Heater K => v.getCapacity (some oat) o inlet) g with
    | error e => rfl
    | ok l => exact (addUp_getD l).symm

theorem together_kws {w : Heater K} {g : List (Heater K)} (h : Together w g) (oat : K) (hour : ℕ) (inlet : Option K) :
    PyRel KwsRel (activeKws [w] oat hour inlet) (activeKws g oat hour inlet) := by
  unfold activeKws
  cases ha : w.active with
  | false =>
    have : g.filter (·.active) = [] := List.filter_eq_nil_iff.2 (fun v hv => by rw [(h.same v hv).2.2, ha]; simp)
    rw [this, List.filter_cons_of_neg (by simp [ha])]
    exact ⟨rfl, Iff.rfl⟩
  | true =>
    have : g.filter (·.active) = g := List.filter_eq_self.2 (fun v hv => by rw [(h.same v hv).2.2, ha])
    rw [this, List.filter_cons_of_pos (by simp [ha]), List.filter_nil]
    rw [mapM_bind_same (x := w.getOutletTemp hour) h.nonempty (fun v hv => by rw [together_outletTemp h hv])]
    simp only [List.mapM_cons, List.mapM_nil]
    cases w.getOutletTemp hour with
    | error e => rfl
    | ok o =>
      simp only [ok_bind]
      rw [← h.power (some oat) o inlet]
      have hl : ∀ l, g.mapM (fun v => v.getPower (some oat) o inlet) = .ok l → l ≠ [] := by
        intro l hl e
        subst e
        have := mapM_eq_ok.1 hl
        cases this
        exact h.nonempty rfl
      cases e : List.mapM (fun v => v.getPower (some oat) o inlet) g with
      | error e => rfl
      | ok l =>
        refine ⟨?_, by simp [hl l e]⟩
        cases addUp l <;> simp [addUp]

/-! ### All heaters -/

theorem flatten_rel {β γ : Type} {Q : List β → List γ → Prop} {f : Heater K → Py β} {f' : Heater K → Py γ}
    (hnil : Q [] []) (happ : ∀ a a' b b', Q [a] a' → Q b b' → Q (a :: b) (a' ++ b'))
    {ws : List (Heater K)} {gs : List (List (Heater K))} (h : List.Forall₂ Together ws gs)
    (hf : ∀ w g, Together w g → PyRel (fun a l => Q [a] l) (f w) (g.mapM f')) :
    PyRel Q (ws.mapM f) (gs.flatten.mapM f') := by
  induction h with
  | nil => exact hnil
  | cons h1 _ ih =>
    rw [List.mapM_cons, List.flatten_cons, List.mapM_append]
    refine pyRel_bind (hf _ _ h1) (fun a a' haa => ?_)
    refine pyRel_bind ih (fun b b' hbb => ?_)
    exact happ a a' b b' haa hbb

theorem spread_update {ws ws' : List (Heater K)} (h : Spread ws ws') (f : K → Py K) (hour : ℕ) :
    PyRel Spread (updateAll ws f hour) (updateAll ws' f hour) := by
  obtain ⟨gs, h, rfl⟩ := h
  unfold updateAll
  refine flatten_rel (Q := Spread) ⟨[], .nil, rfl⟩ ?_ h ?_
  · rintro a a' b b' ⟨g1, h1, rfl⟩ ⟨g2, h2, rfl⟩
    cases h1 with
    | cons x y => cases y with
      | nil => exact ⟨_ :: g2, .cons x h2, by simp⟩
  · intro w g hg
    have := together_update hg f hour
    unfold updateAll at this
    exact pyRel_imp this (fun a l h => ⟨[l], .cons h .nil, by simp⟩)

theorem spread_output {ws ws' : List (Heater K)} (h : Spread ws ws') (oat : K) (hour : ℕ) (inlet : Option K) :
    totalOutput ws' oat hour inlet = totalOutput ws oat hour inlet := by
  obtain ⟨gs, h, rfl⟩ := h
  have key := flatten_rel (Q := fun l l' : List K => l'.sum = l.sum) rfl
    (fun a a' b b' h1 h2 => by rw [List.sum_append, List.sum_cons, h2, h1]; simp) h
    (fun w g hg => by
      have := together_output hg oat hour inlet
      simp only [List.sum_singleton]
      exact this)
  have := pyRel_bind (Q := fun a b => b = a) (f := fun l : List K => (pure l.sum : Py K)) (g := fun l : List K => (pure l.sum : Py K)) key (fun a a' h => h)
  exact pyRel_same this

theorem activeKws_append (ws ws' : List (Heater K)) (oat : K) (hour : ℕ) (inlet : Option K) :
    activeKws (ws ++ ws') oat hour inlet =
      (do let a ← activeKws ws oat hour inlet; let b ← activeKws ws' oat hour inlet; return a ++ b) := by
  unfold activeKws
  rw [List.filter_append, List.mapM_append]

theorem spread_kws {ws ws' : List (Heater K)} (h : Spread ws ws') (oat : K) (hour : ℕ) (inlet : Option K) :
    PyRel KwsRel (activeKws ws oat hour inlet) (activeKws ws' oat hour inlet) := by
  obtain ⟨gs, h, rfl⟩ := h
  induction h with
  | nil => exact ⟨rfl, Iff.rfl⟩
  | @cons w g ws gs h1 _ ih =>
    rw [show w :: ws = [w] ++ ws from rfl, List.flatten_cons, activeKws_append, activeKws_append]
    refine pyRel_bind (together_kws h1 oat hour inlet) (fun a a' haa => ?_)
    exact pyRel_bind ih (fun b b' hbb => haa.append hbb)

theorem mem_max {l l' : List K} (h : ∀ x, x ∈ l' ↔ x ∈ l) : l'.max? = l.max? := by
  cases e : l.max? with
  | none =>
    rw [List.max?_eq_none_iff] at e ⊢
    subst e
    exact List.eq_nil_iff_forall_not_mem.2 (fun x hx => by simpa using (h x).1 hx)
  | some m =>
    rw [List.max?_eq_some_iff] at e ⊢
    exact ⟨(h m).2 e.1, fun b hb => e.2 b ((h b).1 hb)⟩

theorem spread_outlet {ws ws' : List (Heater K)} (h : Spread ws ws') (st : K) (hour : ℕ) :
    outletAt ws' st hour = outletAt ws st hour := by
  obtain ⟨gs, h, rfl⟩ := h
  have key := flatten_rel (f := fun w => w.getControls hour) (f' := fun w => w.getControls hour)
    (Q := fun (l l' : List (Option (Controls K))) => ∀ x, x ∈ l' ↔ x ∈ l) (fun _ => Iff.rfl)
    (fun a a' b b' h1 h2 x => by rw [List.mem_append, h1, h2]; simp) h
    (fun w g hg => by
      rw [mapM_same (x := w.getControls hour) hg.nonempty (fun v hv => together_controls hg hv hour)]
      cases w.getControls hour with
      | error e => rfl
      | ok c =>
        intro x
        simp only [List.mem_replicate, List.mem_singleton]
        exact ⟨fun h => h.2, fun h => ⟨fun e => hg.nonempty (List.length_eq_zero_iff.1 e), h⟩⟩)
  unfold outletAt
  have := pyRel_bind (Q := fun a b => b = a) key
    (f := fun cs => (pure (((cs.filterMap id).map (·.outlet)).max?.getD st) : Py K))
    (g := fun cs => (pure (((cs.filterMap id).map (·.outlet)).max?.getD st) : Py K)) (fun a a' h => by
      have : ((a'.filterMap id).map (·.outlet)).max? = ((a.filterMap id).map (·.outlet)).max? := by
        apply mem_max
        intro x
        simp only [List.mem_map, List.mem_filterMap, h]
      simp only [PyRel, pure_eq_ok, this])
  exact pyRel_same this

theorem spread_mode {ws ws' : List (Heater K)} (h : Spread ws ws') (hour : ℕ) : modeAt ws' hour = modeAt ws hour := by
  obtain ⟨gs, h, rfl⟩ := h
  cases h with
  | nil => rfl
  | @cons w g ws gs h1 _ =>
    cases g with
    | nil => exact absurd rfl h1.nonempty
    | cons v g =>
      simp only [List.flatten_cons, List.cons_append, modeAt]
      rw [(h1.same v (by simp)).1]

theorem spread_any {ws ws' : List (Heater K)} (h : Spread ws ws') (p : Heater K → Bool)
    (hp : ∀ v w : Heater K, v.sched = w.sched → v.cmap = w.cmap → v.active = w.active → p v = p w) : ws'.any p = ws.any p := by
  obtain ⟨gs, h, rfl⟩ := h
  induction h with
  | nil => rfl
  | @cons w g ws gs h1 _ ih =>
    rw [List.flatten_cons, List.any_append, ih, List.any_cons]
    congr 1
    have hs : ∀ v ∈ g, p v = p w := fun v hv => hp v w (h1.same v hv).1 (h1.same v hv).2.1 (h1.same v hv).2.2
    obtain ⟨v, hv⟩ := List.exists_mem_of_ne_nil g h1.nonempty
    rw [Bool.eq_iff_iff, List.any_eq_true]
    exact ⟨fun ⟨u, hu, e⟩ => (hs u hu) ▸ e, fun e => ⟨v, hv, (hs v hv).trans e⟩⟩

theorem spread_initial {ws ws' : List (Heater K)} (h : Spread ws ws') : initialUseable ws' = initialUseable ws := by
  obtain ⟨gs, h, rfl⟩ := h
  induction h with
  | nil => rfl
  | @cons w g ws gs h1 _ ih =>
    rw [List.flatten_cons]
    have hne := h1.nonempty
    have hs : ∀ v ∈ g, v.cmap = w.cmap := fun v hv => (h1.same v hv).2.1
    clear h1
    induction g with
    | nil => exact absurd rfl hne
    | cons v g ihg =>
      rw [List.cons_append]
      unfold initialUseable
      rw [hs v (by simp)]
      cases e : w.cmap.bind normalOrFirst with
      | some c => rfl
      | none =>
        dsimp only
        by_cases hg : g = []
        · subst hg; exact ih
        · have := ihg hg (fun u hu => hs u (by simp [hu]))
          rw [this]
          conv => lhs; unfold initialUseable
          rw [e]

/-! ### One step -/

theorem spread_inputs {s s' : Prim K} (h : SpreadPrim s s') (b : Building K) (t int : ℕ) :
    s'.inputs b t int = s.inputs b t int := by
  obtain ⟨ws', h, rfl⟩ := h
  unfold Prim.inputs
  simp only
  rw [spread_any h _ (fun v w _ h _ => by unfold Heater.isLoadShifting; rw [h])]
  simp only [spread_outlet h, spread_mode h]

theorem spread_heat {ws ws' : List (Heater K)} (h : Spread ws ws') (t : StratTank K) (i : StepIn K) (int : ℕ) :
    PyRel (fun x y => Spread x.1 y.1 ∧ y.2.1 = x.2.1 ∧ y.2.2.1 = x.2.2.1 ∧ KwsRel x.2.2.2 y.2.2.2)
      (heatPrimary ws t i int) (heatPrimary ws' t i int) := by
  unfold heatPrimary
  refine pyRel_bind (spread_update h t.tempAtPy i.hour) (fun v v' hv => ?_)
  refine pyRel_bind (pyRel_refl _) (fun _ _ _ => ?_)
  rw [spread_output hv]
  refine pyRel_bind (pyRel_refl _) ?_
  rintro _ q rfl
  refine pyRel_bind (spread_kws hv _ _ _) (fun kws kws' hk => ?_)
  split
  · rfl
  · exact ⟨hv, rfl, rfl, hk⟩

theorem spread_primStep (b : Building K) (int : ℕ) (s s' : Prim K) (t : ℕ) (h : SpreadPrim s s') :
    PyRel (fun x y => SpreadPrim x.1 y.1 ∧ y.2 = timesOut 1 x.2) (Prim.step b int s t) (Prim.step b int s' t) := by
  have hin := spread_inputs h b t int
  obtain ⟨ws', h, rfl⟩ := h
  unfold Prim.step
  rw [hin]
  refine pyRel_bind (pyRel_refl _) ?_
  rintro _ i rfl
  dsimp only
  cases e : s.tank with
  | none => exact ⟨⟨ws', h, by simp only [e]⟩, (timesOut_one _).symm⟩
  | some tank =>
    dsimp only
    refine pyRel_bind (spread_heat h tank i int) ?_
    rintro ⟨v, tk, q, kws⟩ ⟨v', tk', q', kws'⟩ ⟨a1, a2, a3, a4⟩
    simp only at a1 a2 a3 a4
    subst a2 a3
    exact ⟨⟨v', a1, rfl⟩, by rw [timesOut_one]; simp only [a4.total]⟩

theorem spread_spStep (l : RtpLoop K) (b : Building K) (int : ℕ) (s s' : Prim K) (t : ℕ) (h : SpreadPrim s s') :
    PyRel (fun x y => SpreadPrim x.1 y.1 ∧ y.2 = timesOut 1 x.2) (spStep l b int s t) (spStep l b int s' t) := by
  unfold spStep
  refine pyRel_bind (spread_primStep b int s s' t h) ?_
  rintro ⟨s1, o⟩ ⟨s1', o'⟩ ⟨⟨ws', h1, h2⟩, h3⟩
  simp only at h1 h2 h3
  rw [timesOut_one] at h3
  subst h2 h3
  dsimp only
  cases e : s1.tank with
  | none => exact ⟨⟨ws', h1, by simp only [e]⟩, (timesOut_one _).symm⟩
  | some tk => exact ⟨⟨ws', h1, rfl⟩, (timesOut_one _).symm⟩

theorem spread_parStep (c : TmCfg K) (b : Building K) (int : ℕ) (s s' : ParSim K) (t : ℕ) (h : SpreadPar s s') :
    PyRel (fun x y => SpreadPar x.1 y.1 ∧ y.2 = timesOut 1 x.2) (parStep c b int s t) (parStep c b int s' t) := by
  obtain ⟨p, hp, rfl⟩ := h
  unfold parStep
  refine pyRel_bind (spread_primStep b int s.prim p t hp) ?_
  rintro ⟨s1, o⟩ ⟨s1', o'⟩ ⟨h1, h2⟩
  simp only at h1 h2
  rw [timesOut_one] at h2
  subst h2
  dsimp only
  generalize tmStep c (some o'.oat) (t * int / 60 % 24) (int : K) (s.tmTank, s.tmHeater) = x
  obtain ⟨⟨x1, x2⟩, x3⟩ := x
  cases x3 with
  | error e => rfl
  | ok tm => exact ⟨⟨s1', h1, rfl⟩, (timesOut_one _).symm⟩

theorem spread_swingStep (b : Building K) (int : ℕ) (s s' : SwingSim K) (t : ℕ) (h : SpreadSwing s s') :
    PyRel (fun x y => SpreadSwing x.1 y.1 ∧ y.2 = timesOut 1 x.2) (swingSimStep b int s t) (swingSimStep b int s' t) := by
  obtain ⟨ws', h, rfl⟩ := h
  unfold swingSimStep
  have hin := spread_inputs (s := Prim.mk s.supply s.storage s.heaters (some s.tank))
    (s' := Prim.mk s.supply s.storage ws' (some s.tank)) ⟨ws', h, rfl⟩ b t int
  rw [hin]
  refine pyRel_bind (pyRel_refl _) ?_
  rintro _ i rfl
  refine pyRel_bind (spread_heat h s.tank i int) ?_
  rintro ⟨v, tk, q, kws⟩ ⟨v', tk', q', kws'⟩ ⟨a1, a2, a3, a4⟩
  simp only at a1 a2 a3 a4
  subst a2 a3
  dsimp only
  refine pyRel_bind (pyRel_refl _) ?_
  rintro _ hw rfl
  split
  · rfl
  refine pyRel_bind (pyRel_refl _) ?_
  rintro _ ⟨w, tq, tkw, tm⟩ rfl
  exact ⟨⟨v', a1, rfl⟩, by rw [timesOut_one]; simp only [a4.swing]⟩

theorem spread_mpStep (b : Building K) (int : ℕ) (s s' : MpSim K) (t : ℕ) (h : SpreadMp s s') :
    PyRel (fun x y => SpreadMp x.1 y.1 ∧ y.2 = timesOut 1 x.2) (mpStep b int s t) (mpStep b int s' t) := by
  obtain ⟨ws', h, rfl⟩ := h
  have hact : ∀ {ws ws' : List (Heater K)}, Spread ws ws' → ws'.any (·.active) = ws.any (·.active) :=
    fun h => spread_any h _ (fun _ _ _ _ h => h)
  unfold mpStep
  dsimp only
  refine pyRel_bind (pyRel_refl _) ?_
  rintro _ d rfl
  refine pyRel_bind (pyRel_refl _) ?_
  rintro _ oat rfl
  refine pyRel_bind (pyRel_refl _) ?_
  rintro _ inlet rfl
  rw [spread_mode h]
  refine pyRel_bind (pyRel_refl _) ?_
  rintro _ mode rfl
  split
  · rfl
  refine pyRel_bind (spread_update h _ _) (fun v v' hv => ?_)
  rw [hact h, hact hv]
  have hout : mpOutput v' oat (t * int / 60 % 24) = mpOutput v oat (t * int / 60 % 24) := by
    have : PyRel (fun a b => b = a) (mpOutput v oat (t * int / 60 % 24)) (mpOutput v' oat (t * int / 60 % 24)) := by
      unfold mpOutput
      rw [spread_output hv]
      refine pyRel_bind (pyRel_refl _) ?_
      rintro _ q rfl
      refine pyRel_bind (spread_kws hv _ _ _) (fun kws kws' hk => ?_)
      simp only [PyRel, pure_eq_ok, hk.total]
    exact pyRel_same this
  rw [hout]
  refine pyRel_bind (pyRel_refl _) ?_
  rintro _ ⟨q, kw⟩ rfl
  dsimp only
  refine pyRel_bind (pyRel_refl _) ?_
  rintro _ ⟨dr, mv⟩ rfl
  exact ⟨⟨v', hv, rfl⟩, (timesOut_one _).symm⟩

/-! ### Runs -/

theorem spread_init {s s' : Prim K} (h : SpreadPrim s s') (b : Building K) : PyRel SpreadPrim (s.init b) (s'.init b) := by
  obtain ⟨ws', h, rfl⟩ := h
  unfold Prim.init
  refine pyRel_bind (pyRel_refl _) ?_
  rintro _ cold rfl
  exact ⟨ws', h, by simp only [spread_initial h]⟩

theorem spread_supply {s s' : Prim K} (h : SpreadPrim s s') : s'.supply = s.supply := by
  obtain ⟨ws', _, rfl⟩ := h; rfl

/-- **C134, primary systems.** A plant whose heaters are each replaced by several heaters with the same controls, whose
capacities and powers add up to those of the replaced heater, gives the same run for every building, or the same exception. -/
theorem C134_primary (s s' : Prim K) (h : SpreadPrim s s') (b : Building K) (thr : K) (maxMin : Int) (d : String) :
    (s'.simulate b thr maxMin d).map (·.2) = (s.simulate b thr maxMin d).map (·.2) := by
  have key : PyRel (fun x y => SpreadPrim x.1 y.1 ∧ y.2 = timesRun 1 x.2) (s.simulate b thr maxMin d) (s'.simulate b thr maxMin d) := by
    unfold Prim.simulate
    refine pyRel_bind (pyRel_refl _) (fun _ _ _ => ?_)
    refine pyRel_bind (spread_init h b) ?_
    intro s1 s1' h1
    rw [spread_supply h1]
    exact simulateFrom_times one_pos SpreadPrim (fun ts s s' i hs => spread_primStep b ts s s' i hs) _ _ _ _ _ _ _ h1
  exact pyRel_run_one key

/-- **C134, single-pass return to primary.** -/
theorem C134_single_pass (l : RtpLoop K) (s s' : Prim K) (h : SpreadPrim s s') (b : Building K) (thr : K) (maxMin : Int)
    (d : String) : (spSimulate l s' b thr maxMin d).map (·.2) = (spSimulate l s b thr maxMin d).map (·.2) := by
  have key : PyRel (fun x y => SpreadPrim x.1 y.1 ∧ y.2 = timesRun 1 x.2) (spSimulate l s b thr maxMin d)
      (spSimulate l s' b thr maxMin d) := by
    unfold spSimulate
    refine pyRel_bind (pyRel_refl _) (fun _ _ _ => ?_)
    refine pyRel_bind (spread_init h b) ?_
    intro s1 s1' h1
    rw [spread_supply h1]
    exact simulateFrom_times one_pos SpreadPrim (fun ts s s' i hs => spread_spStep l b ts s s' i hs) _ _ _ _ _ _ _ h1
  exact pyRel_run_one key

/-- **C134, parallel loop.** -/
theorem C134_parallel (c : TmCfg K) (s s' : ParSim K) (h : SpreadPar s s') (b : Building K) (thr : K) (maxMin : Int)
    (d : String) : (parSimulate c s' b thr maxMin d).map (·.2) = (parSimulate c s b thr maxMin d).map (·.2) := by
  have key : PyRel (fun x y => SpreadPar x.1 y.1 ∧ y.2 = timesRun 1 x.2) (parSimulate c s b thr maxMin d)
      (parSimulate c s' b thr maxMin d) := by
    obtain ⟨p, hp, rfl⟩ := h
    unfold parSimulate
    refine pyRel_bind (pyRel_refl _) (fun _ _ _ => ?_)
    refine pyRel_bind (spread_init hp b) ?_
    intro p p' h1
    refine pyRel_bind (pyRel_refl _) ?_
    rintro _ cold rfl
    rw [spread_supply h1]
    exact simulateFrom_times one_pos SpreadPar (fun ts s s' i hs => spread_parStep c b ts s s' i hs) _ _ _ _ _ _ _
      ⟨p', h1, rfl⟩
  exact pyRel_run_one key

/-- **C134, swing tanks.** -/
theorem C134_swing (s s' : SwingSim K) (h : SpreadSwing s s') (b : Building K) (thr : K) (maxMin : Int)
    (d : String) : (s'.simulate b thr maxMin d).map (·.2) = (s.simulate b thr maxMin d).map (·.2) := by
  have key : PyRel (fun x y => SpreadSwing x.1 y.1 ∧ y.2 = timesRun 1 x.2) (s.simulate b thr maxMin d)
      (s'.simulate b thr maxMin d) := by
    obtain ⟨ws', h, rfl⟩ := h
    unfold SwingSim.simulate
    refine pyRel_bind (pyRel_refl _) (fun _ _ _ => ?_)
    refine pyRel_bind (pyRel_refl _) ?_
    rintro _ off rfl
    unfold swingSimulate
    refine pyRel_bind (pyRel_refl _) (fun _ _ _ => ?_)
    refine pyRel_bind (pyRel_refl _) ?_
    rintro _ cold rfl
    dsimp only
    exact simulateFrom_times one_pos SpreadSwing (fun ts s s' i hs => spread_swingStep b ts s s' i hs) _ _ _ _ _ _ _
      ⟨ws', h, by rw [spread_initial h]⟩
  exact pyRel_run_one key

/-- **C134, multi-pass return to primary.** -/
theorem C134_multi_pass (s s' : MpSim K) (h : SpreadMp s s') (b : Building K) (thr : K) (maxMin : Int)
    (d : String) : (mpSimulate s' b thr maxMin d).map (·.2) = (mpSimulate s b thr maxMin d).map (·.2) := by
  have key : PyRel (fun x y => SpreadMp x.1 y.1 ∧ y.2 = timesRun 1 x.2) (mpSimulate s b thr maxMin d)
      (mpSimulate s' b thr maxMin d) := by
    obtain ⟨ws', h, rfl⟩ := h
    unfold mpSimulate
    refine pyRel_bind (pyRel_refl _) (fun _ _ _ => ?_)
    refine pyRel_bind (pyRel_refl _) ?_
    rintro _ cold rfl
    dsimp only
    exact simulateFrom_times one_pos SpreadMp (fun ts s s' i hs => spread_mpStep b ts s s' i hs) _ _ _ _ _ _ _
      ⟨ws', h, by rw [spread_initial h]⟩
  exact pyRel_run_one key

/-! ### Heaters that add up -/

theorem addUp_some (l : List K) (h : l ≠ []) : addUp (l.map some) = some l.sum := by
  induction l with
  | nil => exact absurd rfl h
  | cons a l ih =>
    by_cases hl : l = []
    · subst hl; rfl
    · simp [addUp, ih hl]

/-- **C134, nominal heaters.** Heaters of fixed capacity are together one heater of the sum of their capacities. -/
theorem C134_nominal (caps : List K) (hne : caps ≠ []) (sched : Option (List String)) (cmap : Option (ControlMap K)) :
    Together (Heater.fromNominal caps.sum sched cmap) (caps.map (fun c => Heater.fromNominal c sched cmap)) := by
  refine ⟨by simpa using hne, ?_, ?_, ?_⟩
  · intro v hv
    obtain ⟨c, _, rfl⟩ := List.mem_map.1 hv
    exact ⟨rfl, rfl, rfl⟩
  · intro o t i
    rw [mapM_map_list, mapM_ok_map (f := fun c => (Heater.fromNominal c sched cmap).getCapacity o t i) (g := some) (fun c _ => rfl)]
    exact congrArg Except.ok (addUp_some caps hne)
  · intro o t i
    rw [mapM_map_list, mapM_same (f := fun c => (Heater.fromNominal c sched cmap).getPower o t i) (x := .ok none) hne (fun c _ => rfl)]
    refine congrArg Except.ok ?_
    generalize caps.length = n
    induction n with
    | zero => rfl
    | succ n ih => rw [List.replicate_succ]; exact ih

theorem addUp_replicate (m : ℕ) (hm : 0 < m) (x : Option K) : addUp (List.replicate m x) = x.map ((m : K) * ·) := by
  obtain ⟨n, rfl⟩ : ∃ n, m = n + 1 := ⟨m - 1, by omega⟩
  clear hm
  induction n with
  | zero => cases x <;> simp [addUp]
  | succ n ih =>
    rw [List.replicate_succ]
    cases x with
    | none => exact ih
    | some x =>
      simp only [addUp, ih, Option.map_some, Option.getD_some]
      push_cast
      congr 1; ring

/-- **C134, catalogue units.** `m` heaters of a catalogue model are together one heater of `m` times as many units. -/
theorem C134_units (m : ℕ) (hm : 0 < m) (w : Heater K) :
    Together { w with perf := w.perf.map (moreUnits m) } (List.replicate m w) := by
  have h := C131_units m hm w
  have hne : List.replicate m w ≠ [] := by simp; omega
  refine ⟨hne, ?_, ?_, ?_⟩
  · intro v hv
    rw [(List.mem_replicate.1 hv).2]
    exact ⟨rfl, rfl, rfl⟩
  · intro o t i
    rw [h.capacity, mapM_same (x := w.getCapacity o t i) hne (fun v hv => by rw [(List.mem_replicate.1 hv).2]), List.length_replicate]
    cases w.getCapacity o t i with
    | error e => rfl
    | ok x => exact congrArg Except.ok (addUp_replicate m hm x)
  · intro o t i
    rw [h.power, mapM_same (x := w.getPower o t i) hne (fun v hv => by rw [(List.mem_replicate.1 hv).2]), List.length_replicate]
    cases w.getPower o t i with
    | error e => rfl
    | ok x => exact congrArg Except.ok (addUp_replicate m hm x)

/-! ### Witnesses -/

theorem spread_single {w : Heater K} {g : List (Heater K)} (h : Together w g) : Spread [w] g :=
  ⟨[g], .cons h .nil, by simp⟩

namespace Demo

/-- A third and two thirds of a capacity. -/
def thirds (cap : ℚ) (m : ControlMap ℚ) : List (Heater ℚ) :=
  [cap / 3, 2 * cap / 3].map (fun c => Heater.fromNominal c (some allNormal) (some m))

theorem thirds_spread (cap : ℚ) (m : ControlMap ℚ) :
    Spread [Heater.fromNominal cap (some allNormal) (some m)] (thirds cap m) := by
  refine spread_single ?_
  have := C134_nominal [cap / 3, 2 * cap / 3] (by simp) (some allNormal) (some m)
  rwa [show ([cap / 3, 2 * cap / 3] : List ℚ).sum = cap by simp; ring] at this

/-- The sized system of the demonstration with two heaters of different size. -/
def sizedTwo : Prim ℚ := { sized with heaters := thirds (11694949 / 320000) highSensor }

theorem sizedTwo_spread : SpreadPrim sized sizedTwo := ⟨_, thirds_spread _ _, rfl⟩

end Demo

/-- The plant with two heaters completes with the same run as the plant with one. -/
example (thr : ℚ) (maxMin : Int) : ∃ sf sf' r, Demo.sized.simulate Demo.building thr maxMin "3day" = .ok (sf, r) ∧
    Demo.sizedTwo.simulate Demo.building thr maxMin "3day" = .ok (sf', r) := by
  obtain ⟨sf, r, h⟩ := C91_completes_partial Demo.sized Demo.building thr maxMin "3day" (.inl rfl) Demo.answers Demo.sized_ready
    (fun t ht => by obtain rfl : _ = t := Option.some.inj ht; constructor <;> decide +kernel)
  have := C134_primary _ _ Demo.sizedTwo_spread Demo.building thr maxMin "3day"
  rw [h] at this
  cases e : Demo.sizedTwo.simulate Demo.building thr maxMin "3day" with
  | error x => rw [e] at this; cases this
  | ok p =>
    rw [e] at this
    obtain ⟨p1, p2⟩ := p
    obtain rfl : p2 = r := Except.ok.inj this
    exact ⟨sf, p1, p2, h, rfl⟩

/-- A parallel loop, a swing tank and a multi-pass system with two heaters each. -/
example : SpreadPar Demo.defaultLoop { Demo.defaultLoop with prim := Demo.sizedTwo } := ⟨_, Demo.sizedTwo_spread, rfl⟩

example : SpreadSwing Demo.smallSim { Demo.smallSim with heaters := Demo.thirds 10 Demo.highSensor } := ⟨_, Demo.thirds_spread _ _, rfl⟩

example : SpreadMp (Demo.mpSim Demo.midSensor) { Demo.mpSim Demo.midSensor with heaters := Demo.thirds 1000 Demo.midSensor } :=
  ⟨_, Demo.thirds_spread _ _, rfl⟩

/-- Four units of a catalogue model as four heaters. -/
example (sched : List String) (m : ControlMap ℚ) :
    Spread [⟨some (moreUnits 4 (.pkl Demo.pklMap)), some sched, some m, false⟩] (List.replicate 4 ⟨some (.pkl Demo.pklMap), some sched, some m, false⟩) :=
  spread_single (C134_units 4 (by norm_num) ⟨some (.pkl Demo.pklMap), some sched, some m, false⟩)

end Eco
