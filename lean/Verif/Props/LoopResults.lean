import Verif.Spec.LoopResults
import Verif.Props.SwingSize
import Verif.Props.ParallelLoop
import Verif.Props.SwingEr

set_option linter.unusedSectionVars false

/-! C130: the sizes a recirculation system reports belong to its last successful sizing. -/

namespace Eco
variable {K : Type} [Field K] [LinearOrder K] [IsStrictOrderedRing K]

/-! ## Histories -/

theorem lastSuccess_nil {Q R : Type} (alone : Q → Option R) (before : R) :
    Spec.lastSuccess alone before [] = before := rfl

theorem lastSuccess_append {Q R : Type} (alone : Q → Option R) (before : R) (calls : List Q) (q : Q) :
    Spec.lastSuccess alone before (calls ++ [q]) = (alone q).getD (Spec.lastSuccess alone before calls) := by
  unfold Spec.lastSuccess
  cases h : alone q with
  | none => simp [List.filterMap_append, h]
  | some r => simp [List.filterMap_append, h]

theorem history {S Q R : Type} {step : S → Q → S} {report : S → R} {good : S → Prop} {alone : Q → Option R}
    {before : R} {s0 : S} {calls : List Q} (h0 : good s0) (hr : report s0 = before)
    (hgood : ∀ s q, good s → good (step s q))
    (hok : ∀ s, ∀ q ∈ calls, ∀ r, good s → alone q = some r → report (step s q) = r)
    (herr : ∀ s, ∀ q ∈ calls, good s → alone q = none → report (step s q) = report s) :
    report (calls.foldl step s0) = Spec.lastSuccess alone before calls := by
  suffices h : good (calls.foldl step s0) ∧ report (calls.foldl step s0) = Spec.lastSuccess alone before calls from h.2
  induction calls using List.reverseRecOn with
  | nil => exact ⟨h0, hr⟩
  | append_singleton qs q ih =>
    obtain ⟨h1, h2⟩ := ih (fun s x hx => hok s x (by simp [hx])) (fun s x hx => herr s x (by simp [hx]))
    rw [List.foldl_append, List.foldl_cons, List.foldl_nil, lastSuccess_append]
    refine ⟨hgood _ _ h1, ?_⟩
    cases h : alone q with
    | none => rw [herr _ q (by simp) h1 h, h2]; rfl
    | some r => rw [hok _ q (by simp) r h1 h]; rfl

/-! ## Parallel loops -/

/-- What the accessors of a parallel loop system answer. -/
def ParSys.report (s : ParSys K) : Spec.ParReport K :=
  ⟨getMinCapacity s.base, getMinStorage s.base, s.getTmVol, s.getTmCap⟩

/-- One `size` call on a parallel loop system. -/
def ParSys.call (M : SizingMethods K) (db : ShapeFiles K) (s : ParSys K) (q : SizeCall K) : ParSys K :=
  (s.size M db q.building q.sched q.cmap q.slope q.fract).1.1

/-- The report of a new parallel loop system after one call, `none` if the call raises. -/
def ParSys.alone (M : SizingMethods K) (db : ShapeFiles K) (c : SysCfg K) (t : TmCfg K) (q : SizeCall K) :
    Option (Spec.ParReport K) :=
  match ParSys.size M db { base := { cfg := c }, tm := t } q.building q.sched q.cmap q.slope q.fract with
  | (_, .error _) => none
  | ((s, _), .ok _) => some s.report

/-- The loop sizes of a validated configuration. -/
theorem sizeTm_valid {t : TmCfg K} (h : validateTm t = .ok ()) (supply : K) : ∃ v c, sizeTm supply t = .ok (v, c) := by
  have h1 := ((C64_validation t).1.1 h).2.2.2.1
  have : t.off - t.on ≠ 0 := sub_ne_zero.2 (ne_of_gt h1)
  exact ⟨_, _, by simp only [sizeTm, fdiv_ok _ this, ok_bind, pure_eq_ok]; rfl⟩

theorem parSize_fields (M : SizingMethods K) (db : ShapeFiles K) (s : ParSys K) (q : SizeCall K) :
    (s.call M db q).base.cfg = s.base.cfg ∧ (s.call M db q).tm = s.tm := by
  have hc := C07_size_restores_run_hours M db s.base q.building q.sched q.cmap q.slope q.fract
  unfold ParSys.call ParSys.size
  cases hv : validateTm s.tm with
  | error e => exact ⟨rfl, rfl⟩
  | ok u =>
    rcases hz : size M db s.base q.building q.sched q.cmap q.slope q.fract with ⟨⟨base, b'⟩, e | w⟩
    · rw [hz] at hc; exact ⟨hc, rfl⟩
    · rw [hz] at hc
      simp only
      cases sizeTm base.cfg.supply s.tm with
      | error e => exact ⟨hc, rfl⟩
      | ok p => exact ⟨hc, rfl⟩

/-- **C130 (parallel loops), partial.** For every history of `size` calls on a new parallel loop system in which no call
arrives at a capacity of exactly zero, every accessor raises `RuntimeError` until a call has succeeded, and afterwards all
of them answer what a new system sized by the last successful call answers. Missing: the calls that compute a zero
capacity, where the statement is false (`C09_failed_call_stores_results`). -/
theorem C130_parallel_partial (M : SizingMethods K) (db : ShapeFiles K) (c : SysCfg K) (t : TmCfg K)
    (calls : List (SizeCall K)) (hne : ∀ q ∈ calls, (freshResults M db c q).1 ≠ .ok 0) :
    (calls.foldl (ParSys.call M db) { base := { cfg := c }, tm := t }).report =
      Spec.lastSuccess (ParSys.alone M db c t) Spec.ParReport.unsized calls := by
  refine history (good := fun s => s.base.cfg = c ∧ s.tm = t) ⟨rfl, rfl⟩ rfl
    (fun s q h => ?_) (fun s q hq r h ha => ?_) (fun s q hq h ha => ?_)
  · have := parSize_fields M db s q
    exact ⟨this.1.trans h.1, this.2.trans h.2⟩
  · obtain ⟨rfl, rfl⟩ := h
    have hsf := size_fresh M db s.base q.building q.sched q.cmap q.slope q.fract
    simp only at hsf
    unfold ParSys.alone ParSys.size at ha
    unfold ParSys.call ParSys.size
    cases hv : validateTm s.tm with
    | error e => simp [hv] at ha
    | ok u =>
      rcases hz : size M db { cfg := s.base.cfg } q.building q.sched q.cmap q.slope q.fract with ⟨⟨base, b'⟩, e | w⟩
      · simp [hv, hz] at ha
      · rw [hz] at hsf
        simp only [hv, hz] at ha
        obtain ⟨cap, st, h1⟩ := size_fresh_ok (ws := w) (by rw [hz])
        obtain ⟨v, tc, h2⟩ := sizeTm_valid (t := s.tm) (by rw [hv]) s.base.cfg.supply
        rw [hz] at h1
        simp only at h1
        subst h1
        simp only [h2, Option.some.injEq] at ha
        simp only at hsf
        simp only [hsf, h2]
        rw [← ha]
        simp [ParSys.report, ParSys.getTmVol, ParSys.getTmCap, getMinCapacity, getMinStorage]
  · obtain ⟨rfl, rfl⟩ := h
    have hsf := size_fresh M db s.base q.building q.sched q.cmap q.slope q.fract
    simp only at hsf
    unfold ParSys.alone ParSys.size at ha
    unfold ParSys.call ParSys.size
    cases hv : validateTm s.tm with
    | error e => rfl
    | ok u =>
      rcases hz : size M db { cfg := s.base.cfg } q.building q.sched q.cmap q.slope q.fract with ⟨⟨base, b'⟩, e | w⟩
      · rw [hz] at hsf
        have h1 := size_fresh_error (e := e) (by rw [hz]) (by
          intro h0
          exact hne q hq (by simp only [freshResults, getMinCapacity, h0]))
        rw [hz] at h1
        simp only at h1 hsf
        simp only [hsf, h1]
        simp [ParSys.report, ParSys.getTmVol, ParSys.getTmCap, getMinCapacity, getMinStorage]
      · simp only [hv, hz] at ha
        obtain ⟨cap, st, h1⟩ := size_fresh_ok (ws := w) (by rw [hz])
        obtain ⟨v, tc, h2⟩ := sizeTm_valid (t := s.tm) (by rw [hv]) s.base.cfg.supply
        rw [hz] at h1
        simp only at h1
        subst h1
        simp [h2] at ha

/-- The hypothesis is met, by a history with a call that fails between two that succeed: the report is that of the third
call. -/
example :
    let a : SizeCall ℚ := ⟨Demo.building, none, some Demo.map, 28/10, 1⟩
    let bad : SizeCall ℚ := ⟨{ Demo.building with climate := none }, none, some Demo.map, 28/10, 1⟩
    let c : SizeCall ℚ := ⟨{ Demo.building with dailyGal := 2000 }, none, some Demo.map, 28/10, 1⟩
    (∀ q ∈ [a, bad, c], (freshResults baseMethods Demo.noFiles Demo.cfg q).1 ≠ .ok 0) ∧
    ParSys.alone baseMethods Demo.noFiles Demo.cfg Demo.tm bad = none ∧
    ParSys.alone baseMethods Demo.noFiles Demo.cfg Demo.tm a ≠ ParSys.alone baseMethods Demo.noFiles Demo.cfg Demo.tm c ∧
    ParSys.alone baseMethods Demo.noFiles Demo.cfg Demo.tm c =
      some ([a, bad, c].foldl (ParSys.call baseMethods Demo.noFiles) { base := { cfg := Demo.cfg }, tm := Demo.tm }).report := by
  decide +kernel

/-! ## Swing tanks -/

/-- What the accessors of a swing system answer. -/
def SwingSys.report (s : SwingSys K) : Spec.SwingReport K :=
  ⟨getMinCapacity s.base, getMinStorage s.base, s.getTmVol, s.getTmCa, s.getTmCap⟩

/-- One `size` call on a swing system. -/
def SwingSys.call (db : ShapeFiles K) (s : SwingSys K) (q : SizeCall K) : SwingSys K :=
  (s.size db q.building q.sched q.cmap q.slope q.fract).1.1

/-- The report of the object after one call, `none` if the call raises. -/
def SwingSys.alone (db : ShapeFiles K) (s : SwingSys K) (q : SizeCall K) : Option (Spec.SwingReport K) :=
  match s.size db q.building q.sched q.cmap q.slope q.fract with
  | (_, .error _) => none
  | ((s, _), .ok _) => some s.report

/-- Two objects with the same settings: they may differ in their results. -/
def SameSettings (s s' : SwingSys K) : Prop :=
  s.base.cfg = s'.base.cfg ∧ s.ret = s'.ret ∧ s.flow = s'.flow ∧ s.sf = s'.sf

/-- The object without the results of the primary plant. -/
def SwingSys.bare (s : SwingSys K) : SwingSys K := { s with base := { cfg := s.base.cfg } }

theorem runVolSwing_bare (s : SwingSys K) (b : Building K) : runVolSwing s b = runVolSwing s.bare b := rfl

theorem sizeSwingRest_bare (s : SwingSys K) (b : Building K) (ls : Option (List String × ControlMap K))
    (cmap : Option (ControlMap K)) (slope fract inlet rv : K) :
    sizeSwingRest s b ls cmap slope fract inlet rv = sizeSwingRest s.bare b ls cmap slope fract inlet rv := rfl

/-- How a call ends, on objects with the same settings: both raise at the same place, and what was stored before is
stored on both. -/
theorem sizeSwingBody_same {s s' : SwingSys K} (h : SameSettings s s') (b : Building K)
    (ls : Option (List String × ControlMap K)) (cmap : Option (ControlMap K)) (slope fract : K) :
    ((sizeSwingBody s b ls cmap slope fract).2 = (sizeSwingBody s' b ls cmap slope fract).2) ∧
    ((∃ e, (sizeSwingBody s' b ls cmap slope fract).2 = .error e ∧
        sizeSwingBody s' b ls cmap slope fract = (s', .error e) ∧ sizeSwingBody s b ls cmap slope fract = (s, .error e)) ∨
     (∃ e v ca cap m, sizeSwingBody s' b ls cmap slope fract =
          ({ s' with tmVol := some v, tmCa := some ca, tmCap := some cap, effMix := m }, .error e) ∧
        sizeSwingBody s b ls cmap slope fract =
          ({ s with tmVol := some v, tmCa := some ca, tmCap := some cap, effMix := m }, .error e)) ∨
     (∃ v ca cap m c st, sizeSwingBody s' b ls cmap slope fract =
          ({ s' with base := { s'.base with minCap := some c, minStorage := some st, sizingSlope := some slope },
                     tmVol := some v, tmCa := some ca, tmCap := some cap, effMix := m }, .ok ()) ∧
        sizeSwingBody s b ls cmap slope fract =
          ({ s with base := { s.base with minCap := some c, minStorage := some st, sizingSlope := some slope },
                    tmVol := some v, tmCa := some ca, tmCap := some cap, effMix := m }, .ok ()))) := by
  obtain ⟨base, ret, flow, sf, a1, a2, a3, mix⟩ := s
  obtain ⟨base', ret', flow', sf', a1', a2', a3', mix'⟩ := s'
  obtain ⟨h1, h2, h3, h4⟩ := h
  simp only at h1 h2 h3 h4
  subst h2 h3 h4
  unfold sizeSwingBody
  cases hin : requireDesignInlet b with
  | error e => exact ⟨rfl, .inl ⟨e, rfl, rfl, rfl⟩⟩
  | ok inlet =>
    simp only [h1]
    cases htm : sizeSwingTm base'.cfg.supply ret flow sf (some b) with
    | error e => exact ⟨rfl, .inl ⟨e, rfl, rfl, rfl⟩⟩
    | ok p =>
      obtain ⟨v, ca, cap⟩ := p
      simp only
      have e1 : runVolSwing ⟨base, ret, flow, sf, some (v : K), some ca, some cap, 1⟩ b =
          runVolSwing ⟨base', ret, flow, sf, some (v : K), some ca, some cap, 1⟩ b := by
        rw [runVolSwing_bare, runVolSwing_bare ⟨base', _, _, _, _, _, _, _⟩]
        simp only [SwingSys.bare, h1]
      rw [e1]
      cases hr : runVolSwing ⟨base', ret, flow, sf, some (v : K), some ca, some cap, 1⟩ b with
      | error e => exact ⟨rfl, .inr (.inl ⟨e, _, _, _, _, rfl, rfl⟩)⟩
      | ok p =>
        obtain ⟨rv, eff⟩ := p
        simp only
        have e2 : sizeSwingRest ⟨base, ret, flow, sf, some (v : K), some ca, some cap, eff.getD 1⟩ b ls cmap slope fract inlet rv =
            sizeSwingRest ⟨base', ret, flow, sf, some (v : K), some ca, some cap, eff.getD 1⟩ b ls cmap slope fract inlet rv := by
          rw [sizeSwingRest_bare, sizeSwingRest_bare ⟨base', _, _, _, _, _, _, _⟩]
          simp only [SwingSys.bare, h1]
        rw [e2]
        cases hs : sizeSwingRest ⟨base', ret, flow, sf, some (v : K), some ca, some cap, eff.getD 1⟩ b ls cmap slope fract inlet rv with
        | error e => exact ⟨rfl, .inr (.inl ⟨e, _, _, _, _, rfl, rfl⟩)⟩
        | ok p =>
          obtain ⟨c, st, m⟩ := p
          exact ⟨rfl, .inr (.inr ⟨_, _, _, _, _, _, rfl, rfl⟩)⟩

/-- The same, for whole calls. -/
theorem swingSize_same (db : ShapeFiles K) {s s' : SwingSys K} (h : SameSettings s s') (q : SizeCall K) :
    SameSettings (s.call db q) s' ∧
    ((∃ e, (s'.size db q.building q.sched q.cmap q.slope q.fract).2 = .error e ∧
        (s.size db q.building q.sched q.cmap q.slope q.fract).2 = .error e ∧
        s'.call db q = s' ∧ s.call db q = s) ∨
     (∃ e v ca cap m, (s'.size db q.building q.sched q.cmap q.slope q.fract).2 = .error e ∧
        (s.size db q.building q.sched q.cmap q.slope q.fract).2 = .error e ∧
        s'.call db q = { s' with tmVol := some v, tmCa := some ca, tmCap := some cap, effMix := m } ∧
        s.call db q = { s with tmVol := some v, tmCa := some ca, tmCap := some cap, effMix := m }) ∨
     (∃ v ca cap m c st, (s'.size db q.building q.sched q.cmap q.slope q.fract).2 = .ok () ∧
        (s.size db q.building q.sched q.cmap q.slope q.fract).2 = .ok () ∧
        s'.call db q =
          { s' with base := { s'.base with minCap := some c, minStorage := some st, sizingSlope := some q.slope },
                    tmVol := some v, tmCa := some ca, tmCap := some cap, effMix := m } ∧
        s.call db q =
          { s with base := { s.base with minCap := some c, minStorage := some st, sizingSlope := some q.slope },
                   tmVol := some v, tmCa := some ca, tmCap := some cap, effMix := m })) := by
  have hrest : ∀ x : SwingSys K, ∀ ls, ({ x with base := { x.base with
      cfg := { cappedCfg x.base.cfg ls with maxRunHr := x.base.cfg.maxRunHr } } } : SwingSys K) = x := by
    intro x ls; rw [cappedCfg_restore]
  obtain ⟨h1, h2, h3, h4⟩ := h
  have hcap : SameSettings (s.capped (lsInputs q.sched q.cmap)) (s'.capped (lsInputs q.sched q.cmap)) :=
    ⟨by simp only [SwingSys.capped, h1], h2, h3, h4⟩
  unfold SwingSys.call
  rcases swingSize_eq db s q.building q.sched q.cmap q.slope q.fract with ⟨e, hb, he⟩ | ⟨b1, b2, hb, he, -⟩
  · rcases swingSize_eq db s' q.building q.sched q.cmap q.slope q.fract with ⟨e', hb', he'⟩ | ⟨b1', b2', hb', he', -⟩
    · rw [hb] at hb'
      injection hb' with hb'
      subst hb'
      rw [he, he']
      exact ⟨⟨h1, h2, h3, h4⟩, .inl ⟨e, rfl, rfl, rfl, rfl⟩⟩
    · rw [hb] at hb'; simp at hb'
  · rcases swingSize_eq db s' q.building q.sched q.cmap q.slope q.fract with ⟨e', hb', he'⟩ | ⟨b1', b2', hb', he', -⟩
    · rw [hb] at hb'; simp at hb'
    · rw [hb] at hb'
      injection hb' with hb'
      subst hb'
      rw [he, he']
      obtain ⟨-, hbody⟩ := sizeSwingBody_same hcap b1 (lsInputs q.sched q.cmap) q.cmap q.slope q.fract
      rcases hbody with ⟨e, -, g', g⟩ | ⟨e, v, ca, cap, m, g', g⟩ | ⟨v, ca, cap, m, c, st, g', g⟩
      · rw [g, g']
        simp only [SwingSys.restore, SwingSys.capped, hrest]
        refine ⟨⟨h1, h2, h3, h4⟩, .inl ⟨e, ?_, ?_, ?_, ?_⟩⟩ <;> trivial
      · rw [g, g']
        simp only [SwingSys.restore, SwingSys.capped, cappedCfg_restore]
        refine ⟨⟨h1, h2, h3, h4⟩, .inr (.inl ⟨e, v, ca, cap, m, ?_, ?_, ?_, ?_⟩)⟩ <;> trivial
      · rw [g, g']
        simp only [SwingSys.restore, SwingSys.capped, cappedCfg_restore]
        refine ⟨⟨h1, h2, h3, h4⟩, .inr (.inr ⟨v, ca, cap, m, c, st, ?_, ?_, ?_, ?_⟩)⟩ <;> trivial

/-- **C130 (swing tanks, the primary plant).** For every history of `size` calls on a new swing system, the accessors for
the primary capacity and storage raise `RuntimeError` until a call has succeeded, and afterwards answer what a new system
sized by the last successful call answers. -/
theorem C130_swing_primary (db : ShapeFiles K) {c : SysCfg K} {ret flow sf : K} {s : SwingSys K}
    (hnew : SwingSys.new c ret flow sf = .ok s) (calls : List (SizeCall K)) :
    let r := (calls.foldl (SwingSys.call db) s).report
    let x := Spec.lastSuccess (s.alone db) Spec.SwingReport.unsized calls
    r.cap = x.cap ∧ r.storage = x.storage := by
  have hs : s = ⟨{ cfg := c }, ret, flow, sf, none, none, none, 1⟩ := by
    unfold SwingSys.new at hnew
    split at hnew
    · simp at hnew
    · injection hnew with h; exact h.symm
  have key := history (step := SwingSys.call db) (report := fun x => (x.report.cap, x.report.storage))
    (good := fun x => SameSettings x s) (alone := fun q => (s.alone db q).map (fun r => (r.cap, r.storage)))
    (before := ((Spec.SwingReport.unsized : Spec.SwingReport K).cap, (Spec.SwingReport.unsized : Spec.SwingReport K).storage))
    (s0 := s) (calls := calls) ⟨rfl, rfl, rfl, rfl⟩ (by rw [hs]; rfl)
    (fun x q hx => (swingSize_same db hx q).1)
    (fun x q _ r hx ha => ?_) (fun x q _ hx ha => ?_)
  · have : Spec.lastSuccess (fun q => (s.alone db q).map (fun r => (r.cap, r.storage)))
        ((Spec.SwingReport.unsized : Spec.SwingReport K).cap, (Spec.SwingReport.unsized : Spec.SwingReport K).storage) calls
        = ((Spec.lastSuccess (s.alone db) Spec.SwingReport.unsized calls).cap,
           (Spec.lastSuccess (s.alone db) Spec.SwingReport.unsized calls).storage) := by
      clear key
      induction calls using List.reverseRecOn with
      | nil => rfl
      | append_singleton qs q ih =>
        rw [lastSuccess_append, lastSuccess_append, ih]
        cases s.alone db q <;> rfl
    rw [this, Prod.mk.injEq] at key
    exact key
  · obtain ⟨-, hc⟩ := swingSize_same db hx q
    unfold SwingSys.alone at ha
    rcases hc with ⟨e, g1, g2, g3, g4⟩ | ⟨e, v, ca, cap, m, g1, g2, g3, g4⟩ | ⟨v, ca, cap, m, c', st, g1, g2, g3, g4⟩
    · rcases hz : s.size db q.building q.sched q.cmap q.slope q.fract with ⟨⟨s1, b1⟩, r1⟩
      rw [hz] at g1 ha; subst g1; simp at ha
    · rcases hz : s.size db q.building q.sched q.cmap q.slope q.fract with ⟨⟨s1, b1⟩, r1⟩
      rw [hz] at g1 ha; subst g1; simp at ha
    · unfold SwingSys.call at g3
      rcases hz : s.size db q.building q.sched q.cmap q.slope q.fract with ⟨⟨s1, b1⟩, r1⟩
      rw [hz] at g1 g3 ha
      subst g1
      simp only at g3
      simp only [Option.map_some, Option.some.injEq] at ha
      rw [g4, ← ha, g3]
      rfl
  · obtain ⟨-, hc⟩ := swingSize_same db hx q
    unfold SwingSys.alone at ha
    rcases hc with ⟨e, g1, g2, g3, g4⟩ | ⟨e, v, ca, cap, m, g1, g2, g3, g4⟩ | ⟨v, ca, cap, m, c', st, g1, g2, g3, g4⟩
    · rw [g4]
    · rw [g4]; rfl
    · rcases hz : s.size db q.building q.sched q.cmap q.slope q.fract with ⟨⟨s1, b1⟩, r1⟩
      rw [hz] at g1 ha; subst g1; simp at ha

/-- **C130 (swing tanks), partial.** If every call of the history that raises leaves a new object without loop sizes, all
five accessors answer what a new system sized by the last successful call answers. Missing: calls that raise after the
swing tank has been sized (`C130_swing_mixed`). -/
theorem C130_swing_partial (db : ShapeFiles K) {c : SysCfg K} {ret flow sf : K} {s : SwingSys K}
    (hnew : SwingSys.new c ret flow sf = .ok s) (calls : List (SizeCall K))
    (hearly : ∀ q ∈ calls, s.alone db q = none → (s.call db q).report = Spec.SwingReport.unsized) :
    (calls.foldl (SwingSys.call db) s).report = Spec.lastSuccess (s.alone db) Spec.SwingReport.unsized calls := by
  have hs : s = ⟨{ cfg := c }, ret, flow, sf, none, none, none, 1⟩ := by
    unfold SwingSys.new at hnew
    split at hnew
    · simp at hnew
    · injection hnew with h; exact h.symm
  refine history (good := fun x => SameSettings x s) ⟨rfl, rfl, rfl, rfl⟩ (by rw [hs]; rfl)
    (fun x q hx => (swingSize_same db hx q).1)
    (fun x q _ r hx ha => ?_) (fun x q hq hx ha => ?_)
  · obtain ⟨-, hc⟩ := swingSize_same db hx q
    unfold SwingSys.alone at ha
    rcases hc with ⟨e, g1, g2, g3, g4⟩ | ⟨e, v, ca, cap, m, g1, g2, g3, g4⟩ | ⟨v, ca, cap, m, c', st, g1, g2, g3, g4⟩
    · rcases hz : s.size db q.building q.sched q.cmap q.slope q.fract with ⟨⟨s1, b1⟩, r1⟩
      rw [hz] at g1 ha; subst g1; simp at ha
    · rcases hz : s.size db q.building q.sched q.cmap q.slope q.fract with ⟨⟨s1, b1⟩, r1⟩
      rw [hz] at g1 ha; subst g1; simp at ha
    · unfold SwingSys.call at g3
      rcases hz : s.size db q.building q.sched q.cmap q.slope q.fract with ⟨⟨s1, b1⟩, r1⟩
      rw [hz] at g1 g3 ha
      subst g1
      simp only at g3
      simp only [Option.some.injEq] at ha
      rw [g4, ← ha, g3]
      rfl
  · have hq' := hearly q hq ha
    obtain ⟨-, hc⟩ := swingSize_same db hx q
    unfold SwingSys.alone at ha
    rcases hc with ⟨e, g1, g2, g3, g4⟩ | ⟨e, v, ca, cap, m, g1, g2, g3, g4⟩ | ⟨v, ca, cap, m, c', st, g1, g2, g3, g4⟩
    · rw [g4]
    · rw [g3] at hq'
      simp [SwingSys.report, SwingSys.getTmVol, sizedOr, Spec.SwingReport.unsized] at hq'
    · rcases hz : s.size db q.building q.sched q.cmap q.slope q.fract with ⟨⟨s1, b1⟩, r1⟩
      rw [hz] at g1 ha; subst g1; simp at ha

/-- A schedule that sheds every hour: `size` fails after the swing tank has been sized. The loop sizes are those of
the call that failed, the sizes of the primary plant are still those from before. -/
theorem C130_swing_mixed (db : ShapeFiles K) (s : SwingSys K) (b : Building K) (sched : List String)
    (m : ControlMap K) (slope fract inlet factor : K) {vol ca : Nat} {cap : K}
    (hday : b.isAnnual = false) (hlen : b.peakShape.length = 24) (hin : requireDesignInlet b = .ok inlet)
    (hshed : ∀ h ∈ sched, h = "shed") (hsome : sched ≠ []) (hm : dictHas m "shed" = true)
    (hrun : 0 ≤ s.base.cfg.maxRunHr)
    (hfac : stratFactor s.base.cfg (some m) slope inlet = .ok factor) (hf0 : factor ≠ 0)
    (htm : sizeSwingTm s.base.cfg.supply s.ret s.flow s.sf (some b) = .ok (vol, ca, cap)) :
    let r := s.size db b (some sched) (some m) slope fract
    r.2 = .error .zeroDivision ∧ r.1.1.report =
      { s.report with tmVol := .ok (vol : K), tmCa := .ok ca, tmCap := .ok cap } := by
  have hls : lsInputs (some sched) (some m) = some (sched, m) := by
    cases sched with
    | nil => exact absurd rfl hsome
    | cons x xs => simp [lsInputs, truthySched, hm]
  have hns : nonShed sched = 0 := by
    unfold nonShed
    rw [List.countP_eq_zero]
    intro x hx
    simp [hshed x hx]
  have hcfg : cappedCfg s.base.cfg (some (sched, m)) = { s.base.cfg with maxRunHr := 0 } := by
    simp only [cappedCfg, hns, Nat.cast_zero, min_eq_right hrun]
  have hfac' : stratFactor { s.base.cfg with maxRunHr := 0 } (some m) slope inlet = .ok factor := by
    rw [← hfac]; rfl
  have hdv : dailyView db b = .ok b := by simp [dailyView, hday]
  have hbody : sizeSwingBody (s.capped (some (sched, m))) b (some (sched, m)) (some m) slope fract =
      ({ s.capped (some (sched, m)) with tmVol := some (vol : K), tmCa := some ca, tmCap := some cap, effMix := 1 },
        .error .zeroDivision) := by
    have hst : ∃ v, storageVolume (0 : K) factor = .ok v := ⟨_, fdiv_ok _ hf0⟩
    obtain ⟨v, hst⟩ := hst
    unfold sizeSwingBody
    simp only [SwingSys.capped, hcfg, hin, htm]
    have h1 : ∀ x : SwingSys K, x.base.cfg = { s.base.cfg with maxRunHr := 0 } → runVolSwing x b = .ok (0, none) := by
      intro x hx
      simp [runVolSwing, hx, hin, hlen, ok_bind, pure_eq_ok]
    rw [h1 _ rfl]
    simp only [Option.getD_none]
    have h2 : ∀ x : SwingSys K, x.base.cfg = { s.base.cfg with maxRunHr := 0 } →
        sizeSwingRest x b (some (sched, m)) (some m) slope fract inlet 0 = .error .zeroDivision := by
      intro x hx
      unfold sizeSwingRest requiredCapacitySwing
      simp only [hx, hfac', hst, hin, ok_bind]
      simp [fdiv, error_bind]
    rw [h2 _ rfl]
  rcases swingSize_eq db s b (some sched) (some m) slope fract with ⟨e, h, he⟩ | ⟨b1, b2, h, he, -⟩
  · rw [hdv] at h; simp at h
  · rw [hdv] at h
    injection h with h
    subst h
    rw [hls, hbody] at he
    intro r
    simp only [r, he]
    exact ⟨trivial, rfl⟩

theorem swing_call_ok {db : ShapeFiles K} {s s' : SwingSys K} {q : SizeCall K} {b' : Building K} {r : Py Unit}
    (h : s.size db q.building q.sched q.cmap q.slope q.fract = ((s', b'), r)) : s.call db q = s' := by
  unfold SwingSys.call; rw [h]

theorem swing_alone_ok {db : ShapeFiles K} {s s' : SwingSys K} {q : SizeCall K} {b' : Building K}
    (h : s.size db q.building q.sched q.cmap q.slope q.fract = ((s', b'), .ok ())) : s.alone db q = some s'.report := by
  unfold SwingSys.alone; rw [h]

theorem swing_alone_error {db : ShapeFiles K} {s : SwingSys K} {q : SizeCall K} {e : PyErr}
    (h : (s.size db q.building q.sched q.cmap q.slope q.fract).2 = .error e) : s.alone db q = none := by
  unfold SwingSys.alone
  rcases hz : s.size db q.building q.sched q.cmap q.slope q.fract with ⟨⟨x, y⟩, r⟩
  rw [hz] at h
  simp only at h
  subst h
  rfl

namespace Demo

/-- A sixty times larger building. -/
def large : Building ℚ := { building with dailyGal := 60000 }

/-- A call for the demo building. -/
def firstCall : SizeCall ℚ := ⟨building, none, some map, 28/10, 1⟩

/-- A call for the larger building that sheds every hour. -/
def shedCall : SizeCall ℚ := ⟨large, some (List.replicate 24 "shed"), some map, 28/10, 1⟩

theorem firstCall_ok : ∃ s', swing.size noFiles firstCall.building firstCall.sched firstCall.cmap firstCall.slope
    firstCall.fract = ((s', building), .ok ()) ∧ s'.tmVol = some 50 := by
  have htm : sizeSwingTm (K := ℚ) swing.base.cfg.supply swing.ret swing.flow swing.sf
      (some building) = .ok (50, 80, 6/5 * recircLossKbtuh 120 110 3) := by decide +kernel
  obtain ⟨s', h1, h2, -⟩ := C67_size_never_fails (db := noFiles) (s := swing) (b := firstCall.building)
    (sched := firstCall.sched) (cmap := firstCall.cmap) (slope := firstCall.slope) (fract := firstCall.fract) (inlet := 50)
    (factor := 307/392) (by simp [lsInputs, truthySched, firstCall]) (by decide +kernel) (by decide +kernel)
    (by decide +kernel) (by decide +kernel) (by decide +kernel) (by decide +kernel) htm (by decide +kernel)
    (by decide +kernel) (by decide +kernel) (by decide +kernel) (by decide +kernel) (by decide +kernel)
    (by decide +kernel) (by norm_num)
  exact ⟨s', h1, h2⟩

theorem shedCall_fails {s : SwingSys ℚ} (hs : SameSettings s swing) :
    (s.size noFiles shedCall.building shedCall.sched shedCall.cmap shedCall.slope shedCall.fract).2 = .error .zeroDivision ∧
    (s.call noFiles shedCall).report = { s.report with tmVol := .ok 100, tmCa := .ok 96, tmCap := .ok (45109089/2500000) } := by
  obtain ⟨g1, g2, g3, g4⟩ := hs
  have := C130_swing_mixed noFiles s shedCall.building (List.replicate 24 "shed") map shedCall.slope shedCall.fract 50 (307/392) (vol := 100) (ca := 96)
    (cap := 45109089/2500000) (by decide +kernel) (by decide +kernel) (by decide +kernel)
    (fun h hh => (List.mem_replicate.1 hh).2) (by decide) (by decide +kernel) (by rw [g1]; decide +kernel)
    (by rw [g1]; decide +kernel) (by norm_num) (by rw [g1, g2, g3, g4]; decide +kernel)
  refine ⟨this.1, ?_⟩
  have h := this.2
  rw [show (((100 : ℕ) : ℚ)) = 100 by norm_num] at h
  exact h

end Demo

/-- **C130 is false as stated.** A swing system is sized for the demo building. It is then sized for a building sixty
times as large, with a schedule that sheds every hour: that call raises. The accessors now report the swing tank of the
large building (100 gal instead of 50) next to the primary plant of the small one. -/
theorem C130_swing_reports_two_buildings :
    SwingSys.new Demo.cfg 110 3 (6/5) = .ok Demo.swing ∧
    ∃ r, Demo.swing.alone Demo.noFiles Demo.firstCall = some r ∧ Demo.swing.alone Demo.noFiles Demo.shedCall = none ∧
      r.tmVol = .ok 50 ∧ (∃ x, r.storage = .ok x) ∧
      let now := ([Demo.firstCall, Demo.shedCall].foldl (SwingSys.call Demo.noFiles) Demo.swing).report
      now.cap = r.cap ∧ now.storage = r.storage ∧ now.tmVol = .ok 100 := by
  refine ⟨by unfold SwingSys.new; rw [if_neg (by norm_num)]; rfl, ?_⟩
  obtain ⟨s', h1, h2⟩ := Demo.firstCall_ok
  have hsame : SameSettings Demo.swing Demo.swing := ⟨rfl, rfl, rfl, rfl⟩
  have hcall : Demo.swing.call Demo.noFiles Demo.firstCall = s' := swing_call_ok h1
  have hs' : SameSettings s' Demo.swing := by
    rw [← hcall]; exact (swingSize_same Demo.noFiles hsame Demo.firstCall).1
  obtain ⟨b1, inlet, vol, ca, cap, rv, eff, capP, st, mix, -, -, -, -, -, hform⟩ := swingSize_ok h1
  refine ⟨s'.report, ?_, ?_, ?_, ⟨st, ?_⟩, ?_⟩
  · exact swing_alone_ok h1
  · exact swing_alone_error (Demo.shedCall_fails hsame).1
  · simp only [SwingSys.report, SwingSys.getTmVol, sizedOr, h2]
  · rw [hform]; rfl
  · simp only [List.foldl_cons, List.foldl_nil, hcall, (Demo.shedCall_fails hs').2]
    exact ⟨trivial, trivial, trivial⟩

/-- The hypothesis of `C130_swing_partial` is met: the demo building is sized, and a call with a shape that is too short
fails before anything is stored. -/
example : ([Demo.firstCall, ⟨{ Demo.building with peakShape := [] }, none, none, 28/10, 1⟩].foldl
    (SwingSys.call Demo.noFiles) Demo.swing).report =
    Spec.lastSuccess (Demo.swing.alone Demo.noFiles) Spec.SwingReport.unsized
      [Demo.firstCall, ⟨{ Demo.building with peakShape := [] }, none, none, 28/10, 1⟩] := by
  apply C130_swing_partial Demo.noFiles (c := Demo.cfg) (ret := 110) (flow := 3) (sf := 6/5)
    (by unfold SwingSys.new; rw [if_neg (by norm_num)]; rfl)
  intro q hq ha
  simp only [List.mem_cons, List.not_mem_nil, or_false] at hq
  rcases hq with rfl | rfl
  · obtain ⟨s', h1, -⟩ := Demo.firstCall_ok
    rw [swing_alone_ok h1] at ha
    cases ha
  · decide +kernel

/-! ## Swing tanks with an enlarged element -/

/-- What the accessors of a swing system with an enlarged element answer. -/
def ErSys.report (e : ErSys K) : Spec.ErReport K := ⟨e.sw.report, e.getErCap, e.getErKw⟩

/-- One `size` call. -/
def ErSys.call (db : ShapeFiles K) (e : ErSys K) (q : SizeCall K) : ErSys K :=
  (e.size db q.building q.sched q.cmap q.slope q.fract).1.1

/-- The report of the object after one call, `none` if the call raises. -/
def ErSys.alone (db : ShapeFiles K) (e : ErSys K) (q : SizeCall K) : Option (Spec.ErReport K) :=
  match e.size db q.building q.sched q.cmap q.slope q.fract with
  | (_, .error _) => none
  | ((e, _), .ok _) => some e.report

/-- The building left behind by a call does not depend on the results stored before. -/
theorem swingSize_building (db : ShapeFiles K) {s s' : SwingSys K} (h : SameSettings s s') (q : SizeCall K) :
    (s.size db q.building q.sched q.cmap q.slope q.fract).1.2 =
      (s'.size db q.building q.sched q.cmap q.slope q.fract).1.2 := by
  have hcap : SameSettings (s.capped (lsInputs q.sched q.cmap)) (s'.capped (lsInputs q.sched q.cmap)) :=
    ⟨by simp only [SwingSys.capped, h.1], h.2.1, h.2.2.1, h.2.2.2⟩
  unfold SwingSys.size
  cases (if q.building.isAnnual then q.building.setToDaily db else Except.ok q.building) with
  | error e => rfl
  | ok b1 =>
    simp only
    have hb := (sizeSwingBody_same hcap b1 (lsInputs q.sched q.cmap) q.cmap q.slope q.fract).1
    simp only [SwingSys.capped] at hb
    rw [hb]
    split
    · rfl
    · split
      · split <;> rfl
      · rfl

/-- `_size_er_element` reads the settings, the sizes and the building. -/
theorem sizeEr_same {e e' : ErSys K} (h : SameSettings e.sw e'.sw) (hsf : e.erSf = e'.erSf)
    (hv : e.sw.tmVol = e'.sw.tmVol) (hc : e.sw.tmCap = e'.sw.tmCap)
    (hcap : e.sw.base.minCap = e'.sw.base.minCap) (hst : e.sw.base.minStorage = e'.sw.base.minStorage)
    (b : Building K) :
    (∃ x, e'.sizeEr b = (e', .error x) ∧ e.sizeEr b = (e, .error x)) ∨
    (∃ er, e'.sizeEr b = ({ e' with erCap := some er, sw := { e'.sw with tmCap := e'.sw.tmCap.map (· + er) } }, .ok ()) ∧
      e.sizeEr b = ({ e with erCap := some er, sw := { e.sw with tmCap := e'.sw.tmCap.map (· + er) } }, .ok ())) := by
  obtain ⟨g1, g2, g3, g4⟩ := h
  have hp : e.sw.params = e'.sw.params := by
    unfold SwingSys.params
    rw [g1, g2, g3, hv, hc]
  unfold ErSys.sizeEr
  rw [hp, hcap, hst, g1, hsf, hc]
  simp only
  split
  · exact .inl ⟨_, rfl, rfl⟩
  · exact .inr ⟨_, rfl, rfl⟩

/-- **C130 (enlarged element), partial.** If every call of the history that raises leaves a new object unsized, all
accessors answer what a new system sized by the last successful call answers; the added capacity in kW and in kBTU/h
agree. Missing: calls that raise after something has been stored (`C130_er_mixed`). -/
theorem C130_er_partial (db : ShapeFiles K) {c : SysCfg K} {ret flow sf erSf : K} {e : ErSys K}
    (hnew : ErSys.new c ret flow sf erSf = .ok e) (calls : List (SizeCall K))
    (hearly : ∀ q ∈ calls, e.alone db q = none → (e.call db q).report = Spec.ErReport.unsized) :
    (calls.foldl (ErSys.call db) e).report = Spec.lastSuccess (e.alone db) Spec.ErReport.unsized calls := by
  have hs : e = ⟨⟨{ cfg := c }, ret, flow, sf, none, none, none, 1⟩, erSf, none⟩ := by
    unfold ErSys.new SwingSys.new at hnew
    split at hnew
    · simp [Except.map] at hnew
    · simp only [Except.map, Except.ok.injEq] at hnew; exact hnew.symm
  have hstep : ∀ x : ErSys K, SameSettings x.sw e.sw ∧ x.erSf = e.erSf → ∀ q,
      (SameSettings (x.call db q).sw e.sw ∧ (x.call db q).erSf = e.erSf) ∧
      (∀ r, e.alone db q = some r → (x.call db q).report = r) ∧
      (e.alone db q = none → (e.call db q).report = Spec.ErReport.unsized → (x.call db q).report = x.report) := by
    rintro x ⟨hx, hxf⟩ q
    have hb := swingSize_building db hx q
    obtain ⟨hset, hc⟩ := swingSize_same db hx q
    unfold SwingSys.call at hset hc
    unfold ErSys.alone ErSys.call ErSys.size
    rcases hz : e.sw.size db q.building q.sched q.cmap q.slope q.fract with ⟨⟨s1, b1⟩, r1⟩
    rcases hz' : x.sw.size db q.building q.sched q.cmap q.slope q.fract with ⟨⟨s2, b2⟩, r2⟩
    rw [hz, hz'] at hb hc
    rw [hz'] at hset
    simp only at hb hc hset
    subst hb
    rcases hc with ⟨x', rfl, rfl, g3, g4⟩ | ⟨x', v, ca, cap, m, rfl, rfl, g3, g4⟩ |
      ⟨v, ca, cap, m, c', st, rfl, rfl, g3, g4⟩
    · simp only
      refine ⟨⟨hset, hxf⟩, by simp, fun _ _ => ?_⟩
      rw [g4]
    · simp only
      refine ⟨⟨hset, hxf⟩, by simp, fun _ h => ?_⟩
      rw [g3] at h
      simp [ErSys.report, SwingSys.report, SwingSys.getTmVol, sizedOr, Spec.ErReport.unsized,
        Spec.SwingReport.unsized] at h
    · simp only
      have hset' : SameSettings s2 s1 := by
        rw [g3]; exact hset
      rcases sizeEr_same (e := { x with sw := s2 }) (e' := { e with sw := s1 }) hset' hxf (by rw [g3, g4])
          (by rw [g3, g4]) (by rw [g3, g4]) (by rw [g3, g4]) b2 with ⟨y, k1, k2⟩ | ⟨er, k1, k2⟩
      · rw [k1, k2]
        refine ⟨⟨hset, hxf⟩, by simp, fun _ h => ?_⟩
        rw [g3] at h
        simp [ErSys.report, SwingSys.report, SwingSys.getTmVol, sizedOr, Spec.ErReport.unsized,
          Spec.SwingReport.unsized] at h
      · rw [k1, k2]
        refine ⟨⟨hset, hxf⟩, fun r h => ?_, by simp⟩
        simp only [Option.some.injEq] at h
        rw [← h, g3, g4]
        rfl
  refine history (good := fun x => SameSettings x.sw e.sw ∧ x.erSf = e.erSf) ⟨⟨rfl, rfl, rfl, rfl⟩, rfl⟩
    (by rw [hs]; rfl) (fun x q hx => (hstep x hx q).1) (fun x q _ r hx ha => (hstep x hx q).2.1 r ha)
    (fun x q hq hx ha => (hstep x hx q).2.2 ha (hearly q hq ha))

/-- The capacity in kW is the one in kBTU/h divided by 3.412142, and both are missing together. -/
theorem C130_er_units (e : ErSys K) : e.getErKw = e.getErCap.map (· / (3412142 / 1000000)) := by
  unfold ErSys.getErKw
  cases e.getErCap <;> rfl

/-- **C130 (enlarged element), negation.** After a call that sheds every hour the element is reported as sized by the
base rule for the new building, without the enlargement, while the enlargement of the earlier call is still reported. -/
theorem C130_er_mixed (db : ShapeFiles K) (e : ErSys K) (b : Building K) (sched : List String)
    (m : ControlMap K) (slope fract inlet factor : K) {vol ca : Nat} {cap : K}
    (hday : b.isAnnual = false) (hlen : b.peakShape.length = 24) (hin : requireDesignInlet b = .ok inlet)
    (hshed : ∀ h ∈ sched, h = "shed") (hsome : sched ≠ []) (hm : dictHas m "shed" = true)
    (hrun : 0 ≤ e.sw.base.cfg.maxRunHr)
    (hfac : stratFactor e.sw.base.cfg (some m) slope inlet = .ok factor) (hf0 : factor ≠ 0)
    (htm : sizeSwingTm e.sw.base.cfg.supply e.sw.ret e.sw.flow e.sw.sf (some b) = .ok (vol, ca, cap)) :
    let r := e.size db b (some sched) (some m) slope fract
    r.2 = .error .zeroDivision ∧ r.1.1.report =
      { e.report with swing := { e.sw.report with tmVol := .ok (vol : K), tmCa := .ok ca, tmCap := .ok cap } } := by
  have h := C130_swing_mixed db e.sw b sched m slope fract inlet factor hday hlen hin hshed hsome hm hrun hfac hf0 htm
  unfold ErSys.size
  rcases hz : e.sw.size db b (some sched) (some m) slope fract with ⟨⟨s1, b1⟩, r1⟩
  rw [hz] at h
  obtain ⟨h1, h2⟩ := h
  simp only at h1 h2
  subst h1
  simp only
  refine ⟨trivial, ?_⟩
  unfold ErSys.report
  simp only [h2]
  rfl

/-- The hypotheses of the ER theorems are met: a history of one call that fails early, and the call that sheds every
hour on an object whose element has been enlarged. -/
example : ([(⟨{ Demo.building with peakShape := [] }, none, none, 28/10, 1⟩ : SizeCall ℚ)].foldl
    (ErSys.call Demo.noFiles) ⟨Demo.swing, 1, none⟩).report = Spec.ErReport.unsized := by
  have := C130_er_partial Demo.noFiles (c := Demo.cfg) (ret := 110) (flow := 3) (sf := 6/5) (erSf := 1)
    (e := ⟨Demo.swing, 1, none⟩) (by unfold ErSys.new SwingSys.new; rw [if_neg (by norm_num)]; rfl) [⟨{ Demo.building with peakShape := [] }, none, none, 28/10, 1⟩]
    (by
      intro q hq _
      simp only [List.mem_cons, List.not_mem_nil, or_false] at hq
      subst hq
      decide +kernel)
  rw [this]
  decide +kernel

example (x : ℚ) (s : SwingSys ℚ) (hs : SameSettings s Demo.swing) :
    ((ErSys.size Demo.noFiles ⟨s, 1, some x⟩ Demo.large (some (List.replicate 24 "shed")) (some Demo.map) (28/10) 1).1.1).report
      = ⟨{ s.report with tmVol := .ok (100 : ℕ), tmCa := .ok 96, tmCap := .ok (45109089/2500000) }, .ok x,
          .ok (x / wToKbtuh ℚ)⟩ := by
  obtain ⟨g1, g2, g3, g4⟩ := hs
  exact (C130_er_mixed Demo.noFiles ⟨s, 1, some x⟩ Demo.large (List.replicate 24 "shed") Demo.map (28/10) 1 50 (307/392)
    (vol := 100) (ca := 96) (cap := 45109089/2500000) (by decide +kernel) (by decide +kernel) (by decide +kernel)
    (fun h hh => (List.mem_replicate.1 hh).2) (by decide) (by decide +kernel) (by simp only [g1]; decide +kernel)
    (by simp only [g1]; decide +kernel) (by norm_num) (by simp only [g1, g2, g3, g4]; decide +kernel)).2

end Eco
