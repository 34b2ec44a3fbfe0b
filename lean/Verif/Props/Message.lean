import Verif.Props.Simulate
import Verif.Props.EngineReport

/-! C112: the failure message. C20: the data of a climate zone. -/

namespace Eco
variable {K : Type} [Field K] [LinearOrder K] [IsStrictOrderedRing K]

set_option linter.unusedSectionVars false

open Spec

/-! ## C20 -/

/-- **C20 (data).** A climate zone from 1 to the number of columns of both tables gets the outdoor temperatures of its
column of the air table and the inlet temperatures of its column of the water table, row by row. -/
theorem C20_zone_data (t : ClimateZone.Tables K) (z : Int) (n : ℕ) (ho : ∀ r ∈ t.oatRows, r.length = n)
    (hi : ∀ r ∈ t.inletRows, r.length = n) (h1 : 1 ≤ z) (h2 : z ≤ n) :
    ∃ oat inl, ClimateZone.fromZoneId t z = .ok ⟨some z, some oat, some inl, none, none⟩ ∧
      IsColumn t.oatRows z oat ∧ IsColumn t.inletRows z inl := by
  obtain ⟨oat, a1, a2⟩ := loadColumn_ok t.oatRows z n ho h1 h2
  obtain ⟨inl, b1, b2⟩ := loadColumn_ok t.inletRows z n hi h1 h2
  refine ⟨oat, inl, ?_, a2, b2⟩
  unfold ClimateZone.fromZoneId
  simp only [a1, b1, ok_bind, pure_eq_ok]

/-- Two zones, two hours, one month. -/
example : (ClimateZone.fromZoneId (K := ℚ) ⟨[], [], [[20, 25], [30, 35]], [[50, 55]]⟩ 2).map
    (fun c => (c.oatByHour, c.inletByMonth)) = .ok (some [25, 35], some [55]) := by
  decide +kernel

/-! ## C112 -/

/-- The indices that pass a test pick the elements that pass it. -/
theorem pick_filter {α : Type} (p : α → Bool) (f : α → K) (q : ℕ → Bool) (l : List α)
    (hq : ∀ i x, l[i]? = some x → q i = p x) :
    List.Forall₂ (fun i y => (l.map f)[i]? = some y) ((List.range l.length).filter q) ((l.filter p).map f) := by
  induction l using List.reverseRecOn with
  | nil => simp
  | append_singleton l a ih =>
    rw [List.length_append, List.length_singleton, List.range_succ, List.filter_append, List.filter_append,
      List.map_append (l₁ := l.filter p)]
    refine List.rel_append ?_ ?_
    · have ih' := ih (fun i x hx => hq i x (by
        rw [List.getElem?_append_left (List.getElem?_eq_some_iff.1 hx).1]; exact hx))
      refine ih'.imp ?_
      intro i y hy
      have hlt := (List.getElem?_eq_some_iff.1 hy).1
      rw [List.map_append, List.getElem?_append_left hlt]
      exact hy
    · have e := hq l.length a (by simp)
      cases hp : p a with
      | false => simp [e, hp]
      | true => simp [e, hp]

/-- `msg` is what a run with the reports `outs` should say when hot water ran out: the minutes without hot water,
the day (from 1) of the first step without it, and the mean delivered temperature of those steps. -/
def Spec.IsFailure (ts : ℕ) (outs : List (StepOut K)) (minutes day : ℕ) (avg : K) : Prop :=
  minutes = ts * outSteps outs ∧
  (∃ first o, outs[first]? = some o ∧ o.usable ≤ 0 ∧ (∀ j < first, ∀ o', outs[j]? = some o' → 0 < o'.usable) ∧
    (day - 1) * 1440 ≤ first * ts ∧ first * ts < day * 1440) ∧
  avg * (outSteps outs : K) = ((outs.filter (fun o => decide (o.usable ≤ 0))).map delivered).sum

/-- **C112.** Of a run whose reports come with six tank temperatures, and whose delivery point is the top of the tank, or
the temperature-maintenance tank where that is shown: the message is the success message if there was no outage, and
otherwise names the outage minutes, the day of the first step without usable hot water and the mean temperature delivered
in the steps without. It never fails and never takes the form that leaves out the day. -/
theorem C112_message {S : Type} (step : ℕ → S → ℕ → Py (S × StepOut K)) (supply : K) (tm : Bool) (thr : K)
    (maxMin : Int) (duration : String) (s s' : S) (r : SimRun K)
    (hsix : ∀ ts s i s' o, step ts s i = .ok (s', o) → o.temps.length = 6 ∧
      (tm = true → o.tmTemp = some (delivered o)) ∧ (tm = false → o.delivery = none))
    (h : simulateFrom step supply tm thr maxMin duration s = .ok (s', r)) :
    ∃ outs, Trace (step r.ts) s 0 outs s' ∧ Recorded r outs ∧
      ((∀ o ∈ outs, 0 < o.usable) → r.failureMessage = .ok .success) ∧
      ((∃ o ∈ outs, o.usable ≤ 0) → ∃ minutes day avg, r.failureMessage = .ok (.failed minutes day avg) ∧
        IsFailure r.ts outs minutes day avg) := by
  have hsucc := (C42_outage_partial step supply tm thr maxMin duration s s' r h).2
  obtain ⟨dur, ts, outs, h1, h2, h3, h4, h5, h6, h7, h8, _⟩ := simulate_spec step supply tm thr maxMin duration s s' r h
  subst h3
  obtain ⟨_, hfact⟩ := trace_forall (fun _ => True) (fun _ o => o.temps.length = 6 ∧
    (tm = true → o.tmTemp = some (delivered o)) ∧ (tm = false → o.delivery = none))
    (fun s i s' o _ hst => ⟨trivial, hsix _ s i s' o hst⟩) outs s s' 0 trivial h4
  have hmem : ∀ o ∈ outs, o.temps.length = 6 ∧ (tm = true → o.tmTemp = some (delivered o)) ∧
      (tm = false → o.delivery = none) := by
    intro o ho
    obtain ⟨j, hj⟩ := List.mem_iff_getElem?.1 ho
    exact hfact j o hj
  have htop := h5.temps (fun o ho => (hmem o ho).1) 5 (by norm_num)
  refine ⟨outs, h4, h5, ?_, ?_⟩
  · intro hall
    unfold SimRun.failureMessage
    rw [if_pos]
    rw [hsucc, h5.usable]
    simpa using hall
  · rintro ⟨o0, ho0, hu0⟩
    have hns : r.isSuccessful = false := by
      rw [← Bool.not_eq_true, hsucc, h5.usable]
      intro hh
      exact absurd (hh o0.usable (List.mem_map.2 ⟨o0, ho0, rfl⟩)) (not_lt.2 hu0)
    set temps := if r.showTm && decide (r.tmTemp ≠ []) then r.tmTemp else r.temps.getD 5 [] with htemps
    have hte : temps = outs.map delivered := by
      rw [htemps, h8]
      cases htm : tm with
      | true =>
        have e : r.tmTemp = outs.map delivered := by
          rw [h5.tmTemp]
          have : ∀ l : List (StepOut K), (∀ o ∈ l, o ∈ outs) → l.filterMap (·.tmTemp) = l.map delivered := by
            intro l hl
            induction l with
            | nil => rfl
            | cons a l ih =>
              rw [List.filterMap_cons, ((hmem a (hl a (by simp))).2.1 htm)]
              simp only [List.map_cons]
              rw [ih (fun o ho => hl o (List.mem_cons_of_mem _ ho))]
          exact this outs (fun _ h => h)
        rw [if_pos, e]
        rw [e]
        simp only [Bool.true_and, decide_eq_true_eq, ne_eq, List.map_eq_nil_iff]
        rintro rfl; simp at ho0
      | false =>
        simp only [Bool.false_and, Bool.false_eq_true, if_false]
        rw [htop]
        apply List.map_congr_left
        intro o ho
        obtain ⟨a, _, b⟩ := hmem o ho
        unfold delivered
        rw [b htm]
        simp only [Option.getD_none]
        have hl : o.temps ≠ [] := by intro hh; rw [hh] at a; simp at a
        rw [List.getLastD_eq_getLast?, List.getLast?_eq_getElem?, a, List.getD_eq_getElem?_getD]
    have hlen : r.usable.length = outs.length := by rw [h5.usable, List.length_map]
    have hpick := pick_filter (fun o : StepOut K => decide (o.usable ≤ 0)) delivered
      (fun i => decide (r.usable.getD i 0 ≤ 0)) outs (by
        intro i x hx
        rw [h5.usable, List.getD_eq_getElem?_getD, List.getElem?_map, hx]; rfl)
    rw [← hte, ← hlen] at hpick
    set idx := (List.range r.usable.length).filter (fun i => decide (r.usable.getD i 0 ≤ 0)) with hidx
    have hcount : idx.length = outSteps outs := by
      rw [hpick.length_eq, List.length_map]; rfl
    have hpos : 0 < outSteps outs := by
      unfold outSteps
      exact List.length_pos_iff.2 (List.ne_nil_of_mem (List.mem_filter.2 ⟨ho0, by simpa using hu0⟩))
    unfold SimRun.failureMessage
    rw [hns]
    simp only [Bool.false_eq_true, if_false]
    rw [← hidx]
    cases hcase : idx with
    | nil => rw [hcase] at hcount; simp at hcount; omega
    | cons first rest =>
      simp only
      rw [hcase] at hpick hcount
      have hm : (first :: rest).mapM (fun i => pyGet temps i) =
          .ok ((outs.filter (fun o => decide (o.usable ≤ 0))).map delivered) := by
        rw [mapM_eq_ok]
        refine hpick.imp ?_
        intro i y hy
        rw [pyGet_eq_ok]; exact hy
      rw [← htemps, hm]
      simp only [ok_bind, pure_eq_ok]
      refine ⟨_, _, _, rfl, h6, ?_, ?_⟩
      · have hf : first ∈ idx := by rw [hcase]; simp
        rw [hidx, List.mem_filter, List.mem_range, decide_eq_true_eq] at hf
        obtain ⟨o, ho⟩ : ∃ o, outs[first]? = some o := by
          rw [hlen] at hf; exact ⟨_, List.getElem?_eq_getElem hf.1⟩
        refine ⟨first, o, ho, ?_, ?_, ?_, ?_⟩
        · have := hf.2
          rwa [h5.usable, List.getD_eq_getElem?_getD, List.getElem?_map, ho] at this
        · intro j hj o' ho'
          by_contra hc
          have hjl : j < r.usable.length := by omega
          have hji : j ∈ idx := by
            rw [hidx, List.mem_filter, List.mem_range, decide_eq_true_eq]
            refine ⟨hjl, ?_⟩
            rw [h5.usable, List.getD_eq_getElem?_getD, List.getElem?_map, ho']
            exact not_lt.1 hc
          rw [hcase, List.mem_cons] at hji
          rcases hji with rfl | hji
          · omega
          · have hsort : idx.Pairwise (· < ·) := by
              rw [hidx]; exact List.Pairwise.filter _ List.pairwise_lt_range
            rw [hcase, List.pairwise_cons] at hsort
            have := hsort.1 j hji
            omega
        · simp only [Nat.add_sub_cancel]
          exact Nat.div_mul_le_self _ _
        · have := Nat.lt_div_mul_add (a := first * r.ts) (b := 1440) (by norm_num)
          have e : 24 * 60 = 1440 := rfl
          rw [e]; nlinarith
      · rw [hcount]
        have : (outSteps outs : K) ≠ 0 := by exact_mod_cast hpos.ne'
        field_simp

/-- **C112 (primary systems).** The reports of a system without swing tank are of the kind `C112_message` asks for. -/
theorem C112_primary (b : Building K) (ts : ℕ) (s : Prim K) (i : ℕ) (s' : Prim K) (o : StepOut K)
    (h : Prim.step b ts s i = .ok (s', o)) : o.temps.length = 6 ∧ o.delivery = none := by
  unfold Prim.step at h
  rw [bind_eq_ok] at h
  obtain ⟨inp, _, h⟩ := h
  cases ht : s.tank with
  | none =>
    simp only [ht, pure_eq_ok, Except.ok.injEq, Prod.mk.injEq] at h
    obtain ⟨_, rfl⟩ := h
    exact ⟨by simp, rfl⟩
  | some t =>
    simp only [ht, bind_eq_ok, pure_eq_ok, Except.ok.injEq, Prod.mk.injEq] at h
    obtain ⟨_, _, _, rfl⟩ := h
    exact ⟨by simp [nodeFracts], rfl⟩

/-- **C112 (swing systems).** The temperature-maintenance temperature a swing system records is the one it delivers. -/
theorem C112_swing (b : Building K) (ts : ℕ) (s : SwingSim K) (i : ℕ) (s' : SwingSim K) (o : StepOut K)
    (h : swingSimStep b ts s i = .ok (s', o)) : o.temps.length = 6 ∧ o.tmTemp = some (delivered o) := by
  unfold swingSimStep at h
  simp only [bind_eq_ok] at h
  obtain ⟨inp, _, x, _, hw, _, h⟩ := h
  split at h
  · simp at h
  · simp only [bind_eq_ok, pure_eq_ok, Except.ok.injEq, Prod.mk.injEq] at h
    obtain ⟨_, _, _, rfl⟩ := h
    exact ⟨by simp [nodeFracts], rfl⟩

/-- Non-vacuity of C112: runs of the demo system have a message. -/
example (duration : String) (hd : duration = "3day" ∨ duration = "annual") : ∃ s' r m,
    Demo.sized.simulate Demo.building 3 30 duration = .ok (s', r) ∧ r.failureMessage = .ok m := by
  obtain ⟨s', r, hr⟩ := C91_completes_partial Demo.sized Demo.building 3 30 duration hd Demo.answers Demo.sized_ready (by
    intro t ht
    obtain rfl : StratTank.new (24500 / 83) (28 / 10) = t := by simpa [Demo.sized, Prim.ofSized] using ht
    decide +kernel)
  refine ⟨s', r, ?_⟩
  have h := hr
  unfold Prim.simulate at h
  simp only [bind_eq_ok] at h
  obtain ⟨_, _, s1, _, k⟩ := h
  obtain ⟨outs, _, _, a, b⟩ := C112_message (Prim.step Demo.building) _ _ _ _ _ _ _ _ (by
    intro ts s i s' o hst
    obtain ⟨c1, c2⟩ := C112_primary _ _ _ _ _ _ hst
    exact ⟨c1, by simp, fun _ => c2⟩) k
  by_cases hall : ∀ o ∈ outs, 0 < o.usable
  · exact ⟨_, hr, a hall⟩
  · push Not at hall
    obtain ⟨_, _, _, e, _⟩ := b hall
    exact ⟨_, hr, e⟩

end Eco
