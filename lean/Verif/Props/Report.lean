import Verif.Model.Report
import Verif.Props.Simulate
import Verif.Props.MixedTank
import Mathlib.Tactic.FieldSimp

/-! C97-C101: tankless sizing, the summary, the energy of sized systems, the exported rows and the shading of a run. -/

namespace Eco
variable {K : Type} [Field K] [LinearOrder K] [IsStrictOrderedRing K]

set_option linter.unusedSectionVars false

open Spec

/-! ## C97 -/

theorem instantStep_ok {w : Instant K} {b : Building K} {i ts : ℕ} {o : StepOut K} (h : w.step b i ts = .ok o) :
    ∃ d inlet, b.getDhwLoad i ts = .ok d ∧ b.getInlet i ts = .ok inlet ∧ w.defrost ≠ 0 ∧
      o.output = d * (60 / (ts : K)) * rhoCp K * max (w.supply - inlet) 1 / w.defrost / 1000 := by
  unfold Instant.step at h
  simp only [bind_eq_ok, pure_eq_ok, Except.ok.injEq] at h
  obtain ⟨d, h1, oat, h2, inl, h3, c, h4, rfl⟩ := h
  obtain ⟨h5, rfl⟩ := fdiv_eq_ok.mp h4
  exact ⟨d, inl, h1, h3, h5, rfl⟩

theorem instantSize_ok {w : Instant K} {b : Building K} {cap : K} (h : w.size b = .ok cap) :
    ∃ inlet m, requireDesignInlet b = .ok inlet ∧ m ∈ b.peakShape ∧ (∀ x ∈ b.peakShape, x ≤ m) ∧ w.defrost ≠ 0 ∧
      cap = b.dailyGal * m * 60 * rhoCp K * (w.supply - inlet) / w.defrost / 1000 := by
  unfold Instant.size at h
  simp only [bind_eq_ok] at h
  obtain ⟨inl, h1, h⟩ := h
  split at h
  · simp at h
  · rename_i m hm
    simp only [bind_eq_ok, pure_eq_ok, Except.ok.injEq] at h
    obtain ⟨c, h4, rfl⟩ := h
    obtain ⟨h5, rfl⟩ := fdiv_eq_ok.mp h4
    obtain ⟨a, b⟩ := List.max?_eq_some_iff.mp hm
    exact ⟨inl, m, h1, a, b, h5, rfl⟩

theorem load_per_hour {b : Building K} {i ts : ℕ} {d : K} (hts : 0 < ts) (h : b.getDhwLoad i ts = .ok d) :
    ∃ f ∈ b.peakShape, b.peakShape[i * ts / 60 % b.peakShape.length]? = some f ∧
      d * (60 / (ts : K)) = b.dailyGal * f := by
  unfold Building.getDhwLoad at h
  simp only [Bool.false_eq_true, if_false] at h
  split at h
  · simp at h
  · simp only [bind_eq_ok, pure_eq_ok, Except.ok.injEq] at h
    obtain ⟨f, hf, rfl⟩ := h
    rw [pyGet_eq_ok] at hf
    have : (ts : K) ≠ 0 := by exact_mod_cast hts.ne'
    exact ⟨f, List.mem_of_getElem? hf, hf, by field_simp⟩

/-- **C97 (enough).** As long as the cold water is never colder than its design temperature, which lies at least a degree
below supply, the sized capacity of a tankless system covers every step of a simulation, with a factor of 60 to
spare. -/
theorem C97_covers_partial (w : Instant K) (b : Building K) (cap design : K) (hs : w.size b = .ok cap)
    (hd : requireDesignInlet b = .ok design) (hT : design + 1 ≤ w.supply) (hdef : 0 < w.defrost)
    (hg : 0 ≤ b.dailyGal) (hpos : ∀ f ∈ b.peakShape, 0 ≤ f) (ts : ℕ) (hts : 0 < ts) (i : ℕ) (o : StepOut K)
    (inlet : K) (hi : b.getInlet i ts = .ok inlet) (hin : design ≤ inlet) (h : w.step b i ts = .ok o) :
    60 * o.output ≤ cap := by
  obtain ⟨inl, m, h1, h2, h3, h4, rfl⟩ := instantSize_ok hs
  obtain rfl : design = inl := by rw [hd] at h1; injection h1
  obtain ⟨d, inl', g1, g2, g3, g4⟩ := instantStep_ok h
  obtain rfl : inlet = inl' := by rw [hi] at g2; injection g2
  obtain ⟨f, hf, _, he⟩ := load_per_hour hts g1
  rw [g4, he]
  have hr := rho_pos (K := K)
  have k1 : b.dailyGal * f ≤ b.dailyGal * m := mul_le_mul_of_nonneg_left (h3 f hf) hg
  have k2 : max (w.supply - inlet) 1 ≤ w.supply - design := max_le (by linarith) (by linarith)
  have k3 : b.dailyGal * f * rhoCp K * max (w.supply - inlet) 1 ≤ b.dailyGal * m * rhoCp K * (w.supply - design) := by
    apply mul_le_mul (mul_le_mul_of_nonneg_right k1 hr.le) k2
    · exact le_trans zero_le_one (le_max_right _ _)
    · exact mul_nonneg (mul_nonneg hg (hpos m h2)) hr.le
  have k4 : b.dailyGal * f * rhoCp K * max (w.supply - inlet) 1 / w.defrost ≤
      b.dailyGal * m * rhoCp K * (w.supply - design) / w.defrost := div_le_div_of_nonneg_right k3 hdef.le
  have e : b.dailyGal * m * 60 * rhoCp K * (w.supply - design) / w.defrost / 1000 =
      60 * (b.dailyGal * m * rhoCp K * (w.supply - design) / w.defrost / 1000) := by ring
  rw [e]
  linarith

/-- **C97 fails.** The capacity is meant for the peak minute, but is sixty times what the busiest step needs: with water
at design temperature there is a step whose need is exactly a sixtieth of the sized capacity, and none needs more. -/
theorem C97_sixty_times (w : Instant K) (b : Building K) (cap design : K) (hs : w.size b = .ok cap)
    (hd : requireDesignInlet b = .ok design) (hT : design + 1 ≤ w.supply) (hdef : 0 < w.defrost)
    (hg : 0 ≤ b.dailyGal) (hpos : ∀ f ∈ b.peakShape, 0 ≤ f) (ts : ℕ) (hts : 0 < ts) (h60 : ts ∣ 60)
    (hi : ∀ i, b.getInlet i ts = .ok design) (ho : ∀ i, ∃ x, b.getOat i ts = .ok x) :
    IsGreatest {q | ∃ i o, w.step b i ts = .ok o ∧ o.output = q} (cap / 60) := by
  constructor
  · obtain ⟨inl, m, h1, h2, h3, h4, rfl⟩ := instantSize_ok hs
    obtain rfl : design = inl := by rw [hd] at h1; injection h1
    obtain ⟨j, hj⟩ := List.mem_iff_getElem?.1 h2
    have hjl : j < b.peakShape.length := by
      by_contra hc
      rw [List.getElem?_eq_none (by omega)] at hj; simp at hj
    obtain ⟨k, hk⟩ := h60
    have hidx : j * k * ts / 60 % b.peakShape.length = j := by
      rw [mul_assoc, mul_comm k ts, ← hk, Nat.mul_div_cancel _ (by norm_num), Nat.mod_eq_of_lt hjl]
    have hl : b.getDhwLoad (j * k) ts = .ok (b.dailyGal * m * ts / 60) := by
      unfold Building.getDhwLoad
      simp only [Bool.false_eq_true, if_false]
      rw [if_neg (by omega), hidx, pyGet_eq_ok.mpr hj]
      rfl
    obtain ⟨oat, hoat⟩ := ho (j * k)
    have hst : ∃ o, w.step b (j * k) ts = .ok o := by
      unfold Instant.step
      simp only [hl, hoat, hi, ok_bind, fdiv_ok _ h4, pure_eq_ok]
      exact ⟨_, rfl⟩
    obtain ⟨o, hst⟩ := hst
    refine ⟨j * k, o, hst, ?_⟩
    obtain ⟨d, inl', g1, g2, g3, g4⟩ := instantStep_ok hst
    rw [hl] at g1
    rw [hi] at g2
    injection g1 with g1
    injection g2 with g2
    rw [g4, ← g1, ← g2, max_eq_left (by linarith)]
    have : (ts : K) ≠ 0 := by exact_mod_cast hts.ne'
    field_simp
  · rintro q ⟨i, o, h, rfl⟩
    have := C97_covers_partial w b cap design hs hd hT hdef hg hpos ts hts i o design (hi i) le_rfl h
    linarith

/-- Non-vacuity of C97: a building with 1000 gallons a day; the busiest hour needs 90 gallons, 52 kBTU/h; sized is
3130 kBTU/h. -/
example : ∃ cap, (⟨120, 120, 1⟩ : Instant ℚ).size Demo.building = .ok cap ∧ 3100 < cap ∧
    requireDesignInlet Demo.building = .ok 50 ∧ (∀ i, Demo.building.getInlet i 1 = .ok 50) ∧
    (∀ i, Demo.building.getOat i 1 = .ok 20) ∧ ∀ f ∈ Demo.building.peakShape, 0 ≤ f := by
  refine ⟨_, rfl, by decide +kernel, rfl, fun _ => rfl, fun _ => rfl, by decide +kernel⟩

/-! ## C98 -/

theorem peakDemand_spec (r : SimRun K) :
    (∀ p, some p ∈ r.power → p ≤ r.peakDemand) ∧
    ((∃ p, some p ∈ r.power) → some r.peakDemand ∈ r.power) ∧
    ((∀ p ∈ r.power, p = none) → r.peakDemand = 0) := by
  unfold SimRun.peakDemand
  have hm : ∀ p, p ∈ r.power.filterMap id ↔ some p ∈ r.power := by
    intro p; simp [List.mem_filterMap]
  cases hx : (r.power.filterMap id).max? with
  | none =>
    have : r.power.filterMap id = [] := List.max?_eq_none_iff.mp hx
    rw [this] at hm
    refine ⟨fun p hp => by simpa using (hm p).mpr hp, fun ⟨p, hp⟩ => by simpa using (hm p).mpr hp, fun _ => rfl⟩
  | some m =>
    obtain ⟨h1, h2⟩ := List.max?_eq_some_iff.mp hx
    refine ⟨fun p hp => h2 p ((hm p).mpr hp), fun _ => (hm m).mp h1, fun hn => ?_⟩
    have := hn _ ((hm m).mp h1)
    simp at this

/-- **C98, partial.** The summary of any simulated run is that of its series: success exactly without an empty step, the
minutes of the empty steps, the energy of all steps, the number of steps (all of them unless stopped early), and
the highest power of the primary heaters. Missing: the power of temperature maintenance is left out of the
peak (`C98_peak_ignores_tm`). -/
theorem C98_summary_partial {S : Type} (step : ℕ → S → ℕ → Py (S × StepOut K)) (supply : K) (tm : Bool) (thr : K)
    (maxMin : Int) (duration : String) (s s' : S) (r : SimRun K)
    (h : simulateFrom step supply tm thr maxMin duration s = .ok (s', r)) :
    (r.summary.successful = true ↔ ∀ u ∈ r.usable, 0 < u) ∧
    r.summary.outageMin = r.ts * (r.usable.filter (fun u => decide (u ≤ 0))).length ∧
    r.summary.energyKwh = ∑ i ∈ Finset.range r.summary.steps, Spec.totalKw r i * hours r ∧
    r.summary.steps = r.usable.length ∧ r.summary.steps * r.ts ≤ r.duration ∧
    (r.summary.stopped = false → r.summary.steps * r.ts = r.duration) ∧
    (∀ p, some p ∈ r.power → p ≤ r.summary.peakKw) ∧
    ((∃ p, some p ∈ r.power) → some r.summary.peakKw ∈ r.power) ∧
    ((∀ p ∈ r.power, p = none) → r.summary.peakKw = 0) := by
  obtain ⟨o1, o2⟩ := C42_outage_partial step supply tm thr maxMin duration s s' r h
  obtain ⟨dur, ts, outs, h1, h2, h3, h4, h5, _, _, _, h7⟩ := simulate_spec step supply tm thr maxMin duration s s' r h
  obtain ⟨p1, p2, p3⟩ := peakDemand_spec r
  have ld : r.demand.length = outs.length := by rw [h5.demand, List.length_map]
  have lu : r.usable.length = outs.length := by rw [h5.usable, List.length_map]
  have lp : r.power.length = outs.length := by rw [h5.power, List.length_map]
  have lt : r.tmInput.length ≤ r.power.length := by
    rw [h5.tmInput, lp]; exact List.length_filterMap_le _ _
  have hdt : dur / ts * ts = dur := by
    unfold simDuration at h1
    split at h1
    · simp at h1; obtain ⟨rfl, rfl⟩ := h1; rfl
    · split at h1
      · simp at h1; obtain ⟨rfl, rfl⟩ := h1; rfl
      · simp at h1
  refine ⟨o2, o1, ?_, ?_, ?_, ?_, p1, p2, p3⟩
  · show r.totalEnergy = ∑ i ∈ Finset.range r.demand.length, _
    rw [ld, ← lp]; exact C41_total r lt
  · show r.demand.length = _; rw [ld, lu]
  · show r.demand.length * _ ≤ _
    rw [ld, h2, h3]
    rcases h7 with ⟨_, b, _⟩ | ⟨_, _, b, _⟩
    · rw [b, hdt]
    · exact (Nat.mul_le_mul_right ts b).trans hdt.le
  · show r.stopped = false → r.demand.length * _ = _
    intro hs
    rw [ld, h2, h3]
    rcases h7 with ⟨_, b, _⟩ | ⟨a, _⟩
    · rw [b, hdt]
    · rw [a] at hs; simp at hs

namespace Demo

/-- A system whose temperature-maintenance element draws 5 kW all the time and whose primary heater 2 kW. -/
def withTm (_ : ℕ) (s : Unit) (_ : ℕ) : Py (Unit × StepOut ℚ) :=
  .ok (s, { demand := 1, usable := 10, output := 7, power := some 2,
            oat := 20, inlet := 50, temps := [120, 120, 120, 120, 120, 120], mode := "normal",
            tmInput := some 5, tmTemp := some 125, tmOutput := some 17 })

end Demo

/-- Non-vacuity of C98, and **C98 fails with temperature maintenance**: the summary of a run that draws 7 kW at every
step gives 2 kW as its peak, while its energy counts all 7. -/
theorem C98_peak_ignores_tm : ∃ r, simulateFrom Demo.withTm 120 false 5 10 "3day" () = .ok ((), r) ∧
    r.summary.peakKw = 2 ∧ r.summary.energyKwh = 7 * 72 ∧ ∀ i < r.summary.steps, Spec.totalKw r i = 7 := by
  obtain ⟨⟨⟩, r, hr⟩ := simulateFrom_total Demo.withTm (120 : ℚ) false 5 10 "3day" () (fun _ => True) (.inl rfl) trivial
    (fun _ s _ _ _ => ⟨s, _, rfl, trivial, rfl⟩)
  obtain ⟨dur, ts, outs, h1, h2, h3, h4, h5, _, _, _, h7⟩ := simulate_spec _ _ _ _ _ _ _ _ r hr
  obtain ⟨_, good⟩ := trace_forall (fun _ => True)
    (fun _ o => o.power = some 2 ∧ o.tmInput = some 5 ∧ o.delivery = none ∧ o.temps = [120, 120, 120, 120, 120, 120])
    (fun s i s' o _ hst => by
      simp only [Demo.withTm, Except.ok.injEq, Prod.mk.injEq] at hst
      obtain ⟨_, rfl⟩ := hst
      exact ⟨trivial, rfl, rfl, rfl, rfl⟩) outs () () 0 trivial h4
  have hg : ∀ o ∈ outs, o.power = some 2 ∧ o.tmInput = some 5 ∧ o.delivery = none ∧
      o.temps = [120, 120, 120, 120, 120, 120] := by
    intro o ho
    obtain ⟨j, hj⟩ := List.mem_iff_getElem?.1 ho
    exact good j o hj
  obtain ⟨rfl, rfl⟩ : dur = 4320 ∧ ts = 1 := by
    have : simDuration "3day" = .ok (4320, 1) := rfl
    rw [this] at h1
    simpa [eq_comm] using h1
  have hn : outs.length = 4320 := by
    rcases h7 with ⟨_, b, _⟩ | ⟨_, hpos, _, ⟨k, k1, k2, _, k3⟩, _⟩
    · simpa using b
    · obtain ⟨o, ho, hd⟩ := k3 (outs.length - 1) (by omega) le_rfl
      obtain ⟨_, _, g1, g2⟩ := hg o (List.mem_of_getElem? ho)
      unfold Deficit delivered at hd
      rw [g1, g2] at hd
      norm_num at hd
  have hp : r.power = List.replicate 4320 (some 2) := by
    rw [h5.power, ← hn, List.eq_replicate_iff]
    refine ⟨by simp, fun p hp => ?_⟩
    obtain ⟨o, ho, rfl⟩ := List.mem_map.1 hp
    exact (hg o ho).1
  have ht : r.tmInput = List.replicate 4320 5 := by
    rw [h5.tmInput, ← hn]
    clear * - hg
    induction outs with
    | nil => rfl
    | cons o os ih =>
      rw [List.filterMap_cons, (hg o (List.mem_cons_self ..)).2.1]
      simp only [List.length_cons, List.replicate_succ, List.cons.injEq, true_and]
      exact ih (fun o ho => hg o (List.mem_cons_of_mem _ ho))
  have hk : ∀ i < 4320, Spec.totalKw r i = 7 := by
    intro i hi
    unfold Spec.totalKw
    rw [hp, ht, List.getD_eq_getElem?_getD, List.getD_eq_getElem?_getD, List.getElem?_replicate,
      List.getElem?_replicate, if_pos hi, if_pos hi]
    norm_num
  obtain ⟨_, _, he, _, _, _, _, hpk, _⟩ := C98_summary_partial _ _ _ _ _ _ _ _ r hr
  have hs : r.summary.steps = 4320 := by
    show r.demand.length = _
    rw [h5.demand, List.length_map, hn]
  refine ⟨r, hr, ?_, ?_, fun i hi => hk i (hs ▸ hi)⟩
  · have := hpk ⟨2, by rw [hp]; exact List.mem_replicate.mpr ⟨by norm_num, rfl⟩⟩
    rw [hp] at this
    have := List.eq_of_mem_replicate this
    simpa using this
  · rw [he, hs, Finset.sum_congr rfl (fun i hi => by rw [hk i (Finset.mem_range.mp hi)])]
    rw [Finset.sum_const, Finset.card_range]
    unfold hours
    rw [h3]; norm_num

/-! ## C99 -/

/-- All heaters have a fixed nominal capacity, as in every system that `from_size` builds. -/
def Spec.Nominal (ws : List (Heater K)) : Prop := ∀ w ∈ ws, ∃ cap, w.perf = some (.nominal cap)

theorem nominal_congr {ws ws' : List (Heater K)} (h : List.Forall₂ SameHeater ws ws') (hn : Nominal ws) :
    Nominal ws' := by
  induction h with
  | nil => exact hn
  | cons a _ ih =>
    intro w hw
    rcases List.mem_cons.mp hw with rfl | hw
    · obtain ⟨c, hc⟩ := hn _ (List.mem_cons_self ..)
      exact ⟨c, by rw [a.1, hc]⟩
    · exact ih (fun w hw => hn w (List.mem_cons_of_mem _ hw)) w hw

theorem activeKws_nominal {ws : List (Heater K)} {oat : K} {hour : ℕ} {inlet : Option K} {kws : List (Option K)}
    (hn : Nominal ws) (h : activeKws ws oat hour inlet = .ok kws) : ∀ x ∈ kws, x = none := by
  unfold activeKws at h
  rw [mapM_eq_ok] at h
  have hn' : ∀ w ∈ ws.filter (·.active), ∃ cap, w.perf = some (.nominal cap) :=
    fun w hw => hn w (List.mem_of_mem_filter hw)
  generalize ws.filter (·.active) = l at h hn'
  induction h with
  | nil => simp
  | @cons w k l ks a _ ih =>
    simp only [bind_eq_ok] at a
    obtain ⟨out, _, a⟩ := a
    obtain ⟨c, hc⟩ := hn' w (List.mem_cons_self ..)
    have hk : k = none := by
      unfold Heater.getPower at a
      rw [hc] at a
      simpa [PerfMap.getPower] using a.symm
    intro x hx
    rcases List.mem_cons.mp hx with rfl | hx
    · exact hk
    · exact ih (fun w hw => hn' w (List.mem_cons_of_mem _ hw)) x hx

theorem totalKw_none {kws : List (Option K)} (h : ∀ x ∈ kws, x = none) : Eco.totalKw kws = none := by
  unfold Eco.totalKw
  rw [if_neg]
  simp only [Bool.not_eq_true, List.any_eq_false]
  intro x hx
  rw [h x hx]; simp

theorem primStep_nominal {b : Building K} {ts : ℕ} {s s' : Prim K} {i : ℕ} {o : StepOut K} (hn : Nominal s.heaters)
    (h : Prim.step b ts s i = .ok (s', o)) : Nominal s'.heaters ∧ o.power = none ∧ o.tmInput = none := by
  unfold Prim.step at h
  rw [bind_eq_ok] at h
  obtain ⟨inp, _, h⟩ := h
  cases ht : s.tank with
  | none =>
    simp only [ht, pure_eq_ok, Except.ok.injEq, Prod.mk.injEq] at h
    obtain ⟨rfl, rfl⟩ := h
    exact ⟨hn, rfl, rfl⟩
  | some t =>
    simp only [ht, bind_eq_ok, pure_eq_ok, Except.ok.injEq, Prod.mk.injEq] at h
    obtain ⟨⟨ws, t', q, kws⟩, hh, rfl, rfl⟩ := h
    obtain ⟨k1, _, _, _, k5, _⟩ := heatPrimary_ok hh
    have hn' := nominal_congr (updateAll_same k1) hn
    exact ⟨hn', totalKw_none (activeKws_nominal hn' k5), rfl⟩

/-- A run whose reports never contain a power has no energy and no peak. -/
theorem no_energy {S : Type} {step : ℕ → S → ℕ → Py (S × StepOut K)} {supply : K} {tm : Bool} {thr : K} {maxMin : Int}
    {duration : String} {s s' : S} {r : SimRun K} (P : S → Prop) (hP : P s)
    (hstep : ∀ ts s i s' o, P s → step ts s i = .ok (s', o) → P s' ∧ o.power = none ∧ o.tmInput = none)
    (h : simulateFrom step supply tm thr maxMin duration s = .ok (s', r)) :
    (∀ p ∈ r.power, p = none) ∧ r.tmInput = [] ∧ r.summary.energyKwh = 0 ∧ r.summary.peakKw = 0 := by
  obtain ⟨dur, ts, outs, h1, h2, h3, h4, h5, _⟩ := simulate_spec step supply tm thr maxMin duration s s' r h
  obtain ⟨_, good⟩ := trace_forall P (fun _ o => o.power = none ∧ o.tmInput = none) (hstep ts) outs s s' 0 hP h4
  have hg : ∀ o ∈ outs, o.power = none ∧ o.tmInput = none := by
    intro o ho
    obtain ⟨j, hj⟩ := List.mem_iff_getElem?.1 ho
    exact good j o hj
  have hp : ∀ p ∈ r.power, p = none := by
    intro p hp
    rw [h5.power] at hp
    obtain ⟨o, ho, rfl⟩ := List.mem_map.1 hp
    exact (hg o ho).1
  have ht : r.tmInput = [] := by
    rw [h5.tmInput]
    exact List.filterMap_eq_nil_iff.mpr (fun o ho => (hg o ho).2)
  refine ⟨hp, ht, ?_, (peakDemand_spec r).2.2 hp⟩
  show r.totalEnergy = 0
  unfold SimRun.totalEnergy
  rw [ht]
  simp only [List.map_nil, List.sum_nil, add_zero]
  apply List.sum_eq_zero
  intro x hx
  obtain ⟨p, hp', rfl⟩ := List.mem_map.1 hx
  rw [hp p hp']; simp

/-- **C99 fails for sized systems.** A primary system as sizing builds it, with a heater of nominal capacity, reports no
electrical power in any simulation, whatever it heats: no energy, no peak demand. -/
theorem C99_sized_system_reports_no_energy (c : SysCfg K) (cap vol slope : K) (sched : Option (List String))
    (cmap : Option (ControlMap K)) (b : Building K) (thr : K) (maxMin : Int) (duration : String) (s' : Prim K)
    (r : SimRun K) (h : (Prim.ofSized c cap vol slope sched cmap).simulate b thr maxMin duration = .ok (s', r)) :
    (∀ p ∈ r.power, p = none) ∧ r.tmInput = [] ∧ r.summary.energyKwh = 0 ∧ r.summary.peakKw = 0 := by
  unfold Prim.simulate at h
  simp only [bind_eq_ok] at h
  obtain ⟨_, _, s1, hi, h⟩ := h
  refine no_energy (fun s => Nominal s.heaters) ?_ (fun ts s i s' o hp hst => primStep_nominal hp hst) h
  unfold Prim.init at hi
  simp only [bind_eq_ok, pure_eq_ok, Except.ok.injEq] at hi
  obtain ⟨_, _, rfl⟩ := hi
  intro w hw
  obtain rfl : w = Heater.fromNominal cap sched cmap := by simpa [Prim.ofSized] using hw
  exact ⟨cap, rfl⟩

/-- **C99 fails for sized single-pass return systems** in the same way. -/
theorem C99_sized_single_pass_reports_no_energy (l : RtpLoop K) (c : SysCfg K) (cap vol slope : K)
    (sched : Option (List String)) (cmap : Option (ControlMap K)) (b : Building K) (thr : K) (maxMin : Int)
    (duration : String) (s' : Prim K) (r : SimRun K)
    (h : spSimulate l (Prim.ofSized c cap vol slope sched cmap) b thr maxMin duration = .ok (s', r)) :
    (∀ p ∈ r.power, p = none) ∧ r.tmInput = [] ∧ r.summary.energyKwh = 0 ∧ r.summary.peakKw = 0 := by
  unfold spSimulate at h
  simp only [bind_eq_ok] at h
  obtain ⟨_, _, s1, hi, h⟩ := h
  refine no_energy (fun s => Nominal s.heaters) ?_ ?_ h
  · unfold Prim.init at hi
    simp only [bind_eq_ok, pure_eq_ok, Except.ok.injEq] at hi
    obtain ⟨_, _, rfl⟩ := hi
    intro w hw
    obtain rfl : w = Heater.fromNominal cap sched cmap := by simpa [Prim.ofSized] using hw
    exact ⟨cap, rfl⟩
  · intro ts s i s' o hp hst
    unfold spStep at hst
    simp only [bind_eq_ok] at hst
    obtain ⟨⟨s2, o2⟩, h1, hst⟩ := hst
    obtain ⟨a1, a2, a3⟩ := primStep_nominal hp h1
    simp only at hst
    split at hst
    · simp only [pure_eq_ok, Except.ok.injEq, Prod.mk.injEq] at hst
      obtain ⟨rfl, rfl⟩ := hst
      exact ⟨a1, a2, a3⟩
    · simp only [pure_eq_ok, Except.ok.injEq, Prod.mk.injEq] at hst
      obtain ⟨rfl, rfl⟩ := hst
      exact ⟨a1, a2, a3⟩

/-- **C99, cost.** Whatever the rates, the annual cost of such a run is the twelve base charges. -/
theorem C99_only_base_charges (r : SimRun K) (t : Tracker K) (rate : ℕ → K) (per : ℕ → Int) (charge : Int → K)
    (h : Priced r t rate per charge) (hp : ∀ p ∈ r.power, p = none) (ht : r.tmInput = []) :
    r.annualCost t = .ok (12 * t.base) := by
  have hk : ∀ i, Spec.totalKw r i = 0 := by
    intro i
    unfold Spec.totalKw
    rw [ht]
    cases hx : r.power[i]? with
    | none => simp [hx]
    | some p => rw [List.getD_eq_getElem?_getD, hx, hp p (List.mem_of_getElem? hx)]; simp
  obtain ⟨pk, h1, h2⟩ := C38_annual_cost r t rate per charge h
  rw [h2]
  congr 1
  have e1 : ∑ i ∈ Finset.range r.power.length, Spec.totalKw r i * hours r * rate i = 0 :=
    Finset.sum_eq_zero (fun i _ => by rw [hk]; simp)
  have e2 : ∑ p ∈ (Finset.range r.power.length).image per, charge p * pk p = 0 := by
    apply Finset.sum_eq_zero
    intro p hp
    obtain ⟨⟨i, _, _, hx⟩, _⟩ := h1 p hp
    rw [← hx, hk]; simp
  rw [e1, e2]; ring

/-- **C99, partial.** At every step of a simulation of a primary system, the recorded power is the sum of what the
performance maps of the active heaters ask for at that step's outdoor, outlet and cold-water temperature, provided each
of them answers with a number. Missing: heaters of nominal capacity, which have no such number
(`C99_sized_system_reports_no_energy`). -/
theorem C99_power_partial (s s' : Prim K) (b : Building K) (ts i : ℕ) (o : StepOut K) (hs : s.tank.isSome)
    (h : Prim.step b ts s i = .ok (s', o)) (kws : List K)
    (hk : List.Forall₂ (fun w kw => ∃ out, w.getOutletTemp (hourOf i ts) = .ok out ∧
      w.getPower (some o.oat) out (some o.inlet) = .ok (some kw)) (s'.heaters.filter (·.active)) kws) :
    o.power = if kws = [] then none else some kws.sum := by
  unfold Prim.step at h
  rw [bind_eq_ok] at h
  obtain ⟨inp, hin, h⟩ := h
  obtain ⟨t, ht⟩ := Option.isSome_iff_exists.mp hs
  simp only [ht, bind_eq_ok, pure_eq_ok, Except.ok.injEq, Prod.mk.injEq] at h
  obtain ⟨⟨ws, t', q, kws'⟩, hh, rfl, rfl⟩ := h
  obtain ⟨k1, _, _, _, k5, _⟩ := heatPrimary_ok hh
  obtain ⟨_, _, _, i4, _⟩ := inputs_ok hin
  simp only at hk ⊢
  unfold activeKws at k5
  rw [mapM_eq_ok, i4] at k5
  have e : kws' = kws.map some := by
    generalize ws.filter (·.active) = l at hk k5
    clear hh
    induction hk generalizing kws' with
    | nil => cases k5; rfl
    | cons a _ ih =>
      cases k5 with
      | cons c d =>
        obtain ⟨out, a1, a2⟩ := a
        simp only [a1, ok_bind, a2, Except.ok.injEq] at c
        rw [ih _ d, ← c]; rfl
  rw [e]
  unfold Eco.totalKw
  cases kws with
  | nil => rfl
  | cons k ks =>
    rw [if_pos (by simp), if_neg (by simp)]
    simp [List.map_map, Function.comp_def]

/-- Non-vacuity of C99: the sized demo system heats in its first step and reports no power. -/
example : ∃ s1 s' o, Demo.sized.init Demo.building = .ok s1 ∧ Prim.step Demo.building 1 s1 0 = .ok (s', o) ∧
    36 < o.output ∧ o.power = none := by
  have h : (match Demo.sized.init Demo.building with
    | .ok s1 => (match Prim.step Demo.building 1 s1 0 with
      | .ok (_, o) => decide (36 < o.output) && decide (o.power = none)
      | .error _ => false)
    | .error _ => false) = true := by decide +kernel
  split at h
  · rename_i s1 h1
    split at h
    · rename_i s' o h2
      simp only [Bool.and_eq_true, decide_eq_true_eq] at h
      exact ⟨s1, s', o, h1, h2, h⟩
    · simp at h
  · simp at h

/-! ## C100 -/

/-- **C100.** The CSV file of any simulated run has one row per recorded step, in order, and each row is what the system
reported at that step. -/
theorem C100_rows {S : Type} (step : ℕ → S → ℕ → Py (S × StepOut K)) (supply : K) (tm : Bool) (thr : K)
    (maxMin : Int) (duration : String) (s s' : S) (r : SimRun K)
    (h : simulateFrom step supply tm thr maxMin duration s = .ok (s', r))
    (h6 : ∀ ts s i s' o, step ts s i = .ok (s', o) → o.temps.length = 6) :
    ∃ outs, Trace (step r.ts) s 0 outs s' ∧ r.csvSteps = .ok (outs.mapIdx (fun i o =>
      ⟨i, i * r.ts, o.demand, o.usable, o.output, o.power, o.oat, o.inlet, o.temps⟩)) := by
  obtain ⟨dur, ts, outs, h1, h2, h3, h4, h5, _, _, _, h7⟩ := simulate_spec step supply tm thr maxMin duration s s' r h
  refine ⟨outs, h3 ▸ h4, ?_⟩
  obtain ⟨_, good⟩ := trace_forall (fun _ => True) (fun _ o => o.temps.length = 6)
    (fun s i s' o _ hst => ⟨trivial, h6 ts s i s' o hst⟩) outs s s' 0 trivial h4
  have hlen : ∀ o ∈ outs, o.temps.length = 6 := by
    intro o ho
    obtain ⟨j, hj⟩ := List.mem_iff_getElem?.1 ho
    exact good j o hj
  have nodes := h5.temps hlen
  have hrow : ∀ i o, outs[i]? = some o → r.csvStep i =
      .ok ⟨i, i * r.ts, o.demand, o.usable, o.output, o.power, o.oat, o.inlet, o.temps⟩ := by
    intro i o ho
    have hg : ∀ {α : Type} (f : StepOut K → α), pyGet (outs.map f) i = .ok (f o) := by
      intro α f
      rw [pyGet_eq_ok, List.getElem?_map, ho]; rfl
    have ht : (List.range 6).mapM (fun n => pyGet r.temps n >>= fun l => pyGet l i) = .ok o.temps := by
      rw [mapM_eq_ok, List.forall₂_iff_get]
      have ho6 := hlen o (List.mem_of_getElem? ho)
      refine ⟨by simp [ho6], ?_⟩
      intro n hn1 hn2
      simp only [List.length_range] at hn1
      simp only [List.get_eq_getElem, List.getElem_range]
      have e := nodes n hn1
      have hnl : n < r.temps.length := by rw [h5.nodes]; exact hn1
      rw [List.getD_eq_getElem?_getD, List.getElem?_eq_getElem hnl] at e
      simp only [Option.getD_some] at e
      rw [pyGet_of_lt hnl, ok_bind, e, hg]
      rw [List.getD_eq_getElem?_getD, List.getElem?_eq_getElem (by omega)]; rfl
    unfold SimRun.csvStep
    simp only [h5.demand, h5.usable, h5.output, h5.power, h5.oat, h5.inlet, hg, ok_bind, ht, pure_eq_ok]
  unfold SimRun.csvSteps
  have hl : r.demand.length = outs.length := by rw [h5.demand, List.length_map]
  rw [hl, mapM_eq_ok, List.forall₂_iff_get]
  refine ⟨by simp, ?_⟩
  intro n hn1 hn2
  simp only [List.length_range] at hn1
  simp only [List.get_eq_getElem, List.getElem_range, List.getElem_mapIdx]
  exact hrow n _ (List.getElem?_eq_getElem hn1)

/-- Non-vacuity of C100: two steps of a run. -/
example : (⟨4320, 10, [1, 2], [30, 29], [5, 0], [some 2, none], [20, 21], [50, 50], ["normal", "shed"],
    [[50, 51], [60, 61], [70, 71], [80, 81], [90, 91], [100, 101]], [], [], [], 0, none, false, 3, 30, 0, false⟩ :
    SimRun ℚ).csvSteps = .ok [⟨0, 0, 1, 30, 5, some 2, 20, 50, [50, 60, 70, 80, 90, 100]⟩,
      ⟨1, 10, 2, 29, 0, none, 21, 50, [51, 61, 71, 81, 91, 101]⟩] := by decide +kernel

/-! ## C101 -/

theorem blockEnd_spec (l : List String) (m : String) : ∀ n j, j ≤ SimRun.blockEnd l m n j ∧
    (∀ k, j ≤ k → k < SimRun.blockEnd l m n j → l[k]? = some m) ∧
    (l.length < n + j → l[SimRun.blockEnd l m n j]? ≠ some m) := by
  intro n
  induction n with
  | zero =>
    intro j
    refine ⟨le_rfl, fun k h1 h2 => absurd h2 (by unfold SimRun.blockEnd; omega), fun h => ?_⟩
    unfold SimRun.blockEnd
    rw [List.getElem?_eq_none (by omega)]; simp
  | succ n ih =>
    intro j
    unfold SimRun.blockEnd
    split
    · rename_i hj
      obtain ⟨a, b, c⟩ := ih (j + 1)
      refine ⟨by omega, ?_, fun h => c (by omega)⟩
      intro k h1 h2
      rcases Nat.eq_or_lt_of_le h1 with rfl | h
      · exact hj
      · exact b k h h2
    · rename_i hj
      exact ⟨le_rfl, fun k h1 h2 => absurd h2 (by omega), fun _ => hj⟩

/-- The shaded ranges as step ranges. -/
theorem shadesFrom_spec (l : List String) (ts : ℕ) (hts : 0 < ts) : ∀ n i, l.length < n + i →
    (∀ s ∈ SimRun.shadesFrom l ts n i, (s.kind = "shed" ∨ s.kind = "loadUp") ∧ ∃ a b, i ≤ a ∧ a < b ∧ s.x0 = a * ts ∧
      s.x1 = b * ts ∧ ∀ k, a ≤ k → k < b → l[k]? = some s.kind) ∧
    (∀ k m, i ≤ k → l[k]? = some m → (m = "shed" ∨ m = "loadUp") →
      ∃ s ∈ SimRun.shadesFrom l ts n i, s.kind = m ∧ s.x0 ≤ k * ts ∧ (k + 1) * ts ≤ s.x1) ∧
    (SimRun.shadesFrom l ts n i).Pairwise (fun s s' => s.x1 ≤ s'.x0 ∧ (s.x1 = s'.x0 → s.kind ≠ s'.kind)) := by
  intro n
  induction n with
  | zero =>
    intro i hi
    refine ⟨by simp [SimRun.shadesFrom], ?_, by simp [SimRun.shadesFrom]⟩
    intro k m hk hm
    rw [List.getElem?_eq_none (by omega)] at hm; simp at hm
  | succ n ih =>
    intro i hi
    unfold SimRun.shadesFrom
    cases hx : l[i]? with
    | none =>
      refine ⟨by simp, ?_, by simp⟩
      intro k m hk hm
      rw [List.getElem?_eq_none_iff] at hx
      rw [List.getElem?_eq_none (by omega)] at hm; simp at hm
    | some x =>
      simp only
      split
      · rename_i hsh
        obtain ⟨e1, e2, e3⟩ := blockEnd_spec l x l.length (i + 1)
        have e3 := e3 (by omega)
        set j := SimRun.blockEnd l x l.length (i + 1) with hj
        obtain ⟨a1, a2, a3⟩ := ih j (by omega)
        have hx1 : (j - 1) * ts + ts = j * ts := by
          rw [← Nat.succ_mul, Nat.succ_eq_add_one, Nat.sub_add_cancel (by omega)]
        have hall : ∀ k, i ≤ k → k < j → l[k]? = some x := by
          intro k h1 h2
          rcases Nat.eq_or_lt_of_le h1 with rfl | h
          · exact hx
          · exact e2 k h h2
        refine ⟨?_, ?_, ?_⟩
        · intro s hs
          rcases List.mem_cons.mp hs with rfl | hs
          · exact ⟨hsh, i, j, le_rfl, by omega, rfl, hx1, hall⟩
          · obtain ⟨b0, a, b, b1, b2⟩ := a1 s hs
            exact ⟨b0, a, b, by omega, b2⟩
        · intro k m hk hm hkind
          by_cases hkj : k < j
          · have : m = x := by have := hall k hk hkj; rw [hm] at this; simpa using this
            refine ⟨_, List.mem_cons_self .., this.symm, Nat.mul_le_mul_right ts hk, ?_⟩
            simp only [hx1]
            exact Nat.mul_le_mul_right ts hkj
          · obtain ⟨s, hs, b⟩ := a2 k m (by omega) hm hkind
            exact ⟨s, List.mem_cons_of_mem _ hs, b⟩
        · rw [List.pairwise_cons]
          refine ⟨?_, a3⟩
          intro s hs
          obtain ⟨_, a, b, b1, b2, b3, b4, b5⟩ := a1 s hs
          simp only [hx1]
          refine ⟨by rw [b3]; exact Nat.mul_le_mul_right ts b1, ?_⟩
          intro heq hk
          rw [b3] at heq
          have : j = a := Nat.eq_of_mul_eq_mul_right hts heq
          apply e3
          rw [this, hk]
          exact b5 a le_rfl b2
      · rename_i hsh
        obtain ⟨a1, a2, a3⟩ := ih (i + 1) (by omega)
        refine ⟨?_, ?_, a3⟩
        · intro s hs
          obtain ⟨b0, a, b, b1, b2⟩ := a1 s hs
          exact ⟨b0, a, b, by omega, b2⟩
        · intro k m hk hm hkind
          rcases Nat.eq_or_lt_of_le hk with rfl | h
          · rw [hx] at hm
            simp only [Option.some.injEq] at hm
            subst hm
            exact absurd hkind hsh
          · exact a2 k m h hm hkind

/-- **C101.** In the plot of a run, a minute is shaded as shed or as load-up exactly if the mode recorded for its step is
that mode; the shaded ranges are in order, do not overlap, and no two of one kind touch. -/
theorem C101_shading (r : SimRun K) (hts : 0 < r.ts) :
    (∀ t m, (∃ s ∈ r.shades, s.kind = m ∧ s.x0 ≤ t ∧ t < s.x1) ↔
      r.mode[t / r.ts]? = some m ∧ (m = "shed" ∨ m = "loadUp")) ∧
    r.shades.Pairwise (fun s s' => s.x1 ≤ s'.x0 ∧ (s.x1 = s'.x0 → s.kind ≠ s'.kind)) := by
  obtain ⟨h1, h2, h3⟩ := shadesFrom_spec r.mode r.ts hts (r.mode.length + 1) 0 (by omega)
  refine ⟨?_, h3⟩
  intro t m
  constructor
  · rintro ⟨s, hs, rfl, h4, h5⟩
    obtain ⟨hk, a, b, _, _, e1, e2, e3⟩ := h1 s hs
    rw [e1] at h4
    rw [e2] at h5
    exact ⟨e3 _ ((Nat.le_div_iff_mul_le hts).mpr h4) (Nat.div_lt_of_lt_mul (by rw [mul_comm]; exact h5)), hk⟩
  · rintro ⟨hm, hk⟩
    obtain ⟨s, hs, e0, e1, e2⟩ := h2 (t / r.ts) m (Nat.zero_le _) hm hk
    refine ⟨s, hs, e0, e1.trans (Nat.div_mul_le_self t r.ts), ?_⟩
    refine lt_of_lt_of_le ?_ e2
    rw [mul_comm]
    exact Nat.lt_mul_div_succ t hts

/-- Non-vacuity of C101: load-up steps 1 and 2 directly followed by shed step 3. -/
example : SimRun.shadesFrom ["normal", "loadUp", "loadUp", "shed", "normal"] 10 6 0 =
    [⟨"loadUp", 10, 30⟩, ⟨"shed", 30, 40⟩] := by decide

end Eco
