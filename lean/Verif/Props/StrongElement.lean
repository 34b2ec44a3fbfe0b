import Verif.Props.RecircBuilt
import Verif.Props.ErCoverage

set_option linter.unusedSectionVars false

/-!
C119: a simulated swing system that never delivers below supply temperature can be reported as failed, because the report
looks at the primary storage only.
-/

namespace Eco
variable {K : Type} [Field K] [LinearOrder K] [IsStrictOrderedRing K]

open Spec

/-- The water taken from the top of a tank is never on average colder than its inlet water. -/
theorem StratTank.inlet_le_avgDraw (s : StratTank K) (hv : 0 < s.vol) (hs : 0 < s.slope) (hio : s.inlet ≤ s.outlet) (gal : K) :
    s.inlet ≤ s.avgDraw gal := by
  set d := min gal s.vol with hd
  unfold StratTank.avgDraw
  simp only
  rw [← hd]
  split
  · exact hio
  rename_i hd0
  have hd0 : 0 < d := not_le.1 hd0
  have hd1 : d ≤ s.vol := min_le_right _ _
  have hx0 : 0 ≤ 100 - d / s.vol * 100 := by
    have : d / s.vol ≤ 1 := by rw [div_le_iff₀ hv]; linarith
    linarith
  have hw : 0 < d / s.vol * 100 := by positivity
  have hcold : (s.inlet - s.inter) / s.slope - s.shift ≤ (s.outlet - s.inter) / s.slope - s.shift := by
    have : (s.inlet - s.inter) / s.slope ≤ (s.outlet - s.inter) / s.slope :=
      div_le_div_of_nonneg_right (by linarith) hs.le
    linarith
  rw [max_eq_right hx0]
  have hch : max 0 (min 100 ((s.inlet - s.inter) / s.slope - s.shift))
      ≤ max 0 (min 100 ((s.outlet - s.inter) / s.slope - s.shift)) :=
    max_le_max le_rfl (min_le_min le_rfl hcold)
  have hc0 : min 100 ((s.inlet - s.inter) / s.slope - s.shift)
      ≤ max 0 (min 100 ((s.inlet - s.inter) / s.slope - s.shift)) := le_max_right _ _
  have hh1 : max 0 (min 100 ((s.outlet - s.inter) / s.slope - s.shift)) ≤ 100 := max_le (by norm_num) (min_le_left _ _)
  set xh := max 0 (min 100 ((s.outlet - s.inter) / s.slope - s.shift)) with hxh
  set xc := max 0 (min 100 ((s.inlet - s.inter) / s.slope - s.shift))
  set xd := 100 - d / s.vol * 100 with hxd
  have hxd' : xd < 100 := by linarith
  have hc1 : xc ≤ 100 := hch.trans hh1
  rw [max_eq_left hx0, min_eq_right hc1, min_eq_right hh1, if_neg (by linarith : ¬ 100 - xd ≤ 0), le_div_iff₀ (by linarith)]
  have hhot : s.inlet * max 0 (100 - max xd xh) ≤ s.outlet * max 0 (100 - max xd xh) :=
    mul_le_mul_of_nonneg_right hio (le_max_left _ _)
  have hsum : ∀ x : K, s.inlet * max 0 (xc - xd) + x + s.inlet * max 0 (100 - max xd xh)
      ≤ s.inlet * max 0 (xc - xd) + x + s.outlet * max 0 (100 - max xd xh) := fun x => by linarith
  refine le_trans ?_ (hsum _)
  split
  · rename_i hlt
    have hdh : xd < xh := lt_of_le_of_lt (le_max_left _ _) hlt
    set a := max xd xc with ha
    have h1 : max 0 (xc - xd) = a - xd := by
      rw [ha]
      rcases le_total xd xc with h | h
      · rw [max_eq_right h, max_eq_right (by linarith)]
      · rw [max_eq_left h, max_eq_left (by linarith)]; ring
    rw [h1, max_eq_right hdh.le, max_eq_right (by linarith)]
    have ha0 : (s.inlet - s.inter) / s.slope ≤ a + s.shift := by
      have h2 : xc < 100 := lt_of_le_of_lt (le_max_right _ _) (lt_of_lt_of_le hlt hh1)
      have h3 : min 100 ((s.inlet - s.inter) / s.slope - s.shift) < 100 := lt_of_le_of_lt hc0 h2
      have h4 : (s.inlet - s.inter) / s.slope - s.shift < 100 := by
        rcases min_lt_iff.1 h3 with h | h
        · exact absurd h (lt_irrefl _)
        · exact h
      rw [min_eq_right h4.le] at hc0
      have : xc ≤ a := le_max_right _ _
      linarith
    rw [div_le_iff₀ hs] at ha0
    have e : s.slope / 2 * ((xh + s.shift) ^ 2 - (a + s.shift) ^ 2) + s.inter * (xh - a) =
        (xh - a) * ((s.slope * (a + s.shift) + s.inter) + s.slope * (xh - a) / 2) := by ring
    rw [e]
    have h5 : (xh - a) * s.inlet ≤ (xh - a) * ((s.slope * (a + s.shift) + s.inter) + s.slope * (xh - a) / 2) := by
      apply mul_le_mul_of_nonneg_left _ (by linarith)
      have : 0 ≤ s.slope * (xh - a) := mul_nonneg hs.le (by linarith)
      linarith
    linarith
  · rename_i hge
    have hge := not_lt.1 hge
    rcases le_or_gt xh xd with h | h
    · rw [max_eq_left h, max_eq_left (show xc - xd ≤ 0 by linarith), max_eq_right (by linarith)]
      linarith
    · have hx : xh = xc := by
        rcases le_max_iff.1 hge with e | e
        · exact absurd e (not_le.2 h)
        · exact le_antisymm e hch
      rw [max_eq_right h.le, ← hx, max_eq_right (by linarith), max_eq_right (by linarith)]
      linarith

/-- A tank at or above `T` into which at most `most` gallons of water at or above `cold` are mixed. -/
theorem MixedTank.mix_low (s : MixedTank K) (hv : 0 < s.vol) {gal most feed T cold : K} (h1 : T ≤ s.temp) (h2 : cold ≤ feed)
    (h3 : cold ≤ T) (h4 : gal ≤ most) (h5 : 0 ≤ most) : T - most / s.vol * (T - cold) ≤ (s.mix gal feed).temp := by
  have hr := rhoCp_pos (K := K)
  have hm : 0 ≤ most / s.vol * (T - cold) := mul_nonneg (div_nonneg h5 hv.le) (by linarith)
  unfold MixedTank.mix
  split
  · linarith
  · rename_i hg
    simp only
    split
    · rename_i hrem
      have : 1 ≤ most / s.vol := by rw [le_div_iff₀ hv]; linarith
      have : T - cold ≤ most / s.vol * (T - cold) := le_mul_of_one_le_left (by linarith) this
      simp only
      linarith
    · rename_i hrem
      simp only
      have hg := not_le.1 hg
      have hrem := not_le.1 hrem
      rw [le_div_iff₀ (mul_pos hv hr)]
      have e0 : (T - most / s.vol * (T - cold)) * (s.vol * rhoCp K) = rhoCp K * (s.vol * T - most * (T - cold)) := by
        field_simp
      rw [e0]
      have e1 : gal * rhoCp K * cold ≤ gal * rhoCp K * feed := mul_le_mul_of_nonneg_left h2 (by positivity)
      have e2 : (s.vol - gal) * rhoCp K * T ≤ (s.vol - gal) * rhoCp K * s.temp :=
        mul_le_mul_of_nonneg_left h1 (by positivity)
      have e3 : rhoCp K * (gal * (T - cold)) ≤ rhoCp K * (most * (T - cold)) :=
        mul_le_mul_of_nonneg_left (mul_le_mul_of_nonneg_right h4 (by linarith)) hr.le
      linarith

/-- The flow out of a swing tank at or above supply temperature is at most the demand. -/
theorem swingFlow_le {supply inlet t demand hw : K} (h : swingFlow supply inlet t demand = .ok hw) (hd : 0 ≤ demand)
    (hi : inlet ≤ supply) : hw ≤ demand := by
  unfold swingFlow at h
  split at h
  · rename_i hlt
    obtain ⟨hne, rfl⟩ := fdiv_eq_ok.1 h
    rw [div_le_iff₀ (by linarith)]
    exact mul_le_mul_of_nonneg_left (by linarith) hd
  · injection h with h; exact h.ge

/-- What stays true in a run of a swing system with a strong element. -/
def StrongHolds (s0 : SwingSim K) (cap cold : K) (s : SwingSim K) : Prop :=
  SwingHolds s0 cap s ∧ cold ≤ s.tank.inlet

theorem swingStep_strong {s0 s s' : SwingSim K} {b : Building K} {cap cold peak : K} {ts i : ℕ} {o : StepOut K} (hts : 0 < ts)
    (hv : 0 < s0.tank.vol) (hs : 0 < s0.tank.slope) (htv : 0 < s0.tm.vol)
    (hL : 0 < recircLossKbtuh s0.supply s0.ret s0.flow)
    (hcap : heatShort peak s0.supply cold (recircLossKbtuh s0.supply s0.ret s0.flow) 0 cap ≤ 0) (hcs : cold ≤ s0.supply)
    (hout : ∀ hour < 24, ∀ x, IsOutlet s0.heaters s0.storage hour x → s0.supply ≤ x)
    (hin : ∀ i ts x, b.getInlet i ts = .ok x → cold ≤ x ∧ x ≤ s0.supply)
    (hpeak : ∀ i ts avg x, b.getDhwLoad i ts avg = .ok x → 0 ≤ x ∧ x ≤ peak * ts / 60)
    (hinv : StrongHolds s0 cap cold s) (h : swingSimStep b ts s i = .ok (s', o)) :
    StrongHolds s0 cap cold s' ∧ o.tmTemp = some s'.tm.temp ∧ o.delivery = some s'.tm.temp := by
  have hr := rhoCp_pos (K := K)
  obtain ⟨⟨hi0, hret, hflow, hwt, hvt, hT, hcold⟩, hlow⟩ := hinv
  have hgood := (swingStep_good hv hs b ts s i s' o hi0 h).1
  obtain ⟨e1, e2, e3, hvol, hslope⟩ := hi0
  unfold swingSimStep at h
  simp only [bind_eq_ok] at h
  obtain ⟨inp, hi, ⟨ws', tank', q, kws⟩, hh, hw, hfl, h⟩ := h
  split at h
  · simp at h
  simp only [bind_eq_ok] at h
  obtain ⟨⟨w, tk, tkw, tm⟩, htm, h⟩ := h
  simp only [pure_eq_ok, Except.ok.injEq, Prod.mk.injEq] at h
  obtain ⟨rfl, rfl⟩ := h
  obtain ⟨i1, i2, i3, i4, i5, i6⟩ := inputs_ok hi
  obtain ⟨k1, k2, k3, k4, k5, rfl⟩ := heatPrimary_ok hh
  obtain ⟨d1, d2, d3, d4⟩ := drawPhysical_fields (s.tank.heat q ts inp.outlet) hw inp.inlet (some s.supply)
  obtain ⟨f1, f2, f3, f4⟩ := heat_fields s.tank q ts inp.outlet
  have hhour : inp.hour < 24 := by rw [i4]; exact hourOf_lt _ _
  have houtlet : s0.supply ≤ inp.outlet := by
    refine hout _ hhour _ ?_
    rw [← e2]; exact isOutlet_congr e3 _ _ _ i5
  have hfv : 0 < (s.tank.heat q ts inp.outlet).vol := by rw [f1, hvol]; exact hv
  have hfs : 0 < (s.tank.heat q ts inp.outlet).slope := by rw [f2, hslope]; exact hs
  have hfeed := StratTank.inlet_le_avgDraw (s.tank.heat q ts inp.outlet) hfv hfs
    (by rw [f3, f4]; exact hcold.trans houtlet) hw
  rw [f3] at hfeed
  obtain ⟨p1, p2⟩ := hpeak _ _ _ _ i1
  have hflow' := swingFlow_le hfl p1 (by rw [e1]; exact (hin _ _ _ i3).2)
  have hts' : (0 : K) < ts := by exact_mod_cast hts
  have hvt' : 0 < s.tm.vol := by rw [hvt]; exact htv
  have hmix := MixedTank.mix_low s.tm hvt' hT (hlow.trans hfeed) hcs (hflow'.trans p2) (p1.trans p2)
  have hpk : 0 ≤ peak := by
    have := p1.trans p2
    by_contra hc
    have := mul_neg_of_neg_of_pos (not_le.1 hc) hts'
    linarith
  have hcpos : 0 < cap := by
    unfold heatShort at hcap
    have : 0 ≤ peak * rhoCp K * (s0.supply - cold) / 1000 := by
      have : 0 ≤ peak * rhoCp K * (s0.supply - cold) := mul_nonneg (mul_nonneg hpk hr.le) (by linarith)
      linarith
    linarith
  rw [e1, hret, hflow] at htm
  obtain ⟨t1, t2, t3⟩ := swingTm_keeps hwt hhour hcpos (by
    rw [loss_temp hL hts', loss_vol, mix_vol]
    set L := recircLossKbtuh s0.supply s0.ret s0.flow
    have hb : (peak * ts / 60) / s.tm.vol * (s0.supply - cold) + L * ts / 60 * 1000 / (s.tm.vol * rhoCp K)
        ≤ cap * ts / 60 * 1000 / (s.tm.vol * rhoCp K) := by
      have e : (peak * ts / 60) / s.tm.vol * (s0.supply - cold) + L * ts / 60 * 1000 / (s.tm.vol * rhoCp K)
          = (peak * rhoCp K * (s0.supply - cold) / 1000 + L) * ts / 60 * 1000 / (s.tm.vol * rhoCp K) := by
        field_simp
      rw [e]
      apply div_le_div_of_nonneg_right _ (by positivity)
      unfold heatShort at hcap
      have := mul_le_mul_of_nonneg_right (show peak * rhoCp K * (s0.supply - cold) / 1000 + L ≤ cap by linarith) hts'.le
      linarith
    linarith) htm
  refine ⟨⟨⟨hgood, hret, hflow, t1, by rw [t2, loss_vol, mix_vol, hvt], t3, ?_⟩, ?_⟩, rfl, rfl⟩
  · dsimp only; rw [d3]; exact (hin _ _ _ i3).2
  · dsimp only; rw [d3]; exact (hin _ _ _ i3).1

/-- Every step of a swing system records the temperature of its swing tank. -/
theorem swingTrace_tmTemp {b : Building K} {ts : ℕ} {s s' : SwingSim K} {i : ℕ} {outs : List (StepOut K)}
    (h : Trace (swingSimStep b ts) s i outs s') : outs.filterMap (·.tmTemp) = outs.map (fun o => o.tmTemp.getD 0) := by
  rw [← List.filterMap_eq_map]
  refine List.filterMap_congr fun o ho => ?_
  have step : ∀ (s : SwingSim K) (i : ℕ) (s' : SwingSim K) (o : StepOut K), True →
      swingSimStep b ts s i = .ok (s', o) → True ∧ ∃ x, o.tmTemp = some x := by
    intro s i s' o _ hst
    refine ⟨trivial, ?_⟩
    unfold swingSimStep at hst
    simp only [bind_eq_ok] at hst
    obtain ⟨inp, hi, ⟨ws', tank', q, kws⟩, hh, hw, _, hst⟩ := hst
    split at hst
    · simp at hst
    simp only [bind_eq_ok] at hst
    obtain ⟨⟨w, tk, tkw, tm⟩, htm, hst⟩ := hst
    simp only [pure_eq_ok, Except.ok.injEq, Prod.mk.injEq] at hst
    obtain ⟨rfl, rfl⟩ := hst
    exact ⟨_, rfl⟩
  obtain ⟨_, g⟩ := trace_forall (fun _ => True) (fun _ o => ∃ x, o.tmTemp = some x) step outs s s' i trivial h
  obtain ⟨n, hn⟩ := List.getElem?_of_mem ho
  obtain ⟨x, hx⟩ := g n o hn
  simp [hx]

theorem getDhwLoad_between {b : Building K} {peak : K} (h : ∀ f ∈ b.peakShape ++ b.avgShape, 0 ≤ f * b.dailyGal ∧ f * b.dailyGal ≤ peak)
    (i ts : ℕ) (avg : Bool) (x : K) (hx : b.getDhwLoad i ts avg = .ok x) : 0 ≤ x ∧ x ≤ peak * ts / 60 := by
  unfold Building.getDhwLoad at hx
  have hsub : ∀ f ∈ (if avg then b.avgShape else b.peakShape), f ∈ b.peakShape ++ b.avgShape := by
    intro f hf
    rw [List.mem_append]
    split at hf
    · exact .inr hf
    · exact .inl hf
  generalize (if avg then b.avgShape else b.peakShape) = shape at hx hsub
  simp only at hx
  split at hx
  · simp at hx
  simp only [bind_eq_ok, pure_eq_ok, Except.ok.injEq] at hx
  obtain ⟨f, hf, rfl⟩ := hx
  have hm := hsub f (List.mem_of_getElem? (pyGet_eq_ok.1 hf))
  obtain ⟨h1, h2⟩ := h f hm
  have hts : (0 : K) ≤ ts := Nat.cast_nonneg _
  have e : b.dailyGal * f * ts / 60 = f * b.dailyGal * ts / 60 := by ring
  rw [e]
  have a1 := mul_nonneg h1 hts
  have a2 := mul_le_mul_of_nonneg_right h2 hts
  constructor <;> linarith

/-- **C119, partial.** A simulated swing system whose element alone covers the loop and the busiest hour, from the coldest
inlet water on, never delivers below supply temperature and is never stopped, whether the primary storage holds hot water
or not. -/
theorem C119_element_alone_partial (s s' : SwingSim K) (b : Building K) (cap cold peak thr : K) (maxMin : Int) (duration : String)
    (r : SimRun K) (hw : SameHeater (swingHeater s.supply cap) s.tmHeater)
    (hcap : heatShort peak s.supply cold (recircLossKbtuh s.supply s.ret s.flow) 0 cap ≤ 0)
    (hflow : 0 < s.flow) (hret : s.ret < s.supply)
    (hv : 0 < s.tank.vol) (hs : 0 < s.tank.slope) (htv : 0 < s.tm.vol) (hcs : cold ≤ s.supply)
    (hout : ∀ hour < 24, ∀ x, IsOutlet s.heaters s.storage hour x → s.supply ≤ x)
    (hin : ∀ i ts x, b.getInlet i ts = .ok x → cold ≤ x ∧ x ≤ s.supply)
    (hcold : ∀ x, designInletOr b = .ok x → cold ≤ x ∧ x ≤ s.supply)
    (hpeak : ∀ f ∈ b.peakShape ++ b.avgShape, 0 ≤ f * b.dailyGal ∧ f * b.dailyGal ≤ peak)
    (h : s.simulate b thr maxMin duration = .ok (s', r)) :
    r.tmTemp.length = r.usable.length ∧ (∀ x ∈ r.tmTemp, s.supply ≤ x) ∧ (0 ≤ thr → r.stopped = false) := by
  unfold SwingSim.simulate at h
  simp only [bind_eq_ok] at h
  obtain ⟨_, _, off, hoff, h⟩ := h
  have hoff' : off = s.supply + 8 := by
    unfold tmOffTemp at hoff
    simp only [swingHeater_controls hw (by norm_num : 0 < 24), ok_bind, pure_eq_ok, Except.ok.injEq] at hoff
    exact hoff.symm
  unfold swingSimulate at h
  simp only [bind_eq_ok] at h
  obtain ⟨_, _, cold', hc, h⟩ := h
  obtain ⟨dur, ts, outs, h1, h2, h3, h4, h5, h6, h7, h8, h9⟩ := simulate_spec _ _ _ _ _ _ _ _ _ h
  have hts : 0 < ts := by
    unfold simDuration at h1
    split at h1
    · simp at h1; omega
    · split at h1
      · simp at h1; omega
      · simp at h1
  have htm : r.tmTemp = outs.map (fun o => o.tmTemp.getD 0) := by rw [h5.tmTemp, swingTrace_tmTemp h4]
  have hL := loss_pos hflow hret
  obtain ⟨_, g⟩ := trace_forall (StrongHolds s cap cold)
    (fun _ o => ∃ x, o.tmTemp = some x ∧ o.delivery = some x ∧ s.supply ≤ x)
    (fun s1 i s2 o hinv hst => by
      obtain ⟨g1, g2, g3⟩ := swingStep_strong hts hv hs htv hL hcap hcs hout hin
        (fun i ts avg x => getDhwLoad_between hpeak i ts avg x) hinv hst
      exact ⟨g1, _, g2, g3, g1.1.2.2.2.2.2.1⟩) outs _ _ _
    (by
      refine ⟨⟨⟨rfl, rfl, sameHeater_refl _, rfl, rfl⟩, rfl, rfl, hw, rfl, ?_, (hcold _ hc).2⟩, (hcold _ hc).1⟩
      show s.supply ≤ off
      rw [hoff']; linarith) h4
  refine ⟨by rw [htm, h5.usable, List.length_map, List.length_map], ?_, ?_⟩
  · intro x hx
    rw [htm] at hx
    obtain ⟨o, ho, rfl⟩ := List.mem_map.1 hx
    obtain ⟨n, hn⟩ := List.getElem?_of_mem ho
    obtain ⟨x, x1, _, x3⟩ := g n o hn
    rw [x1]; exact x3
  · intro hthr
    rcases h9 with ⟨g, _⟩ | ⟨_, g1, _, ⟨k, k1, k2, _, k4⟩, _⟩
    · exact g
    · exfalso
      obtain ⟨o, o1, o2⟩ := k4 (outs.length - 1) (by omega) le_rfl
      obtain ⟨x, _, x2, x3⟩ := g _ _ o1
      unfold Deficit delivered at o2
      rw [x2, Option.getD_some] at o2
      linarith

/-- A three-day run that is not stopped has 4320 steps. -/
theorem swing_full_run {s s' : SwingSim K} {b : Building K} {thr : K} {maxMin : Int} {r : SimRun K}
    (h : s.simulate b thr maxMin "3day" = .ok (s', r)) (hr : r.stopped = false) : r.usable.length = 4320 := by
  unfold SwingSim.simulate swingSimulate at h
  simp only [bind_eq_ok] at h
  obtain ⟨_, _, off, hoff, _, _, cold', hc, h⟩ := h
  obtain ⟨dur, ts, outs, hd, h2, h3, h4, h5, _, _, _, h6⟩ := simulate_spec _ _ _ thr maxMin "3day" _ s' r h
  rw [show simDuration "3day" = .ok (4320, 1) from rfl] at hd
  simp only [Except.ok.injEq, Prod.mk.injEq] at hd
  obtain ⟨rfl, rfl⟩ := hd
  rw [h5.usable, List.length_map]
  rcases h6 with ⟨_, h6, _⟩ | ⟨h6, _⟩
  · rw [h6]
  · rw [hr] at h6; simp at h6

/-- If the first step of a swing system leaves no usable hot water in the primary storage, the run is not successful. -/
theorem swing_first_outage_fails (s s' s2 : SwingSim K) (b : Building K) (thr cold off : K) (maxMin : Int) (r : SimRun K)
    (o : StepOut K) (hc : designInletOr b = .ok cold) (hoff : tmOffTemp s.supply (some s.tmHeater) = .ok off)
    (h1 : swingSimStep b 1 { s with tank := s.tank.init s.storage cold (initialUseable s.heaters), tm := s.tm.init off cold } 0
      = .ok (s2, o)) (ho : o.usable ≤ 0)
    (h : s.simulate b thr maxMin "3day" = .ok (s', r)) : r.isSuccessful = false := by
  unfold SwingSim.simulate swingSimulate at h
  have : simDuration "3day" = .ok (4320, 1) := rfl
  simp only [this, hc, hoff, ok_bind] at h
  have h42 := (C42_outage_partial _ _ _ thr maxMin "3day" _ s' r h).2
  obtain ⟨dur, ts, outs, hd, h2, h3, h4, h5, _, _, _, h6⟩ := simulate_spec _ _ _ thr maxMin "3day" _ s' r h
  rw [this] at hd
  simp only [Except.ok.injEq, Prod.mk.injEq] at hd
  obtain ⟨rfl, rfl⟩ := hd
  have hlen : 0 < outs.length := by
    rcases h6 with ⟨_, h6, _⟩ | ⟨_, h6, _⟩
    · rw [h6]; norm_num
    · exact h6
  cases outs with
  | nil => simp at hlen
  | cons o1 os =>
    obtain ⟨s3, h7, _⟩ := h4
    rw [h1] at h7
    simp only [Except.ok.injEq, Prod.mk.injEq] at h7
    obtain ⟨rfl, rfl⟩ := h7
    cases hr : r.isSuccessful with
    | false => rfl
    | true =>
      have := h42.1 hr o.usable (by rw [h5.usable]; simp)
      exact absurd this (not_lt.2 ho)

theorem swing_completes {s : SwingSim K} {b : Building K} {off : K}
    (hoff : tmOffTemp s.supply (some s.tmHeater) = .ok off) (hb : Answers b) (thr : K) (maxMin : Int)
    (hr : ∀ w ∈ s.heaters, Ready w) (ht : s.tank.vol ≠ 0 ∧ s.tank.slope ≠ 0) (hw : Ready s.tmHeater) (hv : s.tm.vol ≠ 0)
    (hin : ∀ i ts x, b.getInlet i ts = .ok x → x ≤ s.supply) : ∃ s' r, s.simulate b thr maxMin "3day" = .ok (s', r) := by
  unfold SwingSim.simulate
  have : simDuration "3day" = .ok (4320, 1) := rfl
  simp only [this, hoff, ok_bind]
  exact C91_completes_swing off s b thr maxMin "3day" (.inl rfl) hb hr ht hw hv hin

namespace Demo

/-- A quiet night, one busy hour in the morning, and even use for the rest of the day. -/
def morningShape : List ℚ := List.replicate 6 (1 / 100) ++ [12 / 100] ++ List.replicate 17 (82 / 1700)

def morning : Building ℚ :=
  ⟨some (ClimateZone.fromDesignConditions (some 20) (some 50)), 1000, morningShape, morningShape, "custom"⟩

/-- A primary of 10 kBTU/h on a tank of 100 gallons. -/
def smallHeater : Heater ℚ := Heater.fromNominal 10 (some allNormal) (some highSensor)

/-- The system before its addition is sized. -/
def smallSys : ErSys ℚ :=
  ⟨⟨{ cfg := ⟨120, 150, 24, 1⟩, minCap := some 10, minStorage := some 100 }, 110, 3, 6 / 5, some 50, none,
    some 20, 1⟩, 3 / 2, none⟩

theorem morning_answers : Answers morning := by
  refine ⟨fun _ _ => ⟨20, rfl⟩, fun _ _ => ⟨50, rfl⟩, ?_, ⟨some 50, rfl⟩⟩
  intro i ts avg
  unfold Building.getDhwLoad
  have e : (if avg then morning.avgShape else morning.peakShape) = morningShape := by cases avg <;> rfl
  simp only [e]
  have hl : morningShape.length = 24 := by decide
  rw [if_neg (by rw [hl]; decide), pyGet_of_lt (Nat.mod_lt _ (by rw [hl]; decide))]
  exact ⟨_, rfl⟩

/-- The addition, from the busiest hour. -/
def smallEr : ℚ := 3 / 2 * heatShort 120 120 50 (recircLossKbtuh 120 110 3) 10 20

theorem smallSys_sized :
    smallSys.sizeEr morning = (⟨{ smallSys.sw with tmCap := some (20 + smallEr) }, 3 / 2, some smallEr⟩, .ok ()) := by
  have hp : smallSys.sw.params = .ok ⟨50, recircLossKbtuh 120 110 3, 20, 120⟩ := rfl
  have hin : requireDesignInlet morning = .ok 50 := by decide +kernel
  obtain ⟨e', h⟩ := C84_er_sizing_never_fails_partial (e := smallSys) (b := morning) hp rfl rfl hin
    (by norm_num) (by norm_num) (by norm_num) (by decide +kernel) (by decide +kernel) (by decide +kernel)
  have hcap := C116_peak_first_partial (f0 := 12 / 100) (start := 6) h hp rfl rfl hin (by norm_num) (by norm_num)
    (by decide +kernel) (by norm_num) (by decide +kernel) (by norm_num) (by norm_num) (by decide +kernel)
    (by decide +kernel) (by decide +kernel) (by decide +kernel) ((firstDeficit_iff _ _ _).2 (by decide +kernel))
    (by decide +kernel)
  rcases sizeEr_cases smallSys morning with ⟨x, hx⟩ | ⟨er, hx⟩
  · rw [hx] at h; simp at h
  · have h' := h
    rw [hx] at h'
    simp only [Prod.mk.injEq, and_true] at h'
    rw [← h'] at hcap
    simp only [Option.some.injEq] at hcap
    have : er = smallEr := by
      rw [hcap]
      decide +kernel
    rw [hx, this]
    rfl

/-- The simulated parts of the sized system. -/
def smallSim : SwingSim ℚ :=
  ⟨120, 150, [smallHeater], StratTank.new 100 (28 / 10), 110, 3, ⟨50, 0, 0⟩, swingHeater 120 (20 + smallEr)⟩

theorem smallSim_built : ErSys.ofComponents [smallHeater] 100 (28 / 10) 50 20 morning 120 150 110 3 (3 / 2)
    = .ok (⟨{ smallSys.sw with tmCap := some (20 + smallEr) }, 3 / 2, some smallEr⟩, smallSim) := by
  have h := smallSys_sized
  have hoat : morning.getDesignOat = .ok (some 20) := by decide +kernel
  have hin : requireDesignInlet morning = .ok 50 := by decide +kernel
  have hf := fromComponents_one (sched := some allNormal) (cmap := some highSensor) hoat hin h
  unfold ErSys.ofComponents smallHeater
  rw [hf]
  rfl

/-- Its first step leaves the primary storage empty. -/
theorem small_first : ∃ s2 o, swingSimStep morning 1 { smallSim with
    tank := smallSim.tank.init smallSim.storage 50 (initialUseable smallSim.heaters), tm := smallSim.tm.init 128 50 } 0
      = .ok (s2, o) ∧ o.usable ≤ 0 := by
  have h : (match swingSimStep morning 1 { smallSim with
    tank := smallSim.tank.init smallSim.storage 50 (initialUseable smallSim.heaters), tm := smallSim.tm.init 128 50 } 0 with
    | .ok (_, o) => decide (o.usable ≤ 0)
    | .error _ => false) = true := by decide +kernel
  split at h
  · rename_i s2 o hs
    exact ⟨s2, o, hs, by simpa using h⟩
  · simp at h

theorem highControlled : Controlled (some allNormal) (some highSensor) :=
  ⟨_, _, rfl, rfl, fun hour hh => ⟨"normal", ⟨8 / 10, 110, 6 / 10, 120, 150⟩, by
    unfold allNormal; rw [List.getElem?_replicate, if_pos hh], by decide +kernel⟩⟩

theorem highHot : HotEnough 120 (some allNormal) (some highSensor) := by
  intro l m h1 h2
  injection h1 with h1; injection h2 with h2
  subst h1 h2
  decide +kernel

theorem small_outlet : ∀ hour < 24, ∀ x, IsOutlet smallSim.heaters smallSim.storage hour x → smallSim.supply ≤ x := by
  have h := hotEnough_outlet (w := smallHeater) (cap := 10) (storage := 150) ⟨rfl, rfl, rfl, fun _ _ _ => rfl⟩ highHot
    (by norm_num)
  exact h

theorem morning_cold : designInletOr morning = .ok 50 := by decide +kernel

theorem small_off : tmOffTemp smallSim.supply (some smallSim.tmHeater) = .ok 128 := by decide +kernel

theorem small_inlet : ∀ i ts x, morning.getInlet i ts = .ok x → 50 ≤ x ∧ x ≤ smallSim.supply := by
  intro i ts x hx
  have : (.ok 50 : Py ℚ) = .ok x := hx
  injection this with this
  rw [← this]; exact ⟨le_rfl, by decide +kernel⟩

theorem small_completes : ∃ sim' r, smallSim.simulate morning 5 10 "3day" = .ok (sim', r) := by
  have hr : Ready smallSim.tmHeater := swingHeater_ready 120 (20 + smallEr)
  have hh : ∀ w ∈ smallSim.heaters, Ready w := by
    intro w hw
    obtain rfl : w = smallHeater := by simpa [smallSim] using hw
    exact ready_fixed (cap := 10) rfl rfl rfl highControlled
  have ht : smallSim.tank.vol ≠ 0 ∧ smallSim.tank.slope ≠ 0 := by decide +kernel
  have hv : smallSim.tm.vol ≠ 0 := by decide +kernel
  exact swing_completes small_off morning_answers 5 10 hh ht hr hv
    (fun i ts x hx => (small_inlet i ts x hx).2)

end Demo

/-- **C119 fails.** A trade-off system built from components: its element is sized by the code for a primary that is too small.
In its simulation the swing tank is at supply temperature or above at every one of the 4320 steps, and still the run is
reported as failed, because the primary storage is empty after the first step. -/
theorem C119_delivers_but_reported_failed :
    ∃ (heaters : List (Heater ℚ)) (b : Building ℚ) (e : ErSys ℚ) (er : ℚ) (sim sim' : SwingSim ℚ) (r : SimRun ℚ),
      ErSys.ofComponents heaters 100 (28 / 10) 50 20 b 120 150 110 3 (3 / 2) = .ok (e, sim) ∧ e.erCap = some er ∧ 0 < er ∧
      sim.simulate b 5 10 "3day" = .ok (sim', r) ∧ r.tmTemp.length = 4320 ∧ (∀ x ∈ r.tmTemp, 120 ≤ x) ∧
      r.stopped = false ∧ r.isSuccessful = false := by
  have hcold := Demo.morning_cold
  have hoff := Demo.small_off
  have hinlet := Demo.small_inlet
  obtain ⟨sim', r, hr⟩ := Demo.small_completes
  have hout := Demo.small_outlet
  obtain ⟨k1, k2, k3⟩ := C119_element_alone_partial Demo.smallSim sim' Demo.morning (20 + Demo.smallEr) 50 120 5 10 "3day" r
    ⟨rfl, rfl, rfl⟩ (by decide +kernel) (by decide +kernel) (by decide +kernel) (by decide +kernel) (by decide +kernel)
    (by decide +kernel) (by decide +kernel) hout hinlet
    (fun x hx => by rw [hcold] at hx; injection hx with hx; rw [← hx]; exact ⟨le_rfl, by decide +kernel⟩)
    (by decide +kernel) hr
  have hstop := k3 (by norm_num)
  refine ⟨_, _, _, _, _, sim', r, Demo.smallSim_built, rfl, by decide +kernel, hr, by rw [k1, swing_full_run hr hstop], k2, hstop, ?_⟩
  obtain ⟨s2, o, h1, h2⟩ := Demo.small_first
  exact swing_first_outage_fails Demo.smallSim sim' s2 Demo.morning 5 50 128 10 r o hcold hoff h1 h2 hr

end Eco
