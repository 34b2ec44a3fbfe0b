import Verif.Props.Shared
set_option linter.unusedSectionVars false

/-! C146 for single-pass return-to-primary systems with load shifting. -/

namespace Eco
open Spec
variable {K : Type} [Field K] [LinearOrder K] [IsStrictOrderedRing K] {b : Building K} {bs : List (Building K)}

theorem shiftRate_mul (block hours : List ℕ) (lu : ℕ) (fract q k : K) (u : ℕ → K) :
    shiftRate block hours lu fract q (fun h => k * u h) = k * shiftRate block hours lu fract q u := by
  simp only [shiftRate, List.sum_map_mul_left]
  ring

theorem use_more {d r : K} (hd : d ≠ 0) (a : List K) : use (d + r) a = fun h => (1 + r / d) * use d a h := by
  funext h
  simp only [use]
  field_simp

theorem daily_le (h0 : ∀ p ∈ bs, 0 ≤ p.dailyGal) {p : Building K} (hp : p ∈ bs) : p.dailyGal ≤ (bs.map (·.dailyGal)).sum := by
  induction bs with
  | nil => simp at hp
  | cons x bs ih =>
    have hx := h0 x (by simp)
    have hr : 0 ≤ (bs.map (·.dailyGal)).sum :=
      List.sum_nonneg (by
        intro y hy
        obtain ⟨z, hz, rfl⟩ := List.mem_map.1 hy
        exact h0 z (by simp [hz]))
    simp only [List.map_cons, List.sum_cons]
    rcases List.mem_cons.1 hp with rfl | hp
    · linarith
    · linarith [ih (fun q hq => h0 q (by simp [hq])) hp]

/-- The gallons at supply temperature that carry the loss of the loop. -/
def loopGal (l : RtpLoop K) (c : SysCfg K) (i : K) : K := rtpLossKbtuh c l * 1000 / (rhoCp K * (c.supply - i)) * 24

/-- The generation rate of several buildings and one loop is at most the sum of the rates of the buildings, each with a loop. -/
theorem gen_shared_loop {c : SysCfg K} {sched : List String} {m : ControlMap K} {slope fract g r : K} {gs : List K}
    (hB : Houses b bs) (hne : bs ≠ []) (hD : 0 < b.dailyGal) (h0 : ∀ p ∈ bs, 0 ≤ p.dailyGal) (hr : 0 ≤ r) (hH : 0 ≤ c.maxRunHr)
    (h : genRateLs c sched m { b with dailyGal := b.dailyGal + r } slope fract = .ok g)
    (h' : List.Forall₂ (fun p g => genRateLs c sched m { p with dailyGal := p.dailyGal + r } slope fract = .ok g) bs gs) :
    g ≤ gs.sum := by
  have hn : (b.dailyGal + r) / c.maxRunHr ≤ (bs.map (fun p => (p.dailyGal + r) / c.maxRunHr)).sum := by
    have e : (bs.map (fun p => (p.dailyGal + r) / c.maxRunHr)).sum =
        ((bs.map (·.dailyGal)).sum + (bs.length : K) * r) / c.maxRunHr := by
      simp only [div_eq_mul_inv, List.sum_map_mul_right, List.sum_map_add]
      simp
    rw [e, ← hB.daily]
    apply div_le_div_of_nonneg_right _ hH
    have h1 : (1 : K) ≤ (bs.length : K) := by
      exact_mod_cast Nat.one_le_iff_ne_zero.2 (fun h => hne (List.length_eq_zero_iff.1 h))
    nlinarith
  rcases gen_form c sched m slope fract with hg | ⟨block, hours, lu, q, hg⟩
  · rw [hg _ _ h]
    exact hn.trans (sum_le_of_forall₂ (h'.imp (fun p g h => (hg _ _ h).ge)))
  · rw [hg _ _ h]
    refine max_le ?_ ?_
    · exact hn.trans (sum_le_of_forall₂ (h'.imp (fun p g h => by rw [hg _ _ h]; exact le_max_left _ _)))
    · show shiftRate block hours lu fract q (use (b.dailyGal + r) b.avgShape) ≤ gs.sum
      rw [use_more hD.ne', shiftRate_mul, show use b.dailyGal b.avgShape = fun h => (bs.map (fun p => use p.dailyGal p.avgShape h)).sum from
        funext hB.avg, shiftRate_sum, ← List.sum_map_mul_left]
      refine sum_le_of_forall₂ (forall₂_mem h' (fun p hp g h => ?_))
      rw [hg _ _ h]
      show _ ≤ max ((p.dailyGal + r) / c.maxRunHr) (shiftRate block hours lu fract q (use (p.dailyGal + r) p.avgShape))
      have hp0 := h0 p hp
      have hle : p.dailyGal ≤ b.dailyGal := by rw [hB.daily]; exact daily_le h0 hp
      have hpos : 0 ≤ (p.dailyGal + r) / c.maxRunHr := div_nonneg (by linarith) hH
      have hk : 0 ≤ 1 + r / b.dailyGal := by
        have := div_nonneg hr hD.le
        linarith
      by_cases hy : shiftRate block hours lu fract q (use p.dailyGal p.avgShape) ≤ 0
      · exact (mul_nonpos_of_nonneg_of_nonpos hk hy).trans (hpos.trans (le_max_left _ _))
      · have hy := lt_of_not_ge hy
        have hp1 : 0 < p.dailyGal := by
          refine lt_of_le_of_ne hp0 (fun e => ?_)
          rw [← e, show use (0 : K) p.avgShape = fun h => (0 : K) * (fun _ => (0 : K)) h from by funext h; simp [use], shiftRate_mul] at hy
          simp at hy
        refine le_trans ?_ (le_max_right _ _)
        rw [use_more hp1.ne', shiftRate_mul]
        apply mul_le_mul_of_nonneg_right _ hy.le
        have : r / b.dailyGal ≤ r / p.dailyGal := div_le_div_of_nonneg_left hr hp1 hle
        linarith

/-- **C146, single-pass return to primary with load shifting.** With one loop instead of one for each building, a system for
several buildings needs no more heating capacity than the systems of the buildings together. -/
theorem C146_single_pass_shift_capacity (hB : Houses b bs) (hb : FullDay b) (hbs : ∀ p ∈ bs, FullDay p) (hne : bs ≠ [])
    (hD : 0 < b.dailyGal) (hD0 : ∀ p ∈ bs, 0 ≤ p.dailyGal) {db : ShapeFiles K} {s : DhwSys K} {l : RtpLoop K}
    (hcold : ∀ t, b.getDesignInlet = .ok (some t) → t ≤ s.cfg.supply) (hl : 0 ≤ rtpLossKbtuh s.cfg l) (hd : 0 ≤ s.cfg.defrost)
    (h0 : 0 ≤ s.cfg.maxRunHr) {sched : Option (List String)} {cmap : Option (ControlMap K)} {slope fract : K}
    {x : K × K} {xs : List (K × K)} (h : SizedAs (spMethods l) db s sched cmap slope fract b x)
    (h' : List.Forall₂ (SizedAs (spMethods l) db s sched cmap slope fract) bs xs) : x.1 ≤ (xs.map (·.1)).sum := by
  replace h := sized_core hb h
  replace h' := forall₂_mem h' (fun p hp y hy => sized_core (hbs p hp) hy)
  have hx : xs ≠ [] := by
    rintro rfl
    cases h'
    exact hne rfl
  obtain ⟨k, hk⟩ := requiredCapacity_use (cappedCfg s.cfg (lsInputs sched cmap)) b.climate
  have hc1 : (cappedCfg s.cfg (lsInputs sched cmap)).supply = s.cfg.supply := by unfold cappedCfg; split <;> rfl
  have hc2 : (cappedCfg s.cfg (lsInputs sched cmap)).defrost = s.cfg.defrost := by unfold cappedCfg; split <;> rfl
  have hc3 : 0 ≤ (cappedCfg s.cfg (lsInputs sched cmap)).maxRunHr := by
    unfold cappedCfg
    split
    · exact h0
    · exact le_min h0 (Nat.cast_nonneg _)
  have hc4 : rtpLossKbtuh (cappedCfg s.cfg (lsInputs sched cmap)) l = rtpLossKbtuh s.cfg l := by
    unfold cappedCfg; split <;> rfl
  rw [← hc1] at hcold
  rw [← hc2] at hd
  rw [← hc4] at hl
  generalize cappedCfg s.cfg (lsInputs sched cmap) = c at h h' hk hcold hd hc3 hl
  have hR : 0 ≤ rtpLossKbtuh c l * 24 / c.maxRunHr / c.defrost := by positivity
  have loop : ∀ {R}, rtpRecircCap c l = .ok R → R = rtpLossKbtuh c l * 24 / c.maxRunHr / c.defrost := by
    intro R h
    simp only [rtpRecircCap, bind_eq_ok, fdiv_eq_ok] at h
    obtain ⟨_, ⟨-, rfl⟩, -, rfl⟩ := h
    rfl
  have cap : ∀ {p : Building K} {q : K}, rtpRequiredCapacity l c p = .ok q →
      requiredCapacity c p = .ok (q - rtpLossKbtuh c l * 24 / c.maxRunHr / c.defrost) := by
    intro p q h
    simp only [rtpRequiredCapacity, bind_eq_ok, pure_eq_ok, Except.ok.injEq] at h
    obtain ⟨a, ha, R, hR, rfl⟩ := h
    rw [loop hR, ha, add_sub_cancel_right]
  generalize rtpLossKbtuh c l * 24 / c.maxRunHr / c.defrost = R at hR loop cap
  have normal : ∀ {q : K} {qs : List K}, requiredCapacity c b = .ok q →
      List.Forall₂ (fun p q => requiredCapacity c p = .ok q) bs qs → q = qs.sum := by
    intro q qs hq hqs
    rw [hk _ _ rfl hq, hB.daily, ← sum_map_mul]
    exact sum_eq_of_forall₂ (forall₂_mem hqs (fun p hp q hq => (hk _ _ (hB.place p hp) hq).symm))
  have less := sum_less R hR hx
  obtain ⟨x1, x2⟩ := x
  cases hls : lsInputs sched cmap with
  | none =>
    rw [hls] at h h'
    have val : ∀ {p : Building K} {y : K × K}, sizeCore (spMethods l) c p none cmap slope fract = .ok y →
        requiredCapacity c p = .ok (y.1 - R) := by
      intro p y h
      obtain ⟨y1, y2⟩ := y
      simp only [sizeCore, bind_eq_ok, pure_eq_ok, Except.ok.injEq, Prod.mk.injEq] at h
      obtain ⟨i, _, q, hq, _, _, _, _, _, _, rfl, rfl⟩ := h
      exact cap hq
    have := normal (val h) (List.forall₂_map_right_iff.2 (h'.imp (fun p y h => val h)))
    simp only at this ⊢
    linarith
  | some z =>
    obtain ⟨sc, m⟩ := z
    rw [hls] at h h'
    have val : ∀ {p : Building K} {y : K × K}, sizeCore (spMethods l) c p (some (sc, m)) cmap slope fract = .ok y →
        ∃ q g i, requireDesignInlet p = .ok i ∧ requiredCapacity c p = .ok q ∧
          genRateLs c sc m { p with dailyGal := p.dailyGal + loopGal l c i } slope fract = .ok g ∧
          y.1 - R = max q (g * rhoCp K * (c.supply - i) / c.defrost / 1000) := by
      intro p y h
      obtain ⟨y1, y2⟩ := y
      simp only [sizeCore, bind_eq_ok, pure_eq_ok, Except.ok.injEq, Prod.mk.injEq] at h
      obtain ⟨i, hi, q, hq, _, _, _, _, _, _, t, ht, g, hg, _, _, _, _, rfl, rfl⟩ := h
      have hg : (spGenRateLs l c sc m p slope fract).2 = .ok g := hg
      have ht : rtpRequiredCapacityLs l (fun c sched m b slope fract => (spGenRateLs l c sched m b slope fract).2) c sc m p slope fract =
        .ok t := ht
      simp only [rtpRequiredCapacityLs, requiredCapacityLs, hi, hg, ok_bind, capacityOfGenRate, bind_eq_ok, pure_eq_ok, fdiv_eq_ok,
        Except.ok.injEq] at ht
      obtain ⟨_, ⟨_, ⟨-, rfl⟩, rfl⟩, R', hR', rfl⟩ := ht
      have e := loop hR'
      refine ⟨q - R, g, i, hi, cap hq, ?_, ?_⟩
      · unfold spGenRateLs at hg
        cases hr : recircDaily c l p with
        | error e => rw [hr] at hg; simp at hg
        | ok r =>
          rw [hr] at hg
          simp only [recircDaily, hi, ok_bind, bind_eq_ok, fdiv_eq_ok, pure_eq_ok, Except.ok.injEq] at hr
          obtain ⟨_, ⟨-, rfl⟩, rfl⟩ := hr
          exact hg
      · simp only
        rw [e, ← max_sub_sub_right, add_sub_cancel_right]
    obtain ⟨q, g, i, hi, hq, hg, hxv⟩ := val h
    have hi0 : i ≤ c.supply := by
      apply hcold
      unfold requireDesignInlet at hi
      rw [bind_eq_ok] at hi
      obtain ⟨o, ho, hi⟩ := hi
      cases o with
      | none => simp at hi
      | some t =>
        simp only [pure_eq_ok, Except.ok.injEq] at hi
        rw [ho, hi]
    have hsub : 0 ≤ c.supply - i := by linarith
    have hrho := (rhoCp_pos (K := K)).le
    have hr : 0 ≤ loopGal l c i := by
      unfold loopGal
      positivity
    simp only at hxv
    have lists : ∃ qs gs, List.Forall₂ (fun p q => requiredCapacity c p = .ok q) bs qs ∧
        List.Forall₂ (fun p g => genRateLs c sc m { p with dailyGal := p.dailyGal + loopGal l c i } slope fract = .ok g) bs gs ∧
        qs.sum ≤ (xs.map (fun y => y.1 - R)).sum ∧
        gs.sum * rhoCp K * (c.supply - i) / c.defrost / 1000 ≤ (xs.map (fun y => y.1 - R)).sum := by
      have hpl : ∀ p ∈ bs, requireDesignInlet p = .ok i := fun p hp => (inlet_of_climate (hB.place p hp)).trans hi
      clear h hB hbs normal hne hD0 less hx
      induction h' with
      | nil => exact ⟨[], [], .nil, .nil, by simp, by simp⟩
      | @cons p y bs xs h1 _ ih =>
        obtain ⟨qs, gs, k1, k2, k3, k4⟩ := ih (fun p hp => hpl p (by simp [hp]))
        obtain ⟨q', g', i', hi', hq', hg', hy⟩ := val h1
        obtain rfl : i = i' := Except.ok.inj ((hpl p (by simp)).symm.trans hi')
        refine ⟨q' :: qs, g' :: gs, .cons hq' k1, .cons hg' k2, ?_, ?_⟩
        · simp only [List.sum_cons, List.map_cons, hy]
          linarith [le_max_left q' (g' * rhoCp K * (c.supply - i) / c.defrost / 1000)]
        · simp only [List.sum_cons, List.map_cons, hy]
          have := le_max_right q' (g' * rhoCp K * (c.supply - i) / c.defrost / 1000)
          calc _ = g' * rhoCp K * (c.supply - i) / c.defrost / 1000 + gs.sum * rhoCp K * (c.supply - i) / c.defrost / 1000 := by ring
            _ ≤ _ := by linarith
    obtain ⟨qs, gs, k1, k2, k3, k4⟩ := lists
    have hg' := gen_shared_loop hB hne hD hD0 hr hc3 hg k2
    have top : max q (g * rhoCp K * (c.supply - i) / c.defrost / 1000) ≤ (xs.map (fun y => y.1 - R)).sum := by
      refine max_le ((normal hq k1).le.trans k3) (le_trans ?_ k4)
      have : g * (rhoCp K * (c.supply - i)) ≤ gs.sum * (rhoCp K * (c.supply - i)) :=
        mul_le_mul_of_nonneg_right hg' (mul_nonneg hrho hsub)
      apply div_le_div_of_nonneg_right _ (by norm_num)
      apply div_le_div_of_nonneg_right _ hd
      linarith
    simp only
    linarith

/-- Non-vacuity: the two houses with a loop of 3 gallons a minute that returns at 110 °F, and load shifting. -/
example : ∃ x xs,
    SizedAs (spMethods ⟨110, 3⟩) Demo.noFiles { cfg := Demo.cfg } (some Demo.sched) (some Demo.map) (28/10) 1 Demo.bothHouses x ∧
    List.Forall₂ (SizedAs (spMethods ⟨110, 3⟩) Demo.noFiles { cfg := Demo.cfg } (some Demo.sched) (some Demo.map) (28/10) 1)
      [Demo.houseA, Demo.houseB] xs ∧ 0 < x.1 ∧ x.1 ≤ (xs.map (·.1)).sum := by
  have h : SizedAs (spMethods ⟨110, 3⟩) Demo.noFiles { cfg := Demo.cfg } (some Demo.sched) (some Demo.map) (28/10) 1 Demo.bothHouses
      (4626187683 / 80000000, 666029 / 2987) := sizedAs_of (by decide +kernel) (by decide +kernel) (by decide +kernel)
  have h' : List.Forall₂ (SizedAs (spMethods ⟨110, 3⟩) Demo.noFiles { cfg := Demo.cfg } (some Demo.sched) (some Demo.map) (28/10) 1)
      [Demo.houseA, Demo.houseB] [(8234914803 / 160000000, 1091909 / 5974), (1448502969 / 23200000, 439348 / 2987)] :=
    .cons (sizedAs_of (by decide +kernel) (by decide +kernel) (by decide +kernel))
      (.cons (sizedAs_of (by decide +kernel) (by decide +kernel) (by decide +kernel)) .nil)
  have hcold : ∀ t, Demo.bothHouses.getDesignInlet = .ok (some t) → t ≤ (120 : ℚ) := by
    intro t ht
    rw [show Demo.bothHouses.getDesignInlet = .ok (some 50) by decide +kernel] at ht
    simp only [Except.ok.injEq, Option.some.injEq] at ht
    rw [← ht]
    norm_num
  exact ⟨_, _, h, h', by norm_num, C146_single_pass_shift_capacity Demo.bothHouses_houses Demo.bothHouses_fullDay Demo.houses_fullDay
    (by simp) (by decide +kernel) (by decide +kernel) hcold (by decide +kernel) (by decide +kernel) (by decide +kernel) h h'⟩

end Eco
