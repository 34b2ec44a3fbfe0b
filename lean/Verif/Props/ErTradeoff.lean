import Verif.Props.ErCoverage
import Verif.Props.MultiPassCurve
import Verif.Props.SwingErCurve

set_option linter.unusedSectionVars false

/-! C121: the points of the electric resistance trade-off curve when the sizing run starts with the busiest hour. -/

namespace Eco
variable {K : Type} [Field K] [LinearOrder K] [IsStrictOrderedRing K]

theorem erIteration_ok {e e1 e2 : ErSys K} {b b1 : Building K} (hl : ErLoop e b e1 b1) {tm extra : K} {i : Nat}
    (h : Spec.erAt e b tm extra i = (e2, .ok ())) :
    ∃ eb, erIteration tm b.dailyGal e.erSf extra e1 b1 i = (eb, .ok ()) ∧ ErLoop e b eb.1 eb.2 := by
  have hit := erIteration_spec hl tm extra i
  rcases hit with ⟨x, hx⟩ | ⟨e', er, -, -, hit⟩
  · exfalso
    obtain ⟨⟨u, v, rfl⟩, z, rfl⟩ := hl
    unfold Spec.erAt at h
    unfold erIteration at hx
    dsimp only at h hx
    rw [h] at hx
    simp at hx
  · exact ⟨_, hit, ⟨_, _, rfl⟩, _, rfl⟩

theorem erPoints_total {total tm extra : K} {e : ErSys K} {b : Building K} (is : List Nat)
    (h : ∀ i ∈ is, i ≠ 100 → ∃ e2, Spec.erAt e b tm extra i = (e2, .ok ())) {e1 : ErSys K} {b1 : Building K}
    (hl : ErLoop e b e1 b1) : ∃ ps, (erPoints total tm b.dailyGal e.erSf extra e1 b1 is).2 = .ok ps := by
  induction is generalizing e1 b1 with
  | nil => exact ⟨_, rfl⟩
  | cons i is ih =>
    have ih' := fun {e1 b1} => ih (fun j hj => h j (List.mem_cons_of_mem _ hj)) (e1 := e1) (b1 := b1)
    unfold erPoints
    by_cases h100 : i = 100
    · rw [if_pos h100]
      obtain ⟨ps, hps⟩ := ih' hl
      exact ⟨(i, total) :: ps, by simp only [hps, Except.map]⟩
    · rw [if_neg h100]
      obtain ⟨e2, h2⟩ := h i (by simp) h100
      obtain ⟨eb, hit, hl2⟩ := erIteration_ok hl h2
      rw [hit]
      dsimp only
      split
      · obtain ⟨ps, hps⟩ := ih' hl2
        exact ⟨(i, eb.1.sw.tmCap.getD 0) :: ps, by simp only [hps, Except.map]⟩
      · exact ⟨_, rfl⟩

theorem getErSizedPoints_total [FloorRing K] {e : ErSys K} {b : Building K} {er total extra : K}
    (her : e.erCap = some er) (htot : e.sw.tmCap = some total) (hpos : 0 < er)
    (h : ∀ i ∈ erPercents, i ≠ 100 → ∃ e2, Spec.erAt e b (total - er) extra i = (e2, .ok ())) :
    ∃ c, e.getErSizedPoints b extra = ((e, b), .ok c) := by
  rcases getErSizedPoints_cases (b := b) (extra := extra) her htot hpos with ⟨i, hi, x, hx⟩ | ⟨ps, n, hx, _⟩
  · exfalso
    have hl : ErLoop e b e b := ⟨⟨e.sw.tmCap, e.erCap, rfl⟩, b.dailyGal, rfl⟩
    obtain ⟨ps, hps⟩ := erPoints_total (total := total) erPercents h hl
    unfold ErSys.getErSizedPoints at hx
    simp only [her, htot, if_neg (not_le.2 hpos)] at hx
    split at hx
    · rename_i eb y hy
      rw [hy] at hps
      simp at hps
    · simp at hx
  · exact ⟨_, hx⟩

/-- The heat [kBTU/h] that the busiest hour at `i` percent of the daily use needs beyond the primary and the element. -/
def Spec.shortAt (b : Building K) (p : SwingParams K) (cap inlet f0 : K) (i : Nat) : K :=
  max 0 (Spec.heatShort (f0 * (b.dailyGal * ((i : K) / 100))) p.supply inlet p.lossKbtuh cap p.capKbtuh)

theorem Spec.shortAt_mono {b : Building K} {p : SwingParams K} {cap inlet f0 : K} (hd : 0 ≤ b.dailyGal) (hf : 0 ≤ f0)
    (hi : inlet ≤ p.supply) {i j : Nat} (h : i ≤ j) : shortAt b p cap inlet f0 i ≤ shortAt b p cap inlet f0 j := by
  have hrho := rho_pos (K := K)
  have hsi : 0 ≤ p.supply - inlet := by linarith
  have hij : (i : K) ≤ (j : K) := by exact_mod_cast h
  unfold shortAt Spec.heatShort
  gcongr

seal ErSys.sizeEr in
/-- **C121, partial.** If the sizing run starts with the busiest hour of the day, which the tank can take even at 120 percent of
the daily use, the points of the trade-off curve of a system that needs an addition can be computed. They include 100 percent,
where the slider starts, and each point is the base element plus the safety factor times the heat the busiest hour needs beyond
the primary and this element. With the same safety factor throughout the curve rises with the coverage. -/
theorem C121_curve_partial [FloorRing K] {e0 e : ErSys K} {b : Building K} {p : SwingParams K}
    {tm cap full inlet f0 er extra : K} {start : Nat}
    (h : e0.sizeEr b = (e, .ok ())) (htm : e0.sw.tmCap = some tm) (her : e.erCap = some er) (hpos : 0 < er)
    (hp : e0.sw.params = .ok p) (hcap : e0.sw.base.minCap = some cap)
    (hfull : e0.sw.base.minStorage = some full) (hin : requireDesignInlet b = .ok inlet)
    (hv : 0 < p.vol) (hc : 0 < p.capKbtuh) (hlc : p.lossKbtuh ≤ p.capKbtuh) (hi : inlet < p.supply)
    (hst : p.supply ≤ e0.sw.base.cfg.storage) (hcap0 : 0 ≤ cap) (hfull0 : 0 ≤ full) (hsf : 0 ≤ e0.erSf) (hx : 0 < extra)
    (hlen : b.peakShape.length = 24) (hd : 0 ≤ b.dailyGal) (hpeak : ∀ f ∈ b.peakShape, 0 ≤ f ∧ f ≤ f0)
    (htake : f0 * (b.dailyGal * (120 / 100)) / 60 < p.vol) (hr : e0.sw.base.cfg.maxRunHr ≠ 0)
    (hs : Spec.FirstDeficit b.peakShape e0.sw.base.cfg.maxRunHr start)
    (hf0 : b.peakShape[start]? = some f0) :
    ∃ c, e.getErSizedPoints b extra = ((e, b), .ok c) ∧ c.percents[c.start]? = some 100 ∧
      c.percents <:+ [10, 20, 30, 40, 50, 60, 70, 80, 90, 100, 110, 120] ∧
      List.Forall₂ (fun i kw => kw = pyRound ((tm + (if i = 100 then e0.erSf else extra) *
        Spec.shortAt b p cap inlet f0 i) / wToKbtuh K)) c.percents c.kw ∧
      (extra = e0.erSf → c.kw.Pairwise (· ≤ ·)) := by
  have hf : 0 ≤ f0 := (hpeak f0 (List.mem_of_getElem? hf0)).1
  have he : e = ⟨{ e0.sw with tmCap := some (tm + er) }, e0.erSf, some er⟩ := by
    rcases sizeEr_cases e0 b with ⟨x, hx⟩ | ⟨er', hx⟩
    · rw [hx] at h; simp at h
    · rw [hx] at h
      simp only [Prod.mk.injEq, and_true] at h
      rw [← h] at her
      simp only [Option.some.injEq] at her
      subst her
      rw [← h, htm]
      rfl
  have htot : e.sw.tmCap = some (tm + er) := by rw [he]
  have hbase : tm + er - er = tm := by ring
  have hsw : ({ e.sw with tmCap := some tm } : SwingSys K) = e0.sw := by
    rw [he, ← htm]
  -- each point
  have hat : ∀ i ∈ erPercents, ∃ e1, Spec.erAt e b tm extra i = (e1, .ok ()) ∧
      e1.erCap = some (extra * Spec.shortAt b p cap inlet f0 i) := by
    intro i hi'
    have hi120 : (i : K) ≤ 120 := by
      have : i ≤ 120 := by
        revert i
        decide
      exact_mod_cast this
    have hi0 : (0 : K) ≤ i := Nat.cast_nonneg i
    have hg0 : 0 ≤ b.dailyGal * ((i : K) / 100) := by positivity
    have hg1 : b.dailyGal * ((i : K) / 100) ≤ b.dailyGal * (120 / 100) := by gcongr
    unfold Spec.erAt
    rw [hsw]
    obtain ⟨e1, h1⟩ := C84_er_sizing_never_fails_partial (e := ⟨e0.sw, extra, none⟩)
      (b := { b with dailyGal := b.dailyGal * ((i : K) / 100) }) hp hcap hfull hin hv hc hi hst hlen (by
        intro f hf'
        obtain ⟨g1, g2⟩ := hpeak f hf'
        refine ⟨mul_nonneg g1 hg0, lt_of_le_of_lt ?_ htake⟩
        dsimp only
        gcongr)
    refine ⟨e1, h1, ?_⟩
    have h2 := C116_peak_first_partial (e := ⟨e0.sw, extra, none⟩) (b := { b with dailyGal := b.dailyGal * ((i : K) / 100) })
      h1 hp hcap hfull hin hv hc hlc hi hst hcap0 hfull0 hx.le hg0 hpeak hr hs hf0
    exact h2
  have hsized : er = e0.erSf * Spec.shortAt b p cap inlet f0 100 := by
    have := C116_peak_first_partial h hp hcap hfull hin hv hc hlc hi hst hcap0 hfull0 hsf hd hpeak hr hs hf0
    rw [her, Option.some.injEq] at this
    rw [this]
    unfold Spec.shortAt
    norm_num
  have hshort : 0 < Spec.shortAt b p cap inlet f0 100 := by
    have hge : 0 ≤ Spec.shortAt b p cap inlet f0 100 := le_max_left _ _
    rcases hge.eq_or_lt with h0 | h0
    · rw [← h0, mul_zero] at hsized
      exact absurd hsized hpos.ne'
    · exact h0
  obtain ⟨c, hcv⟩ := getErSizedPoints_total (extra := extra) her htot hpos (by
    intro i hi' _
    obtain ⟨e1, h1, -⟩ := hat i hi'
    exact ⟨e1, by rw [hbase]; exact h1⟩)
  have h100 : 100 ∈ c.percents := by
    refine (C69_start_reached_iff hcv her htot hpos).2 fun i hi' => ?_
    obtain ⟨e1, h1, h2⟩ := hat i (by revert i; decide)
    refine ⟨e1, _, by rw [hbase]; exact h1, h2, mul_pos hx (hshort.trans_le ?_)⟩
    refine Spec.shortAt_mono hd hf hi.le ?_
    simp only [List.mem_cons, List.not_mem_nil, or_false] at hi'
    omega
  obtain ⟨q1, q2, q3, -⟩ := C69_points hcv her htot hpos
  have hsub : ∀ i ∈ c.percents, i ∈ erPercents := fun i hi' => by
    have := q1.subset hi'
    clear hi'
    revert i
    decide
  have hpts : List.Forall₂ (fun i kw => kw = pyRound ((tm + (if i = 100 then e0.erSf else extra) *
      Spec.shortAt b p cap inlet f0 i) / wToKbtuh K)) c.percents c.kw := by
    rw [List.forall₂_iff_zip] at q3 ⊢
    refine ⟨q3.1, fun {i kw} hz => ?_⟩
    obtain ⟨x, rfl, hx'⟩ := q3.2 hz
    rcases hx' with ⟨h1, h2⟩ | ⟨h1, e', er', h2, h3, h4⟩
    · simp only at h1 h2
      rw [if_pos h1, h2, h1, ← hsized]
    · simp only at h1 h2 h4
      rw [if_neg h1, h4, hbase]
      obtain ⟨e1, g1, g2⟩ := hat i (hsub i (List.of_mem_zip hz).1)
      rw [hbase, g1] at h2
      simp only [Prod.mk.injEq, and_true] at h2
      subst h2
      rw [g2, Option.some.injEq] at h3
      rw [h3]
  refine ⟨c, hcv, (C69_start_names_100_partial hcv her htot hpos h100).1, q1, hpts, fun hsame => ?_⟩
  have hkw : c.kw = c.percents.map (fun i => pyRound ((tm + extra * Spec.shortAt b p cap inlet f0 i) / wToKbtuh K)) := by
    have : List.Forall₂ (fun kw i => kw = pyRound ((tm + extra * Spec.shortAt b p cap inlet f0 i) / wToKbtuh K))
        c.kw c.percents := by
      refine hpts.flip.imp fun kw i hk => ?_
      rw [hk, hsame]
      simp only [ite_self]
    exact List.forall₂_eq_eq_eq ▸ (List.forall₂_map_right_iff.2 this)
  rw [hkw, List.pairwise_map]
  have hw : 0 < wToKbtuh K := by unfold wToKbtuh; norm_num
  refine List.Pairwise.imp (R := (· ≤ ·)) (fun {i j} hij => pyRound_mono ?_) ?_
  · have := Spec.shortAt_mono (b := b) (p := p) (cap := cap) (inlet := inlet) hd hf hi.le hij
    gcongr
  · exact List.Pairwise.sublist q1.sublist (by decide)

/-- A swing tank that takes the busiest minute even at 120 percent of the use, with an element safety factor. -/
def Demo.erLarge (sf : ℚ) : ErSys ℚ :=
  ⟨{ Demo.erSys.sw with tmVol := some 80 }, sf, none⟩

theorem Demo.erLarge_facts (sf : ℚ) : 120 ≤ (Demo.erLarge sf).sw.base.cfg.storage ∧
    (Demo.erLarge sf).sw.base.cfg.maxRunHr ≠ 0 ∧
    Spec.FirstDeficit Demo.erBuilding.peakShape (Demo.erLarge sf).sw.base.cfg.maxRunHr 5 := by
  rw [firstDeficit_iff]
  change (120 : ℚ) ≤ 150 ∧ (24 : ℚ) ≠ 0 ∧
    (peakIndices (Demo.erBuilding.peakShape.map (fun f => 1 / 24 - f))).head?.getD 0 = 5
  decide +kernel

theorem Demo.erLarge_sized {sf : ℚ} (hsf : 0 < sf) :
    ∃ e er, (Demo.erLarge sf).sizeEr Demo.erBuilding = (e, .ok ()) ∧ e.erCap = some er ∧ 0 < er := by
  have hin : requireDesignInlet Demo.erBuilding = .ok 50 := by decide +kernel
  obtain ⟨e, h⟩ := C84_er_sizing_never_fails_partial (e := Demo.erLarge sf) (b := Demo.erBuilding)
    (p := ⟨80, recircLossKbtuh 120 110 3, 20, 120⟩) (cap := 500) (full := 100) rfl rfl rfl hin
    (by norm_num) (by norm_num) (by norm_num) (Demo.erLarge_facts sf).1 (by decide +kernel)
    (by decide +kernel)
  refine ⟨e, _, h, C116_peak_first_partial (p := ⟨80, recircLossKbtuh 120 110 3, 20, 120⟩) (cap := 500) (full := 100)
    (f0 := 27 / 100) (start := 5) h rfl rfl rfl hin (by norm_num) (by norm_num) (by decide +kernel) (by norm_num)
    (Demo.erLarge_facts sf).1 (by norm_num) (by norm_num) hsf.le (by decide +kernel) (by decide +kernel)
    (Demo.erLarge_facts sf).2.1 (Demo.erLarge_facts sf).2.2 (by decide +kernel), ?_⟩
  exact mul_pos hsf (by decide +kernel)

theorem Demo.erLarge_curve {sf : ℚ} (hsf : 0 < sf) :
    ∃ e er c, (Demo.erLarge sf).sizeEr Demo.erBuilding = (e, .ok ()) ∧ e.erCap = some er ∧ 0 < er ∧
      e.getErSizedPoints Demo.erBuilding 1 = ((e, Demo.erBuilding), .ok c) ∧ c.percents[c.start]? = some 100 ∧
      c.percents <:+ [10, 20, 30, 40, 50, 60, 70, 80, 90, 100, 110, 120] ∧
      List.Forall₂ (fun i kw => kw = pyRound ((20 + (if i = 100 then sf else 1) *
        Spec.shortAt Demo.erBuilding ⟨80, recircLossKbtuh 120 110 3, 20, 120⟩ 500 50 (27 / 100) i) / wToKbtuh ℚ))
        c.percents c.kw ∧ (1 = sf → c.kw.Pairwise (· ≤ ·)) := by
  have hin : requireDesignInlet Demo.erBuilding = .ok 50 := by decide +kernel
  obtain ⟨e, er, h, her, hpos⟩ := Demo.erLarge_sized hsf
  obtain ⟨c, hc⟩ := C121_curve_partial (extra := 1) (tm := 20) (p := ⟨80, recircLossKbtuh 120 110 3, 20, 120⟩) (cap := 500)
    (full := 100) (f0 := 27 / 100) (start := 5) h rfl her hpos rfl rfl rfl hin (by norm_num) (by norm_num)
    (by decide +kernel) (by norm_num) (Demo.erLarge_facts sf).1 (by norm_num) (by norm_num) hsf.le
    (by norm_num) (by decide +kernel) (by decide +kernel) (by decide +kernel) (by decide +kernel)
    (Demo.erLarge_facts sf).2.1 (Demo.erLarge_facts sf).2.2 (by decide +kernel)
  exact ⟨e, er, c, h, her, hpos, hc⟩

/-- Non-vacuity of C121: the curve of the demo system rises. -/
example : ∃ e c, (Demo.erLarge 1).sizeEr Demo.erBuilding = (e, .ok ()) ∧
    e.getErSizedPoints Demo.erBuilding 1 = ((e, Demo.erBuilding), .ok c) ∧ c.kw.Pairwise (· ≤ ·) := by
  obtain ⟨e, er, c, h1, -, -, h2, -, -, -, h3⟩ := Demo.erLarge_curve (sf := 1) (by norm_num)
  exact ⟨e, c, h1, h2, h3 rfl⟩

theorem forall₂_at {α β : Type} {R : α → β → Prop} {l : List α} {m : List β} (h : List.Forall₂ R l m) {a : α}
    (ha : a ∈ l) : ∃ b, (a, b) ∈ l.zip m ∧ R a b := by
  induction h with
  | nil => simp at ha
  | cons hr _ ih =>
    rcases List.mem_cons.1 ha with rfl | ha
    · exact ⟨_, by simp, hr⟩
    · obtain ⟨b, h1, h2⟩ := ih ha
      exact ⟨b, by simp [h1], h2⟩

/-- **C121 is false with different safety factors.** A system built with a safety factor of 2 and asked for its curve with the
default factor: covering 110 percent is drawn with a smaller element than covering 100 percent. -/
theorem C121_safety_factor_dip :
    ∃ (heaters : List (Heater ℚ)) (b : Building ℚ) (e : ErSys ℚ) (w : Heater ℚ) (c : ErCurve ℚ),
      ErSys.fromComponents heaters 100 80 20 b 120 150 110 3 2 = .ok (e, w) ∧
      e.getErSizedPoints b 1 = ((e, b), .ok c) ∧ (100, 635) ∈ c.percents.zip c.kw ∧ (110, 367) ∈ c.percents.zip c.kw := by
  obtain ⟨e, er, c, h1, -, -, h2, h3, h4, h5, -⟩ := Demo.erLarge_curve (sf := 2) (by norm_num)
  have hin : requireDesignInlet Demo.erBuilding = .ok 50 := by decide +kernel
  have hoat : Demo.erBuilding.getDesignOat = .ok (some 20) := by decide +kernel
  have m1 : 100 ∈ c.percents := List.mem_of_getElem? h3
  have m2 : 110 ∈ c.percents := by
    rw [List.suffix_iff_eq_drop] at h4
    rw [h4] at m1 ⊢
    generalize List.length [10, 20, 30, 40, 50, 60, 70, 80, 90, 100, 110, 120] - c.percents.length = n at m1 ⊢
    by_cases hn : n < 12
    · revert m1
      revert n
      decide
    · rw [List.drop_eq_nil_of_le (by simp; omega)] at m1
      simp at m1
  obtain ⟨k1, a1, b1⟩ := forall₂_at h5 m1
  obtain ⟨k2, a2, b2⟩ := forall₂_at h5 m2
  have e1 : k1 = 635 := by rw [b1]; decide +kernel
  have e2 : k2 = 367 := by rw [b2]; decide +kernel
  subst e1 e2
  exact ⟨[Heater.fromNominal 500 none none], Demo.erBuilding, e, _, c, fromComponents_one hoat hin h1, h2, a1, a2⟩

end Eco
