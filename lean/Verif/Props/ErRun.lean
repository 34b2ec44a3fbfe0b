import Verif.Spec.ErRun
import Verif.Props.ErCoverage

set_option linter.unusedSectionVars false

/-! C68: the run behind the size of the electric element, against its water and heat balances. -/

namespace Eco
variable {K : Type} [Field K] [LinearOrder K] [IsStrictOrderedRing K]

theorem swingElement_share {supply t1 dT t' r : K} {heating h' : Bool} (hd : 0 < dT)
    (h : swingElement supply heating t1 dT = .ok (h', t', r)) :
    0 ≤ r ∧ r ≤ 1 ∧ (t' < supply → r = 1) := by
  unfold swingElement at h
  split at h
  · split at h
    · rename_i hlt
      rw [fdiv_ok _ hd.ne'] at h
      simp only [Except.map, Except.ok.injEq, Prod.mk.injEq] at h
      obtain ⟨-, rfl, rfl⟩ := h
      have hq0 : 0 ≤ (t1 + dT - (supply + 8)) / dT := by
        apply div_nonneg _ hd.le; linarith
      refine ⟨by linarith [min_le_right ((t1 + dT - (supply + 8)) / dT) 1], by linarith [le_min hq0 zero_le_one],
        fun h => ?_⟩
      rcases le_total ((t1 + dT - (supply + 8)) / dT) 1 with hq | hq
      · rw [min_eq_left hq, mul_div_cancel₀ _ hd.ne'] at h
        linarith
      · rw [min_eq_right hq, mul_one] at h
        rw [le_div_iff₀ hd] at hq
        linarith
    · simp only [Except.ok.injEq, Prod.mk.injEq] at h
      obtain ⟨-, -, rfl⟩ := h
      exact ⟨zero_le_one, le_rfl, fun _ => rfl⟩
  · split at h
    · rename_i hle
      rw [fdiv_ok _ hd.ne'] at h
      simp only [Except.map, Except.ok.injEq, Prod.mk.injEq] at h
      obtain ⟨-, rfl, rfl⟩ := h
      have hq0 : 0 ≤ (supply - t1) / dT := div_nonneg (by linarith) hd.le
      refine ⟨le_min hq0 zero_le_one, min_le_right _ _, fun h => ?_⟩
      rcases le_total ((supply - t1) / dT) 1 with h1 | h1
      · rw [min_eq_left h1, mul_div_cancel₀ _ hd.ne'] at h
        linarith
      · exact min_eq_right h1
    · rename_i hgt
      simp only [Except.ok.injEq, Prod.mk.injEq] at h
      obtain ⟨-, rfl, rfl⟩ := h
      exact ⟨le_rfl, zero_le_one, fun h => absurd h.le hgt⟩

theorem erRaw_balance {p : SwingParams K} (hv : 0 < p.vol) (hc : 0 < p.capKbtuh) {heating h' : Bool} {t hw feed raw : K}
    (hw0 : 0 ≤ hw) (h : erRaw p heating t hw feed = .ok (h', raw)) :
    ∃ x, 0 ≤ x ∧ x ≤ 1 ∧ (raw < p.supply → x = 1) ∧
      p.vol * rhoCp K * (raw - t) = hw * rhoCp K * (feed - t) + (p.capKbtuh * x - p.lossKbtuh) * 1000 / 60 := by
  have hrho := rho_pos (K := K)
  have hden : rhoCp K * p.vol ≠ 0 := by positivity
  simp only [erRaw, bind_eq_ok, fdiv_ok _ hden, Except.ok.injEq, pure_eq_ok] at h
  obtain ⟨m, hm, _, rfl, _, rfl, ⟨a, t', x⟩, he, h⟩ := h
  simp only [Prod.mk.injEq] at h
  obtain ⟨rfl, rfl⟩ := h
  have hmix : p.vol * m = hw * feed + t * (p.vol - hw) := by
    unfold swingMixed at hm
    split at hm
    · split at hm
      · simp at hm
      · injection hm with hm
        rw [← hm]
        field_simp
    · rename_i hn
      injection hm with hm
      have : hw = 0 := le_antisymm (not_lt.1 hn) hw0
      rw [← hm, this]; ring
  have hd : 0 < p.capKbtuh * 1000 / 60 / (rhoCp K * p.vol) := by positivity
  obtain ⟨h1, h2, h3⟩ := swingElement_share hd he
  refine ⟨x, h1, h2, h3, ?_⟩
  rw [swingElement_heat he]
  have e1 : p.vol * rhoCp K * (m - p.lossKbtuh * 1000 / 60 / (rhoCp K * p.vol) +
      p.capKbtuh * 1000 / 60 / (rhoCp K * p.vol) * x - t) =
      rhoCp K * (p.vol * m - p.vol * t) + (p.capKbtuh * x - p.lossKbtuh) * 1000 / 60 := by
    field_simp
    ring
  rw [e1, hmix]
  ring

/-- The run of the sizing is the one of the specification. -/
theorem erRun_minutes {p : SwingParams K} (hv : 0 < p.vol) (hc : 0 < p.capKbtuh) {inlet storage gen full : K}
    (hi : inlet < p.supply) (hg : 0 ≤ gen) (hf : 0 ≤ full) {ds : List K} (hd : ∀ d ∈ ds, 0 ≤ d) {heating : Bool}
    {t level : K} (ht : p.supply ≤ t) (hl : 0 ≤ level) {rows : List (ErMin K)}
    (h : erRun p inlet storage gen full heating t level ds = .ok rows) :
    Spec.ErMinutes p inlet storage gen full t level ds rows := by
  induction ds generalizing heating t level rows with
  | nil =>
    simp only [erRun, Except.ok.injEq] at h
    subst h
    trivial
  | cons d ds ih =>
    simp only [erRun, bind_eq_ok, pure_eq_ok, Except.ok.injEq] at h
    obtain ⟨⟨h', t', df⟩, hs, rest, hrest, rfl⟩ := h
    obtain ⟨raw, hraw, ht', hdf⟩ := erStep_spec hs
    obtain ⟨b1, -⟩ := swingDraw_bounds hi ht (hd d (by simp))
    have hti : 0 < t - inlet := by linarith
    obtain ⟨x, x1, x2, x3, x4⟩ := erRaw_balance hv hc b1 hraw
    have hlev : erLevel gen full level (swingDraw p.supply inlet t d) =
        min full (level + gen - min (swingDraw p.supply inlet t d) (level + gen)) := by
      unfold erLevel
      rw [min_comm]
      congr 1
      rcases le_total (swingDraw p.supply inlet t d) (level + gen) with h1 | h1
      · rw [min_eq_left h1, max_eq_left (by linarith)]
      · rw [min_eq_right h1, max_eq_right (by linarith)]; ring
    refine ⟨rfl, rfl, ?_, ?_, raw, x, x1, x2, x3, x4, hdf, ?_⟩
    · simp only [swingDraw]
      rw [if_pos (by linarith)]
      field_simp
    · simp only
      generalize swingDraw p.supply inlet t d = hw at *
      unfold erFeed
      split
      · rename_i h0
        rcases h0 with h0 | h0
        · have : hw = 0 := le_antisymm h0 b1
          rw [this, min_eq_left (by linarith)]; ring
        · have : level + gen = 0 := le_antisymm h0 (by linarith)
          rw [this, min_eq_right b1]; ring
      · rename_i h0
        push Not at h0
        split
        · rename_i h1
          rw [min_eq_left h1]
        · rename_i h1
          rw [min_eq_right (not_le.1 h1).le]
          have := h0.1.ne'
          field_simp
          ring
    · dsimp only at hrest ⊢
      rw [← ht', ← hlev]
      refine ih (fun x hx => hd x (by simp [hx])) (by rw [ht']; exact le_max_left _ _) ?_ hrest
      rw [hlev]
      refine le_min hf ?_
      linarith [min_le_right (swingDraw p.supply inlet t d) (level + gen)]

/-- **C68 (the sizing run).** The size of the electric addition is the greatest deficit of two runs over the two days from
the peak, turned into a heating rate for the whole tank and multiplied by the safety factor. Both runs obey the water and
heat balances of the specification, the first from an empty primary storage and the second from a full one. -/
theorem C68_sizing_run {e e' : ErSys K} {b : Building K} {p : SwingParams K} {cap full inlet : K}
    (h : e.sizeEr b = (e', .ok ())) (hp : e.sw.params = .ok p) (hcap : e.sw.base.minCap = some cap)
    (hfull : e.sw.base.minStorage = some full) (hin : requireDesignInlet b = .ok inlet)
    (hv : 0 < p.vol) (hc : 0 < p.capKbtuh) (hi : inlet < p.supply) (hst : p.supply ≤ e.sw.base.cfg.storage)
    (hcap0 : 0 ≤ cap) (hfull0 : 0 ≤ full) (hshape : ∀ f ∈ b.peakShape, 0 ≤ f * b.dailyGal) :
    let storage := e.sw.base.cfg.storage
    let gen := Spec.genGpm cap storage inlet
    let demand := Spec.byMinute (erHours e.sw.base.cfg b)
    ∃ empty ready worst,
      Spec.ErMinutes p inlet storage gen full p.supply 0 demand empty ∧
      Spec.ErMinutes p inlet storage gen full p.supply full demand ready ∧
      0 ≤ worst ∧ (∀ r ∈ empty ++ ready, r.deficit ≤ worst) ∧ (worst ≠ 0 → ∃ r ∈ empty ++ ready, r.deficit = worst) ∧
      e'.erCap = some (e.erSf * (p.vol * rhoCp K * (worst * 60) / 1000)) := by
  obtain ⟨rows, hl, hsi, hrows, rfl⟩ := sizeEr_ok h hp hcap hfull hin
  rw [perMinute_eq] at hrows
  have hrho := rho_pos (K := K)
  have hg : 0 ≤ Spec.genGpm cap e.sw.base.cfg.storage inlet := by
    unfold Spec.genGpm
    have : 0 < e.sw.base.cfg.storage - inlet := by linarith
    positivity
  have hds : ∀ d ∈ Spec.byMinute (erHours e.sw.base.cfg b), 0 ≤ d := by
    intro d hd
    rw [← perMinute_eq] at hd
    obtain ⟨y, hy, rfl⟩ := mem_perMinute hd
    obtain ⟨f, hf, rfl⟩ := erHours_mem hy
    exact div_nonneg (hshape f hf) (by norm_num)
  simp only [erScenarios, bind_eq_ok, pure_eq_ok, Except.ok.injEq] at hrows
  obtain ⟨r1, h1, r2, h2, rfl⟩ := hrows
  refine ⟨r1, r2, maxDeficit (r1 ++ r2), erRun_minutes hv hc hi hg hfull0 hds le_rfl le_rfl h1,
    erRun_minutes hv hc hi hg hfull0 hds le_rfl hfull0 h2, maxDeficit_nonneg _, fun r hr => maxDeficit_ge hr,
    fun h0 => maxDeficit_attained h0, ?_⟩
  simp only [Option.some.injEq]
  ring

/-- The hypotheses are met by the demo system, whose runs have a deficit. -/
example : ∃ e', Demo.erSys.sizeEr Demo.erBuilding = (e', .ok ()) ∧ ∃ empty ready : List (ErMin ℚ),
    Spec.ErMinutes ⟨50, recircLossKbtuh 120 110 3, 20, (120 : ℚ)⟩ 50 150 (Spec.genGpm 500 150 50) 100 120 0
      (Spec.byMinute (erHours Demo.erSys.sw.base.cfg Demo.erBuilding)) empty ∧ ∃ r ∈ empty ++ ready, 0 < r.deficit := by
  obtain ⟨e', h, er, her, hpos⟩ := Demo.erSys_sized
  obtain ⟨empty, ready, worst, h1, h2, h3, h4, h5, h6⟩ := C68_sizing_run (p := ⟨50, recircLossKbtuh 120 110 3, 20, 120⟩)
    (cap := 500) (full := 100) (inlet := 50) h rfl rfl rfl (by decide +kernel) (by norm_num) (by norm_num) (by norm_num)
    (by decide +kernel) (by norm_num) (by norm_num) (by decide +kernel)
  refine ⟨e', h, empty, ready, h1, ?_⟩
  have hw : worst ≠ 0 := by
    rintro rfl
    rw [her, Option.some.injEq] at h6
    rw [h6] at hpos
    simp at hpos
  obtain ⟨r, hr, hd⟩ := h5 hw
  exact ⟨r, hr, by rw [hd]; exact lt_of_le_of_ne h3 (Ne.symm hw)⟩

end Eco
