import Verif.Props.SwingErCurve

set_option linter.unusedSectionVars false

/-! C116: how the electric resistance addition depends on the demand. -/

namespace Eco
variable {K : Type} [Field K] [LinearOrder K] [IsStrictOrderedRing K]

namespace Spec

/-- The heat [kBTU/h] that an hour with a demand of `gph` supply-temperature gallons and the loop take, less what the
primary and the base element give. -/
def heatShort (gph supply inlet lossKbtuh primaryKbtuh elementKbtuh : K) : K :=
  gph * rhoCp K * (supply - inlet) / 1000 + lossKbtuh - primaryKbtuh - elementKbtuh

end Spec

/-- The shortfall of the element's minute. -/
theorem swingElement_short {supply t1 E raw r : K} {heating h' : Bool} (hE : 0 < E)
    (h : swingElement supply heating t1 E = .ok (h', raw, r)) :
    max 0 (supply - raw) = max 0 (supply - t1 - E) := by
  unfold swingElement at h
  simp only [fdiv_ok _ hE.ne', Except.map] at h
  cases heating
  · simp only [Bool.false_eq_true, if_false] at h
    split at h
    · simp only [Except.ok.injEq, Prod.mk.injEq] at h
      obtain ⟨-, rfl, -⟩ := h
      rcases le_total ((supply - t1) / E) 1 with h1 | h1
      · rw [min_eq_left h1, mul_div_cancel₀ _ hE.ne']
        rw [div_le_one hE] at h1
        rw [max_eq_left (by linarith), max_eq_left (by linarith)]
      · rw [min_eq_right h1]
        congr 1
        ring
    · rename_i h1
      simp only [Except.ok.injEq, Prod.mk.injEq] at h
      obtain ⟨-, rfl, -⟩ := h
      rw [max_eq_left (by linarith), max_eq_left (by linarith)]
  · simp only [if_true] at h
    split at h
    · rename_i h8
      simp only [Except.ok.injEq, Prod.mk.injEq] at h
      obtain ⟨-, rfl, -⟩ := h
      have h1 : E * min ((t1 + E - (supply + 8)) / E) 1 ≤ t1 + E - (supply + 8) := by
        calc _ ≤ E * ((t1 + E - (supply + 8)) / E) := mul_le_mul_of_nonneg_left (min_le_left _ _) hE.le
          _ = _ := mul_div_cancel₀ _ hE.ne'
      rw [max_eq_left (by linarith), max_eq_left (by linarith)]
    · simp only [Except.ok.injEq, Prod.mk.injEq] at h
      obtain ⟨-, rfl, -⟩ := h
      congr 1
      ring

/-- The deficit of a minute, from the temperature after mixing. -/
theorem erStep_deficit {p : SwingParams K} (hv : 0 < p.vol) (hc : 0 < p.capKbtuh) {heating h' : Bool} {t hw feed t' df : K}
    (h : erStep p heating t hw feed = .ok (h', t', df)) :
    ∃ m, swingMixed p.vol t hw feed = .ok m ∧
      df = max 0 (p.supply - m + degPerMin p.vol p.lossKbtuh - degPerMin p.vol p.capKbtuh) := by
  obtain ⟨raw, hraw, -, rfl⟩ := erStep_spec h
  rw [erRaw_eq hv] at hraw
  simp only [bind_eq_ok, Except.ok.injEq, Prod.mk.injEq] at hraw
  obtain ⟨m, hm, ⟨a, b, c⟩, hel, rfl, rfl⟩ := hraw
  refine ⟨m, hm, ?_⟩
  rw [swingElement_short (degPerMin_pos hv hc) hel]
  congr 1
  ring

/-- What a demand of `d` gallons in a minute can take from a tank at supply temperature [gal·°F]. -/
theorem mixed_ge {p : SwingParams K} (hv : 0 < p.vol) {inlet storage gen level t d m : K} (hi : inlet < p.supply)
    (hst : p.supply ≤ storage) (ht : p.supply ≤ t) (hl : 0 ≤ level) (hg : 0 ≤ gen) (hd : 0 ≤ d)
    (hm : swingMixed p.vol t (swingDraw p.supply inlet t d)
      (erFeed inlet storage gen level (swingDraw p.supply inlet t d)) = .ok m) :
    p.vol * (p.supply - m) ≤ max 0 (d * (p.supply - inlet) - gen * (storage - inlet)) := by
  obtain ⟨b1, -⟩ := swingDraw_bounds hi ht hd
  have hti : 0 < t - inlet := by linarith
  have ehw : swingDraw p.supply inlet t d * (t - inlet) = d * (p.supply - inlet) := by
    unfold swingDraw
    rw [if_pos (by linarith), div_mul_cancel₀ _ hti.ne']
  set hw := swingDraw p.supply inlet t d with hhw
  unfold swingMixed at hm
  split at hm
  · rename_i hpos
    split at hm
    · simp at hm
    · rename_i hlt
      have hlt := not_le.1 hlt
      simp only [Except.ok.injEq] at hm
      have e : p.vol * m = hw * erFeed inlet storage gen level hw + t * (p.vol - hw) := by
        rw [← hm, mul_div_cancel₀ _ hv.ne']
      unfold erFeed at e
      split at e
      · rename_i h0
        have hz : level + gen ≤ 0 := by
          rcases h0 with h0 | h0
          · exact absurd hpos (not_lt.2 h0)
          · exact h0
        have hg0 : gen = 0 := by linarith
        refine le_trans ?_ (le_max_right _ _)
        rw [hg0]
        nlinarith
      · split at e
        · refine le_trans ?_ (le_max_left _ _)
          have h1 : 0 ≤ hw * (storage - p.supply) := mul_nonneg hpos.le (by linarith)
          have h2 : 0 ≤ (p.vol - hw) * (t - p.supply) := mul_nonneg hlt.le (by linarith)
          linarith [h1, h2, e]
        · rw [mul_div_cancel₀ _ hpos.ne'] at e
          refine le_trans ?_ (le_max_right _ _)
          have h1 : 0 ≤ level * (storage - inlet) := mul_nonneg hl (by linarith)
          have h2 : 0 ≤ p.vol * (t - p.supply) := mul_nonneg hv.le (by linarith)
          linarith [h1, h2, e, ehw]
  · simp only [Except.ok.injEq] at hm
    refine le_trans ?_ (le_max_left _ _)
    rw [← hm]
    nlinarith

theorem erRun_deficit_le {p : SwingParams K} (hv : 0 < p.vol) (hc : 0 < p.capKbtuh) (hlc : p.lossKbtuh ≤ p.capKbtuh)
    {inlet storage gen full D : K} (hi : inlet < p.supply) (hst : p.supply ≤ storage) (hg : 0 ≤ gen) (hf : 0 ≤ full)
    {ds : List K} (hds : ∀ d ∈ ds, 0 ≤ d ∧ d ≤ D) {heating : Bool} {t level : K} (ht : p.supply ≤ t) (hl : 0 ≤ level)
    {rows : List (ErMin K)} (h : erRun p inlet storage gen full heating t level ds = .ok rows) :
    ∀ row ∈ rows, row.deficit ≤ max 0 ((D * (p.supply - inlet) - gen * (storage - inlet)) / p.vol
      + degPerMin p.vol p.lossKbtuh - degPerMin p.vol p.capKbtuh) := by
  have hEl : degPerMin p.vol p.lossKbtuh ≤ degPerMin p.vol p.capKbtuh := by
    have := rho_pos (K := K)
    unfold degPerMin
    gcongr
  induction ds generalizing heating t level rows with
  | nil =>
    simp only [erRun, Except.ok.injEq] at h
    subst h
    simp
  | cons d ds ih =>
    simp only [erRun, bind_eq_ok, pure_eq_ok, Except.ok.injEq] at h
    obtain ⟨⟨h', t', df⟩, hs, rest, hrest, rfl⟩ := h
    obtain ⟨hd0, hdD⟩ := hds d (by simp)
    intro row hrow
    rcases List.mem_cons.1 hrow with rfl | hrow
    · obtain ⟨m, hm, hdf⟩ := erStep_deficit hv hc hs
      have h1 := mixed_ge hv hi hst ht hl hg hd0 hm
      dsimp only
      rw [hdf]
      refine max_le (le_max_left _ _) ?_
      rcases le_total (d * (p.supply - inlet) - gen * (storage - inlet)) 0 with h2 | h2
      · rw [max_eq_left h2] at h1
        refine le_trans ?_ (le_max_left _ _)
        have : p.supply - m ≤ 0 := by
          by_contra hn
          exact absurd h1 (not_le.2 (mul_pos hv (not_le.1 hn)))
        linarith
      · rw [max_eq_right h2] at h1
        refine le_trans ?_ (le_max_right _ _)
        have h3 : p.supply - m ≤ (D * (p.supply - inlet) - gen * (storage - inlet)) / p.vol := by
          rw [le_div_iff₀ hv]
          have : d * (p.supply - inlet) ≤ D * (p.supply - inlet) := mul_le_mul_of_nonneg_right hdD (by linarith)
          linarith
        linarith
    · obtain ⟨raw, -, ht', -⟩ := erStep_spec hs
      refine ih (fun x hx => hds x (by simp [hx])) ?_ ?_ hrest row hrow
      · exact ht' ▸ le_max_left _ _
      · exact le_min (le_max_right _ _) hf

/-- The deficit of the first minute, from a swing tank at supply temperature and an empty primary storage. -/
theorem erRun_first {p : SwingParams K} (hv : 0 < p.vol) (hc : 0 < p.capKbtuh) (hlc : p.lossKbtuh ≤ p.capKbtuh)
    {inlet storage gen full d : K} (hi : inlet < p.supply) (hst : p.supply ≤ storage) (hg : 0 ≤ gen)
    {ds : List K} {rows : List (ErMin K)} (h : erRun p inlet storage gen full false p.supply 0 (d :: ds) = .ok rows) :
    ∃ row ∈ rows, max 0 ((d * (p.supply - inlet) - gen * (storage - inlet)) / p.vol
      + degPerMin p.vol p.lossKbtuh - degPerMin p.vol p.capKbtuh) ≤ row.deficit := by
  have hEl : degPerMin p.vol p.lossKbtuh ≤ degPerMin p.vol p.capKbtuh := by
    have := rho_pos (K := K)
    unfold degPerMin
    gcongr
  simp only [erRun, bind_eq_ok, pure_eq_ok, Except.ok.injEq] at h
  obtain ⟨⟨h', t', df⟩, hs, rest, hrest, rfl⟩ := h
  refine ⟨_, List.mem_cons_self .., ?_⟩
  obtain ⟨m, hm, hdf⟩ := erStep_deficit hv hc hs
  dsimp only
  rw [hdf]
  refine max_le (le_max_left _ _) ?_
  rcases le_or_gt (d * (p.supply - inlet) - gen * (storage - inlet)) 0 with h2 | h2
  · refine le_trans ?_ (le_max_left _ _)
    have := div_nonpos_of_nonpos_of_nonneg h2 hv.le
    linarith
  · refine le_trans ?_ (le_max_right _ _)
    have hsi : 0 < p.supply - inlet := by linarith
    have ehw : swingDraw p.supply inlet p.supply d = d := by
      unfold swingDraw
      rw [if_pos hi, mul_div_cancel_right₀ _ hsi.ne']
    rw [ehw] at hm
    have hgd : gen < d := by
      by_contra hn
      have h3 : d * (p.supply - inlet) ≤ gen * (p.supply - inlet) :=
        mul_le_mul_of_nonneg_right (not_lt.1 hn) hsi.le
      have h4 : gen * (p.supply - inlet) ≤ gen * (storage - inlet) := mul_le_mul_of_nonneg_left (by linarith) hg
      linarith
    have hpos : 0 < d := lt_of_le_of_lt hg hgd
    unfold swingMixed at hm
    rw [if_pos hpos] at hm
    split at hm
    · simp at hm
    · simp only [Except.ok.injEq] at hm
      have e : p.vol * m = d * erFeed inlet storage gen 0 d + p.supply * (p.vol - d) := by
        rw [← hm, mul_div_cancel₀ _ hv.ne']
      have e2 : d * erFeed inlet storage gen 0 d = gen * storage + (d - gen) * inlet := by
        unfold erFeed
        rw [zero_add]
        rcases hg.eq_or_lt with h0 | h0
        · rw [if_pos (Or.inr h0.symm.le), ← h0]; ring
        · rw [if_neg (by push Not; exact ⟨hpos, h0⟩), if_neg (not_le.2 hgd), mul_div_cancel₀ _ hpos.ne']
      rw [e2] at e
      have : (d * (p.supply - inlet) - gen * (storage - inlet)) / p.vol = p.supply - m := by
        rw [div_eq_iff hv.ne']
        linear_combination e
      rw [this]

theorem short_kbtuh {p : SwingParams K} (hv : 0 < p.vol) {cap inlet storage gph : K} (hsi : storage - inlet ≠ 0) :
    p.vol * rhoCp K * 60 * max 0 ((gph / 60 * (p.supply - inlet) - Spec.genGpm cap storage inlet * (storage - inlet)) / p.vol
      + degPerMin p.vol p.lossKbtuh - degPerMin p.vol p.capKbtuh) / 1000
      = max 0 (Spec.heatShort gph p.supply inlet p.lossKbtuh cap p.capKbtuh) := by
  have hr := rho_pos (K := K)
  have hk : 0 ≤ p.vol * rhoCp K * 60 / 1000 := by positivity
  rw [show p.vol * rhoCp K * 60 * max 0 ((gph / 60 * (p.supply - inlet)
      - Spec.genGpm cap storage inlet * (storage - inlet)) / p.vol
      + degPerMin p.vol p.lossKbtuh - degPerMin p.vol p.capKbtuh) / 1000
      = p.vol * rhoCp K * 60 / 1000 * max 0 ((gph / 60 * (p.supply - inlet)
      - Spec.genGpm cap storage inlet * (storage - inlet)) / p.vol
      + degPerMin p.vol p.lossKbtuh - degPerMin p.vol p.capKbtuh) by ring, mul_max_of_nonneg _ _ hk, mul_zero]
  congr 1
  unfold Spec.heatShort Spec.genGpm degPerMin
  have hv' := hv.ne'
  have hr' := hr.ne'
  field_simp
  ring

/-- **C116 (bounds).** The electric resistance addition, divided by its safety factor, is at most what the busiest hour of the
day and the loop take beyond the primary and the base element, and at least that amount for the hour with which the sizing
run starts. -/
theorem C116_bounds {e e' : ErSys K} {b : Building K} {p : SwingParams K} {cap full inlet peak f0 : K} {start : Nat}
    (h : e.sizeEr b = (e', .ok ())) (hp : e.sw.params = .ok p) (hcap : e.sw.base.minCap = some cap)
    (hfull : e.sw.base.minStorage = some full) (hin : requireDesignInlet b = .ok inlet)
    (hv : 0 < p.vol) (hc : 0 < p.capKbtuh) (hlc : p.lossKbtuh ≤ p.capKbtuh) (hi : inlet < p.supply)
    (hst : p.supply ≤ e.sw.base.cfg.storage) (hcap0 : 0 ≤ cap) (hfull0 : 0 ≤ full) (hsf : 0 ≤ e.erSf)
    (hpeak : ∀ f ∈ b.peakShape, 0 ≤ f * b.dailyGal ∧ f * b.dailyGal ≤ peak) (hr : e.sw.base.cfg.maxRunHr ≠ 0)
    (hs : Spec.FirstDeficit b.peakShape e.sw.base.cfg.maxRunHr start)
    (hf0 : b.peakShape[start]? = some f0) :
    ∃ er, e'.erCap = some er ∧
      er ≤ e.erSf * max 0 (Spec.heatShort peak p.supply inlet p.lossKbtuh cap p.capKbtuh) ∧
      e.erSf * max 0 (Spec.heatShort (f0 * b.dailyGal) p.supply inlet p.lossKbtuh cap p.capKbtuh) ≤ er := by
  obtain ⟨rows, hl, hsi, hrows, rfl⟩ := sizeEr_ok h hp hcap hfull hin
  refine ⟨_, rfl, ?_⟩
  have hrho := rho_pos (K := K)
  set storage := e.sw.base.cfg.storage with hstor
  have hg : 0 ≤ Spec.genGpm cap storage inlet := by
    unfold Spec.genGpm
    have : 0 < storage - inlet := by linarith
    positivity
  have hds : ∀ d ∈ perMinute (erHours e.sw.base.cfg b), 0 ≤ d ∧ d ≤ peak / 60 := by
    intro d hd
    obtain ⟨y, hy, rfl⟩ := mem_perMinute hd
    obtain ⟨f, hf, rfl⟩ := erHours_mem hy
    exact ⟨div_nonneg (hpeak f hf).1 (by norm_num), div_le_div_of_nonneg_right (hpeak f hf).2 (by norm_num)⟩
  have hstart : (erHours e.sw.base.cfg b)[0]? = some (f0 * b.dailyGal) := by
    have hlt : start < 24 := by
      rw [← hl]
      exact (List.getElem?_eq_some_iff.1 hf0).1
    rw [C68_demand hl hr hs 0 (by norm_num), add_zero, Nat.mod_eq_of_lt hlt, hf0]
    rfl
  have hk : 0 ≤ p.vol * rhoCp K * 60 := by positivity
  simp only [erScenarios, bind_eq_ok, pure_eq_ok, Except.ok.injEq] at hrows
  obtain ⟨r1, h1, r2, h2, rfl⟩ := hrows
  constructor
  · rw [mul_comm e.erSf, ← short_kbtuh hv hsi]
    gcongr
    by_cases h0 : maxDeficit (r1 ++ r2) = 0
    · rw [h0]
      exact le_max_left _ _
    · obtain ⟨row, hrow, hrd⟩ := maxDeficit_attained h0
      rw [← hrd]
      rcases List.mem_append.1 hrow with hm | hm
      · exact erRun_deficit_le hv hc hlc hi hst hg hfull0 hds (le_refl _) (le_refl _) h1 row hm
      · exact erRun_deficit_le hv hc hlc hi hst hg hfull0 hds (le_refl _) hfull0 h2 row hm
  · rw [mul_comm e.erSf, ← short_kbtuh hv hsi]
    gcongr
    cases hh : erHours e.sw.base.cfg b with
    | nil => rw [hh] at hstart; simp at hstart
    | cons x xs =>
      rw [hh] at hstart
      simp only [List.getElem?_cons_zero, Option.some.injEq] at hstart
      subst hstart
      have hpm : perMinute (f0 * b.dailyGal :: xs) = f0 * b.dailyGal / 60 ::
          (List.replicate 59 (f0 * b.dailyGal / 60) ++ perMinute xs) := by
        unfold perMinute
        rw [List.flatMap_cons, show (60 : Nat) = 59 + 1 from rfl, List.replicate_succ, List.cons_append]
      rw [hh, hpm] at h1
      obtain ⟨row, hrow, hd⟩ := erRun_first hv hc hlc hi hst hg h1
      exact hd.trans (maxDeficit_ge (List.mem_append_left _ hrow))

/-- **C116, partial.** If the sizing run starts with the busiest hour of the day, the addition is exactly its safety factor
times what that hour and the loop take beyond the primary and the base element. Missing: days whose busiest hour comes
later (`C116_more_coverage_smaller_element`; `C116_bounds` still holds). -/
theorem C116_peak_first_partial {e e' : ErSys K} {b : Building K} {p : SwingParams K} {cap full inlet f0 : K} {start : Nat}
    (h : e.sizeEr b = (e', .ok ())) (hp : e.sw.params = .ok p) (hcap : e.sw.base.minCap = some cap)
    (hfull : e.sw.base.minStorage = some full) (hin : requireDesignInlet b = .ok inlet)
    (hv : 0 < p.vol) (hc : 0 < p.capKbtuh) (hlc : p.lossKbtuh ≤ p.capKbtuh) (hi : inlet < p.supply)
    (hst : p.supply ≤ e.sw.base.cfg.storage) (hcap0 : 0 ≤ cap) (hfull0 : 0 ≤ full) (hsf : 0 ≤ e.erSf)
    (hd : 0 ≤ b.dailyGal) (hpeak : ∀ f ∈ b.peakShape, 0 ≤ f ∧ f ≤ f0) (hr : e.sw.base.cfg.maxRunHr ≠ 0)
    (hs : Spec.FirstDeficit b.peakShape e.sw.base.cfg.maxRunHr start)
    (hf0 : b.peakShape[start]? = some f0) :
    e'.erCap = some (e.erSf * max 0 (Spec.heatShort (f0 * b.dailyGal) p.supply inlet p.lossKbtuh cap p.capKbtuh)) := by
  obtain ⟨er, h1, h2, h3⟩ := C116_bounds (peak := f0 * b.dailyGal) h hp hcap hfull hin hv hc hlc hi hst hcap0 hfull0 hsf
    (fun f hf => ⟨mul_nonneg (hpeak f hf).1 hd, mul_le_mul_of_nonneg_right (hpeak f hf).2 hd⟩) hr hs hf0
  rw [h1, le_antisymm h2 h3]

/-- **C116 (monotone), partial.** If the sizing run starts with the busiest hour of the day, a larger daily use never gives
a smaller addition. -/
theorem C116_monotone_partial {e e1 e2 : ErSys K} {b : Building K} {p : SwingParams K} {cap full inlet f0 gal : K} {start : Nat}
    (h1 : e.sizeEr b = (e1, .ok ())) (h2 : e.sizeEr { b with dailyGal := gal } = (e2, .ok ()))
    (hp : e.sw.params = .ok p) (hcap : e.sw.base.minCap = some cap)
    (hfull : e.sw.base.minStorage = some full) (hin : requireDesignInlet b = .ok inlet)
    (hv : 0 < p.vol) (hc : 0 < p.capKbtuh) (hlc : p.lossKbtuh ≤ p.capKbtuh) (hi : inlet < p.supply)
    (hst : p.supply ≤ e.sw.base.cfg.storage) (hcap0 : 0 ≤ cap) (hfull0 : 0 ≤ full) (hsf : 0 ≤ e.erSf)
    (hd : 0 ≤ b.dailyGal) (hgal : b.dailyGal ≤ gal) (hpeak : ∀ f ∈ b.peakShape, 0 ≤ f ∧ f ≤ f0)
    (hr : e.sw.base.cfg.maxRunHr ≠ 0)
    (hs : Spec.FirstDeficit b.peakShape e.sw.base.cfg.maxRunHr start)
    (hf0 : b.peakShape[start]? = some f0) :
    ∃ er1 er2, e1.erCap = some er1 ∧ e2.erCap = some er2 ∧ er1 ≤ er2 := by
  have hrho := rho_pos (K := K)
  refine ⟨_, _, C116_peak_first_partial h1 hp hcap hfull hin hv hc hlc hi hst hcap0 hfull0 hsf hd hpeak hr hs hf0,
    C116_peak_first_partial (b := { b with dailyGal := gal }) h2 hp hcap hfull hin hv hc hlc hi hst hcap0 hfull0 hsf
      (hd.trans hgal) hpeak hr hs hf0, ?_⟩
  have h0 : 0 ≤ f0 := (hpeak f0 (List.mem_of_getElem? hf0)).1
  have hsi : 0 ≤ p.supply - inlet := by linarith
  unfold Spec.heatShort
  gcongr

/-- Non-vacuity of C116: the demo system starts with its busiest hour and needs an addition. -/
example : ∃ e', Demo.erSys.sizeEr Demo.erBuilding = (e', .ok ()) ∧
    e'.erCap = some (1 * max 0 (Spec.heatShort (27 / 100 * 10000) 120 50 (recircLossKbtuh 120 110 3) 500 20)) ∧
    0 < Spec.heatShort (27 / 100 * 10000) 120 50 (recircLossKbtuh 120 110 3) (500 : ℚ) 20 := by
  obtain ⟨e', h, -⟩ := Demo.erSys_sized
  refine ⟨e', h, ?_, by decide +kernel⟩
  exact C116_peak_first_partial (p := ⟨50, recircLossKbtuh 120 110 3, 20, 120⟩) (cap := 500) (full := 100) (inlet := 50)
    (f0 := 27 / 100) (start := 5) h rfl rfl rfl (by decide +kernel) (by decide +kernel) (by decide +kernel)
    (by decide +kernel) (by decide +kernel) (by decide +kernel) (by decide +kernel) (by decide +kernel) (by decide +kernel)
    (by decide +kernel) (by decide +kernel) (by decide +kernel) ((firstDeficit_iff _ _ _).2 (by decide +kernel))
    (by decide +kernel)

end Eco
