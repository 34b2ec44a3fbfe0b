import Verif.Props.StratFactor
import Verif.Props.Scale
import Verif.Props.LoadShiftTank

/-! C129: harder conditions never lead to a smaller system. -/

namespace Eco
open MeasureTheory Spec

/-! ## What the assumed tank yields -/

theorem profile_continuous (onPct onTemp slope storage : ℝ) : Continuous (sizingProfile onPct onTemp slope storage) := by
  unfold sizingProfile; fun_prop

theorem supplyGallons_mono {on on' onTemp onTemp' slope slope' storage storage' supply supply' inlet inlet' : ℝ}
    (hs : 0 < slope) (hs' : 0 < slope') (hss : supply ≤ storage) (hss' : supply' ≤ storage') (hin : inlet < supply)
    (hon : on ≤ on') (htemp : onTemp' ≤ onTemp) (hslope : slope' ≤ slope) (hsto : storage' ≤ storage)
    (hsup : supply ≤ supply') (hinl : inlet' ≤ inlet) :
    supplyGallons (sizingProfile on' onTemp' slope' storage') on' supply' inlet' ≤
      supplyGallons (sizingProfile on onTemp slope storage) on supply inlet := by
  have hpt : ∀ h, on' ≤ h → sizingProfile on' onTemp' slope' storage' h ≤ sizingProfile on onTemp slope storage h := by
    intro h hh
    unfold sizingProfile
    refine min_le_min hsto (add_le_add htemp ?_)
    nlinarith
  have hsub : {h | on' ≤ h ∧ h ≤ 100 ∧ supply' ≤ sizingProfile on' onTemp' slope' storage' h} ⊆
      {h | on ≤ h ∧ h ≤ 100 ∧ supply ≤ sizingProfile on onTemp slope storage h} := by
    rintro h ⟨h1, h2, h3⟩
    exact ⟨hon.trans h1, h2, hsup.trans (h3.trans (hpt h h1))⟩
  have hint : ∀ (a b c d e f g : ℝ) (x : ℝ), IntegrableOn (fun h => mixYield a b (sizingProfile c d e f h)) (Set.Icc x g) := by
    intro a b c d e f g x
    apply Continuous.integrableOn_Icc
    unfold mixYield
    have := profile_continuous c d e f
    fun_prop
  unfold supplyGallons
  calc _ ≤ ∫ h in {h | on' ≤ h ∧ h ≤ 100 ∧ supply' ≤ sizingProfile on' onTemp' slope' storage' h},
        mixYield supply inlet (sizingProfile on onTemp slope storage h) := by
        rw [usable_heights hs' hss']
        refine setIntegral_mono_on (hint _ _ _ _ _ _ _ _) (hint _ _ _ _ _ _ _ _) measurableSet_Icc ?_
        intro h hh
        rw [← usable_heights hs' hss'] at hh
        obtain ⟨h1, h2, h3⟩ := hh
        have hp := hpt h h1
        unfold mixYield
        rw [div_le_div_iff₀ (by linarith) (by linarith)]
        nlinarith
    _ ≤ _ := by
        rw [usable_heights hs hss] at hsub ⊢
        rw [usable_heights hs' hss'] at hsub ⊢
        refine setIntegral_mono_set (hint _ _ _ _ _ _ _ _) ?_ hsub.eventuallyLE
        rw [Filter.EventuallyLE, ae_restrict_iff' measurableSet_Icc]
        refine Filter.Eventually.of_forall fun h hh => ?_
        rw [← usable_heights hs hss] at hh
        obtain ⟨h1, h2, h3⟩ := hh
        unfold mixYield
        exact div_nonneg (by linarith) (by linarith)

/-- The heat above supply temperature in the usable part of the tank, in degree gallons. -/
noncomputable def surplus (profile : ℝ → ℝ) (onPct supply : ℝ) : ℝ :=
  ∫ h in {h | onPct ≤ h ∧ h ≤ 100 ∧ supply ≤ profile h}, (profile h - supply)

theorem surplus_int (a b c d e x y : ℝ) : IntegrableOn (fun h => sizingProfile a b c d h - e) (Set.Icc x y) := by
  apply Continuous.integrableOn_Icc
  have := profile_continuous a b c d
  fun_prop

/-- The difference between two inlet temperatures comes from the surplus alone. -/
theorem supplyGallons_inlet {on onTemp slope storage supply inlet inlet' : ℝ} (hs : 0 < slope) (hss : supply ≤ storage)
    (hin : inlet < supply) (hin' : inlet' < supply) :
    supplyGallons (sizingProfile on onTemp slope storage) on supply inlet -
      supplyGallons (sizingProfile on onTemp slope storage) on supply inlet' =
      surplus (sizingProfile on onTemp slope storage) on supply * (1 / (supply - inlet) - 1 / (supply - inlet')) := by
  have key : ∀ i, i < supply → supplyGallons (sizingProfile on onTemp slope storage) on supply i =
      (∫ _ in Set.Icc (max (on + (supply - onTemp) / slope) on) 100, (1 : ℝ)) +
      surplus (sizingProfile on onTemp slope storage) on supply * (1 / (supply - i)) := by
    intro i hi
    unfold supplyGallons surplus
    rw [usable_heights hs hss, ← integral_mul_const, ← integral_add (by simp) ((surplus_int _ _ _ _ _ _ _).mul_const _)]
    congr 1
    funext h
    unfold mixYield
    have : supply - i ≠ 0 := by linarith
    field_simp
    ring
  rw [key inlet hin, key inlet' hin']
  ring

theorem surplus_mono {on on' onTemp onTemp' slope storage supply : ℝ}
    (hs : 0 < slope) (hss : supply ≤ storage) (hon : on ≤ on') (htemp : onTemp' ≤ onTemp + slope * (on' - on)) :
    surplus (sizingProfile on' onTemp' slope storage) on' supply ≤ surplus (sizingProfile on onTemp slope storage) on supply := by
  have hpt : ∀ h, sizingProfile on' onTemp' slope storage h ≤ sizingProfile on onTemp slope storage h := by
    intro h
    unfold sizingProfile
    exact min_le_min le_rfl (by nlinarith)
  have hsub : {h | on' ≤ h ∧ h ≤ 100 ∧ supply ≤ sizingProfile on' onTemp' slope storage h} ⊆
      {h | on ≤ h ∧ h ≤ 100 ∧ supply ≤ sizingProfile on onTemp slope storage h} := by
    rintro h ⟨h1, h2, h3⟩
    exact ⟨hon.trans h1, h2, h3.trans (hpt h)⟩
  unfold surplus
  calc _ ≤ ∫ h in {h | on' ≤ h ∧ h ≤ 100 ∧ supply ≤ sizingProfile on' onTemp' slope storage h},
        (sizingProfile on onTemp slope storage h - supply) := by
        rw [usable_heights hs hss]
        refine setIntegral_mono_on (surplus_int _ _ _ _ _ _ _) (surplus_int _ _ _ _ _ _ _) measurableSet_Icc ?_
        intro h _
        linarith [hpt h]
    _ ≤ _ := by
        rw [usable_heights hs hss, usable_heights hs hss] at hsub
        rw [usable_heights hs hss, usable_heights hs hss]
        refine setIntegral_mono_set (surplus_int _ _ _ _ _ _ _) ?_ hsub.eventuallyLE
        rw [Filter.EventuallyLE, ae_restrict_iff' measurableSet_Icc]
        refine Filter.Eventually.of_forall fun h hh => ?_
        rw [← usable_heights hs hss] at hh
        show (0 : ℝ) ≤ _
        linarith [hh.2.2]

/-- With a load-up level that lies above the shed level everywhere in the tank, the water between the two shrinks with a colder inlet. -/
theorem band_inlet {onL onS tL tS slope storage supply inlet inlet' : ℝ} (hs : 0 < slope) (hss : supply ≤ storage)
    (hin : inlet < supply) (hinl : inlet' ≤ inlet) (hon : onL ≤ onS) (htemp : tS ≤ tL + slope * (onS - onL)) :
    supplyGallons (sizingProfile onL tL slope storage) onL supply inlet' - supplyGallons (sizingProfile onS tS slope storage) onS supply inlet' ≤
    supplyGallons (sizingProfile onL tL slope storage) onL supply inlet - supplyGallons (sizingProfile onS tS slope storage) onS supply inlet := by
  have h1 := supplyGallons_inlet (on := onL) (onTemp := tL) hs hss hin (hinl.trans_lt hin)
  have h2 := supplyGallons_inlet (on := onS) (onTemp := tS) hs hss hin (hinl.trans_lt hin)
  have h3 := surplus_mono (onTemp := tL) (onTemp' := tS) hs hss hon htemp
  have h4 : 1 / (supply - inlet') ≤ 1 / (supply - inlet) := one_div_le_one_div_of_le (by linarith) (by linarith)
  nlinarith

/-- The band is not negative. -/
theorem band_nonneg {onL onS tL tS slope storage supply inlet : ℝ} (hs : 0 < slope) (hss : supply ≤ storage)
    (hin : inlet < supply) (hon : onL ≤ onS) (htemp : tS ≤ tL + slope * (onS - onL)) :
    supplyGallons (sizingProfile onS tS slope storage) onS supply inlet ≤ supplyGallons (sizingProfile onL tL slope storage) onL supply inlet := by
  have e : sizingProfile onS (tL + slope * (onS - onL)) slope storage = sizingProfile onL tL slope storage := by
    funext h; unfold sizingProfile; congr 1; ring
  calc _ ≤ supplyGallons (sizingProfile onS (tL + slope * (onS - onL)) slope storage) onS supply inlet :=
        supplyGallons_mono hs hs hss hss hin le_rfl htemp le_rfl le_rfl le_rfl le_rfl
    _ ≤ _ := by
        rw [e]
        unfold supplyGallons
        have hsub : {h | onS ≤ h ∧ h ≤ 100 ∧ supply ≤ sizingProfile onL tL slope storage h} ⊆
          {h | onL ≤ h ∧ h ≤ 100 ∧ supply ≤ sizingProfile onL tL slope storage h} :=
          fun h hh => ⟨hon.trans hh.1, hh.2⟩
        refine setIntegral_mono_set ?_ ?_ hsub.eventuallyLE
        · rw [usable_heights hs hss]
          apply Continuous.integrableOn_Icc
          unfold mixYield
          have := profile_continuous onL tL slope storage
          fun_prop
        · rw [Filter.EventuallyLE, usable_heights hs hss, ae_restrict_iff' measurableSet_Icc]
          refine Filter.Eventually.of_forall fun h hh => ?_
          rw [← usable_heights hs hss] at hh
          unfold mixYield
          exact div_nonneg (by linarith [hh.2.2]) (by linarith)

/-! ## Sizing -/

section
variable {K : Type} [Field K] [LinearOrder K] [IsStrictOrderedRing K]

/-- A sizing that succeeded, in parts. -/
theorem size_parts {M : SizingMethods K} {db : ShapeFiles K} {s s1 : DhwSys K} {b b1 : Building K} {sched : Option (List String)}
    {cmap : Option (ControlMap K)} {slope fract : K} {ws : Warnings} {cap st : K}
    (h : size M db s b sched cmap slope fract = ((s1, b1), .ok ws)) (hcap : getMinCapacity s1 = .ok cap)
    (hst : getMinStorage s1 = .ok st) :
    ∃ d, dailyView db b = .ok d ∧
      sizeCore M (cappedCfg s.cfg (lsInputs sched cmap)) d (lsInputs sched cmap) cmap slope fract = .ok (cap, st) := by
  rcases size_cases M db s b sched cmap slope fract with
    ⟨e, _, he⟩ | ⟨d, hd, ⟨e, _, he⟩ | ⟨cap', st', hc, ⟨e, _, he⟩ | ⟨ws', b2, hw, he, _, _⟩⟩⟩
  · simp [he] at h
  · simp [he] at h
  · simp [he] at h
  · rw [he] at h
    have hs1 : DhwSys.mk s.cfg (some cap') (some st') (some slope) s.heaterMap = s1 := by
      simp only [Prod.mk.injEq] at h; exact h.1.1
    subst hs1
    simp only [getMinCapacity, Except.ok.injEq] at hcap
    simp only [getMinStorage, Except.ok.injEq] at hst
    subst hcap hst
    exact ⟨d, hd, hc⟩

theorem dailyView_with (db : ShapeFiles K) (b : Building K) (cl : Option (ClimateZone K)) (g : K) :
    dailyView db { b with climate := cl, dailyGal := g } = (dailyView db b).map (fun d => { d with climate := cl, dailyGal := g }) := by
  unfold dailyView Building.isAnnual
  simp only
  split
  · unfold Building.setToDaily
    simp only
    split
    · rfl
    · cases loadShapeJson db "multi_family" with
      | error e => rfl
      | ok d =>
        simp only [ok_bind]
        cases d.streamAvg <;> rfl
  · rfl

theorem dailyView_gal {db : ShapeFiles K} {b d : Building K} (h : dailyView db b = .ok d) :
    d.dailyGal = b.dailyGal ∧ d.climate = b.climate := by
  unfold dailyView at h
  split at h
  · unfold Building.setToDaily at h
    split at h
    · simp at h
    · simp only [bind_eq_ok] at h
      obtain ⟨x, -, h⟩ := h
      split at h
      · simp at h
      · simp only [pure_eq_ok, Except.ok.injEq] at h
        subst h
        exact ⟨rfl, rfl⟩
  · simp only [Except.ok.injEq] at h
    subst h
    exact ⟨rfl, rfl⟩

theorem stratFactor_normal {c : SysCfg K} {m : ControlMap K} {n : Controls K} (hn : dictGet? m "normal" = some n) (slope inlet : K) :
    stratFactor c (some m) slope inlet = (supplyGalPer100 c n.onFract n.onTrig slope inlet).map (· / 100) := by
  unfold stratFactor
  cases m with
  | nil => simp [dictGet?] at hn
  | cons p ps =>
    simp only [hn]
    cases supplyGalPer100 c n.onFract n.onTrig slope inlet <;> rfl

theorem runningVolume_mono_daily {g g' r v v' : K} {shape : List K} (hg : 0 < g) (hgg : g ≤ g')
    (h : runningVolume g r shape = .ok v) (h' : runningVolume g' r shape = .ok v') : 0 ≤ v ∧ v ≤ v' := by
  have h0 : 0 ≤ v := by
    unfold runningVolume at h
    simp only [bind_eq_ok, pure_eq_ok, Except.ok.injEq] at h
    obtain ⟨x, -, rfl⟩ := h
    exact runningVolumeOfDiff_nonneg _
  refine ⟨h0, ?_⟩
  have hk : 0 < g' / g := div_pos (hg.trans_le hgg) hg
  have e := runningVolume_scale hk g r shape
  rw [div_mul_cancel₀ _ hg.ne', h, h'] at e
  simp only [Except.map, Except.ok.injEq] at e
  rw [e]
  exact le_mul_of_one_le_left h0 ((one_le_div hg).2 hgg)

theorem capacity_mono {c c' : SysCfg K} {g g' inlet inlet' cap cap' : K} (hsup : c.supply ≤ c'.supply) (hd0 : 0 ≤ g) (hd : g ≤ g')
    (hf0 : 0 < c'.defrost) (hf : c'.defrost ≤ c.defrost) (ht : inlet' ≤ inlet) (hts : inlet ≤ c.supply)
    (h : capacityOfGenRate c g inlet = .ok cap) (h' : capacityOfGenRate c' g' inlet' = .ok cap') : cap ≤ cap' := by
  unfold capacityOfGenRate at h h'
  simp only [bind_eq_ok, fdiv_eq_ok, Except.ok.injEq] at h h'
  obtain ⟨x, ⟨-, rfl⟩, rfl⟩ := h
  obtain ⟨y, ⟨-, rfl⟩, rfl⟩ := h'
  have hr := rhoCp_pos (K := K)
  apply div_le_div_of_nonneg_right _ (by norm_num)
  have h1 : g * rhoCp K * (c.supply - inlet) ≤ g' * rhoCp K * (c'.supply - inlet') :=
    mul_le_mul (mul_le_mul_of_nonneg_right hd hr.le) (by linarith) (by linarith) (mul_nonneg (hd0.trans hd) hr.le)
  exact div_le_div₀ (mul_nonneg (mul_nonneg (hd0.trans hd) hr.le) (by linarith)) h1 hf0 hf

end

/-- **C129.** Take two sizings that succeed, without load shifting, for the same load shape and run hours. If in the second one the building
uses at least as much water, the inlet water is at most as warm, the supply temperature at least as high, the storage temperature and the
defrost factor at most as high, the ON sensor at least as high in the tank with a trigger at most as warm, and the temperature gradient in
the tank at most as steep, then its capacity and its storage are at least as large. -/
theorem C129_harder (db : ShapeFiles ℝ) (s s' s1 s1' : DhwSys ℝ) (b b1 b1' : Building ℝ) (cl' : Option (ClimateZone ℝ)) (gal' : ℝ)
    (sched sched' : Option (List String)) (m m' : ControlMap ℝ) (n n' : Controls ℝ) (slope slope' fract fract' inlet inlet' : ℝ)
    (cap cap' st st' : ℝ) (ws ws' : Warnings)
    (h : size baseMethods db s b sched (some m) slope fract = ((s1, b1), .ok ws))
    (h' : size baseMethods db s' { b with climate := cl', dailyGal := gal' } sched' (some m') slope' fract' = ((s1', b1'), .ok ws'))
    (hno : lsInputs sched (some m) = none) (hno' : lsInputs sched' (some m') = none)
    (hin : b.getDesignInlet = .ok (some inlet)) (hin' : ({ b with climate := cl' } : Building ℝ).getDesignInlet = .ok (some inlet'))
    (hn : dictGet? m "normal" = some n) (hn' : dictGet? m' "normal" = some n')
    (hcap : getMinCapacity s1 = .ok cap) (hcap' : getMinCapacity s1' = .ok cap')
    (hst : getMinStorage s1 = .ok st) (hst' : getMinStorage s1' = .ok st')
    -- sensible settings
    (hgal : 0 < b.dailyGal) (hrun : 0 < s.cfg.maxRunHr) (hdef' : 0 < s'.cfg.defrost) (hsl' : 0 < slope') (hcold : inlet < s.cfg.supply)
    (hhot' : s'.cfg.supply ≤ s'.cfg.storage) (htrig : n.onTrig ≤ s.cfg.storage) (htrig' : n'.onTrig ≤ s'.cfg.storage)
    -- the second is harder
    (hsame : s'.cfg.maxRunHr = s.cfg.maxRunHr) (kgal : b.dailyGal ≤ gal') (kin : inlet' ≤ inlet) (ksup : s.cfg.supply ≤ s'.cfg.supply)
    (ksto : s'.cfg.storage ≤ s.cfg.storage) (kdef : s'.cfg.defrost ≤ s.cfg.defrost) (kon : n.onFract ≤ n'.onFract)
    (ktrig : n'.onTrig ≤ n.onTrig) (kslope : slope' ≤ slope) :
    cap ≤ cap' ∧ st ≤ st' := by
  obtain ⟨d, hd, hc⟩ := size_parts h hcap hst
  obtain ⟨d', hd', hc'⟩ := size_parts h' hcap' hst'
  rw [dailyView_with, hd] at hd'
  simp only [Except.map, Except.ok.injEq] at hd'
  subst hd'
  obtain ⟨e1, e2⟩ := dailyView_gal hd
  have i1 : requireDesignInlet d = .ok inlet := by
    unfold Building.getDesignInlet at hin
    unfold requireDesignInlet Building.getDesignInlet; rw [e2, hin]; rfl
  have i2 : requireDesignInlet ({ d with climate := cl', dailyGal := gal' } : Building ℝ) = .ok inlet' := by
    unfold Building.getDesignInlet at hin'
    unfold requireDesignInlet Building.getDesignInlet; rw [hin']; rfl
  rw [hno] at hc
  rw [hno'] at hc'
  have hcc : cappedCfg s.cfg none = s.cfg := rfl
  have hcc' : cappedCfg s'.cfg none = s'.cfg := rfl
  rw [hcc] at hc
  rw [hcc'] at hc'
  unfold sizeCore baseMethods requiredCapacity at hc hc'
  simp only [i1, i2, ok_bind, bind_eq_ok, pure_eq_ok, Except.ok.injEq, Prod.mk.injEq] at hc hc'
  obtain ⟨_, ⟨gen, hg, hq⟩, rv, hrv, sf, hsf, _, hv, rfl, rfl⟩ := hc
  obtain ⟨_, ⟨gen', hg', hq'⟩, rv', hrv', sf', hsf', _, hv', rfl, rfl⟩ := hc'
  rw [hsame] at hg' hrv'
  obtain ⟨-, rfl⟩ := fdiv_eq_ok.1 hg
  obtain ⟨-, rfl⟩ := fdiv_eq_ok.1 hg'
  rw [e1] at hq hrv
  refine ⟨capacity_mono ksup (div_nonneg hgal.le hrun.le) (div_le_div_of_nonneg_right kgal hrun.le) hdef' kdef kin hcold.le hq hq', ?_⟩
  obtain ⟨r0, r1⟩ := runningVolume_mono_daily hgal kgal hrv hrv'
  have hss : s.cfg.supply ≤ s.cfg.storage := ksup.trans (hhot'.trans ksto)
  rw [stratFactor_normal hn, C05_supply_gallons_is_integral _ _ _ _ _ (hsl'.trans_le kslope) hcold hss htrig] at hsf
  rw [stratFactor_normal hn', C05_supply_gallons_is_integral _ _ _ _ _ hsl' (by linarith) hhot' htrig'] at hsf'
  simp only [Except.map, Except.ok.injEq] at hsf hsf'
  have key := supplyGallons_mono (on := n.onFract * 100) (on' := n'.onFract * 100) (hsl'.trans_le kslope) hsl' hss hhot' hcold (by linarith)
    ktrig kslope ksto ksup kin
  obtain ⟨g', hg5, hg6, -⟩ := C05_supply_gallons_bounds s'.cfg n'.onFract n'.onTrig slope' inlet' hsl' (by linarith) hhot' htrig'
  rw [C05_supply_gallons_is_integral _ _ _ _ _ hsl' (by linarith) hhot' htrig'] at hg5
  injection hg5 with hg5
  have h0 : 0 ≤ sf' := by
    rw [← hsf', hg5]
    exact div_nonneg ((le_max_left _ _).trans hg6) (by norm_num)
  unfold storageVolume at hv hv'
  obtain ⟨z, rfl⟩ := fdiv_eq_ok.1 hv
  obtain ⟨z', rfl⟩ := fdiv_eq_ok.1 hv'
  have hpos : 0 < sf' := lt_of_le_of_ne h0 (Ne.symm z')
  exact div_le_div₀ (r0.trans r1) r1 hpos (by rw [← hsf, ← hsf']; linarith)

/-- **C129, load shifting.** Colder inlet water never leads to a smaller capacity or storage with load shifting either, if the profile at the
load-up OFF level is nowhere colder than the one at the shed ON level. -/
theorem C129_colder_load_shift_partial (db : ShapeFiles ℝ) (s s1 s1' : DhwSys ℝ) (b b1 b1' : Building ℝ) (cl' : Option (ClimateZone ℝ))
    (sched : List String) (m : ControlMap ℝ) (n lu sh : Controls ℝ) (slope fract inlet inlet' cap cap' st st' : ℝ) (ws ws' : Warnings)
    (h : size baseMethods db s b (some sched) (some m) slope fract = ((s1, b1), .ok ws))
    (h' : size baseMethods db s { b with climate := cl' } (some sched) (some m) slope fract = ((s1', b1'), .ok ws'))
    (hsched : sched ≠ [])
    (hin : b.getDesignInlet = .ok (some inlet)) (hin' : ({ b with climate := cl' } : Building ℝ).getDesignInlet = .ok (some inlet'))
    (hn : dictGet? m "normal" = some n) (hlu : (dictGet? m "loadUp").getD n = lu) (hsh : dictGet? m "shed" = some sh)
    (hcap : getMinCapacity s1 = .ok cap) (hcap' : getMinCapacity s1' = .ok cap')
    (hst : getMinStorage s1 = .ok st) (hst' : getMinStorage s1' = .ok st')
    -- sensible settings
    (hgal : 0 < b.dailyGal) (hrun : 0 < s.cfg.maxRunHr) (hdef : 0 < s.cfg.defrost) (hsl : 0 < slope) (hcold : inlet < s.cfg.supply)
    (hhot : s.cfg.supply ≤ s.cfg.storage) (htrig : n.onTrig ≤ s.cfg.storage) (hluT : lu.offTrig ≤ s.cfg.storage)
    (hshT : sh.onTrig ≤ s.cfg.storage)
    -- the load-up profile is nowhere colder than the shed profile
    (hpos : lu.offFract ≤ sh.onFract) (habove : sh.onTrig ≤ lu.offTrig + slope * (sh.onFract * 100 - lu.offFract * 100))
    (kin : inlet' ≤ inlet) :
    cap ≤ cap' ∧ st ≤ st' := by
  obtain ⟨d, hd, hc⟩ := size_parts h hcap hst
  obtain ⟨d', hd', hc'⟩ := size_parts h' hcap' hst'
  have hw := dailyView_with db b cl' b.dailyGal
  rw [hd] at hw
  obtain ⟨e1, e2⟩ := dailyView_gal hd
  have hdd : ({ d with climate := cl', dailyGal := b.dailyGal } : Building ℝ) = { d with climate := cl' } := by rw [← e1]
  change dailyView db { b with climate := cl' } = _ at hw
  rw [hw] at hd'
  simp only [Except.map, Except.ok.injEq] at hd'
  rw [hdd] at hd'
  subst hd'
  have i1 : requireDesignInlet d = .ok inlet := by
    unfold Building.getDesignInlet at hin
    unfold requireDesignInlet Building.getDesignInlet; rw [e2, hin]; rfl
  have i2 : requireDesignInlet ({ d with climate := cl' } : Building ℝ) = .ok inlet' := by
    unfold Building.getDesignInlet at hin'
    unfold requireDesignInlet Building.getDesignInlet; rw [hin']; rfl
  have hls : lsInputs (some sched) (some m) = some (sched, m) := by
    obtain ⟨x, xs, rfl⟩ := List.exists_cons_of_ne_nil hsched
    have : dictHas m "shed" = true := by simp [dictHas, hsh]
    simp [lsInputs, truthySched, this]
  rw [hls] at hc hc'
  set c := cappedCfg s.cfg (some (sched, m)) with hcdef
  have c1 : c.supply = s.cfg.supply := rfl
  have c2 : c.storage = s.cfg.storage := rfl
  have c3 : c.defrost = s.cfg.defrost := rfl
  have c4 : 0 ≤ c.maxRunHr := by
    rw [hcdef]
    exact le_min hrun.le (Nat.cast_nonneg _)
  unfold sizeCore baseMethods requiredCapacity requiredCapacityLs at hc hc'
  simp only [i1, i2, ok_bind, bind_eq_ok, pure_eq_ok, Except.ok.injEq, Prod.mk.injEq] at hc hc'
  obtain ⟨cp, ⟨gen, hg, hq⟩, rv, hrv, sf, hsf, st0, hv, capLs, ⟨g, hgl, hql⟩, g1, hgl1, rvLs, hrl, stLs, hsl1, rfl, rfl⟩ := hc
  obtain ⟨cp', ⟨gen', hg', hq'⟩, rv', hrv', sf', hsf', st0', hv', capLs', ⟨g', hgl', hql'⟩, g1', hgl1', rvLs', hrl', stLs', hsl1', rfl, rfl⟩ := hc'
  have x1 : gen' = gen := by
    have : fdiv d.dailyGal c.maxRunHr = .ok gen' := hg'
    rw [hg] at this; injection this with this; exact this.symm
  have x2 : rv' = rv := by
    have : runningVolume d.dailyGal c.maxRunHr d.peakShape = .ok rv' := hrv'
    rw [hrv] at this; injection this with this; exact this.symm
  have x3 : g' = g := by
    have : genRateLs c sched m d slope fract = .ok g' := hgl'
    rw [hgl] at this; injection this with this; exact this.symm
  have x4 : g1' = g1 := by
    have : genRateLs c sched m d slope fract = .ok g1' := hgl1'
    rw [hgl1] at this; injection this with this; exact this.symm
  have x5 : rvLs' = rvLs := by
    rw [x4] at hrl'
    have : runningVolumeLs sched d g1 fract = .ok rvLs' := hrl'
    rw [hrl] at this; injection this with this; exact this.symm
  subst x1 x2 x3 x4 x5
  obtain ⟨-, rfl⟩ := fdiv_eq_ok.1 hg
  have hgal' : 0 < d.dailyGal := by rw [e1]; exact hgal
  have hgen0 : 0 ≤ d.dailyGal / c.maxRunHr := div_nonneg hgal'.le c4
  have hg0 : 0 ≤ g' := hgen0.trans (genRateLs_ge hgl).2
  refine ⟨max_le_max (capacity_mono le_rfl hgen0 le_rfl (by rw [c3]; exact hdef) le_rfl kin (by rw [c1]; exact hcold.le) hq hq')
    (capacity_mono le_rfl hg0 le_rfl (by rw [c3]; exact hdef) le_rfl kin (by rw [c1]; exact hcold.le) hql hql'), ?_⟩
  have hcold' : inlet' < c.supply := by rw [c1]; linarith
  obtain ⟨r0, -⟩ := runningVolume_mono_daily hgal' le_rfl hrv hrv
  rw [stratFactor_normal hn, C05_supply_gallons_is_integral c _ _ _ _ hsl (by rw [c1]; exact hcold) hhot htrig] at hsf
  rw [stratFactor_normal hn, C05_supply_gallons_is_integral c _ _ _ _ hsl hcold' hhot htrig] at hsf'
  simp only [Except.map, Except.ok.injEq] at hsf hsf'
  have key := supplyGallons_mono (on := n.onFract * 100) (on' := n.onFract * 100) (onTemp := n.onTrig) (onTemp' := n.onTrig)
    (supply := c.supply) (supply' := c.supply) (storage := c.storage) (storage' := c.storage) hsl hsl hhot hhot
    hcold le_rfl le_rfl le_rfl le_rfl le_rfl kin
  obtain ⟨g5, hg5, hg6, -⟩ := C05_supply_gallons_bounds c n.onFract n.onTrig slope inlet' hsl hcold' hhot htrig
  rw [C05_supply_gallons_is_integral c _ _ _ _ hsl hcold' hhot htrig] at hg5
  injection hg5 with hg5
  have h0 : 0 ≤ sf' := by
    rw [← hsf', hg5]
    exact div_nonneg ((le_max_left _ _).trans hg6) (by norm_num)
  unfold storageVolume at hv hv'
  obtain ⟨z, rfl⟩ := fdiv_eq_ok.1 hv
  obtain ⟨z', rfl⟩ := fdiv_eq_ok.1 hv'
  have hpos' : 0 < sf' := lt_of_le_of_ne h0 (Ne.symm z')
  have hfirst : rv' / sf ≤ rv' / sf' := div_le_div₀ r0 le_rfl hpos' (by rw [← hsf, ← hsf']; linarith)
  have hfirst0 : 0 ≤ rv' / sf' := div_nonneg r0 hpos'.le
  -- the load-shift storage
  unfold storageVolumeLs storageVolume lsControls at hsl1 hsl1'
  simp only [bind_eq_ok, fdiv_eq_ok, pure_eq_ok, Except.ok.injEq, dictGet_eq_ok, hn, hsh, Option.some.injEq,
    Prod.exists, Prod.mk.injEq] at hsl1 hsl1'
  obtain ⟨_, luC, sC, ⟨_, rfl, _, rfl, _, rfl, rfl⟩, luX, p1, sX, p2, hne, rfl⟩ := hsl1
  obtain ⟨_, luC', sC', ⟨_, rfl, _, rfl, _, rfl, rfl⟩, luX', p1', sX', p2', hne', rfl⟩ := hsl1'
  rw [hlu] at p1 p1'
  rw [C05_supply_gallons_is_integral c _ _ _ _ hsl hcold hhot hluT] at p1
  rw [C05_supply_gallons_is_integral c _ _ _ _ hsl hcold hhot hshT] at p2
  rw [C05_supply_gallons_is_integral c _ _ _ _ hsl hcold' hhot hluT] at p1'
  rw [C05_supply_gallons_is_integral c _ _ _ _ hsl hcold' hhot hshT] at p2'
  simp only [Except.ok.injEq] at p1 p2 p1' p2'
  have k1 := band_inlet (onL := lu.offFract * 100) (onS := sh.onFract * 100) (tL := lu.offTrig) (tS := sh.onTrig)
    (supply := c.supply) (storage := c.storage) hsl hhot hcold kin (by linarith) habove
  have k2 := band_nonneg (onL := lu.offFract * 100) (onS := sh.onFract * 100) (tL := lu.offTrig) (tS := sh.onTrig)
    (supply := c.supply) (storage := c.storage) hsl hhot hcold' (by linarith) habove
  rw [p1, p2, p1', p2'] at k1
  rw [p1', p2'] at k2
  refine max_le (hfirst.trans (le_max_left _ _)) ?_
  have hb : 0 < (luX' - sX') / 100 := lt_of_le_of_ne (div_nonneg (by linarith) (by norm_num)) (Ne.symm hne')
  have hb2 : (luX' - sX') / 100 ≤ (luX - sX) / 100 := by linarith
  rcases le_total 0 rvLs' with hr | hr
  · exact (div_le_div₀ hr le_rfl hb hb2).trans (le_max_right _ _)
  · exact (div_nonpos_of_nonpos_of_nonneg hr (hb.le.trans hb2)).trans (hfirst0.trans (le_max_left _ _))

namespace Demo

/-- Contradictory controls: the tank ends its load-up at 121 °F, but a shed keeps its upper half at 150 °F. -/
def oddMap : ControlMap ℚ :=
  [("normal", ⟨1/10, 150, 1/20, 150, 150⟩), ("loadUp", ⟨3/10, 121, 1/10, 121, 150⟩), ("shed", ⟨1/2, 150, 2/5, 150, 150⟩)]

/-- The same climate with inlet water at 40 °F instead of 50 °F. -/
def colder : Option (ClimateZone ℚ) := some (ClimateZone.fromDesignConditions (some 20) (some 40))

end Demo

/-- **C129 is false with contradictory load-shift controls.** If the shed profile is in part warmer than the load-up profile, the sizing
accepts it, and colder inlet water leads to a smaller storage. -/
theorem C129_contradictory_controls_smaller :
    (size baseMethods Demo.noFiles { cfg := Demo.cfg } Demo.building (some Demo.sched) (some Demo.oddMap) (1/10) 1).2.isOk = true ∧
    (size baseMethods Demo.noFiles { cfg := Demo.cfg } { Demo.building with climate := Demo.colder } (some Demo.sched) (some Demo.oddMap)
      (1/10) 1).2.isOk = true ∧
    getMinStorage (size baseMethods Demo.noFiles { cfg := Demo.cfg } Demo.building (some Demo.sched) (some Demo.oddMap) (1/10) 1).1.1 =
      .ok (294000/359) ∧
    getMinStorage (size baseMethods Demo.noFiles { cfg := Demo.cfg } { Demo.building with climate := Demo.colder } (some Demo.sched)
      (some Demo.oddMap) (1/10) 1).1.1 = .ok (336000/439) ∧ (336000/439 : ℚ) < 294000/359 := by
  decide +kernel

/-- Non-vacuity of C129: two sizings that meet its hypotheses, every setting harder in the second one. -/
example : (size baseMethods Demo.noFiles { cfg := Demo.cfg } Demo.building none (some Demo.map) (28/10) 1).2.isOk = true ∧
    (size baseMethods Demo.noFiles { cfg := ⟨125, 145, 16, 9/10⟩ } { Demo.building with climate := Demo.colder, dailyGal := 1200 } none
      (some [("normal", ⟨1/2, 105, 2/10, 120, 150⟩)]) 2 1).2.isOk = true ∧
    dictGet? Demo.map "normal" = some Demo.normal ∧ (4/10 : ℚ) ≤ 1/2 ∧
    ({ Demo.building with climate := Demo.colder } : Building ℚ).getDesignInlet = .ok (some 40) ∧
    Demo.building.getDesignInlet = .ok (some 50) := by decide +kernel

/-- Non-vacuity of the load-shift part: the demonstration controls. -/
example : (size baseMethods Demo.noFiles { cfg := Demo.cfg } Demo.building (some Demo.sched) (some Demo.map) (28/10) 1).2.isOk = true ∧
    (size baseMethods Demo.noFiles { cfg := Demo.cfg } { Demo.building with climate := Demo.colder } (some Demo.sched) (some Demo.map)
      (28/10) 1).2.isOk = true ∧
    Demo.loadUp.offFract ≤ Demo.shed.onFract ∧
    Demo.shed.onTrig ≤ Demo.loadUp.offTrig + 28/10 * (Demo.shed.onFract * 100 - Demo.loadUp.offFract * 100) := by decide +kernel

end Eco
