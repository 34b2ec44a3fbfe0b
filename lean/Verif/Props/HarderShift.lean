import Verif.Props.Harder

/-! C129 with load shifting: more use, colder mains and more defrosting together. -/

namespace Eco
open MeasureTheory Spec

theorem colder_core {c : SysCfg ℝ} {d : Building ℝ} {cl' : Option (ClimateZone ℝ)} {sched : List String} {m : ControlMap ℝ}
    {n lu sh : Controls ℝ} {slope fract inlet inlet' cap cap' st st' : ℝ}
    (hc : sizeCore baseMethods c d (some (sched, m)) (some m) slope fract = .ok (cap, st))
    (hc' : sizeCore baseMethods c { d with climate := cl' } (some (sched, m)) (some m) slope fract = .ok (cap', st'))
    (i1 : requireDesignInlet d = .ok inlet) (i2 : requireDesignInlet ({ d with climate := cl' } : Building ℝ) = .ok inlet')
    (hn : dictGet? m "normal" = some n) (hlu : (dictGet? m "loadUp").getD n = lu) (hsh : dictGet? m "shed" = some sh)
    (hgal : 0 < d.dailyGal) (c4 : 0 ≤ c.maxRunHr) (hdef : 0 < c.defrost) (hsl : 0 < slope) (hcold : inlet < c.supply)
    (hhot : c.supply ≤ c.storage) (htrig : n.onTrig ≤ c.storage) (hluT : lu.offTrig ≤ c.storage)
    (hshT : sh.onTrig ≤ c.storage)
    (hpos : lu.offFract ≤ sh.onFract) (habove : sh.onTrig ≤ lu.offTrig + slope * (sh.onFract * 100 - lu.offFract * 100))
    (kin : inlet' ≤ inlet) : cap ≤ cap' ∧ st ≤ st' := by
  unfold sizeCore baseMethods requiredCapacity requiredCapacityLs at hc hc'
  simp only [i1, i2, ok_bind, bind_eq_ok, pure_eq_ok, Except.ok.injEq, Prod.mk.injEq] at hc hc'
  obtain ⟨cp, ⟨gen, hg, hq⟩, rv, hrv, sf, hsf, st0, hv, capLs, ⟨g, hgl, hql⟩, g1, hgl1, rvLs, hrl, stLs, hsl1, rfl, rfl⟩ := hc
  obtain ⟨cp', ⟨gen', hg', hq'⟩, rv', hrv', sf', hsf', st0', hv', capLs', ⟨g', hgl', hql'⟩, g1', hgl1', rvLs', hrl', stLs', hsl1', rfl, rfl⟩ := hc'
  have x1 : gen' = gen := by
    have : fdiv d.dailyGal c.maxRunHr = .ok gen' := hg'
    rw [hg] at this; injection this with this; exact this.symm
  have x2 : rv' = rv := by
    have : runningVolume d.dailyGal c.maxRunHr d.peakShape = .ok rv' := hrv'
    rw [hrv] at this; injection this with this; exact this.symm
  have x3 : g' = g := by
    have : genRateLs c sched m d slope fract = .ok g' := hgl'
    rw [hgl] at this; injection this with this; exact this.symm
  have x4 : g1' = g1 := by
    have : genRateLs c sched m d slope fract = .ok g1' := hgl1'
    rw [hgl1] at this; injection this with this; exact this.symm
  have x5 : rvLs' = rvLs := by
    rw [x4] at hrl'
    have : runningVolumeLs sched d g1 fract = .ok rvLs' := hrl'
    rw [hrl] at this; injection this with this; exact this.symm
  subst x1 x2 x3 x4 x5
  obtain ⟨-, rfl⟩ := fdiv_eq_ok.1 hg
  have hgen0 : 0 ≤ d.dailyGal / c.maxRunHr := div_nonneg hgal.le c4
  have hg0 : 0 ≤ g' := hgen0.trans (genRateLs_ge hgl).2
  refine ⟨max_le_max (capacity_mono le_rfl hgen0 le_rfl hdef le_rfl kin hcold.le hq hq')
    (capacity_mono le_rfl hg0 le_rfl hdef le_rfl kin hcold.le hql hql'), ?_⟩
  have hcold' : inlet' < c.supply := by linarith
  obtain ⟨r0, -⟩ := runningVolume_mono_daily hgal le_rfl hrv hrv
  rw [stratFactor_normal hn, C05_supply_gallons_is_integral c _ _ _ _ hsl hcold hhot htrig] at hsf
  rw [stratFactor_normal hn, C05_supply_gallons_is_integral c _ _ _ _ hsl hcold' hhot htrig] at hsf'
  simp only [Except.map, Except.ok.injEq] at hsf hsf'
  have key := supplyGallons_mono (on := n.onFract * 100) (on' := n.onFract * 100) (onTemp := n.onTrig) (onTemp' := n.onTrig)
    (supply := c.supply) (supply' := c.supply) (storage := c.storage) (storage' := c.storage) hsl hsl hhot hhot
    hcold le_rfl le_rfl le_rfl le_rfl le_rfl kin
  obtain ⟨g5, hg5, hg6, -⟩ := C05_supply_gallons_bounds c n.onFract n.onTrig slope inlet' hsl hcold' hhot htrig
  rw [C05_supply_gallons_is_integral c _ _ _ _ hsl hcold' hhot htrig] at hg5
  injection hg5 with hg5
  have h0 : 0 ≤ sf' := by
    rw [← hsf', hg5]
    exact div_nonneg ((le_max_left _ _).trans hg6) (by norm_num)
  unfold storageVolume at hv hv'
  obtain ⟨z, rfl⟩ := fdiv_eq_ok.1 hv
  obtain ⟨z', rfl⟩ := fdiv_eq_ok.1 hv'
  have hpos' : 0 < sf' := lt_of_le_of_ne h0 (Ne.symm z')
  have hfirst : rv' / sf ≤ rv' / sf' := div_le_div₀ r0 le_rfl hpos' (by rw [← hsf, ← hsf']; linarith)
  have hfirst0 : 0 ≤ rv' / sf' := div_nonneg r0 hpos'.le
  -- the load-shift storage
  unfold storageVolumeLs storageVolume lsControls at hsl1 hsl1'
  simp only [bind_eq_ok, fdiv_eq_ok, pure_eq_ok, Except.ok.injEq, dictGet_eq_ok, hn, hsh, Option.some.injEq,
    Prod.exists, Prod.mk.injEq] at hsl1 hsl1'
  obtain ⟨_, luC, sC, ⟨_, rfl, _, rfl, _, rfl, rfl⟩, luX, p1, sX, p2, hne, rfl⟩ := hsl1
  obtain ⟨_, luC', sC', ⟨_, rfl, _, rfl, _, rfl, rfl⟩, luX', p1', sX', p2', hne', rfl⟩ := hsl1'
  rw [hlu] at p1 p1'
  rw [C05_supply_gallons_is_integral c _ _ _ _ hsl hcold hhot hluT] at p1
  rw [C05_supply_gallons_is_integral c _ _ _ _ hsl hcold hhot hshT] at p2
  rw [C05_supply_gallons_is_integral c _ _ _ _ hsl hcold' hhot hluT] at p1'
  rw [C05_supply_gallons_is_integral c _ _ _ _ hsl hcold' hhot hshT] at p2'
  simp only [Except.ok.injEq] at p1 p2 p1' p2'
  have k1 := band_inlet (onL := lu.offFract * 100) (onS := sh.onFract * 100) (tL := lu.offTrig) (tS := sh.onTrig)
    (supply := c.supply) (storage := c.storage) hsl hhot hcold kin (by linarith) habove
  have k2 := band_nonneg (onL := lu.offFract * 100) (onS := sh.onFract * 100) (tL := lu.offTrig) (tS := sh.onTrig)
    (supply := c.supply) (storage := c.storage) hsl hhot hcold' (by linarith) habove
  rw [p1, p2, p1', p2'] at k1
  rw [p1', p2'] at k2
  refine max_le (hfirst.trans (le_max_left _ _)) ?_
  have hb : 0 < (luX' - sX') / 100 := lt_of_le_of_ne (div_nonneg (by linarith) (by norm_num)) (Ne.symm hne')
  have hb2 : (luX' - sX') / 100 ≤ (luX - sX) / 100 := by linarith
  rcases le_total 0 rvLs' with hr | hr
  · exact (div_le_div₀ hr le_rfl hb hb2).trans (le_max_right _ _)
  · exact (div_nonpos_of_nonpos_of_nonneg hr (hb.le.trans hb2)).trans (hfirst0.trans (le_max_left _ _))


theorem core_nonneg {c : SysCfg ℝ} {d : Building ℝ} {sched : List String} {m : ControlMap ℝ}
    {n : Controls ℝ} {slope fract inlet cap st : ℝ}
    (hc : sizeCore baseMethods c d (some (sched, m)) (some m) slope fract = .ok (cap, st))
    (i1 : requireDesignInlet d = .ok inlet) (hn : dictGet? m "normal" = some n)
    (hgal : 0 < d.dailyGal) (c4 : 0 ≤ c.maxRunHr) (hdef : 0 < c.defrost) (hsl : 0 < slope) (hcold : inlet < c.supply)
    (hhot : c.supply ≤ c.storage) (htrig : n.onTrig ≤ c.storage) : 0 ≤ cap ∧ 0 ≤ st := by
  unfold sizeCore baseMethods requiredCapacity requiredCapacityLs at hc
  simp only [i1, ok_bind, bind_eq_ok, pure_eq_ok, Except.ok.injEq, Prod.mk.injEq] at hc
  obtain ⟨cp, ⟨gen, hg, hq⟩, rv, hrv, sf, hsf, st0, hv, capLs, ⟨g, hgl, hql⟩, g1, hgl1, rvLs, hrl, stLs, hsl1, rfl, rfl⟩ := hc
  obtain ⟨-, rfl⟩ := fdiv_eq_ok.1 hg
  refine ⟨le_max_of_le_left ?_, le_max_of_le_left ?_⟩
  · unfold capacityOfGenRate at hq
    simp only [bind_eq_ok, fdiv_eq_ok, Except.ok.injEq] at hq
    obtain ⟨x, ⟨-, rfl⟩, rfl⟩ := hq
    have := rhoCp_pos (K := ℝ)
    have : 0 < c.supply - inlet := by linarith
    positivity
  · obtain ⟨r0, -⟩ := runningVolume_mono_daily hgal le_rfl hrv hrv
    rw [stratFactor_normal hn] at hsf
    obtain ⟨g5, hg5, hg6, -⟩ := C05_supply_gallons_bounds c n.onFract n.onTrig slope inlet hsl hcold hhot htrig
    rw [hg5] at hsf
    simp only [Except.map, Except.ok.injEq] at hsf
    obtain ⟨z, rfl⟩ := fdiv_eq_ok.1 hv
    refine div_nonneg r0 ?_
    rw [← hsf]
    exact div_nonneg ((le_max_left _ _).trans hg6) (by norm_num)

theorem capacity_defrost {c : SysCfg ℝ} {f g inlet cap : ℝ} (hd : 0 < c.defrost) (hf : 0 < f)
    (h : capacityOfGenRate c g inlet = .ok cap) : capacityOfGenRate { c with defrost := f } g inlet = .ok (c.defrost / f * cap) := by
  unfold capacityOfGenRate at h ⊢
  simp only [bind_eq_ok, fdiv_eq_ok, Except.ok.injEq] at h ⊢
  obtain ⟨x, ⟨-, rfl⟩, rfl⟩ := h
  refine ⟨_, ⟨hf.ne', rfl⟩, ?_⟩
  field_simp

theorem core_defrost {c : SysCfg ℝ} {d : Building ℝ} {sched : List String} {m : ControlMap ℝ} {slope fract f cap st : ℝ}
    (hd : 0 < c.defrost) (hf : 0 < f)
    (h : sizeCore baseMethods c d (some (sched, m)) (some m) slope fract = .ok (cap, st)) :
    sizeCore baseMethods { c with defrost := f } d (some (sched, m)) (some m) slope fract = .ok (c.defrost / f * cap, st) := by
  unfold sizeCore baseMethods requiredCapacity requiredCapacityLs at h ⊢
  simp only [bind_eq_ok, pure_eq_ok, Except.ok.injEq, Prod.mk.injEq] at h ⊢
  obtain ⟨i, hi, cp, ⟨i1, hi1, gen, hg, hq⟩, rv, hrv, sf, hsf, st0, hv, capLs, ⟨i2, hi2, g, hgl, hql⟩, g1, hgl1, rvLs, hrl, stLs, hsl1,
    rfl, rfl⟩ := h
  exact ⟨i, hi, _, ⟨i1, hi1, gen, hg, capacity_defrost hd hf hq⟩, rv, hrv, sf, hsf, st0, hv, _,
    ⟨i2, hi2, g, hgl, capacity_defrost hd hf hql⟩, g1, hgl1, rvLs, hrl, stLs, hsl1,
    (mul_max_of_nonneg _ _ (div_nonneg hd.le hf.le)).symm, rfl⟩

/-- **C129, load shifting.** With load shifting, a building that uses at least as much water, at most as warm mains and a defrost factor
at most as high never lead to a smaller capacity or storage, if the profile at the load-up OFF level is nowhere colder than the one at
the shed ON level. -/
theorem C129_load_shift_partial (db : ShapeFiles ℝ) (s s1 s1' : DhwSys ℝ) (b b1 b1' : Building ℝ) (cl' : Option (ClimateZone ℝ))
    (gal' defrost' : ℝ) (sched : List String) (m : ControlMap ℝ) (n lu sh : Controls ℝ) (slope fract inlet inlet' cap cap' st st' : ℝ)
    (ws ws' : Warnings)
    (h : size baseMethods db s b (some sched) (some m) slope fract = ((s1, b1), .ok ws))
    (h' : size baseMethods db { s with cfg := { s.cfg with defrost := defrost' } } { b with climate := cl', dailyGal := gal' }
      (some sched) (some m) slope fract = ((s1', b1'), .ok ws'))
    (hsched : sched ≠ [])
    (hin : b.getDesignInlet = .ok (some inlet)) (hin' : ({ b with climate := cl' } : Building ℝ).getDesignInlet = .ok (some inlet'))
    (hn : dictGet? m "normal" = some n) (hlu : (dictGet? m "loadUp").getD n = lu) (hsh : dictGet? m "shed" = some sh)
    (hcap : getMinCapacity s1 = .ok cap) (hcap' : getMinCapacity s1' = .ok cap')
    (hst : getMinStorage s1 = .ok st) (hst' : getMinStorage s1' = .ok st')
    -- sensible settings
    (hgal : 0 < b.dailyGal) (hrun : 0 < s.cfg.maxRunHr) (hdef' : 0 < defrost') (hsl : 0 < slope) (hcold : inlet < s.cfg.supply)
    (hhot : s.cfg.supply ≤ s.cfg.storage) (htrig : n.onTrig ≤ s.cfg.storage) (hluT : lu.offTrig ≤ s.cfg.storage)
    (hshT : sh.onTrig ≤ s.cfg.storage)
    -- the load-up profile is nowhere colder than the shed profile
    (hpos : lu.offFract ≤ sh.onFract) (habove : sh.onTrig ≤ lu.offTrig + slope * (sh.onFract * 100 - lu.offFract * 100))
    -- the second is harder
    (kgal : b.dailyGal ≤ gal') (kin : inlet' ≤ inlet) (kdef : defrost' ≤ s.cfg.defrost) :
    cap ≤ cap' ∧ st ≤ st' := by
  obtain ⟨d, hd, hc⟩ := size_parts h hcap hst
  obtain ⟨d', hd', hc'⟩ := size_parts h' hcap' hst'
  rw [dailyView_with, hd] at hd'
  simp only [Except.map, Except.ok.injEq] at hd'
  subst hd'
  obtain ⟨e1, e2⟩ := dailyView_gal hd
  have i1 : requireDesignInlet d = .ok inlet := by
    unfold Building.getDesignInlet at hin
    unfold requireDesignInlet Building.getDesignInlet; rw [e2, hin]; rfl
  have hls : lsInputs (some sched) (some m) = some (sched, m) := by
    obtain ⟨x, xs, rfl⟩ := List.exists_cons_of_ne_nil hsched
    have : dictHas m "shed" = true := by simp [dictHas, hsh]
    simp [lsInputs, truthySched, this]
  rw [hls] at hc hc'
  have c4 : 0 ≤ (cappedCfg s.cfg (some (sched, m))).maxRunHr := le_min hrun.le (Nat.cast_nonneg _)
  have hdef : 0 < s.cfg.defrost := hdef'.trans_le kdef
  obtain ⟨n1, n2⟩ := core_nonneg hc i1 hn (by rw [e1]; exact hgal) c4 hdef hsl hcold hhot htrig
  have hk1 : 1 ≤ gal' / b.dailyGal := (one_le_div hgal).2 kgal
  have hk : 0 < gal' / b.dailyGal := one_pos.trans_le hk1
  have a1 := sizeCore_scale hk (scale_base hk) (cappedCfg s.cfg (some (sched, m))) d (some (sched, m)) (some m) slope fract
  rw [hc] at a1
  simp only [Except.map] at a1
  have a2 := core_defrost (c := cappedCfg s.cfg (some (sched, m))) (f := defrost') hdef hdef' a1
  have et : ({ d with climate := cl', dailyGal := gal' } : Building ℝ) = { times (gal' / b.dailyGal) d with climate := cl' } := by
    simp only [times, e1, div_mul_cancel₀ _ hgal.ne']
  rw [et] at hc'
  have i2 : requireDesignInlet ({ times (gal' / b.dailyGal) d with climate := cl' } : Building ℝ) = .ok inlet' := by
    unfold Building.getDesignInlet at hin'
    unfold requireDesignInlet Building.getDesignInlet; rw [hin']; rfl
  obtain ⟨x1, x2⟩ := colder_core a2 hc' (inlet := inlet) i1 i2 hn hlu hsh (by simp only [times, e1, div_mul_cancel₀ _ hgal.ne']; linarith)
    c4 hdef' hsl hcold hhot htrig hluT hshT hpos habove kin
  refine ⟨le_trans ?_ x1, le_trans (le_mul_of_one_le_left n2 hk1) x2⟩
  have : 1 ≤ s.cfg.defrost / defrost' := (one_le_div hdef').2 kdef
  exact (le_mul_of_one_le_left n1 hk1).trans (le_mul_of_one_le_left (mul_nonneg hk.le n1) this)

/-- Non-vacuity: the demonstration controls, with a fifth more use, colder mains and a defrost factor of 0.9. -/
example : (size baseMethods Demo.noFiles { cfg := Demo.cfg } Demo.building (some Demo.sched) (some Demo.map) (28/10) 1).2.isOk = true ∧
    (size baseMethods Demo.noFiles { cfg := { Demo.cfg with defrost := 9/10 } }
      { Demo.building with climate := Demo.colder, dailyGal := 1200 } (some Demo.sched) (some Demo.map) (28/10) 1).2.isOk = true ∧
    Demo.loadUp.offFract ≤ Demo.shed.onFract ∧
    Demo.shed.onTrig ≤ Demo.loadUp.offTrig + 28/10 * (Demo.shed.onFract * 100 - Demo.loadUp.offFract * 100) ∧
    Demo.building.dailyGal ≤ 1200 ∧ (9/10 : ℚ) ≤ Demo.cfg.defrost := by decide +kernel

namespace Demo

/-- Controls for load shifting: the load-up starts at 110 °F in the lower part of the tank, a shed lets the tank cool to its upper part. -/
def warmMap : ControlMap ℚ :=
  [("normal", ⟨1/2, 120, 3/10, 120, 150⟩), ("loadUp", ⟨2/10, 110, 1/10, 120, 150⟩), ("shed", ⟨6/10, 115, 5/10, 120, 150⟩)]

/-- The same with the load-up starting at 120 °F and a shed that ends at 100 °F. -/
def highMap : ControlMap ℚ :=
  [("normal", ⟨1/2, 110, 3/10, 120, 145⟩), ("loadUp", ⟨2/10, 120, 2/10, 130, 145⟩), ("shed", ⟨7/10, 100, 6/10, 120, 145⟩)]

/-- The sizing of the demo building with load shifting. -/
def shiftSized (c : SysCfg ℚ) (m : ControlMap ℚ) (slope : ℚ) : (DhwSys ℚ × Building ℚ) × Py Warnings :=
  size baseMethods noFiles { cfg := c } building (some sched) (some m) slope 1

/-- The load-up OFF level is at or below the shed ON level in the tank, and the profile there is nowhere colder. -/
def aboveShed (m : ControlMap ℚ) (slope : ℚ) : Bool :=
  match dictGet? m "loadUp", dictGet? m "shed" with
  | some lu, some sh => decide (lu.offFract ≤ sh.onFract ∧ sh.onTrig ≤ lu.offTrig + slope * (sh.onFract * 100 - lu.offFract * 100))
  | _, _ => false

end Demo

/-- **C129 with load shifting fails for the other settings.** With controls that meet the condition of `C129_load_shift_partial`, a tank
with a less steep temperature gradient is sized smaller, and a higher supply temperature or a lower storage temperature leads to less
heating capacity. -/
theorem C129_load_shift_other_settings_smaller :
    (Demo.aboveShed Demo.map (28/10) = true ∧ Demo.aboveShed Demo.map 2 = true ∧
      (Demo.shiftSized Demo.cfg Demo.map (28/10)).2.isOk = true ∧ (Demo.shiftSized Demo.cfg Demo.map 2).2.isOk = true ∧
      getMinStorage (Demo.shiftSized Demo.cfg Demo.map (28/10)).1.1 = .ok (20580/103) ∧
      getMinStorage (Demo.shiftSized Demo.cfg Demo.map 2).1.1 = .ok 196 ∧ (196 : ℚ) < 20580/103) ∧
    (Demo.aboveShed Demo.warmMap 1 = true ∧
      (Demo.shiftSized ⟨115, 150, 16, 1⟩ Demo.warmMap 1).2.isOk = true ∧ (Demo.shiftSized ⟨120, 150, 16, 1⟩ Demo.warmMap 1).2.isOk = true ∧
      getMinCapacity (Demo.shiftSized ⟨115, 150, 16, 1⟩ Demo.warmMap 1).1.1 = .ok (890486831/16000000) ∧
      getMinCapacity (Demo.shiftSized ⟨120, 150, 16, 1⟩ Demo.warmMap 1).1.1 = .ok (222204031/4000000) ∧
      (222204031/4000000 : ℚ) < 890486831/16000000) ∧
    (Demo.aboveShed Demo.highMap 1 = true ∧
      (Demo.shiftSized ⟨125, 150, 16, 1⟩ Demo.highMap 1).2.isOk = true ∧ (Demo.shiftSized ⟨125, 145, 16, 1⟩ Demo.highMap 1).2.isOk = true ∧
      getMinCapacity (Demo.shiftSized ⟨125, 150, 16, 1⟩ Demo.highMap 1).1.1 = .ok (105254541/1600000) ∧
      getMinCapacity (Demo.shiftSized ⟨125, 145, 16, 1⟩ Demo.highMap 1).1.1 = .ok (2561193831/40000000) ∧
      (2561193831/40000000 : ℚ) < 105254541/1600000) := by
  decide +kernel

end Eco
