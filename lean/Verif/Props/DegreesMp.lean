import Verif.Props.DegreesSim
import Verif.Props.MultiPassSim

/-! C145, simulating a multi-pass system. -/

namespace Eco
set_option linter.unusedSectionVars false
variable {K : Type} [Field K] [LinearOrder K] [IsStrictOrderedRing K] {d : K}

open Spec

/-! ### The tank with the energy budget -/

/-- The base of a multi-pass tank with its temperatures raised. -/
def hotterBase (d : K) (t : EnergyTank K) : EnergyTank K := { t with cold := t.cold + d, storage := t.storage + d }

theorem energyAt_hotter (t : EnergyTank K) (x : K) : (hotterBase d t).energyAt x = t.energyAt x := by
  simp only [EnergyTank.energyAt, hotterBase, add_sub_add_right_eq_sub]

theorem maxEnergy_hotter (t : EnergyTank K) : (hotterBase d t).maxEnergy = t.maxEnergy := by
  simp only [EnergyTank.maxEnergy, hotterBase, add_sub_add_right_eq_sub]

theorem bisect_hotter (t : EnergyTank K) (e tol : K) : ∀ (n : ℕ) (lo hi : K),
    (hotterBase d t).bisect e tol n lo hi = t.bisect e tol n lo hi := by
  intro n
  induction n with
  | zero => intro lo hi; rfl
  | succ n ih =>
    intro lo hi
    unfold EnergyTank.bisect
    simp only [energyAt_hotter, ih]

theorem shift_hotter (t : EnergyTank K) : (hotterBase d t).shift = t.shift := by
  unfold EnergyTank.shift
  simp only [maxEnergy_hotter, bisect_hotter]
  simp only [hotterBase, add_sub_add_right_eq_sub]

/-- The cold, the sloped and the hot part of a zone make up all of it. -/
theorem zone_whole {lo hi xc xh : K} (h0 : 0 ≤ lo) (h1 : lo < hi) (h2 : hi ≤ 100) (hc : 0 ≤ xc) (hch : xc ≤ xh) (hh : xh ≤ 100) :
    max 0 (min hi xc - max lo 0) + (if max lo xc < min hi xh then min hi xh - max lo xc else 0) + max 0 (min hi 100 - max lo xh) =
      hi - lo := by
  rw [max_eq_left h0, min_eq_left h2]
  have e : (if max lo xc < min hi xh then min hi xh - max lo xc else 0) = max 0 (min hi xh - max lo xc) := by
    generalize max lo xc = a
    generalize min hi xh = b
    split
    · rw [max_eq_right (by linarith)]
    · rw [max_eq_left (by linarith)]
  rw [e]
  rcases le_total lo xc with a | a <;> rcases le_total lo xh with b | b <;> rcases le_total hi xc with c | c <;>
    rcases le_total hi xh with f | f <;>
    simp only [max_eq_left, max_eq_right, min_eq_left, min_eq_right, a, b, c, f] <;>
    (repeat first
      | rw [max_eq_right (by linarith)]
      | rw [max_eq_left (by linarith)]) <;> linarith

theorem zoneAvg_hotter (t : EnergyTank K) (hs : 0 < t.slope) {lo hi : K} (h0 : 0 ≤ lo) (h1 : hi ≤ 100) :
    (hotterBase d t).zoneAvg lo hi = t.zoneAvg lo hi + d := by
  unfold EnergyTank.zoneAvg
  rw [shift_hotter]
  simp only [hotterBase, add_sub_add_right_eq_sub]
  by_cases h : hi ≤ lo
  · rw [if_pos h, if_pos h]
  rw [if_neg h, if_neg h]
  have hlt := not_le.1 h
  have hr : 0 ≤ if 0 < t.storage - t.cold then (t.storage - t.cold) / t.slope else 0 := by
    split
    · positivity
    · exact le_rfl
  generalize (if 0 < t.storage - t.cold then (t.storage - t.cold) / t.slope else 0) = ramp at *
  have hw := zone_whole (xc := max 0 (min 100 (-t.shift))) (xh := max 0 (min 100 (ramp - t.shift))) h0 hlt h1 (le_max_left _ _)
    (max_le_max_left _ (min_le_min_left _ (by linarith))) (max_le (by norm_num) (min_le_left _ _))
  have hne : hi - lo ≠ 0 := ne_of_gt (by linarith)
  revert hw
  generalize max 0 (min 100 (-t.shift)) = xc
  generalize max 0 (min 100 (ramp - t.shift)) = xh
  generalize max 0 (min hi xc - max lo 0) = p1
  generalize max 0 (min hi 100 - max lo xh) = p3
  intro hw
  rw [div_add' _ _ _ hne]
  congr 1
  split at hw <;> rename_i hab
  · rw [if_pos hab, if_pos hab]
    linear_combination d * hw
  · rw [if_neg hab, if_neg hab]
    linear_combination d * hw

theorem baseAvgDraw_hotter (t : EnergyTank K) (hs : 0 < t.slope) (g : K) : (hotterBase d t).avgDraw g = t.avgDraw g + d := by
  unfold EnergyTank.avgDraw
  dsimp only
  by_cases h : min g t.vol ≤ 0
  · rw [if_pos h, if_pos (show min g (hotterBase d t).vol ≤ 0 from h)]; rfl
  · rw [if_neg h, if_neg (show ¬ min g (hotterBase d t).vol ≤ 0 from h)]
    exact zoneAvg_hotter t hs (le_max_left _ _) le_rfl

theorem baseDraw_hotter (t : EnergyTank K) (hs : 0 < t.slope) (g inlet : K) :
    (hotterBase d t).drawPhysical g (inlet + d) false = hotterBase d (t.drawPhysical g inlet false) := by
  unfold EnergyTank.drawPhysical
  simp only [Bool.false_eq_true, if_false]
  split
  · rfl
  · rw [baseAvgDraw_hotter t hs, add_sub_add_right_eq_sub]
    rfl

theorem baseTempAt_hotter (t : EnergyTank K) (f : K) : (hotterBase d t).tempAt f = t.tempAt f + d := by
  unfold EnergyTank.tempAt
  rw [shift_hotter]
  dsimp only
  by_cases h : f * 100 < t.coldPct
  · rw [if_pos h, if_pos (show f * 100 < (hotterBase d t).coldPct from h)]; rfl
  · rw [if_neg h, if_neg (show ¬ f * 100 < (hotterBase d t).coldPct from h), ← max_add_add_right, ← min_add_add_right]
    simp only [hotterBase, add_assoc]

theorem baseUsable_hotter (t : EnergyTank K) (s : K) : (hotterBase d t).usable (s + d) = t.usable s := by
  unfold EnergyTank.usable
  rw [shift_hotter]
  simp only [hotterBase, add_sub_add_right_eq_sub]

/-! ### The tank with the slug -/

theorem slugInit_hotter (t : SlugTank K) (st cold pu : K) :
    (hotterSlugTank d t).init (st + d) (cold + d) pu = hotterSlugTank d (t.init st cold pu) := by
  unfold SlugTank.init
  have e := energyAt_hotter (d := d) { t.base with cold := cold, storage := st }
  have m := maxEnergy_hotter (d := d) { t.base with cold := cold, storage := st }
  simp only [hotterBase] at e m
  simp only [hotterSlugTank, add_sub_add_right_eq_sub, e, m]
  split <;> rfl

theorem activate_hotter (t : SlugTank K) (hok : t.Ok) (hs : 0 < t.base.slope) (su : K) :
    (hotterSlugTank d t).activate (su + d) = hotterSlugTank d (t.activate su) := by
  unfold SlugTank.activate
  by_cases ha : t.active = true
  · rw [if_pos ha, if_pos (show (hotterSlugTank d t).active = true from ha)]
  rw [if_neg ha, if_neg (show ¬ (hotterSlugTank d t).active = true from ha)]
  have hb : (hotterSlugTank d t).base = hotterBase d t.base := rfl
  have hc0 : 0 ≤ t.base.coldPct := by rw [hok.coldPctOk]; linarith [hok.puOk']
  have hc1 : t.base.coldPct ≤ 100 := by rw [hok.coldPctOk]; linarith [hok.puOk]
  have e1 : su + d - (hotterBase d t.base).cold = su - t.base.cold := by simp [hotterBase]
  rw [hb, shift_hotter, e1, show (hotterBase d t.base).slope = t.base.slope from rfl,
    show (hotterBase d t.base).coldPct = t.base.coldPct from rfl, show (hotterBase d t.base).vol = t.base.vol from rfl]
  generalize (su - t.base.cold) / t.base.slope - t.base.shift = x
  have hz := zoneAvg_hotter (d := d) t.base hs hc0 (max_le hc1 (min_le_left 100 x))
  simp only [hotterSlugTank, SlugTank.mk.injEq, true_and, and_true]
  refine ⟨rfl, ?_, rfl⟩
  rw [hz]
  split
  · rfl
  · rfl

theorem deactivate_hotter (t : SlugTank K) (hok : t.Ok) (hs : 0 < t.base.slope) :
    (hotterSlugTank d t).deactivate = hotterSlugTank d t.deactivate := by
  unfold SlugTank.deactivate
  by_cases ha : t.active = true
  swap
  · have ha' : (!t.active) = true := by simpa using ha
    rw [if_pos (show (!(hotterSlugTank d t).active) = true from ha'), if_pos ha']
  have ha' : ¬ (!t.active) = true := by simpa using ha
  rw [if_neg (show ¬ (!(hotterSlugTank d t).active) = true from ha'), if_neg ha']
  obtain ⟨g1, g2, -, g4⟩ := hok.slugOk ha
  have hv := hok.volOk
  have hc0 : 0 ≤ t.base.coldPct := by rw [hok.coldPctOk]; linarith [hok.puOk']
  have hlo : 0 ≤ 100 - (t.slugVol - t.orig) / t.base.vol * 100 - (100 - t.slugTop) := by
    rw [g4]
    have : t.orig / t.base.vol * 100 = t.slugVol / t.base.vol * 100 - (t.slugVol - t.orig) / t.base.vol * 100 := by ring
    have h2 : 0 ≤ t.orig / t.base.vol * 100 := by positivity
    linarith
  have hhi : 100 - (t.slugVol - t.orig) / t.base.vol * 100 ≤ 100 := by
    have : 0 ≤ (t.slugVol - t.orig) / t.base.vol * 100 :=
      mul_nonneg (div_nonneg (by linarith) hv.le) (by norm_num)
    linarith
  have hz := zoneAvg_hotter (d := d) t.base hs hlo hhi
  simp only [hotterBase] at hz
  simp only [hotterSlugTank, add_sub_add_right_eq_sub, hz]

theorem lifecycle_hotter (t : SlugTank K) (hok : t.Ok) (hs : 0 < t.base.slope) (su : K) (was now : Bool) :
    mpLifecycle (hotterSlugTank d t) (su + d) was now = hotterSlugTank d (mpLifecycle t su was now) := by
  unfold mpLifecycle
  split
  · exact activate_hotter t hok hs su
  · split
    · exact deactivate_hotter t hok hs
    · rfl

theorem slugTempAt_hotter (t : SlugTank K) (f : K) : (hotterSlugTank d t).tempAt f = t.tempAt f + d := by
  unfold SlugTank.tempAt
  have hb : (hotterSlugTank d t).base = hotterBase d t.base := rfl
  simp only [hb, baseTempAt_hotter]
  by_cases h1 : (!t.active) = true
  · rw [if_pos h1, if_pos (show (!(hotterSlugTank d t).active) = true from h1)]
  rw [if_neg h1, if_neg (show ¬ (!(hotterSlugTank d t).active) = true from h1)]
  by_cases h2 : f * 100 < t.base.coldPct
  · rw [if_pos h2, if_pos (show f * 100 < (hotterBase d t.base).coldPct from h2)]; rfl
  rw [if_neg h2, if_neg (show ¬ f * 100 < (hotterBase d t.base).coldPct from h2)]
  by_cases h3 : f * 100 ≤ t.slugTop
  · rw [if_pos h3, if_pos (show f * 100 ≤ (hotterSlugTank d t).slugTop from h3), ← max_add_add_right, ← min_add_add_right]
    rfl
  · rw [if_neg h3, if_neg (show ¬ f * 100 ≤ (hotterSlugTank d t).slugTop from h3)]
    rfl

theorem slugUsable_hotter (t : SlugTank K) (su : K) : (hotterSlugTank d t).usable (su + d) = t.usable su := by
  unfold SlugTank.usable
  have hb : (hotterSlugTank d t).base = hotterBase d t.base := rfl
  simp only [hb, baseUsable_hotter]
  simp only [hotterSlugTank, hotterBase, add_le_add_iff_right]

theorem heatSlug_hotter (t : SlugTank K) (q dur : K) : (hotterSlugTank d t).heatSlug q dur = hotterSlugTank d (t.heatSlug q dur) := by
  unfold SlugTank.heatSlug
  by_cases h : (!t.active) = true ∨ t.slugVol ≤ 0 ∨ q ≤ 0
  · rw [if_pos h, if_pos (show (!(hotterSlugTank d t).active) = true ∨ (hotterSlugTank d t).slugVol ≤ 0 ∨ q ≤ 0 from h)]
  · rw [if_neg h, if_neg (show ¬ ((!(hotterSlugTank d t).active) = true ∨ (hotterSlugTank d t).slugVol ≤ 0 ∨ q ≤ 0) from h)]
    simp only [hotterSlugTank, SlugTank.mk.injEq, true_and, and_true]
    ring

theorem addToSlug_hotter (t : SlugTank K) (g inlet : K) :
    (hotterSlugTank d t).addToSlug g (inlet + d) = hotterSlugTank d (t.addToSlug g inlet) := by
  unfold SlugTank.addToSlug
  by_cases h1 : (!t.active) = true ∨ g ≤ 0
  · rw [if_pos h1, if_pos (show (!(hotterSlugTank d t).active) = true ∨ g ≤ 0 from h1)]
  rw [if_neg h1, if_neg (show ¬ ((!(hotterSlugTank d t).active) = true ∨ g ≤ 0) from h1)]
  by_cases h2 : t.slugVol ≤ 0
  · rw [if_pos h2, if_pos (show (hotterSlugTank d t).slugVol ≤ 0 from h2)]
    rfl
  rw [if_neg h2, if_neg (show ¬ (hotterSlugTank d t).slugVol ≤ 0 from h2)]
  have hne : t.slugVol + g ≠ 0 := by
    rw [not_or, not_le] at h1
    exact ne_of_gt (add_pos (not_le.1 h2) h1.2)
  simp only [hotterSlugTank, SlugTank.mk.injEq, true_and, and_true]
  refine ⟨?_, rfl⟩
  field_simp
  ring

theorem slugDraw_hotter (t : SlugTank K) (hs : 0 < t.base.slope) (g inlet : K) :
    (hotterSlugTank d t).drawPhysical g (inlet + d) false = hotterSlugTank d (t.drawPhysical g inlet false) := by
  unfold SlugTank.drawPhysical
  by_cases h1 : (!t.active) = true
  · rw [if_pos h1, if_pos (show (!(hotterSlugTank d t).active) = true from h1)]
    have := baseDraw_hotter (d := d) t.base hs g inlet
    simp only [hotterSlugTank]
    simp only [hotterBase] at this
    rw [this]
  rw [if_neg h1, if_neg (show ¬ (!(hotterSlugTank d t).active) = true from h1)]
  dsimp only
  by_cases h2 : max 0 (t.maxUsable - t.slugVol) < g
  · rw [if_pos h2, if_pos (show max 0 ((hotterSlugTank d t).maxUsable - (hotterSlugTank d t).slugVol) < g from h2)]
    have := addToSlug_hotter (d := d) { t with slugVol := t.slugVol - (g - max 0 (t.maxUsable - t.slugVol)) } g inlet
    rw [show ({ hotterSlugTank d t with
      slugVol := (hotterSlugTank d t).slugVol - (g - max 0 ((hotterSlugTank d t).maxUsable - (hotterSlugTank d t).slugVol)) } : SlugTank K) =
      hotterSlugTank d { t with slugVol := t.slugVol - (g - max 0 (t.maxUsable - t.slugVol)) } from rfl, this]
    rfl
  · rw [if_neg h2, if_neg (show ¬ max 0 ((hotterSlugTank d t).maxUsable - (hotterSlugTank d t).slugVol) < g from h2)]
    exact addToSlug_hotter t g inlet

theorem apply_hotter (t : SlugTank K) (hs : 0 < t.base.slope) (now : Bool) (q dur g inlet : K) :
    mpApply (hotterSlugTank d t) now q dur g (inlet + d) = hotterSlugTank d (mpApply t now q dur g inlet) := by
  unfold mpApply
  have e : (if now && (hotterSlugTank d t).active && decide (0 < (hotterSlugTank d t).slugVol) then (hotterSlugTank d t).heatSlug q dur
      else hotterSlugTank d t) = hotterSlugTank d (if now && t.active && decide (0 < t.slugVol) then t.heatSlug q dur else t) := by
    rw [heatSlug_hotter]
    by_cases h : (now && t.active && decide (0 < t.slugVol)) = true
    · rw [if_pos h, if_pos (show (now && (hotterSlugTank d t).active && decide (0 < (hotterSlugTank d t).slugVol)) = true from h)]
    · rw [if_neg h, if_neg (show ¬ (now && (hotterSlugTank d t).active && decide (0 < (hotterSlugTank d t).slugVol)) = true from h)]
  have hs' : 0 < (if now && t.active && decide (0 < t.slugVol) then t.heatSlug q dur else t).base.slope := by
    split
    · unfold SlugTank.heatSlug; split <;> exact hs
    · exact hs
  simp only [e]
  split
  · exact slugDraw_hotter _ hs' g inlet
  · rfl

/-! ### A run -/

/-- The report of a step with the top of the tank, reported as the outdoor temperature, raised as well. -/
def hotterMpOut (d : K) (o : StepOut K) : StepOut K := { hotterOut d o with oat := o.oat + d }

theorem mpOutput_hotter {ws ws' : List (Heater K)} (h : List.Forall₂ (HotterHeater d) ws ws') (oat : K) (hour : ℕ) :
    mpOutput ws' oat hour = mpOutput ws oat hour := by
  have h1 := totalOutput_hotter h oat hour none
  have h2 := activeKws_hotter h oat hour none
  simp only [Option.map_none] at h1 h2
  unfold mpOutput
  rw [h1, h2]

theorem forall₂_anyActive {ws ws' : List (Heater K)} (h : List.Forall₂ (HotterHeater d) ws ws') :
    ws'.any (·.active) = ws.any (·.active) := by
  induction h with
  | nil => rfl
  | cons h1 _ ih => simp only [List.any_cons, h1.active, ih]

/-- What a run keeps. -/
structure MpKept (d : K) (s s' : MpSim K) : Prop where
  rel : HotterMpSim d s s'
  ok : s.tank.Ok
  slope : 0 < s.tank.base.slope

theorem mpStep_hotter (b : Building K) (int : ℕ) (s s' : MpSim K) (t : ℕ) (h : MpKept d s s') :
    PyRel (fun x y => MpKept d x.1 y.1 ∧ y.2 = hotterMpOut d x.2) (mpStep b int s t) (mpStep (hotterBuilding d b) int s' t) := by
  obtain ⟨h, hok, hs⟩ := h
  unfold mpStep
  rw [show (hotterBuilding d b).getDhwLoad t int = b.getDhwLoad t int from rfl, getOat_hotter, getInlet_hotter,
    h.tank, h.supply, h.loop]
  refine pyRel_bind (pyRel_refl _) ?_
  rintro _ demand rfl
  refine pyRel_bind (pyRel_refl _) ?_
  rintro _ oat rfl
  refine pyRel_bind (pyRel_map _ _) ?_
  rintro inlet _ rfl
  dsimp only
  rw [modeAt_hotter h.heaters]
  refine pyRel_bind (pyRel_refl _) ?_
  rintro _ mode rfl
  by_cases hz : s.tank.base.vol = 0 ∨ s.tank.base.slope = 0
  · rw [if_pos hz, if_pos (show (hotterSlugTank d s.tank).base.vol = 0 ∨ (hotterSlugTank d s.tank).base.slope = 0 from hz)]
    rfl
  rw [if_neg hz, if_neg (show ¬ ((hotterSlugTank d s.tank).base.vol = 0 ∨ (hotterSlugTank d s.tank).base.slope = 0) from hz)]
  have e1 : ({ hotterSlugTank d s.tank with base := { (hotterSlugTank d s.tank).base with cold := inlet + d } } : SlugTank K) =
    hotterSlugTank d { s.tank with base := { s.tank.base with cold := inlet } } := rfl
  simp only [e1]
  have hok1 : ({ s.tank with base := { s.tank.base with cold := inlet } } : SlugTank K).Ok :=
    ⟨hok.volOk, hok.puOk, hok.puOk', hok.coldPctOk, hok.maxOk, hok.slugOk⟩
  have hs1 : 0 < ({ s.tank with base := { s.tank.base with cold := inlet } } : SlugTank K).base.slope := hs
  generalize ({ s.tank with base := { s.tank.base with cold := inlet } } : SlugTank K) = tank at *
  refine pyRel_bind (updateAll_hotter h.heaters (fun x => by rw [slugTempAt_hotter]; rfl) _) ?_
  intro ws ws' hw
  simp only [forall₂_anyActive hw, forall₂_anyActive h.heaters, lifecycle_hotter tank hok1 hs1, mpOutput_hotter hw]
  have hsame := lifecycle_same hok1 s.supply (s.heaters.any (·.active)) (ws.any (·.active))
  have hok2 := hsame.1
  have hs2 : 0 < (mpLifecycle tank s.supply (s.heaters.any (·.active)) (ws.any (·.active))).base.slope := by
    rw [hsame.2.2.2.2.2]; exact hs1
  generalize mpLifecycle tank s.supply (s.heaters.any (·.active)) (ws.any (·.active)) = tank2 at *
  refine pyRel_bind (pyRel_refl _) ?_
  rintro _ ⟨q, kw⟩ rfl
  rw [slugTempAt_hotter, show (hotterLoop d s.loop).flow = s.loop.flow from rfl, show (hotterLoop d s.loop).ret = s.loop.ret + d from rfl,
    valve_hotter]
  refine pyRel_bind (pyRel_map _ _) ?_
  rintro ⟨g, mv⟩ _ rfl
  dsimp only
  rw [apply_hotter tank2 hs2]
  have hsame3 := apply_same hok2 (ws.any (·.active)) q (int : K) g mv
  refine ⟨⟨⟨rfl, h.storage, rfl, hw, rfl⟩, hsame3.1, by dsimp only; rw [hsame3.2.2.2.2.2]; exact hs2⟩, ?_⟩
  simp only [hotterMpOut, hotterOut, slugUsable_hotter, slugTempAt_hotter, List.map_map, Option.map_some, Option.map_none]
  simp only [StepOut.mk.injEq, true_and, and_true]
  refine ⟨List.map_congr_left (fun f _ => slugTempAt_hotter _ f), ?_⟩
  split <;> rfl

/-- A run with the recorded outdoor temperatures raised. -/
def oatRun (d : K) (r : SimRun K) : SimRun K := { r with oat := r.oat.map (· + d) }

theorem simRecord_oat (ts : ℕ) (supply : K) (r : SimRun K) (o : StepOut K) :
    simRecord ts supply (oatRun d r) { o with oat := o.oat + d } = (simRecord ts supply r o).map (fun p => (oatRun d p.1, p.2)) := by
  apply pyRel_eq
  unfold simRecord SimRun.record
  simp only [show (oatRun d r).temps = r.temps from rfl]
  cases SimRun.pushTemps r.temps o.temps with
  | error e => rfl
  | ok x =>
    simp only [ok_bind, pure_eq_ok]
    cases o.temps.getLast? with
    | none => rfl
    | some top =>
      simp only [PyRel]
      unfold SimRun.checkDeficit SimRun.recordOutage oatRun
      by_cases h : o.usable ≤ 0
      · simp only [if_pos h]
        split
        · split <;> simp
        · simp
      · simp only [if_neg h]
        split
        · split <;> simp
        · simp

theorem mpRecord_hotter (ts : ℕ) (supply : K) (r : SimRun K) (o : StepOut K) :
    simRecord ts (supply + d) (hotterMpRun d r) (hotterMpOut d o) = (simRecord ts supply r o).map (fun p => (hotterMpRun d p.1, p.2)) := by
  have h := simRecord_oat (d := d) ts (supply + d) (hotterRun d r) (hotterOut d o)
  rw [simRecord_hotter] at h
  rw [show hotterMpRun d r = oatRun d (hotterRun d r) from rfl, show hotterMpOut d o = { hotterOut d o with oat := (hotterOut d o).oat + d } from rfl, h]
  cases simRecord ts supply r o <;> rfl

theorem mpLoop_hotter {step step' : MpSim K → ℕ → Py (MpSim K × StepOut K)}
    (hstep : ∀ s s' i, MpKept d s s' → PyRel (fun x y => MpKept d x.1 y.1 ∧ y.2 = hotterMpOut d x.2) (step s i) (step' s' i))
    (ts : ℕ) (supply : K) (n : ℕ) : ∀ (i : ℕ) (s s' : MpSim K) (r : SimRun K), MpKept d s s' →
      PyRel (fun x y => MpKept d x.1 y.1 ∧ y.2 = hotterMpRun d x.2) (simLoop step ts supply n i s r)
        (simLoop step' ts (supply + d) n i s' (hotterMpRun d r)) := by
  induction n with
  | zero => intro i s s' r h; exact ⟨h, rfl⟩
  | succ n ih =>
    intro i s s' r h
    unfold simLoop
    refine pyRel_bind (hstep s s' i h) ?_
    rintro ⟨a, o⟩ ⟨a', o'⟩ ⟨h1, h2⟩
    simp only at h1 h2
    subst h2
    dsimp only
    rw [mpRecord_hotter]
    refine pyRel_bind (pyRel_map _ _) ?_
    rintro ⟨r1, stop⟩ _ rfl
    cases stop with
    | true => exact ⟨h1, rfl⟩
    | false => exact ih (i + 1) a a' r1 h1

theorem mpNew_hotter {dur ts : ℕ} {thr : K} {maxMin : Int} {r : SimRun K} (e : SimRun.new dur ts thr maxMin = .ok r) (supply : K)
    (tm : Bool) : hotterMpRun d { r with supply := some supply, showTm := tm } = { r with supply := some (supply + d), showTm := tm } := by
  unfold SimRun.new at e
  split at e
  · exact absurd e (by simp)
  · injection e with e; subst e
    simp [hotterMpRun, hotterRun]

/-- **C145, simulating a multi-pass system.** -/
theorem C145_multi_pass_simulation_partial {s s' : MpSim K} {b : Building K} (h : HotterMpSim d s s') (hok : s.tank.Ok)
    (hs : 0 < s.tank.base.slope) {x : K} (hb : b.getDesignInlet = .ok (some x)) (h0 : x ≠ 0) (h1 : x + d ≠ 0) (thr : K)
    (maxMin : Int) (du : String) :
    (mpSimulate s' (hotterBuilding d b) thr maxMin du).map (·.2) = (mpSimulate s b thr maxMin du).map (fun y => hotterMpRun d y.2) := by
  apply pyRel_run (R := MpKept d)
  unfold mpSimulate
  refine pyRel_bind (pyRel_refl _) (fun _ _ _ => ?_)
  obtain ⟨q1, q2⟩ := designInletOr_hotter hb h0 h1
  rw [q1, q2]
  simp only [ok_bind]
  rw [h.supply, h.storage, h.tank, initialUseable_hotter h.heaters, slugInit_hotter]
  have hk : MpKept d { s with tank := s.tank.init s.storage x (initialUseable s.heaters) }
      { s' with tank := hotterSlugTank d (s.tank.init s.storage x (initialUseable s.heaters)) } := by
    refine ⟨⟨h.supply, h.storage, h.loop, h.heaters, rfl⟩, (slug_op_ok s.tank hok (.init s.storage x (initialUseable s.heaters))).1, ?_⟩
    dsimp only
    unfold SlugTank.init
    dsimp only
    split <;> exact hs
  rw [h.supply, h.storage] at hk
  revert hk
  generalize s.tank.init s.storage x (initialUseable s.heaters) = tank
  intro hk
  unfold simulateFrom
  refine pyRel_bind (pyRel_refl _) ?_
  rintro ⟨dur, ts⟩ _ rfl
  dsimp only
  cases e : (SimRun.new dur ts thr maxMin : Py (SimRun K)) with
  | error e => rfl
  | ok r =>
    simp only [ok_bind]
    conv => arg 3; rw [← mpNew_hotter e]
    exact mpLoop_hotter (mpStep_hotter b ts) ts s.supply _ 0 _ _ _ hk

set_option maxRecDepth 100000 in
/-- Non-vacuity of C145 for multi-pass systems: all temperatures 10 degrees higher. -/
example : ∃ s' : MpSim ℚ, HotterMpSim 10 (Demo.mpSim Demo.midSensor) s' ∧ s'.supply = 130 ∧
    (mpSimulate s' (hotterBuilding 10 Demo.building) (-1000) 0 "3day").map (·.2) =
      (mpSimulate (Demo.mpSim Demo.midSensor) Demo.building (-1000) 0 "3day").map (fun y => hotterMpRun 10 y.2) ∧
    (mpSimulate (Demo.mpSim Demo.midSensor) Demo.building (-1000) 0 "3day").isOk = true := by
  have h : HotterMpSim 10 (Demo.mpSim Demo.midSensor) ⟨130, 160, ⟨120, 1⟩,
      [Heater.fromNominal 1000 (some Demo.allNormal) (some (hotterMap 10 Demo.midSensor))],
      hotterSlugTank 10 (SlugTank.new 100 50 150 120 (8 / 10) 2)⟩ :=
    ⟨by norm_num [Demo.mpSim], by norm_num [Demo.mpSim], by simp only [hotterLoop, Demo.mpSim]; norm_num,
      .cons (nominal_hotter _ _ _) .nil, rfl⟩
  exact ⟨_, h, rfl, C145_multi_pass_simulation_partial h (Demo.mpSim_ok _) (by norm_num [Demo.mpSim, SlugTank.new, EnergyTank.new])
    (x := 50) rfl (by norm_num) (by norm_num) (-1000) 0 "3day", by decide +kernel⟩

end Eco
