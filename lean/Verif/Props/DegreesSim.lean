import Verif.Props.Degrees
import Verif.Props.ScaleSim
set_option linter.unusedSectionVars false

/-! C145: simulations of a plant whose water temperatures are all raised. -/

namespace Eco
open Spec
variable {K : Type} [Field K] [LinearOrder K] [IsStrictOrderedRing K]
variable {d : K}

/-! ### The tank -/

theorem tempAt_hotter (t : StratTank K) (f : K) : (hotterTank d t).tempAt f = t.tempAt f + d := by
  unfold StratTank.tempAt
  rw [show (hotterTank d t).shift = t.shift from rfl]
  simp only [hotterTank]
  rw [← add_assoc, min_add_add_right, max_add_add_right]

theorem tempAtPy_hotter (t : StratTank K) (f : K) : (hotterTank d t).tempAtPy f = (t.tempAtPy f).map (· + d) := by
  unfold StratTank.tempAtPy
  rw [tempAt_hotter]
  by_cases h : t.vol = 0
  · rw [if_pos h, if_pos (show (hotterTank d t).vol = 0 from h)]; rfl
  · rw [if_neg h, if_neg (show ¬ (hotterTank d t).vol = 0 from h)]; rfl

theorem usable_hotter (t : StratTank K) (su : K) : (hotterTank d t).usable (su + d) = t.usable su := by
  unfold StratTank.usable
  rw [show (hotterTank d t).shift = t.shift from rfl]
  simp only [hotterTank, add_sub_add_right_eq_sub]

theorem floor_hotter (t : StratTank K) (m : Option K) : (hotterTank d t).deltaFloor (m.map (· + d)) = t.deltaFloor m := by
  unfold StratTank.deltaFloor
  cases m <;> simp only [hotterTank, Option.map_none, Option.map_some, Option.getD_none, Option.getD_some, add_sub_add_right_eq_sub]

theorem init_hotter (t : StratTank K) (st cold pu : K) :
    (hotterTank d t).init (st + d) (cold + d) pu = hotterTank d (t.init st cold pu) := by
  unfold StratTank.init hotterTank
  simp only [StratTank.mk.injEq, true_and, and_true]
  ring

/-- The cold, the sloped and the hot part of what is drawn make up all of it. -/
theorem parts_whole {xd xc xh : K} (h0 : 0 ≤ xd) (hd : xd ≤ 100) (hc : 0 ≤ xc) (hch : xc ≤ xh) (hh : xh ≤ 100) :
    max 0 (min 100 xc - max xd 0) + (if max xd xc < min 100 xh then min 100 xh - max xd xc else 0) + max 0 (100 - max xd xh) =
      100 - xd := by
  rw [min_eq_right (hch.trans hh), max_eq_left h0, min_eq_right hh]
  rcases le_total xd xc with h1 | h1
  · rw [max_eq_right h1, max_eq_right (by linarith : 0 ≤ xc - xd), max_eq_right (h1.trans hch), max_eq_right (by linarith)]
    split
    · ring
    · have : xc = xh := le_antisymm hch (by linarith)
      rw [this]; ring
  · rw [max_eq_left h1, max_eq_left (by linarith : xc - xd ≤ 0)]
    rcases le_total xd xh with h2 | h2
    · rw [max_eq_right h2, max_eq_right (by linarith)]
      split
      · ring
      · have : xd = xh := le_antisymm h2 (by linarith)
        rw [this]; ring
    · rw [max_eq_left h2, max_eq_right (by linarith), if_neg (by linarith)]
      ring

theorem avgDraw_hotter (t : StratTank K) (hs : 0 < t.slope) (hio : t.inlet ≤ t.outlet) (g : K) :
    (hotterTank d t).avgDraw g = t.avgDraw g + d := by
  unfold StratTank.avgDraw
  rw [show (hotterTank d t).shift = t.shift from rfl]
  simp only [hotterTank, add_sub_add_right_eq_sub]
  by_cases h : min g t.vol ≤ 0
  · rw [if_pos h, if_pos h]
  rw [if_neg h, if_neg h]
  have hxd0 : 0 ≤ max 0 (100 - min g t.vol / t.vol * 100) := le_max_left _ _
  have hpos : 0 < min g t.vol := not_le.1 h
  have hv : 0 < t.vol := hpos.trans_le (min_le_right _ _)
  have hxd1 : max 0 (100 - min g t.vol / t.vol * 100) < 100 := by
    have : 0 < min g t.vol / t.vol * 100 := by positivity
    exact max_lt (by norm_num) (by linarith)
  have hc0 : 0 ≤ max 0 (min 100 ((t.inlet - t.inter) / t.slope - t.shift)) := le_max_left _ _
  have hch : max 0 (min 100 ((t.inlet - t.inter) / t.slope - t.shift)) ≤ max 0 (min 100 ((t.outlet - t.inter) / t.slope - t.shift)) := by
    have := div_le_div_of_nonneg_right (show t.inlet - t.inter ≤ t.outlet - t.inter by linarith) hs.le
    exact max_le_max le_rfl (min_le_min le_rfl (by linarith))
  have hh : max 0 (min 100 ((t.outlet - t.inter) / t.slope - t.shift)) ≤ 100 := max_le (by norm_num) (min_le_left _ _)
  revert hxd0 hxd1 hc0 hch hh
  generalize max 0 (100 - min g t.vol / t.vol * 100) = xd
  generalize max 0 (min 100 ((t.inlet - t.inter) / t.slope - t.shift)) = xc
  generalize max 0 (min 100 ((t.outlet - t.inter) / t.slope - t.shift)) = xh
  intro hxd0 hxd1 hc0 hch hh
  have hw : ¬ 100 - xd ≤ 0 := by linarith
  rw [if_neg hw, if_neg hw]
  have key := parts_whole hxd0 hxd1.le hc0 hch hh
  have hne : 100 - xd ≠ 0 := by linarith [lt_of_not_ge hw] |> ne_of_gt
  rw [div_add' _ _ _ hne]
  congr 1
  rw [← key]
  split <;> ring

theorem yieldAt_hotter (t : StratTank K) (hs : 0 < t.slope) (hio : t.inlet ≤ t.outlet) (cold su mid : K) :
    (hotterTank d t).yieldAt (cold + d) (su + d) mid = t.yieldAt cold su mid := by
  unfold StratTank.yieldAt
  simp only [avgDraw_hotter t hs hio, add_sub_add_right_eq_sub]
  by_cases h : cold < t.avgDraw mid
  · rw [if_pos h, if_pos (by linarith)]
  · rw [if_neg h, if_neg (by linarith)]

theorem search_hotter (t : StratTank K) (hs : 0 < t.slope) (hio : t.inlet ≤ t.outlet) (vol cold su : K) (n : ℕ) (lo hi : K) :
    (hotterTank d t).search vol (cold + d) (su + d) n lo hi = t.search vol cold su n lo hi := by
  induction n generalizing lo hi with
  | zero => rfl
  | succ n ih => simp only [StratTank.search, yieldAt_hotter t hs hio, ih]

theorem drawVol_hotter (t : StratTank K) (hs : 0 < t.slope) (hio : t.inlet ≤ t.outlet) (vol cold su out : K) :
    (hotterTank d t).drawVol vol (cold + d) (su + d) (out + d) = t.drawVol vol cold su out := by
  unfold StratTank.drawVol
  simp only [add_sub_add_right_eq_sub, avgDraw_hotter t hs hio, search_hotter t hs hio]
  by_cases h : out - 1 / 1000000 ≤ t.avgDraw (vol * (su - cold) / (out - cold))
  · rw [if_pos h, if_pos (by linarith)]
  · rw [if_neg h, if_neg (by linarith)]
    rfl

theorem draw_hotter (t : StratTank K) (hs : 0 < t.slope) (vol cold su out : K) :
    (hotterTank d t).draw vol (cold + d) (su + d) (out + d) = hotterTank d (t.draw vol cold su out) := by
  unfold StratTank.draw
  dsimp only
  by_cases h : out ≤ cold ∨ vol ≤ 0
  · rw [if_pos h, if_pos (h.imp (fun h => by linarith) id)]
    rfl
  · rw [if_neg h, if_neg (fun q => h (q.imp (fun h => by linarith) id))]
    push Not at h
    have h1 := drawVol_hotter (d := d) ({ t with inlet := cold, outlet := out } : StratTank K) hs h.1.le vol cold su out
    have h2 := floor_hotter (d := d) ({ t with inlet := cold, outlet := out } : StratTank K) (some su)
    simp only [hotterTank, Option.map_some] at h1 h2 ⊢
    rw [h1, h2]

theorem heat_hotter (t : StratTank K) (q dur out : K) :
    (hotterTank d t).heat q dur (out + d) = hotterTank d (t.heat q dur out) := by
  unfold StratTank.heat
  dsimp only
  by_cases h : q ≤ 0 ∨ out ≤ t.inlet
  · rw [if_pos h, if_pos (h.imp id (fun h => by simp only [hotterTank]; linarith))]
    rfl
  · rw [if_neg h, if_neg (fun x => h (x.imp id (fun h => by simp only [hotterTank] at h; linarith)))]
    simp only [hotterTank, add_sub_add_right_eq_sub]

theorem recirc_hotter (t : StratTank K) (flow ret dur su : K) :
    (hotterTank d t).recirc flow (ret + d) dur (some (su + d)) = hotterTank d (t.recirc flow ret dur (some su)) := by
  unfold StratTank.recirc
  dsimp only
  by_cases h : t.outlet ≤ t.inlet
  · rw [if_pos h, if_pos (by simp only [hotterTank]; linarith)]
  · rw [if_neg h, if_neg (by simp only [hotterTank]; linarith)]
    simp only [hotterTank, Option.getD_some, add_sub_add_right_eq_sub]

/-! ### Heaters -/

theorem Spec.HotterHeater.withActive {w w' : Heater K} (h : HotterHeater d w w') (a : Bool) :
    HotterHeater d { w with active := a } { w' with active := a } :=
  ⟨h.sched, h.cmap, rfl, h.capacity, h.power⟩

theorem Spec.HotterHeater.controls {w w' : Heater K} (h : HotterHeater d w w') (hour : ℕ) :
    w'.getControls hour = (w.getControls hour).map (Option.map (hotterControls d)) := by
  unfold Heater.getControls
  rw [h.sched, h.cmap]
  cases w.sched with
  | none => rfl
  | some s =>
    cases w.cmap with
    | none => rfl
    | some m =>
      simp only [Option.map_some, dictGet?_hotter]
      cases pyGet s hour <;> rfl

theorem Spec.HotterHeater.outletTemp {w w' : Heater K} (h : HotterHeater d w w') (hour : ℕ) :
    w'.getOutletTemp hour = (w.getOutletTemp hour).map (· + d) := by
  unfold Heater.getOutletTemp
  rw [h.controls]
  cases w.getControls hour with
  | error e => rfl
  | ok c => cases c <;> rfl

theorem Spec.HotterHeater.output {w w' : Heater K} (h : HotterHeater d w w') (oat : Option K) (out : K) (inlet : Option K) :
    w'.getOutput oat (out + d) (inlet.map (· + d)) = w.getOutput oat out inlet := by
  unfold Heater.getOutput
  rw [h.active, h.capacity]

theorem Spec.HotterHeater.shifting {w w' : Heater K} (h : HotterHeater d w w') : w'.isLoadShifting = w.isLoadShifting := by
  unfold Heater.isLoadShifting
  rw [h.cmap]
  cases w.cmap with
  | none => rfl
  | some m => simp only [Option.map_some, dictHas_hotter]

theorem Spec.HotterHeater.start {w w' : Heater K} (h : HotterHeater d w w') :
    w'.cmap.bind normalOrFirst = (w.cmap.bind normalOrFirst).map (hotterControls d) := by
  rw [h.cmap]
  cases w.cmap with
  | none => rfl
  | some m =>
    simp only [Option.map_some, Option.bind_some, normalOrFirst, dictGet?_hotter]
    cases dictGet? m "normal" with
    | some c => rfl
    | none => cases m <;> rfl

/-- Both heaters decide the same. -/
theorem Spec.HotterHeater.update {w w' : Heater K} (h : HotterHeater d w w') {f f' : K → Py K} (hf : ∀ x, f' x = (f x).map (· + d))
    (hour : ℕ) :
    HotterHeater d (w.updateState f hour).1 (w'.updateState f' hour).1 ∧
      (w'.updateState f' hour).2 = (w.updateState f hour).2 := by
  unfold Heater.updateState
  rw [h.controls, h.active]
  cases w.getControls hour with
  | error e => exact ⟨h, rfl⟩
  | ok x =>
    cases x with
    | none => exact ⟨h, rfl⟩
    | some c =>
      have hoff : (hotterControls d c).shouldTurnOff f' = c.shouldTurnOff f := by
        unfold Controls.shouldTurnOff
        simp only [hotterControls, hf]
        cases f c.offFract with
        | error e => rfl
        | ok t => simp only [Except.map, ok_bind, add_le_add_iff_right]
      have hon : (hotterControls d c).shouldTurnOn f' = c.shouldTurnOn f := by
        unfold Controls.shouldTurnOn
        simp only [hotterControls, hf]
        cases f c.onFract with
        | error e => rfl
        | ok t => simp only [Except.map, ok_bind, add_lt_add_iff_right]
      simp only [Except.map, Option.map_some, hoff, hon]
      cases w.active with
      | true =>
        simp only [if_true]
        cases c.shouldTurnOff f with
        | error e => exact ⟨h, rfl⟩
        | ok b => cases b with
          | true => exact ⟨h.withActive false, rfl⟩
          | false => exact ⟨h, rfl⟩
      | false =>
        simp only [Bool.false_eq_true, if_false]
        cases c.shouldTurnOn f with
        | error e => exact ⟨h, rfl⟩
        | ok b => cases b with
          | true => exact ⟨h.withActive true, rfl⟩
          | false => exact ⟨h, rfl⟩

theorem updateAll_hotter {ws ws' : List (Heater K)} (h : List.Forall₂ (HotterHeater d) ws ws') {f f' : K → Py K}
    (hf : ∀ x, f' x = (f x).map (· + d)) (hour : ℕ) :
    PyRel (List.Forall₂ (HotterHeater d)) (updateAll ws f hour) (updateAll ws' f' hour) := by
  unfold updateAll
  refine pyRel_mapM h (fun w w' hw => ?_)
  obtain ⟨a, b⟩ := hw.update hf hour
  revert a b
  generalize w.updateState f hour = x
  generalize w'.updateState f' hour = y
  obtain ⟨x1, x2⟩ := x
  obtain ⟨y1, y2⟩ := y
  rintro a rfl
  cases y2 with
  | error e => rfl
  | ok u => exact a

theorem forall₂_eq {α : Type} {l l' : List α} (h : List.Forall₂ (fun a b => b = a) l l') : l' = l := by
  induction h with
  | nil => rfl
  | cons h1 _ ih => rw [h1, ih]

theorem pyRel_same {α : Type} {x y : Py α} (h : PyRel (fun a b => b = a) x y) : y = x := by
  cases x <;> cases y <;> simp_all [PyRel]

theorem totalOutput_hotter {ws ws' : List (Heater K)} (h : List.Forall₂ (HotterHeater d) ws ws') (oat : K) (hour : ℕ)
    (inlet : Option K) : totalOutput ws' oat hour (inlet.map (· + d)) = totalOutput ws oat hour inlet := by
  apply pyRel_same
  unfold totalOutput
  refine pyRel_bind (pyRel_mapM (Q := fun a b => b = a) h (fun w w' hw => ?_)) (fun a b hab => by rw [forall₂_eq hab]; rfl)
  rw [hw.outletTemp]
  refine pyRel_bind (pyRel_map _ _) ?_
  rintro a _ rfl
  rw [hw.output]
  exact pyRel_refl _

theorem filterActive_hotter {ws ws' : List (Heater K)} (h : List.Forall₂ (HotterHeater d) ws ws') :
    List.Forall₂ (HotterHeater d) (ws.filter (·.active)) (ws'.filter (·.active)) := by
  induction h with
  | nil => exact .nil
  | cons h1 _ ih =>
    simp only [List.filter_cons, h1.active]
    split
    · exact .cons h1 ih
    · exact ih

theorem activeKws_hotter {ws ws' : List (Heater K)} (h : List.Forall₂ (HotterHeater d) ws ws') (oat : K) (hour : ℕ)
    (inlet : Option K) : activeKws ws' oat hour (inlet.map (· + d)) = activeKws ws oat hour inlet := by
  have : PyRel (List.Forall₂ (fun (a b : Option K) => b = a)) (activeKws ws oat hour inlet) (activeKws ws' oat hour (inlet.map (· + d))) := by
    unfold activeKws
    refine pyRel_mapM (filterActive_hotter h) (fun w w' hw => ?_)
    rw [hw.outletTemp]
    refine pyRel_bind (pyRel_map _ _) ?_
    rintro a _ rfl
    rw [hw.power]
    exact pyRel_refl _
  revert this
  generalize activeKws ws oat hour inlet = x
  generalize activeKws ws' oat hour (inlet.map (· + d)) = y
  intro h
  cases x <;> cases y <;> simp only [PyRel] at h
  · rw [h]
  · rw [forall₂_eq h]

theorem forall₂_any_hotter {ws ws' : List (Heater K)} (h : List.Forall₂ (HotterHeater d) ws ws') :
    ws'.any (·.isLoadShifting) = ws.any (·.isLoadShifting) := by
  induction h with
  | nil => rfl
  | cons h1 _ ih => simp only [List.any_cons, ih, h1.shifting]

theorem max?_add (l : List K) (d : K) : (l.map (· + d)).max? = l.max?.map (· + d) := by
  cases h : l.max? with
  | none =>
    rw [List.max?_eq_none_iff] at h
    simp [h]
  | some m =>
    rw [List.max?_eq_some_iff] at h
    simp only [Option.map_some]
    rw [List.max?_eq_some_iff]
    refine ⟨List.mem_map.2 ⟨m, h.1, rfl⟩, ?_⟩
    intro x hx
    obtain ⟨y, hy, rfl⟩ := List.mem_map.1 hx
    have := h.2 y hy
    linarith

theorem outletAt_hotter {ws ws' : List (Heater K)} (h : List.Forall₂ (HotterHeater d) ws ws') (st : K) (hour : ℕ) :
    outletAt ws' (st + d) hour = (outletAt ws st hour).map (· + d) := by
  unfold outletAt
  have : ws'.mapM (fun w : Heater K => w.getControls hour) = (ws.mapM (fun w : Heater K => w.getControls hour)).map (List.map (Option.map (hotterControls d))) := by
    apply pyRel_eq
    refine pyRel_forall₂ (pyRel_mapM h (fun w w' hw => ?_))
    rw [hw.controls]
    exact pyRel_map _ _
  rw [this]
  cases ws.mapM (fun w => w.getControls hour) with
  | error e => rfl
  | ok cs =>
    have e : ((cs.map (Option.map (hotterControls d))).filterMap id).map (·.outlet) = ((cs.filterMap id).map (·.outlet)).map (· + d) := by
      induction cs with
      | nil => rfl
      | cons c cs ih => cases c <;> simp_all [hotterControls]
    simp only [Except.map, ok_bind, pure_eq_ok, Except.ok.injEq, e, max?_add]
    cases ((cs.filterMap id).map (·.outlet)).max? <;> rfl

theorem modeAt_hotter {ws ws' : List (Heater K)} (h : List.Forall₂ (HotterHeater d) ws ws') (hour : ℕ) :
    modeAt ws' hour = modeAt ws hour := by
  cases h with
  | nil => rfl
  | cons h1 _ => unfold modeAt; dsimp only; rw [h1.sched]

theorem initialUseable_hotter {ws ws' : List (Heater K)} (h : List.Forall₂ (HotterHeater d) ws ws') :
    initialUseable ws' = initialUseable ws := by
  induction h with
  | nil => rfl
  | cons h1 _ ih =>
    unfold initialUseable
    rw [h1.start, ih]
    cases Option.bind _ normalOrFirst <;> rfl

/-! ### A step -/

theorem getInlet_hotter (b : Building K) (t int : ℕ) : (hotterBuilding d b).getInlet t int = (b.getInlet t int).map (· + d) := by
  unfold Building.getInlet hotterBuilding
  cases b.climate with
  | none => rfl
  | some c =>
    simp only [Option.map_some, ClimateZone.getInlet, hotterClimate]
    cases c.constInlet with
    | some v => rfl
    | none =>
      cases c.inletByMonth with
      | none => rfl
      | some l =>
        simp only [Option.map_some, Option.map_none, pyGet, List.getElem?_map]
        cases l[dayOfYearToMonth (((t * int) / (60 * 24)) % 365)]? <;> rfl

theorem getOat_hotter (b : Building K) (t int : ℕ) : (hotterBuilding d b).getOat t int = b.getOat t int := by
  unfold Building.getOat hotterBuilding
  cases b.climate <;> rfl

/-- The same inputs with the temperatures raised. -/
def hotterIn (d : K) (i : StepIn K) : StepIn K := ⟨i.demand, i.oat, i.inlet + d, i.hour, i.outlet + d, i.mode⟩

theorem inputs_hotter {s s' : Prim K} (hst : s'.storage = s.storage + d) (hw : List.Forall₂ (HotterHeater d) s.heaters s'.heaters)
    (b : Building K) (t int : ℕ) :
    s'.inputs (hotterBuilding d b) t int = (s.inputs b t int).map (hotterIn d) := by
  apply pyRel_eq
  unfold Prim.inputs
  rw [forall₂_any_hotter hw, show ∀ a, (hotterBuilding d b).getDhwLoad t int a = b.getDhwLoad t int a from fun _ => rfl, hst,
    getOat_hotter, getInlet_hotter]
  refine pyRel_bind (pyRel_refl _) ?_
  rintro x _ rfl
  refine pyRel_bind (pyRel_refl (b.getOat t int)) ?_
  rintro o _ rfl
  refine pyRel_bind (pyRel_map _ (b.getInlet t int)) ?_
  rintro c _ rfl
  dsimp only
  rw [outletAt_hotter hw, modeAt_hotter hw]
  refine pyRel_bind (pyRel_map _ _) ?_
  rintro x _ rfl
  refine pyRel_bind (pyRel_refl _) ?_
  rintro y _ rfl
  rfl

theorem heatPrimary_hotter {ws ws' : List (Heater K)} (hw : List.Forall₂ (HotterHeater d) ws ws')
    (t : StratTank K) (i : StepIn K) (int : ℕ) :
    PyRel (fun x y => List.Forall₂ (HotterHeater d) x.1 y.1 ∧ x.2.1.slope = t.slope ∧ y.2.1 = hotterTank d x.2.1 ∧
        y.2.2 = x.2.2)
      (heatPrimary ws t i int) (heatPrimary ws' (hotterTank d t) (hotterIn d i) int) := by
  unfold heatPrimary
  refine pyRel_bind (updateAll_hotter hw (tempAtPy_hotter t) i.hour) (fun v v' hv => ?_)
  rw [tempAtPy_hotter]
  refine pyRel_bind (pyRel_map _ _) (fun _ _ _ => ?_)
  change PyRel _ _ (totalOutput v' i.oat i.hour ((some i.inlet).map (· + d)) >>= _)
  rw [totalOutput_hotter hv]
  refine pyRel_bind (pyRel_refl _) ?_
  rintro _ q rfl
  change PyRel _ _ (activeKws v' i.oat i.hour ((some i.inlet).map (· + d)) >>= _)
  rw [activeKws_hotter hv]
  refine pyRel_bind (pyRel_refl _) ?_
  rintro kws _ rfl
  change PyRel _ _ (if t.slope = 0 then _ else _)
  split
  · rfl
  · refine ⟨hv, ?_, heat_hotter t q _ _, rfl⟩
    simp only [StratTank.heat]
    split <;> rfl

theorem nodes_hotter (t : StratTank K) : nodeFracts.map (hotterTank d t).tempAt = (nodeFracts.map t.tempAt).map (· + d) := by
  rw [List.map_map]
  exact List.map_congr_left (fun f _ => tempAt_hotter t f)

theorem draw_slope (t : StratTank K) (v c su o : K) : (t.draw v c su o).slope = t.slope := by
  unfold StratTank.draw
  dsimp only
  split <;> rfl

theorem primStep_hotter (b : Building K) (int : ℕ) (s s' : Prim K) (t : ℕ) (h : HotterPrim d s s') :
    PyRel (fun x y => HotterPrim d x.1 y.1 ∧ y.2 = hotterOut d x.2) (Prim.step b int s t) (Prim.step (hotterBuilding d b) int s' t) := by
  obtain ⟨hsu, hst, hhs, tk, h1, h2, h3⟩ := h
  unfold Prim.step
  rw [inputs_hotter hst hhs, h1, h3]
  refine pyRel_bind (pyRel_map _ _) ?_
  rintro i _ rfl
  refine pyRel_bind (heatPrimary_hotter hhs tk i int) ?_
  rintro ⟨ws, tank, q, kws⟩ ⟨ws', _, _⟩ ⟨hws, e1, e2, e3⟩
  simp only at hws e1 e2 e3
  subst e2 e3
  have hdr := draw_hotter (d := d) tank (e1 ▸ h2) i.demand i.inlet s.supply i.outlet
  simp only [pure_eq_ok, PyRel, hsu]
  refine ⟨⟨rfl, hst, hws, _, rfl, by rw [draw_slope, e1]; exact h2, congrArg some hdr⟩, ?_⟩
  simp only [hotterIn, hotterOut, hdr, usable_hotter, nodes_hotter, Option.map_none]

/-! ### A run -/

theorem pushTemps_hotter (ls : List (List K)) (ts : List K) :
    SimRun.pushTemps (ls.map (List.map (· + d))) (ts.map (· + d)) = (SimRun.pushTemps ls ts).map (List.map (List.map (· + d))) := by
  induction ts generalizing ls with
  | nil => cases ls <;> rfl
  | cons t ts ih =>
    cases ls with
    | nil => rfl
    | cons l ls =>
      simp only [List.map_cons, SimRun.pushTemps, ih]
      cases SimRun.pushTemps ls ts <;> simp [Except.map, bind, Except.bind, pure, Except.pure]

theorem record_hotter (r : SimRun K) (o : StepOut K) :
    (hotterRun d r).record (hotterOut d o) = (r.record o).map (hotterRun d) := by
  apply pyRel_eq
  unfold SimRun.record
  rw [show (hotterRun d r).temps = r.temps.map (List.map (· + d)) from rfl, show (hotterOut d o).temps = o.temps.map (· + d) from rfl,
    pushTemps_hotter]
  refine pyRel_bind (pyRel_map _ _) ?_
  rintro x _ rfl
  simp only [pure_eq_ok, PyRel, hotterRun, hotterOut, List.map_append, List.map_cons, List.map_nil]
  cases o.tmTemp <;> simp

theorem simRecord_hotter (ts : ℕ) (supply : K) (r : SimRun K) (o : StepOut K) :
    simRecord ts (supply + d) (hotterRun d r) (hotterOut d o) = (simRecord ts supply r o).map (fun p => (hotterRun d p.1, p.2)) := by
  apply pyRel_eq
  unfold simRecord
  rw [record_hotter]
  refine pyRel_bind (pyRel_map _ _) ?_
  rintro x _ rfl
  have ht : (hotterOut d o).temps = o.temps.map (· + d) := rfl
  have hd : (hotterOut d o).delivery = o.delivery.map (· + d) := rfl
  have hu : (hotterOut d o).usable = o.usable := rfl
  simp only [ht, hd, hu, List.getLast?_map]
  cases o.temps.getLast? with
  | none => rfl
  | some top =>
    have e : (o.delivery.map (· + d)).getD (top + d) = o.delivery.getD top + d := by cases o.delivery <;> rfl
    simp only [Option.map_some, e, pure_eq_ok, PyRel]
    unfold SimRun.checkDeficit
    generalize o.delivery.getD top = dl
    have key : ∀ y : SimRun K, (if dl + d < supply + d - (hotterRun d y).threshold then
        if (((hotterRun d y).consec + (hotterRun d y).ts : Nat) : Int) > (hotterRun d y).maxMin then
          ({ hotterRun d y with consec := (hotterRun d y).consec + (hotterRun d y).ts, stopped := true }, true)
        else ({ hotterRun d y with consec := (hotterRun d y).consec + (hotterRun d y).ts }, false)
      else ({ hotterRun d y with consec := 0 }, false)) =
      (fun p : SimRun K × Bool => (hotterRun d p.1, p.2)) (if dl < supply - y.threshold then
        if ((y.consec + y.ts : Nat) : Int) > y.maxMin then ({ y with consec := y.consec + y.ts, stopped := true }, true)
        else ({ y with consec := y.consec + y.ts }, false)
      else ({ y with consec := 0 }, false)) := by
      intro y
      by_cases h : dl < supply - y.threshold
      · rw [if_pos h, if_pos (show dl + d < supply + d - (hotterRun d y).threshold by simp only [hotterRun]; linarith)]
        by_cases h2 : ((y.consec + y.ts : Nat) : Int) > y.maxMin
        · rw [if_pos h2, if_pos (show (((hotterRun d y).consec + (hotterRun d y).ts : Nat) : Int) > (hotterRun d y).maxMin from h2)]
          rfl
        · rw [if_neg h2, if_neg (show ¬ (((hotterRun d y).consec + (hotterRun d y).ts : Nat) : Int) > (hotterRun d y).maxMin from h2)]
          rfl
      · rw [if_neg h, if_neg (show ¬ dl + d < supply + d - (hotterRun d y).threshold by simp only [hotterRun]; linarith)]
        rfl
    by_cases h : o.usable ≤ 0
    · rw [if_pos h, if_pos h]
      exact key (x.recordOutage ts)
    · rw [if_neg h, if_neg h]
      exact key x

theorem simLoop_hotter {S : Type} {step step' : S → ℕ → Py (S × StepOut K)} (R : S → S → Prop)
    (hstep : ∀ s s' i, R s s' → PyRel (fun x y => R x.1 y.1 ∧ y.2 = hotterOut d x.2) (step s i) (step' s' i))
    (ts : ℕ) (supply : K) (n : ℕ) : ∀ (i : ℕ) (s s' : S) (r : SimRun K), R s s' →
      PyRel (fun x y => R x.1 y.1 ∧ y.2 = hotterRun d x.2) (simLoop step ts supply n i s r)
        (simLoop step' ts (supply + d) n i s' (hotterRun d r)) := by
  induction n with
  | zero => intro i s s' r h; exact ⟨h, rfl⟩
  | succ n ih =>
    intro i s s' r h
    unfold simLoop
    refine pyRel_bind (hstep s s' i h) ?_
    rintro ⟨a, o⟩ ⟨a', o'⟩ ⟨h1, h2⟩
    simp only at h1 h2
    subst h2
    dsimp only
    rw [simRecord_hotter]
    refine pyRel_bind (pyRel_map _ _) ?_
    rintro ⟨r1, stop⟩ _ rfl
    cases stop with
    | true => exact ⟨h1, rfl⟩
    | false => exact ih (i + 1) a a' r1 h1

theorem new_hotter {dur ts : ℕ} {thr : K} {maxMin : Int} {r : SimRun K} (e : SimRun.new dur ts thr maxMin = .ok r) (supply : K)
    (tm : Bool) : hotterRun d { r with supply := some supply, showTm := tm } = { r with supply := some (supply + d), showTm := tm } := by
  unfold SimRun.new at e
  split at e
  · exact absurd e (by simp)
  · injection e with e; subst e
    simp [hotterRun]

theorem simulateFrom_hotter {S : Type} {step step' : ℕ → S → ℕ → Py (S × StepOut K)} (R : S → S → Prop)
    (hstep : ∀ ts s s' i, R s s' → PyRel (fun x y => R x.1 y.1 ∧ y.2 = hotterOut d x.2) (step ts s i) (step' ts s' i))
    (supply : K) (tm : Bool) (thr : K) (maxMin : Int) (du : String) (s s' : S) (h : R s s') :
    PyRel (fun x y => R x.1 y.1 ∧ y.2 = hotterRun d x.2) (simulateFrom step supply tm thr maxMin du s)
      (simulateFrom step' (supply + d) tm thr maxMin du s') := by
  unfold simulateFrom
  refine pyRel_bind (pyRel_refl _) ?_
  rintro ⟨dur, ts⟩ _ rfl
  dsimp only
  cases e : (SimRun.new dur ts thr maxMin : Py (SimRun K)) with
  | error e => rfl
  | ok r =>
    simp only [ok_bind]
    conv => arg 3; rw [← new_hotter e]
    exact simLoop_hotter R (hstep ts) ts supply _ 0 s s' _ h

theorem designInletOr_hotter {b : Building K} {x : K} (hb : b.getDesignInlet = .ok (some x)) (h0 : x ≠ 0) (h1 : x + d ≠ 0) :
    designInletOr b = .ok x ∧ designInletOr (hotterBuilding d b) = .ok (x + d) := by
  have h2 : (hotterBuilding d b).getDesignInlet = .ok (some (x + d)) := by
    revert hb
    unfold Building.getDesignInlet hotterBuilding
    cases b.climate with
    | none => simp
    | some c =>
      simp only [Option.map_some, designInlet_hotter]
      cases c.getDesignInlet with
      | error e => simp
      | ok y => simp [Except.map]
  unfold designInletOr
  rw [hb, h2]
  simp [h0, h1]

theorem primInit_hotter {b : Building K} {x : K} (hb : b.getDesignInlet = .ok (some x)) (h0 : x ≠ 0) (h1 : x + d ≠ 0) {s s' : Prim K}
    (h : HotterPrim d s s') : PyRel (HotterPrim d) (s.init b) (s'.init (hotterBuilding d b)) := by
  obtain ⟨hsu, hst, hhs, tk, e1, e2, e3⟩ := h
  obtain ⟨q1, q2⟩ := designInletOr_hotter hb h0 h1
  unfold Prim.init
  rw [q1, q2, e1, e3, initialUseable_hotter hhs, hst]
  exact ⟨hsu, rfl, hhs, _, rfl, e2, congrArg some (init_hotter tk _ _ _)⟩

/-- **C145, simulating a primary system.** The same plant on another temperature scale: supply, storage, control settings and cold
water all `d` degrees higher. The run is the same, with the recorded water temperatures `d` degrees higher, or ends in the same
exception. The design temperature of the cold water must be known and not zero before and after, since the simulator takes zero
for unknown. -/
theorem C145_simulation_partial {s s' : Prim K} {b : Building K} (h : HotterPrim d s s') {x : K}
    (hb : b.getDesignInlet = .ok (some x)) (h0 : x ≠ 0) (h1 : x + d ≠ 0) (thr : K) (maxMin : Int) (du : String) :
    (s'.simulate (hotterBuilding d b) thr maxMin du).map (·.2) = (s.simulate b thr maxMin du).map (fun y => hotterRun d y.2) := by
  apply pyRel_run (R := HotterPrim d)
  unfold Prim.simulate
  refine pyRel_bind (pyRel_refl _) (fun _ _ _ => ?_)
  refine pyRel_bind (primInit_hotter hb h0 h1 h) (fun p p' hp => ?_)
  rw [hp.supply]
  exact simulateFrom_hotter (HotterPrim d) (fun ts s s' i hs => primStep_hotter b ts s s' i hs) _ _ _ _ _ _ _ hp

theorem spStep_hotter (l : RtpLoop K) (b : Building K) (int : ℕ) (s s' : Prim K) (t : ℕ) (h : HotterPrim d s s') :
    PyRel (fun x y => HotterPrim d x.1 y.1 ∧ y.2 = hotterOut d x.2) (spStep l b int s t)
      (spStep (hotterLoop d l) (hotterBuilding d b) int s' t) := by
  unfold spStep
  refine pyRel_bind (primStep_hotter b int s s' t h) ?_
  rintro ⟨p, o⟩ ⟨p', o'⟩ ⟨⟨hsu, hst, hhs, tk, e1, e2, e3⟩, ho⟩
  simp only at hsu hst hhs e1 e2 e3 ho
  subst ho
  simp only [e1, e3, hsu, show (hotterLoop d l).flow = l.flow from rfl, show (hotterLoop d l).ret = l.ret + d from rfl, recirc_hotter,
    pure_eq_ok, PyRel]
  refine ⟨⟨rfl, hst, hhs, _, rfl, ?_, rfl⟩, ?_⟩
  · simp only [StratTank.recirc]
    split <;> exact e2
  · simp only [hotterOut, usable_hotter, nodes_hotter]

/-- **C145, simulating a single-pass return-to-primary system.** -/
theorem C145_single_pass_simulation_partial (l : RtpLoop K) {s s' : Prim K} {b : Building K} (h : HotterPrim d s s') {x : K}
    (hb : b.getDesignInlet = .ok (some x)) (h0 : x ≠ 0) (h1 : x + d ≠ 0) (thr : K) (maxMin : Int) (du : String) :
    (spSimulate (hotterLoop d l) s' (hotterBuilding d b) thr maxMin du).map (·.2) =
      (spSimulate l s b thr maxMin du).map (fun y => hotterRun d y.2) := by
  apply pyRel_run (R := HotterPrim d)
  unfold spSimulate
  refine pyRel_bind (pyRel_refl _) (fun _ _ _ => ?_)
  refine pyRel_bind (primInit_hotter hb h0 h1 h) (fun p p' hp => ?_)
  rw [hp.supply]
  exact simulateFrom_hotter (HotterPrim d) (fun ts s s' i hs => spStep_hotter l b ts s s' i hs) _ _ _ _ _ _ _ hp

theorem mixedRecirc_hotter (t : MixedTank K) (flow ret dur : K) :
    (hotterMixed d t).recirc flow (ret + d) dur = hotterMixed d (t.recirc flow ret dur) := by
  simp only [MixedTank.recirc, hotterMixed, add_sub_add_right_eq_sub, MixedTank.mk.injEq, true_and, and_true]
  ring

theorem mixedHeat_hotter (t : MixedTank K) (q dur out out' : K) :
    (hotterMixed d t).heat q dur out' = hotterMixed d (t.heat q dur out) := by
  simp only [MixedTank.heat]
  split
  · rfl
  · simp only [hotterMixed, MixedTank.mk.injEq, true_and, and_true]
    ring

/-- A report of the TM side with the temperature raised. -/
def hotterTmOut (d : K) (o : TmOut K) : TmOut K := ⟨o.temp + d, o.kbtuh, o.kw⟩

theorem tmStep_hotter (c : TmCfg K) (oat : Option K) (hour : ℕ) (dur : K) (t : MixedTank K) {w w' : Heater K}
    (hw : HotterHeater d w w') :
    (tmStep (hotterTm d c) oat hour dur (hotterMixed d t, w')).1.1 = hotterMixed d (tmStep c oat hour dur (t, w)).1.1 ∧
    HotterHeater d (tmStep c oat hour dur (t, w)).1.2 (tmStep (hotterTm d c) oat hour dur (hotterMixed d t, w')).1.2 ∧
    (tmStep (hotterTm d c) oat hour dur (hotterMixed d t, w')).2 = (tmStep c oat hour dur (t, w)).2.map (hotterTmOut d) := by
  unfold tmStep
  dsimp only
  by_cases hv : t.vol = 0
  · rw [if_pos hv, if_pos (show (hotterMixed d t).vol = 0 from hv)]
    exact ⟨rfl, hw, rfl⟩
  rw [if_neg hv, if_neg (show ¬ (hotterMixed d t).vol = 0 from hv), show (hotterTm d c).flow = c.flow from rfl,
    show (hotterTm d c).ret = c.ret + d from rfl, mixedRecirc_hotter]
  generalize t.recirc c.flow c.ret dur = u
  obtain ⟨a, b⟩ := hw.update (f := fun f => .ok (u.tempAt f)) (f' := fun f => .ok ((hotterMixed d u).tempAt f)) (fun _ => rfl) hour
  revert a b
  generalize w.updateState (fun f => .ok (u.tempAt f)) hour = x
  generalize w'.updateState (fun f => .ok ((hotterMixed d u).tempAt f)) hour = y
  obtain ⟨x1, x2⟩ := x
  obtain ⟨y1, y2⟩ := y
  intro a b
  simp only at a b
  subst b
  cases y2 with
  | error e => exact ⟨rfl, a, rfl⟩
  | ok q =>
    have ho := a.output oat (u.tempAt 1) (some ((c.off + c.on) / 2))
    have hp := a.power oat (u.tempAt 1) (some ((c.off + c.on) / 2))
    have e : ((hotterTm d c).off + (hotterTm d c).on) / 2 = (c.off + c.on) / 2 + d := by
      simp only [hotterTm]; ring
    simp only [Option.map_some] at ho hp
    simp only [e, show (hotterMixed d u).tempAt 1 = u.tempAt 1 + d from rfl, ho, hp, a.active]
    cases x1.getOutput oat (u.tempAt 1) (some ((c.off + c.on) / 2)) with
    | error e => exact ⟨rfl, a, rfl⟩
    | ok each =>
      simp only
      cases (if x1.active = true then x1.getPower oat (u.tempAt 1) (some ((c.off + c.on) / 2)) else .ok none : Py (Option K)) with
      | error e => exact ⟨rfl, a, rfl⟩
      | ok kw =>
        simp only [show (hotterTm d c).num = c.num from rfl]
        rw [mixedHeat_hotter u _ _ c.off]
        exact ⟨rfl, a, rfl⟩

theorem parStep_hotter (c : TmCfg K) (b : Building K) (int : ℕ) (s s' : ParSim K) (t : ℕ) (h : HotterParSim d s s') :
    PyRel (fun x y => HotterParSim d x.1 y.1 ∧ y.2 = hotterOut d x.2) (parStep c b int s t)
      (parStep (hotterTm d c) (hotterBuilding d b) int s' t) := by
  unfold parStep
  refine pyRel_bind (primStep_hotter b int s.prim s'.prim t h.prim) ?_
  rintro ⟨p, o⟩ ⟨p', o'⟩ ⟨hp, ho⟩
  simp only at hp ho
  subst ho
  have key := tmStep_hotter c (some o.oat) ((t * int / 60) % 24) (int : K) s.tmTank h.tmHeater
  dsimp only
  rw [h.tmTank, show (hotterOut d o).oat = o.oat from rfl]
  revert key
  generalize tmStep c (some o.oat) ((t * int / 60) % 24) (int : K) (s.tmTank, s.tmHeater) = x
  generalize tmStep (hotterTm d c) (some o.oat) ((t * int / 60) % 24) (int : K) (hotterMixed d s.tmTank, s'.tmHeater) = y
  obtain ⟨⟨x1, x2⟩, x3⟩ := x
  obtain ⟨⟨y1, y2⟩, y3⟩ := y
  rintro ⟨k1, k2, k3⟩
  simp only at k1 k2 k3
  subst k1 k3
  cases x3 with
  | error e => rfl
  | ok tm => exact ⟨⟨hp, rfl, k2⟩, rfl⟩

/-- **C145, simulating a parallel loop.** -/
theorem C145_parallel_simulation_partial (c : TmCfg K) {s s' : ParSim K} {b : Building K} (h : HotterParSim d s s') {x : K}
    (hb : b.getDesignInlet = .ok (some x)) (h0 : x ≠ 0) (h1 : x + d ≠ 0) (thr : K) (maxMin : Int) (du : String) :
    (parSimulate (hotterTm d c) s' (hotterBuilding d b) thr maxMin du).map (·.2) =
      (parSimulate c s b thr maxMin du).map (fun y => hotterRun d y.2) := by
  apply pyRel_run (R := HotterParSim d)
  unfold parSimulate
  refine pyRel_bind (pyRel_refl _) (fun _ _ _ => ?_)
  refine pyRel_bind (primInit_hotter hb h0 h1 h.prim) (fun p p' hp => ?_)
  obtain ⟨q1, q2⟩ := designInletOr_hotter hb h0 h1
  rw [q1, q2, hp.supply]
  exact simulateFrom_hotter (HotterParSim d) (fun ts s s' i hs => parStep_hotter c b ts s s' i hs) _ _ _ _ _ _ _
    ⟨hp, by rw [h.tmTank]; rfl, h.tmHeater⟩

/-- **C145, simulating a tankless system.** -/
theorem C145_tankless_simulation (s : Instant K) (b : Building K) (thr : K) (maxMin : Int) (du : String) :
    Instant.simulate ⟨s.supply + d, s.storage + d, s.defrost⟩ (hotterBuilding d b) thr maxMin du =
      (s.simulate b thr maxMin du).map (hotterRun d) := by
  apply pyRel_eq
  unfold Instant.simulate
  refine pyRel_bind (pyRel_refl _) ?_
  rintro ⟨dur, ts⟩ _ rfl
  dsimp only
  cases e : (SimRun.new dur ts thr maxMin : Py (SimRun K)) with
  | error e => rfl
  | ok r =>
    simp only [ok_bind]
    have hdi : PyRel (fun _ _ => True) b.getDesignInlet (hotterBuilding d b).getDesignInlet := by
      unfold Building.getDesignInlet hotterBuilding
      cases b.climate with
      | none => trivial
      | some c =>
        simp only [Option.map_some, designInlet_hotter]
        cases c.getDesignInlet with
        | error e => rfl
        | ok v => trivial
    refine pyRel_bind hdi (fun _ _ _ => ?_)
    conv => arg 3; rw [show ({ r with supply := some (s.supply + d) } : SimRun K) =
      hotterRun d { r with supply := some s.supply } from (by rw [← new_hotter e s.supply r.showTm])]
    refine pyRel_bind (simLoop_hotter (d := d) (fun _ _ => True) (fun _ _ i _ => ?_) ts s.supply _ 0 () () _ trivial) ?_
    · refine pyRel_bind (R := fun o o' => o' = hotterOut d o) ?_ ?_
      · unfold Instant.step
        rw [show (hotterBuilding d b).getDhwLoad i ts = b.getDhwLoad i ts from rfl, getOat_hotter, getInlet_hotter]
        refine pyRel_bind (pyRel_refl _) ?_
        rintro x _ rfl
        refine pyRel_bind (pyRel_refl _) ?_
        rintro y _ rfl
        refine pyRel_bind (pyRel_map _ _) ?_
        rintro z _ rfl
        simp only [add_sub_add_right_eq_sub]
        refine pyRel_bind (pyRel_refl _) ?_
        rintro q _ rfl
        simp only [pure_eq_ok, PyRel, hotterOut, List.map_replicate, Option.map_none]
      · rintro o _ rfl
        exact ⟨trivial, rfl⟩
    · rintro ⟨_, r1⟩ ⟨_, r2⟩ ⟨_, hr⟩
      exact hr

/-! ### Swing tanks -/

theorem drawPhysical_hotter (t : StratTank K) (g inlet su : K) :
    (hotterTank d t).drawPhysical g (inlet + d) (some (su + d)) = hotterTank d (t.drawPhysical g inlet (some su)) := by
  unfold StratTank.drawPhysical
  have h2 := floor_hotter (d := d) ({ t with inlet := inlet } : StratTank K) (some su)
  dsimp only
  split
  · simp only [hotterTank, Option.map_some] at h2 ⊢
    rw [h2]
  · rfl

theorem mix_hotter (t : MixedTank K) (hv : t.vol ≠ 0) (g T : K) : (hotterMixed d t).mix g (T + d) = hotterMixed d (t.mix g T) := by
  unfold MixedTank.mix
  by_cases h1 : g ≤ 0
  · rw [if_pos h1, if_pos h1]
  rw [if_neg h1, if_neg h1]
  dsimp only
  by_cases h2 : t.vol - g ≤ 0
  · rw [if_pos h2, if_pos (show (hotterMixed d t).vol - g ≤ 0 from h2)]
    rfl
  rw [if_neg h2, if_neg (show ¬ (hotterMixed d t).vol - g ≤ 0 from h2)]
  have hr : rhoCp K ≠ 0 := rhoCp_pos.ne'
  simp only [hotterMixed, MixedTank.mk.injEq, true_and, and_true]
  field_simp
  ring

theorem mixedLoss_hotter (t : MixedTank K) (q dur : K) : (hotterMixed d t).loss q dur = hotterMixed d (t.loss q dur) := by
  unfold MixedTank.loss
  split
  · rfl
  · simp only [hotterMixed, MixedTank.mk.injEq, true_and, and_true]
    ring

theorem swingFlow_hotter (supply inlet t x : K) :
    swingFlow (supply + d) (inlet + d) (t + d) x = swingFlow supply inlet t x := by
  unfold swingFlow
  by_cases h : supply < t
  · rw [if_pos h, if_pos (by linarith), add_sub_add_right_eq_sub, add_sub_add_right_eq_sub]
  · rw [if_neg h, if_neg (by linarith)]

theorem swingTm_hotter {w w' : Heater K} (hw : HotterHeater d w w') (tm : MixedTank K) (oat : K) (hour : ℕ) (int : K) :
    PyRel (fun x y => HotterHeater d x.1 y.1 ∧ y.2.1 = x.2.1 ∧ y.2.2.1 = x.2.2.1 ∧ y.2.2.2 = hotterMixed d x.2.2.2)
      (swingTm w tm oat hour int) (swingTm w' (hotterMixed d tm) oat hour int) := by
  unfold swingTm
  obtain ⟨a, b⟩ := hw.update (f := fun f => .ok (tm.tempAt f)) (f' := fun f => .ok ((hotterMixed d tm).tempAt f)) (fun _ => rfl) hour
  revert a b
  generalize w.updateState (fun f => .ok (tm.tempAt f)) hour = x
  generalize w'.updateState (fun f => .ok ((hotterMixed d tm).tempAt f)) hour = y
  obtain ⟨x1, x2⟩ := x
  obtain ⟨y1, y2⟩ := y
  intro a b
  simp only at a b
  subst b
  cases y2 with
  | error e => rfl
  | ok u =>
    have ho := a.output (some oat) (tm.tempAt 1) none
    have hp := a.power (some oat) (tm.tempAt 1) none
    simp only [Option.map_none] at ho hp
    simp only [show (hotterMixed d tm).tempAt 1 = tm.tempAt 1 + d from rfl, ho, hp, a.active]
    refine pyRel_bind (pyRel_refl _) ?_
    rintro _ q rfl
    refine pyRel_bind (pyRel_refl _) ?_
    rintro _ kw rfl
    rw [a.outletTemp]
    refine pyRel_bind (pyRel_map _ _) ?_
    rintro out _ rfl
    exact ⟨a, rfl, rfl, mixedHeat_hotter tm q int out (out + d)⟩

/-- What a run keeps: the plants stay `d` degrees apart, and the water in the tank is not hotter at the bottom than the heaters aim. -/
structure SwingKept (d : K) (ok : K → Prop) (s s' : SwingSim K) : Prop where
  rel : HotterSwingSim d s s'
  inlet : ok s.tank.inlet
  aim : ∀ c, ok c → AimAbove s.heaters s.storage c

theorem outletAt_aim {ws : List (Heater K)} {storage cold o : K} {hour : ℕ} (h : AimAbove ws storage cold)
    (ho : outletAt ws storage hour = .ok o) : cold ≤ o := by
  unfold outletAt at ho
  simp only [bind_eq_ok, pure_eq_ok, Except.ok.injEq] at ho
  obtain ⟨cs, hcs, rfl⟩ := ho
  cases hm : ((cs.filterMap id).map (·.outlet)).max? with
  | none => exact h.1
  | some m =>
    simp only [Option.getD_some]
    rw [List.max?_eq_some_iff] at hm
    obtain ⟨c, hc, rfl⟩ := List.mem_map.1 hm.1
    obtain ⟨oc, hoc, he⟩ := List.mem_filterMap.1 hc
    simp only [id] at he
    subst he
    rw [mapM_eq_ok] at hcs
    obtain ⟨w, hw, hwc⟩ : ∃ w ∈ ws, w.getControls hour = .ok (some c) := by
      clear hm hc h
      induction hcs with
      | nil => simp at hoc
      | cons h1 _ ih =>
        rcases List.mem_cons.1 hoc with h | h
        · subst h; exact ⟨_, by simp, h1⟩
        · obtain ⟨w, hw, hwc⟩ := ih h
          exact ⟨w, by simp [hw], hwc⟩
    unfold Heater.getControls at hwc
    cases hs : w.sched with
    | none => simp [hs] at hwc
    | some s =>
      cases hmp : w.cmap with
      | none => simp [hs, hmp] at hwc
      | some m =>
        rw [hs, hmp] at hwc
        simp only [bind_eq_ok, pure_eq_ok, Except.ok.injEq] at hwc
        obtain ⟨key, -, hk⟩ := hwc
        unfold dictGet? at hk
        cases hf : m.find? (fun p => decide (p.1 = key)) with
        | none => simp [hf] at hk
        | some p =>
          rw [hf] at hk
          simp only [Option.map_some, Option.some.injEq] at hk
          rw [← hk]
          exact h.2 w hw m hmp p (List.mem_of_find?_eq_some hf)

theorem updateState_cmap (w : Heater K) (f : K → Py K) (hour : ℕ) : (w.updateState f hour).1.cmap = w.cmap := by
  unfold Heater.updateState
  repeat' split
  all_goals rfl

theorem updateAll_aim {ws v : List (Heater K)} {f : K → Py K} {hour : ℕ} (h : updateAll ws f hour = .ok v) {storage c : K}
    (ha : AimAbove ws storage c) : AimAbove v storage c := by
  refine ⟨ha.1, ?_⟩
  have ha2 := ha.2
  clear ha
  unfold updateAll at h
  rw [mapM_eq_ok] at h
  induction h with
  | nil => simp
  | @cons w w' ws v h1 _ ih =>
    intro u hu m hm
    rcases List.mem_cons.1 hu with rfl | hu
    · refine ha2 w (by simp) m ?_
      have hc := updateState_cmap w f hour
      revert h1 hc
      generalize w.updateState f hour = x
      obtain ⟨x1, x2⟩ := x
      intro h1 hc
      cases x2 with
      | error e => simp at h1
      | ok q =>
        simp only [Except.ok.injEq] at h1 hc
        rw [← hc, h1]; exact hm
    · exact ih (fun w hw => ha2 w (by simp [hw])) u hu m hm

theorem pyRel_and {α β : Type} {R : α → β → Prop} {P : α → Prop} {x : Py α} {y : Py β} (h : PyRel R x y) (hp : ∀ a, x = .ok a → P a) :
    PyRel (fun a b => R a b ∧ P a) x y := by
  cases x <;> cases y <;> simp only [PyRel] at h ⊢
  · exact h
  · exact ⟨h, hp _ rfl⟩

theorem inputs_kept {s : Prim K} {b : Building K} {t int : ℕ} {i : StepIn K} (h : s.inputs b t int = .ok i) :
    b.getInlet t int = .ok i.inlet ∧ ∃ hour, outletAt s.heaters s.storage hour = .ok i.outlet := by
  unfold Prim.inputs at h
  simp only [bind_eq_ok, pure_eq_ok, Except.ok.injEq] at h
  obtain ⟨_, -, _, -, c, hc, o, ho, _, -, rfl⟩ := h
  exact ⟨hc, _, ho⟩

theorem heatPrimary_kept {ws : List (Heater K)} {t : StratTank K} {i : StepIn K} {int : ℕ}
    {r : List (Heater K) × StratTank K × K × List (Option K)} (h : heatPrimary ws t i int = .ok r) :
    (∀ storage c, AimAbove ws storage c → AimAbove r.1 storage c) ∧ r.2.1.inlet = t.inlet ∧ r.2.1.outlet = i.outlet := by
  unfold heatPrimary at h
  simp only [bind_eq_ok] at h
  obtain ⟨v, hv, _, -, q, -, kws, -, h⟩ := h
  split at h
  · simp at h
  · simp only [pure_eq_ok, Except.ok.injEq] at h
    subst h
    refine ⟨fun st c ha => updateAll_aim hv ha, ?_, ?_⟩ <;>
    · simp only [StratTank.heat]
      split <;> rfl

theorem swingSimStep_hotter {ok : K → Prop} (b : Building K) (hb : ∀ t int c, b.getInlet t int = .ok c → ok c) (int : ℕ)
    (s s' : SwingSim K) (t : ℕ) (hk : SwingKept d ok s s') :
    PyRel (fun x y => SwingKept d ok x.1 y.1 ∧ y.2 = hotterOut d x.2) (swingSimStep b int s t)
      (swingSimStep (hotterBuilding d b) int s' t) := by
  obtain ⟨h, hin, haim⟩ := hk
  unfold swingSimStep
  rw [inputs_hotter (s := Prim.mk s.supply s.storage s.heaters (some s.tank)) h.storage h.heaters, h.tank, h.tm, h.supply, h.ret, h.flow]
  refine pyRel_bind (pyRel_and (pyRel_map _ _) (fun i hi => inputs_kept hi)) ?_
  rintro i _ ⟨rfl, hc, hour, ho⟩
  refine pyRel_bind (pyRel_and (heatPrimary_hotter h.heaters s.tank i int) (fun r hr => heatPrimary_kept hr)) ?_
  rintro ⟨ws, tank, q, kws⟩ ⟨ws', _, _⟩ ⟨⟨hws, e1, e2, e3⟩, k1, k2, k3⟩
  simp only at hws e1 e2 e3 k1 k2 k3
  subst e2 e3
  dsimp only
  have ht : (hotterMixed d s.tm).tempAt (1 / 2) = s.tm.tempAt (1 / 2) + d := rfl
  have hio : tank.inlet ≤ tank.outlet := by
    rw [k2, k3]
    exact outletAt_aim (haim _ hin) ho
  rw [ht, show (hotterIn d i).demand = i.demand from rfl, show (hotterIn d i).inlet = i.inlet + d from rfl, swingFlow_hotter]
  refine pyRel_bind (pyRel_refl _) ?_
  rintro _ hw rfl
  have hsl : 0 < tank.slope := by rw [e1]; exact h.slope
  rw [avgDraw_hotter tank hsl hio, recircLoss_hotter]
  by_cases hv : s.tm.vol = 0
  · rw [if_pos hv, if_pos (show (hotterMixed d s.tm).vol = 0 from hv)]; rfl
  rw [if_neg hv, if_neg (show ¬ (hotterMixed d s.tm).vol = 0 from hv), mix_hotter _ hv, mixedLoss_hotter]
  refine pyRel_bind (swingTm_hotter h.tmHeater _ i.oat i.hour int) ?_
  rintro ⟨w, tq, tkw, tm⟩ ⟨w', _, _, _⟩ ⟨hw1, h1, h2, h3⟩
  simp only at hw1 h1 h2 h3
  subst h1 h2 h3
  dsimp only
  rw [drawPhysical_hotter]
  have hfi : (tank.drawPhysical hw i.inlet (some s.supply)).inlet = i.inlet ∧
      (tank.drawPhysical hw i.inlet (some s.supply)).slope = tank.slope := by
    unfold StratTank.drawPhysical
    dsimp only
    split <;> exact ⟨rfl, rfl⟩
  refine ⟨⟨⟨rfl, h.storage, hws, by rw [hfi.2]; exact hsl, rfl, rfl, rfl, rfl, hw1⟩, by rw [hfi.1]; exact hb _ _ _ hc,
    fun c hc => k1 _ _ (haim c hc)⟩, ?_⟩
  simp only [hotterOut, nodes_hotter, Option.map_some, hotterIn, usable_hotter]
  have hu : (if s.tm.tempAt (1 / 2) + d < s.supply + d then 0 else (tank.drawPhysical hw i.inlet (some s.supply)).usable s.supply) =
      (if s.tm.tempAt (1 / 2) < s.supply then 0 else (tank.drawPhysical hw i.inlet (some s.supply)).usable s.supply) := by
    by_cases h : s.tm.tempAt (1 / 2) < s.supply
    · rw [if_pos h, if_pos (by linarith)]
    · rw [if_neg h, if_neg (by linarith)]
  rw [hu]
  rfl

/-- **C145, simulating a swing tank system.** The heaters never aim below the cold water of any month. -/
theorem C145_swing_simulation_partial (tmOff : K) {s s' : SwingSim K} {b : Building K} (h : HotterSwingSim d s s') {x : K}
    (hb : b.getDesignInlet = .ok (some x)) (h0 : x ≠ 0) (h1 : x + d ≠ 0) (hx : AimAbove s.heaters s.storage x)
    (haim : ∀ t int c, b.getInlet t int = .ok c → AimAbove s.heaters s.storage c) (thr : K) (maxMin : Int) (du : String) :
    (swingSimulate (tmOff + d) s' (hotterBuilding d b) thr maxMin du).map (·.2) =
      (swingSimulate tmOff s b thr maxMin du).map (fun y => hotterRun d y.2) := by
  apply pyRel_run (R := SwingKept d (AimAbove s.heaters s.storage))
  unfold swingSimulate
  refine pyRel_bind (pyRel_refl _) (fun _ _ _ => ?_)
  obtain ⟨q1, q2⟩ := designInletOr_hotter hb h0 h1
  rw [q1, q2]
  simp only [ok_bind]
  rw [h.supply, h.storage, h.tank, h.tm, initialUseable_hotter h.heaters, init_hotter]
  exact simulateFrom_hotter (SwingKept d (AimAbove s.heaters s.storage)) (fun ts s s' i hs => swingSimStep_hotter b haim ts s s' i hs)
    _ _ _ _ _ _ _ ⟨⟨rfl, rfl, h.heaters, h.slope, rfl, h.ret, h.flow, rfl, h.tmHeater⟩, hx, fun c hc => hc⟩

/-- Heaters with a nominal capacity give the same heat at all temperatures. -/
theorem nominal_hotter (cap : K) (sched : Option (List String)) (cmap : Option (ControlMap K)) :
    HotterHeater d (Heater.fromNominal cap sched cmap) (Heater.fromNominal cap sched (cmap.map (hotterMap d))) :=
  ⟨rfl, rfl, rfl, fun _ _ _ => rfl, fun _ _ _ => rfl⟩

/-- A primary system with a 300 gallon tank. -/
def Demo.fahr : Prim ℚ :=
  ⟨120, 150, [Heater.fromNominal 100 (some (List.replicate 24 "normal")) (some Demo.map)], some (StratTank.new 300 (28 / 10))⟩

/-- The same system with all temperatures 50 degrees lower. -/
def Demo.fahrLow : Prim ℚ :=
  ⟨70, 100, [Heater.fromNominal 100 (some (List.replicate 24 "normal")) (some (hotterMap (-50) Demo.map))],
    some (hotterTank (-50) (StratTank.new 300 (28 / 10)))⟩

/-- The systems are the same but for the temperatures. -/
theorem Demo.fahrLow_rel : HotterPrim (-50) Demo.fahr Demo.fahrLow :=
  ⟨by norm_num [Demo.fahr, Demo.fahrLow], by norm_num [Demo.fahr, Demo.fahrLow], .cons (nominal_hotter _ _ _) .nil, _, rfl,
    by norm_num [StratTank.new], rfl⟩

set_option maxRecDepth 100000 in
/-- **C145 is false for a simulation in which the cold water is at zero degrees.** The simulator takes zero for unknown and fills the
tank with water of 50 degrees: after the first minute 162 instead of 107 gallons are usable. (The run is told to stop after a minute;
the settings are those of the hypothesis above.) -/
theorem C145_simulation_fails :
    HotterPrim (-50) Demo.fahr Demo.fahrLow ∧ Demo.building.getDesignInlet = .ok (some 50) ∧
    (Demo.fahr.simulate Demo.building (-1000) 0 "3day").toOption.map (·.2.usable) = some [10713759151 / 100242420] ∧
    (Demo.fahrLow.simulate (hotterBuilding (-50) Demo.building) (-1000) 0 "3day").toOption.map (·.2.usable) =
      some [37995740519 / 233898980] := by
  refine ⟨Demo.fahrLow_rel, rfl, ?_, ?_⟩ <;> decide +kernel

/-- Non-vacuity of C145 for sizings: all temperatures 30 degrees lower, and the same tank. -/
example : (hotterSys (-30) { cfg := Demo.cfg }).cfg.supply = 90 ∧
    (size baseMethods Demo.noFiles (hotterSys (-30) { cfg := Demo.cfg }) (hotterBuilding (-30) Demo.building) (some Demo.sched)
      (some (hotterMap (-30) Demo.map)) (28/10) 1).1.1.minStorage = some (20580 / 103) := by
  refine ⟨by norm_num [hotterSys, hotterCfg, Demo.cfg], ?_⟩
  have h := C145_primary (d := -30) (b := Demo.building) Demo.noFiles { cfg := Demo.cfg } (some Demo.sched) (some Demo.map) (28/10) 1
  rw [Option.map_some] at h
  rw [h]
  decide +kernel

set_option maxRecDepth 100000 in
/-- Non-vacuity of C145 for simulations: all temperatures 10 degrees higher, and the same usable volume. -/
example : ∃ s' : Prim ℚ, HotterPrim 10 Demo.fahr s' ∧
    (s'.simulate (hotterBuilding 10 Demo.building) (-1000) 0 "3day").toOption.map (·.2.usable) = some [10713759151 / 100242420] := by
  refine ⟨⟨130, 160, [Heater.fromNominal 100 (some (List.replicate 24 "normal")) (some (hotterMap 10 Demo.map))],
    some (hotterTank 10 (StratTank.new 300 (28 / 10)))⟩, ?_, ?_⟩
  · exact ⟨by norm_num [Demo.fahr], by norm_num [Demo.fahr], .cons (nominal_hotter _ _ _) .nil, _, rfl,
      by norm_num [StratTank.new], rfl⟩
  · have h := C145_simulation_partial (d := (10 : ℚ)) (s := Demo.fahr) (b := Demo.building)
      (s' := ⟨130, 160, [Heater.fromNominal 100 (some (List.replicate 24 "normal")) (some (hotterMap 10 Demo.map))],
        some (hotterTank 10 (StratTank.new 300 (28 / 10)))⟩)
      ⟨by norm_num [Demo.fahr], by norm_num [Demo.fahr], .cons (nominal_hotter _ _ _) .nil, _, rfl,
        by norm_num [StratTank.new], rfl⟩ (x := 50) rfl (by norm_num) (by norm_num) (-1000) 0 "3day"
    have h2 := C145_simulation_fails.2.2.1
    revert h h2
    generalize Prim.simulate _ (hotterBuilding 10 Demo.building) (-1000) 0 "3day" = y
    generalize Demo.fahr.simulate Demo.building (-1000) 0 "3day" = x
    intro h h2
    cases x <;> cases y <;> simp_all [Except.map, Except.toOption, hotterRun]

/-- A swing system with a 300 gallon tank and an 80 gallon swing tank. -/
def Demo.fahrSwing : SwingSim ℚ :=
  ⟨120, 150, Demo.fahr.heaters, StratTank.new 300 (28 / 10), 110, 2, ⟨80, 0, 0⟩,
    Heater.fromNominal 20 (some (List.replicate 24 "normal")) (some [("normal", ⟨1 / 2, 120, 1 / 2, 128, 128⟩)])⟩

set_option maxRecDepth 100000 in
/-- Non-vacuity of C145 for swing systems: all temperatures 10 degrees higher, and the same usable volume. -/
example : ∃ s' : SwingSim ℚ, HotterSwingSim 10 Demo.fahrSwing s' ∧ s'.supply = 130 ∧
    (swingSimulate 138 s' (hotterBuilding 10 Demo.building) (-1000) 0 "3day").map (·.2) =
      (swingSimulate 128 Demo.fahrSwing Demo.building (-1000) 0 "3day").map (fun y => hotterRun 10 y.2) ∧
    (swingSimulate 128 Demo.fahrSwing Demo.building (-1000) 0 "3day").isOk = true := by
  have h : HotterSwingSim 10 Demo.fahrSwing ⟨130, 160,
      [Heater.fromNominal 100 (some (List.replicate 24 "normal")) (some (hotterMap 10 Demo.map))],
      hotterTank 10 (StratTank.new 300 (28 / 10)), 120, 2, hotterMixed 10 ⟨80, 0, 0⟩,
      Heater.fromNominal 20 (some (List.replicate 24 "normal")) (some (hotterMap 10 [("normal", ⟨1 / 2, 120, 1 / 2, 128, 128⟩)]))⟩ :=
    ⟨by norm_num [Demo.fahrSwing], by norm_num [Demo.fahrSwing], .cons (nominal_hotter _ _ _) .nil,
      by norm_num [Demo.fahrSwing, StratTank.new], rfl, by norm_num [Demo.fahrSwing], rfl, rfl, nominal_hotter _ _ _⟩
  have ha : AimAbove Demo.fahrSwing.heaters Demo.fahrSwing.storage 50 := by
    refine ⟨by norm_num [Demo.fahrSwing], ?_⟩
    intro w hw m hm p hp
    simp only [Demo.fahrSwing, Demo.fahr, List.mem_singleton] at hw
    subst hw
    simp only [Heater.fromNominal, Option.some.injEq] at hm
    subst hm
    revert p
    decide +kernel
  refine ⟨_, h, rfl, ?_, by decide +kernel⟩
  have := C145_swing_simulation_partial (d := 10) 128 h (b := Demo.building) (x := 50) rfl (by norm_num) (by norm_num) ha
    (by
      intro t int c hc
      have : c = 50 := by
        have h2 : (.ok 50 : Py ℚ) = .ok c := hc
        exact (Except.ok.inj h2).symm
      rw [this]
      exact ha) (-1000) 0 "3day"
  rw [show (128 : ℚ) + 10 = 138 by norm_num] at this
  exact this

end Eco
