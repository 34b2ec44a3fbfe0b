import Verif.Props.ErCoverage

set_option linter.unusedSectionVars false

/-! C116: a system that needs an electric resistance addition, but none for a fifth more demand. -/

namespace Eco
variable {K : Type} [Field K] [LinearOrder K] [IsStrictOrderedRing K]

/-- The rows of the first part of a demand sequence are rows of the whole run. -/
theorem erRun_prefix {p : SwingParams K} {inlet storage gen full : K} {ds ds' : List K} {heating : Bool} {t level : K}
    {rows : List (ErMin K)} (h : erRun p inlet storage gen full heating t level (ds ++ ds') = .ok rows) :
    ∃ rows1, erRun p inlet storage gen full heating t level ds = .ok rows1 ∧ ∀ row ∈ rows1, row ∈ rows := by
  induction ds generalizing heating t level rows with
  | nil => exact ⟨[], rfl, by simp⟩
  | cons d ds ih =>
    simp only [List.cons_append, erRun, bind_eq_ok, pure_eq_ok, Except.ok.injEq] at h
    obtain ⟨r, hs, rest, hrest, rfl⟩ := h
    obtain ⟨rows1, h1, h2⟩ := ih hrest
    refine ⟨_, by simp only [erRun, hs, h1, ok_bind, pure_eq_ok]; rfl, ?_⟩
    intro row hrow
    rcases List.mem_cons.1 hrow with rfl | hrow
    · exact List.mem_cons_self ..
    · exact List.mem_cons_of_mem _ (h2 row hrow)

namespace Demo

/-- Two busy hours with an idle hour between them, the second busier than the first. -/
def twoShape : List ℚ := [192/498, 0, 306/498] ++ List.replicate 21 0

def twoBuilding : Building ℚ :=
  ⟨some (ClimateZone.fromDesignConditions (some 20) (some 50)), 498, twoShape, twoShape, "custom"⟩

/-- The primary [kBTU/h]: two gallons per minute from inlet to storage temperature. -/
def twoPrimary : ℚ := 12 * rhoCp ℚ

/-- The base element [kBTU/h]: 2.25 times the loop loss. -/
def twoElement : ℚ := 54 / 5 * rhoCp ℚ

/-- The swing tank. -/
def twoTank : SwingParams ℚ := ⟨1000, recircLossKbtuh 120 110 8, twoElement, 120⟩

/-- The system before its addition is sized. -/
def twoSys : ErSys ℚ :=
  ⟨⟨{ cfg := ⟨120, 150, 24, 1⟩, minCap := some twoPrimary, minStorage := some 1 }, 110, 8, 6/5, some 1000, none,
    some twoElement, 1⟩, 1, none⟩

def moreBuilding : Building ℚ := { twoBuilding with dailyGal := 498 * (((120 : Nat) : ℚ) / 100) }

/-- All deficits of a run are zero. -/
def quiet (r : Py (List (ErMin ℚ))) : Bool :=
  match r with
  | .ok rows => rows.all (fun r => decide (r.deficit = 0))
  | .error _ => false

set_option maxRecDepth 100000 in
theorem quiet_empty : quiet (erRun twoTank 50 150 (Spec.genGpm twoPrimary 150 50) 1 false 120 0
    (perMinute (erHours twoSys.sw.base.cfg moreBuilding))) = true := by decide +kernel

set_option maxRecDepth 100000 in
theorem quiet_full : quiet (erRun twoTank 50 150 (Spec.genGpm twoPrimary 150 50) 1 false 120 1
    (perMinute (erHours twoSys.sw.base.cfg moreBuilding))) = true := by decide +kernel

/-- The run for the given demand falls short within the first three hours. -/
theorem two_short : (match erRun twoTank 50 150 (Spec.genGpm twoPrimary 150 50) 1 false 120 0
      (perMinute [192, 0, 306]) with
    | .ok rows => rows.any (fun r => decide (0 < r.deficit))
    | .error _ => false) = true := by decide +kernel

theorem two_hours : erHours twoSys.sw.base.cfg twoBuilding
    = [192, 0, 306] ++ (List.replicate 21 0 ++ [192, 0, 306] ++ List.replicate 21 0) := by decide +kernel

end Demo

theorem quiet_all {p : SwingParams ℚ} {inlet storage gen full t level : ℚ} {ds : List ℚ}
    (h : Demo.quiet (erRun p inlet storage gen full false t level ds) = true) :
    ∃ rows, erRun p inlet storage gen full false t level ds = .ok rows ∧ ∀ r ∈ rows, r.deficit = 0 := by
  unfold Demo.quiet at h
  split at h
  · rename_i rows hr
    exact ⟨rows, hr, by simpa using h⟩
  · simp at h

theorem Demo.two_inlet : requireDesignInlet Demo.twoBuilding = .ok 50 := by decide +kernel

/-- The demand of the building needs an addition. -/
theorem Demo.two_sized : ∃ er, 0 < er ∧ Demo.twoSys.sizeEr Demo.twoBuilding
    = (⟨{ Demo.twoSys.sw with tmCap := some (Demo.twoElement + er) }, 1, some er⟩, .ok ()) := by
  have hp : Demo.twoSys.sw.params = .ok Demo.twoTank := rfl
  obtain ⟨e, h⟩ := C84_er_sizing_never_fails_partial (e := Demo.twoSys) (b := Demo.twoBuilding) hp rfl rfl Demo.two_inlet
    (by decide +kernel) (by decide +kernel) (by decide +kernel) (by decide +kernel) (by decide +kernel) (by decide +kernel)
  obtain ⟨rows, -, -, hrows, he⟩ := sizeEr_ok h hp rfl rfl Demo.two_inlet
  refine ⟨_, ?_, by rw [h, he]; rfl⟩
  have hm : 0 < maxDeficit rows := by
    simp only [erScenarios, bind_eq_ok, pure_eq_ok, Except.ok.injEq] at hrows
    obtain ⟨r1, h1, r2, -, rfl⟩ := hrows
    rw [Demo.two_hours] at h1
    unfold perMinute at h1
    rw [List.flatMap_append] at h1
    obtain ⟨rows1, h2, h3⟩ := erRun_prefix h1
    have h4 := Demo.two_short
    split at h4
    · rename_i rows' hr'
      have h5 : rows' = rows1 := Except.ok.inj (hr'.symm.trans h2)
      subst h5
      simp only [List.any_eq_true, decide_eq_true_eq] at h4
      obtain ⟨r, hr, hpos⟩ := h4
      exact hpos.trans_le (maxDeficit_ge (List.mem_append_left _ (h3 r hr)))
    · simp at h4
  have hr := rho_pos (K := ℚ)
  have hv : 0 < Demo.twoTank.vol := by decide +kernel
  have hsf : Demo.twoSys.erSf = 1 := rfl
  rw [hsf, mul_one]
  positivity

/-- A fifth more demand needs none. -/
theorem Demo.more_sized : Demo.twoSys.sizeEr Demo.moreBuilding
    = (⟨{ Demo.twoSys.sw with tmCap := some (Demo.twoElement + 0) }, 1, some 0⟩, .ok ()) := by
  have hp : Demo.twoSys.sw.params = .ok Demo.twoTank := rfl
  have hin : requireDesignInlet Demo.moreBuilding = .ok 50 := by decide +kernel
  obtain ⟨e, h⟩ := C84_er_sizing_never_fails_partial (e := Demo.twoSys) (b := Demo.moreBuilding) hp rfl rfl hin
    (by decide +kernel) (by decide +kernel) (by decide +kernel) (by decide +kernel) (by decide +kernel) (by decide +kernel)
  obtain ⟨rows, -, -, hrows, he⟩ := sizeEr_ok h hp rfl rfl hin
  have hm : maxDeficit rows = 0 := by
    have hz : ∀ r ∈ rows, r.deficit = 0 := by
      simp only [erScenarios, bind_eq_ok, pure_eq_ok, Except.ok.injEq] at hrows
      obtain ⟨r1, h1, r2, h2, rfl⟩ := hrows
      obtain ⟨s1, g1, z1⟩ := quiet_all Demo.quiet_empty
      obtain ⟨s2, g2, z2⟩ := quiet_all Demo.quiet_full
      have e1 : r1 = s1 := Except.ok.inj (h1.symm.trans g1)
      have e2 : r2 = s2 := Except.ok.inj (h2.symm.trans g2)
      subst e1 e2
      intro r hr
      rcases List.mem_append.1 hr with hr | hr
      · exact z1 r hr
      · exact z2 r hr
    exact (maxDeficit_zero (fun r hr => (hz r hr).ge)).2 hz
  rw [hm] at he
  rw [h, he]
  simp only [mul_zero, zero_div, zero_mul]
  rfl

/-- **C116 fails.** A system built from components that needs an addition for its building, but none for a fifth more demand:
more demand warms the swing tank less before the busy hour, so that the element is still on when the hour comes. The
trade-off query, with its default safety factor, answers with the single point at 120 percent, where the element is smaller
than the sized one, and the start index names that point. -/
theorem C116_more_coverage_smaller_element :
    ∃ (heaters : List (Heater ℚ)) (b : Building ℚ) (tankVol tmVol tmCap er : ℚ) (e e1 : ErSys ℚ) (w : Heater ℚ) (c : ErCurve ℚ),
      ErSys.fromComponents heaters tankVol tmVol tmCap b 120 150 110 8 1 = .ok (e, w) ∧ e.erCap = some er ∧ 0 < er ∧
      Spec.erAt e b tmCap 1 120 = (e1, .ok ()) ∧ e1.erCap = some 0 ∧
      e.getErSizedPoints b 1 = ((e, b), .ok c) ∧ c.percents = [120] ∧ c.percents[c.start]? = some 120 := by
  obtain ⟨er, hpos, h⟩ := Demo.two_sized
  have hoat : Demo.twoBuilding.getDesignOat = .ok (some 20) := by decide +kernel
  set e : ErSys ℚ := ⟨{ Demo.twoSys.sw with tmCap := some (Demo.twoElement + er) }, 1, some er⟩ with he
  have h120 : Spec.erAt e Demo.twoBuilding (Demo.twoElement + er - er) 1 120
      = (⟨{ Demo.twoSys.sw with tmCap := some (Demo.twoElement + 0) }, 1, some 0⟩, .ok ()) := by
    rw [add_sub_cancel_right]
    exact Demo.more_sized
  obtain ⟨c, h1, h2, h3⟩ := C69_start_can_name_120 (e := e) (b := Demo.twoBuilding) (extra := 1) rfl rfl hpos h120 rfl
    (le_refl _)
  rw [add_sub_cancel_right] at h120
  refine ⟨[Heater.fromNominal Demo.twoPrimary none none], Demo.twoBuilding, 1, 1000, Demo.twoElement, er, e, _, _, c,
    fromComponents_one hoat Demo.two_inlet h, rfl, hpos, h120, rfl, h1, h2, ?_⟩
  rw [h2, h3]
  rfl

end Eco
