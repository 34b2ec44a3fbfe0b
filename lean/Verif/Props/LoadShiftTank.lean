import Verif.Props.LoadShift
import Verif.Props.Size
import Verif.Props.StratFactor

/-! C107: the tank of a load-shift sizing lasts from the load-up level down to the shed level. -/

namespace Eco
set_option linter.unusedSectionVars false
open Spec
variable {K : Type} [Field K] [LinearOrder K] [IsStrictOrderedRing K]

/-- The larger the generation, the smaller the shortfall. -/
theorem shortfall_anti {u : ℕ → K} {sched : List String} {g g' : K} (h : g ≤ g') (s k : ℕ) :
    shortfall u (shedGen sched g') s k ≤ shortfall u (shedGen sched g) s k := by
  unfold shortfall
  apply Finset.sum_le_sum
  intro i _
  have : shedGen sched g (s + i) ≤ shedGen sched g' (s + i) := by
    unfold shedGen; split
    · exact le_rfl
    · exact h
  linarith

/-- C107 with the yields of the two levels as computed by sizing. -/
theorem lasts_through_shed (db : ShapeFiles K) (s s1 : DhwSys K) (b b1 : Building K) (sched : List String)
    (m : ControlMap K) (slope inlet cap st : K) (ws : Warnings) (nC lu sh : Controls K) (start : ℕ)
    (hsize : size baseMethods db s b (some sched) (some m) slope 1 = ((s1, b1), .ok ws))
    (hcap : getMinCapacity s1 = .ok cap) (hst : getMinStorage s1 = .ok st)
    (hann : b.isAnnual = false) (hin : b.getDesignInlet = .ok (some inlet))
    (hday : 0 ≤ b.dailyGal) (hshape : ∀ f ∈ b.avgShape, 0 ≤ f) (hsum : b.avgShape.sum ≤ 1)
    (hlen : sched.length = 24) (hfirst : HourIs sched "shed" start) (hbefore : ∀ h < start, ¬ HourIs sched "shed" h)
    (hn : dictGet? m "normal" = some nC) (hlu : (dictGet? m "loadUp").getD nC = lu)
    (hsh : dictGet? m "shed" = some sh)
    (hrun : 0 < s.cfg.maxRunHr) (hdef : 0 < s.cfg.defrost) 
    (hsup : inlet < s.cfg.supply)
    (hot low : K) (hhot : supplyGalPer100 s.cfg lu.offFract lu.offTrig slope inlet = .ok hot)
    (hlow : supplyGalPer100 s.cfg sh.onFract sh.onTrig slope inlet = .ok low)
    (hband : low < hot) (k : ℕ) :
    st / 100 * low ≤ st / 100 * hot - shortfall (use b.dailyGal b.avgShape)
      (shedGen sched (cap * 1000 * s.cfg.defrost / (rhoCp K * (s.cfg.supply - inlet)))) start k := by
  have hstart : start < 24 := by
    unfold HourIs at hfirst
    rw [List.getElem?_eq_some_iff] at hfirst
    obtain ⟨h, _⟩ := hfirst; omega
  obtain ⟨start', n, luN, hblock, hn0, hmax, hfirst', _⟩ := C14_first_shed_block sched hlen.ge ⟨start, hstart, hfirst⟩
  obtain rfl : start = start' := by
    rcases lt_trichotomy start start' with h | h | h
    · exact absurd hfirst (hfirst' _ h)
    · exact h
    · exact absurd (hmax.all start' le_rfl (by omega)) (hbefore _ h)
  have hls : lsInputs (some sched) (some m) = some (sched, m) := by
    have hne : sched ≠ [] := by rintro rfl; simp at hlen
    obtain ⟨x, xs, rfl⟩ := List.exists_cons_of_ne_nil hne
    have : dictHas m "shed" = true := by simp [dictHas, hsh]
    simp [lsInputs, truthySched, this]
  rcases size_cases baseMethods db s b (some sched) (some m) slope 1 with
    ⟨e, _, he⟩ | ⟨b', hb', ⟨e, _, he⟩ | ⟨cap', st', hc, ⟨e, _, he⟩ | ⟨ws', b2, hw, he, _, _⟩⟩⟩
  · simp [he] at hsize
  · simp [he] at hsize
  · simp [he] at hsize
  · rw [he] at hsize
    obtain rfl : b = b' := by
      unfold dailyView at hb'
      rw [hann] at hb'
      simpa using hb'
    have hs1 : DhwSys.mk s.cfg (some cap') (some st') (some slope) s.heaterMap = s1 := by
      simp only [Prod.mk.injEq] at hsize; exact hsize.1.1
    subst hs1
    simp only [getMinCapacity, Except.ok.injEq] at hcap
    simp only [getMinStorage, Except.ok.injEq] at hst
    subst hcap hst
    rw [hls] at hc
    unfold sizeCore at hc
    simp only [bind_eq_ok] at hc
    obtain ⟨inlet', h1, cap0, h2, rv, h3, sf, h4, st0, h5, capLs, h7, gen, h8, rvLs, h9, stLs, h10, h11⟩ := hc
    simp only [pure_eq_ok, Except.ok.injEq, Prod.mk.injEq] at h11
    have hinl : requireDesignInlet b = .ok inlet := by
      unfold requireDesignInlet; rw [hin]; rfl
    obtain rfl : inlet = inlet' := by rw [hinl] at h1; injection h1
    change genRateLs _ sched m b slope 1 = .ok gen at h8
    change runningVolumeLs sched b gen 1 = .ok rvLs at h9
    change requiredCapacityLs genRateLs _ sched m b slope 1 = .ok capLs at h7
    have hcover := C15_sized_rate_covers s.cfg sched m b slope 1 gen hrun hday hsum h8
    have hgr := C15_ls_store_never_dry sched b gen rvLs start n luN hlen hday hshape hblock h9 hcover
    have hrv : shortfall (use b.dailyGal b.avgShape) (shedGen sched gen) start k ≤ rvLs := hgr.2 ⟨k, rfl⟩
    have hrv0 : 0 ≤ rvLs := by
      have := hgr.2 ⟨0, rfl⟩
      simpa [shortfall] using this
    -- the capacity
    unfold requiredCapacityLs capacityOfGenRate at h7
    simp only [bind_eq_ok, hinl, Except.ok.injEq, h8, fdiv_eq_ok] at h7
    obtain ⟨_, rfl, _, rfl, _, ⟨_, rfl⟩, h7⟩ := h7
    have hd : 0 < s.cfg.supply - inlet := by linarith
    have hrho : (0 : K) < rhoCp K := by unfold rhoCp; norm_num
    have hgen : gen ≤ cap' * 1000 * s.cfg.defrost / (rhoCp K * (s.cfg.supply - inlet)) := by
      rw [le_div_iff₀ (mul_pos hrho hd)]
      have hle : capLs ≤ cap' := by rw [← h11.1]; exact le_max_right _ _
      have e : gen * (rhoCp K * (s.cfg.supply - inlet)) = capLs * 1000 * s.cfg.defrost := by
        rw [← h7]
        simp only [cappedCfg]
        field_simp
      rw [e]
      nlinarith
    have hsf := (shortfall_anti (u := use b.dailyGal b.avgShape) (sched := sched) hgen start k).trans hrv
    -- the storage
    unfold storageVolumeLs storageVolume lsControls at h10
    simp only [bind_eq_ok, fdiv_eq_ok, pure_eq_ok, Except.ok.injEq, dictGet_eq_ok, hn, hsh, Option.some.injEq,
      Prod.exists, Prod.mk.injEq] at h10
    obtain ⟨_, luC, sC, ⟨_, rfl, _, rfl, _, rfl, rfl⟩, luX, p1, sX, p2, hne, rfl⟩ := h10
    rw [hlu] at p1
    have q1 : supplyGalPer100 s.cfg lu.offFract lu.offTrig slope inlet = .ok luX := p1
    have q2 : supplyGalPer100 s.cfg sh.onFract sh.onTrig slope inlet = .ok sX := p2
    obtain rfl : luX = hot := by rw [hhot] at q1; injection q1 with q1; exact q1.symm
    obtain rfl : sX = low := by rw [hlow] at q2; injection q2 with q2; exact q2.symm
    have hb : 0 < (luX - sX) / 100 := div_pos (by linarith) (by norm_num)
    have hle : rvLs / ((luX - sX) / 100) ≤ st' := by rw [← h11.2]; exact le_max_right _ _
    rw [div_le_iff₀ hb] at hle
    linarith [show st' * ((luX - sX) / 100) = st' / 100 * luX - st' / 100 * sX by ring]

/-- **C107.** Take the capacity and the storage that full-coverage load-shift sizing reports. If the tank holds the
water of the load-up OFF level when the first shed block starts, and the heaters run at the reported capacity, derated
by the defrost factor, in all hours but the shed ones, then the tank always holds at least the water of the shed ON
level. `hot` and `low` are the supply-temperature gallons that a 100-gallon tank yields at these two levels. -/
theorem C107_lasts_through_shed (db : ShapeFiles ℝ) (s s1 : DhwSys ℝ) (b b1 : Building ℝ) (sched : List String)
    (m : ControlMap ℝ) (slope inlet cap st : ℝ) (ws : Warnings) (nC lu sh : Controls ℝ) (start : ℕ)
    (hsize : size baseMethods db s b (some sched) (some m) slope 1 = ((s1, b1), .ok ws))
    (hcap : getMinCapacity s1 = .ok cap) (hst : getMinStorage s1 = .ok st)
    (hann : b.isAnnual = false) (hin : b.getDesignInlet = .ok (some inlet))
    (hday : 0 ≤ b.dailyGal) (hshape : ∀ f ∈ b.avgShape, 0 ≤ f) (hsum : b.avgShape.sum ≤ 1)
    (hlen : sched.length = 24) (hfirst : HourIs sched "shed" start) (hbefore : ∀ h < start, ¬ HourIs sched "shed" h)
    (hn : dictGet? m "normal" = some nC) (hlu : (dictGet? m "loadUp").getD nC = lu)
    (hsh : dictGet? m "shed" = some sh)
    (hrun : 0 < s.cfg.maxRunHr) (hdef : 0 < s.cfg.defrost) (hslope : 0 < slope)
    (hsup : inlet < s.cfg.supply) (hsto : s.cfg.supply ≤ s.cfg.storage)
    (hluT : lu.offTrig ≤ s.cfg.storage) (hshT : sh.onTrig ≤ s.cfg.storage)
    (hot low : ℝ)
    (hhot : hot = supplyGallons (sizingProfile (lu.offFract * 100) lu.offTrig slope s.cfg.storage) (lu.offFract * 100)
      s.cfg.supply inlet)
    (hlow : low = supplyGallons (sizingProfile (sh.onFract * 100) sh.onTrig slope s.cfg.storage) (sh.onFract * 100)
      s.cfg.supply inlet)
    (hband : low < hot) (k : ℕ) :
    st / 100 * low ≤ st / 100 * hot - shortfall (use b.dailyGal b.avgShape)
      (shedGen sched (cap * 1000 * s.cfg.defrost / (rhoCp ℝ * (s.cfg.supply - inlet)))) start k := by
  apply lasts_through_shed db s s1 b b1 sched m slope inlet cap st ws nC lu sh start hsize hcap hst hann hin hday hshape
    hsum hlen hfirst hbefore hn hlu hsh hrun hdef hsup hot low ?_ ?_ hband k
  · rw [hhot]; exact C05_supply_gallons_is_integral s.cfg lu.offFract lu.offTrig slope inlet hslope hsup hsto hluT
  · rw [hlow]; exact C05_supply_gallons_is_integral s.cfg sh.onFract sh.onTrig slope inlet hslope hsup hsto hshT

/-- Non-vacuity of C107: the demo system, at its shed block from 17 to 20 h. -/
example : ∃ cap st ws, (size baseMethods Demo.noFiles { cfg := Demo.cfg } Demo.building (some Demo.sched) (some Demo.map)
      (28/10) 1).2 = .ok ws ∧
    getMinCapacity (size baseMethods Demo.noFiles { cfg := Demo.cfg } Demo.building (some Demo.sched) (some Demo.map)
      (28/10) 1).1.1 = .ok cap ∧
    getMinStorage (size baseMethods Demo.noFiles { cfg := Demo.cfg } Demo.building (some Demo.sched) (some Demo.map)
      (28/10) 1).1.1 = .ok st ∧
    supplyGalPer100 Demo.cfg Demo.loadUp.offFract Demo.loadUp.offTrig (28/10) 50 = .ok (12375/98) ∧
    supplyGalPer100 Demo.cfg Demo.shed.onFract Demo.shed.onTrig (28/10) 50 = .ok (2075/98) ∧
    HourIs Demo.sched "shed" 17 ∧ (∀ h < 17, ¬ HourIs Demo.sched "shed" h) ∧ Demo.shape.sum ≤ 1 := by
  refine ⟨81864643/2000000, 20580/103, [("loadUp", false), ("shed", false)], ?_⟩
  unfold HourIs
  decide +kernel

namespace Demo

/-- Controls whose shed ON level holds more water than their OFF level. -/
def invertedMap : ControlMap ℚ := [("normal", ⟨5/10, 120, 4/10, 120, 150⟩), ("shed", ⟨2/10, 120, 1/10, 120, 150⟩)]

end Demo

/-- **C107 needs the order of the two levels.** With the shed ON level below the OFF level the load-shift storage is
negative and is dropped without an error: sizing reports the storage of a system without load shifting, and even when
this tank is at storage temperature from top to bottom it does not cover the use of the shed block. -/
theorem C107_inverted_levels_ignored :
    ∃ s1 b1 ws st st', size baseMethods Demo.noFiles { cfg := Demo.cfg } Demo.building (some Demo.sched)
        (some Demo.invertedMap) (28/10) 1 = ((s1, b1), .ok ws) ∧ getMinStorage s1 = .ok st ∧
      getMinStorage (size baseMethods Demo.noFiles { cfg := Demo.cfg } Demo.building none
        (some Demo.invertedMap) (28/10) 1).1.1 = .ok st' ∧ st = st' ∧
      ∀ gen, st * ((150 - 50) / (120 - 50)) <
        shortfall (use Demo.building.dailyGal Demo.building.avgShape) (shedGen Demo.sched gen) 17 3 := by
  refine ⟨(size baseMethods Demo.noFiles { cfg := Demo.cfg } Demo.building (some Demo.sched)
        (some Demo.invertedMap) (28/10) 1).1.1, (size baseMethods Demo.noFiles { cfg := Demo.cfg } Demo.building
        (some Demo.sched) (some Demo.invertedMap) (28/10) 1).1.2, [("normal", false), ("shed", false)], 24500/271, 24500/271, ?_, ?_, ?_, rfl, ?_⟩
  · exact Prod.ext rfl (by decide +kernel)
  · decide +kernel
  · decide +kernel
  · intro gen
    have h : ∀ i, i < 3 → shedGen Demo.sched gen (17 + i) = 0 := by
      intro i hi
      unfold shedGen
      rw [if_pos]
      interval_cases i <;> decide +kernel
    have e : shortfall (use Demo.building.dailyGal Demo.building.avgShape) (shedGen Demo.sched gen) 17 3 = 210 := by
      unfold shortfall
      rw [Finset.sum_congr rfl (g := fun i => use Demo.building.dailyGal Demo.building.avgShape (17 + i))
        (fun i hi => by rw [h i (Finset.mem_range.mp hi), sub_zero])]
      decide +kernel
    rw [e]; norm_num

end Eco
