import Verif.Props.Curves
import Verif.Lemmas.Shift

/-! C13 to C17: load-shift sizing. -/

namespace Eco
set_option linter.unusedSectionVars false
variable {K : Type} [Field K] [LinearOrder K] [IsStrictOrderedRing K]
open Spec

/-! ## C14 -/

/-- **C14.** For every schedule of at least 24 entries that sheds in some hour of the day: the block
is the list of hours of a maximal run of shed hours, starting at the earliest shed hour, and the
load-up count is the length of the maximal run of load-up hours that ends just before it. -/
theorem C14_first_shed_block (sched : List String) (hlen : 24 ≤ sched.length)
    (hshed : ∃ h < 24, HourIs sched "shed" h) :
    ∃ start n lu, firstShedBlock sched = .ok (List.range' start n, lu) ∧ 0 < n ∧
      MaxRun sched "shed" start n ∧ (∀ h < start, ¬ HourIs sched "shed" h) ∧
      lu ≤ start ∧ MaxRun sched "loadUp" (start - lu) lu := by
  obtain ⟨x, hx, hxs⟩ := hshed
  cases hf : firstShedBlock sched with
  | error e =>
    exfalso
    unfold firstShedBlock at hf
    rw [if_neg (by omega)] at hf
    split at hf <;> simp at hf
  | ok p =>
    obtain ⟨block, lu⟩ := p
    cases block with
    | nil =>
      exfalso
      unfold firstShedBlock at hf
      rw [if_neg (by omega)] at hf
      split at hf
      · rename_i hnil
        rw [List.filter_eq_nil_iff] at hnil
        exact hnil x (by simpa using hx) (by simpa [HourIs] using hxs)
      · simp at hf
    | cons h0 t =>
      obtain ⟨_, n, h1, h2, h3, h4, h5, h6⟩ := firstShedBlock_cons hf
      obtain ⟨g1, g2, g3⟩ := countLoadUp_spec sched h0
      rw [← h6] at g1 g2 g3
      refine ⟨h0, n + 1, lu, by rw [← h1], by omega, ⟨h2, h4, ?_, h5⟩, h3, g1,
        ⟨by omega, fun h k1 k2 => g2 h k1 (by omega), ?_, ?_⟩⟩
      · by_cases h0z : h0 = 0
        · left; exact h0z
        · right; exact h3 (h0 - 1) (by omega)
      · rcases g3 with g3 | g3
        · left; omega
        · right; exact g3
      · right
        have : h0 - lu + lu = h0 := by omega
        rw [this]
        have := h4 h0 (le_refl _) (by omega)
        unfold HourIs
        rw [this]; simp

/-- **C14 (no shed hour, short schedule).** -/
theorem C14_no_shed_hour (sched : List String) :
    (sched.length < 24 → firstShedBlock sched = .error .indexError) ∧
    (24 ≤ sched.length → (∀ h < 24, ¬ HourIs sched "shed" h) → firstShedBlock sched = .ok ([], 0)) := by
  constructor
  · intro h; simp [firstShedBlock, h]
  · intro h hn
    unfold firstShedBlock
    rw [if_neg (by omega)]
    have : (List.range 24).filter (fun h => decide (sched[h]? = some "shed")) = [] := by
      rw [List.filter_eq_nil_iff]
      intro x hx
      simpa [HourIs] using hn x (by simpa using hx)
    rw [this]

/-- Non-vacuity of C14. -/
example : firstShedBlock Demo.sched = .ok ([17, 18, 19], 2) := by decide +kernel

/-! ## C15 -/

/-- The load-shift running volume in terms of the repeating day. -/
theorem runningVolumeLs_eq {sched : List String} {b : Building K} {gen fract v : K}
    (hv : runningVolumeLs sched b gen fract = .ok v) :
    b.avgShape.length = 24 ∧ ∃ start n lu t, firstShedBlock sched = .ok (start :: t, lu) ∧
      start :: t = List.range' start (n + 1) ∧ start + (n + 1) ≤ 24 ∧
      (∀ x, start ≤ x → x < start + (n + 1) → sched[x]? = some "shed") ∧
      v = worstNegative (cumsum ((lsDiff sched gen b.dailyGal b.avgShape ++
          lsDiff sched gen b.dailyGal b.avgShape).drop (start + (n + 1)))) * fract +
        (∑ i ∈ Finset.range (n + 1), use b.dailyGal b.avgShape (start + i)) * fract := by
  unfold runningVolumeLs at hv
  simp only [bind_eq_ok] at hv
  obtain ⟨⟨block, lu⟩, h1, ⟨vs, vc⟩, h2, h3⟩ := hv
  simp only at h3
  split at h3
  · simp at h3
  rename_i hl
  simp only [ne_eq, not_not] at hl
  split at h3
  · simp at h3
  rename_i e he
  cases block with
  | nil => simp at he
  | cons h0 t =>
    obtain ⟨_, n, g1, g2, g3, g4, g5, g6⟩ := firstShedBlock_cons h1
    rw [prelimVols_eq h1 g1 (by omega)] at h2
    simp only [Except.ok.injEq, Prod.mk.injEq] at h2
    rw [g1, List.range'_concat] at he
    simp only [List.getLast?_append, List.getLast?_singleton, Option.some_or, Option.some.injEq,
      one_mul] at he
    simp only [pure_eq_ok, Except.ok.injEq] at h3
    refine ⟨hl, h0, n, lu, t, h1, g1, g2, g4, ?_⟩
    rw [← h3, ← h2.1, ← he]
    rfl

/-- **C15.** At full coverage, a store that holds the load-shift running volume when the first shed
block starts, is not heated in shed hours and is heated at the load-shift rate in all other hours
never runs dry, over any number of hours; and with any less it would. -/
theorem C15_ls_store_never_dry (sched : List String) (b : Building K) (gen v : K) (start n lu : ℕ)
    (hs : sched.length = 24) (hday : 0 ≤ b.dailyGal) (hshape : ∀ f ∈ b.avgShape, 0 ≤ f)
    (hblock : firstShedBlock sched = .ok (List.range' start n, lu))
    (hv : runningVolumeLs sched b gen 1 = .ok v)
    (hcover : b.dailyGal * b.avgShape.sum ≤
      gen * (sched.countP (fun x => decide (x ≠ "shed")) : K)) :
    IsGreatest {x | ∃ k, x = shortfall (use b.dailyGal b.avgShape) (shedGen sched gen) start k} v := by
  obtain ⟨hl, start', m, lu', t, h1, h2, h3, h4, h5⟩ := runningVolumeLs_eq hv
  rw [hblock] at h1
  simp only [Except.ok.injEq, Prod.mk.injEq] at h1
  have hst : start = start' ∧ n = m + 1 := by
    have e1 := h1.1
    rw [h2] at e1
    have e2 := congrArg List.length e1
    simp only [List.length_range'] at e2
    subst e2
    rw [List.range'_succ, List.range'_succ] at e1
    simp only [List.cons.injEq] at e1
    exact ⟨e1.1, rfl⟩
  obtain ⟨rfl, rfl⟩ := hst
  set u := use b.dailyGal b.avgShape with hu
  set g := shedGen sched gen with hg
  set d := lsDiff sched gen b.dailyGal b.avgShape with hd
  have hdl : d.length = 24 := by rw [hd, lsDiff_length, hl]
  have hdne : d ≠ [] := by intro h; rw [h] at hdl; simp at hdl
  have hsum : 0 ≤ d.sum := by rw [hd, lsDiff_sum _ _ _ hl hs]; linarith
  have hsw : ∀ s k, shortfall u g s k = -wsum d s k := fun s k => shortfall_eq_wsum_ls _ _ _ hl s k
  -- inside the block only use counts
  have hin : ∀ k ≤ m + 1, shortfall u g start k = ∑ i ∈ Finset.range k, u (start + i) := by
    intro k hk
    unfold shortfall
    apply Finset.sum_congr rfl
    intro i hi
    have hi := Finset.mem_range.mp hi
    have : g (start + i) = 0 := by
      rw [hg, shedGen, Nat.mod_eq_of_lt (by omega), if_pos (h4 _ (by omega) (by omega))]
    rw [this, sub_zero]
  have hunn : ∀ h, 0 ≤ u h := fun h => use_nonneg hday hshape h
  set D := worstNegative (cumsum ((d ++ d).drop (start + (m + 1)))) with hD
  simp only [mul_one] at h5
  have hDn : 0 ≤ D := worstNegative_nonneg _
  -- after the block the worst shortfall is `D`
  have hafter : ∀ k, shortfall u g (start + (m + 1)) k ≤ D := by
    intro k
    rw [hsw]
    obtain ⟨j, hj, hjk, hle⟩ := shorten d hdne hsum (start + (m + 1)) k
    have : -wsum d (start + (m + 1)) j ≤ D := by
      cases j with
      | zero => rw [wsum_zero]; simpa using hDn
      | succ j =>
        apply worstNegative_ge
        rw [mem_cumsum]
        refine ⟨j, ?_, ?_⟩
        · simp only [List.length_drop, List.length_append]; omega
        · rw [take_sum_eq_wsum d (by omega)]
    linarith
  have hatt : ∃ k, shortfall u g (start + (m + 1)) k = D := by
    rcases worstNegative_attained (cumsum ((d ++ d).drop (start + (m + 1)))) with h | ⟨x, hx, h⟩
    · exact ⟨0, by rw [shortfall_zero, hD, h]⟩
    · rw [mem_cumsum] at hx
      obtain ⟨k, hk, rfl⟩ := hx
      simp only [List.length_drop, List.length_append] at hk
      refine ⟨k + 1, ?_⟩
      rw [hsw, hD, h, take_sum_eq_wsum d (by omega)]
  constructor
  · obtain ⟨k, hk⟩ := hatt
    refine ⟨(m + 1) + k, ?_⟩
    rw [shortfall_add, hk, hin _ (le_refl _), h5]; ring
  · rintro x ⟨k, rfl⟩
    by_cases hk : k ≤ m + 1
    · rw [hin k hk, h5]
      have : ∑ i ∈ Finset.range k, u (start + i) ≤ ∑ i ∈ Finset.range (m + 1), u (start + i) := by
        apply Finset.sum_le_sum_of_subset_of_nonneg
        · intro i hi; simp only [Finset.mem_range] at *; omega
        · intro i _ _; exact hunn _
      linarith
    · obtain ⟨j, rfl⟩ := Nat.exists_eq_add_of_le (by omega : m + 1 ≤ k)
      rw [shortfall_add, hin _ (le_refl _), h5]
      linarith [hafter j]

/-- The load-shift rate is at least the normal rate. -/
theorem genRateLs_ge {c : SysCfg K} {sched : List String} {m : ControlMap K} {b : Building K}
    {slope fract gen : K} (h : genRateLs c sched m b slope fract = .ok gen) :
    c.maxRunHr ≠ 0 ∧ b.dailyGal / c.maxRunHr ≤ gen := by
  unfold genRateLs at h
  simp only [bind_eq_ok, fdiv_eq_ok] at h
  obtain ⟨nm, ⟨hr, rfl⟩, ⟨blk, lu⟩, h2, h3⟩ := h
  refine ⟨hr, ?_⟩
  simp only at h3
  split at h3
  · simp only [pure_eq_ok, Except.ok.injEq] at h3; exact h3.le
  · simp only [bind_eq_ok] at h3
    obtain ⟨_, _, _, _, _, _, _, _, _, _, h4⟩ := h3
    split at h4
    · simp only [pure_eq_ok, Except.ok.injEq] at h4; exact h4.le
    · simp only [pure_eq_ok, Except.ok.injEq] at h4; rw [← h4]; exact le_max_left _ _

/-- **C15 (the sized rate covers the day).** The rate that `size` uses, with run hours capped to the
non-shed hours, meets the covering hypothesis of `C15_ls_store_never_dry` on a normalised day. -/
theorem C15_sized_rate_covers (c : SysCfg K) (sched : List String) (m : ControlMap K) (b : Building K)
    (slope fract gen : K) (hrun : 0 < c.maxRunHr) (hday : 0 ≤ b.dailyGal) (hsum : b.avgShape.sum ≤ 1)
    (hgen : genRateLs (cappedCfg c (some (sched, m))) sched m b slope fract = .ok gen) :
    b.dailyGal * b.avgShape.sum ≤ gen * (sched.countP (fun x => decide (x ≠ "shed")) : K) := by
  obtain ⟨hne, hge⟩ := genRateLs_ge hgen
  set r := (cappedCfg c (some (sched, m))).maxRunHr with hr
  have hN : (0 : K) ≤ (nonShed sched : K) := Nat.cast_nonneg _
  have hrN : r ≤ (nonShed sched : K) := min_le_right _ _
  have hr0 : 0 < r := lt_of_le_of_ne (le_min hrun.le hN) (Ne.symm hne)
  have h1 : b.dailyGal ≤ gen * r := by rwa [div_le_iff₀ hr0] at hge
  have hg0 : 0 ≤ gen := le_trans (div_nonneg hday hr0.le) hge
  have h2 : gen * r ≤ gen * (nonShed sched : K) := mul_le_mul_of_nonneg_left hrN hg0
  have h3 : b.dailyGal * b.avgShape.sum ≤ b.dailyGal * 1 := mul_le_mul_of_nonneg_left hsum hday
  unfold nonShed at h2
  linarith

/-- Non-vacuity of C15: the demo building and schedule; 210 gallons are needed at 70 gal/h. -/
example : runningVolumeLs Demo.sched Demo.building 70 1 = .ok 210 ∧
    1000 * Demo.building.avgShape.sum ≤ 70 * (Demo.sched.countP (fun x => decide (x ≠ "shed")) : ℚ) := by
  decide +kernel

/-! ## C16 -/

namespace Demo

/-- One shed hour in the morning, three in the evening. -/
def twoBlocks : List String :=
  List.replicate 6 "normal" ++ ["shed"] ++ List.replicate 10 "normal" ++ ["shed", "shed", "shed"] ++
    List.replicate 4 "normal"

def flat : List ℚ := List.replicate 24 (1/24)

def flatBuilding : Building ℚ := { building with avgShape := flat, peakShape := flat }

/-- One shed block from 17 to 20 h and no load-up. -/
def plainShed : List String :=
  List.replicate 17 "normal" ++ List.replicate 3 "shed" ++ List.replicate 4 "normal"

/-- A day whose use is heaviest just before and during the evening block; sums to 1. -/
def heavyEvening : List ℚ := List.replicate 10 (2/100) ++ [2/100, 2/100, 2/100] ++ List.replicate 7 (1/10) ++
  List.replicate 4 (1/100)

def heavyBuilding : Building ℚ := { building with avgShape := heavyEvening, peakShape := heavyEvening }

end Demo

/-- **C16 fails.** With a flat day and two shed blocks the sizing covers 83 gallons: the store, full
at the start of the evening block, is dry in its third hour. The running volumes are the ones that
`size` uses, and the generation rate covers the day. -/
theorem C16_second_block_runs_dry :
    let c := cappedCfg { Demo.cfg with maxRunHr := 24 } (some (Demo.twoBlocks, Demo.map))
    ∃ gen rvN rvLs, genRateLs c Demo.twoBlocks Demo.map Demo.flatBuilding (28/10) 1 = .ok gen ∧
      runningVolume 1000 c.maxRunHr Demo.flat = .ok rvN ∧
      runningVolumeLs Demo.twoBlocks Demo.flatBuilding gen 1 = .ok rvLs ∧
      1000 * Demo.flat.sum ≤ gen * (nonShed Demo.twoBlocks : ℚ) ∧
      level (max rvN rvLs) (use 1000 Demo.flat) (shedGen Demo.twoBlocks gen) 17 3 < 0 := by
  refine ⟨50, 0, 250/3, ?_⟩
  decide +kernel

/-- **C16 fails on the second day.** With a single shed block, a store of the larger of the two running volumes
that is full when the block starts gets through that block and the day after it, but the heavy use just before the
block of the next day leaves it dry in that block. The generation rate covers the day. -/
theorem C16_second_day_runs_dry :
    let c := cappedCfg { Demo.cfg with maxRunHr := 24 } (some (Demo.plainShed, Demo.map))
    ∃ gen rvN rvLs, Demo.heavyEvening.sum = 1 ∧
      genRateLs c Demo.plainShed Demo.map Demo.heavyBuilding (28/10) 1 = .ok gen ∧
      runningVolume 1000 c.maxRunHr Demo.heavyEvening = .ok rvN ∧
      runningVolumeLs Demo.plainShed Demo.heavyBuilding gen 1 = .ok rvLs ∧
      1000 * Demo.heavyEvening.sum ≤ gen * (nonShed Demo.plainShed : ℚ) ∧
      (∀ k ≤ 24, 0 ≤ level (max rvN rvLs) (use 1000 Demo.heavyEvening) (shedGen Demo.plainShed gen) 17 k) ∧
      level (max rvN rvLs) (use 1000 Demo.heavyEvening) (shedGen Demo.plainShed gen) 17 27 < 0 := by
  refine ⟨1000/21, 1100/3, 300, ?_⟩
  decide +kernel

/-- **C16, partial.** With a single shed block, a store that holds no more than the larger of the
two running volumes and is full when the block starts does not run dry before the block of the next
day. Missing: several blocks and the block of the next day; both are false, see above. -/
theorem C16_single_block_partial (sched : List String) (b : Building K) (gen r rvN rvLs cap : K)
    (start n lu : ℕ) (hs : sched.length = 24) (hday : 0 ≤ b.dailyGal)
    (hshape : ∀ f ∈ b.avgShape, 0 ≤ f)
    (hblock : firstShedBlock sched = .ok (List.range' start n, lu))
    (hsingle : ∀ h < 24, HourIs sched "shed" h → start ≤ h ∧ h < start + n)
    (hr : r ≠ 0) (hnorm : runningVolume b.dailyGal r b.avgShape = .ok rvN)
    (hcoverN : b.dailyGal * b.avgShape.sum ≤ b.avgShape.length * (b.dailyGal / r))
    (hgen : b.dailyGal / r ≤ gen)
    (hv : runningVolumeLs sched b gen 1 = .ok rvLs)
    (hcover : b.dailyGal * b.avgShape.sum ≤
      gen * (sched.countP (fun x => decide (x ≠ "shed")) : K))
    (hcap : max rvN rvLs ≤ cap) :
    ∀ k ≤ 24, 0 ≤ level cap (use b.dailyGal b.avgShape) (shedGen sched gen) start k := by
  intro k hk
  have hLs := (C15_ls_store_never_dry sched b gen rvLs start n lu hs hday hshape hblock hv hcover).2
  obtain ⟨hl, _⟩ := runningVolumeLs_eq hv
  have hne : b.avgShape ≠ [] := by intro h; rw [h] at hl; simp at hl
  obtain ⟨v', hv', hN⟩ := C01_running_volume_isGreatest b.dailyGal r b.avgShape hne hr hcoverN
  rw [hnorm] at hv'
  obtain rfl : rvN = v' := by injection hv'
  set u := use b.dailyGal b.avgShape with hu
  obtain ⟨a, m, ham, h⟩ := level_eq_window cap u (shedGen sched gen) start k
  rw [h]
  have h1 : rvN ≤ cap := le_trans (le_max_left _ _) hcap
  have h2 : rvLs ≤ cap := le_trans (le_max_right _ _) hcap
  have hshed : ∀ x, start ≤ x → x < start + n → sched[x]? = some "shed" ∧ x < 24 := by
    have hb := hblock
    cases n with
    | zero => intro x _ _; omega
    | succ n =>
      rw [List.range'_succ] at hb
      obtain ⟨_, n', g1, g2, g3, g4, _⟩ := firstShedBlock_cons hb
      have : n = n' := by
        have := congrArg List.length g1
        simpa using this
      subst this
      intro x hx1 hx2
      exact ⟨g4 x hx1 hx2, by omega⟩
  by_cases ha : a ≤ n
  · have e1 : shortfall u (shedGen sched gen) start (a + m) ≤ rvLs := hLs ⟨_, rfl⟩
    rw [shortfall_add] at e1
    have e2 : 0 ≤ shortfall u (shedGen sched gen) start a := by
      unfold shortfall
      apply Finset.sum_nonneg
      intro i hi
      have hi := Finset.mem_range.mp hi
      obtain ⟨e3, e4⟩ := hshed (start + i) (by omega) (by omega)
      have : shedGen sched gen (start + i) = 0 := by
        rw [shedGen, Nat.mod_eq_of_lt e4, if_pos e3]
      rw [this, sub_zero]
      exact use_nonneg hday hshape _
    linarith
  · have e1 : shortfall u (fun _ => b.dailyGal / r) (start + a) m ≤ rvN := hN.2 ⟨_, _, rfl⟩
    have e2 : shortfall u (shedGen sched gen) (start + a) m ≤
        shortfall u (fun _ => b.dailyGal / r) (start + a) m := by
      unfold shortfall
      apply Finset.sum_le_sum
      intro i hi
      have hi := Finset.mem_range.mp hi
      have : shedGen sched gen (start + a + i) = gen := by
        rw [shedGen, if_neg]
        intro hx
        have := hsingle _ (Nat.mod_lt _ (by norm_num)) hx
        omega
      rw [this]
      linarith
    linarith

/-- **C16 (margin).** Whatever the shed blocks of the day are, a store that holds the normal running volume and, on
top of it, what the heater would have made in the shed hours never runs dry, whichever hour it is full at and over
any number of days. -/
theorem C16_margin_suffices (sched : List String) (b : Building K) (gen r rvN cap : K) (hs : sched.length = 24)
    (hl : b.avgShape.length = 24) (hr : r ≠ 0) (hnorm : runningVolume b.dailyGal r b.avgShape = .ok rvN)
    (hcoverN : b.dailyGal * b.avgShape.sum ≤ b.avgShape.length * (b.dailyGal / r))
    (hgen : b.dailyGal / r ≤ gen) (hg0 : 0 ≤ gen)
    (hcover : b.dailyGal * b.avgShape.sum ≤ gen * (sched.countP (fun x => decide (x ≠ "shed")) : K))
    (hcap : rvN + gen * (sched.countP (fun x => decide (x = "shed")) : K) ≤ cap) (start k : ℕ) :
    0 ≤ level cap (use b.dailyGal b.avgShape) (shedGen sched gen) start k := by
  have hne : b.avgShape ≠ [] := by intro h; rw [h] at hl; simp at hl
  obtain ⟨v', hv', hN⟩ := C01_running_volume_isGreatest b.dailyGal r b.avgShape hne hr hcoverN
  rw [hnorm] at hv'
  obtain rfl : rvN = v' := by injection hv'
  obtain ⟨a, m, ham, h⟩ := level_eq_window cap (use b.dailyGal b.avgShape) (shedGen sched gen) start k
  rw [h]
  set s := start + a
  have hdl : (lsDiff sched gen b.dailyGal b.avgShape).length = 24 := by rw [lsDiff_length, hl]
  have hdne : lsDiff sched gen b.dailyGal b.avgShape ≠ [] := by intro h; rw [h] at hdl; simp at hdl
  obtain ⟨j, hj, -, hle⟩ := shorten _ hdne (by rw [lsDiff_sum _ _ _ hl hs]; linarith) s m
  have e1 : shortfall (use b.dailyGal b.avgShape) (shedGen sched gen) s m ≤
      shortfall (use b.dailyGal b.avgShape) (shedGen sched gen) s j := by
    rw [shortfall_eq_wsum_ls _ _ _ hl, shortfall_eq_wsum_ls _ _ _ hl]; linarith
  have e2 : shortfall (use b.dailyGal b.avgShape) (fun _ => b.dailyGal / r) s j ≤ rvN := hN.2 ⟨_, _, rfl⟩
  -- what is not made in the shed hours of the window
  have e3 : shortfall (use b.dailyGal b.avgShape) (shedGen sched gen) s j ≤
      shortfall (use b.dailyGal b.avgShape) (fun _ => b.dailyGal / r) s j +
        ∑ i ∈ Finset.range j, (gen - shedGen sched gen (s + i)) := by
    unfold shortfall
    rw [← Finset.sum_add_distrib]
    apply Finset.sum_le_sum
    intro i _
    linarith
  have hnn : ∀ i, 0 ≤ gen - shedGen sched gen (s + i) := by
    intro i; unfold shedGen; split <;> linarith
  have e4 : ∑ i ∈ Finset.range j, (gen - shedGen sched gen (s + i)) ≤
      ∑ i ∈ Finset.range 24, (gen - shedGen sched gen (s + i)) :=
    Finset.sum_le_sum_of_subset_of_nonneg (Finset.range_mono (by omega)) (fun i _ _ => hnn i)
  have e5 : ∑ i ∈ Finset.range 24, (gen - shedGen sched gen (s + i)) =
      gen * (sched.countP (fun x => decide (x = "shed")) : K) := by
    have z := shortfall_eq_wsum_ls sched gen 0 hl s 24
    have zl : (lsDiff sched gen 0 b.avgShape).length = 24 := by rw [lsDiff_length, hl]
    have zs := wsum_length (lsDiff sched gen 0 b.avgShape) s
    rw [zl, lsDiff_sum _ _ _ hl hs] at zs
    rw [zs] at z
    have zz : shortfall (use 0 b.avgShape) (shedGen sched gen) s 24 =
        ∑ i ∈ Finset.range 24, (gen - shedGen sched gen (s + i)) - 24 * gen := by
      unfold shortfall use
      rw [Finset.sum_sub_distrib, Finset.sum_sub_distrib]
      simp
    have hcount : sched.countP (fun x => decide (x = "shed")) + sched.countP (fun x => decide (x ≠ "shed")) = 24 := by
      rw [← hs, List.length_eq_countP_add_countP (fun x => decide (x = "shed"))]
      congr 2
      funext x
      simp
    have hc : (sched.countP (fun x => decide (x = "shed")) : K) + (sched.countP (fun x => decide (x ≠ "shed")) : K)
        = 24 := by exact_mod_cast hcount
    rw [zz] at z
    have hm : gen * (sched.countP (fun x => decide (x = "shed")) : K)
        + gen * (sched.countP (fun x => decide (x ≠ "shed")) : K) = gen * 24 := by rw [← mul_add, hc]
    linarith
  linarith

/-- Non-vacuity of the margin: the two shed blocks that defeat the sized volume are covered by it. -/
example : runningVolume 1000 17 Demo.flat = .ok (0 : ℚ) ∧
    (1000 * Demo.flat.sum ≤ Demo.flat.length * (1000 / 17 : ℚ)) ∧
    (1000 * Demo.flat.sum ≤ (1000 / 17 : ℚ) * (Demo.twoBlocks.countP (fun x => decide (x ≠ "shed")) : ℚ)) := by
  decide +kernel

/-- Non-vacuity of C16. -/
example :
    firstShedBlock Demo.sched = .ok (List.range' 17 3, 2) ∧
    (∀ h < 24, Demo.sched[h]? = some "shed" → 17 ≤ h ∧ h < 17 + 3) ∧
    runningVolume 1000 16 Demo.shape = .ok (125/2) ∧
    (1000 * Demo.shape.sum ≤ Demo.shape.length * (1000 / 16 : ℚ)) ∧ (1000 / 16 : ℚ) ≤ 70 ∧
    runningVolumeLs Demo.sched Demo.building 70 1 = .ok 210 := by
  decide +kernel

/-! ## C17 -/

/-- **C17, partial.** A shed control map with a schedule of 24 hours that has no shed hour, or only
shed hours, makes `size` raise. The full property also asks for a `ValueError`, which fails: see
`C17_not_value_error`. -/
theorem C17_degenerate_schedule_raises_partial (db : ShapeFiles K) (s : DhwSys K) (b : Building K)
    (sched : List String) (m : ControlMap K) (slope fract : K) (hs : sched.length = 24)
    (hm : dictHas m "shed" = true) (hrun : 0 ≤ s.cfg.maxRunHr)
    (hdeg : (∀ x ∈ sched, x ≠ "shed") ∨ (∀ x ∈ sched, x = "shed")) :
    ∃ e, (size baseMethods db s b (some sched) (some m) slope fract).2 = .error e := by
  have hls : lsInputs (some sched) (some m) = some (sched, m) := by
    cases sched with
    | nil => simp at hs
    | cons x xs => simp [lsInputs, truthySched, hm]
  rcases size_cases baseMethods db s b (some sched) (some m) slope fract with
    ⟨e, hd, h⟩ | ⟨b1, hb1, ⟨e, hd, h⟩ | ⟨c2, st2, hd, hrest⟩⟩
  · exact ⟨e, by rw [h]⟩
  · exact ⟨e, by rw [h]⟩
  · exfalso
    rw [hls] at hd
    unfold sizeCore at hd
    simp only [bind_eq_ok] at hd
    obtain ⟨inlet, h1, cap, h2, rv, h3, sf, h4, st, h5, capLs, h6, gen, h7, rvLs, h8, stLs, h9, _⟩ := hd
    rcases hdeg with hdeg | hdeg
    · have hf : firstShedBlock sched = .ok ([], 0) := by
        apply (C14_no_shed_hour sched).2 (by omega)
        intro h _ hx
        exact hdeg _ (List.mem_of_getElem? hx) rfl
      have h8' : runningVolumeLs sched b1 gen fract = .ok rvLs := h8
      obtain ⟨_, _, _, _, _, h, _⟩ := runningVolumeLs_eq h8'
      rw [hf] at h; simp at h
    · have hn : nonShed sched = 0 := by
        unfold nonShed
        rw [List.countP_eq_zero]
        intro x hx; simp [hdeg x hx]
      have h2' : requiredCapacity (cappedCfg s.cfg (some (sched, m))) b1 = .ok cap := h2
      simp only [requiredCapacity, bind_eq_ok, fdiv_eq_ok, cappedCfg, hn] at h2'
      obtain ⟨_, _, _, ⟨h, _⟩, _⟩ := h2'
      apply h
      simp [hrun]

/-- **C17 fails.** A schedule without shed hours ends in an `IndexError`, the all-shed schedule in a
`ZeroDivisionError`. -/
theorem C17_not_value_error :
    (size baseMethods Demo.noFiles { cfg := Demo.cfg } Demo.building
      (some (List.replicate 24 "normal")) (some Demo.map) (28/10) 1).2 = .error .indexError ∧
    (size baseMethods Demo.noFiles { cfg := Demo.cfg } Demo.building
      (some (List.replicate 24 "shed")) (some Demo.map) (28/10) 1).2 = .error .zeroDivision := by
  decide +kernel

/-! ## C13 -/

namespace Demo

/-- A day with a morning peak in the first shed block and an evening peak in the second. -/
def twoPeaks : List ℚ :=
  [2, 1, 2, 2, 0, 6, 10, 1, 2, 2, 2, 0, 1, 0, 8, 4, 10, 4, 10, 4, 0, 2, 2, 2].map (fun x => x / 77)

def twoPeakSched : List String :=
  ["normal", "normal", "normal", "normal", "loadUp", "shed", "shed"] ++ List.replicate 7 "normal" ++
    List.replicate 6 "shed" ++ List.replicate 4 "normal"

def twoPeakMap : ControlMap ℚ :=
  [("normal", normal), ("loadUp", { loadUp with onFract := 1/10 }), ("shed", shed)]

def twoPeakBuilding : Building ℚ := { building with avgShape := twoPeaks, peakShape := twoPeaks }

/-- The system sized with the given coverage fraction. -/
def twoPeakSize (fract : ℚ) : DhwSys ℚ :=
  (size baseMethods noFiles { cfg := cfg } twoPeakBuilding (some twoPeakSched) (some twoPeakMap)
    (28/10) fract).1.1

end Demo

/-- **C13 fails for storage.** The load-up rate grows with the coverage fraction; the larger rate
refills the store between two shed blocks and so shrinks the deficit that the second block adds. Here
full coverage is given 15% less storage than coverage of 897/1000 of the volume, the fraction that
belongs to the 99th percentile. -/
theorem C13_storage_can_shrink :
    ∃ st st', getMinStorage (Demo.twoPeakSize (897/1000)) = .ok st ∧
      getMinStorage (Demo.twoPeakSize 1) = .ok st' ∧ st' < st * (86/100) := by
  refine ⟨2988804/12875, 668500/3377, ?_⟩
  decide +kernel

/-- The rate with load-up hours, as a function of the coverage fraction. -/
theorem genRateLs_mono {c : SysCfg K} {sched : List String} {m : ControlMap K} {b : Building K}
    {slope f f' gen gen' : K} (hday : 0 ≤ b.dailyGal) (hshape : ∀ x ∈ b.avgShape, 0 ≤ x)
    (hf : f ≤ f')
    (haq : ∀ nC luC sC nP luP, lsControls m = .ok (nC, luC, sC) →
      stratPctOfTank c nC.onFract nC.onTrig slope = .ok nP →
      stratPctOfTank c luC.onFract luC.onTrig slope = .ok luP → nP ≤ luP)
    (h : genRateLs c sched m b slope f = .ok gen) (h' : genRateLs c sched m b slope f' = .ok gen') :
    gen ≤ gen' := by
  unfold genRateLs at h h'
  simp only [bind_eq_ok, fdiv_eq_ok] at h h'
  obtain ⟨nm, ⟨hr, rfl⟩, ⟨blk, lu⟩, h2, h3⟩ := h
  obtain ⟨nm', ⟨hr', rfl⟩, ⟨blk', lu'⟩, h2', h3'⟩ := h'
  rw [h2] at h2'
  simp only [Except.ok.injEq, Prod.mk.injEq] at h2'
  obtain ⟨rfl, rfl⟩ := h2'
  simp only at h3 h3'
  by_cases hlu : lu = 0
  · simp only [hlu, if_true, pure_eq_ok, Except.ok.injEq] at h3 h3'
    exact le_of_eq (h3.symm.trans h3')
  · rw [if_neg hlu] at h3 h3'
    simp only [bind_eq_ok] at h3 h3'
    obtain ⟨⟨vs, vc⟩, p1, ⟨nC, luC, sC⟩, p2, nP, p3, luP, p4, sP, p5, p6⟩ := h3
    obtain ⟨⟨vs', vc'⟩, p1', ⟨nC', luC', sC'⟩, p2', nP', p3', luP', p4', sP', p5', p6'⟩ := h3'
    rw [p2] at p2'
    simp only [Except.ok.injEq, Prod.mk.injEq] at p2'
    obtain ⟨rfl, rfl, rfl⟩ := p2'
    rw [p3] at p3'; rw [p4] at p4'; rw [p5] at p5'
    simp only [Except.ok.injEq] at p3' p4' p5'
    subst p3' p4' p5'
    have hP := haq _ _ _ _ _ p2 p3 p4
    simp only at p6 p6'
    by_cases hb : luP - sP ≤ 0
    · rw [if_pos hb] at p6 p6'
      simp only [pure_eq_ok, Except.ok.injEq] at p6 p6'
      exact le_of_eq (p6.symm.trans p6')
    · rw [if_neg hb] at p6 p6'
      simp only [pure_eq_ok, Except.ok.injEq] at p6 p6'
      rw [← p6, ← p6']
      have hv : vs ≤ vs' ∧ vc = vc' := by
        cases blk with
        | nil =>
          simp [prelimVols, h2, sumHours] at p1
        | cons h0 t =>
          unfold prelimVols at p1 p1'
          simp only [h2, ok_bind, bind_eq_ok, pure_eq_ok, Except.ok.injEq, Prod.mk.injEq] at p1 p1'
          obtain ⟨S, q1, C, q2, rfl, rfl⟩ := p1
          obtain ⟨S', q1', C', q2', rfl, rfl⟩ := p1'
          rw [q1] at q1'; rw [q2] at q2'
          simp only [Except.ok.injEq] at q1' q2'
          subst q1' q2'
          refine ⟨mul_le_mul_of_nonneg_left hf ?_, rfl⟩
          unfold sumHours at q1
          simp only [bind_eq_ok, pure_eq_ok, Except.ok.injEq] at q1
          obtain ⟨l, e1, rfl⟩ := q1
          rw [mapM_eq_ok] at e1
          apply List.sum_nonneg
          intro x hx
          obtain ⟨y, hy, rfl⟩ := List.mem_map.mp hx
          have : y ∈ b.avgShape := by
            obtain ⟨i, hi, rfl⟩ := List.getElem_of_mem hy
            have := (List.forall₂_iff_get.mp e1).2 i (by rw [e1.length_eq]; exact hi) hi
            rw [pyGet_eq_ok] at this
            exact List.mem_of_getElem? this
          exact mul_nonneg (hshape _ this) hday
      apply max_le_max (le_refl _)
      have hlu0 : (0 : K) < lu := by exact_mod_cast Nat.pos_of_ne_zero hlu
      apply div_le_div_of_nonneg_right _ hlu0.le
      rw [hv.2]
      have := div_le_div_of_nonneg_right
        (mul_le_mul_of_nonneg_right hv.1 (sub_nonneg.mpr hP)) (not_le.mp hb).le
      linarith

/-- **C13, capacity.** If the load-up aquastat does not leave less of the tank usable than the normal
one (in the code's own measure), a larger coverage fraction never gives a smaller capacity. -/
theorem C13_capacity_mono (c : SysCfg K) (sched : List String) (m : ControlMap K) (b : Building K)
    (slope f f' inlet cap cap' : K) (hday : 0 ≤ b.dailyGal) (hshape : ∀ x ∈ b.avgShape, 0 ≤ x)
    (hf : f ≤ f') (hin : requireDesignInlet b = .ok inlet) (hle : inlet ≤ c.supply)
    (hdef : 0 ≤ c.defrost)
    (haq : ∀ nC luC sC nP luP, lsControls m = .ok (nC, luC, sC) →
      stratPctOfTank c nC.onFract nC.onTrig slope = .ok nP →
      stratPctOfTank c luC.onFract luC.onTrig slope = .ok luP → nP ≤ luP)
    (h : requiredCapacityLs genRateLs c sched m b slope f = .ok cap)
    (h' : requiredCapacityLs genRateLs c sched m b slope f' = .ok cap') : cap ≤ cap' := by
  unfold requiredCapacityLs capacityOfGenRate at h h'
  simp only [hin, ok_bind, bind_eq_ok, fdiv_eq_ok, Except.ok.injEq] at h h'
  obtain ⟨g, h1, x, ⟨_, rfl⟩, rfl⟩ := h
  obtain ⟨g', h1', x', ⟨_, rfl⟩, rfl⟩ := h'
  have hg := genRateLs_mono hday hshape hf haq h1 h1'
  have hrho : (0 : K) ≤ rhoCp K := by unfold rhoCp; positivity
  apply div_le_div_of_nonneg_right _ (by norm_num)
  apply div_le_div_of_nonneg_right _ hdef
  apply mul_le_mul_of_nonneg_right _ (sub_nonneg.mpr hle)
  exact mul_le_mul_of_nonneg_right hg hrho

/-- **C13, storage, partial.** When the generation rate is the same at both fractions (in particular
for every schedule without load-up hours), a larger coverage fraction never needs less storage.
Missing: schedules with load-up hours, for which the property fails. -/
theorem C13_storage_mono_partial (c : SysCfg K) (sched : List String) (m : ControlMap K)
    (b : Building K) (slope inlet f f' gen rv rv' st st' : K) (hday : 0 ≤ b.dailyGal)
    (hshape : ∀ x ∈ b.avgShape, 0 ≤ x) (hf : f ≤ f')
    (hband : ∀ nC luC sC luX sX, lsControls m = .ok (nC, luC, sC) →
      supplyGalPer100 c luC.offFract luC.offTrig slope inlet = .ok luX →
      supplyGalPer100 c sC.onFract sC.onTrig slope inlet = .ok sX → sX < luX)
    (h1 : runningVolumeLs sched b gen f = .ok rv) (h1' : runningVolumeLs sched b gen f' = .ok rv')
    (h2 : storageVolumeLs c rv m slope inlet = .ok st)
    (h2' : storageVolumeLs c rv' m slope inlet = .ok st') : rv ≤ rv' ∧ st ≤ st' := by
  have hrv : rv ≤ rv' := by
    obtain ⟨hl, s0, n, lu, t, a1, a2, a3, a4, a5⟩ := runningVolumeLs_eq h1
    obtain ⟨_, s0', n', lu', t', a1', a2', _, _, a5'⟩ := runningVolumeLs_eq h1'
    rw [a1] at a1'
    simp only [Except.ok.injEq, Prod.mk.injEq, List.cons.injEq] at a1'
    obtain ⟨⟨rfl, rfl⟩, rfl⟩ := a1'
    rw [a2] at a2'
    have : n = n' := by simpa using congrArg List.length a2'
    subst this
    rw [a5, a5']
    apply add_le_add
    · exact mul_le_mul_of_nonneg_left hf (worstNegative_nonneg _)
    · exact mul_le_mul_of_nonneg_left hf (Finset.sum_nonneg (fun i _ => use_nonneg hday hshape _))
  refine ⟨hrv, ?_⟩
  unfold storageVolumeLs storageVolume at h2 h2'
  simp only [bind_eq_ok, fdiv_eq_ok] at h2 h2'
  obtain ⟨⟨nC, luC, sC⟩, p1, luX, p2, sX, p3, _, rfl⟩ := h2
  obtain ⟨⟨nC', luC', sC'⟩, p1', luX', p2', sX', p3', _, rfl⟩ := h2'
  rw [p1] at p1'
  simp only [Except.ok.injEq, Prod.mk.injEq] at p1'
  obtain ⟨rfl, rfl, rfl⟩ := p1'
  rw [p2] at p2'; rw [p3] at p3'
  simp only [Except.ok.injEq] at p2' p3'
  subst p2' p3'
  have := hband _ _ _ _ _ p1 p2 p3
  apply div_le_div_of_nonneg_right hrv
  linarith

/-- Without load-up hours the rate does not depend on the coverage fraction. -/
theorem C13_rate_without_load_up (c : SysCfg K) (sched : List String) (m : ControlMap K)
    (b : Building K) (slope f f' : K) (block : List ℕ)
    (h : firstShedBlock sched = .ok (block, 0)) :
    genRateLs c sched m b slope f = genRateLs c sched m b slope f' := by
  unfold genRateLs
  simp [h]

/-- **C13 (percentile to fraction).** A higher percentile never gives a smaller fraction, for every
monotone quantile function. -/
theorem C13_fract_mono (invCdf : K → K) (hinv : ∀ p q, p ≤ q → invCdf p ≤ invCdf q) (p q f g : K)
    (hpq : p ≤ q) (hf : loadShiftFract invCdf p = .ok f) (hg : loadShiftFract invCdf q = .ok g) :
    f ≤ g ∧ g ≤ 1 := by
  have h1 : ∀ {p f}, loadShiftFract invCdf p = .ok f → f ≤ 1 := by
    intro p f h
    unfold loadShiftFract at h
    split_ifs at h
    · simp only [Except.ok.injEq] at h; exact h.symm.le
    · simp only [Except.ok.injEq] at h; rw [← h]; exact min_le_right _ _
  refine ⟨?_, h1 hg⟩
  have hf1 := h1 hf
  unfold loadShiftFract at hf hg
  split_ifs at hg with c1 c2
  · simp only [Except.ok.injEq] at hg; rw [← hg]; exact hf1
  · rw [if_neg (by intro h; exact c1 (le_trans h hpq))] at hf
    split_ifs at hf with c3
    simp only [Except.ok.injEq] at hf hg
    rw [← hf, ← hg]
    exact min_le_min (hinv _ _ hpq) (le_refl _)

/-- Non-vacuity of C13: the two-peak map meets the aquastat condition, and a run without load-up
hours meets the storage one. -/
example :
    lsControls Demo.map = .ok (Demo.normal, Demo.loadUp, Demo.shed) ∧
    (∃ nP luP, stratPctOfTank Demo.cfg Demo.normal.onFract Demo.normal.onTrig (28/10) = .ok nP ∧
      stratPctOfTank Demo.cfg Demo.loadUp.onFract Demo.loadUp.onTrig (28/10) = .ok luP ∧ nP ≤ luP) ∧
    (∃ luX sX, supplyGalPer100 Demo.cfg Demo.loadUp.offFract Demo.loadUp.offTrig (28/10) 50 = .ok luX ∧
      supplyGalPer100 Demo.cfg Demo.shed.onFract Demo.shed.onTrig (28/10) 50 = .ok sX ∧ sX < luX) ∧
    runningVolumeLs Demo.sched Demo.building 70 (1/2) = .ok 105 ∧
    runningVolumeLs Demo.sched Demo.building 70 1 = .ok 210 := by
  refine ⟨by decide +kernel, ⟨143/280, 199/280, ?_⟩, ⟨12375/98, 2075/98, ?_⟩, ?_, ?_⟩ <;> decide +kernel

end Eco
