import Verif.Props.Robust
set_option linter.unusedSectionVars false

/-! C144 with load shifting: a bound that does not depend on the days. -/

namespace Eco
open Spec
variable {K : Type} [Field K] [LinearOrder K] [IsStrictOrderedRing K]

theorem apart_terms (p q : List K) : ∀ x ∈ List.zipWith (fun x y => |x - y|) p q, 0 ≤ x := by
  intro x hx
  obtain ⟨i, hi, rfl⟩ := List.getElem_of_mem hx
  simp

theorem apart_nonneg (p q : List K) : 0 ≤ apart p q := List.sum_nonneg (apart_terms p q)

theorem get_apart {a a' : List K} {h : ℕ} {x y : K} (hx : a[h]? = some x) (hy : a'[h]? = some y) : |y - x| ≤ apart a a' := by
  have hm : |x - y| ∈ List.zipWith (fun x y => |x - y|) a a' := by
    apply List.mem_of_getElem? (i := h)
    rw [List.getElem?_zipWith, hx, hy]
  rw [abs_sub_comm]
  exact List.single_le_sum (apart_terms a a') _ hm

theorem sum_close {e : K} {l l' : List K} (h : List.Forall₂ (fun x y => |y - x| ≤ e) l l') :
    |l'.sum - l.sum| ≤ l.length * e := by
  induction h with
  | nil => simp
  | @cons x y l l' h1 _ ih =>
    simp only [List.sum_cons, List.length_cons, Nat.cast_succ]
    have := abs_add_le (y - x) (l'.sum - l.sum)
    rw [show y - x + (l'.sum - l.sum) = y + l'.sum - (x + l.sum) by ring] at this
    linarith

theorem sumHours_close {a a' : List K} {daily v v' : K} {hours : List ℕ} (h : sumHours a daily hours = .ok v)
    (h' : sumHours a' daily hours = .ok v') : |v' - v| ≤ hours.length * (|daily| * apart a a') := by
  simp only [sumHours, bind_eq_ok, pure_eq_ok, Except.ok.injEq, mapM_eq_ok] at h h'
  obtain ⟨vs, h, rfl⟩ := h
  obtain ⟨vs', h', rfl⟩ := h'
  have hl : vs.length = hours.length := h.length_eq.symm
  have : List.Forall₂ (fun x y => |y - x| ≤ |daily| * apart a a') (vs.map (fun f => f * daily)) (vs'.map (fun f => f * daily)) := by
    clear hl
    induction h generalizing vs' with
    | nil => cases h'; exact .nil
    | @cons i x hs vs h1 _ ih =>
      cases h' with
      | @cons _ y _ vs'' h2 h3 =>
        refine .cons ?_ (ih _ h3)
        rw [pyGet_eq_ok] at h1 h2
        rw [← sub_mul, abs_mul, mul_comm]
        exact mul_le_mul_of_nonneg_left (get_apart h1 h2) (abs_nonneg _)
  have h3 := sum_close this
  rwa [List.length_map, hl] at h3

/-- The two volumes of the shed block, for two average days. -/
theorem prelim_close (sched : List String) (b : Building K) (fract : K) : ∃ L, 0 ≤ L ∧ ∀ p p' a a' x y x' y',
    prelimVols sched (withDays p a b) fract = .ok (x, y) → prelimVols sched (withDays p' a' b) fract = .ok (x', y') →
    |x' - x| ≤ L * apart a a' ∧ |y' - y| ≤ L * apart a a' := by
  cases hf : firstShedBlock sched with
  | error e =>
    refine ⟨0, le_rfl, ?_⟩
    intro p p' a a' x y x' y' h
    simp [prelimVols, hf, error_bind] at h
  | ok r =>
    obtain ⟨block, lu⟩ := r
    refine ⟨block.length * |b.dailyGal| * |fract| + lu * |b.dailyGal|, by positivity, ?_⟩
    intro p p' a a' x y x' y' h h'
    simp only [prelimVols, hf, ok_bind, bind_eq_ok] at h h'
    obtain ⟨v, hv, h⟩ := h
    obtain ⟨v', hv', h'⟩ := h'
    cases block with
    | nil => simp at h
    | cons h0 rest =>
      simp only [bind_eq_ok, pure_eq_ok, Except.ok.injEq, Prod.mk.injEq] at h h'
      obtain ⟨w, hw, rfl, rfl⟩ := h
      obtain ⟨w', hw', rfl, rfl⟩ := h'
      have k1 := sumHours_close hv hv'
      have k2 := sumHours_close hw hw'
      simp only [withDays, withPeak, withAverage, List.length_range'] at k1 k2
      have ha := apart_nonneg a a'
      constructor
      · rw [← sub_mul, abs_mul]
        have h1 := mul_le_mul_of_nonneg_right k1 (abs_nonneg fract)
        have h2 : 0 ≤ (lu : K) * |b.dailyGal| * apart a a' := by positivity
        linarith
      · have h2 : 0 ≤ ((h0 :: rest).length : K) * |b.dailyGal| * |fract| * apart a a' := by positivity
        linarith

theorem max_close (n x y : K) : |max n y - max n x| ≤ |y - x| := by
  rw [max_comm n y, max_comm n x]
  exact abs_max_sub_max_le_abs y x n

/-- The generation rates for two average days. -/
theorem gen_close (c : SysCfg K) (sched : List String) (m : ControlMap K) (b : Building K) (slope fract : K) :
    ∃ L, 0 ≤ L ∧ ∀ p p' a a' g g', genRateLs c sched m (withDays p a b) slope fract = .ok g →
      genRateLs c sched m (withDays p' a' b) slope fract = .ok g' → |g' - g| ≤ L * apart a a' := by
  obtain ⟨L, hL, hp⟩ := prelim_close sched b fract
  cases hf : firstShedBlock sched with
  | error e =>
    refine ⟨0, le_rfl, ?_⟩
    intro p p' a a' g g' h
    simp only [genRateLs, hf, bind_eq_ok, error_bind] at h
    obtain ⟨_, _, h⟩ := h
    simp at h
  | ok r =>
    obtain ⟨block, lu⟩ := r
    by_cases hlu : lu = 0
    · refine ⟨0, le_rfl, ?_⟩
      intro p p' a a' g g' h h'
      simp only [genRateLs, hf, ok_bind, hlu, if_true, bind_eq_ok, pure_eq_ok, Except.ok.injEq] at h h'
      obtain ⟨n, hn, rfl⟩ := h
      obtain ⟨n', hn', rfl⟩ := h'
      obtain rfl : n = n' := Except.ok.inj (hn.symm.trans hn')
      simp
    -- the ratio of the levels is the same for both days
    by_cases hr : ∃ r, ∀ p a g, genRateLs c sched m (withDays p a b) slope fract = .ok g →
        ∃ n x y, fdiv b.dailyGal c.maxRunHr = .ok n ∧ prelimVols sched (withDays p a b) fract = .ok (x, y) ∧
          (g = n ∧ r = none ∨ ∃ q, r = some q ∧ g = max n ((x * q + y) / (lu : K)))
    · obtain ⟨r, hr⟩ := hr
      refine ⟨L * (|r.getD 0| + 1) / |(lu : K)|, by positivity, ?_⟩
      intro p p' a a' g g' h h'
      obtain ⟨n, x, y, hn, hx, h⟩ := hr _ _ _ h
      obtain ⟨n', x', y', hn', hx', h'⟩ := hr _ _ _ h'
      obtain rfl : n = n' := Except.ok.inj (hn.symm.trans hn')
      have ha := apart_nonneg a a'
      have hpos : (0 : K) ≤ L * (|r.getD 0| + 1) / |(lu : K)| * apart a a' := by positivity
      obtain ⟨k1, k2⟩ := hp _ _ _ _ _ _ _ _ hx hx'
      rcases h with ⟨rfl, rfl⟩ | ⟨q, rfl, rfl⟩
      · rcases h' with ⟨rfl, -⟩ | ⟨q, hq, -⟩
        · simpa using hpos
        · simp at hq
      · rcases h' with ⟨-, hq⟩ | ⟨q', hq, rfl⟩
        · simp at hq
        · obtain rfl : q = q' := by simpa using hq
          refine (max_close _ _ _).trans ?_
          rw [← sub_div, abs_div, div_mul_eq_mul_div]
          apply div_le_div_of_nonneg_right _ (abs_nonneg _)
          have := abs_add_le ((x' - x) * q) (y' - y)
          rw [show (x' - x) * q + (y' - y) = x' * q + y' - (x * q + y) by ring, abs_mul] at this
          have := mul_le_mul_of_nonneg_right k1 (abs_nonneg q)
          simp only [Option.getD_some]
          linarith
    · exfalso
      apply hr
      have hn0 : ¬ (fun (x : ℕ) => x = 0) lu := hlu
      cases h1 : lsControls m with
      | error e =>
        refine ⟨none, ?_⟩
        intro p a g h
        simp only [genRateLs, hf, ok_bind, if_neg hlu, h1, error_bind, bind_eq_ok] at h
        obtain ⟨_, _, _, _, h⟩ := h
        simp at h
      | ok r =>
        obtain ⟨nC, luC, sC⟩ := r
        by_cases h2 : ∃ nP luP sP, stratPctOfTank c nC.onFract nC.onTrig slope = .ok nP ∧
          stratPctOfTank c luC.onFract luC.onTrig slope = .ok luP ∧ stratPctOfTank c sC.onFract sC.onTrig slope = .ok sP
        · obtain ⟨nP, luP, sP, e1, e2, e3⟩ := h2
          by_cases h3 : luP - sP ≤ 0
          · refine ⟨none, ?_⟩
            intro p a g h
            simp only [genRateLs, hf, ok_bind, if_neg hlu, h1, e1, e2, e3, if_pos h3, bind_eq_ok, pure_eq_ok, Except.ok.injEq] at h
            obtain ⟨n, hn, ⟨x, y⟩, hx, rfl⟩ := h
            exact ⟨n, x, y, hn, hx, .inl ⟨rfl, rfl⟩⟩
          · refine ⟨some ((luP - nP) / (luP - sP)), ?_⟩
            intro p a g h
            simp only [genRateLs, hf, ok_bind, if_neg hlu, h1, e1, e2, e3, if_neg h3, bind_eq_ok, pure_eq_ok, Except.ok.injEq] at h
            obtain ⟨n, hn, ⟨x, y⟩, hx, rfl⟩ := h
            exact ⟨n, x, y, hn, hx, .inr ⟨_, rfl, by rw [mul_div_assoc]⟩⟩
        · refine ⟨none, ?_⟩
          intro p a g h
          exfalso
          apply h2
          simp only [genRateLs, hf, ok_bind, if_neg hlu, h1, bind_eq_ok] at h
          obtain ⟨_, _, _, _, x, hx, y, hy, z, hz, _⟩ := h
          exact ⟨x, y, z, hx, hy, hz⟩

theorem worstNegative_close {e : K} (he : 0 ≤ e) {d d' : List K} (h : List.Forall₂ (fun x y => |y - x| ≤ e) d d') :
    worstNegative (cumsum d') ≤ worstNegative (cumsum d) + d.length * e := by
  have hn : 0 ≤ (d.length : K) * e := by positivity
  rcases worstNegative_attained (cumsum d') with h0 | ⟨x, hx, h0⟩
  · rw [h0]
    linarith [worstNegative_nonneg (cumsum d)]
  · rw [mem_cumsum] at hx
    obtain ⟨k, hk, rfl⟩ := hx
    have hk' : k < d.length := by rw [h.length_eq]; exact hk
    have h1 := worstNegative_ge (mem_cumsum.2 ⟨k, hk', rfl⟩)
    have h2 := sum_close (List.forall₂_take (k + 1) h)
    have h3 : ((d.take (k + 1)).length : K) * e ≤ d.length * e :=
      mul_le_mul_of_nonneg_right (by exact_mod_cast List.length_take_le' _ _) he
    rw [h0]
    rw [abs_le] at h2
    linarith [h2.1]

theorem lsDiff_close (sched : List String) (g g' daily : K) {a a' : List K} (hl : a.length = a'.length) :
    List.Forall₂ (fun x y => |y - x| ≤ |g' - g| + |daily| * apart a a') (lsDiff sched g daily a) (lsDiff sched g' daily a') := by
  rw [List.forall₂_iff_get]
  refine ⟨by simp [lsDiff, hl], ?_⟩
  intro i h1 h2
  have h1' : i < a.length := by simpa [lsDiff] using h1
  have h2' : i < a'.length := by simpa [lsDiff] using h2
  simp only [lsDiff, List.get_eq_getElem, List.getElem_mapIdx]
  have k := get_apart (List.getElem?_eq_getElem h1') (List.getElem?_eq_getElem h2')
  have k2 : |daily * (a'[i] - a[i])| ≤ |daily| * apart a a' := by
    rw [abs_mul]; exact mul_le_mul_of_nonneg_left k (abs_nonneg _)
  split
  · have : (0 : K) - daily * a'[i] - (0 - daily * a[i]) = -(daily * (a'[i] - a[i])) := by ring
    rw [this, abs_neg]
    linarith [abs_nonneg (g' - g)]
  · have := abs_sub (g' - g) (daily * (a'[i] - a[i]))
    rw [show g' - g - daily * (a'[i] - a[i]) = g' - daily * a'[i] - (g - daily * a[i]) by ring] at this
    linarith

/-- The running volumes for two average days and two generation rates. -/
theorem runLs_close (sched : List String) (b : Building K) (fract : K) :
    ∃ L, 0 ≤ L ∧ ∀ p p' a a' g g' v v', runningVolumeLs sched (withDays p a b) g fract = .ok v →
      runningVolumeLs sched (withDays p' a' b) g' fract = .ok v' → |v' - v| ≤ L * (apart a a' + |g' - g|) := by
  obtain ⟨L, hL, hp⟩ := prelim_close sched b fract
  refine ⟨L + 48 * (1 + |b.dailyGal|) * |fract|, by positivity, ?_⟩
  intro p p' a a' g g' v v' h h'
  simp only [runningVolumeLs, bind_eq_ok] at h h'
  obtain ⟨⟨block, lu⟩, hf, ⟨x, y⟩, hx, h⟩ := h
  obtain ⟨⟨block', lu'⟩, hf', ⟨x', y'⟩, hx', h'⟩ := h'
  have e := Except.ok.inj (hf.symm.trans hf')
  simp only [Prod.mk.injEq] at e
  obtain ⟨rfl, rfl⟩ := e
  have e1 : (withDays p a b).avgShape = a := rfl
  have e2 : (withDays p' a' b).avgShape = a' := rfl
  have e3 : (withDays p a b).dailyGal = b.dailyGal := rfl
  have e4 : (withDays p' a' b).dailyGal = b.dailyGal := rfl
  dsimp only at h h'
  rw [e1] at h
  rw [e2] at h'
  by_cases l1 : a.length ≠ 24
  · rw [if_pos l1] at h; simp at h
  by_cases l2 : a'.length ≠ 24
  · rw [if_pos l2] at h'; simp at h'
  rw [if_neg l1] at h
  rw [if_neg l2] at h'
  rw [not_not] at l1 l2
  cases hb : block.getLast? with
  | none => rw [hb] at h; simp at h
  | some e =>
    rw [hb] at h h'
    simp only [pure_eq_ok, Except.ok.injEq, e3, e4] at h h'
    subst h h'
    obtain ⟨k1, -⟩ := hp _ _ _ _ _ _ _ _ hx hx'
    have ha := apart_nonneg a a'
    have hd := lsDiff_close sched g g' b.dailyGal (l1.trans l2.symm)
    have hd' := lsDiff_close sched g' g b.dailyGal (l2.trans l1.symm)
    rw [apart_comm a' a, abs_sub_comm g g'] at hd'
    have hpos : 0 ≤ |g' - g| + |b.dailyGal| * apart a a' := by positivity
    have w1 := worstNegative_close hpos (List.forall₂_drop (e + 1) (List.rel_append hd hd))
    have w2 := worstNegative_close hpos (List.forall₂_drop (e + 1) (List.rel_append hd' hd'))
    have len : ∀ (z u : List K) (gg : K), u.length = 24 →
        ((((lsDiff sched gg b.dailyGal u) ++ (lsDiff sched gg b.dailyGal u)).drop (e + 1)).length : K) ≤ 48 := by
      intro z u gg hu
      have : (((lsDiff sched gg b.dailyGal u) ++ (lsDiff sched gg b.dailyGal u)).drop (e + 1)).length ≤ 48 := by
        simp only [lsDiff, List.length_drop, List.length_append, List.length_mapIdx, hu]; omega
      exact_mod_cast this
    have w3 := mul_le_mul_of_nonneg_right (len a a g l1) hpos
    have w4 := mul_le_mul_of_nonneg_right (len a a' g' l2) hpos
    generalize worstNegative (cumsum (((lsDiff sched g b.dailyGal a) ++ (lsDiff sched g b.dailyGal a)).drop (e + 1))) = u at *
    generalize worstNegative (cumsum (((lsDiff sched g' b.dailyGal a') ++ (lsDiff sched g' b.dailyGal a')).drop (e + 1))) = u' at *
    have hu : |u' - u| ≤ 48 * (|g' - g| + |b.dailyGal| * apart a a') := by
      rw [abs_le]; constructor <;> linarith
    have := abs_add_le ((u' - u) * fract) (x' - x)
    rw [show (u' - u) * fract + (x' - x) = u' * fract + x' - (u * fract + x) by ring, abs_mul] at this
    have h5 := mul_le_mul_of_nonneg_right hu (abs_nonneg fract)
    have z1 : 0 ≤ L * |g' - g| := by positivity
    have z2 : 0 ≤ 48 * apart a a' * |fract| := by positivity
    have z3 : 0 ≤ 48 * |b.dailyGal| * |g' - g| * |fract| := by positivity
    nlinarith [this, h5, z1, z2, z3, k1]

/-- Methods whose results with load shifting change little when the average day changes little. -/
structure LsClose (M : SizingMethods K) : Prop where
  cap0 : ∀ c (b : Building K) p a, M.reqCapacity c (withDays p a b) = M.reqCapacity c b
  vol0 : ∀ (c : SysCfg K) (b : Building K) x v, M.runVol c b x = .ok v → runningVolume b.dailyGal c.maxRunHr b.peakShape = .ok v
  gen : ∀ c sched m (b : Building K) slope fract, ∃ L, 0 ≤ L ∧ ∀ p p' a a' g g',
    M.genRateLs c sched m (withDays p a b) slope fract = .ok g →
    M.genRateLs c sched m (withDays p' a' b) slope fract = .ok g' → |g' - g| ≤ L * apart a a'
  cap : ∀ c sched m (b : Building K) slope fract, ∃ L, 0 ≤ L ∧ ∀ p p' a a' g g',
    M.reqCapacityLs c sched m (withDays p a b) slope fract = .ok g →
    M.reqCapacityLs c sched m (withDays p' a' b) slope fract = .ok g' → |g' - g| ≤ L * apart a a'
  vol : ∀ c sched (b : Building K) fract, ∃ L, 0 ≤ L ∧ ∀ p p' a a' g g' v v',
    M.runVolLs c sched (withDays p a b) g fract = .ok v →
    M.runVolLs c sched (withDays p' a' b) g' fract = .ok v' → |v' - v| ≤ L * (apart a a' + |g' - g|)

theorem reqCap_close {gen : SysCfg K → List String → ControlMap K → Building K → K → K → Py K} {c : SysCfg K}
    {sched : List String} {m : ControlMap K} {b : Building K} {slope fract : K}
    (hg : ∃ L, 0 ≤ L ∧ ∀ p p' a a' g g', gen c sched m (withDays p a b) slope fract = .ok g →
      gen c sched m (withDays p' a' b) slope fract = .ok g' → |g' - g| ≤ L * apart a a') :
    ∃ L, 0 ≤ L ∧ ∀ p p' a a' g g', requiredCapacityLs gen c sched m (withDays p a b) slope fract = .ok g →
      requiredCapacityLs gen c sched m (withDays p' a' b) slope fract = .ok g' → |g' - g| ≤ L * apart a a' := by
  obtain ⟨L, hL, hg⟩ := hg
  cases hi : requireDesignInlet b with
  | error e =>
    refine ⟨0, le_rfl, ?_⟩
    intro p p' a a' g g' h
    have hi' : requireDesignInlet (withDays p a b) = .error e := hi
    simp [requiredCapacityLs, hi', error_bind] at h
  | ok i =>
    refine ⟨L * |rhoCp K * (c.supply - i) / c.defrost / 1000|, by positivity, ?_⟩
    intro p p' a a' g g' h h'
    have hi1 : requireDesignInlet (withDays p a b) = .ok i := hi
    have hi2 : requireDesignInlet (withDays p' a' b) = .ok i := hi
    simp only [requiredCapacityLs, hi1, hi2, ok_bind, capacityOfGenRate, bind_eq_ok, fdiv_eq_ok, Except.ok.injEq] at h h'
    obtain ⟨x, hx, _, ⟨-, rfl⟩, rfl⟩ := h
    obtain ⟨x', hx', _, ⟨-, rfl⟩, rfl⟩ := h'
    have := mul_le_mul_of_nonneg_right (hg _ _ _ _ _ _ hx hx') (abs_nonneg (rhoCp K * (c.supply - i) / c.defrost / 1000))
    rw [← abs_mul] at this
    calc _ = |(x' - x) * (rhoCp K * (c.supply - i) / c.defrost / 1000)| := by congr 1; ring
      _ ≤ _ := this
      _ = _ := by ring

theorem base_lsClose : LsClose (baseMethods (K := K)) where
  cap0 _ _ _ _ := rfl
  vol0 _ _ _ _ h := h
  gen := gen_close
  cap c sched m b slope fract := reqCap_close (gen_close c sched m b slope fract)
  vol _ := runLs_close

theorem sp_gen_close (l : RtpLoop K) (c : SysCfg K) (sched : List String) (m : ControlMap K) (b : Building K) (slope fract : K) :
    ∃ L, 0 ≤ L ∧ ∀ p p' a a' g g', (spGenRateLs l c sched m (withDays p a b) slope fract).2 = .ok g →
      (spGenRateLs l c sched m (withDays p' a' b) slope fract).2 = .ok g' → |g' - g| ≤ L * apart a a' := by
  cases hr : recircDaily c l b with
  | error e =>
    refine ⟨0, le_rfl, ?_⟩
    intro p p' a a' g g' h
    have hr' : recircDaily c l (withDays p a b) = .error e := hr
    simp [spGenRateLs, hr'] at h
  | ok r =>
    obtain ⟨L, hL, hg⟩ := gen_close c sched m { b with dailyGal := b.dailyGal + r } slope fract
    refine ⟨L, hL, ?_⟩
    intro p p' a a' g g' h h'
    have h1 : recircDaily c l (withDays p a b) = .ok r := hr
    have h2 : recircDaily c l (withDays p' a' b) = .ok r := hr
    simp only [spGenRateLs, h1, h2, boosted] at h h'
    exact hg p p' a a' g g' h h'

theorem sp_lsClose (l : RtpLoop K) : LsClose (spMethods l) where
  cap0 _ _ _ _ := rfl
  vol0 := (sp_readsShape l).vol
  gen := sp_gen_close l
  cap c sched m b slope fract := by
    obtain ⟨L, hL, hg⟩ := reqCap_close (gen := fun c sched m b slope fract => (spGenRateLs l c sched m b slope fract).2)
      (sp_gen_close l c sched m b slope fract)
    refine ⟨L, hL, ?_⟩
    intro p p' a a' g g' h h'
    simp only [spMethods, rtpRequiredCapacityLs, bind_eq_ok, pure_eq_ok, Except.ok.injEq] at h h'
    obtain ⟨x, hx, r, hr, rfl⟩ := h
    obtain ⟨x', hx', r', hr', rfl⟩ := h'
    obtain rfl : r = r' := Except.ok.inj (hr.symm.trans hr')
    rw [add_sub_add_right_eq_sub]
    exact hg _ _ _ _ _ _ hx hx'
  vol c sched b fract := by
    cases hr : recircDaily c l b with
    | error e =>
      refine ⟨0, le_rfl, ?_⟩
      intro p p' a a' g g' v v' h
      have hr' : recircDaily c l (withDays p a b) = .error e := hr
      simp [spMethods, spRunVolLs, hr'] at h
    | ok r =>
      obtain ⟨L, hL, hg⟩ := runLs_close sched { b with dailyGal := b.dailyGal + r } fract
      refine ⟨L, hL, ?_⟩
      intro p p' a a' g g' v v' h h'
      have h1 : recircDaily c l (withDays p a b) = .ok r := hr
      have h2 : recircDaily c l (withDays p' a' b) = .ok r := hr
      simp only [spMethods, spRunVolLs, h1, h2, boosted] at h h'
      exact hg p p' a a' g g' v v' h h'

theorem storageLs_close (c : SysCfg K) (m : ControlMap K) (slope inlet : K) : ∃ L, 0 ≤ L ∧ ∀ v v' x x',
    storageVolumeLs c v m slope inlet = .ok x → storageVolumeLs c v' m slope inlet = .ok x' → |x' - x| ≤ L * |v' - v| := by
  by_cases h : ∃ f, ∀ v x, storageVolumeLs c v m slope inlet = .ok x → x = v * f
  · obtain ⟨f, h⟩ := h
    refine ⟨|f|, abs_nonneg _, ?_⟩
    intro v v' x x' h1 h2
    rw [h _ _ h1, h _ _ h2, ← sub_mul, abs_mul, mul_comm]
  · exfalso
    apply h
    by_cases h1 : ∃ v x, storageVolumeLs c v m slope inlet = .ok x
    · obtain ⟨v, x, h1⟩ := h1
      simp only [storageVolumeLs, bind_eq_ok] at h1
      obtain ⟨⟨n, lu, s⟩, h1, y, hy, z, hz, -⟩ := h1
      refine ⟨((y - z) / 100)⁻¹, ?_⟩
      intro v x h2
      simp only at hy hz
      simp only [storageVolumeLs, h1, ok_bind, hy, hz, storageVolume, fdiv_eq_ok] at h2
      rw [h2.2, div_eq_mul_inv]
    · exact ⟨0, fun v x h2 => absurd ⟨v, x, h2⟩ h1⟩

/-- The two results for two pairs of days. -/
theorem sizeCore_close {M : SizingMethods K} (hM : LsClose M) (c : SysCfg K) (h0 : 0 ≤ c.maxRunHr) (h24 : c.maxRunHr ≤ 24)
    (b : Building K) (ls : Option (List String × ControlMap K)) (cmap : Option (ControlMap K)) (slope fract : K) :
    ∃ L, ∀ p p' a a' x y x' y', FullDay (withPeak p b) → FullDay (withPeak p' b) →
      sizeCore M c (withDays p a b) ls cmap slope fract = .ok (x, y) →
      sizeCore M c (withDays p' a' b) ls cmap slope fract = .ok (x', y') →
      |x' - x| ≤ L * (apart p p' + apart a a') ∧ |y' - y| ≤ L * (apart p p' + apart a a') := by
  cases hi : requireDesignInlet b with
  | error e =>
    refine ⟨0, ?_⟩
    intro p p' a a' x y x' y' _ _ h
    have hi' : requireDesignInlet (withDays p a b) = .error e := hi
    simp [sizeCore, hi', error_bind] at h
  | ok i =>
  cases hf : stratFactor c cmap slope i with
  | error e =>
    refine ⟨0, ?_⟩
    intro p p' a a' x y x' y' _ _ h
    have hi' : requireDesignInlet (withDays p a b) = .ok i := hi
    simp only [sizeCore, hi', ok_bind, hf, error_bind, bind_eq_ok] at h
    obtain ⟨_, _, _, _, h⟩ := h
    simp at h
  | ok f =>
  -- the part without load shifting
  have plain : ∀ p p' a a' q q' v v', FullDay (withPeak p b) → FullDay (withPeak p' b) →
      M.reqCapacity c (withDays p a b) = .ok q → M.reqCapacity c (withDays p' a' b) = .ok q' →
      M.runVol c (withDays p a b) q = .ok v → M.runVol c (withDays p' a' b) q' = .ok v' →
      q' = q ∧ |v' / f - v / f| ≤ |b.dailyGal| / |f| * apart p p' := by
    intro p p' a a' q q' v v' hp hp' hq hq' hv hv'
    rw [hM.cap0] at hq hq'
    refine ⟨Except.ok.inj (hq'.symm.trans hq), ?_⟩
    have r1 : runningVolume b.dailyGal c.maxRunHr p = .ok v := hM.vol0 _ _ _ _ hv
    have r2 : runningVolume b.dailyGal c.maxRunHr p' = .ok v' := hM.vol0 _ _ _ _ hv'
    have hne : c.maxRunHr ≠ 0 := by
      intro e
      rw [e] at r1
      simp [runningVolume, fdiv, error_bind] at r1
    have near : |v' - v| ≤ b.dailyGal * apart p p' :=
      runningVolume_near hp.gal (lt_of_le_of_ne h0 hne.symm) h24 hp.hours hp'.hours hp.sum hp'.sum r1 r2
    have hg : 0 ≤ b.dailyGal := hp.gal
    rw [← sub_div, abs_div, abs_of_nonneg hg, div_mul_eq_mul_div]
    exact div_le_div_of_nonneg_right near (abs_nonneg _)
  have hpl : 0 ≤ |b.dailyGal| / |f| := by positivity
  cases ls with
  | none =>
    refine ⟨|b.dailyGal| / |f|, ?_⟩
    intro p p' a a' x y x' y' hp hp' h h'
    have i1 : requireDesignInlet (withDays p a b) = .ok i := hi
    have i2 : requireDesignInlet (withDays p' a' b) = .ok i := hi
    simp only [sizeCore, i1, i2, ok_bind, hf, bind_eq_ok, pure_eq_ok, Except.ok.injEq, Prod.mk.injEq, storageVolume, fdiv_eq_ok] at h h'
    obtain ⟨q, hq, v, hv, _, ⟨-, rfl⟩, rfl, rfl⟩ := h
    obtain ⟨q', hq', v', hv', _, ⟨-, rfl⟩, rfl, rfl⟩ := h'
    obtain ⟨rfl, k⟩ := plain _ _ _ _ _ _ _ _ hp hp' hq hq' hv hv'
    have a1 := apart_nonneg p p'
    have a2 := apart_nonneg a a'
    constructor
    · rw [sub_self, abs_zero]; positivity
    · have : 0 ≤ |b.dailyGal| / |f| * apart a a' := by positivity
      linarith
  | some r =>
    obtain ⟨sched, m⟩ := r
    obtain ⟨L1, p1, k1⟩ := hM.gen c sched m b slope fract
    obtain ⟨L2, p2, k2⟩ := hM.cap c sched m b slope fract
    obtain ⟨L3, p3, k3⟩ := hM.vol c sched b fract
    obtain ⟨L4, p4, k4⟩ := storageLs_close c m slope i
    refine ⟨|b.dailyGal| / |f| + L2 + L4 * (L3 * (1 + L1)), ?_⟩
    intro p p' a a' x y x' y' hp hp' h h'
    have i1 : requireDesignInlet (withDays p a b) = .ok i := hi
    have i2 : requireDesignInlet (withDays p' a' b) = .ok i := hi
    simp only [sizeCore, i1, i2, ok_bind, hf, bind_eq_ok, pure_eq_ok, Except.ok.injEq, Prod.mk.injEq, storageVolume, fdiv_eq_ok] at h h'
    obtain ⟨q, hq, v, hv, _, ⟨-, rfl⟩, d, hd, g, hg, u, hu, t, ht, rfl, rfl⟩ := h
    obtain ⟨q', hq', v', hv', _, ⟨-, rfl⟩, d', hd', g', hg', u', hu', t', ht', rfl, rfl⟩ := h'
    obtain ⟨rfl, k⟩ := plain _ _ _ _ _ _ _ _ hp hp' hq hq' hv hv'
    have a1 := apart_nonneg p p'
    have a2 := apart_nonneg a a'
    have e1 := k1 _ _ _ _ _ _ hg hg'
    have e2 := k2 _ _ _ _ _ _ hd hd'
    have e3 := k3 _ _ _ _ _ _ _ _ hu hu'
    have e4 := k4 _ _ _ _ ht ht'
    have e5 : |t' - t| ≤ L4 * (L3 * (1 + L1)) * apart a a' := by
      have := mul_le_mul_of_nonneg_left e3 p4
      have h6 := mul_le_mul_of_nonneg_left (mul_le_mul_of_nonneg_left e1 p3) p4
      linarith
    have z1 : 0 ≤ |b.dailyGal| / |f| * apart a a' := by positivity
    have z2 : 0 ≤ L4 * (L3 * (1 + L1)) * apart a a' := by positivity
    have z3 : 0 ≤ L4 * (L3 * (1 + L1)) * apart p p' := by positivity
    have z4 : 0 ≤ L2 * apart p p' := by positivity
    have z5 : 0 ≤ L2 * apart a a' := by positivity
    have z6 : 0 ≤ |b.dailyGal| / |f| * apart p p' := by positivity
    constructor
    · refine (max_close _ _ _).trans ?_
      linarith
    · refine (abs_max_sub_max_le_max _ _ _ _).trans (max_le ?_ ?_)
      · linarith
      · linarith

theorem size_close {M : SizingMethods K} (hM : LsClose M) (db : ShapeFiles K) (s : DhwSys K) (h0 : 0 ≤ s.cfg.maxRunHr)
    (h24 : s.cfg.maxRunHr ≤ 24) (b : Building K) (sched : Option (List String)) (cmap : Option (ControlMap K)) (slope fract : K) :
    ∃ L, ∀ p p' a a' s1 s2 b1 b2 w1 w2, FullDay (withPeak p b) → FullDay (withPeak p' b) →
      size M db s (withDays p a b) sched cmap slope fract = ((s1, b1), .ok w1) →
      size M db s (withDays p' a' b) sched cmap slope fract = ((s2, b2), .ok w2) →
      CloseBy (L * (apart p p' + apart a a')) s1 s2 := by
  have c0 : 0 ≤ (cappedCfg s.cfg (lsInputs sched cmap)).maxRunHr := by
    unfold cappedCfg; split
    · exact h0
    · exact le_min h0 (Nat.cast_nonneg _)
  have c24 : (cappedCfg s.cfg (lsInputs sched cmap)).maxRunHr ≤ 24 := by
    unfold cappedCfg; split
    · exact h24
    · exact (min_le_left _ _).trans h24
  obtain ⟨L, hL⟩ := sizeCore_close hM _ c0 c24 b (lsInputs sched cmap) cmap slope fract
  refine ⟨L, ?_⟩
  intro p p' a a' s1 s2 b1 b2 w1 w2 hp hp' h1 h2
  have sized : ∀ {p a : List K} {c' : Building K} {t : DhwSys K} {w : Warnings}, FullDay (withPeak p b) →
      size M db s (withDays p a b) sched cmap slope fract = ((t, c'), .ok w) → ∃ cap st, t.minCap = some cap ∧
        t.minStorage = some st ∧ sizeCore M (cappedCfg s.cfg (lsInputs sched cmap)) (withDays p a b) (lsInputs sched cmap) cmap
          slope fract = .ok (cap, st) := by
    intro p a c' t w hc h
    rcases size_cases M db s (withDays p a b) sched cmap slope fract with
      ⟨e', _, he⟩ | ⟨b', hb', ⟨e', _, he⟩ | ⟨cap, st, hcore, ⟨e', hw, he⟩ | ⟨ws', b3, hw, he, -, -⟩⟩⟩
    · rw [he] at h; simp at h
    · rw [he] at h; simp at h
    · rw [he] at h; simp at h
    · rw [he] at h
      simp only [Prod.mk.injEq, Except.ok.injEq] at h
      obtain ⟨⟨rfl, rfl⟩, rfl⟩ := h
      have hn : (withDays p a b).isAnnual = false := notAnnual (b := withDays p a b) ⟨hc.gal, hc.hours, hc.sum⟩
      have d1 : dailyView db (withDays p a b) = .ok (withDays p a b) := by unfold dailyView; rw [if_neg (by simp [hn])]
      obtain rfl : withDays p a b = b' := Except.ok.inj (d1.symm.trans hb')
      exact ⟨cap, st, rfl, rfl, hcore⟩
  obtain ⟨x, y, e1, e2, k⟩ := sized hp h1
  obtain ⟨x', y', e1', e2', k'⟩ := sized hp' h2
  obtain ⟨r1, r2⟩ := hL _ _ _ _ _ _ _ _ hp hp' k k'
  exact ⟨⟨_, _, e1, e1', r1⟩, ⟨_, _, e2, e2', r2⟩⟩

variable (db : ShapeFiles K) (b : Building K) (sched : Option (List String)) (cmap : Option (ControlMap K)) (slope fract : K)

/-- **C144, primary systems, with or without load shifting.** For a system, a building, a schedule and a control map there is a
number `L` such that for any two peak days and any two average days the capacities and the storage volumes differ by at most `L`
times the share of the daily use by which the days differ. -/
theorem C144_load_shift (s : DhwSys K) (h0 : 0 ≤ s.cfg.maxRunHr) (h24 : s.cfg.maxRunHr ≤ 24) :
    ∃ L, ∀ p p' a a' s1 s2 b1 b2 w1 w2, FullDay (withPeak p b) → FullDay (withPeak p' b) →
      size baseMethods db s (withDays p a b) sched cmap slope fract = ((s1, b1), .ok w1) →
      size baseMethods db s (withDays p' a' b) sched cmap slope fract = ((s2, b2), .ok w2) →
      CloseBy (L * (apart p p' + apart a a')) s1 s2 :=
  size_close base_lsClose db s h0 h24 b sched cmap slope fract

/-- **C144, single-pass return to primary, with or without load shifting.** -/
theorem C144_load_shift_single_pass (s : SpSys K) (h0 : 0 ≤ s.base.cfg.maxRunHr) (h24 : s.base.cfg.maxRunHr ≤ 24) :
    ∃ L, ∀ p p' a a' s1 s2 b1 b2 w1 w2, FullDay (withPeak p b) → FullDay (withPeak p' b) →
      s.size db (withDays p a b) sched cmap slope fract = ((s1, b1), .ok w1) →
      s.size db (withDays p' a' b) sched cmap slope fract = ((s2, b2), .ok w2) →
      CloseBy (L * (apart p p' + apart a a')) s1.base s2.base := by
  obtain ⟨L, hL⟩ := size_close (sp_lsClose s.loop) db s.base h0 h24 b sched cmap slope fract
  refine ⟨L, ?_⟩
  intro p p' a a' s1 s2 b1 b2 w1 w2 hp hp' h1 h2
  have part : ∀ {c c' : Building K} {t : SpSys K} {w : Warnings}, s.size db c sched cmap slope fract = ((t, c'), .ok w) →
      size (spMethods s.loop) db s.base c sched cmap slope fract = ((t.base, c'), .ok w) := by
    intro c c' t w h
    simp only [SpSys.size] at h
    generalize size (spMethods s.loop) db s.base c sched cmap slope fract = r at h
    obtain ⟨⟨d, d1⟩, v⟩ := r
    cases v with
    | error e => simp at h
    | ok v =>
      simp only at h
      cases hx : rtpRecircCap d.cfg s.loop with
      | error e => rw [hx] at h; simp at h
      | ok x =>
        rw [hx] at h
        simp only [Prod.mk.injEq, Except.ok.injEq] at h
        obtain ⟨⟨rfl, rfl⟩, rfl⟩ := h
        rfl
  exact hL _ _ _ _ _ _ _ _ _ _ hp hp' (part h1) (part h2)

/-- **C144, parallel loop, with or without load shifting.** -/
theorem C144_load_shift_parallel (s : ParSys K) (h0 : 0 ≤ s.base.cfg.maxRunHr) (h24 : s.base.cfg.maxRunHr ≤ 24) :
    ∃ L, ∀ p p' a a' s1 s2 b1 b2 w1 w2, FullDay (withPeak p b) → FullDay (withPeak p' b) →
      s.size baseMethods db (withDays p a b) sched cmap slope fract = ((s1, b1), .ok w1) →
      s.size baseMethods db (withDays p' a' b) sched cmap slope fract = ((s2, b2), .ok w2) →
      CloseBy (L * (apart p p' + apart a a')) s1.base s2.base := by
  obtain ⟨L, hL⟩ := size_close base_lsClose db s.base h0 h24 b sched cmap slope fract
  refine ⟨L, ?_⟩
  intro p p' a a' s1 s2 b1 b2 w1 w2 hp hp' h1 h2
  have part : ∀ {c c' : Building K} {t : ParSys K} {w : Warnings},
      s.size baseMethods db c sched cmap slope fract = ((t, c'), .ok w) →
      size baseMethods db s.base c sched cmap slope fract = ((t.base, c'), .ok w) := by
    intro c c' t w h
    simp only [ParSys.size] at h
    cases hv : validateTm s.tm with
    | error e => rw [hv] at h; simp at h
    | ok u =>
      rw [hv] at h
      simp only at h
      generalize size baseMethods db s.base c sched cmap slope fract = r at h
      obtain ⟨⟨d, d1⟩, v⟩ := r
      cases v with
      | error e => simp at h
      | ok v =>
        simp only at h
        cases hx : sizeTm d.cfg.supply s.tm with
        | error e => rw [hx] at h; simp at h
        | ok x =>
          rw [hx] at h
          simp only [Prod.mk.injEq, Except.ok.injEq] at h
          obtain ⟨⟨rfl, rfl⟩, rfl⟩ := h
          rfl
  exact hL _ _ _ _ _ _ _ _ _ _ hp hp' (part h1) (part h2)

/-- The demo building with its loads shifted meets the hypotheses, with another peak day and another average day. -/
example : FullDay (withPeak (Demo.moved (1/1000)) Demo.building) ∧ FullDay (withPeak Demo.shape Demo.building) ∧
    (size baseMethods Demo.noFiles { cfg := Demo.cfg } (withDays Demo.shape Demo.shape Demo.building)
      (some Demo.sched) (some Demo.map) (28/10) 1).2.isOk = true ∧
    (size baseMethods Demo.noFiles { cfg := Demo.cfg } (withDays (Demo.moved (1/1000)) (Demo.moved (1/1000)) Demo.building)
      (some Demo.sched) (some Demo.map) (28/10) 1).2.isOk = true := by
  refine ⟨Demo.moved_fullDay, Demo.fullDay, ?_, ?_⟩ <;> decide +kernel

end Eco
