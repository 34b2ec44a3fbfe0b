import Verif.Props.SwingSize
import Verif.Props.LoadShift

/-! C115: the load-shift volume and generation rate of a swing system. -/

namespace Eco
set_option linter.unusedSectionVars false
variable {K : Type} [Field K] [LinearOrder K] [IsStrictOrderedRing K]

namespace Spec

/-- The demand per minute in the `n` hours from hour `start` of a day. -/
def hoursFrom (shape : List K) (daily : K) (start n : ℕ) : List K :=
  byMinute (((shape.drop start).take n).map (fun f => f * daily))

/-- What is left of `v` gallons when the share `f` of the draws `shedHw` of a shed block that ends at hour `stop` has been
taken, and `k` minutes of the draws `dayHw` after it, with heating at `gen` gallons per hour outside shed hours. -/
def leftAfter (sched : List String) (gen f : K) (stop : ℕ) (shedHw dayHw : List K) (v : K) (k : ℕ) : K :=
  v - f * shedHw.sum + ((List.range k).map (fun i => shedGen sched gen (stop + i / 60) / 60)).sum - (dayHw.take k).sum

/-- The minute-by-minute draws from the primary storage of a swing tank as sized, which starts just above supply
temperature, for the building draws `ds`. -/
def DrawsOf (s : SwingSys K) (inlet : K) (ds hw : List K) : Prop :=
  ∃ vol cap rows, s.tmVol = some vol ∧ s.tmCap = some cap ∧
    simSwing ⟨vol, recircLossKbtuh s.base.cfg.supply s.ret s.flow, cap, s.base.cfg.supply⟩ inlet s.base.cfg.storage
      (s.base.cfg.supply + 1 / 10) ds = .ok rows ∧ hw = rows.map (·.hw)

end Spec

open Spec

theorem swingPrimary_draws {s : SwingSys K} {inlet : K} {hourly hw : List K} (h : swingPrimary s inlet hourly = .ok hw) :
    DrawsOf s inlet (byMinute hourly) hw := by
  simp only [swingPrimary, bind_eq_ok, pure_eq_ok, Except.ok.injEq] at h
  obtain ⟨p, hp, rows, hrows, rfl⟩ := h
  rw [perMinute_eq] at hrows
  unfold SwingSys.params at hp
  split at hp
  · rename_i v cap hv hc
    injection hp with hp
    subst hp
    exact ⟨v, cap, rows, hv, hc, hrows, rfl⟩
  · simp at hp

theorem simSwingFrom_length {p : SwingParams K} {inlet storage : K} {ds : List K} {hot : Bool} {t : K}
    {rows : List (SwingMin K)} (h : simSwingFrom p inlet storage hot t ds = .ok rows) : rows.length = ds.length := by
  induction ds generalizing hot t rows with
  | nil => simp only [simSwingFrom, Except.ok.injEq] at h; simp [← h]
  | cons d ds ih =>
    simp only [simSwingFrom, bind_eq_ok, pure_eq_ok, Except.ok.injEq] at h
    obtain ⟨x, _, rest, hr, rfl⟩ := h
    simp [ih hr]

theorem Spec.DrawsOf.length {s : SwingSys K} {inlet : K} {ds hw : List K} (h : DrawsOf s inlet ds hw) :
    hw.length = ds.length := by
  obtain ⟨v, c, rows, _, _, h, rfl⟩ := h
  cases ds with
  | nil => simp [simSwing] at h
  | cons d ds =>
    simp only [simSwing, bind_eq_ok, pure_eq_ok, Except.ok.injEq] at h
    obtain ⟨rest, hr, rfl⟩ := h
    simp [simSwingFrom_length hr]

theorem simSwingFrom_zero {p : SwingParams K} {inlet storage : K} {ds : List K} (h0 : ∀ d ∈ ds, d = 0) {hot : Bool}
    {t : K} {rows : List (SwingMin K)} (h : simSwingFrom p inlet storage hot t ds = .ok rows) :
    (rows.map (·.hw)).sum = 0 := by
  induction ds generalizing hot t rows with
  | nil => simp only [simSwingFrom, Except.ok.injEq] at h; simp [← h]
  | cons d ds ih =>
    simp only [simSwingFrom, bind_eq_ok, pure_eq_ok, Except.ok.injEq] at h
    obtain ⟨x, _, rest, hr, rfl⟩ := h
    have hd : d = 0 := h0 d (by simp)
    have := ih (fun y hy => h0 y (by simp [hy])) hr
    simp [this, hd, swingDraw]

theorem Spec.DrawsOf.sum_zero {s : SwingSys K} {inlet : K} {ds hw : List K} (h : DrawsOf s inlet ds hw)
    (h0 : ∀ d ∈ ds, d = 0) : hw.sum = 0 := by
  obtain ⟨v, c, rows, _, _, h, rfl⟩ := h
  cases ds with
  | nil => simp [simSwing] at h
  | cons d ds =>
    simp only [simSwing, bind_eq_ok, pure_eq_ok, Except.ok.injEq] at h
    obtain ⟨rest, hr, rfl⟩ := h
    have hd : d = 0 := h0 d (by simp)
    have := simSwingFrom_zero (fun y hy => h0 y (by simp [hy])) hr
    simp [this, hd]

theorem mapM_pyGet_range' {shape l : List K} {start n : ℕ} (h : (List.range' start n).mapM (fun h => pyGet shape h) = .ok l) :
    l = (shape.drop start).take n := by
  induction n generalizing start l with
  | zero =>
    simp only [List.range'_zero, List.mapM_nil, pure_eq_ok, Except.ok.injEq] at h
    simp [← h]
  | succ n ih =>
    rw [List.range'_succ, List.mapM_cons] at h
    simp only [bind_eq_ok, pure_eq_ok, Except.ok.injEq] at h
    obtain ⟨x, hx, t, ht, rfl⟩ := h
    have ht := ih ht
    rw [pyGet_eq_ok] at hx
    obtain ⟨hlt, hx⟩ := List.getElem?_eq_some_iff.1 hx
    rw [List.drop_eq_getElem_cons hlt, List.take_succ_cons, hx, ht]

theorem zipWith_sub_sum (g x : List K) (h : g.length = x.length) :
    (List.zipWith (fun g x => g - x) g x).sum = g.sum - x.sum := by
  induction g generalizing x with
  | nil => cases x with
    | nil => simp
    | cons a x => simp at h
  | cons a g ih => cases x with
    | nil => simp at h
    | cons c x =>
      simp only [List.zipWith_cons_cons, List.sum_cons, ih x (by simpa using h)]
      ring

/-- The generation of the day after the shed block, minute by minute. -/
theorem genMinutes_eq (sched : List String) (gen : K) {stop : ℕ} (hs : stop ≤ 24) :
    perMinute ((((List.range 24).map (fun h => if sched[h]? = some "shed" then (0 : K) else gen)
      ++ (List.range 24).map (fun h => if sched[h]? = some "shed" then (0 : K) else gen)).drop stop).take 24)
      = (List.range 1440).map (fun i => shedGen sched gen (stop + i / 60) / 60) := by
  apply List.ext_getElem?
  intro i
  rw [perMinute_getElem?]
  by_cases hi : i < 1440
  · have h60 : i / 60 < 24 := by omega
    rw [List.getElem?_take_of_lt h60, List.getElem?_drop, List.getElem?_append]
    simp only [List.length_map, List.length_range, List.getElem?_map, List.getElem?_range hi, Option.map_some]
    by_cases hlt : stop + i / 60 < 24
    · rw [if_pos hlt, List.getElem?_range hlt]
      simp [shedGen, Nat.mod_eq_of_lt hlt]
    · have hm : (stop + i / 60) % 24 = stop + i / 60 - 24 := by omega
      rw [if_neg hlt, List.getElem?_range (by omega)]
      simp [shedGen, hm]
  · rw [List.getElem?_eq_none (by simp; omega), List.getElem?_eq_none (by simp; omega)]
    rfl

theorem hours_nonneg {shape : List K} {daily : K} (hd : 0 ≤ daily) (hs : ∀ f ∈ shape, 0 ≤ f) (start n : ℕ) :
    ∀ x ∈ ((shape.drop start).take n).map (fun f => f * daily), 0 ≤ x := by
  intro x hx
  obtain ⟨f, hf, rfl⟩ := List.mem_map.1 hx
  exact mul_nonneg (hs f (List.mem_of_mem_drop (List.mem_of_mem_take hf))) hd

theorem perMinute_zero {l : List K} (h : ∀ x ∈ l, x = 0) : ∀ x ∈ perMinute l, x = 0 := by
  intro x hx
  simp only [perMinute, List.mem_flatMap, List.mem_replicate] at hx
  obtain ⟨y, hy, _, rfl⟩ := hx
  rw [h y hy, zero_div]

/-- The two preliminary volumes are the draws of the swing tank from the primary storage in the shed hours, times the
coverage, and in the load-up hours. -/
theorem prelimVolsSwing_eq {s : SwingSys K} {sched : List String} {b : Building K} {f vs vc inlet : K}
    (hday : 0 ≤ b.dailyGal) (hshape : ∀ x ∈ b.avgShape, 0 ≤ x) (hin : requireDesignInlet b = .ok inlet)
    (h : prelimVolsSwing s sched b f = .ok (vs, vc)) :
    ∃ start n lu shedHw, firstShedBlock sched = .ok (List.range' start n, lu) ∧ 0 < n ∧ start + n ≤ 24 ∧ lu ≤ start ∧
      DrawsOf s inlet (hoursFrom b.avgShape b.dailyGal start n) shedHw ∧ vs = f * shedHw.sum ∧
      (0 < lu → (∃ x ∈ (b.avgShape.drop (start - lu)).take lu, 0 < x * b.dailyGal) →
        ∃ luHw, DrawsOf s inlet (hoursFrom b.avgShape b.dailyGal (start - lu) lu) luHw ∧ vc = luHw.sum) ∧
      ((∀ x ∈ (b.avgShape.drop (start - lu)).take lu, x * b.dailyGal = 0) → vc = 0) := by
  unfold prelimVolsSwing at h
  simp only [bind_eq_ok] at h
  obtain ⟨⟨block, lu⟩, hb, sh, hsh, inlet', hin', hwS, hhw, h⟩ := h
  rw [hin] at hin'
  obtain rfl : inlet = inlet' := by injection hin'
  cases block with
  | nil => simp at h
  | cons h0 t =>
    obtain ⟨_, n, e, hle, _, _, _, hlu⟩ := firstShedBlock_cons hb
    have hlle := (countLoadUp_spec sched h0).1
    rw [← hlu] at hlle
    simp only [bind_eq_ok, pure_eq_ok, Except.ok.injEq, Prod.mk.injEq] at h
    obtain ⟨luH, hluH, h⟩ := h
    obtain ⟨vc', hvc, h1, h2⟩ : ∃ vc', (if 0 < lu ∧ 0 < (luH.map (fun f => f * b.dailyGal)).sum then
        (swingPrimary s inlet (luH.map (fun f => f * b.dailyGal))).map
          (fun hwLu => (luH.map (fun f => f * b.dailyGal)).sum * (hwLu.sum / (luH.map (fun f => f * b.dailyGal)).sum))
        else .ok (luH.map (fun f => f * b.dailyGal)).sum) = .ok vc' ∧
        ((sh.map (fun f => f * b.dailyGal)).sum * if 0 < (sh.map (fun f => f * b.dailyGal)).sum then
          hwS.sum / (sh.map (fun f => f * b.dailyGal)).sum else 1) * f = vs ∧ vc' = vc := by
      split at h
      · rename_i hc
        simp only [bind_eq_ok, Except.ok.injEq, Prod.mk.injEq] at h
        obtain ⟨v, hv, h1, h2⟩ := h
        exact ⟨v, by rw [if_pos hc, hv], h1, h2⟩
      · rename_i hc
        simp only [ok_bind, Except.ok.injEq, Prod.mk.injEq] at h
        exact ⟨_, by rw [if_neg hc], h.1, h.2⟩
    simp only [e] at hsh
    have hsh := mapM_pyGet_range' hsh
    have hluH := mapM_pyGet_range' hluH
    subst hsh hluH
    have hD := swingPrimary_draws hhw
    refine ⟨h0, n + 1, lu, hwS, by rw [hb, e], by omega, hle, hlle, hD, ?_, ?_, ?_⟩
    · rw [← h1]
      split
      · rename_i hpos
        rw [mul_div_cancel₀ _ hpos.ne']
        ring
      · rename_i hpos
        have hz : ∀ x ∈ ((b.avgShape.drop h0).take (n + 1)).map (fun f => f * b.dailyGal), x = 0 := by
          intro x hx
          have hnn := hours_nonneg hday hshape h0 (n + 1)
          exact le_antisymm ((List.single_le_sum hnn x hx).trans (not_lt.1 hpos)) (hnn x hx)
        have := hD.sum_zero (by rw [← perMinute_eq]; exact perMinute_zero hz)
        rw [this, List.sum_eq_zero hz]
        ring
    · intro hpos ⟨x, hx, hx0⟩
      have hnn := hours_nonneg hday hshape (h0 - lu) lu
      have hs : 0 < (((b.avgShape.drop (h0 - lu)).take lu).map (fun f => f * b.dailyGal)).sum :=
        hx0.trans_le (List.single_le_sum hnn _ (List.mem_map.2 ⟨x, hx, rfl⟩))
      rw [if_pos ⟨hpos, hs⟩] at hvc
      cases hp : swingPrimary s inlet (((b.avgShape.drop (h0 - lu)).take lu).map (fun f => f * b.dailyGal)) with
      | error e => rw [hp] at hvc; simp [Except.map] at hvc
      | ok l =>
        rw [hp] at hvc
        simp only [Except.map, Except.ok.injEq] at hvc
        exact ⟨l, swingPrimary_draws hp, by rw [← h2, ← hvc, mul_div_cancel₀ _ hs.ne']⟩
    · intro hz
      have : (((b.avgShape.drop (h0 - lu)).take lu).map (fun f => f * b.dailyGal)).sum = 0 := by
        apply List.sum_eq_zero
        intro x hx
        obtain ⟨y, hy, rfl⟩ := List.mem_map.1 hx
        exact hz y hy
      rw [this, if_neg (by simp)] at hvc
      injection hvc with hvc
      rw [← h2, ← hvc]

/-- **C115 (the volume).** The load-shift running volume of a swing system, taken at storage temperature, is the least store
that gives the covered share of what the swing tank draws in the first shed block, and after it never runs dry in the
minutes of a whole day, the shed hours of that day unheated; the mix fraction is the share of that day's demand which
the primary storage sends. -/
theorem C115_volume_carries_shed {s : SwingSys K} {sched : List String} {b : Building K} {gen f rv eff : K}
    (hday : 0 < b.dailyGal) (hshape : ∀ x ∈ b.avgShape, 0 ≤ x) (h : runVolLsSwing s sched b gen f = .ok (rv, eff)) :
    ∃ inlet start n lu shedHw dayHw v, requireDesignInlet b = .ok inlet ∧ b.avgShape.length = 24 ∧
      firstShedBlock sched = .ok (List.range' start n, lu) ∧ 0 < n ∧ start + n ≤ 24 ∧
      DrawsOf s inlet (hoursFrom b.avgShape b.dailyGal start n) shedHw ∧
      DrawsOf s inlet (dayFrom b.avgShape b.dailyGal (start + n)) dayHw ∧ dayHw.length = 1440 ∧
      s.base.cfg.supply ≠ inlet ∧ rv * (s.base.cfg.supply - inlet) = v * (s.base.cfg.storage - inlet) ∧
      eff * b.dailyGal = dayHw.sum ∧
      IsLeast {x | ∀ k ≤ 1440, 0 ≤ leftAfter sched gen f (start + n) shedHw dayHw x k} v := by
  unfold runVolLsSwing at h
  simp only [bind_eq_ok] at h
  obtain ⟨inlet, hin, ⟨block, lu⟩, hb, ⟨vs, vc⟩, hp, h⟩ := h
  split at h
  · simp at h
  · rename_i hl
    have hl : b.avgShape.length = 24 := not_not.1 hl
    obtain ⟨start, n, lu', shedHw, hb', hn, hsn, _, hD, rfl, _⟩ := prelimVolsSwing_eq hday.le hshape hin hp
    rw [hb] at hb'
    simp only [Except.ok.injEq, Prod.mk.injEq] at hb'
    obtain ⟨rfl, rfl⟩ := hb'
    split at h
    · simp at h
    · rename_i e he
      have hstop : e + 1 = start + n := by
        obtain ⟨n', rfl⟩ : ∃ n', n = n' + 1 := ⟨n - 1, by omega⟩
        rw [List.getLast?_range'] at he
        simp at he
        omega
      rw [hstop] at h
      simp only [bind_eq_ok, pure_eq_ok, Except.ok.injEq, Prod.mk.injEq, fdiv_eq_ok] at h
      obtain ⟨hw, hhw, q, ⟨hne, rfl⟩, rfl, rfl⟩ := h
      have hDay : DrawsOf s inlet (dayFrom b.avgShape b.dailyGal (start + n)) hw := swingPrimary_draws hhw
      have hlen : hw.length = 1440 := by rw [hDay.length, dayFrom_length hl hsn]
      rw [genMinutes_eq _ _ hsn]
      refine ⟨inlet, start, n, lu, shedHw, hw, worstNegative (cumsum (List.zipWith (fun g x => g - x)
        ((List.range 1440).map (fun i => shedGen sched gen (start + n + i / 60) / 60)) hw)) + f * shedHw.sum, hin, hl, hb, hn, hsn, hD, hDay, hlen, sub_ne_zero.1 hne, ?_,
        div_mul_cancel₀ _ hday.ne', ?_⟩
      · exact by rw [mul_assoc, div_mul_cancel₀ _ hne]
      · set G := (List.range 1440).map (fun i => shedGen sched gen (start + n + i / 60) / 60) with hG
        have hGl : G.length = 1440 := by simp [hG]
        have hpre : ∀ k ≤ 1440, ((List.zipWith (fun g x => g - x) G hw).take k).sum
            = ((List.range k).map (fun i => shedGen sched gen (start + n + i / 60) / 60)).sum - (hw.take k).sum := by
          intro k hk
          rw [List.take_zipWith, zipWith_sub_sum _ _ (by simp [hGl, hlen]), hG, ← List.map_take, List.take_range,
            min_eq_left hk]
        have hzl : (List.zipWith (fun g x => g - x) G hw).length = 1440 := by simp [hGl, hlen]
        constructor
        · intro k hk
          unfold leftAfter
          rcases Nat.eq_zero_or_pos k with rfl | hpos
          · simp only [List.range_zero, List.map_nil, List.sum_nil, List.take_zero]
            linarith [worstNegative_nonneg (cumsum (List.zipWith (fun g x => g - x) G hw))]
          · have := worstNegative_ge (mem_cumsum.2 ⟨k - 1, by omega, rfl⟩ :
              ((List.zipWith (fun g x => g - x) G hw).take (k - 1 + 1)).sum
                ∈ cumsum (List.zipWith (fun g x => g - x) G hw))
            rw [Nat.sub_add_cancel hpos, hpre k hk] at this
            linarith
        · intro x hx
          rcases worstNegative_attained (cumsum (List.zipWith (fun g x => g - x) G hw)) with h0 | ⟨y, hy, h0⟩
          · rw [h0]
            have := hx 0 (by omega)
            simp only [leftAfter, List.range_zero, List.map_nil, List.sum_nil, List.take_zero] at this
            linarith
          · obtain ⟨k, hk, hyk⟩ := mem_cumsum.1 hy
            rw [hzl] at hk
            rw [hyk, hpre (k + 1) hk] at h0
            have := hx (k + 1) (by omega)
            unfold leftAfter at this
            linarith

/-- **C115 (the rate).** The load-shift generation rate of a swing system is the least rate that makes the day's primary
draw in the run hours and, when there are load-up hours and the load-up level is above the shed level, makes in the
load-up hours what is drawn in them and the part of the covered shed draw that lies between the normal and the load-up
level. -/
theorem C115_rate {s : SwingSys K} {sched : List String} {m : ControlMap K} {b : Building K} {slope f gen inlet : K}
    (hday : 0 ≤ b.dailyGal) (hshape : ∀ x ∈ b.avgShape, 0 ≤ x) (hrun : 0 < s.base.cfg.maxRunHr)
    (hin : requireDesignInlet b = .ok inlet) (h : genRateLsSwing s sched m b slope f = .ok gen) :
    IsLeast {g | b.dailyGal * s.effMix ≤ g * s.base.cfg.maxRunHr} gen ∨
    ∃ start n lu shedHw luDraw nC luC sC nP luP sP, firstShedBlock sched = .ok (List.range' start n, lu) ∧ 0 < lu ∧
      DrawsOf s inlet (hoursFrom b.avgShape b.dailyGal start n) shedHw ∧
      ((∃ x ∈ (b.avgShape.drop (start - lu)).take lu, 0 < x * b.dailyGal) →
        ∃ luHw, DrawsOf s inlet (hoursFrom b.avgShape b.dailyGal (start - lu) lu) luHw ∧ luDraw = luHw.sum) ∧
      ((∀ x ∈ (b.avgShape.drop (start - lu)).take lu, x * b.dailyGal = 0) → luDraw = 0) ∧
      lsControls m = .ok (nC, luC, sC) ∧ stratPctOfTank s.base.cfg nC.onFract nC.onTrig slope = .ok nP ∧
      stratPctOfTank s.base.cfg luC.onFract luC.onTrig slope = .ok luP ∧
      stratPctOfTank s.base.cfg sC.onFract sC.onTrig slope = .ok sP ∧ sP < luP ∧
      IsLeast {g | b.dailyGal * s.effMix ≤ g * s.base.cfg.maxRunHr ∧
        f * shedHw.sum * ((luP - nP) / (luP - sP)) + luDraw ≤ g * lu} gen := by
  have hnorm : IsLeast {g | b.dailyGal * s.effMix ≤ g * s.base.cfg.maxRunHr} (b.dailyGal * s.effMix / s.base.cfg.maxRunHr) :=
    ⟨le_of_eq (div_mul_cancel₀ _ hrun.ne').symm, fun g hg => (div_le_iff₀ hrun).2 hg⟩
  unfold genRateLsSwing at h
  simp only [bind_eq_ok, fdiv_eq_ok] at h
  obtain ⟨_, ⟨_, rfl⟩, ⟨block, lu⟩, hb, h⟩ := h
  split at h
  · simp only [pure_eq_ok, Except.ok.injEq] at h
    exact Or.inl (h ▸ hnorm)
  · rename_i hlu
    have hlu' : 0 < lu := Nat.pos_of_ne_zero hlu
    simp only [bind_eq_ok] at h
    obtain ⟨⟨vs, vc⟩, hp, ⟨nC, luC, sC⟩, hc, luP, h1, nP, h2, sP, h3, h⟩ := h
    split at h
    · simp only [pure_eq_ok, Except.ok.injEq] at h
      exact Or.inl (h ▸ hnorm)
    · rename_i hband
      simp only [pure_eq_ok, Except.ok.injEq] at h
      obtain ⟨start, n, lu', shedHw, hb', _, _, _, hD, rfl, hl1, hl2⟩ := prelimVolsSwing_eq hday hshape hin hp
      rw [hb] at hb'
      simp only [Except.ok.injEq, Prod.mk.injEq] at hb'
      obtain ⟨rfl, rfl⟩ := hb'
      have hluK : (0 : K) < lu := by exact_mod_cast hlu'
      refine Or.inr ⟨start, n, lu, shedHw, vc, nC, luC, sC, nP, luP, sP, hb, hlu', hD, hl1 hlu', hl2, hc, h2, h1, h3,
        by linarith [not_le.1 hband], ?_⟩
      have e : f * shedHw.sum * (luP - nP) / (luP - sP) = f * shedHw.sum * ((luP - nP) / (luP - sP)) := mul_div_assoc _ _ _
      rw [e] at h
      subst h
      constructor
      · exact ⟨(div_le_iff₀ hrun).1 (le_max_left _ _), (div_le_iff₀ hluK).1 (le_max_right _ _)⟩
      · rintro g ⟨hg1, hg2⟩
        exact max_le ((div_le_iff₀ hrun).2 hg1) ((div_le_iff₀ hluK).2 hg2)

/-- Faster heating leaves more. -/
theorem leftAfter_mono {sched : List String} {g g' f : K} (h : g ≤ g') (stop : ℕ) (shedHw dayHw : List K) (v : K) (k : ℕ) :
    leftAfter sched g f stop shedHw dayHw v k ≤ leftAfter sched g' f stop shedHw dayHw v k := by
  unfold leftAfter
  have : ((List.range k).map (fun i => shedGen sched g (stop + i / 60) / 60)).sum
      ≤ ((List.range k).map (fun i => shedGen sched g' (stop + i / 60) / 60)).sum := by
    apply List.sum_le_sum
    intro i _
    apply div_le_div_of_nonneg_right _ (by norm_num)
    unfold shedGen
    split
    · exact le_rfl
    · exact h
  linarith

/-- **C115 (the sized system).** Take the capacity, the storage and the swing tank that load-shift sizing of a swing system
reports. If the primary tank holds the water of the load-up OFF level when the first shed block starts, then, the covered
share of the shed block's draws taken, and the heaters running at the reported capacity in all but the shed hours, it
holds at least the water of the shed ON level in every minute of the day after the block. `hot` and `low` are the
supply-temperature gallons in 100 gallons of the tank at these two levels. -/
theorem C115_sized_lasts_day {db : ShapeFiles K} {s s' : SwingSys K} {b b' : Building K} {sched : List String}
    {m : ControlMap K} {slope f inlet cap st : K} {nC lu sh : Controls K} {hot low : K}
    (hsize : s.size db b (some sched) (some m) slope f = ((s', b'), .ok ())) (hne : sched ≠ [])
    (hcap : getMinCapacity s'.base = .ok cap) (hst : getMinStorage s'.base = .ok st)
    (hann : b.isAnnual = false) (hin : requireDesignInlet b = .ok inlet)
    (hday : 0 < b.dailyGal) (hshape : ∀ x ∈ b.avgShape, 0 ≤ x)
    (hn : dictGet? m "normal" = some nC) (hlu : (dictGet? m "loadUp").getD nC = lu)
    (hsh : dictGet? m "shed" = some sh) (hdef : 0 < s.base.cfg.defrost)
    (hsup : inlet < s.base.cfg.supply) (hsto : s.base.cfg.supply ≤ s.base.cfg.storage)
    (hhot : supplyGalPer100 s.base.cfg lu.offFract lu.offTrig slope inlet = .ok hot)
    (hlow : supplyGalPer100 s.base.cfg sh.onFract sh.onTrig slope inlet = .ok low) (hband : low < hot) :
    ∃ start n luN shedHw dayHw, firstShedBlock sched = .ok (List.range' start n, luN) ∧ 0 < n ∧ start + n ≤ 24 ∧
      DrawsOf s' inlet (hoursFrom b.avgShape b.dailyGal start n) shedHw ∧
      DrawsOf s' inlet (dayFrom b.avgShape b.dailyGal (start + n)) dayHw ∧ dayHw.length = 1440 ∧
      ∀ k ≤ 1440, st / 100 * low ≤ st / 100 * hot
        + (s.base.cfg.storage - inlet) / (s.base.cfg.supply - inlet) *
          leftAfter sched (cap * 1000 * s.base.cfg.defrost / (rhoCp K * (s.base.cfg.storage - inlet))) f (start + n)
            shedHw dayHw 0 k := by
  have hls : lsInputs (some sched) (some m) = some (sched, m) := by
    obtain ⟨x, xs, rfl⟩ := List.exists_cons_of_ne_nil hne
    have : dictHas m "shed" = true := by simp [dictHas, hsh]
    simp [lsInputs, truthySched, this]
  obtain ⟨b1, inlet', vol, ca, tmCap, rv, eff, capP, st', mix, hb1, hin', _, _, hrest, rfl⟩ := swingSize_ok hsize
  obtain rfl : b = b1 := by
    unfold dailyView at hb1
    rw [hann] at hb1
    simpa using hb1
  obtain rfl : inlet = inlet' := by rw [hin] at hin'; injection hin'
  simp only [getMinCapacity, Except.ok.injEq] at hcap
  simp only [getMinStorage, Except.ok.injEq] at hst
  subst hcap hst
  rw [hls] at hrest
  unfold sizeSwingRest at hrest
  simp only [bind_eq_ok] at hrest
  obtain ⟨sf, _, st0, _, cap0, _, hrest⟩ := hrest
  unfold sizeSwingLs at hrest
  simp only [bind_eq_ok, pure_eq_ok, Except.ok.injEq, Prod.mk.injEq] at hrest
  obtain ⟨gen, hgen, capLs, hcapLs, ⟨rvLs, effLs⟩, hrv, stLs, hstLs, hc1, hc2⟩ := hrest
  obtain ⟨inlet2, start, n, luN, shedHw, dayHw, v, hin2, _, hb, hn0, hsn, hD1, hD2, hlen, _, hv, _, hleast⟩ :=
    C115_volume_carries_shed hday hshape hrv
  obtain rfl : inlet = inlet2 := by rw [hin] at hin2; injection hin2
  refine ⟨start, n, luN, shedHw, dayHw, hb, hn0, hsn, hD1, hD2, hlen, ?_⟩
  intro k hk
  have hleft := hleast.1 k hk
  have hd : 0 < s.base.cfg.supply - inlet := by linarith
  have hdS : 0 < s.base.cfg.storage - inlet := by linarith
  have hrho : (0 : K) < rhoCp K := by unfold rhoCp; norm_num
  -- the capacity
  unfold requiredCapacityLsSwing at hcapLs
  simp only [bind_eq_ok, hin, hgen, Except.ok.injEq, fdiv_eq_ok, pure_eq_ok] at hcapLs
  obtain ⟨_, rfl, _, rfl, _, ⟨_, rfl⟩, hcapLs⟩ := hcapLs
  have hgle : gen ≤ capP * 1000 * s.base.cfg.defrost / (rhoCp K * (s.base.cfg.storage - inlet)) := by
    rw [le_div_iff₀ (mul_pos hrho hdS)]
    have hle : capLs ≤ capP := by rw [← hc1]; exact le_max_right _ _
    have e : gen * (rhoCp K * (s.base.cfg.storage - inlet)) = capLs * 1000 * s.base.cfg.defrost := by
      rw [← hcapLs]
      simp only [SwingSys.capped, cappedCfg]
      field_simp
    rw [e]
    nlinarith
  have hmono := leftAfter_mono (sched := sched) (f := f) hgle (start + n) shedHw dayHw v k
  have hshift : ∀ g, leftAfter sched g f (start + n) shedHw dayHw v k
      = v + leftAfter sched g f (start + n) shedHw dayHw 0 k := by
    intro g; unfold leftAfter; ring
  -- the storage
  unfold storageVolumeLs storageVolume lsControls at hstLs
  simp only [bind_eq_ok, fdiv_eq_ok, pure_eq_ok, Except.ok.injEq, dictGet_eq_ok, hn, hsh, Option.some.injEq,
    Prod.exists, Prod.mk.injEq] at hstLs
  obtain ⟨_, luC, sC, ⟨_, rfl, _, rfl, _, rfl, rfl⟩, luX, p1, sX, p2, _, rfl⟩ := hstLs
  rw [hlu] at p1
  have q1 : supplyGalPer100 s.base.cfg lu.offFract lu.offTrig slope inlet = .ok luX := p1
  have q2 : supplyGalPer100 s.base.cfg sh.onFract sh.onTrig slope inlet = .ok sX := p2
  obtain rfl : luX = hot := by rw [hhot] at q1; injection q1 with q1; exact q1.symm
  obtain rfl : sX = low := by rw [hlow] at q2; injection q2 with q2; exact q2.symm
  have hbpos : 0 < (luX - sX) / 100 := div_pos (by linarith) (by norm_num)
  have hle : rvLs / ((luX - sX) / 100) ≤ st' := by
    split at hc2
    · simp only [Prod.mk.injEq] at hc2
      exact hc2.1.le
    · rename_i hno
      simp only [Prod.mk.injEq] at hc2
      rw [← hc2.1]; exact not_lt.1 hno
  rw [div_le_iff₀ hbpos] at hle
  have hv' : rvLs = v * ((s.base.cfg.storage - inlet) / (s.base.cfg.supply - inlet)) := by
    rw [mul_div_assoc', eq_div_iff hd.ne']
    exact hv
  have hq : 0 ≤ (s.base.cfg.storage - inlet) / (s.base.cfg.supply - inlet) := div_nonneg hdS.le hd.le
  rw [hshift] at hmono hleft
  rw [hshift] at hmono
  have hprod := mul_nonneg hq (hleft.trans hmono)
  rw [hv'] at hle
  linarith [show st' * ((luX - sX) / 100) = st' / 100 * luX - st' / 100 * sX by ring,
    mul_add ((s.base.cfg.storage - inlet) / (s.base.cfg.supply - inlet)) v
      (leftAfter sched (capP * 1000 * s.base.cfg.defrost / (rhoCp K * (s.base.cfg.storage - inlet))) f (start + n)
            shedHw dayHw 0 k), mul_comm v ((s.base.cfg.storage - inlet) / (s.base.cfg.supply - inlet))]

/-- Non-vacuity of C115: the steady swing system on an even day, with load-up hours before a shed block from 17 to 20 h. -/
example : Demo.steadySwing.size Demo.noFiles Demo.evenDay (some Demo.sched) (some Demo.map) (28/10) 1
      = ((Demo.steadySized, Demo.evenDay), .ok ()) ∧
    genRateLsSwing Demo.steadySized Demo.sched Demo.map Demo.evenDay (28/10) 1 = .ok (378004/6309) ∧
    runVolLsSwing Demo.steadySized Demo.sched Demo.evenDay (378004/6309) 1
      = .ok ((0 + 252002/2103) * (10/7), 1008001/1009440) ∧
    supplyGalPer100 Demo.cfg Demo.loadUp.offFract Demo.loadUp.offTrig (28/10) 50 = .ok (12375/98) ∧
    supplyGalPer100 Demo.cfg Demo.shed.onFract Demo.shed.onTrig (28/10) 50 = .ok (2075/98) ∧
    requireDesignInlet Demo.evenDay = .ok 50 ∧ Demo.evenDay.isAnnual = false ∧ 0 < Demo.evenDay.dailyGal ∧
    (∀ x ∈ Demo.evenDay.avgShape, 0 ≤ x) ∧ dictGet? Demo.map "normal" = some Demo.normal ∧
    (dictGet? Demo.map "loadUp").getD Demo.normal = Demo.loadUp ∧ dictGet? Demo.map "shed" = some Demo.shed := by
  refine ⟨steadySized_eq _ _ _ _ _ _ _, steady_genRate _ _ _ (1008001/1009440) _ (by norm_num),
    steady_runVolLs _ _ _ _ _ le_rfl, ?_⟩
  decide +kernel

end Eco
