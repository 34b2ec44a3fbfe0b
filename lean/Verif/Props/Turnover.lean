import Verif.Props.ParallelLoop

/-! C65: steps in which the whole temperature-maintenance tank, or more, goes round the loop. -/

namespace Eco
set_option linter.unusedSectionVars false
variable {K : Type} [Field K] [LinearOrder K] [IsStrictOrderedRing K]

/-- The heater turns off in some step exactly if the temperature of one of the checks, were the heater on all the time,
is not below OFF. -/
theorem tmRun_off_iff {supply v cap : K} {t : TmCfg K} (hs : sizeTm supply t = .ok (v, cap)) (hv : 0 < v) (hc : 0 < cap)
    (hn : (t.num : K) ≠ 0) (oat : Nat → Option K) (dur start : Nat) (T cold : K) :
    (∃ n T', tmRun t oat dur start n (tmState t v cap T cold true) = .ok (tmState t v cap T' cold false)) ∨
      (∀ n, ∃ T', tmRun t oat dur start n (tmState t v cap T cold true) = .ok (tmState t v cap T' cold true)) ∧
        ∀ n : ℕ, tmLimit supply v dur t + (1 - loopShare t v (dur : K)) ^ (n + 1) * (T - tmBalance supply t) < t.off := by
  set k := loopShare t v (dur : K) with hk
  have step : ∀ (n start : ℕ) (T : K),
      (∃ n T', tmRun t oat dur start n (tmState t v cap T cold true) = .ok (tmState t v cap T' cold false)) ∨
      ((∃ T', tmRun t oat dur start n (tmState t v cap T cold true) = .ok (tmState t v cap T' cold true)) ∧
        ∀ m < n, tmLimit supply v dur t + (1 - k) ^ (m + 1) * (T - tmBalance supply t) < t.off) := by
    intro n
    induction n with
    | zero => intro start T; exact Or.inr ⟨⟨T, rfl⟩, by simp⟩
    | succ n ih =>
      intro start T
      by_cases h1 : T + k * (t.ret - T) < t.off
      · have e : ∀ m, tmRun t oat dur start (m + 1) (tmState t v cap T cold true) =
            tmRun t oat dur (start + 1) m (tmState t v cap (T + k * (tmBalance supply t - T)) cold true) := by
          intro m
          rw [tmRun_step hs hv hc hn]
          simp only [← hk, if_true, decide_eq_true h1]
        rcases ih (start + 1) (T + k * (tmBalance supply t - T)) with ⟨m, T', h⟩ | ⟨⟨T', h⟩, h2⟩
        · exact Or.inl ⟨m + 1, T', by rw [e, h]⟩
        · refine Or.inr ⟨⟨T', by rw [e, h]⟩, ?_⟩
          intro m hm
          cases m with
          | zero =>
            rw [zero_add, pow_one]
            unfold tmLimit
            rw [← hk]
            linarith
          | succ m =>
            have := h2 m (by omega)
            rw [pow_succ]
            linarith
      · refine Or.inl ⟨1, T + k * (t.ret - T), ?_⟩
        rw [tmRun_step hs hv hc hn]
        simp only [← hk, if_true, decide_eq_false h1]
        rfl
  by_cases h : ∃ n T', tmRun t oat dur start n (tmState t v cap T cold true) = .ok (tmState t v cap T' cold false)
  · exact Or.inl h
  · refine Or.inr ⟨fun n => ?_, fun n => ?_⟩
    · rcases step n start T with h' | h'
      · exact absurd h' h
      · exact h'.1
    · rcases step (n + 1) start T with h' | h'
      · exact absurd h' h
      · exact h'.2 n (by omega)

/-- **C65 (full turnover).** For a system built by `from_size` with a working loop, simulated with steps in which at least
the tank volume goes round the loop: up to two tank volumes per step, a heater that is on in a tank below the balance
temperature turns off if and only if it does so in its first step; beyond two volumes the simulated temperature swings
further in every step until the heater turns off. -/
theorem C65_full_turnover [Archimedean K] {M : SizingMethods K} {db : ShapeFiles K} {c : SysCfg K}
    {t : TmCfg K} {b b' : Building K} {sched : Option (List String)} {cmap : Option (ControlMap K)}
    {slope fract : K} {p : ParSys K}
    (h : ParSys.fromSize M db c t b sched cmap slope fract = (b', .ok p))
    (hf : 0 < t.flow) (hr : t.ret < c.supply) (oat : Nat → Option K) (dur : Nat)
    (hk : 60 * t.offTime * (c.supply - t.ret) ≤ (dur : K) * (t.off - t.on)) :
    ∃ tank w, p.tmTank = some tank ∧ p.tmHeater = some w ∧ 0 < tank.vol ∧ tank.vol ≤ t.flow * dur ∧
      ∀ T, T < tmBalance c.supply t → ∀ start,
        (t.flow * dur ≤ 2 * tank.vol →
          ((∃ n tank' w', tmRun t oat dur start n ({ tank with temp := T }, { w with active := true })
              = .ok (tank', w') ∧ w'.active = false) ↔
            ∃ tank' w', tmRun t oat dur start 1 ({ tank with temp := T }, { w with active := true })
              = .ok (tank', w') ∧ w'.active = false)) ∧
        (2 * tank.vol < t.flow * dur →
          ∃ n tank' w', tmRun t oat dur start n ({ tank with temp := T }, { w with active := true })
              = .ok (tank', w') ∧ w'.active = false) := by
  obtain ⟨hval, -, hn, v, cap, hs, htank, hheat⟩ := fromSize_tm h
  obtain ⟨h1, h2, h3, h4, h5⟩ := (C64_validation t).1.1 hval
  obtain ⟨hv, hc, hks⟩ := loopShare_sized hval hs hf hr (dur : K)
  have hB : 0 < t.off - t.on := by linarith
  have hD : 0 < c.supply - t.ret := by linarith
  have hk1 : 1 ≤ loopShare t v (dur : K) := by
    rw [hks, one_le_div (by positivity)]; exact hk
  have hflow : t.flow * dur = loopShare t v (dur : K) * v := by
    unfold loopShare; rw [div_mul_cancel₀ _ hv.ne']
  refine ⟨_, _, htank, hheat, hv, by simp only [hflow]; nlinarith, fun T hT start => ⟨fun h2v => ⟨?_, ?_⟩, fun h2v => ?_⟩⟩
  · rintro ⟨n, tank', w', hrun, hw⟩
    simp only [hflow] at h2v
    have hk2 : loopShare t v (dur : K) ≤ 2 := le_of_mul_le_mul_right h2v hv
    by_contra hno
    -- the first check does not turn it off
    have hfirst : T + loopShare t v (dur : K) * (t.ret - T) < t.off := by
      by_contra hge
      apply hno
      have e : tmRun t oat dur start 1 (tmState t v cap T 0 true) =
          .ok (tmState t v cap (T + loopShare t v (dur : K) * (t.ret - T)) 0 false) := by
        rw [tmRun_step hs hv hc hn]
        simp only [if_true, decide_eq_false hge]
        rfl
      exact ⟨_, _, e, rfl⟩
    rcases tmRun_off_iff hs hv hc hn oat dur start T 0 with ⟨m, T', hm⟩ | ⟨hall, -⟩
    · -- no check ever does
      have key : ∀ (m start : ℕ) (T : K), T + loopShare t v (dur : K) * (t.ret - T) < t.off →
          tmLimit c.supply v dur t < t.off → |(1 - loopShare t v (dur : K)) * (T - tmBalance c.supply t)| <
            t.off - tmLimit c.supply v dur t → 
          ∃ T', tmRun t oat dur start m (tmState t v cap T 0 true) = .ok (tmState t v cap T' 0 true) := by
        intro m
        induction m with
        | zero => intro start T _ _ _; exact ⟨T, rfl⟩
        | succ m ih =>
          intro start T h1 h2 h3
          rw [tmRun_step hs hv hc hn]
          simp only [if_true, decide_eq_true h1]
          have e : T + loopShare t v (dur : K) * (tmBalance c.supply t - T) - tmBalance c.supply t
              = (1 - loopShare t v (dur : K)) * (T - tmBalance c.supply t) := by ring
          have habs : |(1 - loopShare t v (dur : K)) * (T + loopShare t v (dur : K) * (tmBalance c.supply t - T)
              - tmBalance c.supply t)| < t.off - tmLimit c.supply v dur t := by
            rw [e, abs_mul]
            refine lt_of_le_of_lt ?_ h3
            refine mul_le_of_le_one_left (abs_nonneg _) ?_
            rw [abs_le]; constructor <;> linarith
          refine ih (start + 1) _ ?_ h2 habs
          have := (abs_lt.1 habs).2
          unfold tmLimit at this
          linarith
      have hneg : 0 ≤ (1 - loopShare t v (dur : K)) * (T - tmBalance c.supply t) :=
        mul_nonneg_of_nonpos_of_nonpos (by linarith) (by linarith)
      have hL : tmLimit c.supply v dur t + (1 - loopShare t v (dur : K)) * (T - tmBalance c.supply t) < t.off := by
        unfold tmLimit; linarith
      obtain ⟨T'', hT''⟩ := key m start T hfirst (by linarith) (by rw [abs_of_nonneg hneg]; linarith)
      rw [hm] at hT''
      have := (Prod.mk.inj (Except.ok.inj hT'')).2
      simp [tmHeaterOf] at this
    · obtain ⟨T', hT'⟩ := hall n
      have : tmState t v cap T' 0 true = (tank', w') := Except.ok.inj (hT'.symm.trans hrun)
      have h6 : w' = tmHeaterOf t (cap / (t.num : K)) true := (Prod.mk.inj this).2.symm
      rw [h6] at hw
      simp [tmHeaterOf] at hw
  · rintro ⟨tank', w', hrun⟩
    exact ⟨1, tank', w', hrun⟩
  · simp only [hflow] at h2v
    have hk2 : 2 < loopShare t v (dur : K) := lt_of_mul_lt_mul_right h2v hv.le
    rcases tmRun_off_iff hs hv hc hn oat dur start T 0 with ⟨m, T', hm⟩ | ⟨-, hall⟩
    · exact ⟨m, _, _, hm, rfl⟩
    · exfalso
      set k := loopShare t v (dur : K)
      set u := tmBalance c.supply t - T with hu
      have hu0 : 0 < u := by rw [hu]; linarith
      obtain ⟨n, hn'⟩ := pow_unbounded_of_one_lt ((t.off - tmLimit c.supply v dur t) / u) (show 1 < k - 1 by linarith)
      rw [div_lt_iff₀ hu0] at hn'
      have h7 := hall (2 * n)
      have e : (1 - k) ^ (2 * n + 1) * (T - tmBalance c.supply t) = (k - 1) ^ (2 * n + 1) * u := by
        have : (1 - k) ^ (2 * n + 1) = -((k - 1) ^ (2 * n + 1)) := by
          rw [← neg_sub k 1, Odd.neg_pow ⟨n, rfl⟩]
        rw [this, hu]; ring
      rw [e] at h7
      have hmono : (k - 1) ^ n ≤ (k - 1) ^ (2 * n + 1) := pow_le_pow_right₀ (by linarith) (by omega)
      have := mul_le_mul_of_nonneg_right hmono hu0.le
      linarith

namespace Demo

/-- A loop with a drop of 2 °F, whose sized tank holds what circulates in 7.5 minutes. -/
def tmWarm : TmCfg ℚ := { tm with ret := 118 }

/-- A loop with a drop of 1 °F. -/
def tmWarmer : TmCfg ℚ := { tm with ret := 119 }

end Demo

/-! Non-vacuity: with the 10-minute steps of a year, 4/3 tank volumes circulate per step in the first loop and 8/3 in the
second. -/
example : Demo.parOk Demo.tmWarm = true := by decide +kernel
example : Demo.parOk Demo.tmWarmer = true := by decide +kernel
example : 60 * Demo.tmWarm.offTime * (120 - Demo.tmWarm.ret)
    ≤ ((10 : Nat) : ℚ) * (Demo.tmWarm.off - Demo.tmWarm.on) := by decide +kernel
example : 60 * Demo.tmWarmer.offTime * (120 - Demo.tmWarmer.ret)
    ≤ ((10 : Nat) : ℚ) * (Demo.tmWarmer.off - Demo.tmWarmer.on) := by decide +kernel
example : (sizeTm 120 Demo.tmWarm).map (·.1) = .ok (75 / 2) ∧
    Demo.tmWarm.flow * (10 : Nat) ≤ 2 * (75 / 2) := by decide +kernel
example : (sizeTm 120 Demo.tmWarmer).map (·.1) = .ok (75 / 4) ∧
    2 * (75 / 4) < Demo.tmWarmer.flow * (10 : Nat) := by decide +kernel

end Eco
