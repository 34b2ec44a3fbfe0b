import Verif.Model.MultiPass
import Verif.Spec.Growing
import Verif.Props.Rtp
import Verif.Props.MixingValve
import Verif.Props.Simulate
import Verif.Props.Building
import Verif.Props.StratFactor
import Mathlib.Algebra.Order.BigOperators.Group.Finset
import Mathlib.Algebra.BigOperators.Intervals

/-! C70, C71 and C92 to C94 for the multi-pass return-to-primary system: sizing. -/

namespace Eco
set_option linter.unusedSectionVars false
variable {K : Type} [Field K] [LinearOrder K] [IsStrictOrderedRing K]

/-! ## C71: the running volume -/

/-- One minute of the code is one minute of the specification. -/
theorem slugMinute_spec (heat cold storage draw inlet : K) (s : SizingSlug K) (hs : 0 ≤ s.vol) :
    0 ≤ (slugMinute heat cold storage s draw inlet).vol ∧
    (s.vol + max 0 draw = 0 → (slugMinute heat cold storage s draw inlet).vol = 0) ∧
    (s.vol + max 0 draw ≠ 0 →
      ∃ x, (s.vol + max 0 draw) * rhoCp K * x =
          s.vol * rhoCp K * s.temp + max 0 draw * rhoCp K * inlet + 1000 * heat ∧
        ((storage ≤ x ∧ (slugMinute heat cold storage s draw inlet).vol = 0) ∨
         (x < storage ∧ (slugMinute heat cold storage s draw inlet).vol = s.vol + max 0 draw ∧
           (slugMinute heat cold storage s draw inlet).temp = x))) := by
  have hr := rho_pos (K := K)
  -- the slug after mixing
  obtain ⟨s1, h1, hv, ht⟩ : ∃ s1 : SizingSlug K,
      (if 0 < draw then
        if s.vol ≤ 0 then (⟨draw, inlet⟩ : SizingSlug K)
        else ⟨s.vol + draw, (s.vol * s.temp + draw * inlet) / (s.vol + draw)⟩
      else s) = s1 ∧ s1.vol = s.vol + max 0 draw ∧ s1.vol * s1.temp = s.vol * s.temp + max 0 draw * inlet := by
    refine ⟨_, rfl, ?_⟩
    by_cases hd : 0 < draw
    · rw [if_pos hd, max_eq_right hd.le]
      by_cases h0 : s.vol ≤ 0
      · have e : s.vol = 0 := le_antisymm h0 hs
        rw [if_pos h0, e]; simp
      · rw [if_neg h0]
        have hp : s.vol + draw ≠ 0 := by have := not_le.1 h0; positivity
        refine ⟨rfl, ?_⟩
        change (s.vol + draw) * ((s.vol * s.temp + draw * inlet) / (s.vol + draw)) = _
        field_simp
    · rw [if_neg hd, max_eq_left (not_lt.1 hd)]; simp
  have e : slugMinute heat cold storage s draw inlet =
      (let s2 : SizingSlug K := if 0 < s1.vol then { s1 with temp := s1.temp + heat * 1000 / (s1.vol * rhoCp K) } else s1
       if 0 < s2.vol ∧ storage ≤ s2.temp then ⟨0, cold⟩ else s2) := by
    rw [← h1]; rfl
  have hm : 0 ≤ max 0 draw := le_max_left _ _
  have h0 : 0 ≤ s1.vol := by rw [hv]; positivity
  rw [e, ← hv]
  by_cases hp : 0 < s1.vol
  · simp only [if_pos hp]
    have hx : s1.vol * rhoCp K * (s1.temp + heat * 1000 / (s1.vol * rhoCp K)) =
        s.vol * rhoCp K * s.temp + max 0 draw * rhoCp K * inlet + 1000 * heat := by
      have : s1.vol * rhoCp K * (s1.temp + heat * 1000 / (s1.vol * rhoCp K)) =
          rhoCp K * (s1.vol * s1.temp) + heat * 1000 := by
        field_simp
      rw [this, ht]; ring
    by_cases hc : storage ≤ s1.temp + heat * 1000 / (s1.vol * rhoCp K)
    · rw [if_pos ⟨hp, hc⟩]
      exact ⟨le_rfl, fun _ => rfl, fun _ => ⟨_, hx, .inl ⟨hc, rfl⟩⟩⟩
    · rw [if_neg (fun h => hc h.2)]
      exact ⟨h0, fun h => h, fun _ => ⟨_, hx, .inr ⟨not_le.1 hc, rfl, rfl⟩⟩⟩
  · have e0 : s1.vol = 0 := le_antisymm (not_lt.1 hp) h0
    simp only [if_neg hp]
    rw [if_neg (fun h => hp h.1)]
    exact ⟨h0, fun h => h, fun h => absurd e0 h⟩

/-- The states of the loop. -/
theorem slugLoop_states (c : SysCfg K) (l : RtpLoop K) (avg cold heat : K) (b : Building K) (n : ℕ) :
    ∀ (t : ℕ) (s : SizingSlug K) (m v : K), 0 ≤ s.vol → s.vol ≤ m → slugLoop c l avg cold heat b n t s m = .ok v →
      ∃ (p : ℕ → K × K) (st : ℕ → SizingSlug K), st 0 = s ∧
        (∀ i < n, sizingValve c l avg cold b (t + i) = .ok (p i)) ∧
        (∀ i < n, st (i + 1) = slugMinute heat cold c.storage (st i) (p i).1 (p i).2) ∧
        (∀ i ≤ n, 0 ≤ (st i).vol ∧ (st i).vol ≤ v) ∧ m ≤ v ∧ (v = m ∨ ∃ i ≤ n, (st i).vol = v) := by
  induction n with
  | zero =>
    intro t s m v h0 hm h
    simp only [slugLoop, Except.ok.injEq] at h
    subst h
    refine ⟨fun _ => (0, 0), fun _ => s, rfl, by simp, by simp, ?_, le_rfl, .inl rfl⟩
    intro i _
    exact ⟨h0, hm⟩
  | succ n ih =>
    intro t s m v h0 hm h
    simp only [slugLoop, bind_eq_ok] at h
    obtain ⟨⟨d, x⟩, hv, h⟩ := h
    dsimp only at h
    have hn := (slugMinute_spec heat cold c.storage d x s h0).1
    have hmax : (slugMinute heat cold c.storage s d x).vol ≤
        (if m < (slugMinute heat cold c.storage s d x).vol then (slugMinute heat cold c.storage s d x).vol else m) := by
      split
      · exact le_rfl
      · rename_i hh; exact not_lt.1 hh
    have hmm : m ≤
        (if m < (slugMinute heat cold c.storage s d x).vol then (slugMinute heat cold c.storage s d x).vol else m) := by
      split
      · rename_i hh; exact hh.le
      · exact le_rfl
    obtain ⟨p, st, e0, e1, e2, e3, e4, e5⟩ := ih (t + 1) _ _ v hn hmax h
    refine ⟨fun i => Nat.casesOn i (d, x) p, fun i => Nat.casesOn i s st, rfl, ?_, ?_, ?_, hmm.trans e4, ?_⟩
    · intro i hi
      cases i with
      | zero => exact hv
      | succ i => rw [← e1 i (by omega)]; congr 1; omega
    · intro i hi
      cases i with
      | zero => exact e0
      | succ i => exact e2 i (by omega)
    · intro i hi
      cases i with
      | zero => exact ⟨h0, hm.trans (hmm.trans e4)⟩
      | succ i => exact e3 i (by omega)
    · rcases e5 with e5 | ⟨i, hi, e5⟩
      · by_cases hh : m < (slugMinute heat cold c.storage s d x).vol
        · right
          refine ⟨1, by omega, ?_⟩
          rw [e5, if_pos hh]
          exact congrArg SizingSlug.vol e0
        · left; rw [e5, if_neg hh]
      · exact .inr ⟨i + 1, by omega, e5⟩

theorem growing_le_total {kbtu target : K} {draw inlet V T : ℕ → K} {n : ℕ} (h : Spec.Growing kbtu target draw inlet V T n)
    (h0 : ∀ t ≤ n, 0 ≤ V t) : ∀ t ≤ n, V t ≤ ∑ i ∈ Finset.range t, max 0 (draw i) := by
  intro t
  induction t with
  | zero => intro _; rw [h.start]; simp
  | succ t ih =>
    intro ht
    have hi := ih (by omega)
    rw [Finset.sum_range_succ]
    have hm : 0 ≤ max 0 (draw t) := le_max_left _ _
    have hv := h0 t (by omega)
    by_cases hz : V t + max 0 (draw t) = 0
    · rw [h.idle t (by omega) hz]; linarith
    · obtain ⟨x, _, ⟨_, e⟩ | ⟨_, e, _⟩⟩ := h.busy t (by omega) hz
      · rw [e]; linarith
      · rw [e]; linarith

/-- **C71.** The running volume of multi-pass sizing is the greatest volume of water waiting to be heated at the end of
any minute of two days, where minute by minute the mixing valve sends water to the tank for the demand of the peak day and
the loop, the water mixes, the heater adds a sixtieth of its hourly capacity, and water at storage temperature no longer
waits. It is not negative, and no more than all the water that came in. -/
theorem C71_running_volume (c : SysCfg K) (l : RtpLoop K) (avg : K) (b : Building K) (cap v : K)
    (h : mpRunVol c l avg b cap = .ok v) :
    ∃ (cold : K) (draw inlet V T : ℕ → K), requireDesignInlet b = .ok cold ∧
      (∀ t < 2880, ∃ demand, b.getDhwLoad t 1 = .ok demand ∧
        mixingValve demand l.flow cold c.supply l.ret avg = .ok (draw t, inlet t)) ∧
      Spec.Growing (cap / 60) c.storage draw inlet V T 2880 ∧
      IsGreatest {x | ∃ t ≤ 2880, V t = x} v ∧ 0 ≤ v ∧ v ≤ ∑ t ∈ Finset.range 2880, max 0 (draw t) := by
  simp only [mpRunVol, bind_eq_ok] at h
  obtain ⟨cold, hc, h⟩ := h
  obtain ⟨p, st, e0, e1, e2, e3, e4, e5⟩ := slugLoop_states c l avg cold _ b 2880 0 ⟨0, cold⟩ 0 v le_rfl le_rfl h
  have hG : Spec.Growing (cap / 60) c.storage (fun t => (p t).1) (fun t => (p t).2) (fun t => (st t).vol)
      (fun t => (st t).temp) 2880 := by
    refine ⟨by simp only [e0], ?_, ?_⟩
    · intro t ht hz
      simp only [e2 t ht]
      exact (slugMinute_spec _ _ _ _ _ _ (e3 t ht.le).1).2.1 hz
    · intro t ht hz
      simp only [e2 t ht]
      have := (slugMinute_spec (cap * 1 / 60) cold c.storage (p t).1 (p t).2 (st t) (e3 t ht.le).1).2.2 hz
      rw [mul_one] at this ⊢
      exact this
  refine ⟨cold, fun t => (p t).1, fun t => (p t).2, fun t => (st t).vol, fun t => (st t).temp, hc, ?_, hG, ⟨?_, ?_⟩,
    e4, ?_⟩
  · intro t ht
    have hv := e1 t ht
    simp only [sizingValve, bind_eq_ok, Nat.zero_add, mul_one] at hv
    obtain ⟨d, hd, hv⟩ := hv
    exact ⟨d, hd, hv⟩
  · rcases e5 with e5 | ⟨i, hi, e5⟩
    · exact ⟨0, by omega, by simp only [e0, e5]⟩
    · exact ⟨i, hi, e5⟩
  · rintro x ⟨t, ht, rfl⟩
    exact (e3 t ht).2
  · have hle := growing_le_total hG (fun t ht => (e3 t ht).1)
    have hsum : ∀ t ≤ 2880, ∑ i ∈ Finset.range t, max 0 (p i).1 ≤ ∑ i ∈ Finset.range 2880, max 0 (p i).1 := by
      intro t ht
      refine Finset.sum_le_sum_of_subset_of_nonneg (fun i hi => ?_) (fun i _ _ => le_max_left _ _)
      simp only [Finset.mem_range] at hi ⊢; omega
    rcases e5 with e5 | ⟨i, hi, e5⟩
    · rw [e5]; exact Finset.sum_nonneg (fun i _ => le_max_left _ _)
    · rw [← e5]; exact (hle i hi).trans (hsum i hi)

/-! ## The tank outlet temperature assumed by sizing -/

/-- The value in terms of the heights at which the assumed profile reaches supply and storage temperature. -/
theorem avgHot_eq (c : SysCfg K) (on onTemp slope : K) (hs : 0 < slope) (hss : c.supply < c.storage)
    (h0 : 0 ≤ on * 100 + (c.storage - onTemp) / slope) (h100 : on * 100 + (c.supply - onTemp) / slope < 100) :
    ∃ lo hi, lo = max 0 (on * 100 + (c.supply - onTemp) / slope) ∧
      hi = min 100 (on * 100 + (c.storage - onTemp) / slope) ∧ 0 ≤ lo ∧ lo ≤ hi ∧ hi ≤ 100 ∧ lo < 100 ∧
      c.supply ≤ onTemp + slope * (lo - on * 100) ∧ onTemp + slope * (hi - on * 100) ≤ c.storage ∧
      avgHotAtTrigger c on onTemp slope = .ok
        (((hi - lo) * ((onTemp + slope * (hi - on * 100) + (onTemp + slope * (lo - on * 100))) / 2) +
          c.storage * (100 - hi)) / (100 - lo)) := by
  have hne := hs.ne'
  have hlt : on * 100 + (c.supply - onTemp) / slope < on * 100 + (c.storage - onTemp) / slope := by
    have := div_lt_div_of_pos_right (show c.supply - onTemp < c.storage - onTemp by linarith) hs
    linarith
  have hS : slope * ((c.supply - onTemp) / slope) = c.supply - onTemp := by field_simp
  have hT : slope * ((c.storage - onTemp) / slope) = c.storage - onTemp := by field_simp
  generalize hA : (c.supply - onTemp) / slope = a at *
  generalize hB : (c.storage - onTemp) / slope = t at *
  refine ⟨_, _, rfl, rfl, le_max_left _ _, ?_, min_le_left _ _, max_lt (by norm_num) h100, ?_, ?_, ?_⟩
  · exact le_min (max_le (by norm_num) h100.le) (max_le h0 hlt.le)
  · have := mul_le_mul_of_nonneg_left (le_max_right 0 (on * 100 + a)) hs.le
    nlinarith
  · have := mul_le_mul_of_nonneg_left (min_le_right 100 (on * 100 + t)) hs.le
    nlinarith
  · have etop : (if 100 < on * 100 + t then onTemp + (100 - on * 100) * slope else c.storage) =
        onTemp + slope * (min 100 (on * 100 + t) - on * 100) := by
      split
      · rename_i h; rw [min_eq_left h.le]; ring
      · rename_i h; rw [min_eq_right (not_lt.1 h)]; linarith
    have ebot : (if on * 100 + a < 0 then onTemp - on * 100 * slope else c.supply) =
        onTemp + slope * (max 0 (on * 100 + a) - on * 100) := by
      split
      · rename_i h; rw [max_eq_left h.le]; ring
      · rename_i h; rw [max_eq_right (not_lt.1 h)]; linarith
    have ehot : max 0 (100 - (on * 100 + t)) = 100 - min 100 (on * 100 + t) := by
      rcases le_total 100 (on * 100 + t) with h | h
      · rw [min_eq_left h, max_eq_left (by linarith)]; ring
      · rw [min_eq_right h, max_eq_right (by linarith)]
    have hm : max 0 (on * 100 + a) < 100 := max_lt (by norm_num) h100
    simp only [avgHotAtTrigger, fdiv_of_ne hne, ok_bind, hA, hB]
    rw [if_neg (not_le.2 h100), etop, ebot, ehot, if_neg (by linarith), pure_eq_ok]
    congr 2
    ring

/-- A sensor that leaves some water above supply temperature: the assumed outlet temperature is above supply and not
above storage. -/
theorem avgHot_bounds (c : SysCfg K) (on onTemp slope : K) (hs : 0 < slope) (hss : c.supply < c.storage)
    (h0 : 0 ≤ on * 100 + (c.storage - onTemp) / slope) (h100 : on * 100 + (c.supply - onTemp) / slope < 100) :
    ∃ x, avgHotAtTrigger c on onTemp slope = .ok x ∧ c.supply < x ∧ x ≤ c.storage := by
  obtain ⟨lo, hi, -, -, g0, g1, g2, g3, g4, g5, e⟩ := avgHot_eq c on onTemp slope hs hss h0 h100
  refine ⟨_, e, ?_, ?_⟩
  · rw [lt_div_iff₀ (by linarith)]
    rcases eq_or_lt_of_le g2 with h | h
    · subst h
      nlinarith [mul_pos hs (mul_pos (sub_pos.2 g3) (sub_pos.2 g3))]
    · nlinarith [mul_nonneg hs.le (mul_nonneg (sub_nonneg.2 g1) (sub_nonneg.2 g1)),
        mul_pos (sub_pos.2 h) (sub_pos.2 hss), mul_nonneg (sub_nonneg.2 g1) (sub_nonneg.2 g4)]
  · rw [div_le_iff₀ (by linarith)]
    nlinarith [mul_nonneg hs.le (mul_nonneg (sub_nonneg.2 g1) (sub_nonneg.2 g1)),
      mul_nonneg (sub_nonneg.2 g1) (sub_nonneg.2 g5)]

/-- A sensor that leaves no water above supply temperature: the assumed outlet temperature is the supply temperature. -/
theorem avgHot_none (c : SysCfg K) (on onTemp slope : K) (hs : slope ≠ 0)
    (h : 100 ≤ on * 100 + (c.supply - onTemp) / slope) : avgHotAtTrigger c on onTemp slope = .ok c.supply := by
  simp only [avgHotAtTrigger, fdiv_of_ne hs, ok_bind, if_pos h, pure_eq_ok]

/-! ## The call -/

/-- What `size` does when the building can be switched to its daily shape: it stores the results of the calculations or
keeps the earlier ones, and puts the building back in both cases. -/
theorem mpSize_cases (db : ShapeFiles K) (s : MpSys K) (b : Building K) (cmap : Option (ControlMap K)) (slope : K)
    (hls : isLoadShifting cmap = false) :
    (∃ e, dailyView db b = .error e ∧ s.size db b cmap slope = ((s, b), .error e)) ∨
    ∃ b1 b2, dailyView db b = .ok b1 ∧ (b.isAnnual = false → b2 = b) ∧
      (b.isAnnual = true → b1.setToAnnual db = .ok b2) ∧
      s.size db b cmap slope = (((mpSizeBody s b1 cmap slope).1, b2), (mpSizeBody s b1 cmap slope).2) := by
  unfold MpSys.size
  rw [if_neg (by simp [hls])]
  cases hA : b.isAnnual with
  | false =>
    right
    refine ⟨b, b, by simp [dailyView, hA], fun _ => rfl, by simp, ?_⟩
    simp
  | true =>
    cases hd : b.setToDaily db with
    | error e => left; exact ⟨e, by simp [dailyView, hA, hd], by simp⟩
    | ok b1 =>
      right
      obtain ⟨d, _, _, ha, _⟩ := setToAnnual_of_setToDaily hd
      exact ⟨b1, _, by simp [dailyView, hA, hd], by simp, fun _ => ha, by simp [ha]⟩

theorem mpSizeBody_ok {s s' : MpSys K} {b : Building K} {cmap : Option (ControlMap K)} {slope : K}
    (h : mpSizeBody s b cmap slope = (s', .ok ())) :
    ∃ avg cap st, mpAvgOutlet s.base.cfg cmap slope = .ok avg ∧ mpCalc s.base.cfg s.loop avg b cmap slope = .ok (cap, st) ∧
      s'.base.cfg = s.base.cfg ∧ s'.loop = s.loop ∧ s'.avgOutlet = some avg ∧ s'.base.minCap = some cap ∧
      s'.base.minStorage = some st := by
  unfold mpSizeBody at h
  cases ha : mpAvgOutlet s.base.cfg cmap slope with
  | error e => simp [ha] at h
  | ok avg =>
    simp only [ha] at h
    cases hc : mpCalc s.base.cfg s.loop avg b cmap slope with
    | error e => simp [hc] at h
    | ok p =>
      obtain ⟨cap, st⟩ := p
      simp only [hc, Prod.mk.injEq, and_true] at h
      subst h
      exact ⟨avg, cap, st, rfl, hc, rfl, rfl, rfl, rfl, rfl⟩

/-- What a successful `size` stored. -/
theorem mpSize_ok {db : ShapeFiles K} {s s' : MpSys K} {b b' : Building K} {cmap : Option (ControlMap K)} {slope : K}
    (h : s.size db b cmap slope = ((s', b'), .ok ())) :
    ∃ b1 avg cap st, isLoadShifting cmap = false ∧ dailyView db b = .ok b1 ∧ mpAvgOutlet s.base.cfg cmap slope = .ok avg ∧
      mpCalc s.base.cfg s.loop avg b1 cmap slope = .ok (cap, st) ∧
      s'.base.cfg = s.base.cfg ∧ s'.loop = s.loop ∧ s'.avgOutlet = some avg ∧ s'.base.minCap = some cap ∧
      s'.base.minStorage = some st ∧ (b.isAnnual = false → b' = b) ∧ (b.isAnnual = true → b1.setToAnnual db = .ok b') := by
  cases hls : isLoadShifting cmap with
  | true => simp [MpSys.size, hls] at h
  | false =>
    rcases mpSize_cases db s b cmap slope hls with ⟨e, _, he⟩ | ⟨b1, b2, hb1, h1, h2, he⟩
    · rw [he] at h; simp at h
    · rw [he] at h
      simp only [Prod.mk.injEq] at h
      obtain ⟨⟨e1, rfl⟩, e2⟩ := h
      obtain ⟨avg, cap, st, g1, g2, g3, g4, g5, g6, g7⟩ := mpSizeBody_ok (Prod.ext e1 e2)
      exact ⟨b1, avg, cap, st, rfl, hb1, g1, g2, g3, g4, g5, g6, g7, h1, h2⟩

/-- **C70 (multi-pass, the building).** A `size` call leaves the daily use as it was, on every path, and a building with
a daily load shape exactly as it was, also when it raises. -/
theorem C70_multi_pass_building (db : ShapeFiles K) (s : MpSys K) (b : Building K) (cmap : Option (ControlMap K))
    (slope : K) :
    (s.size db b cmap slope).1.2.dailyGal = b.dailyGal ∧ (b.isAnnual = false → (s.size db b cmap slope).1.2 = b) := by
  cases hls : isLoadShifting cmap with
  | true => simp [MpSys.size, hls]
  | false =>
    rcases mpSize_cases db s b cmap slope hls with ⟨e, _, he⟩ | ⟨b1, b2, hb1, h1, h2, he⟩
    · rw [he]; simp
    · rw [he]
      refine ⟨?_, fun h => h1 h⟩
      cases hA : b.isAnnual with
      | false => rw [h1 hA]
      | true => exact (setToAnnual_dailyGal (h2 hA)).trans (dailyView_dailyGal hb1).1

/-- **C70 (multi-pass, capacity).** The stored capacity, run for `max_daily_run_hr` hours at the defrost factor, delivers
exactly the heat of the daily use plus 24 hours of loop loss. -/
theorem C70_multi_pass_capacity (db : ShapeFiles K) (s s' : MpSys K) (b b' : Building K) (cmap : Option (ControlMap K))
    (slope : K) (h : s.size db b cmap slope = ((s', b'), .ok ())) :
    ∃ cap inlet, getMinCapacity s'.base = .ok cap ∧ requireDesignInlet b = .ok inlet ∧
      cap * s.base.cfg.defrost * s.base.cfg.maxRunHr =
        Spec.heatKbtu b.dailyGal inlet s.base.cfg.supply +
          Spec.loopLossKbtu s.loop.flow s.base.cfg.supply s.loop.ret 24 := by
  obtain ⟨b1, avg, cap, st, _, hb1, _, hc, _, _, _, hcap, _, _, _⟩ := mpSize_ok h
  simp only [mpCalc, bind_eq_ok, pure_eq_ok, Except.ok.injEq, Prod.mk.injEq] at hc
  obtain ⟨cap', h2, rv, h3, inlet, h1, sf, h4, st', h5, rfl, rfl⟩ := hc
  obtain ⟨i2, h6, _, _, h7⟩ := rtpRequiredCapacity_eq h2
  obtain ⟨g1, g2⟩ := dailyView_dailyGal hb1
  refine ⟨cap', i2, by simp [getMinCapacity, hcap], ?_, ?_⟩
  · rw [← requireDesignInlet_congr g2]; exact h6
  · rw [← g1]; exact h7

/-! ## C93: when sizing answers -/

/-- The assumed outlet temperature is the least of those of the controls. -/
theorem mpAvgOutlet_least {c : SysCfg K} {m : ControlMap K} {slope avg : K}
    (h : mpAvgOutlet c (some m) slope = .ok avg) :
    IsLeast {x | ∃ p ∈ m, avgHotAtTrigger c p.2.onFract p.2.onTrig slope = .ok x} avg := by
  simp only [mpAvgOutlet, bind_eq_ok, mapM_eq_ok] at h
  obtain ⟨vs, h1, h2⟩ := h
  cases hm : vs.min? with
  | none => simp [hm] at h2
  | some v =>
    simp only [hm, pure_eq_ok, Except.ok.injEq] at h2
    subst h2
    obtain ⟨g1, g2⟩ := List.min?_eq_some_iff.1 hm
    constructor
    · clear g2 hm
      induction h1 with
      | nil => simp at g1
      | @cons a b l1 l2 hab _ ih =>
        rcases List.mem_cons.1 g1 with rfl | g1
        · exact ⟨a, List.mem_cons_self .., hab⟩
        · obtain ⟨p, hp, hx⟩ := ih g1
          exact ⟨p, List.mem_cons_of_mem _ hp, hx⟩
    · rintro x ⟨p, hp, hx⟩
      apply g2
      clear g1 g2 hm
      induction h1 with
      | nil => simp at hp
      | @cons a b l1 l2 hab _ ih =>
        rcases List.mem_cons.1 hp with rfl | hp
        · rw [hab] at hx
          simp only [Except.ok.injEq] at hx
          subst hx
          exact List.mem_cons_self ..
        · exact List.mem_cons_of_mem _ (ih hp)

theorem mpAvgOutlet_total {c : SysCfg K} {m : ControlMap K} {slope : K} (hm : m ≠ [])
    (h : ∀ p ∈ m, ∃ x, avgHotAtTrigger c p.2.onFract p.2.onTrig slope = .ok x) :
    ∃ avg, mpAvgOutlet c (some m) slope = .ok avg := by
  obtain ⟨vs, hvs⟩ := mapM_total h
  have hf := hvs
  rw [mapM_eq_ok] at hf
  have hne : vs ≠ [] := by
    rintro rfl
    cases hf
    exact hm rfl
  cases hv : vs.min? with
  | none => rw [List.min?_eq_none_iff] at hv; exact absurd hv hne
  | some v => exact ⟨v, by simp [mpAvgOutlet, hvs, ok_bind, hv, pure_eq_ok]⟩

theorem slugLoop_total (c : SysCfg K) (l : RtpLoop K) (avg cold heat : K) (b : Building K) (n : ℕ) :
    ∀ (t : ℕ) (s : SizingSlug K) (m : K), (∀ i < n, ∃ p, sizingValve c l avg cold b (t + i) = .ok p) →
      ∃ v, slugLoop c l avg cold heat b n t s m = .ok v := by
  induction n with
  | zero => intro t s m _; exact ⟨m, rfl⟩
  | succ n ih =>
    intro t s m h
    obtain ⟨p, hp⟩ := h 0 (by omega)
    simp only [slugLoop]
    rw [Nat.add_zero] at hp
    rw [hp, ok_bind]
    apply ih
    intro i hi
    obtain ⟨q, hq⟩ := h (i + 1) (by omega)
    exact ⟨q, by rw [← hq]; congr 1; omega⟩

theorem mpRunVol_total {c : SysCfg K} {l : RtpLoop K} {avg cold cap : K} {b : Building K}
    (hc : requireDesignInlet b = .ok cold) (h : ∀ i < 2880, ∃ p, sizingValve c l avg cold b i = .ok p) :
    ∃ v, mpRunVol c l avg b cap = .ok v := by
  unfold mpRunVol
  rw [hc, ok_bind]
  apply slugLoop_total
  intro i hi
  rw [Nat.zero_add]
  exact h i hi

/-- A control map for which some hot water is left above every ON sensor when the heater is switched on. -/
def SensorsUsable (c : SysCfg K) (m : ControlMap K) (slope : K) : Prop :=
  ∀ p ∈ m, 0 ≤ p.2.onFract ∧ p.2.onFract < 1 ∧ p.2.onTrig ≤ c.storage ∧
    p.2.onFract * 100 + (c.supply - p.2.onTrig) / slope < 100

theorem dictGet?_mem {α : Type} {m : List (String × α)} {k : String} {v : α} (h : dictGet? m k = some v) :
    (k, v) ∈ m := by
  unfold dictGet? at h
  cases hf : m.find? (fun p => decide (p.1 = k)) with
  | none => simp [hf] at h
  | some p =>
    simp only [hf, Option.map_some, Option.some.injEq] at h
    have h1 := List.mem_of_find?_eq_some hf
    have h2 := List.find?_some hf
    simp only [decide_eq_true_eq] at h2
    subst h h2
    exact h1

/-- The stratification factor of usable sensors is positive. -/
theorem stratFactor_total (c : SysCfg K) (m : ControlMap K) (slope inlet : K) (hs : 0 < slope)
    (hin : inlet < c.supply) (hss : c.supply < c.storage) (hm : m ≠ []) (hu : SensorsUsable c m slope) :
    ∃ f, stratFactor c (some m) slope inlet = .ok f ∧ 0 < f := by
  have key : ∀ p ∈ m, ∃ g, supplyGalPer100 c p.2.onFract p.2.onTrig slope inlet = .ok g ∧ 0 < g := by
    intro p hp
    obtain ⟨h0, h1, h2, h3⟩ := hu p hp
    obtain ⟨g, hg, h4, _⟩ := C05_supply_gallons_bounds c p.2.onFract p.2.onTrig slope inlet hs hin hss.le h2
    refine ⟨g, hg, lt_of_lt_of_le (lt_max_of_lt_right ?_) h4⟩
    unfold usableFrom
    rw [sub_pos]
    exact max_lt h3 (by linarith)
  cases m with
  | nil => exact absurd rfl hm
  | cons a m =>
    unfold stratFactor
    simp only
    cases hn : dictGet? (a :: m) "normal" with
    | some ctrl =>
      have hmem : ("normal", ctrl) ∈ a :: m := dictGet?_mem hn
      obtain ⟨g, hg, hp⟩ := key _ hmem
      exact ⟨g / 100, by simp only [hg, ok_bind, pure_eq_ok], by positivity⟩
    | none =>
      have h1 : ∀ x ∈ (a :: m).map (fun p => (do
          return (← supplyGalPer100 c p.2.onFract p.2.onTrig slope inlet) / 100 : Py K)), ∃ y, id x = .ok y ∧ 0 < y := by
        intro x hx
        obtain ⟨p, hp, rfl⟩ := List.mem_map.1 hx
        obtain ⟨g, hg, hp⟩ := key p hp
        exact ⟨g / 100, by simp only [id, hg, ok_bind, pure_eq_ok], by positivity⟩
      obtain ⟨vs, hvs⟩ := mapM_total (f := id) (fun x hx => (h1 x hx).imp fun _ h => h.1)
      have hf := hvs
      rw [mapM_eq_ok] at hf
      have hne : vs ≠ [] := by
        rintro rfl
        simp at hf
      have hpos : ∀ v ∈ vs, 0 < v := by
        intro v hv
        obtain ⟨i, hi, rfl⟩ := List.getElem_of_mem hv
        have hl := hf.length_eq
        obtain ⟨y, hy, hp⟩ := h1 _ (List.getElem_mem (hl ▸ hi))
        have := (List.forall₂_iff_get.1 hf).2 i (hl ▸ hi) hi
        simp only [List.get_eq_getElem] at this
        rw [hy] at this
        simp only [Except.ok.injEq] at this
        rw [← this]; exact hp
      simp only [minOfPy, hvs, ok_bind]
      cases hv : vs.min? with
      | none => rw [List.min?_eq_none_iff] at hv; exact absurd hv hne
      | some v => exact ⟨v, rfl, hpos v (List.min?_mem hv)⟩

theorem rtpCapacity_nonneg {l : RtpLoop K} {c : SysCfg K} {b : Building K} {cap cold : K}
    (h : rtpRequiredCapacity l c b = .ok cap) (hc : requireDesignInlet b = .ok cold) (h5 : 0 < c.maxRunHr)
    (h6 : 0 < c.defrost) (h4 : 0 ≤ l.flow) (h2 : l.ret ≤ c.supply) (h1 : cold ≤ c.supply) (h7 : 0 ≤ b.dailyGal) :
    0 ≤ cap := by
  obtain ⟨i, hi, _, _, he⟩ := rtpRequiredCapacity_eq h
  rw [hc] at hi
  simp only [Except.ok.injEq] at hi
  subst hi
  have hr := rho_pos (K := K)
  have hpos : 0 ≤ Spec.heatKbtu b.dailyGal cold c.supply + Spec.loopLossKbtu l.flow c.supply l.ret 24 := by
    unfold Spec.heatKbtu Spec.loopLossKbtu
    have a1 : 0 ≤ c.supply - cold := by linarith
    have a2 : 0 ≤ c.supply - l.ret := by linarith
    positivity
  rw [← he, mul_assoc] at hpos
  exact nonneg_of_mul_nonneg_left hpos (mul_pos h6 h5)

theorem slugLoop_error {c : SysCfg K} {l : RtpLoop K} {avg cold heat m : K} {b : Building K} {t n : ℕ} {s : SizingSlug K}
    {e : PyErr} (h : sizingValve c l avg cold b t = .error e) :
    slugLoop c l avg cold heat b (n + 1) t s m = .error e := by
  simp only [slugLoop, h, error_bind]

/-- **C93 (partial).** Multi-pass sizing answers when every ON sensor leaves some hot water above it, the loop loses heat,
and the temperatures are ordered `inlet < return < supply < storage`; both results are then not negative. Missing: higher
sensors (`C93_high_sensor_raises`). -/
theorem C93_completes_partial (db : ShapeFiles K) (s : MpSys K) (b b1 : Building K) (m : ControlMap K) (slope cold : K)
    (hls : dictHas m "shed" = false) (hm : m ≠ []) (hs : 0 < slope) (hu : SensorsUsable s.base.cfg m slope)
    (hb : dailyView db b = .ok b1) (hc : requireDesignInlet b = .ok cold)
    (h1 : cold < s.loop.ret) (h2 : s.loop.ret < s.base.cfg.supply) (h3 : s.base.cfg.supply < s.base.cfg.storage)
    (h4 : 0 < s.loop.flow) (h5 : 0 < s.base.cfg.maxRunHr) (h6 : 0 < s.base.cfg.defrost) (h7 : 0 ≤ b.dailyGal)
    (hd : ∀ t < 2880, ∃ d, b1.getDhwLoad t 1 = .ok d ∧ 0 ≤ d) :
    ∃ s' b' cap st, s.size db b (some m) slope = ((s', b'), .ok ()) ∧ getMinCapacity s'.base = .ok cap ∧
      getMinStorage s'.base = .ok st ∧ 0 ≤ cap ∧ 0 ≤ st := by
  obtain ⟨g1, g2⟩ := dailyView_dailyGal hb
  have hc1 : requireDesignInlet b1 = .ok cold := by rw [requireDesignInlet_congr g2]; exact hc
  have hls' : isLoadShifting (some m) = false := hls
  -- the outlet temperature
  have havg : ∀ p ∈ m, ∃ x, avgHotAtTrigger s.base.cfg p.2.onFract p.2.onTrig slope = .ok x ∧ s.base.cfg.supply < x := by
    intro p hp
    obtain ⟨k0, k1, k2, k3⟩ := hu p hp
    obtain ⟨x, hx, hlt, _⟩ := avgHot_bounds s.base.cfg p.2.onFract p.2.onTrig slope hs h3
      (by have : 0 ≤ (s.base.cfg.storage - p.2.onTrig) / slope := div_nonneg (by linarith) hs.le
          positivity) k3
    exact ⟨x, hx, hlt⟩
  obtain ⟨avg, ha⟩ := mpAvgOutlet_total hm (fun p hp => (havg p hp).imp fun _ h => h.1)
  have hlt : s.base.cfg.supply < avg := by
    obtain ⟨p, hp, hx⟩ := (mpAvgOutlet_least ha).1
    obtain ⟨x, hx', hlt⟩ := havg p hp
    rw [hx'] at hx
    simp only [Except.ok.injEq] at hx
    rw [← hx]; exact hlt
  -- the capacity
  obtain ⟨cap, hcap⟩ : ∃ cap, rtpRequiredCapacity s.loop s.base.cfg b1 = .ok cap := by
    simp only [rtpRequiredCapacity, requiredCapacity, hc1, ok_bind, fdiv_of_ne h5.ne', capacityOfGenRate,
      fdiv_of_ne h6.ne', rtpRecircCap, pure_eq_ok]
    exact ⟨_, rfl⟩
  -- the running volume
  have hv : ∀ i < 2880, ∃ p, sizingValve s.base.cfg s.loop avg cold b1 i = .ok p := by
    intro i hi
    obtain ⟨d, hd1, hd2⟩ := hd i hi
    have ok : ValveOk d s.loop.flow cold s.base.cfg.supply s.loop.ret avg := ⟨hd2, h4.le, h1, h2.le, hlt⟩
    obtain ⟨x, y, hxy, _⟩ := C63_balanced_partial ok (.inr (mul_pos h4 (by linarith)))
    exact ⟨(x, y), by simp only [sizingValve, hd1, ok_bind, mul_one, hxy]⟩
  obtain ⟨rv, hrv'⟩ := mpRunVol_total (cap := cap) hc1 hv
  obtain ⟨_, _, _, _, _, _, _, _, _, hrv0, _⟩ := C71_running_volume _ _ _ _ _ _ hrv'
  obtain ⟨f, hf, hfp⟩ := stratFactor_total s.base.cfg m slope cold hs (by linarith) h3 hm hu
  have hcalc : mpCalc s.base.cfg s.loop avg b1 (some m) slope = .ok (cap, rv / f) := by
    simp only [mpCalc, hcap, ok_bind, hrv', hc1, hf, storageVolume, fdiv_of_ne hfp.ne', pure_eq_ok]
  have hcap0 : 0 ≤ cap := rtpCapacity_nonneg hcap hc1 h5 h6 h4.le h2.le (h1.trans h2).le (g1 ▸ h7)
  rcases mpSize_cases db s b (some m) slope hls' with ⟨e, he, _⟩ | ⟨b1', b2, hb1, _, _, he⟩
  · rw [hb] at he; simp at he
  · rw [hb] at hb1
    simp only [Except.ok.injEq] at hb1
    subst hb1
    refine ⟨(mpSizeBody s b1 (some m) slope).1, b2, cap, rv / f, ?_, ?_, ?_, hcap0, div_nonneg hrv0 hfp.le⟩
    · rw [he]
      simp only [mpSizeBody, ha, hcalc]
    · simp only [mpSizeBody, ha, hcalc, getMinCapacity]
    · simp only [mpSizeBody, ha, hcalc, getMinStorage]

/-- **C93 (rejected).** Controls with a `shed` period are rejected with a `ValueError`, before anything is changed.
-/
theorem C93_load_shift_rejected (db : ShapeFiles K) (s : MpSys K) (b : Building K) (m : ControlMap K) (slope : K)
    (c : Controls K) (hm : ("shed", c) ∈ m) : s.size db b (some m) slope = ((s, b), .error .valueError) := by
  have h : isLoadShifting (some m) = true := by
    show dictHas m "shed" = true
    rw [dictHas_iff_mem]
    exact List.mem_map_of_mem hm
  simp [MpSys.size, h]

example : ("shed", Demo.shed) ∈ Demo.map := by decide +kernel

/-- **C93 (false).** If an ON sensor is so high, or its trigger so low, that no water above supply temperature is left when
it switches the heater on, sizing does not say so: it ends in a division by zero. -/
theorem C93_high_sensor_raises (db : ShapeFiles K) (s : MpSys K) (b b1 : Building K) (m : ControlMap K) (slope cold d : K)
    (p : String × Controls K) (hp : p ∈ m) (hls : dictHas m "shed" = false) (hs : 0 < slope)
    (hm : ∀ q ∈ m, 0 ≤ q.2.onFract ∧ q.2.onTrig ≤ s.base.cfg.storage)
    (hb : dailyView db b = .ok b1) (hc : requireDesignInlet b = .ok cold) (hd : b1.getDhwLoad 0 1 = .ok d)
    (h3 : s.base.cfg.supply < s.base.cfg.storage) (h5 : s.base.cfg.maxRunHr ≠ 0) (h6 : s.base.cfg.defrost ≠ 0)
    (hhigh : 100 ≤ p.2.onFract * 100 + (s.base.cfg.supply - p.2.onTrig) / slope) :
    (s.size db b (some m) slope).2 = .error .zeroDivision := by
  obtain ⟨g1, g2⟩ := dailyView_dailyGal hb
  have hc1 : requireDesignInlet b1 = .ok cold := by rw [requireDesignInlet_congr g2]; exact hc
  have havg : ∀ q ∈ m, ∃ x, avgHotAtTrigger s.base.cfg q.2.onFract q.2.onTrig slope = .ok x ∧ s.base.cfg.supply ≤ x := by
    intro q hq
    obtain ⟨k0, k1⟩ := hm q hq
    rcases le_or_gt 100 (q.2.onFract * 100 + (s.base.cfg.supply - q.2.onTrig) / slope) with h | h
    · exact ⟨_, avgHot_none _ _ _ _ hs.ne' h, le_rfl⟩
    · obtain ⟨x, hx, hlt, _⟩ := avgHot_bounds s.base.cfg q.2.onFract q.2.onTrig slope hs h3
        (by have : 0 ≤ (s.base.cfg.storage - q.2.onTrig) / slope := div_nonneg (by linarith) hs.le
            positivity) h
      exact ⟨x, hx, hlt.le⟩
  obtain ⟨avg, ha⟩ := mpAvgOutlet_total (List.ne_nil_of_mem hp) (fun q hq => (havg q hq).imp fun _ h => h.1)
  have hl := mpAvgOutlet_least ha
  have e : avg = s.base.cfg.supply := by
    apply le_antisymm
    · exact hl.2 ⟨p, hp, avgHot_none _ _ _ _ hs.ne' hhigh⟩
    · obtain ⟨q, hq, hx⟩ := hl.1
      obtain ⟨x, hx', hle⟩ := havg q hq
      rw [hx'] at hx
      simp only [Except.ok.injEq] at hx
      rw [← hx]; exact hle
  subst e
  obtain ⟨cap, hcap⟩ : ∃ cap, rtpRequiredCapacity s.loop s.base.cfg b1 = .ok cap := by
    simp only [rtpRequiredCapacity, requiredCapacity, hc1, ok_bind, fdiv_of_ne h5, capacityOfGenRate,
      fdiv_of_ne h6, rtpRecircCap, pure_eq_ok]
    exact ⟨_, rfl⟩
  have hcalc : mpCalc s.base.cfg s.loop s.base.cfg.supply b1 (some m) slope = .error .zeroDivision := by
    have hv : sizingValve s.base.cfg s.loop s.base.cfg.supply cold b1 0 = .error .zeroDivision := by
      simp only [sizingValve, hd, ok_bind, C63_storage_at_supply_raises]
    have hrv : mpRunVol s.base.cfg s.loop s.base.cfg.supply b1 cap = .error .zeroDivision := by
      unfold mpRunVol
      rw [hc1, ok_bind]
      exact slugLoop_error (n := 2879) hv
    simp only [mpCalc, hcap, ok_bind, hrv, error_bind]
  rcases mpSize_cases db s b (some m) slope hls with ⟨e, he, _⟩ | ⟨b1', b2, hb1, _, _, he⟩
  · rw [hb] at he; simp at he
  · rw [hb] at hb1
    simp only [Except.ok.injEq] at hb1
    subst hb1
    rw [he]
    simp only [mpSizeBody, ha, hcalc]

/-! ## C92: the tank and the slug -/

/-- **C92 (partial).** The sized storage times the stratification factor is the largest slug; so the tank holds the slug
exactly when the factor is at most one. Missing: factors above one (`C92_tank_smaller_than_slug`). -/
theorem C92_storage_vs_slug_partial (db : ShapeFiles K) (s s' : MpSys K) (b b' : Building K) (cmap : Option (ControlMap K))
    (slope : K) (h : s.size db b cmap slope = ((s', b'), .ok ())) :
    ∃ b1 avg cap inlet rv f st, dailyView db b = .ok b1 ∧ mpAvgOutlet s.base.cfg cmap slope = .ok avg ∧
      getMinCapacity s'.base = .ok cap ∧ mpRunVol s.base.cfg s.loop avg b1 cap = .ok rv ∧
      requireDesignInlet b = .ok inlet ∧ stratFactor s.base.cfg cmap slope inlet = .ok f ∧ f ≠ 0 ∧
      getMinStorage s'.base = .ok st ∧ st * f = rv ∧
      (0 < f → 0 < rv → (rv ≤ st ↔ f ≤ 1)) := by
  obtain ⟨b1, avg, cap, st, _, hb1, ha, hc, _, _, _, hcap, hst, _, _⟩ := mpSize_ok h
  simp only [mpCalc, bind_eq_ok, pure_eq_ok, Except.ok.injEq, Prod.mk.injEq, storageVolume, fdiv_eq_ok] at hc
  obtain ⟨cap', h2, rv, h3, inlet, h1, f, h4, st', ⟨h5, rfl⟩, rfl, rfl⟩ := hc
  obtain ⟨g1, g2⟩ := dailyView_dailyGal hb1
  refine ⟨b1, avg, cap', inlet, rv, f, rv / f, hb1, ha, by simp [getMinCapacity, hcap], h3, ?_, h4, h5,
    by simp [getMinStorage, hst], by field_simp, ?_⟩
  · rw [← requireDesignInlet_congr g2]; exact h1
  · intro hf hr
    rw [le_div_iff₀ hf]
    constructor
    · intro hh
      by_contra hlt
      rw [not_le] at hlt
      have := mul_lt_mul_of_pos_left hlt hr
      linarith
    · intro hh
      have := mul_le_mul_of_nonneg_left hh hr.le
      linarith

/-- The running volume is positive if in some minute the water coming in is not hot at once. -/
theorem runVol_pos {c : SysCfg K} {l : RtpLoop K} {avg cap v cold d x : K} {b : Building K} {t : ℕ} (ht : t < 2880)
    (h : mpRunVol c l avg b cap = .ok v) (hc : requireDesignInlet b = .ok cold)
    (hp : sizingValve c l avg cold b t = .ok (d, x)) (hd : 0 < d) (hx : x + cap / 60 * 1000 / (d * rhoCp K) < c.storage) :
    0 < v := by
  simp only [mpRunVol, hc, ok_bind] at h
  obtain ⟨q, st, e0, e1, e2, e3, e4, e5⟩ := slugLoop_states c l avg cold _ b 2880 0 ⟨0, cold⟩ 0 v le_rfl le_rfl h
  obtain ⟨g1, g2⟩ := e3 t ht.le
  rcases eq_or_lt_of_le g1 with g | g
  · have h0 := e1 t ht
    rw [Nat.zero_add, hp] at h0
    simp only [Except.ok.injEq] at h0
    have h1 := e2 t ht
    rw [← h0] at h1
    obtain ⟨_, _, k⟩ := slugMinute_spec (cap * 1 / 60) cold c.storage d x (st t) g1
    have hr := rho_pos (K := K)
    rw [← g, max_eq_right hd.le, zero_add] at k
    obtain ⟨y, hy, ⟨k1, _⟩ | ⟨_, k1, _⟩⟩ := k hd.ne'
    · exfalso
      have : y = x + cap / 60 * 1000 / (d * rhoCp K) := by
        have hdr : d * rhoCp K ≠ 0 := (mul_pos hd hr).ne'
        rw [mul_one] at hy
        have : d * rhoCp K * (x + cap / 60 * 1000 / (d * rhoCp K)) = d * rhoCp K * x + cap / 60 * 1000 := by
          rw [mul_add, mul_div_cancel₀ _ hdr]
        apply mul_left_cancel₀ hdr
        rw [this]
        linear_combination hy
      rw [this] at k1
      linarith
    · have := (e3 (t + 1) ht).2
      rw [h1] at this
      dsimp only at this
      rw [k1] at this
      linarith
  · linarith

namespace Demo

/-- A multi-pass system with a sensor in the lower part of the tank. -/
def mp : MpSys ℚ := { base := { cfg := cfg }, loop := ⟨110, 3⟩ }

def lowSensor : ControlMap ℚ := [("normal", ⟨1 / 10, 110, 1 / 10, 140, 150⟩)]

theorem demand_nonneg : ∀ t < 2880, ∃ d, building.getDhwLoad t 1 = .ok d ∧ 0 ≤ d := by
  intro t _
  rw [getDhwLoad_eq _ _ _ _ (by decide)]
  refine ⟨_, rfl, ?_⟩
  have h : ∀ i < 24, (0 : ℚ) ≤ shape.getD i 0 := by decide +kernel
  have h0 : (0 : ℚ) ≤ (building.shape false).getD (t * 1 / 60 % (building.shape false).length) 0 :=
    h _ (Nat.mod_lt _ (by decide))
  have h1 : (0 : ℚ) ≤ building.dailyGal := by decide +kernel
  positivity

theorem daily : dailyView noFiles building = .ok building := by
  unfold dailyView; rw [if_neg (by decide +kernel)]

theorem lowSensor_usable : SensorsUsable mp.base.cfg lowSensor 2 := by
  intro p hp
  obtain rfl : p = ("normal", ⟨1 / 10, 110, 1 / 10, 140, 150⟩) := by simpa [lowSensor] using hp
  decide +kernel

theorem mp_sizes : ∃ s' b' cap st, mp.size noFiles building (some lowSensor) 2 = ((s', b'), .ok ()) ∧
    getMinCapacity s'.base = .ok cap ∧ getMinStorage s'.base = .ok st ∧ 0 ≤ cap ∧ 0 ≤ st :=
  C93_completes_partial noFiles mp building building lowSensor 2 50 rfl (by simp [lowSensor]) (by norm_num)
    lowSensor_usable daily (by decide +kernel) (by decide +kernel) (by decide +kernel) (by decide +kernel)
    (by decide +kernel) (by decide +kernel) (by decide +kernel) (by decide +kernel) demand_nonneg

end Demo

/-- **C92 (false).** The tank sized for the demo system is smaller than the largest slug of its own sizing run. -/
theorem C92_tank_smaller_than_slug :
    ∃ (s s' : MpSys ℚ) (b b' : Building ℚ) (m : ControlMap ℚ) (avg cap rv st : ℚ),
      s.size Demo.noFiles b (some m) 2 = ((s', b'), .ok ()) ∧ b.isAnnual = false ∧
      mpAvgOutlet s.base.cfg (some m) 2 = .ok avg ∧ getMinCapacity s'.base = .ok cap ∧
      mpRunVol s.base.cfg s.loop avg b cap = .ok rv ∧ getMinStorage s'.base = .ok st ∧ st < rv := by
  obtain ⟨s', b', cap, st, h, hcap, hst, _, _⟩ := Demo.mp_sizes
  obtain ⟨b1, avg, cap', inlet, rv, f, st', k1, k2, k3, k4, k5, k6, k7, k8, k9, k10⟩ :=
    C92_storage_vs_slug_partial _ _ _ _ _ _ _ h
  obtain ⟨cap'', i2, q1, q2, q3⟩ := C70_multi_pass_capacity _ _ _ _ _ _ _ h
  rw [Demo.daily] at k1
  simp only [Except.ok.injEq] at k1
  subst k1
  have e2 : mpAvgOutlet Demo.mp.base.cfg (some Demo.lowSensor) 2 = .ok (2505 / 17) := by decide +kernel
  have e3 : requireDesignInlet Demo.building = .ok 50 := by decide +kernel
  rw [e2] at k2
  rw [e3] at k5 q2
  simp only [Except.ok.injEq] at k2 k5 q2
  subst k2 k5 q2
  rw [hcap] at k3 q1
  rw [hst] at k8
  simp only [Except.ok.injEq] at k3 q1 k8
  subst k3 q1 k8
  have e4 : cap = 472810081 / 8000000 := by
    have : cap * 1 * 16 = 472810081 / 8000000 * 16 := q3.trans (by decide +kernel)
    linarith
  have hp : sizingValve Demo.mp.base.cfg Demo.mp.loop (2505 / 17) 50 Demo.building 360 = .ok (459 / 331, 50) := by decide +kernel
  have hrv : 0 < rv := runVol_pos (by norm_num) k4 e3 hp (by norm_num) (by rw [e4]; decide +kernel)
  have hf : 1 < f := by
    have : stratFactor Demo.mp.base.cfg (some Demo.lowSensor) 2 50 = .ok (331 / 280) := by decide +kernel
    rw [this] at k6
    simp only [Except.ok.injEq] at k6
    rw [← k6]; norm_num
  refine ⟨Demo.mp, s', Demo.building, b', Demo.lowSensor, _, cap, rv, st, h, by decide +kernel, e2, hcap, k4, hst, ?_⟩
  by_contra hh
  exact absurd ((k10 (by linarith) hrv).1 (not_lt.1 hh)) (not_le.2 hf)

/-- Hypotheses of `C93_high_sensor_raises` are met by an ON sensor at 80 % with a trigger of 100 °F and a slope of 0.8. -/
example : (Demo.mp.size Demo.noFiles Demo.building (some [("normal", ⟨8 / 10, 100, 7 / 10, 140, 150⟩)]) (8 / 10)).2 =
    .error .zeroDivision :=
  C93_high_sensor_raises _ _ _ Demo.building _ _ 50 (1000 * (1 / 100) * (1 : ℕ) / 60)
    ("normal", ⟨8 / 10, 100, 7 / 10, 140, 150⟩) (by simp) (by decide) (by norm_num)
    (by
      intro q hq
      obtain rfl : q = ("normal", ⟨8 / 10, 100, 7 / 10, 140, 150⟩) := by simpa using hq
      decide +kernel)
    Demo.daily (by decide +kernel) (by decide +kernel) (by decide +kernel) (by decide +kernel) (by decide +kernel)
    (by decide +kernel)

/-! ## C94: the outlet temperature is the mean of the hot water -/

section mean
open MeasureTheory

/-- **C94.** The outlet temperature computed for a control is the mean temperature of all water at supply temperature or
above, in a tank whose temperature passes through the trigger temperature at the sensor, rises with the slope and is capped
at storage temperature, whenever there is such water. -/
theorem C94_outlet_is_mean (c : SysCfg ℝ) (on onTemp slope : ℝ) (hs : 0 < slope) (hss : c.supply < c.storage)
    (h0 : 0 ≤ on) (hon : onTemp ≤ c.storage) (h100 : on * 100 + (c.supply - onTemp) / slope < 100) :
    avgHotAtTrigger c on onTemp slope = .ok
      (⨍ h in {h | 0 ≤ h ∧ h ≤ 100 ∧ c.supply ≤ Spec.sizingProfile (on * 100) onTemp slope c.storage h},
        Spec.sizingProfile (on * 100) onTemp slope c.storage h) := by
  have hT : 0 ≤ (c.storage - onTemp) / slope := div_nonneg (by linarith) hs.le
  obtain ⟨lo, hi, elo, ehi, g0, g1, g2, g3, g4, g5, e⟩ := avgHot_eq c on onTemp slope hs hss (by positivity) h100
  have hset : {h | 0 ≤ h ∧ h ≤ 100 ∧ c.supply ≤ Spec.sizingProfile (on * 100) onTemp slope c.storage h} =
      Set.Icc lo 100 := by
    ext h
    simp only [Set.mem_ofPred_eq, Set.mem_Icc, Spec.sizingProfile, le_min_iff, elo, max_le_iff]
    have key : c.supply ≤ onTemp + slope * (h - on * 100) ↔ on * 100 + (c.supply - onTemp) / slope ≤ h := by
      rw [← le_sub_iff_add_le', div_le_iff₀ hs]
      constructor <;> intro hh <;> linarith
    rw [key]
    constructor
    · rintro ⟨a, b, _, d⟩; exact ⟨⟨a, d⟩, b⟩
    · rintro ⟨⟨a, d⟩, b⟩; exact ⟨a, b, hss.le, d⟩
  rw [e, hset, setAverage_eq]
  congr 1
  have hvol : (volume : Measure ℝ).real (Set.Icc lo 100) = 100 - lo := by
    rw [Real.volume_real_Icc_of_le g3.le]
  rw [hvol, integral_Icc_eq_integral_Ioc, ← intervalIntegral.integral_of_le g3.le]
  have hcont : Continuous fun h => Spec.sizingProfile (on * 100) onTemp slope c.storage h := by
    unfold Spec.sizingProfile; fun_prop
  rw [← intervalIntegral.integral_add_adjacent_intervals (b := hi)
    (hcont.intervalIntegrable _ _) (hcont.intervalIntegrable _ _)]
  have e1 : ∫ h in lo..hi, Spec.sizingProfile (on * 100) onTemp slope c.storage h =
      ∫ h in lo..hi, ((onTemp - slope * (on * 100)) + slope * h) := by
    apply intervalIntegral.integral_congr
    intro h hh
    rw [Set.uIcc_of_le g1] at hh
    have : onTemp + slope * (h - on * 100) ≤ c.storage := by
      have := mul_le_mul_of_nonneg_left hh.2 hs.le
      linarith
    simp only [Spec.sizingProfile, min_eq_right this]
    ring
  have e2 : ∫ h in hi..100, Spec.sizingProfile (on * 100) onTemp slope c.storage h = ∫ h in hi..100, c.storage := by
    rcases le_total 100 (on * 100 + (c.storage - onTemp) / slope) with hc | hc
    · rw [ehi, min_eq_left hc]; simp
    · apply intervalIntegral.integral_congr
      intro h hh
      rw [Set.uIcc_of_le g2, ehi, min_eq_right hc] at hh
      have : c.storage ≤ onTemp + slope * (h - on * 100) := by
        have : (c.storage - onTemp) / slope ≤ h - on * 100 := by linarith [hh.1]
        rw [div_le_iff₀ hs] at this; linarith
      simp only [Spec.sizingProfile, min_eq_left this]
  rw [e1, e2, integral_linear, intervalIntegral.integral_const]
  have : (100 - lo) ≠ 0 := by linarith
  simp only [smul_eq_mul]
  field_simp
  ring

/-- **C94 (several modes).** Sizing uses the least of these temperatures over all modes. -/
theorem C94_least_over_modes (c : SysCfg K) (m : ControlMap K) (slope avg : K)
    (h : mpAvgOutlet c (some m) slope = .ok avg) :
    IsLeast {x | ∃ p ∈ m, avgHotAtTrigger c p.2.onFract p.2.onTrig slope = .ok x} avg := mpAvgOutlet_least h

example : ∃ (c : SysCfg ℝ) (on onTemp slope : ℝ), 0 < slope ∧ c.supply < c.storage ∧ 0 ≤ on ∧ onTemp ≤ c.storage ∧
    on * 100 + (c.supply - onTemp) / slope < 100 :=
  ⟨⟨120, 150, 16, 1⟩, 1 / 10, 110, 2, by norm_num, by norm_num, by norm_num, by norm_num, by norm_num⟩

end mean

end Eco
