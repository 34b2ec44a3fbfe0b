import Verif.Spec.Robust
import Verif.Props.Clock
set_option linter.unusedSectionVars false

/-! C144: a small change of the load shape changes the sized system only a little. -/

namespace Eco
open Spec
variable {K : Type} [Field K] [LinearOrder K] [IsStrictOrderedRing K]

theorem wsum_days (d : List K) (s n k : ℕ) : wsum d s (n + d.length * k) = wsum d s n + k * d.sum := by
  induction k with
  | zero => simp
  | succ k ih =>
    rw [Nat.mul_succ, ← Nat.add_assoc, wsum_add, ih, wsum_length]
    push_cast
    ring

theorem wsum_mono_window {d : List K} (hd : ∀ x ∈ d, 0 ≤ x) {s n : ℕ} (hn : n ≤ d.length) : wsum d s n ≤ d.sum := by
  obtain ⟨k, hk⟩ := Nat.exists_eq_add_of_le hn
  rw [← wsum_length d s, hk, wsum_add]
  refine le_add_of_nonneg_right (Finset.sum_nonneg fun i _ => ?_)
  unfold rep
  rw [List.getD_eq_getElem?_getD]
  cases h : d[(s + n + i) % d.length]? with
  | none => exact le_refl _
  | some x => exact hd x (List.mem_of_getElem? h)

/-- The worst stretch of a day needs at most a day. -/
theorem runningVolumeOfDiff_short {d : List K} (hne : d ≠ []) (hS : 0 ≤ d.sum) :
    ∃ s n, n ≤ d.length ∧ runningVolumeOfDiff d ≤ -wsum d s n := by
  obtain ⟨s, n, -, h⟩ := runningVolumeOfDiff_attained d
  have hpos : 0 < d.length := List.length_pos_iff.mpr hne
  refine ⟨s, n % d.length, (Nat.mod_lt _ hpos).le, ?_⟩
  have := wsum_days d s (n % d.length) (n / d.length)
  rw [Nat.mod_add_div] at this
  rw [h, this]
  have : 0 ≤ ((n / d.length : ℕ) : K) * d.sum := mul_nonneg (Nat.cast_nonneg _) hS
  linarith

theorem hourlyDiff_window {gen daily : K} (hd : 0 ≤ daily) {p q : List K} (hl : p.length = q.length) (s n : ℕ)
    (hn : n ≤ p.length) :
    -wsum (hourlyDiff gen daily p) s n ≤ -wsum (hourlyDiff gen daily q) s n + daily * apart p q := by
  have hz : (List.zipWith (fun x y => |x - y|) p q).length = p.length := by simp [hl]
  have h1 : wsum (List.zipWith (fun x y => |x - y|) p q) s n ≤ apart p q := by
    refine wsum_mono_window ?_ (by rw [hz]; exact hn)
    intro x hx
    obtain ⟨i, hi, rfl⟩ := List.getElem_of_mem hx
    simp
  have h2 : wsum (hourlyDiff gen daily q) s n - wsum (hourlyDiff gen daily p) s n ≤
      daily * wsum (List.zipWith (fun x y => |x - y|) p q) s n := by
    unfold wsum
    rw [← Finset.sum_sub_distrib, Finset.mul_sum]
    refine Finset.sum_le_sum fun i hi => ?_
    have hpos : 0 < p.length := by
      have := Finset.mem_range.1 hi
      omega
    have hm : (s + i) % p.length < p.length := Nat.mod_lt _ hpos
    have hm' : (s + i) % q.length < q.length := by rw [← hl]; exact hm
    have hm'' : (s + i) % (List.zipWith (fun x y => |x - y|) p q).length < (List.zipWith (fun x y => |x - y|) p q).length := by
      rw [hz]; exact hm
    have e1 : rep (hourlyDiff gen daily p) (s + i) = gen - daily * p[(s + i) % p.length] := by
      simp [rep, hourlyDiff, hm]
    have e2 : rep (hourlyDiff gen daily q) (s + i) = gen - daily * q[(s + i) % p.length] := by
      simp [rep, hourlyDiff, ← hl, hm]
    have e3 : rep (List.zipWith (fun x y => |x - y|) p q) (s + i) = |p[(s + i) % p.length] - q[(s + i) % p.length]| := by
      unfold rep
      rw [hz, List.getD_eq_getElem?_getD, List.getElem?_eq_getElem (by rw [hz]; exact hm), Option.getD_some, List.getElem_zipWith]
    rw [e1, e2, e3]
    have := mul_le_mul_of_nonneg_left (le_abs_self (p[(s + i) % p.length] - q[(s + i) % p.length])) hd
    linarith
  have := mul_le_mul_of_nonneg_left h1 hd
  linarith

theorem apart_comm (p q : List K) : apart p q = apart q p := by
  unfold apart
  rw [List.zipWith_comm]
  simp only [abs_sub_comm]

theorem runningVolume_le {gen daily : K} (hd : 0 ≤ daily) {p q : List K} (hl : p.length = q.length) (hne : p ≠ [])
    (hp : daily * p.sum ≤ p.length * gen) (hq : daily * q.sum ≤ q.length * gen) :
    runningVolumeOfDiff (hourlyDiff gen daily p) ≤ runningVolumeOfDiff (hourlyDiff gen daily q) + daily * apart p q := by
  obtain ⟨s, n, hn, h⟩ := runningVolumeOfDiff_short (d := hourlyDiff gen daily p) (by simpa [hourlyDiff] using hne)
    (by rw [hourlyDiff_sum]; linarith)
  have h2 := hourlyDiff_window hd hl s n (gen := gen) (by simpa [hourlyDiff] using hn)
  have h3 := wsum_ge_neg_runningVolume (hourlyDiff gen daily q) (by rw [hourlyDiff_sum]; linarith) s n
  linarith

/-- The running volumes of two days differ by at most the water by which the days differ. -/
theorem runningVolume_near {daily r v w : K} (hd : 0 ≤ daily) (hr0 : 0 < r) (hr : r ≤ 24) {p q : List K} (hp : p.length = 24)
    (hq : q.length = 24) (hp1 : p.sum ≤ 1) (hq1 : q.sum ≤ 1) (hv : runningVolume daily r p = .ok v)
    (hw : runningVolume daily r q = .ok w) : |w - v| ≤ daily * apart p q := by
  rw [runningVolume_ok hr0.ne'] at hv hw
  obtain rfl := Except.ok.inj hv
  obtain rfl := Except.ok.inj hw
  have cp := cover_of_normalised hd hp hp1 hr0 hr
  have cq := cover_of_normalised hd hq hq1 hr0 hr
  have a := runningVolume_le hd (hp.trans hq.symm) (by rintro rfl; simp at hp) cp cq
  have b := runningVolume_le hd (hq.trans hp.symm) (by rintro rfl; simp at hq) cq cp
  rw [apart_comm q p] at b
  rw [abs_le]
  constructor <;> linarith

/-- Methods whose running volume is that of the day, and whose capacity does not see the shape of the day. -/
structure ReadsShape (M : SizingMethods K) : Prop where
  cap : ∀ c (b : Building K) p, M.reqCapacity c (withPeak p b) = M.reqCapacity c b
  vol : ∀ (c : SysCfg K) (b : Building K) x v, M.runVol c b x = .ok v → runningVolume b.dailyGal c.maxRunHr b.peakShape = .ok v

theorem base_readsShape : ReadsShape (baseMethods (K := K)) where
  cap _ _ _ := rfl
  vol _ _ _ _ h := h

theorem sp_readsShape (l : RtpLoop K) : ReadsShape (spMethods l) where
  cap _ _ _ := rfl
  vol c b _ v h := by
    have h : spRunVol l c b = .ok v := h
    simp only [spRunVol, bind_eq_ok] at h
    obtain ⟨_, _, h⟩ := h
    exact h

/-- What the sizings of two days have in common, and how far they can be apart: the same heating capacity, and storage volumes
whose relative difference is at most the water by which the days differ over the greatest shortfall of either day. -/
structure Near (gen : K) (b : Building K) (p : List K) (s1 s2 : DhwSys K) : Prop where
  cap : s2.minCap = s1.minCap
  storage : ∃ st1 st2, s1.minStorage = some st1 ∧ s2.minStorage = some st2 ∧
    (∀ v, IsGreatest (shortfalls b.dailyGal gen b.peakShape) v →
      |st2 - st1| * v ≤ |st1| * (b.dailyGal * apart b.peakShape p)) ∧
    (∀ v, IsGreatest (shortfalls b.dailyGal gen p) v →
      |st2 - st1| * v ≤ |st2| * (b.dailyGal * apart b.peakShape p))

theorem size_near {M : SizingMethods K} (hM : ReadsShape M) {b : Building K} {p : List K} (hb : FullDay b)
    (hp : FullDay (withPeak p b)) {db : ShapeFiles K} {s s1 s2 : DhwSys K} {b1 b2 : Building K} (h0 : 0 < s.cfg.maxRunHr)
    (h24 : s.cfg.maxRunHr ≤ 24) {sched : Option (List String)} {cmap : Option (ControlMap K)} (hs : ¬ AsksShift sched cmap)
    {slope fract : K} {w1 w2 : Warnings} (h1 : size M db s b sched cmap slope fract = ((s1, b1), .ok w1))
    (h2 : size M db s (withPeak p b) sched cmap slope fract = ((s2, b2), .ok w2)) :
    Near (b.dailyGal / s.cfg.maxRunHr) b p s1 s2 := by
  have sized : ∀ {c c' : Building K} {t : DhwSys K} {w : Warnings}, FullDay c →
      size M db s c sched cmap slope fract = ((t, c'), .ok w) → ∃ cap st, t.minCap = some cap ∧ t.minStorage = some st ∧
        sizeCore M s.cfg c none cmap slope fract = .ok (cap, st) := by
    intro c c' t w hc h
    rcases size_cases M db s c sched cmap slope fract with
      ⟨e', _, he⟩ | ⟨b', hb', ⟨e', _, he⟩ | ⟨cap, st, hcore, ⟨e', hw, he⟩ | ⟨ws', b3, hw, he, -, -⟩⟩⟩
    · rw [he] at h; simp at h
    · rw [he] at h; simp at h
    · rw [he] at h; simp at h
    · rw [he] at h
      simp only [Prod.mk.injEq, Except.ok.injEq] at h
      obtain ⟨⟨rfl, rfl⟩, rfl⟩ := h
      have d1 : dailyView db c = .ok c := by unfold dailyView; rw [if_neg (by simp [notAnnual hc])]
      obtain rfl : c = b' := Except.ok.inj (d1.symm.trans hb')
      rw [lsInputs_none hs] at hcore
      exact ⟨cap, st, rfl, rfl, hcore⟩
  obtain ⟨cap1, st1, c1, t1, k1⟩ := sized hb h1
  obtain ⟨cap2, st2, c2, t2, k2⟩ := sized hp h2
  simp only [sizeCore, bind_eq_ok, pure_eq_ok, Except.ok.injEq, Prod.mk.injEq, storageVolume, fdiv_eq_ok] at k1 k2
  obtain ⟨i1, hi1, q1, hq1, v1, hv1, f1, hf1, x1, ⟨hn1, rfl⟩, rfl, rfl⟩ := k1
  obtain ⟨i2, hi2, q2, hq2, v2, hv2, f2, hf2, x2, ⟨hn2, rfl⟩, rfl, rfl⟩ := k2
  obtain rfl : i1 = i2 := Except.ok.inj (hi1.symm.trans hi2)
  obtain rfl : f1 = f2 := Except.ok.inj (hf1.symm.trans hf2)
  rw [hM.cap, hq1] at hq2
  obtain rfl : q1 = q2 := Except.ok.inj hq2
  have r1 := hM.vol _ _ _ _ hv1
  have r2 := hM.vol _ _ _ _ hv2
  have near : |v2 - v1| ≤ b.dailyGal * apart b.peakShape p :=
    runningVolume_near hb.gal h0 h24 hb.hours hp.hours hb.sum hp.sum r1 r2
  have diff : |v2 / f1 - v1 / f1| = |v2 - v1| / |f1| := by rw [← sub_div, abs_div]
  have great : ∀ {c : Building K} {v u : K}, FullDay c → runningVolume c.dailyGal s.cfg.maxRunHr c.peakShape = .ok v →
      IsGreatest (shortfalls c.dailyGal (c.dailyGal / s.cfg.maxRunHr) c.peakShape) u → u = v ∧ 0 ≤ v := by
    intro c v u hc hv hu
    obtain ⟨v', e, hg⟩ := C01_running_volume_isGreatest c.dailyGal s.cfg.maxRunHr c.peakShape
      (by intro e; simpa [e] using hc.hours) h0.ne' (cover_of_normalised hc.gal hc.hours hc.sum h0 h24)
    obtain rfl : v = v' := Except.ok.inj (hv.symm.trans e)
    exact ⟨hu.unique hg, hg.2 ⟨0, 0, by simp [Spec.shortfall]⟩⟩
  have fpos : 0 < |f1| := abs_pos.2 hn1
  have fin : ∀ v : K, 0 ≤ v → |v2 / f1 - v1 / f1| * v ≤ |v / f1| * (b.dailyGal * apart b.peakShape p) := by
    intro v hv
    rw [diff, abs_div, abs_of_nonneg hv, div_mul_eq_mul_div, div_mul_eq_mul_div, div_le_div_iff_of_pos_right fpos, mul_comm v]
    exact mul_le_mul_of_nonneg_right near hv
  refine ⟨by rw [c1, c2], _, _, t1, t2, ?_, ?_⟩
  · intro v hv
    obtain ⟨rfl, h⟩ := great hb r1 hv
    exact fin _ h
  · intro v hv
    obtain ⟨rfl, h⟩ := great hp r2 hv
    exact fin _ h

section
variable {b : Building K} {p : List K}

/-- **C144, primary systems.** For two days of the same building: the heating capacities are the same, and if the days differ by a
small part of the greatest shortfall, the storage volumes differ by no more than that part. -/
theorem C144_primary (hb : FullDay b) (hp : FullDay (withPeak p b)) {db : ShapeFiles K} {s s1 s2 : DhwSys K}
    {b1 b2 : Building K} (h0 : 0 < s.cfg.maxRunHr) (h24 : s.cfg.maxRunHr ≤ 24) {sched : Option (List String)}
    {cmap : Option (ControlMap K)} (hs : ¬ AsksShift sched cmap) {slope fract : K} {w1 w2 : Warnings}
    (h1 : size baseMethods db s b sched cmap slope fract = ((s1, b1), .ok w1))
    (h2 : size baseMethods db s (withPeak p b) sched cmap slope fract = ((s2, b2), .ok w2)) :
    Near (b.dailyGal / s.cfg.maxRunHr) b p s1 s2 :=
  size_near base_readsShape hb hp h0 h24 hs h1 h2

/-- **C144, single-pass return to primary.** The part of the capacity that is for the recirculation loop is the same as well. -/
theorem C144_single_pass (hb : FullDay b) (hp : FullDay (withPeak p b)) {db : ShapeFiles K} {s s1 s2 : SpSys K}
    {b1 b2 : Building K} (h0 : 0 < s.base.cfg.maxRunHr) (h24 : s.base.cfg.maxRunHr ≤ 24) {sched : Option (List String)}
    {cmap : Option (ControlMap K)} (hs : ¬ AsksShift sched cmap) {slope fract : K} {w1 w2 : Warnings}
    (h1 : s.size db b sched cmap slope fract = ((s1, b1), .ok w1))
    (h2 : s.size db (withPeak p b) sched cmap slope fract = ((s2, b2), .ok w2)) :
    Near (b.dailyGal / s.base.cfg.maxRunHr) b p s1.base s2.base ∧ s2.recircCap = s1.recircCap := by
  have part : ∀ {c c' : Building K} {t : SpSys K} {w : Warnings}, s.size db c sched cmap slope fract = ((t, c'), .ok w) →
      size (spMethods s.loop) db s.base c sched cmap slope fract = ((t.base, c'), .ok w) ∧
      ∃ x, rtpRecircCap s.base.cfg s.loop = .ok x ∧ t.recircCap = some x := by
    intro c c' t w h
    simp only [SpSys.size] at h
    have hc := C07_size_restores_run_hours (spMethods s.loop) db s.base c sched cmap slope fract
    generalize size (spMethods s.loop) db s.base c sched cmap slope fract = r at h hc
    obtain ⟨⟨d, d1⟩, v⟩ := r
    cases v with
    | error e => simp at h
    | ok v =>
      simp only at h hc
      rw [hc] at h
      cases hx : rtpRecircCap s.base.cfg s.loop with
      | error e => rw [hx] at h; simp at h
      | ok x =>
        rw [hx] at h
        simp only [Prod.mk.injEq, Except.ok.injEq] at h
        obtain ⟨⟨rfl, rfl⟩, rfl⟩ := h
        exact ⟨rfl, x, rfl, rfl⟩
  obtain ⟨k1, x1, e1, f1⟩ := part h1
  obtain ⟨k2, x2, e2, f2⟩ := part h2
  refine ⟨size_near (sp_readsShape s.loop) hb hp h0 h24 hs k1 k2, ?_⟩
  rw [f1, f2, Except.ok.inj (e1.symm.trans e2)]

/-- **C144, parallel loop.** The loop tank is the same as well. -/
theorem C144_parallel (hb : FullDay b) (hp : FullDay (withPeak p b)) {db : ShapeFiles K} {s s1 s2 : ParSys K}
    {b1 b2 : Building K} (h0 : 0 < s.base.cfg.maxRunHr) (h24 : s.base.cfg.maxRunHr ≤ 24) {sched : Option (List String)}
    {cmap : Option (ControlMap K)} (hs : ¬ AsksShift sched cmap) {slope fract : K} {w1 w2 : Warnings}
    (h1 : s.size baseMethods db b sched cmap slope fract = ((s1, b1), .ok w1))
    (h2 : s.size baseMethods db (withPeak p b) sched cmap slope fract = ((s2, b2), .ok w2)) :
    Near (b.dailyGal / s.base.cfg.maxRunHr) b p s1.base s2.base ∧ s2.minTmVol = s1.minTmVol ∧ s2.minTmCap = s1.minTmCap := by
  have part : ∀ {c c' : Building K} {t : ParSys K} {w : Warnings},
      s.size baseMethods db c sched cmap slope fract = ((t, c'), .ok w) →
      size baseMethods db s.base c sched cmap slope fract = ((t.base, c'), .ok w) ∧
      ∃ x y, sizeTm s.base.cfg.supply s.tm = .ok (x, y) ∧ t.minTmVol = some x ∧ t.minTmCap = some y := by
    intro c c' t w h
    simp only [ParSys.size] at h
    have hc := C07_size_restores_run_hours baseMethods db s.base c sched cmap slope fract
    cases hv : validateTm s.tm with
    | error e => rw [hv] at h; simp at h
    | ok u =>
      rw [hv] at h
      simp only at h
      generalize size baseMethods db s.base c sched cmap slope fract = r at h hc
      obtain ⟨⟨d, d1⟩, v⟩ := r
      cases v with
      | error e => simp at h
      | ok v =>
        simp only at h hc
        rw [hc] at h
        cases hx : sizeTm s.base.cfg.supply s.tm with
        | error e => rw [hx] at h; simp at h
        | ok x =>
          rw [hx] at h
          simp only [Prod.mk.injEq, Except.ok.injEq] at h
          obtain ⟨⟨rfl, rfl⟩, rfl⟩ := h
          exact ⟨rfl, _, _, rfl, rfl, rfl⟩
  obtain ⟨k1, x1, y1, e1, f1, g1⟩ := part h1
  obtain ⟨k2, x2, y2, e2, f2, g2⟩ := part h2
  have e := Except.ok.inj (e1.symm.trans e2)
  simp only [Prod.mk.injEq] at e
  exact ⟨size_near base_readsShape hb hp h0 h24 hs k1 k2, by rw [f1, f2, e.1], by rw [g1, g2, e.2]⟩

theorem le_apart {p q : List K} (hl : p.length = q.length) {i : ℕ} (hi : i < p.length) :
    p[i] - q[i] ≤ apart p q := by
  have hz : (List.zipWith (fun x y => |x - y|) p q).length = p.length := by simp [hl]
  have hn : ∀ x ∈ List.zipWith (fun x y => |x - y|) p q, 0 ≤ x := by
    intro x hx
    obtain ⟨i, hi, rfl⟩ := List.getElem_of_mem hx
    simp
  have := List.single_le_sum hn _ (List.getElem_mem (n := i) (by rw [hz]; exact hi))
  rw [List.getElem_zipWith] at this
  exact (le_abs_self _).trans this

/-- **C144, tankless systems.** The relative difference of the capacities is at most the difference of the days over the busiest
hour of either day. -/
theorem C144_tankless (hl : b.peakShape.length = p.length) {s : Instant K} {cap1 cap2 : K} (h1 : s.size b = .ok cap1)
    (h2 : s.size (withPeak p b) = .ok cap2) :
    (∀ m, IsGreatest {f | f ∈ b.peakShape} m → |cap2 - cap1| * m ≤ |cap1| * apart b.peakShape p) ∧
    (∀ m, IsGreatest {f | f ∈ p} m → |cap2 - cap1| * m ≤ |cap2| * apart b.peakShape p) := by
  have val : ∀ {c : Building K} {cap : K}, s.size c = .ok cap → ∃ inlet m, requireDesignInlet c = .ok inlet ∧
      IsGreatest {f | f ∈ c.peakShape} m ∧ cap = c.dailyGal * 60 * rhoCp K * (s.supply - inlet) / s.defrost / 1000 * m := by
    intro c cap h
    simp only [Instant.size, bind_eq_ok] at h
    obtain ⟨inlet, hi, h⟩ := h
    cases hm : c.peakShape.max? with
    | none => rw [hm] at h; simp at h
    | some m =>
      rw [hm] at h
      simp only [bind_eq_ok, pure_eq_ok, Except.ok.injEq, fdiv_eq_ok] at h
      obtain ⟨x, ⟨hx, rfl⟩, rfl⟩ := h
      rw [List.max?_eq_some_iff] at hm
      exact ⟨inlet, m, hi, ⟨hm.1, fun y hy => hm.2 y hy⟩, by ring⟩
  obtain ⟨i1, m1, e1, g1, rfl⟩ := val h1
  obtain ⟨i2, m2, e2, g2, rfl⟩ := val h2
  obtain rfl : i1 = i2 := Except.ok.inj (e1.symm.trans e2)
  have near : |m2 - m1| ≤ apart b.peakShape p := by
    rw [abs_le]
    constructor
    · obtain ⟨i, hi, rfl⟩ := List.getElem_of_mem g1.1
      have a := le_apart hl hi
      have c : p[i] ≤ m2 := g2.2 (List.getElem_mem _)
      linarith
    · obtain ⟨i, hi, rfl⟩ := List.getElem_of_mem g2.1
      have hi : i < p.length := hi
      have a := le_apart hl.symm hi
      rw [apart_comm] at a
      have c : b.peakShape[i]'(by omega) ≤ m1 := g1.2 (List.getElem_mem _)
      show p[i] - m1 ≤ _
      linarith
  have e : (withPeak p b).dailyGal = b.dailyGal := rfl
  rw [e]
  generalize b.dailyGal * 60 * rhoCp K * (s.supply - i1) / s.defrost / 1000 = k
  have fin : ∀ m, |k * m2 - k * m1| * m ≤ |k * m| * apart b.peakShape p := by
    intro m
    rw [← mul_sub, abs_mul, abs_mul, mul_assoc, mul_assoc]
    refine mul_le_mul_of_nonneg_left ?_ (abs_nonneg _)
    calc |m2 - m1| * m ≤ |m2 - m1| * |m| := mul_le_mul_of_nonneg_left (le_abs_self _) (abs_nonneg _)
      _ ≤ |m| * apart b.peakShape p := by rw [mul_comm]; exact mul_le_mul_of_nonneg_left near (abs_nonneg _)
  exact ⟨fun m hm => by rw [hm.unique g1]; exact fin _, fun m hm => by rw [hm.unique g2]; exact fin _⟩

end

/-- A day that uses `e` of the daily use in hour 8 rather than in hour 2. -/
def Demo.moved (e : ℚ) : List ℚ := (Demo.shape.modify 8 (· + e)).modify 2 (· - e)

/-- A multi-pass system that may run for 20 hours. -/
def Demo.mpTwenty : MpSys ℚ := { base := { cfg := ⟨120, 150, 20, 1⟩ }, loop := ⟨118, 1⟩ }

theorem Demo.moved_fullDay : FullDay (withPeak (Demo.moved (1/1000)) Demo.building) :=
  ⟨by decide +kernel, by decide +kernel, by decide +kernel⟩

theorem sized_of_isOk {S W : Type} {r : (S × Building ℚ) × Py W} (h : r.2.isOk = true) : ∃ s b w, r = ((s, b), .ok w) := by
  obtain ⟨⟨s, b⟩, w⟩ := r
  cases w with
  | error e => simp [Except.isOk, Except.toBool] at h
  | ok w => exact ⟨s, b, w, rfl⟩

/-- Non-vacuity of C144: both sizings succeed, and a gallon moved to the morning peak gives another tank. -/
example : ∃ s1 b1 w1 s2 b2 w2,
    size baseMethods Demo.noFiles { cfg := Demo.cfg } Demo.building none (some Demo.map) (28/10) 1 = ((s1, b1), .ok w1) ∧
    size baseMethods Demo.noFiles { cfg := Demo.cfg } (withPeak (Demo.moved (1/1000)) Demo.building) none (some Demo.map) (28/10) 1 =
      ((s2, b2), .ok w2) ∧ Near (1000 / 16) Demo.building (Demo.moved (1/1000)) s1 s2 ∧ s1.minStorage ≠ s2.minStorage := by
  have n1 : (size baseMethods Demo.noFiles { cfg := Demo.cfg } Demo.building none (some Demo.map) (28/10) 1).1.1.minStorage ≠
      (size baseMethods Demo.noFiles { cfg := Demo.cfg } (withPeak (Demo.moved (1/1000)) Demo.building) none (some Demo.map)
        (28/10) 1).1.1.minStorage := by decide +kernel
  obtain ⟨s1, b1, w1, h1⟩ := sized_of_isOk
    (r := size baseMethods Demo.noFiles { cfg := Demo.cfg } Demo.building none (some Demo.map) (28/10) 1) (by decide +kernel)
  obtain ⟨s2, b2, w2, h2⟩ := sized_of_isOk
    (r := size baseMethods Demo.noFiles { cfg := Demo.cfg } (withPeak (Demo.moved (1/1000)) Demo.building) none (some Demo.map)
      (28/10) 1) (by decide +kernel)
  have := C144_primary Demo.fullDay Demo.moved_fullDay (by decide +kernel) (by decide +kernel)
    (by rintro ⟨_, _, h, _⟩; simp at h) h1 h2
  rw [h1, h2] at n1
  exact ⟨s1, b1, w1, s2, b2, w2, h1, h2, this, n1⟩

set_option maxRecDepth 100000 in
/-- **C144 is false for multi-pass systems.** Moving one gallon of 1000 from one hour to another enlarges the storage volume from
less than 368 to more than 599 gallons. -/
theorem C144_multi_pass_fails : ∃ s1 b1 s2 b2 st1 st2,
    Demo.mpTwenty.size Demo.noFiles (withPeak (Demo.moved (7/1000)) Demo.building) (some Demo.lowSensor) 2 = ((s1, b1), .ok ()) ∧
    Demo.mpTwenty.size Demo.noFiles (withPeak (Demo.moved (8/1000)) Demo.building) (some Demo.lowSensor) 2 = ((s2, b2), .ok ()) ∧
    s1.base.minStorage = some st1 ∧ s2.base.minStorage = some st2 ∧ 0 ≤ st1 ∧ st1 < 368 ∧ 599 < st2 ∧
    ¬ Near (1000 / 20) (withPeak (Demo.moved (7/1000)) Demo.building) (Demo.moved (8/1000)) s1.base s2.base := by
  have e1 : (mpStorage (Demo.mpTwenty.size Demo.noFiles (withPeak (Demo.moved (7/1000)) Demo.building) (some Demo.lowSensor) 2)).any
      (fun x => decide (0 ≤ x ∧ x < 368)) = true := by decide +kernel
  have e2 : (mpStorage (Demo.mpTwenty.size Demo.noFiles (withPeak (Demo.moved (8/1000)) Demo.building) (some Demo.lowSensor) 2)).any
      (fun x => decide (599 < x)) = true := by decide +kernel
  rw [Option.any_eq_true] at e1 e2
  obtain ⟨x1, m1, l1⟩ := e1
  obtain ⟨x2, m2, l2⟩ := e2
  rw [decide_eq_true_eq] at l1 l2
  obtain ⟨s1, b1, h1, k1⟩ := mpStorage_some m1
  obtain ⟨s2, b2, h2, k2⟩ := mpStorage_some m2
  refine ⟨s1, b1, s2, b2, x1, x2, h1, h2, k1, k2, l1.1, l1.2, l2, fun hN => ?_⟩
  obtain ⟨y1, y2, j1, j2, hv, -⟩ := hN.storage
  obtain rfl : x1 = y1 := Option.some.inj (k1.symm.trans j1)
  obtain rfl : x2 = y2 := Option.some.inj (k2.symm.trans j2)
  obtain ⟨v, -, hg⟩ := C01_running_volume_isGreatest (1000 : ℚ) 20 (Demo.moved (7/1000)) (by decide +kernel) (by norm_num)
    (by decide +kernel)
  have hv := hv v hg
  have g : (107 : ℚ) ≤ v := hg.2 ⟨6, 3, by decide +kernel⟩
  have ha : (withPeak (Demo.moved (7/1000)) Demo.building).dailyGal *
      apart (withPeak (Demo.moved (7/1000)) Demo.building).peakShape (Demo.moved (8/1000)) = 2 := by decide +kernel
  rw [ha, abs_of_nonneg l1.1, abs_of_nonneg (by linarith [l1.2])] at hv
  nlinarith [l1.2]

end Eco
