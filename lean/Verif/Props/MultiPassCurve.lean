import Verif.Model.MultiPassCurve
import Verif.Props.MultiPassSim
import Verif.Props.Curves

/-! # C96: the sizing curve of a multi-pass system -/

set_option linter.unusedSectionVars false

namespace Eco
open Spec
variable {K : Type} [Field K] [LinearOrder K] [IsStrictOrderedRing K]

theorem pyRound_bounds [FloorRing K] (x : K) : x - 1 / 2 ≤ (pyRound x : K) ∧ (pyRound x : K) ≤ x + 1 / 2 := by
  have h1 := Int.floor_le x
  have h2 := Int.lt_floor_add_one x
  unfold pyRound
  simp only
  split
  · constructor <;> linarith
  · rename_i h
    rw [not_lt] at h
    split
    · push_cast; constructor <;> linarith
    · rename_i h'
      rw [not_lt] at h'
      split
      · constructor <;> linarith
      · push_cast; constructor <;> linarith

theorem pyRound_mono [FloorRing K] {x y : K} (h : x ≤ y) : pyRound x ≤ pyRound y := by
  by_contra hc
  rw [not_le] at hc
  -- different integers more than rounding apart
  obtain ⟨a1, a2⟩ := pyRound_bounds x
  obtain ⟨b1, b2⟩ := pyRound_bounds y
  have hc' : (pyRound y : K) + 1 ≤ pyRound x := by exact_mod_cast hc
  have e : x = y := le_antisymm h (by linarith)
  subst e
  exact lt_irrefl _ hc

theorem pyRound1_mono [FloorRing K] {x y : K} (h : x ≤ y) : pyRound1 x ≤ pyRound1 y := by
  unfold pyRound1
  have := pyRound_mono (K := K) (x := x * 10) (y := y * 10) (by linarith)
  have h2 : (pyRound (x * 10) : K) ≤ pyRound (y * 10) := by exact_mod_cast this
  exact div_le_div_of_nonneg_right h2 (by norm_num)

theorem pyRound1_bounds [FloorRing K] (x : K) : |pyRound1 x - x| ≤ 1 / 20 := by
  obtain ⟨h1, h2⟩ := pyRound_bounds (x * 10)
  unfold pyRound1
  rw [abs_le]
  constructor <;> linarith

/-- What a point below the recommended one is: the result of `from_size` with `h` run hours. -/
def FromSizePoint (db : ShapeFiles K) (s : MpSys K) (sched : Option (List String)) (slope pu : K) (b : Building K)
    (h cap vol : K) : Prop :=
  ∃ sys sim, mpFromSize db { s.base.cfg with maxRunHr := h } s.loop b sched s.base.heaterMap slope pu 2 1 =
    (b, .ok (sys, sim)) ∧ getMinCapacity sys.base = .ok cap ∧ getMinStorage sys.base = .ok vol

theorem mpFromSize_building {db : ShapeFiles K} {c : SysCfg K} {l : RtpLoop K} {b b' : Building K}
    {sched : Option (List String)} {cmap : Option (ControlMap K)} {slope pu : K} {days it : ℕ} {r : Py (MpSys K × MpSim K)}
    (hA : b.isAnnual = false) (h : mpFromSize db c l b sched cmap slope pu days it = (b', r)) : b' = b := by
  unfold mpFromSize at h
  have hb := (C70_multi_pass_building db { base := { cfg := c }, loop := l } b cmap slope).2 hA
  split at h
  · simp only [Prod.mk.injEq] at h; exact h.1.symm
  · split at h
    · rename_i s0 b0 e hsz
      simp only [Prod.mk.injEq] at h
      rw [hsz] at hb
      rw [← h.1]; exact hb
    · rename_i s0 b0 hsz
      simp only [Prod.mk.injEq] at h
      rw [hsz] at hb
      rw [← h.1]; exact hb

/-- A point of the curve: read off the system itself or off `from_size`, with the run hours that its capacity implies. -/
def CurvePoint [FloorRing K] (db : ShapeFiles K) (s : MpSys K) (sched : Option (List String)) (slope pu num : K)
    (b : Building K) (p : K × K × K) : Prop :=
  p.1 = pyRound1 (num / (p.2.1 * s.base.cfg.defrost)) ∧ p.2.1 * s.base.cfg.defrost ≠ 0 ∧ p.2.2 ≠ 0 ∧
    ((s.base.minCap = some p.2.1 ∧ s.base.minStorage = some p.2.2) ∨
      ∃ h, 9 ≤ h ∧ h < s.base.cfg.maxRunHr ∧ FromSizePoint db s sched slope pu b h p.2.1 p.2.2)

theorem mpPoint_ok [FloorRing K] {num d : K} {s : DhwSys K} {p : K × K × K} (h : mpPoint num d s = .ok (some p)) :
    s.minCap = some p.2.1 ∧ s.minStorage = some p.2.2 ∧ p.2.2 ≠ 0 ∧ p.2.1 * d ≠ 0 ∧ p.1 = pyRound1 (num / (p.2.1 * d)) := by
  unfold mpPoint at h
  split at h
  · simp at h
  · rename_i hz
    split at h
    · rename_i cap vol hc hv
      simp only [bind_eq_ok, pure_eq_ok, Except.ok.injEq, Option.some.injEq] at h
      obtain ⟨q, hq, rfl⟩ := h
      rw [fdiv_eq_ok] at hq
      refine ⟨hc, hv, ?_, hq.1, by rw [← hq.2]⟩
      intro e; exact hz (by rw [hv]; simpa using e)
    · simp at h

theorem mpTry_ok {db : ShapeFiles K} {s : MpSys K} {sched : Option (List String)} {slope pu : K} {b b' : Building K}
    {h : K} {r : Py (Option (DhwSys K))} (hA : b.isAnnual = false) (hle : h ≤ s.base.cfg.maxRunHr)
    (e : mpTry db s sched slope pu b h = (b', r)) :
    b' = b ∧ ∀ d, r = .ok (some d) → d = s.base ∨ (9 ≤ h ∧ h < s.base.cfg.maxRunHr ∧
      ∃ sys sim, mpFromSize db { s.base.cfg with maxRunHr := h } s.loop b sched s.base.heaterMap slope pu 2 1 =
        (b, .ok (sys, sim)) ∧ sys.base = d) := by
  unfold mpTry at e
  split at e
  · simp only [Prod.mk.injEq] at e
    obtain ⟨rfl, rfl⟩ := e
    refine ⟨rfl, fun d hd => .inl ?_⟩
    simp only [Except.ok.injEq, Option.some.injEq] at hd
    exact hd.symm
  · rename_i hne
    split at e
    · simp only [Prod.mk.injEq] at e
      obtain ⟨rfl, rfl⟩ := e
      exact ⟨rfl, fun d hd => by simp at hd⟩
    · rename_i h9
      rw [not_lt] at h9
      split at e <;> rename_i hf <;> simp only [Prod.mk.injEq] at e <;> obtain ⟨rfl, rfl⟩ := e <;>
        have hb := mpFromSize_building hA hf
      · exact ⟨hb, fun d hd => by simp at hd⟩
      · exact ⟨hb, fun d hd => by simp at hd⟩
      · exact ⟨hb, fun d hd => by simp at hd⟩
      · exact ⟨hb, fun d hd => by simp at hd⟩
      · refine ⟨hb, fun d hd => .inr ⟨h9, lt_of_le_of_ne hle hne, ?_⟩⟩
        simp only [Except.ok.injEq, Option.some.injEq] at hd
        subst hb
        exact ⟨_, _, hf, hd⟩

theorem mpSweep_spec [FloorRing K] (db : ShapeFiles K) (s : MpSys K) (sched : Option (List String)) (slope pu num : K)
    (b : Building K) (hA : b.isAnnual = false) : ∀ (hs : List K) (acc : MpAcc K) (b' : Building K) (r : Py (MpAcc K)),
    (∀ h ∈ hs, h ≤ s.base.cfg.maxRunHr) → mpSweep db s sched slope pu num hs b acc = (b', r) →
    b' = b ∧ ∀ acc', r = .ok acc' → (∀ p ∈ acc.1, CurvePoint db s sched slope pu num b p) →
      acc.1.Pairwise (fun p q => q.1 < p.1) →
      (∀ p ∈ acc'.1, CurvePoint db s sched slope pu num b p) ∧ acc'.1.Pairwise (fun p q => q.1 < p.1) ∧
        acc.1 <+: acc'.1 ∧ ∀ x, acc.2 = some x → acc'.2 = some x := by
  intro hs
  induction hs with
  | nil =>
    intro acc b' r _ h
    unfold mpSweep at h
    simp only [Prod.mk.injEq] at h
    obtain ⟨rfl, rfl⟩ := h
    refine ⟨rfl, fun acc' e h1 h2 => ?_⟩
    simp only [Except.ok.injEq] at e
    subst e
    exact ⟨h1, h2, List.prefix_rfl, fun _ => id⟩
  | cons x hs ih =>
    intro acc b' r hle h
    unfold mpSweep at h
    have done : ∀ b'', b'' = b → (b'', (Except.ok acc : Py (MpAcc K))) = (b', r) → b' = b ∧ ∀ acc', r = .ok acc' →
        (∀ p ∈ acc.1, CurvePoint db s sched slope pu num b p) → acc.1.Pairwise (fun p q => q.1 < p.1) →
        (∀ p ∈ acc'.1, CurvePoint db s sched slope pu num b p) ∧ acc'.1.Pairwise (fun p q => q.1 < p.1) ∧
          acc.1 <+: acc'.1 ∧ ∀ x, acc.2 = some x → acc'.2 = some x := by
      intro b'' hb'' e
      simp only [Prod.mk.injEq] at e
      obtain ⟨rfl, rfl⟩ := e
      refine ⟨hb'', fun acc' e h1 h2 => ?_⟩
      simp only [Except.ok.injEq] at e
      subst e
      exact ⟨h1, h2, List.prefix_rfl, fun _ => id⟩
    split at h
    · rename_i b1 e ht
      obtain ⟨hb, _⟩ := mpTry_ok hA (hle x (by simp)) ht
      simp only [Prod.mk.injEq] at h
      obtain ⟨rfl, rfl⟩ := h
      exact ⟨hb, fun _ e => by simp at e⟩
    · rename_i b1 ht
      obtain ⟨hb, _⟩ := mpTry_ok hA (hle x (by simp)) ht
      exact done _ hb h
    · rename_i b1 d ht
      obtain ⟨rfl, hd⟩ := mpTry_ok hA (hle x (by simp)) ht
      split at h
      · simp only [Prod.mk.injEq] at h
        obtain ⟨rfl, rfl⟩ := h
        exact ⟨rfl, fun _ e => by simp at e⟩
      · exact done _ rfl h
      · rename_i p hp
        obtain ⟨p1, p2, p3, p4, p5⟩ := mpPoint_ok hp
        have hcp : CurvePoint db s sched slope pu num b1 p := by
          refine ⟨p5, p4, p3, ?_⟩
          rcases hd d rfl with rfl | ⟨q1, q2, sys, sim, q3, rfl⟩
          · exact .inl ⟨p1, p2⟩
          · exact .inr ⟨x, q1, q2, sys, sim, q3, by simp [getMinCapacity, p1], by simp [getMinStorage, p2]⟩
        obtain ⟨hb, hrest⟩ := ih _ _ _ (fun y hy => hle y (by simp [hy])) h
        refine ⟨hb, fun acc' e h1 h2 => ?_⟩
        have n1 : ∀ q ∈ (mpNote acc p).1, CurvePoint db s sched slope pu num b1 q := by
          intro q hq
          unfold mpNote at hq
          simp only at hq
          split at hq
          · exact h1 q hq
          · rcases List.mem_append.1 hq with hq | hq
            · exact h1 q hq
            · simp only [List.mem_singleton] at hq; rw [hq]; exact hcp
        have n2 : (mpNote acc p).1.Pairwise (fun p q => q.1 < p.1) := by
          unfold mpNote
          simp only
          split
          · exact h2
          · rename_i hany
            rw [List.pairwise_append]
            refine ⟨h2, by simp, ?_⟩
            intro u hu v hv
            simp only [List.mem_singleton] at hv
            subst hv
            simp only [List.any_eq_true, decide_eq_true_eq, not_exists, not_and, not_le] at hany
            exact hany u hu
        obtain ⟨r1, r2, r3, r4⟩ := hrest acc' e n1 n2
        refine ⟨r1, r2, List.IsPrefix.trans ?_ r3, fun y hy => r4 y (by simp [mpNote, hy])⟩
        unfold mpNote
        simp only
        split
        · exact List.prefix_rfl
        · exact List.prefix_append _ _

/-- The sweep that starts at the system's own run hours begins with the point of the system itself. -/
theorem mpSweep_first [FloorRing K] (db : ShapeFiles K) (s : MpSys K) (sched : Option (List String)) (slope pu num : K)
    (b b' : Building K) (hA : b.isAnnual = false) (hs : List K) (acc : MpAcc K) (cap vol : K)
    (hcap : s.base.minCap = some cap) (hvol : s.base.minStorage = some vol) (hv0 : vol ≠ 0)
    (hle : ∀ h ∈ hs, h ≤ s.base.cfg.maxRunHr)
    (h : mpSweep db s sched slope pu num (s.base.cfg.maxRunHr :: hs) b ([], none) = (b', .ok acc)) :
    (∀ p ∈ acc.1, CurvePoint db s sched slope pu num b p) ∧ acc.1.Pairwise (fun p q => q.1 < p.1) ∧
      ∃ x rest, acc.1 = (x, cap, vol) :: rest ∧ acc.2 = some x ∧ x = pyRound1 (num / (cap * s.base.cfg.defrost)) := by
  unfold mpSweep mpTry at h
  rw [if_pos rfl] at h
  simp only at h
  split at h
  · simp at h
  · rename_i hp
    unfold mpPoint at hp
    rw [if_neg (by rw [hvol]; simpa using hv0)] at hp
    simp only [hcap, hvol, bind_eq_ok, pure_eq_ok, Except.ok.injEq] at hp
    obtain ⟨_, _, hp⟩ := hp
    simp at hp
  · rename_i p hp
    obtain ⟨p1, p2, p3, p4, p5⟩ := mpPoint_ok hp
    have hcp : CurvePoint db s sched slope pu num b p := ⟨p5, p4, p3, .inl ⟨p1, p2⟩⟩
    obtain ⟨_, hr⟩ := mpSweep_spec db s sched slope pu num b hA hs _ _ _ hle h
    have e : mpNote (([], none) : MpAcc K) p = ([p], some p.1) := by simp [mpNote]
    rw [e] at hr
    obtain ⟨r1, r2, r3, r4⟩ := hr acc rfl (by intro q hq; simp only [List.mem_singleton] at hq; rw [hq]; exact hcp) (by simp)
    obtain ⟨rest, hrest⟩ := r3
    have hpe : p = (p.1, cap, vol) := by
      rw [hcap] at p1; rw [hvol] at p2
      simp only [Option.some.injEq] at p1 p2
      rw [p1, p2]
    have hc : cap = p.2.1 := by rw [hpe]
    refine ⟨r1, r2, p.1, rest, ?_, r4 _ rfl, ?_⟩
    · rw [← hrest, ← hpe]; rfl
    · rw [hc]; exact p5

theorem mpFinish_eq (acc : MpAcc K) (h : acc.1.Pairwise (fun p q => q.1 < p.1)) : (mpFinish acc).points = acc.1 := by
  unfold mpFinish
  simp only
  exact List.mergeSort_of_pairwise (h.imp (fun h => by simpa using h.le))

theorem mpFinish_rec (acc : MpAcc K) (h : acc.1.Pairwise (fun p q => q.1 < p.1)) (p : K × K × K) (rest : List (K × K × K))
    (hp : acc.1 = p :: rest) (hr : acc.2 = some p.1) : (mpFinish acc).recIndex = 0 := by
  have e := mpFinish_eq acc h
  unfold mpFinish at e ⊢
  simp only at e ⊢
  rw [e, hp, hr]
  unfold firstArgmin
  rw [if_neg (by simp)]
  simp only [List.map_cons, Option.getD_some, sub_self, abs_zero]
  rw [List.findIdx_cons]
  have : (List.all (0 :: List.map (fun q : K × K × K => |q.1 - p.1|) rest) fun y => decide ((0 : K) ≤ y)) = true := by
    simp [abs_nonneg]
  simp only [this, cond_true]

/-- The heat in kBTU that a day asks for: the hot water of building `b` at the system's supply temperature and 24 hours of
loop loss. -/
def Spec.dayHeat (s : MpSys K) (b : Building K) (inlet : K) : K :=
  Spec.heatKbtu b.dailyGal inlet s.base.cfg.supply + Spec.loopLossKbtu s.loop.flow s.base.cfg.supply s.loop.ret 24

theorem mpCurveSetup_ok [FloorRing K] {s : MpSys K} {b : Building K} {step num : K} {hs : List K}
    (h : mpCurveSetup s b step = .ok (num, hs)) :
    ∃ inlet mx, requireDesignInlet b = .ok inlet ∧ b.peakShape.max? = some mx ∧ mx ≠ 0 ∧ step ≠ 0 ∧
      num = Spec.dayHeat s b inlet ∧ hs = arangeDown s.base.cfg.maxRunHr (1 / mx * (1001 / 1000)) step := by
  unfold mpCurveSetup at h
  simp only [bind_eq_ok] at h
  obtain ⟨inlet, h1, mx, h2, inv, h3, h4⟩ := h
  rw [fdiv_eq_ok] at h3
  split at h4
  · simp at h4
  · rename_i h0
    simp only [pure_eq_ok, Except.ok.injEq, Prod.mk.injEq] at h4
    obtain ⟨rfl, rfl⟩ := h4
    refine ⟨inlet, mx, h1, ?_, h3.1, h0, ?_, by rw [h3.2]⟩
    · unfold npMax at h2
      split at h2 <;> simp_all
    · unfold Spec.dayHeat Spec.heatKbtu Spec.loopLossKbtu rtpLossKbtuh rhoCp
      ring

/-- **C96 (state).** However it ends, the curve leaves a building on the daily shape as it was, and one on the annual
shape on the annual shape of its file. -/
theorem C96_curve_leaves_building [FloorRing K] (db : ShapeFiles K) (s : MpSys K) (sched : Option (List String)) (pu : K)
    (b : Building K) (slope step : K) (hstep : 0 < step)
    (hst : ∀ f, db "multi_family" = some f → f.stream.length ≠ 8760) :
    (b.isAnnual = false → (mpSizingCurve db s sched pu b slope step).1 = b) ∧
    (b.isAnnual = true → (mpSizingCurve db s sched pu b slope step).1 = b ∨
      ∃ f, db "multi_family" = some f ∧
        (mpSizingCurve db s sched pu b slope step).1 = { b with peakShape := f.annual, avgShape := f.annual }) := by
  have hbody : ∀ b1 sl, b1.isAnnual = false → (mpCurveBody db s sched pu b1 sl step).1 = b1 := by
    intro b1 sl hA
    unfold mpCurveBody
    cases hset : mpCurveSetup s b1 step with
    | error e => rfl
    | ok v =>
      obtain ⟨num, hs⟩ := v
      obtain ⟨_, _, _, _, _, _, _, rfl⟩ := mpCurveSetup_ok hset
      simp only
      rcases hsw : mpSweep db s sched sl pu num (arangeDown s.base.cfg.maxRunHr (1 / _ * (1001 / 1000)) step) b1 ([], none) with ⟨b2, r⟩
      have := (mpSweep_spec db s sched sl pu num b1 hA _ _ _ _ (fun x hx => (mem_arangeDown hstep hx).2) hsw).1
      cases r <;> exact this
  unfold mpSizingCurve
  cases hA : b.isAnnual with
  | false => simp [hbody b _ hA]
  | true =>
    cases hb : b.setToDaily db with
    | error e => simp
    | ok b1 =>
      obtain ⟨d, hd, _, h3, a, _, hb1⟩ := setToAnnual_of_setToDaily hb
      have hA1 : b1.isAnnual = false := by
        rw [hb1]; simp [Building.isAnnual, hst d hd]
      simp only [hbody b1 _ hA1, h3, if_true]
      refine ⟨by simp, fun _ => .inr ⟨d, hd, rfl⟩⟩

/-- **C96.** The curve of a sized multi-pass system starts, as its recommended point, with the capacity and the storage of
the system itself. Every later point has fewer run hours and a larger capacity, and its capacity and storage are what
`from_size` with two trial days and one iteration reports for some number of run hours between 9 and the system's own. The run
hours of every point are, up to rounding to one decimal, those in which its capacity delivers the heat of a day. -/
theorem C96_curve [FloorRing K] (db : ShapeFiles K) (s : MpSys K) (sched : Option (List String)) (pu : K)
    (b b1 b' : Building K) (slope step inlet mx cap vol : K) (cv : Curve K)
    (h : mpSizingCurve db s sched pu b slope step = (b', .ok cv))
    (hb : dailyView db b = .ok b1) (hA : b1.isAnnual = false) (hstep : 0 < step)
    (hcap : getMinCapacity s.base = .ok cap) (hvol : getMinStorage s.base = .ok vol) (hcap0 : 0 < cap) (hvol0 : vol ≠ 0)
    (hdef : 0 < s.base.cfg.defrost) (hin : requireDesignInlet b = .ok inlet) (hheat : 0 < Spec.dayHeat s b inlet)
    (hmx : b1.peakShape.max? = some mx) (hrun : 1 / mx * (1001 / 1000) < s.base.cfg.maxRunHr) :
    cv.recIndex = 0 ∧ (∃ x, cv.points[0]? = some (x, cap, vol)) ∧
    cv.points.Pairwise (fun p q => q.1 < p.1 ∧ p.2.1 < q.2.1) ∧
    ∀ p ∈ cv.points, |p.1 - Spec.dayHeat s b inlet / (p.2.1 * s.base.cfg.defrost)| ≤ 1 / 20 ∧
      (p.2 = (cap, vol) ∨ ∃ hrs, 9 ≤ hrs ∧ hrs < s.base.cfg.maxRunHr ∧
        FromSizePoint db s sched (s.base.sizingSlope.getD slope) pu b1 hrs p.2.1 p.2.2) := by
  have hcapm : s.base.minCap = some cap := by
    unfold getMinCapacity at hcap; split at hcap <;> simp_all
  have hvolm : s.base.minStorage = some vol := by
    unfold getMinStorage at hvol; split at hvol <;> simp_all
  obtain ⟨g1, g2⟩ := dailyView_dailyGal hb
  have hin1 : requireDesignInlet b1 = .ok inlet := by rw [requireDesignInlet_congr g2]; exact hin
  have hheat1 : Spec.dayHeat s b1 inlet = Spec.dayHeat s b inlet := by unfold Spec.dayHeat; rw [g1]
  -- the body ran to its end
  have hbody : ∃ b2, mpCurveBody db s sched pu b1 (s.base.sizingSlope.getD slope) step = (b2, .ok cv) := by
    unfold mpSizingCurve at h
    unfold dailyView at hb
    rw [hb] at h
    simp only at h
    rcases hm : mpCurveBody db s sched pu b1 (s.base.sizingSlope.getD slope) step with ⟨b2, r⟩
    rw [hm] at h
    simp only at h
    split at h
    · split at h
      · simp at h
      · simp only [Prod.mk.injEq] at h
        exact ⟨b2, by rw [h.2]⟩
    · simp only [Prod.mk.injEq] at h
      exact ⟨b2, by rw [h.2]⟩
  obtain ⟨b2, hbody⟩ := hbody
  unfold mpCurveBody at hbody
  split at hbody
  · simp at hbody
  · rename_i num hs hset
    obtain ⟨i2, m2, e1, e2, _, _, rfl, rfl⟩ := mpCurveSetup_ok hset
    obtain rfl : inlet = i2 := by rw [hin1] at e1; injection e1
    obtain rfl : mx = m2 := by rw [hmx] at e2; injection e2
    split at hbody
    · simp at hbody
    · rename_i b3 acc hsw
      simp only [Prod.mk.injEq, Except.ok.injEq] at hbody
      obtain ⟨rfl, rfl⟩ := hbody
      have hle : ∀ x ∈ arangeDown s.base.cfg.maxRunHr (1 / mx * (1001 / 1000)) step, x ≤ s.base.cfg.maxRunHr :=
        fun x hx => (mem_arangeDown hstep hx).2
      -- the first value of the sweep is the system's own
      obtain ⟨tl, htl⟩ : ∃ tl, arangeDown s.base.cfg.maxRunHr (1 / mx * (1001 / 1000)) step = s.base.cfg.maxRunHr :: tl := by
        have h0 := arangeDown_getElem? s.base.cfg.maxRunHr (1 / mx * (1001 / 1000)) step 0
          (by rw [Nat.lt_ceil]; push_cast; exact div_pos (by linarith) hstep)
        cases hl : arangeDown s.base.cfg.maxRunHr (1 / mx * (1001 / 1000)) step with
        | nil => rw [hl] at h0; simp at h0
        | cons y tl => rw [hl] at h0; simp at h0; exact ⟨tl, by rw [h0]⟩
      rw [htl] at hsw hle
      obtain ⟨q1, q2, x, rest, q3, q4, q5⟩ := mpSweep_first db s sched _ pu _ b1 _ hA tl acc cap vol hcapm hvolm hvol0
        (fun y hy => hle y (by simp [hy])) hsw
      rw [hheat1] at q1
      -- every capacity is positive
      have hpos : ∀ p ∈ acc.1, 0 < p.2.1 := by
        intro p hp
        rcases (q1 p hp).2.2.2 with ⟨hc, _⟩ | ⟨hr, h9, hlt, sys, sim, hf, hc, _⟩
        · rw [hcapm] at hc; injection hc with hc; rw [← hc]; exact hcap0
        · obtain ⟨s0, cap0, c2, v2, k1, k2, _, k3, _, k4, _, _⟩ := C95_boost _ _ _ _ _ _ _ _ _ _ _ _ _ hf
          obtain ⟨c3, i3, k5, k6, k7⟩ := C70_multi_pass_capacity _ _ _ _ _ _ _ k1
          obtain rfl : cap0 = c3 := by rw [k2] at k5; injection k5
          obtain rfl : inlet = i3 := by rw [hin1] at k6; injection k6
          have k8 : cap0 * s.base.cfg.defrost * hr = Spec.dayHeat s b inlet := by rw [← hheat1]; exact k7
          have hr0 : (0 : K) < hr := by linarith
          have k9 : 0 < cap0 * (s.base.cfg.defrost * hr) := by rw [← mul_assoc, k8]; exact hheat
          have k10 : 0 < cap0 := pos_of_mul_pos_left k9 (by positivity)
          obtain rfl : c2 = p.2.1 := by rw [k3] at hc; injection hc
          linarith
      rw [mpFinish_eq acc q2]
      refine ⟨mpFinish_rec acc q2 _ rest q3 q4, ⟨x, by rw [q3]; rfl⟩, ?_, ?_⟩
      · refine List.Pairwise.imp_of_mem ?_ q2
        intro p q hp hq hlt
        refine ⟨hlt, ?_⟩
        by_contra hc
        rw [not_lt] at hc
        have hp0 := hpos p hp
        have hq0 := hpos q hq
        rw [(q1 p hp).1, (q1 q hq).1] at hlt
        apply absurd hlt
        rw [not_lt]
        apply pyRound1_mono
        exact div_le_div_of_nonneg_left hheat.le (by positivity) (mul_le_mul_of_nonneg_right hc hdef.le)
      · intro p hp
        obtain ⟨r1, _, _, r2⟩ := q1 p hp
        refine ⟨by rw [r1]; exact pyRound1_bounds _, ?_⟩
        rcases r2 with ⟨u1, u2⟩ | r2
        · left
          rw [hcapm] at u1; rw [hvolm] at u2
          simp only [Option.some.injEq] at u1 u2
          rw [u1, u2]
        · exact .inr r2

/-- **C96 (error).** A multi-pass system that has not been sized has no curve, whenever the sweep has a value at all. -/
theorem C96_unsized_raises [FloorRing K] (db : ShapeFiles K) (s : MpSys K) (sched : Option (List String)) (pu : K)
    (b : Building K) (slope step inlet mx : K) (hA : b.isAnnual = false) (hstep : 0 < step)
    (hcap : s.base.minCap = none) (hvol : s.base.minStorage = none) (hin : requireDesignInlet b = .ok inlet)
    (hmx : b.peakShape.max? = some mx) (hmx0 : mx ≠ 0) (hrun : 1 / mx * (1001 / 1000) < s.base.cfg.maxRunHr) :
    mpSizingCurve db s sched pu b slope step = (b, .error .typeError) := by
  have hne : step ≠ 0 := hstep.ne'
  have hset : mpCurveSetup s b step = .ok (b.dailyGal * rhoCp K * (s.base.cfg.supply - inlet) / 1000 +
      rtpLossKbtuh s.base.cfg s.loop * 24, arangeDown s.base.cfg.maxRunHr (1 / mx * (1001 / 1000)) step) := by
    unfold mpCurveSetup
    have : npMax b.peakShape = .ok mx := by unfold npMax; rw [hmx]
    simp only [hin, this, ok_bind, fdiv_of_ne hmx0, if_neg hne, pure_eq_ok]
  obtain ⟨tl, htl⟩ : ∃ tl, arangeDown s.base.cfg.maxRunHr (1 / mx * (1001 / 1000)) step = s.base.cfg.maxRunHr :: tl := by
    have h0 := arangeDown_getElem? s.base.cfg.maxRunHr (1 / mx * (1001 / 1000)) step 0
      (by rw [Nat.lt_ceil]; push_cast; exact div_pos (by linarith) hstep)
    cases hl : arangeDown s.base.cfg.maxRunHr (1 / mx * (1001 / 1000)) step with
    | nil => rw [hl] at h0; simp at h0
    | cons y tl => rw [hl] at h0; simp at h0; exact ⟨tl, by rw [h0]⟩
  unfold mpSizingCurve
  rw [if_neg (by simp [hA])]
  simp only [hA]
  unfold mpCurveBody
  rw [hset]
  simp only
  rw [htl]
  unfold mpSweep mpTry
  simp only [if_true]
  unfold mpPoint
  simp [hcap, hvol]

/-- A sized system for the demo building; 8 hours below its own run hours is under the 9 hours at which the sweep ends. -/
def Demo.mpSized : MpSys ℚ := { base := { cfg := Demo.cfg, minCap := some 59, minStorage := some 100 }, loop := ⟨110, 3⟩ }

example : ∃ b' cv, mpSizingCurve Demo.noFiles Demo.mpSized (some Demo.allNormal) 1 Demo.building 2 8 = (b', .ok cv) ∧
    cv.points = [(16, 59, 100)] ∧ cv.recIndex = 0 ∧ dailyView Demo.noFiles Demo.building = .ok Demo.building ∧
    Demo.building.isAnnual = false ∧ requireDesignInlet Demo.building = .ok 50 ∧
    0 < Spec.dayHeat Demo.mpSized Demo.building 50 ∧ Demo.building.peakShape.max? = some (9 / 100) ∧
    1 / (9 / 100) * (1001 / 1000) < Demo.mpSized.base.cfg.maxRunHr ∧ 0 < Demo.mpSized.base.cfg.defrost := by
  have h : ((mpSizingCurve Demo.noFiles Demo.mpSized (some Demo.allNormal) 1 Demo.building 2 8).2.map
      (fun c => (c.points, c.recIndex))) = .ok ([(16, 59, 100)], 0) := by decide +kernel
  rcases hm : mpSizingCurve Demo.noFiles Demo.mpSized (some Demo.allNormal) 1 Demo.building 2 8 with ⟨b', r⟩
  rw [hm] at h
  cases r with
  | error e => simp [Except.map] at h
  | ok cv =>
    simp only [Except.map, Except.ok.injEq, Prod.mk.injEq] at h
    refine ⟨b', cv, rfl, h.1, h.2, ?_, by decide +kernel, by decide +kernel, by decide +kernel, by decide +kernel,
      by decide +kernel, by decide +kernel⟩
    unfold dailyView
    rw [if_neg (by decide +kernel)]

/-- The same system before it is sized. -/
example : mpSizingCurve Demo.noFiles { Demo.mpSized with base := { cfg := Demo.cfg } } none 1 Demo.building 2 (1 / 2) =
    (Demo.building, .error .typeError) :=
  C96_unsized_raises _ _ _ _ _ _ _ 50 (9 / 100) (by decide +kernel) (by norm_num) rfl rfl (by decide +kernel)
    (by decide +kernel) (by norm_num) (by decide +kernel)

end Eco
