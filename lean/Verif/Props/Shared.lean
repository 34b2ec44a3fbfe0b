import Verif.Spec.Shared
import Verif.Props.RobustShift
import Verif.Props.Building
set_option linter.unusedSectionVars false

/-! C146: one plant for several buildings is no larger than separate plants together. -/

namespace Eco
open Spec
variable {K : Type} [Field K] [LinearOrder K] [IsStrictOrderedRing K]

theorem sized_core {M : SizingMethods K} {db : ShapeFiles K} {s : DhwSys K} {sched : Option (List String)}
    {cmap : Option (ControlMap K)} {slope fract : K} {b : Building K} {r : K × K} (hb : FullDay b)
    (h : SizedAs M db s sched cmap slope fract b r) :
    sizeCore M (cappedCfg s.cfg (lsInputs sched cmap)) b (lsInputs sched cmap) cmap slope fract = .ok r := by
  obtain ⟨s1, b1, w, h, e1, e2⟩ := h
  rcases size_cases M db s b sched cmap slope fract with
    ⟨e', _, he⟩ | ⟨b', hb', ⟨e', _, he⟩ | ⟨cap, st, hcore, ⟨e', hw, he⟩ | ⟨ws', b3, hw, he, -, -⟩⟩⟩
  · rw [he] at h; simp at h
  · rw [he] at h; simp at h
  · rw [he] at h; simp at h
  · rw [he] at h
    simp only [Prod.mk.injEq, Except.ok.injEq] at h
    obtain ⟨⟨rfl, rfl⟩, rfl⟩ := h
    have d1 : dailyView db b = .ok b := by unfold dailyView; rw [if_neg (by simp [notAnnual hb])]
    obtain rfl : b = b' := Except.ok.inj (d1.symm.trans hb')
    simp only [Option.some.injEq] at e1 e2
    rw [hcore, e1, e2]

/-- The shortfall of several buildings together is the sum of their shortfalls. -/
theorem shortfall_sum {bs : List (Building K)} {vs : List K} {r : K}
    (h : List.Forall₂ (fun p v => ∀ s n, shortfall (use p.dailyGal p.peakShape) (fun _ => p.dailyGal / r) s n ≤ v) bs vs) (s n : ℕ) :
    shortfall (fun h => (bs.map (fun p => use p.dailyGal p.peakShape h)).sum) (fun _ => (bs.map (·.dailyGal)).sum / r) s n ≤ vs.sum := by
  induction h with
  | nil => simp [shortfall]
  | @cons p v bs vs h1 _ ih =>
    have h1 := h1 s n
    simp only [shortfall, List.map_cons, List.sum_cons, Finset.sum_sub_distrib, Finset.sum_add_distrib, add_div] at h1 ih ⊢
    linarith

/-- The running volume of several buildings together is at most the sum of theirs. -/
theorem running_shared {b : Building K} {bs : List (Building K)} {v r : K} {vs : List K} (hB : Houses b bs) (h0 : 0 < r) (h24 : r ≤ 24)
    (hb : FullDay b) (hbs : ∀ p ∈ bs, FullDay p) (hv : runningVolume b.dailyGal r b.peakShape = .ok v)
    (hvs : List.Forall₂ (fun p v => runningVolume p.dailyGal r p.peakShape = .ok v) bs vs) :
    v ≤ vs.sum ∧ 0 ≤ v ∧ ∀ x ∈ vs, 0 ≤ x := by
  have great : ∀ {c : Building K} {v : K}, FullDay c → runningVolume c.dailyGal r c.peakShape = .ok v →
      IsGreatest (shortfalls c.dailyGal (c.dailyGal / r) c.peakShape) v := by
    intro c v hc hv
    obtain ⟨v', e, hg⟩ := C01_running_volume_isGreatest c.dailyGal r c.peakShape
      (by intro e; simpa [e] using hc.hours) h0.ne' (cover_of_normalised hc.gal hc.hours hc.sum h0 h24)
    obtain rfl : v = v' := Except.ok.inj (hv.symm.trans e)
    exact hg
  have nonneg : ∀ {c : Building K} {v : K}, IsGreatest (shortfalls c.dailyGal (c.dailyGal / r) c.peakShape) v → 0 ≤ v :=
    fun hg => hg.2 ⟨0, 0, by simp [Spec.shortfall]⟩
  have hg := great hb hv
  have hgs : List.Forall₂ (fun p v => IsGreatest (shortfalls p.dailyGal (p.dailyGal / r) p.peakShape) v) bs vs := by
    clear hB
    induction hvs with
    | nil => exact .nil
    | cons h1 _ ih =>
      exact .cons (great (hbs _ (by simp)) h1) (ih (fun p hp => hbs p (by simp [hp])))
  refine ⟨?_, nonneg hg, ?_⟩
  · obtain ⟨s, n, rfl⟩ := hg.1
    have := shortfall_sum (r := r) (hgs.imp (fun p v h s n => h.2 ⟨s, n, rfl⟩)) s n
    rwa [← funext hB.peak, ← hB.daily] at this
  · clear hvs hB hbs
    intro x hx
    induction hgs with
    | nil => simp at hx
    | cons h1 _ ih =>
      rcases List.mem_cons.1 hx with rfl | hx
      · exact nonneg h1
      · exact ih hx

theorem inlet_of_climate {b p : Building K} (h : p.climate = b.climate) : requireDesignInlet p = requireDesignInlet b := by
  unfold requireDesignInlet Building.getDesignInlet
  rw [h]

theorem sum_le_of_forall₂ {f : Building K → K} {bs : List (Building K)} {xs : List K}
    (h : List.Forall₂ (fun p x => f p ≤ x) bs xs) : (bs.map f).sum ≤ xs.sum := by
  induction h with
  | nil => simp
  | cons h1 _ ih => simp only [List.map_cons, List.sum_cons]; linarith

theorem sum_eq_of_forall₂ {f : Building K → K} {bs : List (Building K)} {xs : List K}
    (h : List.Forall₂ (fun p x => f p = x) bs xs) : (bs.map f).sum = xs.sum := by
  induction h with
  | nil => simp
  | cons h1 _ ih => simp only [List.map_cons, List.sum_cons]; linarith

theorem sum_map_mul (bs : List (Building K)) (k : K) : (bs.map (fun p => p.dailyGal * k)).sum = (bs.map (·.dailyGal)).sum * k := by
  induction bs with
  | nil => simp
  | cons p bs ih => simp only [List.map_cons, List.sum_cons, ih]; ring

theorem forall₂_mem {α β : Type} {R : α → β → Prop} {l : List α} {l' : List β} (h : List.Forall₂ R l l') {S : α → β → Prop}
    (hs : ∀ a ∈ l, ∀ b, R a b → S a b) : List.Forall₂ S l l' := by
  induction h with
  | nil => exact .nil
  | cons h1 _ ih => exact .cons (hs _ (by simp) _ h1) (ih (fun a ha b => hs a (by simp [ha]) b))

/-- Methods whose capacity is proportional to the daily use, apart from a share `r` for the loop. -/
structure ReadsUse (M : SizingMethods K) (r : SysCfg K → K) : Prop where
  cap : ∀ c cl, ∃ k, ∀ (b : Building K) x, b.climate = cl → M.reqCapacity c b = .ok x → x = b.dailyGal * k + r c
  vol : ∀ (c : SysCfg K) (b : Building K) x v, M.runVol c b x = .ok v → runningVolume b.dailyGal c.maxRunHr b.peakShape = .ok v

theorem requiredCapacity_use (c : SysCfg K) (cl : Option (ClimateZone K)) :
    ∃ k, ∀ (b : Building K) x, b.climate = cl → requiredCapacity c b = .ok x → x = b.dailyGal * k := by
  by_cases h : ∃ b : Building K, b.climate = cl
  · obtain ⟨b0, rfl⟩ := h
    cases hi : requireDesignInlet b0 with
    | error e =>
      refine ⟨0, fun b x hb h => ?_⟩
      simp [requiredCapacity, inlet_of_climate hb, hi, error_bind] at h
    | ok i =>
      refine ⟨rhoCp K * (c.supply - i) / c.maxRunHr / c.defrost / 1000, fun b x hb h => ?_⟩
      simp only [requiredCapacity, inlet_of_climate hb, hi, ok_bind, capacityOfGenRate, bind_eq_ok, fdiv_eq_ok, Except.ok.injEq] at h
      obtain ⟨_, ⟨-, rfl⟩, _, ⟨-, rfl⟩, rfl⟩ := h
      ring
  · exact ⟨0, fun b _ hb => absurd ⟨b, hb⟩ h⟩

theorem base_readsUse : ReadsUse (baseMethods (K := K)) (fun _ => 0) where
  cap c cl := by
    obtain ⟨k, hk⟩ := requiredCapacity_use c cl
    exact ⟨k, fun b x hb h => by rw [add_zero]; exact hk b x hb h⟩
  vol _ _ _ _ h := h

theorem sp_readsUse (l : RtpLoop K) : ReadsUse (spMethods l) (fun c => rtpLossKbtuh c l * 24 / c.maxRunHr / c.defrost) where
  cap c cl := by
    obtain ⟨k, hk⟩ := requiredCapacity_use c cl
    refine ⟨k, fun b x hb h => ?_⟩
    simp only [spMethods, rtpRequiredCapacity, rtpRecircCap, bind_eq_ok, pure_eq_ok, Except.ok.injEq, fdiv_eq_ok] at h
    obtain ⟨y, hy, _, ⟨_, ⟨-, rfl⟩, -, rfl⟩, rfl⟩ := h
    rw [hk b y hb hy]
  vol := (sp_readsShape l).vol

theorem size_shared {M : SizingMethods K} {r : SysCfg K → K} (hM : ReadsUse M r) {b : Building K} {bs : List (Building K)}
    (hB : Houses b bs) (hb : FullDay b) (hbs : ∀ p ∈ bs, FullDay p) {db : ShapeFiles K} {s : DhwSys K} (h0 : 0 < s.cfg.maxRunHr)
    (h24 : s.cfg.maxRunHr ≤ 24) {sched : Option (List String)} {cmap : Option (ControlMap K)} (hs : ¬ AsksShift sched cmap)
    {slope fract : K} {x : K × K} {xs : List (K × K)} (h : SizedAs M db s sched cmap slope fract b x)
    (h' : List.Forall₂ (SizedAs M db s sched cmap slope fract) bs xs) (hpos : ∀ y ∈ xs, 0 ≤ y.2) :
    x.1 - r s.cfg = (xs.map (fun y => y.1 - r s.cfg)).sum ∧ x.2 ≤ (xs.map (·.2)).sum := by
  obtain ⟨k, hk⟩ := hM.cap s.cfg b.climate
  have core : ∀ {p : Building K} {y : K × K}, FullDay p → p.climate = b.climate → SizedAs M db s sched cmap slope fract p y →
      ∃ i f, requireDesignInlet b = .ok i ∧ stratFactor s.cfg cmap slope i = .ok f ∧ f ≠ 0 ∧ y.1 = p.dailyGal * k + r s.cfg ∧
        runningVolume p.dailyGal s.cfg.maxRunHr p.peakShape = .ok (y.2 * f) := by
    intro p y hp hc h
    have h := sized_core hp h
    rw [lsInputs_none hs] at h
    obtain ⟨y1, y2⟩ := y
    simp only [sizeCore, cappedCfg, bind_eq_ok, pure_eq_ok, Except.ok.injEq, Prod.mk.injEq, storageVolume, fdiv_eq_ok] at h
    obtain ⟨i, hi, q, hq, v, hv, f, hf, _, ⟨hn, rfl⟩, rfl, rfl⟩ := h
    rw [inlet_of_climate hc] at hi
    refine ⟨i, f, hi, hf, hn, hk _ _ hc hq, ?_⟩
    rw [div_mul_cancel₀ _ hn]
    exact hM.vol _ _ _ _ hv
  obtain ⟨i, f, hi, hf, hn, hc, hv⟩ := core hb rfl h
  have parts : List.Forall₂ (fun p (y : K × K) => p.dailyGal * k = y.1 - r s.cfg ∧
      runningVolume p.dailyGal s.cfg.maxRunHr p.peakShape = .ok (y.2 * f)) bs xs := by
    refine forall₂_mem h' (fun p hp y hy => ?_)
    obtain ⟨i', f', hi', hf', -, hc', hv'⟩ := core (hbs p hp) (hB.place p hp) hy
    obtain rfl : i = i' := Except.ok.inj (hi.symm.trans hi')
    obtain rfl : f = f' := Except.ok.inj (hf.symm.trans hf')
    exact ⟨by rw [hc']; ring, hv'⟩
  constructor
  · have := sum_eq_of_forall₂ (List.forall₂_map_right_iff.2 (parts.imp (fun p y h => h.1)))
    rw [← this, sum_map_mul, ← hB.daily, hc]
    ring
  · obtain ⟨l1, l2, -⟩ := running_shared hB h0 h24 hb hbs hv (List.forall₂_map_right_iff.2 (parts.imp (fun p y h => h.2)))
    have e : (xs.map (fun y => y.2 * f)).sum = (xs.map (·.2)).sum * f := List.sum_map_mul_right _ _ _
    rw [e] at l1
    rcases lt_or_gt_of_ne hn with hf | hf
    · have : x.2 ≤ 0 := by
        by_contra hx
        push Not at hx
        linarith [mul_neg_of_pos_of_neg hx hf]
      refine this.trans (List.sum_nonneg ?_)
      intro z hz
      obtain ⟨y, hy, rfl⟩ := List.mem_map.1 hz
      exact hpos y hy
    · exact le_of_mul_le_mul_right l1 hf

/-- The capacities of the parts, of which each has its share for a loop. -/
theorem sum_less (r : K) (hr : 0 ≤ r) {xs : List (K × K)} (hne : xs ≠ []) :
    r + (xs.map (fun y => y.1 - r)).sum ≤ (xs.map (·.1)).sum := by
  induction xs with
  | nil => exact absurd rfl hne
  | cons y xs ih =>
    simp only [List.map_cons, List.sum_cons]
    by_cases h : xs = []
    · subst h; simp
    · linarith [ih h]

section
variable {b : Building K} {bs : List (Building K)}

/-- **C146, primary systems.** Without load shifting, a system for several buildings has as much heating capacity as the systems of
the buildings together, and no more storage. -/
theorem C146_primary (hB : Houses b bs) (hb : FullDay b) (hbs : ∀ p ∈ bs, FullDay p) {db : ShapeFiles K} {s : DhwSys K}
    (h0 : 0 < s.cfg.maxRunHr) (h24 : s.cfg.maxRunHr ≤ 24) {sched : Option (List String)} {cmap : Option (ControlMap K)}
    (hs : ¬ AsksShift sched cmap) {slope fract : K} {x : K × K} {xs : List (K × K)}
    (h : SizedAs baseMethods db s sched cmap slope fract b x)
    (h' : List.Forall₂ (SizedAs baseMethods db s sched cmap slope fract) bs xs) (hpos : ∀ y ∈ xs, 0 ≤ y.2) :
    x.1 = (xs.map (·.1)).sum ∧ x.2 ≤ (xs.map (·.2)).sum := by
  simpa using size_shared base_readsUse hB hb hbs h0 h24 hs h h' hpos

/-- **C146, single-pass return to primary.** With one loop instead of one for each building, a system for several buildings has no
more heating capacity and no more storage than the systems of the buildings together. -/
theorem C146_single_pass (hB : Houses b bs) (hb : FullDay b) (hbs : ∀ p ∈ bs, FullDay p) (hne : bs ≠ []) {db : ShapeFiles K}
    {s : DhwSys K} {l : RtpLoop K} (hl : 0 ≤ rtpLossKbtuh s.cfg l) (hd : 0 ≤ s.cfg.defrost)
    (h0 : 0 < s.cfg.maxRunHr) (h24 : s.cfg.maxRunHr ≤ 24) {sched : Option (List String)} {cmap : Option (ControlMap K)}
    (hs : ¬ AsksShift sched cmap) {slope fract : K} {x : K × K} {xs : List (K × K)}
    (h : SizedAs (spMethods l) db s sched cmap slope fract b x)
    (h' : List.Forall₂ (SizedAs (spMethods l) db s sched cmap slope fract) bs xs) (hpos : ∀ y ∈ xs, 0 ≤ y.2) :
    x.1 ≤ (xs.map (·.1)).sum ∧ x.2 ≤ (xs.map (·.2)).sum := by
  obtain ⟨k1, k2⟩ := size_shared (sp_readsUse l) hB hb hbs h0 h24 hs h h' hpos
  refine ⟨?_, k2⟩
  have hx : xs ≠ [] := by
    rintro rfl
    cases h'
    exact hne rfl
  have := sum_less (rtpLossKbtuh s.cfg l * 24 / s.cfg.maxRunHr / s.cfg.defrost) (by positivity) hx
  linarith

/-! ### Load shifting -/

theorem sumHours_use {a : List K} {daily v : K} {hours : List ℕ} (h : sumHours a daily hours = .ok v) :
    v = (hours.map (use daily a)).sum := by
  simp only [sumHours, bind_eq_ok, pure_eq_ok, Except.ok.injEq, mapM_eq_ok] at h
  obtain ⟨vs, h, rfl⟩ := h
  congr 1
  induction h with
  | nil => rfl
  | @cons i x hs vs h1 _ ih =>
    rw [pyGet_eq_ok] at h1
    have hi : i < a.length := (List.getElem?_eq_some_iff.1 h1).1
    rw [List.map_cons, List.map_cons, ih, use, Nat.mod_eq_of_lt hi, List.getD, h1, Option.getD_some, mul_comm]

/-- The part of the generation rate that load shifting adds, as a sum over hours of use. -/
def shiftRate (block hours : List ℕ) (lu : ℕ) (fract q : K) (u : ℕ → K) : K :=
  ((block.map u).sum * fract * q + (hours.map u).sum) / (lu : K)

theorem shiftRate_sum (block hours : List ℕ) (lu : ℕ) (fract q : K) (bs : List (Building K)) :
    shiftRate block hours lu fract q (fun h => (bs.map (fun p => use p.dailyGal p.avgShape h)).sum) =
      (bs.map (fun p => shiftRate block hours lu fract q (use p.dailyGal p.avgShape))).sum := by
  induction bs with
  | nil => simp [shiftRate]
  | cons p bs ih =>
    rw [List.map_cons, List.sum_cons, ← ih]
    simp only [List.map_cons, List.sum_cons, shiftRate, List.sum_map_add]
    ring

/-- The generation rate is that of the normal sizing, or the greater of that and a sum over hours of use. -/
theorem gen_form (c : SysCfg K) (sched : List String) (m : ControlMap K) (slope fract : K) :
    (∀ b g, genRateLs c sched m b slope fract = .ok g → g = b.dailyGal / c.maxRunHr) ∨
    ∃ block hours lu q, ∀ b g, genRateLs c sched m b slope fract = .ok g →
      g = max (b.dailyGal / c.maxRunHr) (shiftRate block hours lu fract q (use b.dailyGal b.avgShape)) := by
  by_cases hall : ∃ b g, genRateLs c sched m b slope fract = .ok g
  swap
  · exact .inl (fun b g h => absurd ⟨b, g, h⟩ hall)
  obtain ⟨b0, g0, h⟩ := hall
  simp only [genRateLs, bind_eq_ok] at h
  obtain ⟨n0, -, ⟨block, lu⟩, hf, h⟩ := h
  by_cases hlu : lu = 0
  · left
    intro b g h
    simp only [genRateLs, hf, ok_bind, hlu, if_true, bind_eq_ok, pure_eq_ok, Except.ok.injEq, fdiv_eq_ok] at h
    obtain ⟨_, ⟨-, rfl⟩, rfl⟩ := h
    rfl
  simp only [if_neg hlu, bind_eq_ok] at h
  obtain ⟨⟨x0, y0⟩, -, ⟨nC, luC, sC⟩, h1, nP, e1, luP, e2, sP, e3, -⟩ := h
  simp only at e1 e2 e3
  by_cases h3 : luP - sP ≤ 0
  · left
    intro b g h
    simp only [genRateLs, hf, ok_bind, if_neg hlu, h1, e1, e2, e3, if_pos h3, bind_eq_ok, pure_eq_ok, Except.ok.injEq,
      fdiv_eq_ok] at h
    obtain ⟨_, ⟨-, rfl⟩, _, _, rfl⟩ := h
    rfl
  right
  refine ⟨block, List.range' (block.headD 0 - lu) lu, lu, (luP - nP) / (luP - sP), ?_⟩
  intro b g h
  simp only [genRateLs, hf, ok_bind, if_neg hlu, h1, e1, e2, e3, if_neg h3, bind_eq_ok, pure_eq_ok, Except.ok.injEq,
    fdiv_eq_ok] at h
  obtain ⟨_, ⟨-, rfl⟩, ⟨x, y⟩, hx, rfl⟩ := h
  simp only [prelimVols, hf, ok_bind, bind_eq_ok] at hx
  obtain ⟨v, hv, hx⟩ := hx
  cases block with
  | nil => simp at hx
  | cons a rest =>
    simp only [bind_eq_ok, pure_eq_ok, Except.ok.injEq, Prod.mk.injEq] at hx
    obtain ⟨w, hw, rfl, rfl⟩ := hx
    rw [sumHours_use hv, sumHours_use hw]
    simp only [shiftRate, List.headD_cons, mul_div_assoc]

/-- The generation rate of several buildings together is at most the sum of theirs. -/
theorem gen_shared {c : SysCfg K} {sched : List String} {m : ControlMap K} {slope fract g : K} {gs : List K} (hB : Houses b bs)
    (h : genRateLs c sched m b slope fract = .ok g)
    (h' : List.Forall₂ (fun p g => genRateLs c sched m p slope fract = .ok g) bs gs) : g ≤ gs.sum := by
  have hn : (bs.map (fun p => p.dailyGal / c.maxRunHr)).sum = b.dailyGal / c.maxRunHr := by
    simp only [div_eq_mul_inv, sum_map_mul, hB.daily]
  rcases gen_form c sched m slope fract with hg | ⟨block, hours, lu, q, hg⟩
  · rw [hg _ _ h, ← hn]
    exact sum_le_of_forall₂ (h'.imp (fun p g h => (hg _ _ h).ge))
  · rw [hg _ _ h]
    refine max_le ?_ ?_
    · rw [← hn]
      exact sum_le_of_forall₂ (h'.imp (fun p g h => by rw [hg _ _ h]; exact le_max_left _ _))
    · rw [funext hB.avg, shiftRate_sum]
      exact sum_le_of_forall₂ (h'.imp (fun p g h => by rw [hg _ _ h]; exact le_max_right _ _))

/-- **C146, primary systems with load shifting.** A system for several buildings needs no more heating capacity than the systems of
the buildings together. -/
theorem C146_load_shift_capacity (hB : Houses b bs) (hb : FullDay b) (hbs : ∀ p ∈ bs, FullDay p) {db : ShapeFiles K} {s : DhwSys K}
    (hcold : ∀ t, b.getDesignInlet = .ok (some t) → t ≤ s.cfg.supply) (hd : 0 ≤ s.cfg.defrost)
    {sched : Option (List String)} {cmap : Option (ControlMap K)} {slope fract : K} {x : K × K} {xs : List (K × K)}
    (h : SizedAs baseMethods db s sched cmap slope fract b x)
    (h' : List.Forall₂ (SizedAs baseMethods db s sched cmap slope fract) bs xs) : x.1 ≤ (xs.map (·.1)).sum := by
  replace h := sized_core hb h
  replace h' := forall₂_mem h' (fun p hp y hy => sized_core (hbs p hp) hy)
  obtain ⟨k, hk⟩ := requiredCapacity_use (cappedCfg s.cfg (lsInputs sched cmap)) b.climate
  have hc1 : (cappedCfg s.cfg (lsInputs sched cmap)).supply = s.cfg.supply := by unfold cappedCfg; split <;> rfl
  have hc2 : (cappedCfg s.cfg (lsInputs sched cmap)).defrost = s.cfg.defrost := by unfold cappedCfg; split <;> rfl
  rw [← hc1] at hcold
  rw [← hc2] at hd
  generalize cappedCfg s.cfg (lsInputs sched cmap) = c at h h' hk hcold hd
  have normal : ∀ {q : K} {qs : List K}, requiredCapacity c b = .ok q →
      List.Forall₂ (fun p q => requiredCapacity c p = .ok q) bs qs → q = qs.sum := by
    intro q qs hq hqs
    rw [hk _ _ rfl hq, hB.daily, ← sum_map_mul]
    exact sum_eq_of_forall₂ (forall₂_mem hqs (fun p hp q hq => (hk _ _ (hB.place p hp) hq).symm))
  obtain ⟨x1, x2⟩ := x
  cases hl : lsInputs sched cmap with
  | none =>
    rw [hl] at h h'
    have val : ∀ {p : Building K} {y : K × K}, sizeCore baseMethods c p none cmap slope fract = .ok y →
        requiredCapacity c p = .ok y.1 := by
      intro p y h
      obtain ⟨y1, y2⟩ := y
      simp only [sizeCore, bind_eq_ok, pure_eq_ok, Except.ok.injEq, Prod.mk.injEq] at h
      obtain ⟨i, _, q, hq, _, _, _, _, _, _, rfl, rfl⟩ := h
      exact hq
    exact (normal (val h) (List.forall₂_map_right_iff.2 (h'.imp (fun p y h => val h)))).le
  | some r =>
    obtain ⟨sc, m⟩ := r
    rw [hl] at h h'
    have val : ∀ {p : Building K} {y : K × K}, sizeCore baseMethods c p (some (sc, m)) cmap slope fract = .ok y →
        ∃ q g t i, requireDesignInlet p = .ok i ∧ requiredCapacity c p = .ok q ∧ genRateLs c sc m p slope fract = .ok g ∧
          t = g * rhoCp K * (c.supply - i) / c.defrost / 1000 ∧ y.1 = max q t := by
      intro p y h
      obtain ⟨y1, y2⟩ := y
      simp only [sizeCore, bind_eq_ok, pure_eq_ok, Except.ok.injEq, Prod.mk.injEq] at h
      obtain ⟨i, hi, q, hq, _, _, _, _, _, _, t, ht, g, hg, _, _, _, _, rfl, rfl⟩ := h
      have hg : genRateLs c sc m p slope fract = .ok g := hg
      have ht : requiredCapacityLs genRateLs c sc m p slope fract = .ok t := ht
      simp only [requiredCapacityLs, hi, hg, ok_bind, capacityOfGenRate, bind_eq_ok, fdiv_eq_ok, Except.ok.injEq] at ht
      obtain ⟨_, ⟨-, rfl⟩, rfl⟩ := ht
      exact ⟨q, g, _, i, hi, hq, hg, rfl, rfl⟩
    obtain ⟨q, g, t, i, hi, hq, hg, rfl, hx⟩ := val h
    have hi0 : i ≤ c.supply := by
      apply hcold
      unfold requireDesignInlet at hi
      rw [bind_eq_ok] at hi
      obtain ⟨o, ho, hi⟩ := hi
      cases o with
      | none => simp at hi
      | some t =>
        simp only [pure_eq_ok, Except.ok.injEq] at hi
        rw [ho, hi]
    have hsub : 0 ≤ c.supply - i := by linarith
    have hrho := (rhoCp_pos (K := K)).le
    simp only at hx
    rw [hx]
    -- the results of the parts, one list for each quantity
    have lists : ∃ qs gs, List.Forall₂ (fun p q => requiredCapacity c p = .ok q) bs qs ∧
        List.Forall₂ (fun p g => genRateLs c sc m p slope fract = .ok g) bs gs ∧ qs.sum ≤ (xs.map (·.1)).sum ∧
        gs.sum * rhoCp K * (c.supply - i) / c.defrost / 1000 ≤ (xs.map (·.1)).sum := by
      have hpl : ∀ p ∈ bs, requireDesignInlet p = .ok i := fun p hp => (inlet_of_climate (hB.place p hp)).trans hi
      clear h hB hbs normal
      induction h' with
      | nil => exact ⟨[], [], .nil, .nil, by simp, by simp⟩
      | @cons p y bs xs h1 _ ih =>
        obtain ⟨qs, gs, k1, k2, k3, k4⟩ := ih (fun p hp => hpl p (by simp [hp]))
        obtain ⟨q', g', _, i', hi', hq', hg', rfl, hy⟩ := val h1
        obtain rfl : i = i' := Except.ok.inj ((hpl p (by simp)).symm.trans hi')
        refine ⟨q' :: qs, g' :: gs, .cons hq' k1, .cons hg' k2, ?_, ?_⟩
        · simp only [List.sum_cons, List.map_cons, hy]
          linarith [le_max_left q' (g' * rhoCp K * (c.supply - i) / c.defrost / 1000)]
        · simp only [List.sum_cons, List.map_cons, hy]
          have := le_max_right q' (g' * rhoCp K * (c.supply - i) / c.defrost / 1000)
          calc _ = g' * rhoCp K * (c.supply - i) / c.defrost / 1000 + gs.sum * rhoCp K * (c.supply - i) / c.defrost / 1000 := by ring
            _ ≤ _ := by linarith
    obtain ⟨qs, gs, k1, k2, k3, k4⟩ := lists
    refine max_le ((normal hq k1).le.trans k3) (le_trans ?_ k4)
    have hg' := gen_shared hB hg k2
    have : g * (rhoCp K * (c.supply - i)) ≤ gs.sum * (rhoCp K * (c.supply - i)) :=
      mul_le_mul_of_nonneg_right hg' (mul_nonneg hrho hsub)
    apply div_le_div_of_nonneg_right _ (by norm_num)
    apply div_le_div_of_nonneg_right _ hd
    linarith

/-- **C146, tankless systems.** One heater for several buildings needs no more capacity than the heaters of the buildings together. -/
theorem C146_tankless (hB : Houses b bs) (hbs : ∀ p ∈ bs, FullDay p) {s : Instant K}
    (hcold : ∀ t, b.getDesignInlet = .ok (some t) → t ≤ s.supply) (hd : 0 ≤ s.defrost) {x : K} {xs : List K}
    (h : s.size b = .ok x) (h' : List.Forall₂ (fun p x => s.size p = .ok x) bs xs) : x ≤ xs.sum := by
  have val : ∀ {c : Building K} {cap : K}, s.size c = .ok cap → ∃ inlet m, requireDesignInlet c = .ok inlet ∧
      IsGreatest {f | f ∈ c.peakShape} m ∧ cap = c.dailyGal * m * (60 * rhoCp K * (s.supply - inlet) / s.defrost / 1000) := by
    intro c cap h
    simp only [Instant.size, bind_eq_ok] at h
    obtain ⟨inlet, hi, h⟩ := h
    cases hm : c.peakShape.max? with
    | none => rw [hm] at h; simp at h
    | some m =>
      rw [hm] at h
      simp only [bind_eq_ok, pure_eq_ok, Except.ok.injEq, fdiv_eq_ok] at h
      obtain ⟨x, ⟨hx, rfl⟩, rfl⟩ := h
      rw [List.max?_eq_some_iff] at hm
      exact ⟨inlet, m, hi, ⟨hm.1, fun y hy => hm.2 y hy⟩, by ring⟩
  obtain ⟨i, m, hi, hm, rfl⟩ := val h
  have hi0 : i ≤ s.supply := by
    apply hcold
    unfold requireDesignInlet at hi
    rw [bind_eq_ok] at hi
    obtain ⟨o, ho, hi⟩ := hi
    cases o with
    | none => simp at hi
    | some t =>
      simp only [pure_eq_ok, Except.ok.injEq] at hi
      rw [ho, hi]
  have hk : 0 ≤ 60 * rhoCp K * (s.supply - i) / s.defrost / 1000 := by
    have := (rhoCp_pos (K := K)).le
    have : 0 ≤ s.supply - i := by linarith
    positivity
  obtain ⟨t, ht, e⟩ := List.getElem_of_mem hm.1
  have hu : b.dailyGal * m = (bs.map (fun p => use p.dailyGal p.peakShape t)).sum := by
    rw [← hB.peak t, use, Nat.mod_eq_of_lt ht, List.getD, List.getElem?_eq_getElem ht, e, Option.getD_some]
  rw [hu, ← List.sum_map_mul_right]
  refine sum_le_of_forall₂ (forall₂_mem h' (fun p hp x hx => ?_))
  obtain ⟨i', m', hi', hm', rfl⟩ := val hx
  obtain rfl : i = i' := Except.ok.inj (hi.symm.trans ((inlet_of_climate (hB.place p hp)).symm.trans hi'))
  apply mul_le_mul_of_nonneg_right _ hk
  refine mul_le_mul_of_nonneg_left ?_ (hbs p hp).gal
  have hlt : t % p.peakShape.length < p.peakShape.length := Nat.mod_lt _ (by rw [(hbs p hp).hours]; norm_num)
  rw [List.getD, List.getElem?_eq_getElem hlt, Option.getD_some]
  exact hm'.2 (List.getElem_mem hlt)

end

/-! ### Mixed-use buildings -/

theorem load_use {b : Building K} {h : ℕ} {useAvg : Bool} {v : K} (hv : b.getDhwLoad h 60 useAvg = .ok v) :
    v = use b.dailyGal (b.shape useAvg) h := by
  have key : ∀ shape : List K, (if shape.length = 0 then .error .zeroDivision else do
      let f ← pyGet shape (h * 60 / 60 % shape.length)
      return b.dailyGal * f * (60 : ℕ) / 60) = Except.ok v → v = use b.dailyGal shape h := by
    intro shape hv
    split at hv
    · simp at hv
    simp only [bind_eq_ok, pure_eq_ok, Except.ok.injEq, pyGet_eq_ok, Nat.mul_div_cancel _ (show 0 < 60 by norm_num)] at hv
    obtain ⟨f, hf, rfl⟩ := hv
    rw [use, List.getD, hf, Option.getD_some]
    push_cast
    rw [mul_div_assoc, div_self (by norm_num), mul_one]
  cases useAvg
  · exact key b.peakShape hv
  · exact key b.avgShape hv

theorem forall₂_right {α β : Type} {R : α → β → Prop} {l : List α} {l' : List β} (h : List.Forall₂ R l l') {b : β} (hb : b ∈ l') :
    ∃ a, R a b := by
  induction h with
  | nil => simp at hb
  | cons h1 _ ih =>
    rcases List.mem_cons.1 hb with rfl | hb
    · exact ⟨_, h1⟩
    · exact ih hb

/-- **C146, mixed-use buildings.** A mixed-use building stands for the buildings that its parts would be on their own. -/
theorem C146_mixed_use (db : ShapeFiles K) (parts : List (Building.Part K)) (climate : Option (ClimateZone K))
    (o : Building.GpdOpts K) (dO dI : Option K) (b : Building K) (h : Building.fromMultiUse db parts climate o dO dI = .ok b)
    (hp : b.peakShape ≠ []) (ha : b.avgShape ≠ []) :
    ∃ bs, parts.mapM (fun p => Building.fromBuildingType db p climate o false dO dI) = .ok bs ∧ Houses b bs := by
  obtain ⟨bs, h1, h2, h3⟩ := C31_sum_of_parts db parts climate o dO dI b h
  have hour : ∀ useAvg, b.shape useAvg ≠ [] → ∀ t, use b.dailyGal (b.shape useAvg) t =
      (bs.map (fun p => use p.dailyGal (p.shape useAvg) t)).sum := by
    intro useAvg hne t
    obtain ⟨v, vs, e1, e2, e3⟩ := h3 t 60 useAvg hne
    rw [← load_use e1, e3]
    rw [mapM_eq_ok] at e2
    exact (sum_eq_of_forall₂ (e2.imp (fun p v hv => (load_use hv).symm))).symm
  refine ⟨bs, h1, ?_, h2, hour false hp, hour true ha⟩
  -- the place
  have hb : ∀ d1 p1 a1 t1 d2 p2 a2 t2, (Building.mk' climate d1 p1 a1 t1 dO dI : Building K).climate =
      (Building.mk' climate d2 p2 a2 t2 dO dI : Building K).climate := fun _ _ _ _ _ _ _ _ => rfl
  unfold Building.fromMultiUse at h
  simp only [bind_eq_ok] at h
  obtain ⟨subs, -, h⟩ := h
  split at h
  · simp at h
  simp only [bind_eq_ok, pure_eq_ok, Except.ok.injEq] at h
  obtain ⟨peak, -, avg, -, rfl⟩ := h
  rw [mapM_eq_ok] at h1
  intro p hp
  obtain ⟨q, hq⟩ := forall₂_right h1 hp
  simp only [Building.fromBuildingType, bind_eq_ok] at hq
  obtain ⟨⟨d, pk, av⟩, -, hq⟩ := hq
  simp only [Bool.false_eq_true, if_false, pure_eq_ok, Except.ok.injEq] at hq
  subst hq
  exact hb _ _ _ _ _ _ _ _

/-! ### Examples and refutations -/

theorem houses_two {b p q : Building ℚ} (h1 : p.climate = b.climate) (h2 : q.climate = b.climate)
    (h3 : b.dailyGal = p.dailyGal + q.dailyGal)
    (l : ∀ c ∈ [b, p, q], c.peakShape.length = 24 ∧ c.avgShape.length = 24)
    (h4 : ∀ h < 24, use b.dailyGal b.peakShape h = use p.dailyGal p.peakShape h + use q.dailyGal q.peakShape h)
    (h5 : ∀ h < 24, use b.dailyGal b.avgShape h = use p.dailyGal p.avgShape h + use q.dailyGal q.avgShape h) :
    Houses b [p, q] := by
  have per : ∀ {d : ℚ} {s : List ℚ}, s.length = 24 → ∀ h, use d s h = use d s (h % 24) := by
    intro d s hs h
    simp only [use, hs, Nat.mod_mod]
  have lb := l b (by simp)
  have lp := l p (by simp)
  have lq := l q (by simp)
  refine ⟨?_, by simp [h3], fun h => ?_, fun h => ?_⟩
  · intro c hc
    rcases List.mem_cons.1 hc with rfl | hc
    · exact h1
    · rw [List.mem_singleton] at hc
      rw [hc, h2]
  · simp only [List.map_cons, List.map_nil, List.sum_cons, List.sum_nil, add_zero]
    rw [per lb.1, per lp.1, per lq.1]
    exact h4 _ (Nat.mod_lt _ (by norm_num))
  · simp only [List.map_cons, List.map_nil, List.sum_cons, List.sum_nil, add_zero]
    rw [per lb.2, per lp.2, per lq.2]
    exact h5 _ (Nat.mod_lt _ (by norm_num))

theorem sizedAs_of {M : SizingMethods ℚ} {db : ShapeFiles ℚ} {s : DhwSys ℚ} {sched : Option (List String)}
    {cmap : Option (ControlMap ℚ)} {slope fract : ℚ} {b : Building ℚ} {x : ℚ × ℚ}
    (h : (size M db s b sched cmap slope fract).2.isOk = true) (h1 : (size M db s b sched cmap slope fract).1.1.minCap = some x.1)
    (h2 : (size M db s b sched cmap slope fract).1.1.minStorage = some x.2) : SizedAs M db s sched cmap slope fract b x := by
  obtain ⟨s1, b1, w, e⟩ := sized_of_isOk h
  rw [e] at h1 h2
  exact ⟨s1, b1, w, e, h1, h2⟩

namespace Demo

/-- A building in the climate of the examples that uses these gallons in the hours of the day. -/
def uses (u : List ℚ) : Building ℚ :=
  { building with dailyGal := u.sum, peakShape := u.map (· / u.sum), avgShape := u.map (· / u.sum) }

def houseA : Building ℚ := uses [20, 2, 2, 2, 2, 20, 2, 2, 2, 20, 20, 2, 2, 2, 2, 2, 2, 20, 2, 2, 20, 20, 2, 2]
def houseB : Building ℚ := uses [2, 2, 2, 2, 2, 2, 2, 2, 20, 2, 2, 2, 20, 2, 20, 20, 2, 20, 2, 2, 20, 20, 2, 2]

/-- The two houses together. -/
def bothHouses : Building ℚ := uses [22, 4, 4, 4, 4, 22, 4, 4, 22, 22, 22, 4, 22, 4, 22, 22, 4, 40, 4, 4, 40, 40, 4, 4]

theorem bothHouses_houses : Houses bothHouses [houseA, houseB] := by
  refine houses_two rfl rfl ?_ ?_ ?_ ?_ <;> decide +kernel

theorem bothHouses_fullDay : FullDay bothHouses := ⟨by decide +kernel, by decide +kernel, by decide +kernel⟩

theorem houses_fullDay : ∀ p ∈ [houseA, houseB], FullDay p := by
  intro p hp
  rcases List.mem_cons.1 hp with rfl | hp
  · exact ⟨by decide +kernel, by decide +kernel, by decide +kernel⟩
  · rw [List.mem_singleton] at hp
    subst hp
    exact ⟨by decide +kernel, by decide +kernel, by decide +kernel⟩

end Demo

/-- Non-vacuity of C146: the two houses need 7154/307 and 7546/307 gallons of storage, together they need 14308/307. -/
example : ∃ x xs, SizedAs baseMethods Demo.noFiles { cfg := Demo.cfg } none (some Demo.map) (28/10) 1 Demo.bothHouses x ∧
    List.Forall₂ (SizedAs baseMethods Demo.noFiles { cfg := Demo.cfg } none (some Demo.map) (28/10) 1)
      [Demo.houseA, Demo.houseB] xs ∧ (∀ y ∈ xs, 0 ≤ y.2) ∧ x.2 < (xs.map (·.2)).sum ∧ x.1 = (xs.map (·.1)).sum := by
  have h : SizedAs baseMethods Demo.noFiles { cfg := Demo.cfg } none (some Demo.map) (28/10) 1 Demo.bothHouses
      (1017460563 / 80000000, 14308 / 307) := sizedAs_of (by decide +kernel) (by decide +kernel) (by decide +kernel)
  have h' : List.Forall₂ (SizedAs baseMethods Demo.noFiles { cfg := Demo.cfg } none (some Demo.map) (28/10) 1)
      [Demo.houseA, Demo.houseB] [(1017460563 / 160000000, 7154 / 307), (1017460563 / 160000000, 7546 / 307)] :=
    .cons (sizedAs_of (by decide +kernel) (by decide +kernel) (by decide +kernel))
      (.cons (sizedAs_of (by decide +kernel) (by decide +kernel) (by decide +kernel)) .nil)
  have hpos : ∀ y ∈ ([(1017460563 / 160000000, 7154 / 307), (1017460563 / 160000000, 7546 / 307)] : List (ℚ × ℚ)), 0 ≤ y.2 := by
    decide +kernel
  exact ⟨_, _, h, h', hpos, by decide +kernel, (C146_primary Demo.bothHouses_houses Demo.bothHouses_fullDay Demo.houses_fullDay
    (by decide +kernel) (by decide +kernel) (by rintro ⟨_, _, h, _⟩; simp at h) h h' hpos).1⟩

/-- Non-vacuity of C146 for tankless systems and for mixed-use buildings: the parts are buildings with a load shape of their own. -/
example : ∃ x xs, (⟨120, 120, 1⟩ : Instant ℚ).size Demo.bothHouses = .ok x ∧
    List.Forall₂ (fun p x => (⟨120, 120, 1⟩ : Instant ℚ).size p = .ok x) [Demo.houseA, Demo.houseB] xs ∧ x ≤ xs.sum := by
  have ok : ∀ p ∈ [Demo.bothHouses, Demo.houseA, Demo.houseB], ((⟨120, 120, 1⟩ : Instant ℚ).size p).isOk = true := by
    decide +kernel
  have get : ∀ {p : Building ℚ}, ((⟨120, 120, 1⟩ : Instant ℚ).size p).isOk = true →
      ∃ x, (⟨120, 120, 1⟩ : Instant ℚ).size p = .ok x := by
    intro p h
    cases e : (⟨120, 120, 1⟩ : Instant ℚ).size p with
    | error e' => rw [e] at h; simp [Except.isOk, Except.toBool] at h
    | ok x => exact ⟨x, rfl⟩
  obtain ⟨x, hx⟩ := get (ok Demo.bothHouses (by simp))
  obtain ⟨y, hy⟩ := get (ok Demo.houseA (by simp))
  obtain ⟨z, hz⟩ := get (ok Demo.houseB (by simp))
  have h' : List.Forall₂ (fun p x => (⟨120, 120, 1⟩ : Instant ℚ).size p = .ok x) [Demo.houseA, Demo.houseB] [y, z] :=
    .cons hy (.cons hz .nil)
  have hin : Demo.bothHouses.getDesignInlet.toOption = some (some 50) := by decide +kernel
  refine ⟨x, _, hx, h', C146_tankless Demo.bothHouses_houses Demo.houses_fullDay ?_ (by norm_num) hx h'⟩
  intro t ht
  rw [ht] at hin
  simp only [Except.toOption, Option.some.injEq] at hin
  rw [hin]
  norm_num

/-- **C146 is false for the storage of load-shifting systems.** Two houses that shed the same hours need 40.2 and 32.3 gallons; for both
together 80.4 gallons are asked for. The second house is given a larger heat pump than its daily use needs, and the shared plant
gets no such addition, since the shares of the two houses even out. -/
theorem C146_load_shift_storage_fails : ∃ x y z, Houses Demo.bothHouses [Demo.houseA, Demo.houseB] ∧
    SizedAs baseMethods Demo.noFiles { cfg := Demo.cfg } (some Demo.sched) (some Demo.map) (28/10) 1 Demo.bothHouses x ∧
    SizedAs baseMethods Demo.noFiles { cfg := Demo.cfg } (some Demo.sched) (some Demo.map) (28/10) 1 Demo.houseA y ∧
    SizedAs baseMethods Demo.noFiles { cfg := Demo.cfg } (some Demo.sched) (some Demo.map) (28/10) 1 Demo.houseB z ∧
    0 ≤ y.2 ∧ 0 ≤ z.2 ∧ y.2 + z.2 < x.2 :=
  ⟨(1017460563 / 80000000, 8281 / 103), (1017460563 / 160000000, 8281 / 206), (35084847 / 4000000, 3332 / 103),
    Demo.bothHouses_houses, sizedAs_of (by decide +kernel) (by decide +kernel) (by decide +kernel),
    sizedAs_of (by decide +kernel) (by decide +kernel) (by decide +kernel),
    sizedAs_of (by decide +kernel) (by decide +kernel) (by decide +kernel), by norm_num, by norm_num, by norm_num⟩

/-- Twice the water of the demo building, on a day between two others. -/
def Demo.between : Building ℚ := { withPeak (Demo.moved (12/1000)) Demo.building with dailyGal := 2000 }

theorem Demo.between_houses :
    Houses Demo.between [withPeak (Demo.moved (6/1000)) Demo.building, withPeak (Demo.moved (18/1000)) Demo.building] := by
  refine houses_two rfl rfl ?_ ?_ ?_ ?_ <;> decide +kernel

set_option maxRecDepth 100000 in
theorem Demo.between_storage : (mpStorage (Demo.mpTwenty.size Demo.noFiles Demo.between (some Demo.lowSensor) 2)).any
    (fun x => decide (1180 < x)) = true := by decide +kernel

set_option maxRecDepth 100000 in
theorem Demo.six_storage : (mpStorage (Demo.mpTwenty.size Demo.noFiles (withPeak (Demo.moved (6/1000)) Demo.building)
    (some Demo.lowSensor) 2)).any (fun x => decide (0 ≤ x ∧ x < 368)) = true := by decide +kernel

set_option maxRecDepth 100000 in
theorem Demo.eighteen_storage : (mpStorage (Demo.mpTwenty.size Demo.noFiles (withPeak (Demo.moved (18/1000)) Demo.building)
    (some Demo.lowSensor) 2)).any (fun x => decide (0 ≤ x ∧ x < 608)) = true := by decide +kernel

/-- **C146 is false for multi-pass systems.** Two buildings need less than 368 and less than 608 gallons; for both together more than
1180 gallons are asked for. -/
theorem C146_multi_pass_fails : ∃ s s1 s2 b b1 b2 st st1 st2,
    Houses Demo.between [withPeak (Demo.moved (6/1000)) Demo.building, withPeak (Demo.moved (18/1000)) Demo.building] ∧
    Demo.mpTwenty.size Demo.noFiles Demo.between (some Demo.lowSensor) 2 = ((s, b), .ok ()) ∧
    Demo.mpTwenty.size Demo.noFiles (withPeak (Demo.moved (6/1000)) Demo.building) (some Demo.lowSensor) 2 = ((s1, b1), .ok ()) ∧
    Demo.mpTwenty.size Demo.noFiles (withPeak (Demo.moved (18/1000)) Demo.building) (some Demo.lowSensor) 2 = ((s2, b2), .ok ()) ∧
    s.base.minStorage = some st ∧ s1.base.minStorage = some st1 ∧ s2.base.minStorage = some st2 ∧
    0 ≤ st1 ∧ 0 ≤ st2 ∧ st1 + st2 < st := by
  have e := Demo.between_storage
  have e1 := Demo.six_storage
  have e2 := Demo.eighteen_storage
  rw [Option.any_eq_true] at e e1 e2
  obtain ⟨x, m, l⟩ := e
  obtain ⟨x1, m1, l1⟩ := e1
  obtain ⟨x2, m2, l2⟩ := e2
  rw [decide_eq_true_eq] at l l1 l2
  obtain ⟨s, b, h, k⟩ := mpStorage_some m
  obtain ⟨s1, b1, h1, k1⟩ := mpStorage_some m1
  obtain ⟨s2, b2, h2, k2⟩ := mpStorage_some m2
  exact ⟨s, s1, s2, b, b1, b2, x, x1, x2, Demo.between_houses, h, h1, h2, k, k1, k2, l1.1, l2.1, by linarith [l1.2, l2.2]⟩

end Eco
