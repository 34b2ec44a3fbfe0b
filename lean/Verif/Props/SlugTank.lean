import Verif.Props.EnergyTank
import Verif.Spec.Slug

/-! C61, C62 and C77: the slug tank. -/

namespace Eco
set_option linter.unusedSectionVars false
open Spec

section general
variable {K : Type} [Field K] [LinearOrder K] [IsStrictOrderedRing K]

/-- The consistency of a slug tank: the fixed geometry, and while a slug is active its volume fits the usable
tank, has not shrunk, and its top is where its volume puts it. -/
structure SlugTank.Ok (s : SlugTank K) : Prop where
  volOk : 0 < s.base.vol
  puOk : 0 ≤ s.pu
  puOk' : s.pu ≤ 1
  coldPctOk : s.base.coldPct = (1 - s.pu) * 100
  maxOk : s.maxUsable = s.pu * s.base.vol
  slugOk : s.active = true → 0 ≤ s.orig ∧ s.orig ≤ s.slugVol ∧ s.slugVol ≤ s.maxUsable ∧
    s.slugTop = s.base.coldPct + s.slugVol / s.base.vol * 100

theorem slug_new_ok (vol cold storage supply pu slope : K) (hv : 0 < vol) (h0 : 0 ≤ pu) (h1 : pu ≤ 1) :
    (SlugTank.new vol cold storage supply pu slope).Ok := by
  refine ⟨hv, h0, h1, rfl, rfl, ?_⟩
  intro h
  simp [SlugTank.new] at h

theorem topOf_eq (s : SlugTank K) (h : s.Ok) (v : K) : s.topOf v = s.base.coldPct + v / s.base.vol * 100 := by
  unfold SlugTank.topOf
  rw [if_pos h.volOk]

/-- The highest slug top is the top of the tank. -/
theorem top_full (s : SlugTank K) (h : s.Ok) : s.base.coldPct + s.maxUsable / s.base.vol * 100 = 100 := by
  rw [h.coldPctOk, h.maxOk]
  have := h.volOk
  field_simp
  ring

theorem activate_ok (s : SlugTank K) (h : s.Ok) (supply : K) : (s.activate supply).Ok := by
  unfold SlugTank.activate
  split
  · exact h
  · refine ⟨h.volOk, h.puOk, h.puOk', h.coldPctOk, h.maxOk, ?_⟩
    intro _
    simp only
    generalize (supply - s.base.cold) / s.base.slope - s.base.shift = x
    have hc100 : s.base.coldPct ≤ 100 := by rw [h.coldPctOk]; linarith [h.puOk]
    have hx : max s.base.coldPct (min 100 x) ≤ 100 := max_le hc100 (min_le_left _ _)
    refine ⟨le_max_left _ _, le_rfl, ?_, topOf_eq s h _⟩
    apply max_le
    · rw [h.maxOk]; exact mul_nonneg h.puOk h.volOk.le
    · rw [h.maxOk]
      apply mul_le_mul_of_nonneg_right _ h.volOk.le
      rw [div_le_iff₀ (by norm_num), h.coldPctOk] at *
      linarith

theorem heat_ok (s : SlugTank K) (h : s.Ok) (kbtuh dur : K) : (s.heatSlug kbtuh dur).Ok := by
  unfold SlugTank.heatSlug
  split
  · exact h
  · exact ⟨h.volOk, h.puOk, h.puOk', h.coldPctOk, h.maxOk, h.slugOk⟩

/-- What a draw does while a slug is active, in three cases. -/
theorem draw_active (s : SlugTank K) (h : s.Ok) (ha : s.active = true) (gal inlet : K) (u : Bool) :
    (gal ≤ 0 ∧ s.drawPhysical gal inlet u = s) ∨
    (0 < gal ∧ gal ≤ s.maxUsable - s.slugVol ∧ s.drawPhysical gal inlet u =
      { s with
        slugTemp := (s.slugVol * s.slugTemp + gal * inlet) / (s.slugVol + gal)
        slugVol := s.slugVol + gal
        slugTop := s.base.coldPct + (s.slugVol + gal) / s.base.vol * 100 }) ∨
    (0 < gal ∧ s.maxUsable - s.slugVol < gal ∧ s.drawPhysical gal inlet u =
      { s with
        slugTemp := if s.maxUsable ≤ gal then inlet
          else ((s.maxUsable - gal) * s.slugTemp + gal * inlet) / s.maxUsable
        slugVol := s.maxUsable
        slugTop := 100 }) := by
  obtain ⟨o1, o2, o3, o4⟩ := h.slugOk ha
  have hav : max 0 (s.maxUsable - s.slugVol) = s.maxUsable - s.slugVol := max_eq_right (by linarith)
  unfold SlugTank.drawPhysical
  simp only [ha, Bool.not_true, Bool.false_eq_true, if_false, hav]
  rcases le_or_gt gal 0 with hg | hg
  · left
    refine ⟨hg, ?_⟩
    rw [if_neg (by linarith)]
    unfold SlugTank.addToSlug
    rw [if_pos (Or.inr hg)]
  · right
    rcases le_or_gt gal (s.maxUsable - s.slugVol) with hle | hlt
    · left
      refine ⟨hg, hle, ?_⟩
      rw [if_neg (not_lt.mpr hle)]
      unfold SlugTank.addToSlug
      rw [if_neg (by simp [ha, hg])]
      split
      · rename_i hz
        have h0 : s.slugVol = 0 := le_antisymm hz (by linarith)
        rw [topOf_eq s h, h0]
        simp only [zero_mul, zero_add]
        rw [mul_div_cancel_left₀ _ hg.ne', ha]
      · rw [topOf_eq s h, ha]
    · right
      refine ⟨hg, hlt, ?_⟩
      rw [if_pos hlt]
      unfold SlugTank.addToSlug
      simp only
      rw [if_neg (by simp [ha, hg])]
      have e : s.slugVol - (gal - (s.maxUsable - s.slugVol)) = s.maxUsable - gal := by ring
      rw [e]
      by_cases hm : s.maxUsable ≤ gal
      · rw [if_pos (by linarith), if_pos hm]
      · rw [if_neg (by linarith), if_neg hm]
        simp

theorem draw_ok (s : SlugTank K) (h : s.Ok) (gal inlet : K) (u : Bool) : (s.drawPhysical gal inlet u).Ok := by
  by_cases ha : s.active = true
  · obtain ⟨o1, o2, o3, o4⟩ := h.slugOk ha
    rcases draw_active s h ha gal inlet u with ⟨_, e⟩ | ⟨hg, hle, e⟩ | ⟨hg, hlt, e⟩ <;> rw [e]
    · exact h
    · exact ⟨h.volOk, h.puOk, h.puOk', h.coldPctOk, h.maxOk, fun _ => ⟨o1, by simp only; linarith,
        by simp only; linarith, rfl⟩⟩
    · exact ⟨h.volOk, h.puOk, h.puOk', h.coldPctOk, h.maxOk, fun _ => ⟨o1, by simp only; linarith, le_rfl,
        (top_full s h).symm⟩⟩
  · unfold SlugTank.drawPhysical
    rw [if_pos (by simpa using ha)]
    have e1 : (s.base.drawPhysical gal inlet u).vol = s.base.vol := by
      unfold EnergyTank.drawPhysical; cases u <;> simp <;> split <;> rfl
    have e2 : (s.base.drawPhysical gal inlet u).coldPct = s.base.coldPct := by
      unfold EnergyTank.drawPhysical; cases u <;> simp <;> split <;> rfl
    exact ⟨by rw [e1]; exact h.volOk, h.puOk, h.puOk', by rw [e2]; exact h.coldPctOk, by rw [e1]; exact h.maxOk,
      fun hx => absurd hx ha⟩

theorem slug_op_ok (s : SlugTank K) (h : s.Ok) (op : SlugOp K) :
    (op.run s).Ok ∧ (op.run s).base.vol = s.base.vol ∧ (op.run s).pu = s.pu := by
  cases op with
  | init a b c =>
    unfold SlugOp.run SlugTank.init
    simp only
    split
    · exact ⟨⟨h.volOk, h.puOk, h.puOk', h.coldPctOk, h.maxOk, fun hx => by simp at hx⟩, rfl, rfl⟩
    · exact ⟨⟨h.volOk, h.puOk, h.puOk', h.coldPctOk, h.maxOk, fun hx => by simp at hx⟩, rfl, rfl⟩
  | activate a =>
    refine ⟨activate_ok s h a, ?_⟩
    unfold SlugOp.run SlugTank.activate
    simp only
    split <;> simp
  | heat a b =>
    refine ⟨heat_ok s h a b, ?_⟩
    unfold SlugOp.run SlugTank.heatSlug
    simp only
    split <;> simp
  | draw a b c =>
    refine ⟨draw_ok s h a b c, ?_⟩
    unfold SlugOp.run
    simp only
    by_cases ha : s.active = true
    · rcases draw_active s h ha a b c with ⟨_, e⟩ | ⟨_, _, e⟩ | ⟨_, _, e⟩ <;> rw [e] <;> simp
    · unfold SlugTank.drawPhysical
      rw [if_pos (by simpa using ha)]
      refine ⟨?_, rfl⟩
      unfold EnergyTank.drawPhysical; cases c <;> simp <;> split <;> rfl
  | deactivate =>
    unfold SlugOp.run SlugTank.deactivate
    simp only
    split
    · exact ⟨h, rfl, rfl⟩
    · exact ⟨⟨h.volOk, h.puOk, h.puOk', h.coldPctOk, h.maxOk, fun hx => by simp at hx⟩, rfl, rfl⟩

theorem energy_usable_bounds (s : EnergyTank K) (hv : 0 < s.vol) (t : K) : 0 ≤ s.usable t ∧ s.usable t ≤ s.vol := by
  unfold EnergyTank.usable
  simp only
  generalize (t - s.cold) / s.slope - s.shift = x
  have h0 : 0 ≤ max 0 (min 100 x) := le_max_left _ _
  have h1 : max 0 (min 100 x) ≤ 100 := max_le (by norm_num) (min_le_left _ _)
  constructor
  · apply mul_nonneg (div_nonneg (by linarith) (by norm_num)) hv.le
  · have : (100 - max 0 (min 100 x)) / 100 ≤ 1 := by rw [div_le_one (by norm_num)]; linarith
    nlinarith

/-! ## C61 -/

/-- **C61.** After any history of initialisations, heating cycles, heat additions and draws, with any arguments
whatsoever, the usable volume at any temperature is between 0 and the usable part of the tank. -/
theorem C61_usable_bounds (vol cold storage supply pu slope : K) (hv : 0 < vol) (h0 : 0 ≤ pu) (h1 : pu ≤ 1)
    (ops : List (SlugOp K)) (t : K) :
    0 ≤ (ops.foldl SlugOp.run (SlugTank.new vol cold storage supply pu slope)).usable t ∧
    (ops.foldl SlugOp.run (SlugTank.new vol cold storage supply pu slope)).usable t ≤ pu * vol := by
  have key : ∀ s : SlugTank K, s.Ok → (ops.foldl SlugOp.run s).Ok ∧
      (ops.foldl SlugOp.run s).base.vol = s.base.vol ∧ (ops.foldl SlugOp.run s).pu = s.pu := by
    clear h0 h1 hv
    induction ops with
    | nil => intro s h; exact ⟨h, rfl, rfl⟩
    | cons op ops ih =>
      intro s h
      rw [List.foldl_cons]
      obtain ⟨a, b, c⟩ := slug_op_ok s h op
      obtain ⟨d, e, f⟩ := ih _ a
      exact ⟨d, e.trans b, f.trans c⟩
  obtain ⟨hok, e1, e2⟩ := key _ (slug_new_ok vol cold storage supply pu slope hv h0 h1)
  generalize ops.foldl SlugOp.run (SlugTank.new vol cold storage supply pu slope) = s at *
  have e1' : s.base.vol = vol := e1
  have e2' : s.pu = pu := e2
  unfold SlugTank.usable
  split
  · constructor
    · exact le_min (energy_usable_bounds _ hok.volOk t).1 (mul_nonneg hok.volOk.le hok.puOk)
    · refine (min_le_right _ _).trans ?_
      rw [e1', e2', mul_comm]
  · rename_i ha
    obtain ⟨o1, o2, o3, o4⟩ := hok.slugOk (by simpa using ha)
    have hm : s.maxUsable = pu * vol := by rw [hok.maxOk, e1', e2']
    split
    · constructor <;> linarith
    · constructor <;> linarith

/-- **C61 limit.** Growing the slug directly is not limited, contrary to its description: the usable
volume then turns negative. -/
theorem C61_add_to_slug_uncapped :
    ((((SlugTank.new (100 : ℚ) 50 150 120 (9 / 10) (8 / 10)).init 150 50 (9 / 10)).activate 120).addToSlug 200 50).usable
      120 < 0 := by
  decide +kernel

theorem height_iff_energy (s : EnergyTank K) (hs : 0 < s.slope) {t : K} (hc : s.cold < t) (ht : t ≤ s.storage) (x : K)
    (hx : s.coldPct ≤ x) : t ≤ s.tempAt (x / 100) ↔ (t - s.cold) / s.slope - s.shift ≤ x := by
  have e : x / 100 * 100 = x := by field_simp
  unfold EnergyTank.tempAt
  simp only
  rw [e, if_neg (not_lt.mpr hx), le_max_iff, le_min_iff]
  constructor
  · rintro (h | ⟨_, h⟩)
    · exact absurd h (not_le.mpr hc)
    · rw [sub_le_iff_le_add, div_le_iff₀ hs]; linarith
  · intro h
    right
    refine ⟨ht, ?_⟩
    rw [sub_le_iff_le_add, div_le_iff₀ hs] at h
    linarith

/-- **C61 (no cycle running).** For a temperature above cold and up to storage temperature the usable volume is
exactly the water at or above it. -/
theorem C61_inactive_exact (s : SlugTank K) (h : s.Ok) (hs : 0 < s.base.slope) (ha : s.active = false) (t : K)
    (hc : s.base.cold < t) (ht : t ≤ s.base.storage) (f : K) (f0 : 0 ≤ f) (f1 : f ≤ 1) :
    (1 - s.usable t / s.base.vol < f → t ≤ s.tempAt f) ∧ (f < 1 - s.usable t / s.base.vol → s.tempAt f < t) := by
  have hv := h.volOk
  have hT : s.tempAt f = s.base.tempAt (f * 100 / 100) := by
    unfold SlugTank.tempAt
    rw [if_pos (by simp [ha]), mul_div_cancel_right₀ _ (by norm_num : (100 : K) ≠ 0)]
  have hu : s.usable t / s.base.vol =
      min ((100 - max 0 (min 100 ((t - s.base.cold) / s.base.slope - s.base.shift))) / 100) s.pu := by
    unfold SlugTank.usable EnergyTank.usable
    rw [if_pos (by simp [ha])]
    rw [mul_comm _ s.pu, ← min_mul_of_nonneg _ _ hv.le, mul_div_assoc, div_self hv.ne', mul_one]
  rw [hu, hT]
  have hcp := h.coldPctOk
  set x := (t - s.base.cold) / s.base.slope - s.base.shift with hx
  constructor
  · intro hf
    have hpu : 1 - s.pu < f := lt_of_le_of_lt (by linarith [min_le_right ((100 - max 0 (min 100 x)) / 100) s.pu]) hf
    rw [height_iff_energy _ hs hc ht _ (by rw [hcp]; linarith), ← hx]
    have h2 : 1 - (100 - max 0 (min 100 x)) / 100 < f :=
      lt_of_le_of_lt (by linarith [min_le_left ((100 - max 0 (min 100 x)) / 100) s.pu]) hf
    have h3 : max 0 (min 100 x) < f * 100 := by linarith
    rcases le_total 100 x with h5 | h5
    · rw [min_eq_left h5, max_eq_right (by norm_num)] at h3; linarith
    · rw [min_eq_right h5] at h3
      exact ((le_max_right _ _).trans_lt h3).le
  · intro hf
    by_cases hcold : f * 100 < s.base.coldPct
    · unfold EnergyTank.tempAt
      simp only
      rw [mul_div_cancel_right₀ _ (by norm_num : (100 : K) ≠ 0), if_pos hcold]
      exact hc
    · rw [not_lt] at hcold
      rw [← not_le, height_iff_energy _ hs hc ht _ hcold, ← hx]
      intro hle
      rcases le_total ((100 - max 0 (min 100 x)) / 100) s.pu with hm | hm
      · rw [min_eq_left hm] at hf
        have : f * 100 < max 0 (min 100 x) := by linarith
        rcases lt_max_iff.mp this with h6 | h6
        · linarith [f0]
        · have := lt_of_lt_of_le h6 (min_le_right _ _)
          linarith
      · rw [min_eq_right hm] at hf
        rw [hcp] at hcold
        linarith

/-- What a heating cycle leaves alone, and the state it keeps. -/
theorem cycle_inv (s : SlugTank K) (h : s.Ok) (ha : s.active = true) (ops : List (CycleOp K)) :
    (ops.foldl CycleOp.run s).Ok ∧ (ops.foldl CycleOp.run s).active = true ∧ (ops.foldl CycleOp.run s).base = s.base ∧
    (ops.foldl CycleOp.run s).orig = s.orig ∧ (ops.foldl CycleOp.run s).pu = s.pu := by
  induction ops generalizing s with
  | nil => exact ⟨h, ha, rfl, rfl, rfl⟩
  | cons op ops ih =>
    rw [List.foldl_cons]
    have step : (op.run s).Ok ∧ (op.run s).active = true ∧ (op.run s).base = s.base ∧ (op.run s).orig = s.orig ∧
        (op.run s).pu = s.pu := by
      cases op with
      | heat a b =>
        refine ⟨heat_ok s h a b, ?_⟩
        unfold CycleOp.run SlugTank.heatSlug
        simp only
        split <;> simp [ha]
      | draw a b =>
        refine ⟨draw_ok s h a b true, ?_⟩
        unfold CycleOp.run
        simp only
        rcases draw_active s h ha a b true with ⟨_, e⟩ | ⟨_, _, e⟩ | ⟨_, _, e⟩ <;> rw [e] <;> simp [ha]
    obtain ⟨a1, a2, a3, a4, a5⟩ := step
    obtain ⟨b1, b2, b3, b4, b5⟩ := ih _ a1 a2
    exact ⟨b1, b2, b3.trans a3, b4.trans a4, b5.trans a5⟩

/-- **C61 (cycle running).** Throughout a heating cycle started at supply temperature there is a height above which
all water is at or above supply temperature; the usable part below it is either all at or above supply
temperature, and then the whole usable tank counts, or all below, and then exactly the water above that
height counts. -/
theorem C61_cycle_exact (s : SlugTank K) (h : s.Ok) (hs : 0 < s.base.slope) (ha : s.active = false) (t : K)
    (hc : s.base.cold < t) (ht : t ≤ s.base.storage) (ops : List (CycleOp K)) (e : SlugTank K)
    (he : e = ops.foldl CycleOp.run (s.activate t)) :
    ∃ top, 1 - s.pu ≤ top ∧ top ≤ 1 ∧
      (∀ f, top < f → f ≤ 1 → t ≤ e.tempAt f) ∧ (∀ f, f < 1 - s.pu → e.tempAt f < t) ∧
      (((∀ f, 1 - s.pu ≤ f → f ≤ top → t ≤ e.tempAt f) ∧ e.usable t = s.base.vol * s.pu) ∨
       ((∀ f, 1 - s.pu ≤ f → f ≤ top → e.tempAt f < t) ∧ e.usable t = s.base.vol * (1 - top))) := by
  have hv := h.volOk
  have hact := activate_ok s h t
  have hbase : (s.activate t).base = s.base ∧ (s.activate t).active = true ∧ (s.activate t).pu = s.pu := by
    unfold SlugTank.activate; simp [ha]
  obtain ⟨i1, i2, i3, i4, i5⟩ := cycle_inv _ hact hbase.2.1 ops
  rw [← he] at i1 i2 i3 i4 i5
  rw [hbase.1] at i3
  rw [hbase.2.2] at i5
  obtain ⟨o1, o2, o3, o4⟩ := i1.slugOk i2
  have hcp := h.coldPctOk
  have horig : e.orig = max 0 ((max s.base.coldPct (min 100 ((t - s.base.cold) / s.base.slope - s.base.shift)) -
      s.base.coldPct) / 100 * s.base.vol) := by
    rw [i4]; unfold SlugTank.activate; simp [ha]
  set x := (t - s.base.cold) / s.base.slope - s.base.shift with hx
  have horig' : s.base.coldPct + e.orig / s.base.vol * 100 = max s.base.coldPct (min 100 x) := by
    have h1 : 0 ≤ (max s.base.coldPct (min 100 x) - s.base.coldPct) / 100 * s.base.vol :=
      mul_nonneg (div_nonneg (by linarith [le_max_left s.base.coldPct (min 100 x)]) (by norm_num)) hv.le
    rw [horig, max_eq_right h1]
    field_simp
    ring
  have hm : e.maxUsable = s.pu * s.base.vol := by rw [i1.maxOk, i3, i5]
  have htop : e.slugTop / 100 = 1 - s.pu + e.slugVol / s.base.vol := by
    rw [o4, i3, hcp]; ring
  have hsv : e.slugVol / s.base.vol ≤ s.pu := by rw [div_le_iff₀ hv]; linarith
  have hsv0 : 0 ≤ e.slugVol / s.base.vol := div_nonneg (o1.trans o2) hv.le
  refine ⟨e.slugTop / 100, by linarith, by linarith, ?_, ?_, ?_⟩
  · intro f hf f1
    have hfx : e.slugTop < f * 100 := by linarith
    unfold SlugTank.tempAt
    simp only [i2, Bool.not_true, Bool.false_eq_true, if_false, i3]
    rw [if_neg (by rw [hcp]; linarith), if_neg (not_le.mpr hfx)]
    have e2 : f - (e.slugVol - e.orig) / s.base.vol = (f * 100 - (e.slugVol - e.orig) / s.base.vol * 100) / 100 := by
      field_simp
    have hgt : max s.base.coldPct (min 100 x) < f * 100 - (e.slugVol - e.orig) / s.base.vol * 100 := by
      rw [← horig', sub_div]
      rw [o4, i3] at hfx
      linarith
    rw [e2, height_iff_energy _ hs hc ht _ ((le_max_left _ _).trans hgt.le), ← hx]
    have hg0 : 0 ≤ (e.slugVol - e.orig) / s.base.vol := div_nonneg (by linarith) hv.le
    have hlt := lt_of_le_of_lt (le_max_right _ _) hgt
    rcases le_total 100 x with h5 | h5
    · rw [min_eq_left h5] at hlt; linarith
    · rw [min_eq_right h5] at hlt; exact hlt.le
  · intro f hf
    unfold SlugTank.tempAt
    simp only [i2, Bool.not_true, Bool.false_eq_true, if_false, i3]
    rw [if_pos (by rw [hcp]; linarith)]
    exact hc
  · have hin : ∀ f, 1 - s.pu ≤ f → f ≤ e.slugTop / 100 →
        e.tempAt f = max s.base.cold (min s.base.storage e.slugTemp) := by
      intro f h1 h2
      unfold SlugTank.tempAt
      simp only [i2, Bool.not_true, Bool.false_eq_true, if_false, i3]
      rw [if_neg (by rw [hcp]; linarith), if_pos (by linarith)]
    by_cases hw : t ≤ e.slugTemp
    · left
      constructor
      · intro f h1 h2
        rw [hin f h1 h2]
        exact le_max_of_le_right (le_min ht hw)
      · unfold SlugTank.usable
        simp only [i2, Bool.not_true, Bool.false_eq_true, if_false]
        rw [if_pos hw, hm]; ring
    · right
      constructor
      · intro f h1 h2
        rw [hin f h1 h2]
        exact max_lt hc (min_lt_of_right_lt (not_le.mp hw))
      · unfold SlugTank.usable
        simp only [i2, Bool.not_true, Bool.false_eq_true, if_false]
        rw [if_neg hw, hm, htop]
        field_simp
        ring

namespace Demo
/-- A 200-gallon multi-pass tank with the inlet at 10 % height, half charged at 120 °F. -/
def slug : SlugTank ℚ := (SlugTank.new 200 50 150 120 (9 / 10) (8 / 10)).init 150 50 (1 / 2)
end Demo

/-- Non-vacuity of C61. -/
example : Demo.slug.Ok ∧ 0 < Demo.slug.base.slope ∧ Demo.slug.active = false ∧ Demo.slug.base.cold < 120 ∧
    (120 : ℚ) ≤ Demo.slug.base.storage := by
  refine ⟨(slug_op_ok _ (slug_new_ok 200 50 150 120 (9 / 10) (8 / 10) (by norm_num) (by norm_num) (by norm_num))
    (.init 150 50 (1 / 2))).1, ?_⟩
  decide +kernel

/-! ## C62 -/

/-- **C62 (water).** Adding water to an active slug adds exactly its volume and its heat. -/
theorem C62_add_water (s : SlugTank K) (ha : s.active = true) (hv : 0 ≤ s.slugVol) (gal inlet : K) (hg : 0 ≤ gal) :
    (s.addToSlug gal inlet).slugVol = s.slugVol + gal ∧
    (s.addToSlug gal inlet).slugVol * (s.addToSlug gal inlet).slugTemp = s.slugVol * s.slugTemp + gal * inlet := by
  unfold SlugTank.addToSlug
  split
  · rename_i hc
    have : gal = 0 := by
      rcases hc with hc | hc
      · simp [ha] at hc
      · exact le_antisymm hc hg
    rw [this]; simp
  · rename_i hc
    split
    · rename_i hz
      have : s.slugVol = 0 := le_antisymm hz hv
      rw [this]; simp
    · rename_i hz
      rw [not_le] at hz
      refine ⟨rfl, ?_⟩
      simp only
      rw [mul_div_cancel₀]
      linarith

/-- **C62 (heat).** Heating an active slug adds exactly the heat supplied. -/
theorem C62_add_heat (s : SlugTank K) (ha : s.active = true) (hv : 0 < s.slugVol) (kbtuh dur : K) (hk : 0 ≤ kbtuh) :
    (s.heatSlug kbtuh dur).slugVol = s.slugVol ∧
    (s.heatSlug kbtuh dur).slugVol * rhoCp K * (s.heatSlug kbtuh dur).slugTemp =
      s.slugVol * rhoCp K * s.slugTemp + 1000 * kbtuh * (dur / 60) := by
  have hr := rhoCp_pos (K := K)
  unfold SlugTank.heatSlug
  split
  · rename_i hc
    have : kbtuh = 0 := by
      rcases hc with hc | hc | hc
      · simp [ha] at hc
      · linarith
      · exact le_antisymm hc hk
    rw [this]; simp
  · refine ⟨rfl, ?_⟩
    simp only
    field_simp

/-- **C62 (temperature), partial.** The reported temperatures never exceed the storage temperature. The slug's own
temperature does (`C62_slug_overheats`), contrary to its description, and with it the heat given back to
the tank (`C62_overheated_energy`). -/
theorem C62_reported_partial (s : SlugTank K) (hcs : s.base.cold ≤ s.base.storage) (f : K) :
    s.tempAt f ≤ s.base.storage := by
  have hb : ∀ f, s.base.tempAt f ≤ s.base.storage := by
    intro f
    unfold EnergyTank.tempAt
    simp only
    split
    · exact hcs
    · exact max_le hcs (min_le_left _ _)
  unfold SlugTank.tempAt
  simp only
  split
  · exact hb _
  · split
    · exact hcs
    · split
      · exact max_le hcs (min_le_left _ _)
      · exact hb _

/-- **C62 is false.** For every tank with an active slug and every step length some heating rate lifts the slug
above the storage temperature. -/
theorem C62_slug_overheats (s : SlugTank K) (ha : s.active = true) (hv : 0 < s.slugVol) (dur : K) (hd : 0 < dur) :
    ∃ kbtuh, 0 < kbtuh ∧ s.base.storage < (s.heatSlug kbtuh dur).slugTemp := by
  have hr := rhoCp_pos (K := K)
  have hp : 0 < max 0 (s.base.storage - s.slugTemp) + 1 := by
    linarith [le_max_left 0 (s.base.storage - s.slugTemp)]
  have hk : 0 < (max 0 (s.base.storage - s.slugTemp) + 1) * (s.slugVol * rhoCp K) * 60 / dur / 1000 := by positivity
  refine ⟨_, hk, ?_⟩
  unfold SlugTank.heatSlug
  rw [if_neg (by simp [ha, hv, hk])]
  simp only
  have e : (max 0 (s.base.storage - s.slugTemp) + 1) * (s.slugVol * rhoCp K) * 60 / dur / 1000 * 1000 * dur / 60 /
      (s.slugVol * rhoCp K) = max 0 (s.base.storage - s.slugTemp) + 1 := by field_simp
  rw [e]
  linarith [le_max_right 0 (s.base.storage - s.slugTemp)]

/-- An overheated slug leaves the tank with more than its full energy. -/
theorem C62_overheated_energy :
    (((Demo.slug.activate 120).heatSlug 200 60).deactivate).base.maxEnergy <
      (((Demo.slug.activate 120).heatSlug 200 60).deactivate).base.energy := by
  decide +kernel

/-- Non-vacuity of C62: the demonstration tank's slug holds water. -/
example : (Demo.slug.activate 120).active = true ∧ 0 < (Demo.slug.activate 120).slugVol := by decide +kernel

end general

end Eco
