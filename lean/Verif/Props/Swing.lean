import Verif.Model.Swing
import Verif.Props.ParallelLoop
import Verif.Lemmas.Windows
import Mathlib.Order.Bounds.Basic

set_option linter.unusedSectionVars false

/-! C66, C67, C79, C80: sizing of the swing tank system. -/

namespace Eco
variable {K : Type} [Field K] [LinearOrder K] [IsStrictOrderedRing K]

/-! ## C66: the table -/

theorem minEntry_ok {table : List Nat} {req : K} {v : Nat} :
    minEntry table req = .ok v ↔ IsLeast {u : Nat | u ∈ table ∧ req ≤ (u : K)} v := by
  unfold minEntry
  cases h : (table.filter (fun v : Nat => decide (req ≤ (v : K)))).min? with
  | none =>
    simp only [reduceCtorEq, false_iff]
    intro hv
    rw [List.min?_eq_none_iff] at h
    have : v ∈ table.filter (fun v : Nat => decide (req ≤ (v : K))) := by
      simpa using hv.1
    rw [h] at this
    simp at this
  | some w =>
    obtain ⟨h1, h2⟩ := List.min?_eq_some_iff.1 h
    have hw : IsLeast {u : Nat | u ∈ table ∧ req ≤ (u : K)} w :=
      ⟨by simpa using h1, fun u hu => h2 u (by simpa using hu)⟩
    simp only [Except.ok.injEq]
    exact ⟨fun e => e ▸ hw, fun hv => hw.unique hv⟩

theorem minEntry_exists {table : List Nat} {req : K} {u : Nat} (h1 : u ∈ table) (h2 : req ≤ (u : K)) :
    ∃ v, minEntry table req = .ok v := by
  unfold minEntry
  cases h : (table.filter (fun v : Nat => decide (req ≤ (v : K)))).min? with
  | none =>
    rw [List.min?_eq_none_iff] at h
    have : u ∈ table.filter (fun v : Nat => decide (req ≤ (v : K))) := by simpa using ⟨h1, h2⟩
    rw [h] at this
    simp at this
  | some w => exact ⟨w, rfl⟩

namespace Spec

/-- What the swing tank must hold [gal]: one gallon per 100 W of loop loss, and the water used in the busiest
minute of the design day. -/
def swingNeed (lossKbtuh daily peak : K) : K :=
  max (lossKbtuh * 1000 / wToKbtuh K / 100) (daily * peak / 60)

end Spec

theorem swingRequired_eq {supply ret flow : K} {b : Building K} {mx : K}
    (hmx : b.peakShape.max? = some mx) :
    swingRequired supply ret flow (some b)
      = .ok (Spec.swingNeed (recircLossKbtuh supply ret flow) b.dailyGal mx) := by
  unfold swingRequired Spec.swingNeed npMax
  simp only [hmx, ok_bind, pure_eq_ok]
  rw [div_div, mul_comm (wToKbtuh K) 100]

/-- **C66.** With the need taken from the loop loss and the busiest minute, sizing answers with the least table
volume that covers the need and the safety factor times the loss; a need above 1250 gallons is a
`ValueError`. -/
theorem C66_volume {supply ret flow sf : K} {b : Building K} {mx : K}
    (hmx : b.peakShape.max? = some mx) :
    let need := Spec.swingNeed (recircLossKbtuh supply ret flow) b.dailyGal mx
    ((∃ r, sizeSwingTm supply ret flow sf (some b) = .ok r) ↔ need ≤ 1250) ∧
    (1250 < need → sizeSwingTm supply ret flow sf (some b) = .error .valueError) ∧
    ∀ vol ca cap, sizeSwingTm supply ret flow sf (some b) = .ok (vol, ca, cap) →
      IsLeast {v : Nat | v ∈ [40, 50, 80, 100, 120, 160, 175, 240, 350, 400, 500, 600, 800, 1000, 1250] ∧
        need ≤ (v : K)} vol ∧ cap = sf * recircLossKbtuh supply ret flow := by
  intro need
  have hreq := swingRequired_eq (supply := supply) (ret := ret) (flow := flow) hmx
  have herr : 1250 < need → sizeSwingTm supply ret flow sf (some b) = .error .valueError := by
    intro h
    unfold sizeSwingTm
    simp only [hreq, ok_bind]
    rw [if_pos h]
  have hok : need ≤ 1250 → ∃ r, sizeSwingTm supply ret flow sf (some b) = .ok r := by
    intro h
    obtain ⟨v, hv⟩ := minEntry_exists (table := swingTable) (u := 1250) (req := need) (by decide)
      (by exact_mod_cast h)
    unfold sizeSwingTm
    simp only [hreq, ok_bind, pure_eq_ok]
    rw [if_neg (not_lt.2 h), hv]
    simp only [ok_bind, swingCa]
    split
    · rename_i h480
      have hv' := minEntry_ok.1 hv
      obtain ⟨w, hw⟩ := minEntry_exists (table := swingTableCa) (u := 480) (req := need) (by decide)
        (hv'.1.2.trans (by exact_mod_cast h480.le))
      rw [hw]
      exact ⟨_, rfl⟩
    · exact ⟨_, rfl⟩
  refine ⟨⟨fun ⟨r, hr⟩ => ?_, hok⟩, herr, ?_⟩
  · by_contra h
    rw [herr (not_le.1 h)] at hr
    simp at hr
  · intro vol ca cap h
    unfold sizeSwingTm at h
    simp only [hreq, ok_bind] at h
    split at h
    · simp at h
    · simp only [bind_eq_ok, pure_eq_ok, Except.ok.injEq, Prod.mk.injEq] at h
      obtain ⟨v, hv, w, hw, rfl, rfl, rfl⟩ := h
      refine ⟨minEntry_ok.1 hv, ?_⟩
      rw [← mul_assoc, mul_div_assoc, div_self (by norm_num), mul_one]

/-- **C66 (California size).** The reported California size is the least size of the California list that covers
the need, whenever the need is at most 480 gallons; above that it is 480, which does not cover it. -/
theorem C66_ca_volume {supply ret flow sf : K} {b : Building K} {mx : K}
    (hmx : b.peakShape.max? = some mx) {vol ca : Nat} {cap : K}
    (h : sizeSwingTm supply ret flow sf (some b) = .ok (vol, ca, cap)) :
    let need := Spec.swingNeed (recircLossKbtuh supply ret flow) b.dailyGal mx
    (need ≤ 480 → IsLeast {v : Nat | v ∈ [80, 96, 168, 288, 480] ∧ need ≤ (v : K)} ca) ∧
    (480 < need → ca = 480) := by
  intro need
  have hreq := swingRequired_eq (supply := supply) (ret := ret) (flow := flow) hmx
  unfold sizeSwingTm at h
  simp only [hreq, ok_bind] at h
  split at h
  · simp at h
  · simp only [bind_eq_ok, pure_eq_ok, Except.ok.injEq, Prod.mk.injEq] at h
    obtain ⟨v, hv, w, hw, rfl, rfl, rfl⟩ := h
    have hv' := minEntry_ok.1 hv
    unfold swingCa at hw
    split at hw
    · rename_i h480
      refine ⟨fun _ => minEntry_ok.1 hw, fun h => ?_⟩
      have := hv'.1.2
      have h6 : (v : K) < 480 := by exact_mod_cast h480
      exact absurd (h.trans_le this) (not_lt.2 h6.le)
    · rename_i h480
      injection hw with hw
      subst hw
      refine ⟨fun hle => ⟨⟨by decide, by exact_mod_cast hle⟩, fun u ⟨hu, hn⟩ => ?_⟩, fun _ => rfl⟩
      by_contra hlt
      have hu288 : u ≤ 288 := by
        simp only [List.mem_cons, List.not_mem_nil, or_false] at hu
        omega
      have h400 : need ≤ ((400 : Nat) : K) := hn.trans (by exact_mod_cast hu288.trans (by norm_num))
      exact absurd (hv'.2 ⟨by decide, h400⟩) (by omega)

/-! ## C67: the sizing simulation -/

/-- The circumstances of C67. -/
structure SwingOk (p : SwingParams K) (inlet storage : K) : Prop where
  vol_pos : 0 < p.vol
  loss_pos : 0 < p.lossKbtuh
  cap_gt : p.lossKbtuh < p.capKbtuh
  inlet_lt : inlet < p.supply
  storage_ge : p.supply ≤ storage

theorem swingMixed_ok {vol t hw primary : K} (h0 : 0 ≤ hw) (hlt : hw < vol) :
    ∃ m, swingMixed vol t hw primary = .ok m ∧ vol * (m - t) = hw * (primary - t) := by
  have hv : vol ≠ 0 := (h0.trans_lt hlt).ne'
  unfold swingMixed
  split
  · rw [if_neg (by linarith)]
    refine ⟨_, rfl, ?_⟩
    field_simp
    ring
  · rename_i hn
    have : hw = 0 := le_antisymm (not_lt.1 hn) h0
    exact ⟨t, rfl, by rw [this]; ring⟩

theorem swingElement_ok {supply : K} (heating : Bool) {m L D : K} (hm : supply ≤ m) (hL : 0 < L)
    (hLD : L < D) :
    ∃ h' t' r, swingElement supply heating (m - L) D = .ok (h', t', r) ∧ supply ≤ t' ∧ 0 ≤ r ∧ r ≤ 1 := by
  have hDp : 0 < D := hL.trans hLD
  unfold swingElement
  cases heating
  · simp only [Bool.false_eq_true, if_false]
    by_cases hle : m - L ≤ supply
    · have hq : (supply - (m - L)) / D < 1 := by rw [div_lt_one hDp]; linarith
      have hq0 : 0 ≤ (supply - (m - L)) / D := div_nonneg (by linarith) hDp.le
      have e : m - L + D * ((supply - (m - L)) / D) = supply := by
        rw [mul_div_cancel₀ _ hDp.ne']; ring
      rw [if_pos hle, fdiv_ok _ hDp.ne']
      simp only [Except.map, min_eq_left hq.le, e]
      exact ⟨_, _, _, rfl, le_refl _, hq0, hq.le⟩
    · rw [if_neg hle]
      exact ⟨_, _, _, rfl, (not_le.1 hle).le, le_refl _, zero_le_one⟩
  · simp only [if_true]
    by_cases hlt8 : supply + 8 < m - L + D
    · have hq0 : 0 ≤ (m - L + D - (supply + 8)) / D := div_nonneg (by linarith) hDp.le
      have hge : supply ≤ m - L + D - D * min ((m - L + D - (supply + 8)) / D) 1 := by
        have h1 : D * min ((m - L + D - (supply + 8)) / D) 1 ≤ m - L + D - (supply + 8) := by
          calc _ ≤ D * ((m - L + D - (supply + 8)) / D) :=
                mul_le_mul_of_nonneg_left (min_le_left _ _) hDp.le
            _ = _ := mul_div_cancel₀ _ hDp.ne'
        linarith
      rw [if_pos hlt8, fdiv_ok _ hDp.ne']
      simp only [Except.map]
      refine ⟨_, _, _, rfl, hge, ?_, ?_⟩
      · have := min_le_right ((m - L + D - (supply + 8)) / D) 1
        linarith
      · have : 0 ≤ min ((m - L + D - (supply + 8)) / D) 1 := le_min hq0 zero_le_one
        linarith
    · rw [if_neg hlt8]
      exact ⟨_, _, _, rfl, by linarith, zero_le_one, le_refl _⟩

theorem swingStep_ok {p : SwingParams K} {inlet storage : K} (ok : SwingOk p inlet storage)
    (heating : Bool) {t hw : K} (ht : p.supply ≤ t) (h0 : 0 ≤ hw) (hlt : hw < p.vol) :
    ∃ h' t' r, swingStep p heating t hw storage = .ok (h', t', r) ∧ p.supply ≤ t' ∧ 0 ≤ r ∧ r ≤ 1 := by
  obtain ⟨hv, hl, hc, hi, hs⟩ := ok
  have hrho := rho_pos (K := K)
  have hrv : 0 < rhoCp K * p.vol := mul_pos hrho hv
  obtain ⟨m, hm, hmt⟩ := swingMixed_ok (t := t) (primary := storage) h0 hlt
  have hms : p.supply ≤ m := by
    have h1 : p.vol * (m - p.supply) = hw * (storage - p.supply) + (p.vol - hw) * (t - p.supply) := by
      linear_combination hmt
    have h2 : 0 ≤ p.vol * (m - p.supply) := by
      rw [h1]
      exact add_nonneg (mul_nonneg h0 (by linarith)) (mul_nonneg (by linarith) (by linarith))
    linarith [nonneg_of_mul_nonneg_right h2 hv]
  obtain ⟨h', t', r, he, h1, h2, h3⟩ := swingElement_ok heating hms
    (L := p.lossKbtuh * 1000 / 60 / (rhoCp K * p.vol)) (D := p.capKbtuh * 1000 / 60 / (rhoCp K * p.vol))
    (by positivity) (div_lt_div_of_pos_right (by linarith) hrv)
  refine ⟨h', t', r, ?_, h1, h2, h3⟩
  simp only [swingStep, hm, he, ok_bind, if_neg (not_lt.2 h1), pure_eq_ok]

theorem swingDraw_bounds {supply inlet t d : K} (hi : inlet < supply) (ht : supply ≤ t) (hd : 0 ≤ d) :
    0 ≤ swingDraw supply inlet t d ∧ swingDraw supply inlet t d ≤ d := by
  have h1 : 0 < t - inlet := by linarith
  unfold swingDraw
  rw [if_pos (by linarith)]
  refine ⟨div_nonneg (mul_nonneg hd (by linarith)) h1.le, ?_⟩
  rw [div_le_iff₀ h1]
  exact mul_le_mul_of_nonneg_left (by linarith) hd

/-- What C67 says about one minute: the tank is at or above supply, the element ran for a fraction of the minute, and
the primary sends no more than the building takes. -/
def SwingFine (supply : K) (d : K) (row : SwingMin K) : Prop :=
  supply ≤ row.temp ∧ 0 ≤ row.run ∧ row.run ≤ 1 ∧ 0 ≤ row.hw ∧ row.hw ≤ d

theorem simSwingFrom_ok {p : SwingParams K} {inlet storage : K} (ok : SwingOk p inlet storage)
    (ds : List K) (hd : ∀ d ∈ ds, 0 ≤ d ∧ d < p.vol) (heating : Bool) {t : K} (ht : p.supply ≤ t) :
    ∃ rows, simSwingFrom p inlet storage heating t ds = .ok rows ∧
      List.Forall₂ (SwingFine p.supply) ds rows := by
  induction ds generalizing heating t with
  | nil => exact ⟨[], rfl, .nil⟩
  | cons d ds ih =>
    obtain ⟨hd0, hd1⟩ := hd d (by simp)
    obtain ⟨b1, b2⟩ := swingDraw_bounds ok.inlet_lt ht hd0
    obtain ⟨h', t', r, hs, h1, h2, h3⟩ := swingStep_ok ok heating ht b1 (b2.trans_lt hd1)
    obtain ⟨rows, hrows, hf⟩ := ih (fun x hx => hd x (by simp [hx])) h' h1
    refine ⟨⟨t', r, swingDraw p.supply inlet t d⟩ :: rows, ?_, .cons ⟨h1, h2, h3, b1, b2⟩ hf⟩
    simp only [simSwingFrom, hs, hrows, ok_bind, pure_eq_ok]

/-- **C67.** For a swing tank larger than every minute's draw, an element stronger than a positive loop loss and
inlet < supply ≤ storage, the sizing simulation of any non-empty demand sequence from any start at or above
supply succeeds; in every minute the tank is at or above supply and the primary sends between nothing and
the actual demand. -/
theorem C67_simulation_never_fails {p : SwingParams K} {inlet storage init : K}
    (ok : SwingOk p inlet storage) (hinit : p.supply ≤ init) (ds : List K) (hne : ds ≠ [])
    (hd : ∀ d ∈ ds, 0 ≤ d ∧ d < p.vol) :
    ∃ rows, simSwing p inlet storage init ds = .ok rows ∧ List.Forall₂ (SwingFine p.supply) ds rows := by
  cases ds with
  | nil => exact absurd rfl hne
  | cons d ds =>
    obtain ⟨rows, hrows, hf⟩ := simSwingFrom_ok ok ds (fun x hx => hd x (by simp [hx])) false hinit
    refine ⟨⟨init, 0, d⟩ :: rows, ?_, .cons ⟨hinit, le_refl _, zero_le_one, (hd d (by simp)).1, le_refl _⟩ hf⟩
    simp only [simSwing, hrows, ok_bind, pure_eq_ok]

/-- The strict inequality is needed: a tank exactly as large as the minute's draw, at supply temperature, raises the
`ValueError` of an undersized tank, although `size` accepts a tank equal to the need. -/
theorem C67_equal_volume_raises (p : SwingParams K) (hv : 0 < p.vol) (heating : Bool) (inlet storage t : K)
    (hi : inlet < p.supply) (ht : t = p.supply) :
    swingStep p heating t (swingDraw p.supply inlet t p.vol) storage = .error .valueError := by
  have e : swingDraw p.supply inlet t p.vol = p.vol := by
    have : p.supply - inlet ≠ 0 := by linarith
    unfold swingDraw
    rw [ht, if_pos hi, mul_div_assoc, div_self this, mul_one]
  unfold swingStep swingMixed
  rw [e, if_pos hv, sub_self, if_pos (le_refl 0)]
  rfl

/-! ## C79: heat balance -/

theorem swingMixed_heat {vol t hw primary m : K} (hv : vol ≠ 0) (h0 : 0 ≤ hw)
    (h : swingMixed vol t hw primary = .ok m) : vol * (m - t) = hw * (primary - t) := by
  unfold swingMixed at h
  split at h
  · split at h
    · simp at h
    · injection h with h
      rw [← h]
      field_simp
      ring
  · injection h with h
    rename_i hn
    have : hw = 0 := le_antisymm (not_lt.1 hn) h0
    rw [← h, this]; ring

theorem swingElement_heat {supply t1 dT t' r : K} {heating h' : Bool}
    (h : swingElement supply heating t1 dT = .ok (h', t', r)) : t' = t1 + dT * r := by
  unfold swingElement at h
  split at h
  · split at h
    · cases hf : fdiv (t1 + dT - (supply + 8)) dT with
      | error e => rw [hf] at h; simp [Except.map] at h
      | ok q =>
        rw [hf] at h
        simp only [Except.map, Except.ok.injEq, Prod.mk.injEq] at h
        obtain ⟨-, rfl, rfl⟩ := h
        ring
    · simp only [Except.ok.injEq, Prod.mk.injEq] at h
      obtain ⟨-, rfl, rfl⟩ := h
      ring
  · split at h
    · cases hf : fdiv (supply - t1) dT with
      | error e => rw [hf] at h; simp [Except.map] at h
      | ok q =>
        rw [hf] at h
        simp only [Except.map, Except.ok.injEq, Prod.mk.injEq] at h
        obtain ⟨-, rfl, rfl⟩ := h
        ring
    · simp only [Except.ok.injEq, Prod.mk.injEq] at h
      obtain ⟨-, rfl, rfl⟩ := h
      ring

theorem swingStep_ge {p : SwingParams K} {heating h' : Bool} {t hw primary t' r : K}
    (h : swingStep p heating t hw primary = .ok (h', t', r)) : p.supply ≤ t' := by
  simp only [swingStep, bind_eq_ok] at h
  obtain ⟨m, -, x, -, hfin⟩ := h
  split at hfin
  · simp at hfin
  · rename_i hn
    simp only [pure_eq_ok, Except.ok.injEq] at hfin
    subst hfin
    exact not_lt.1 hn

theorem swingStep_heat {p : SwingParams K} (hv : p.vol ≠ 0) {heating h' : Bool} {t hw primary t' r : K}
    (h0 : 0 ≤ hw) (h : swingStep p heating t hw primary = .ok (h', t', r)) :
    p.vol * rhoCp K * (t' - t) = hw * rhoCp K * (primary - t) - p.lossKbtuh * 1000 / 60
      + r * (p.capKbtuh * 1000 / 60) := by
  have hrho := (rho_pos (K := K)).ne'
  simp only [swingStep, bind_eq_ok] at h
  obtain ⟨m, hm, x, hx, hfin⟩ := h
  have hxr : x = (h', t', r) := by
    split at hfin
    · simp at hfin
    · simpa [pure_eq_ok] using hfin
  subst hxr
  have e := swingElement_heat hx
  have hmix := swingMixed_heat hv h0 hm
  have hD' : p.vol * rhoCp K * (p.capKbtuh * 1000 / 60 / (rhoCp K * p.vol)) = p.capKbtuh * 1000 / 60 := by
    field_simp
  have hL' : p.vol * rhoCp K * (p.lossKbtuh * 1000 / 60 / (rhoCp K * p.vol)) = p.lossKbtuh * 1000 / 60 := by
    field_simp
  rw [e]
  linear_combination rhoCp K * hmix - hL' + r * hD'

/-- The last temperature of a simulated stretch that starts at `t`. -/
def lastTemp (t : K) (rows : List (SwingMin K)) : K := (rows.getLast?.map (·.temp)).getD t

theorem lastTemp_cons (t : K) (r : SwingMin K) (rows : List (SwingMin K)) :
    lastTemp t (r :: rows) = lastTemp r.temp rows := by
  unfold lastTemp
  cases rows with
  | nil => rfl
  | cons a l => simp [List.getLast?_cons_cons, List.getLast?_cons]

theorem simSwingFrom_heat {p : SwingParams K} (hv : p.vol ≠ 0) {inlet storage : K}
    (hi : inlet < p.supply) (ds : List K) (hd : ∀ d ∈ ds, 0 ≤ d) (heating : Bool) {t : K}
    (ht : p.supply ≤ t) {rows : List (SwingMin K)}
    (h : simSwingFrom p inlet storage heating t ds = .ok rows) :
    p.vol * rhoCp K * (lastTemp t rows - t) =
      (rows.map (·.hw)).sum * rhoCp K * (storage - inlet) - ds.sum * rhoCp K * (p.supply - inlet)
        - (ds.length : K) * (p.lossKbtuh * 1000 / 60)
        + (rows.map (·.run)).sum * (p.capKbtuh * 1000 / 60) := by
  induction ds generalizing heating t rows with
  | nil =>
    simp only [simSwingFrom, Except.ok.injEq] at h
    subst h
    simp [lastTemp]
  | cons d ds ih =>
    simp only [simSwingFrom, bind_eq_ok, pure_eq_ok, Except.ok.injEq] at h
    obtain ⟨⟨h', t', r⟩, hs, rest, hrest, rfl⟩ := h
    have hb := swingDraw_bounds hi ht (hd d (by simp))
    have hst := swingStep_heat hv hb.1 hs
    have ht' := swingStep_ge hs
    have := ih (fun x hx => hd x (by simp [hx])) h' ht' hrest
    have hdraw : swingDraw p.supply inlet t d * (t - inlet) = d * (p.supply - inlet) := by
      unfold swingDraw
      have h1 : t - inlet ≠ 0 := by linarith
      rw [if_pos (by linarith), div_mul_cancel₀ _ h1]
    rw [lastTemp_cons]
    simp only [List.map_cons, List.sum_cons, List.length_cons]
    push_cast
    linear_combination this + hst - rhoCp K * hdraw

/-- **C79.** Over any horizon of the swing sizing simulation (after the first minute, which is not simulated) heat is
conserved: heat sent by the primary (its water warmed from inlet to storage temperature) plus element heat equals
heat delivered to the building plus loop losses plus the change of the swing tank's heat. -/
theorem C79_heat_conserved {p : SwingParams K} (hv : p.vol ≠ 0) {inlet storage init d0 : K}
    (hi : inlet < p.supply) (hinit : p.supply ≤ init) (ds : List K) (hd : ∀ d ∈ ds, 0 ≤ d)
    {row0 : SwingMin K} {rows : List (SwingMin K)}
    (h : simSwing p inlet storage init (d0 :: ds) = .ok (row0 :: rows)) :
    (rows.map (·.hw)).sum * rhoCp K * (storage - inlet) + (rows.map (·.run)).sum * (p.capKbtuh * 1000 / 60)
      = ds.sum * rhoCp K * (p.supply - inlet) + (ds.length : K) * (p.lossKbtuh * 1000 / 60)
        + p.vol * rhoCp K * (lastTemp init rows - init) := by
  simp only [simSwing, bind_eq_ok, pure_eq_ok, Except.ok.injEq, List.cons.injEq] at h
  obtain ⟨rest, hrest, -, rfl⟩ := h
  have := simSwingFrom_heat hv hi ds hd false hinit hrest
  linear_combination -this

/-! ## C80: the running volume -/

theorem swingFold {α : Type} {w : α → Py (K × Option K)} {l : List α} {acc r : K × K}
    (h0 : 0 ≤ acc.1)
    (h : l.foldlM (fun acc x => (w x).map (swingPick acc)) acc = .ok r) :
    acc.1 ≤ r.1 ∧ (∀ x ∈ l, ∃ eff d, w x = .ok (eff, d) ∧ d.getD 0 ≤ r.1) ∧
      (r = acc ∨ ∃ x ∈ l, ∃ eff v, w x = .ok (eff, some v) ∧ r = (v, eff)) := by
  induction l generalizing acc with
  | nil =>
    simp only [List.foldlM_nil, pure_eq_ok, Except.ok.injEq] at h
    subst h
    exact ⟨le_refl _, by simp, Or.inl rfl⟩
  | cons x l ih =>
    simp only [List.foldlM_cons, bind_eq_ok] at h
    obtain ⟨a, ha, hr⟩ := h
    cases hw : w x with
    | error e => rw [hw] at ha; simp [Except.map] at ha
    | ok y =>
      obtain ⟨eff, d⟩ := y
      rw [hw] at ha
      simp only [Except.map, Except.ok.injEq] at ha
      have hle : acc.1 ≤ a.1 ∧ d.getD 0 ≤ a.1 ∧ (a = acc ∨ ∃ v, d = some v ∧ a = (v, eff)) := by
        rw [← ha]
        unfold swingPick
        cases d with
        | none => exact ⟨le_refl _, h0, Or.inl rfl⟩
        | some v =>
          simp only [Option.getD_some]
          split
          · rename_i hlt
            exact ⟨hlt.le, le_refl _, Or.inr ⟨v, rfl, rfl⟩⟩
          · rename_i hn
            exact ⟨le_refl _, not_lt.1 hn, Or.inl rfl⟩
      obtain ⟨h1, h2, h3⟩ := ih (h0.trans hle.1) hr
      refine ⟨hle.1.trans h1, ?_, ?_⟩
      · intro z hz
        rcases List.mem_cons.1 hz with rfl | hz
        · exact ⟨eff, d, hw, hle.2.1.trans h1⟩
        · exact h2 z hz
      · rcases h3 with rfl | ⟨z, hz, h4⟩
        · rcases hle.2.2 with rfl | ⟨v, rfl, rfl⟩
          · exact Or.inl rfl
          · exact Or.inr ⟨x, by simp, eff, v, hw, rfl⟩
        · exact Or.inr ⟨z, by simp [hz], h4⟩

namespace Spec

/-- Minute by minute, hours in which water is drawn evenly. -/
def byMinute (hourly : List K) : List K := (List.range (60 * hourly.length)).map (fun m => hourly.getD (m / 60) 0 / 60)

/-- Demand per minute over the 24 hours from hour `start` of a repeated day. -/
def dayFrom (shape : List K) (daily : K) (start : Nat) : List K :=
  byMinute ((((shape ++ shape).drop start).take 24).map (fun f => f * daily))

/-- The shortfall after `n` minutes of a plant that makes `gen` gallons every minute while `hw` are taken. -/
def swingShort (gen : K) (hw : List K) (n : Nat) : K := (hw.take n).sum - (min n hw.length : Nat) * gen

/-- The gallons per minute of a plant that makes the day's total `total` in `runHr` hours. -/
def genPerMinute (total runHr : K) : K := total / runHr / 60

end Spec

theorem perMinute_getElem? (l : List K) (i : ℕ) : (perMinute l)[i]? = l[i / 60]?.map (· / 60) := by
  induction l generalizing i with
  | nil => simp [perMinute]
  | cons a l ih =>
    have e : perMinute (a :: l) = List.replicate 60 (a / 60) ++ perMinute l := rfl
    rw [e, List.getElem?_append]
    by_cases hi : i < 60
    · rw [List.length_replicate, if_pos hi, List.getElem?_replicate, if_pos hi, Nat.div_eq_of_lt hi]
      rfl
    · rw [List.length_replicate, if_neg hi, ih]
      have : i / 60 = (i - 60) / 60 + 1 := by omega
      rw [this, List.getElem?_cons_succ]

theorem perMinute_length (l : List K) : (perMinute l).length = 60 * l.length := by
  induction l with
  | nil => rfl
  | cons a l ih =>
    have e : perMinute (a :: l) = List.replicate 60 (a / 60) ++ perMinute l := rfl
    rw [e, List.length_append, ih, List.length_replicate, List.length_cons]
    ring

theorem perMinute_eq (l : List K) : perMinute l = Spec.byMinute l := by
  apply List.ext_getElem?
  intro i
  rw [perMinute_getElem?]
  unfold Spec.byMinute
  rw [List.getElem?_map]
  by_cases hi : i < 60 * l.length
  · have h : i / 60 < l.length := by omega
    rw [List.getElem?_range hi, List.getElem?_eq_getElem h]
    simp [List.getD_eq_getElem?_getD, List.getElem?_eq_getElem h]
  · rw [List.getElem?_eq_none (by omega), List.getElem?_eq_none (by simpa using hi)]
    rfl

theorem sum_map_sub (g : K) (l : List K) : (l.map (fun x => g - x)).sum = (l.length : K) * g - l.sum := by
  induction l with
  | nil => simp
  | cons a l ih =>
    simp only [List.map_cons, List.sum_cons, ih, List.length_cons]
    push_cast
    ring

/-- What one start hour contributes: the simulated primary demand and its worst shortfall. -/
theorem swingWindow_spec {s : SwingSys K} {b : Building K} {inlet : K} {start : Nat} {eff : K}
    {d : Option K} (hd : b.dailyGal ≠ 0) (h : swingWindow s b inlet start = .ok (eff, d)) :
    ∃ p rows, s.params = .ok p ∧
      simSwing p inlet s.base.cfg.storage (swingInit s.base.cfg.supply)
        (Spec.dayFrom b.peakShape b.dailyGal start) = .ok rows ∧
      eff * b.dailyGal = (rows.map (·.hw)).sum ∧
      0 ≤ d.getD 0 ∧
      (∀ n, Spec.swingShort (Spec.genPerMinute (rows.map (·.hw)).sum s.base.cfg.maxRunHr)
        (rows.map (·.hw)) n ≤ d.getD 0) ∧
      (∀ v, d = some v → ∃ n, v = Spec.swingShort
        (Spec.genPerMinute (rows.map (·.hw)).sum s.base.cfg.maxRunHr) (rows.map (·.hw)) n) := by
  simp only [swingWindow, swingPrimary, bind_eq_ok, pure_eq_ok, Except.ok.injEq, Prod.mk.injEq] at h
  obtain ⟨hw, ⟨p, hp, rows, hrows, rfl⟩, rfl, hdef⟩ := h
  refine ⟨p, rows, hp, by rw [perMinute_eq] at hrows; exact hrows, div_mul_cancel₀ _ hd, ?_⟩
  set hw := rows.map (·.hw) with hhw
  have hg : 1 / s.base.cfg.maxRunHr / 60 * b.dailyGal * (hw.sum / b.dailyGal)
      = Spec.genPerMinute hw.sum s.base.cfg.maxRunHr := by
    unfold Spec.genPerMinute
    rw [mul_assoc, mul_div_cancel₀ _ hd]
    ring
  rw [hg] at hdef
  set g := Spec.genPerMinute hw.sum s.base.cfg.maxRunHr with hgdef
  have hget : d.getD 0 = worstNegative (cumsum (hw.map (fun x => g - x))) := by
    unfold worstNegative
    rw [← hdef]
    cases ((cumsum (hw.map (fun x => g - x))).filter (fun x => decide (x < 0))).min? <;> rfl
  have hshort : ∀ n, -((hw.map (fun x => g - x)).take n).sum = Spec.swingShort g hw n := by
    intro n
    rw [← List.map_take, sum_map_sub, List.length_take]
    unfold Spec.swingShort
    ring
  refine ⟨hget ▸ worstNegative_nonneg _, ?_, ?_⟩
  · intro n
    rw [hget]
    rcases Nat.eq_zero_or_pos (min n hw.length) with h0 | hpos
    · rw [Spec.swingShort, h0, List.take_eq_take_min, h0]
      simpa using worstNegative_nonneg _
    · have : Spec.swingShort g hw n = Spec.swingShort g hw (min n hw.length) := by
        unfold Spec.swingShort
        rw [List.take_eq_take_min]
        simp
      rw [this, ← hshort]
      apply worstNegative_ge
      rw [mem_cumsum]
      refine ⟨min n hw.length - 1, ?_, ?_⟩
      · have := List.length_map (fun x => g - x) (as := hw)
        omega
      · congr 2; omega
  · intro v hv
    rw [hv] at hdef
    simp only [Option.map_eq_some_iff] at hdef
    obtain ⟨m, hm, rfl⟩ := hdef
    have hmem := (List.mem_filter.1 (List.min?_eq_some_iff.1 hm).1).1
    rw [mem_cumsum] at hmem
    obtain ⟨k, hk, rfl⟩ := hmem
    exact ⟨k + 1, by rw [← hshort]⟩

namespace Spec

/-- At hour `i` of the day a deficit begins: the hour takes more than an hour's share of the run hours, the hour before (the last
of the day before, for the first) does not. -/
def DeficitStart (shape : List K) (runHr : K) (i : ℕ) : Prop :=
  ∃ f g, shape[i]? = some f ∧ shape[(i + shape.length - 1) % shape.length]? = some g ∧ 1 / runHr < f ∧ g ≤ 1 / runHr

/-- The first hour of the day at which a deficit begins; the first hour of the day if none does. -/
def FirstDeficit (shape : List K) (runHr : K) (start : ℕ) : Prop :=
  DeficitStart shape runHr start ∧ (∀ i < start, ¬ DeficitStart shape runHr i) ∨
    start = 0 ∧ ∀ i, ¬ DeficitStart shape runHr i

/-- The hours of the day at which a deficit begins, and the hours after them. -/
def TriedStart (shape : List K) (runHr : K) (i : ℕ) : Prop :=
  i < 24 ∧ (DeficitStart shape runHr i ∨ ∃ j, DeficitStart shape runHr j ∧ i = j + 1)

end Spec

theorem mem_deficit (shape : List K) (r : K) (i : ℕ) :
    i ∈ peakIndices (shape.map (fun f => 1 / r - f)) ↔ Spec.DeficitStart shape r i := by
  unfold peakIndices Spec.DeficitStart
  simp only [List.mem_filter, List.mem_range, List.length_map, Bool.and_eq_true, decide_eq_true_eq]
  constructor
  · rintro ⟨h, h1, h2⟩
    have hm : (i + shape.length - 1) % shape.length < shape.length := Nat.mod_lt _ (by omega)
    refine ⟨shape[i], shape[(i + shape.length - 1) % shape.length], by simp [h], by simp [hm], ?_, ?_⟩
    · simp only [List.getD_eq_getElem?_getD, List.getElem?_map, List.getElem?_eq_getElem h, Option.map_some,
        Option.getD_some] at h2
      linarith
    · simp only [List.getD_eq_getElem?_getD, List.getElem?_map, List.getElem?_eq_getElem hm, Option.map_some,
        Option.getD_some] at h1
      linarith
  · rintro ⟨f, g, h1, h2, h3, h4⟩
    obtain ⟨h, -⟩ := List.getElem?_eq_some_iff.mp h1
    refine ⟨h, ?_, ?_⟩
    · simp only [List.getD_eq_getElem?_getD, List.getElem?_map, h2, Option.map_some, Option.getD_some]; linarith
    · simp only [List.getD_eq_getElem?_getD, List.getElem?_map, h1, Option.map_some, Option.getD_some]; linarith

theorem firstDeficit_iff (shape : List K) (r : K) (start : ℕ) : Spec.FirstDeficit shape r start ↔
    (peakIndices (shape.map (fun f => 1 / r - f))).head?.getD 0 = start := by
  have hm := mem_deficit shape r
  have hs : (peakIndices (shape.map (fun f => 1 / r - f))).Pairwise (· < ·) := by
    unfold peakIndices
    exact List.pairwise_lt_range.filter _
  unfold Spec.FirstDeficit
  simp only [← hm]
  cases hp : peakIndices (shape.map (fun f => 1 / r - f)) with
  | nil => simp [eq_comm]
  | cons a l =>
    rw [hp, List.pairwise_cons] at hs
    simp only [List.head?_cons, Option.getD_some]
    constructor
    · rintro (⟨h1, h2⟩ | ⟨-, h⟩)
      · rcases List.mem_cons.1 h1 with h1 | h1
        · exact h1.symm
        · exact absurd (List.mem_cons_self ..) (h2 a (hs.1 _ h1))
      · exact absurd (List.mem_cons_self ..) (h a)
    · rintro rfl
      refine .inl ⟨List.mem_cons_self .., fun i hi h => ?_⟩
      rcases List.mem_cons.1 h with h | h
      · omega
      · exact absurd (hs.1 _ h) (by omega)

theorem mem_tried (shape : List K) (r : K) (i : ℕ) :
    i ∈ swingStarts (peakIndices (shape.map (fun f => 1 / r - f))) ↔ Spec.TriedStart shape r i := by
  unfold swingStarts Spec.TriedStart
  simp only [List.mem_filter, List.mem_range, decide_eq_true_eq, mem_deficit]
  constructor
  · rintro ⟨h1, h2 | ⟨j, hj, rfl⟩⟩
    · exact ⟨h1, .inl h2⟩
    · exact ⟨h1, .inr ⟨j, hj, rfl⟩⟩
  · rintro ⟨h1, h2 | ⟨j, hj, rfl⟩⟩
    · exact ⟨h1, .inl h2⟩
    · exact ⟨h1, .inr ⟨j, hj, rfl⟩⟩

/-- **C80.** When the peak shape has a start of deficit, the primary running volume of a swing system, in gallons at
storage temperature, is at least the shortfall after any number of minutes of the day simulated from every tried
start hour, is zero or one of these shortfalls, and the stored effective mix fraction belongs to that day. -/
theorem C80_running_volume {s : SwingSys K} {b : Building K} {rv eff : K}
    (hd : b.dailyGal ≠ 0) (h : runVolSwing s b = .ok (rv, some eff)) :
    ∃ inlet v, requireDesignInlet b = .ok inlet ∧ s.base.cfg.supply ≠ inlet ∧
      rv = v * ((s.base.cfg.storage - inlet) / (s.base.cfg.supply - inlet)) ∧ 0 ≤ v ∧
      (∀ start, Spec.TriedStart b.peakShape s.base.cfg.maxRunHr start →
        ∃ p rows, s.params = .ok p ∧
          simSwing p inlet s.base.cfg.storage (swingInit s.base.cfg.supply)
            (Spec.dayFrom b.peakShape b.dailyGal start) = .ok rows ∧
          ∀ n, Spec.swingShort (Spec.genPerMinute (rows.map (·.hw)).sum s.base.cfg.maxRunHr)
            (rows.map (·.hw)) n ≤ v) ∧
      ((v = 0 ∧ eff = 1) ∨
        ∃ start, Spec.TriedStart b.peakShape s.base.cfg.maxRunHr start ∧
        ∃ p rows n, s.params = .ok p ∧
          simSwing p inlet s.base.cfg.storage (swingInit s.base.cfg.supply)
            (Spec.dayFrom b.peakShape b.dailyGal start) = .ok rows ∧
          eff * b.dailyGal = (rows.map (·.hw)).sum ∧
          v = Spec.swingShort (Spec.genPerMinute (rows.map (·.hw)).sum s.base.cfg.maxRunHr)
            (rows.map (·.hw)) n) := by
  unfold runVolSwing at h
  simp only [bind_eq_ok, pure_eq_ok] at h
  obtain ⟨inlet, hin, h⟩ := h
  refine ⟨inlet, ?_⟩
  split at h
  · simp at h
  · split at h
    · simp at h
    · split at h
      · simp at h
      · simp only [bind_eq_ok, Except.ok.injEq, Prod.mk.injEq, Option.some.injEq] at h
        obtain ⟨⟨v, e⟩, hr, q, hq, rfl, rfl⟩ := h
        rw [fdiv_eq_ok] at hq
        obtain ⟨hne, rfl⟩ := hq
        obtain ⟨h1, h2, h3⟩ := swingFold (le_refl (0 : K)) hr
        refine ⟨v, hin, sub_ne_zero.1 hne, rfl, h1, ?_, ?_⟩
        · intro start hs
          obtain ⟨eff, d, hw, hle⟩ := h2 start ((mem_tried _ _ _).mpr hs)
          obtain ⟨p, rows, hp, hrows, -, -, hsh, -⟩ := swingWindow_spec hd hw
          exact ⟨p, rows, hp, hrows, fun n => (hsh n).trans hle⟩
        · rcases h3 with h3 | ⟨start, hs, eff, w, hw, h3⟩
          · injection h3 with h3 h4
            exact Or.inl ⟨h3, h4⟩
          · injection h3 with h3 h4
            subst h3 h4
            obtain ⟨p, rows, hp, hrows, heff, -, -, hat⟩ := swingWindow_spec hd hw
            obtain ⟨n, hn⟩ := hat _ rfl
            exact Or.inr ⟨start, (mem_tried _ _ _).mp hs, p, rows, n, hp, hrows, heff, hn⟩

/-! ## C67, continued: the running volume -/

theorem mem_perMinute {l : List K} {x : K} (h : x ∈ perMinute l) : ∃ y ∈ l, x = y / 60 := by
  simp only [perMinute, List.mem_flatMap] at h
  obtain ⟨y, hy, hx⟩ := h
  exact ⟨y, hy, List.eq_of_mem_replicate hx⟩

theorem length_perMinute (l : List K) : (perMinute l).length = 60 * l.length := by
  induction l with
  | nil => rfl
  | cons a l ih =>
    simp only [perMinute, List.flatMap_cons, List.length_append, List.length_replicate, List.length_cons] at *
    rw [ih]; omega

theorem sum_perMinute (l : List K) : (perMinute l).sum = l.sum := by
  induction l with
  | nil => rfl
  | cons a l ih =>
    simp only [perMinute, List.flatMap_cons, List.sum_append, List.sum_replicate, List.sum_cons] at *
    rw [ih, nsmul_eq_mul]
    push_cast
    ring

theorem dayFrom_mem {shape : List K} {daily : K} {start : Nat} {x : K}
    (h : x ∈ Spec.dayFrom shape daily start) : ∃ f ∈ shape, x = f * daily / 60 := by
  unfold Spec.dayFrom at h
  rw [← perMinute_eq] at h
  obtain ⟨y, hy, rfl⟩ := mem_perMinute h
  obtain ⟨f, hf, rfl⟩ := List.mem_map.1 hy
  have := List.mem_of_mem_drop (List.mem_of_mem_take hf)
  exact ⟨f, by simpa using this, rfl⟩

theorem dayFrom_sum {shape : List K} (hl : shape.length = 24) {daily : K} {start : Nat} (hs : start ≤ 24) :
    (Spec.dayFrom shape daily start).sum = shape.sum * daily := by
  unfold Spec.dayFrom
  rw [← perMinute_eq, sum_perMinute, show ∀ l : List K, (l.map (fun f => f * daily)).sum = l.sum * daily by
    intro l
    induction l with
    | nil => simp
    | cons a l ih => simp only [List.map_cons, List.sum_cons, ih]; ring]
  congr 1
  have := take_sum_eq_wsum shape (p := start) (k := 24) (by omega)
  rw [this, ← hl, wsum_length]

theorem dayFrom_length {shape : List K} (hl : shape.length = 24) {daily : K} {start : Nat} (hs : start ≤ 24) :
    (Spec.dayFrom shape daily start).length = 1440 := by
  unfold Spec.dayFrom
  rw [← perMinute_eq, length_perMinute]
  simp only [List.length_map, List.length_take, List.length_drop, List.length_append, hl]
  omega

theorem fine_sum {supply : K} {ds : List K} {rows : List (SwingMin K)}
    (h : List.Forall₂ (SwingFine supply) ds rows) :
    0 ≤ (rows.map (·.hw)).sum ∧ (rows.map (·.hw)).sum ≤ ds.sum := by
  induction h with
  | nil => simp
  | cons h _ ih =>
    obtain ⟨-, -, -, h1, h2⟩ := h
    simp only [List.map_cons, List.sum_cons]
    exact ⟨add_nonneg h1 ih.1, add_le_add h2 ih.2⟩

/-- **C67 (sizing).** For a system whose swing tank has been sized with room to spare, the running-volume step of
sizing succeeds, and the effective mix fraction it stores is between zero and one when the shape sums to at most
one. -/
theorem C67_running_volume_never_fails {s : SwingSys K} {b : Building K} {p : SwingParams K} {inlet : K}
    (hp : s.params = .ok p) (hin : requireDesignInlet b = .ok inlet)
    (ok : SwingOk p inlet s.base.cfg.storage) (hsup : p.supply = s.base.cfg.supply)
    (hlen : b.peakShape.length = 24) (hd : 0 < b.dailyGal)
    (hshape : ∀ f ∈ b.peakShape, 0 ≤ f ∧ f * b.dailyGal / 60 < p.vol) (hsum : b.peakShape.sum ≤ 1) :
    ∃ rv eff, runVolSwing s b = .ok (rv, eff) ∧ 0 ≤ rv ∧ ∀ e, eff = some e → 0 ≤ e ∧ e ≤ 1 := by
  have hsi : s.base.cfg.supply - inlet ≠ 0 := by have := ok.inlet_lt; rw [hsup] at this; linarith
  have hwin : ∀ start, start < 24 → ∃ eff d, swingWindow s b inlet start = .ok (eff, d) ∧ 0 ≤ eff ∧ eff ≤ 1 := by
    intro start hs
    have hday := dayFrom_length hlen (daily := b.dailyGal) hs.le
    obtain ⟨rows, hrows, hf⟩ := C67_simulation_never_fails ok
      (init := swingInit s.base.cfg.supply) (by rw [hsup]; unfold swingInit; linarith)
      (Spec.dayFrom b.peakShape b.dailyGal start) (by intro h; rw [h] at hday; simp at hday) (by
        intro d hdm
        obtain ⟨f, hf, rfl⟩ := dayFrom_mem hdm
        exact ⟨div_nonneg (mul_nonneg (hshape f hf).1 hd.le) (by norm_num), (hshape f hf).2⟩)
    have hsm := fine_sum hf
    rw [dayFrom_sum hlen hs.le] at hsm
    have hrows' : simSwing p inlet s.base.cfg.storage (swingInit s.base.cfg.supply)
        (perMinute ((((b.peakShape ++ b.peakShape).drop start).take 24).map (fun f => f * b.dailyGal)))
        = .ok rows := by rw [perMinute_eq]; exact hrows
    have he : ∃ d, swingWindow s b inlet start = .ok ((rows.map (·.hw)).sum / b.dailyGal, d) := by
      simp only [swingWindow, swingPrimary, hp, hrows', ok_bind, pure_eq_ok]
      exact ⟨_, rfl⟩
    obtain ⟨d, he⟩ := he
    refine ⟨_, d, he, div_nonneg hsm.1 hd.le, ?_⟩
    rw [div_le_one hd]
    exact hsm.2.trans (by nlinarith)
  unfold runVolSwing
  simp only [hin, ok_bind, pure_eq_ok]
  rw [if_neg (by simp [hlen])]
  split
  · exact ⟨_, _, rfl, le_refl _, by simp⟩
  split
  · exact ⟨_, _, rfl, le_refl _, by simp⟩
  · rw [fdiv_ok _ hsi]
    have hfold : ∀ (l : List Nat) (acc : K × K), (∀ x ∈ l, x < 24) → 0 ≤ acc.1 → 0 ≤ acc.2 → acc.2 ≤ 1 →
        ∃ r, l.foldlM (fun acc start => (swingWindow s b inlet start).map (swingPick acc)) acc = .ok r ∧
          0 ≤ r.1 ∧ 0 ≤ r.2 ∧ r.2 ≤ 1 := by
      intro l
      induction l with
      | nil => intro acc _ h1 h2 h3; exact ⟨acc, rfl, h1, h2, h3⟩
      | cons x l ih =>
        intro acc hx h1 h2 h3
        obtain ⟨eff, d, hw, he0, he1⟩ := hwin x (hx x (by simp))
        simp only [List.foldlM_cons, hw, Except.map, ok_bind]
        apply ih _ (fun y hy => hx y (by simp [hy]))
        · unfold swingPick
          cases d with
          | none => exact h1
          | some v => dsimp only; split
                      · rename_i hlt; exact h1.trans hlt.le
                      · exact h1
        · unfold swingPick
          cases d with
          | none => exact h2
          | some v => dsimp only; split <;> assumption
        · unfold swingPick
          cases d with
          | none => exact h3
          | some v => dsimp only; split <;> assumption
    obtain ⟨r, hr, h1, h2, h3⟩ := hfold (swingStarts (peakIndices
      (b.peakShape.map (fun f => 1 / s.base.cfg.maxRunHr - f)))) (0, 1) (by
        intro x hx
        simp only [swingStarts, List.mem_filter, List.mem_range] at hx
        exact hx.1) (le_refl _) zero_le_one (le_refl _)
    rw [hr]
    simp only [ok_bind]
    refine ⟨_, _, rfl, mul_nonneg h1 ?_, ?_⟩
    · have := ok.inlet_lt
      have h2 := ok.storage_ge
      rw [hsup] at this h2
      exact div_nonneg (by linarith) (by linarith)
    · intro e he
      injection he with he
      subst he
      exact ⟨h2, h3⟩

namespace Demo

def swingP : SwingParams ℚ := ⟨40, 10, 12, 120⟩

end Demo

example : SwingOk Demo.swingP 50 150 := by constructor <;> norm_num [Demo.swingP]

namespace Demo

/-- A swing system whose tank has already been given 80 gallons and 20 kBtuh. -/
def swingTank : SwingSys ℚ := ⟨{ cfg := cfg }, 110, 3, 6/5, some 80, none, some 20, 1⟩

end Demo

/-- The hypotheses of C67 and C80 hold together for the demonstration building: it has peaks, and the running volume
is found with an effective mix fraction. -/
example : Demo.building.dailyGal ≠ 0 ∧
    ∃ rv eff, runVolSwing Demo.swingTank Demo.building = .ok (rv, some eff) ∧ 0 ≤ eff ∧ eff ≤ 1 := by
  refine ⟨by norm_num [Demo.building], ?_⟩
  obtain ⟨rv, eff, h, -, he⟩ := C67_running_volume_never_fails (s := Demo.swingTank) (b := Demo.building)
    (p := ⟨80, recircLossKbtuh 120 110 3, 20, 120⟩) (inlet := 50) rfl (by decide +kernel)
    (by constructor <;> norm_num [recircLossKbtuh, rhoCp, Demo.swingTank, Demo.cfg]) rfl rfl
    (by norm_num [Demo.building]) (by decide +kernel) (by decide +kernel)
  cases eff with
  | some e => exact ⟨rv, e, h, he e rfl⟩
  | none =>
    exfalso
    unfold runVolSwing at h
    simp only [bind_eq_ok, pure_eq_ok] at h
    obtain ⟨inlet, -, h⟩ := h
    rw [if_neg (by decide +kernel), if_neg (by decide +kernel), if_neg (by decide +kernel)] at h
    simp only [bind_eq_ok, Except.ok.injEq, Prod.mk.injEq, reduceCtorEq, and_false, exists_false] at h
example : ∃ rows, simSwing Demo.swingP 50 150 (swingInit 120) [1, 0, 30, 0, 5] = .ok rows ∧ rows.length = 5 := by
  obtain ⟨rows, h, hf⟩ := C67_simulation_never_fails (p := Demo.swingP) (inlet := 50) (storage := 150)
    (init := swingInit 120) (by constructor <;> norm_num [Demo.swingP]) (by norm_num [swingInit, Demo.swingP])
    [1, 0, 30, 0, 5] (by simp) (by
      simp only [Demo.swingP, List.mem_cons, List.not_mem_nil, or_false, forall_eq_or_imp, forall_eq]
      norm_num)
  exact ⟨rows, h, hf.length_eq.symm⟩

end Eco
