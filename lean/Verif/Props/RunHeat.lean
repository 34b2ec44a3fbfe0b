import Verif.Props.Simulate
import Mathlib.Algebra.BigOperators.Intervals

/-! C112: the heat balance of a simulated run. -/

namespace Eco
variable {K : Type} [Field K] [LinearOrder K] [IsStrictOrderedRing K]

set_option linter.unusedSectionVars false

open Spec

namespace StratTank

/-- Gallons at or above `supply` before they are limited to the tank: usable volume where the thermocline is inside. -/
def rawUsable (s : StratTank K) (supply : K) : K := s.vol - (supply - s.inter) / s.slope * s.vol / 100 + s.delta

theorem usable_raw (s : StratTank K) (hv : 0 < s.vol) (supply : K) :
    s.usable supply = max 0 (min s.vol (s.rawUsable supply)) := by
  unfold usable rawUsable shift
  simp only
  have e : (supply - s.inter) / s.slope - s.delta / s.vol * 100 =
      (s.vol - (s.vol - (supply - s.inter) / s.slope * s.vol / 100 + s.delta)) / s.vol * 100 := by
    field_simp; ring
  rw [e]
  set r := s.vol - (supply - s.inter) / s.slope * s.vol / 100 + s.delta
  rcases le_total r 0 with h | h
  · have h1 : 100 ≤ (s.vol - r) / s.vol * 100 := by
      have : 1 ≤ (s.vol - r) / s.vol := by rw [le_div_iff₀ hv]; linarith
      linarith
    rw [min_eq_left h1, max_eq_right (by norm_num), min_eq_right (by linarith), max_eq_left h]
    simp
  · rcases le_total r s.vol with h2 | h2
    · have h1 : (s.vol - r) / s.vol * 100 ≤ 100 := by
        have : (s.vol - r) / s.vol ≤ 1 := by rw [div_le_iff₀ hv]; linarith
        linarith
      have h3 : 0 ≤ (s.vol - r) / s.vol * 100 := by
        have : 0 ≤ (s.vol - r) / s.vol := div_nonneg (by linarith) hv.le
        linarith
      rw [min_eq_right h1, max_eq_right h3, min_eq_right h2, max_eq_right h]
      field_simp; ring
    · have h3 : (s.vol - r) / s.vol * 100 ≤ 0 := by
        have : (s.vol - r) / s.vol ≤ 0 := div_nonpos_of_nonpos_of_nonneg (by linarith) hv.le
        linarith
      rw [min_eq_right (h3.trans (by norm_num)), max_eq_left h3, min_eq_left h2, max_eq_right hv.le]
      simp

/-- The tank is at least as hot as `T` (above inlet, not above outlet temperature) at its top exactly if the raw usable
volume is not negative. -/
theorem top_iff (s : StratTank K) (hv : 0 < s.vol) (hs : 0 < s.slope) {T : K} (h1 : s.inlet < T) (h2 : T ≤ s.outlet) :
    T ≤ s.tempAt 1 ↔ 0 ≤ s.rawUsable T := by
  have e : s.rawUsable T = (s.slope * (1 * 100 + s.shift) + s.inter - T) * (s.vol / (100 * s.slope)) := by
    unfold rawUsable shift; field_simp; ring
  have hp : 0 < s.vol / (100 * s.slope) := by positivity
  rw [e]
  unfold tempAt
  constructor
  · intro h
    rcases le_max_iff.1 h with h | h
    · exact absurd h (not_le.2 h1)
    · exact mul_nonneg (by have := (le_min_iff.1 h).2; linarith) hp.le
  · intro h
    have h3 : 0 ≤ s.slope * (1 * 100 + s.shift) + s.inter - T := nonneg_of_mul_nonneg_left h hp
    exact le_max_of_le_right (le_min h2 (by linarith))

theorem rawUsable_sub (s : StratTank K) (hs : 0 < s.slope) (T U : K) :
    s.rawUsable T = s.rawUsable U + (U - T) * (s.vol / (100 * s.slope)) := by
  unfold rawUsable; field_simp; ring

/-- A draw out of water at outlet temperature has that average temperature. -/
theorem avgDraw_hot (s : StratTank K) (hv : 0 < s.vol) (hs : 0 < s.slope) (hio : s.inlet ≤ s.outlet) {gal : K}
    (hg : 0 < gal) (h : min gal s.vol ≤ s.rawUsable s.outlet) : s.avgDraw gal = s.outlet := by
  set d := min gal s.vol with hd
  have hd0 : 0 < d := lt_min hg hv
  have hd1 : d ≤ s.vol := min_le_right _ _
  have hx0 : 0 ≤ 100 - d / s.vol * 100 := by
    have : d / s.vol ≤ 1 := by rw [div_le_iff₀ hv]; linarith
    linarith
  have hw : 0 < d / s.vol * 100 := by positivity
  have hhot : (s.outlet - s.inter) / s.slope - s.shift ≤ 100 - d / s.vol * 100 := by
    have e : 100 - d / s.vol * 100 - ((s.outlet - s.inter) / s.slope - s.shift) =
        (s.rawUsable s.outlet - d) * (100 / s.vol) := by
      unfold rawUsable shift; field_simp; ring
    have : 0 ≤ (s.rawUsable s.outlet - d) * (100 / s.vol) := mul_nonneg (by linarith) (by positivity)
    linarith
  have hcold : (s.inlet - s.inter) / s.slope - s.shift ≤ (s.outlet - s.inter) / s.slope - s.shift := by
    have : (s.inlet - s.inter) / s.slope ≤ (s.outlet - s.inter) / s.slope :=
      div_le_div_of_nonneg_right (by linarith) hs.le
    linarith
  unfold avgDraw
  simp only
  rw [← hd, if_neg (not_le.2 hd0), max_eq_right hx0]
  have a1 : max 0 (min 100 ((s.outlet - s.inter) / s.slope - s.shift)) ≤ 100 - d / s.vol * 100 :=
    max_le hx0 ((min_le_right _ _).trans hhot)
  have a2 : max 0 (min 100 ((s.inlet - s.inter) / s.slope - s.shift)) ≤ 100 - d / s.vol * 100 :=
    max_le hx0 ((min_le_right _ _).trans (hcold.trans hhot))
  set xh := max 0 (min 100 ((s.outlet - s.inter) / s.slope - s.shift))
  set xc := max 0 (min 100 ((s.inlet - s.inter) / s.slope - s.shift))
  set xd := 100 - d / s.vol * 100 with hxd
  have hxd' : xd < 100 := by linarith
  have b1 : max 0 (min 100 xc - max xd 0) = 0 := by
    apply max_eq_left
    have := min_le_right 100 xc
    have := le_max_left xd 0
    linarith
  rw [b1, max_eq_left a2, if_neg (not_lt.2 ((min_le_right _ _).trans a1)), if_neg (by linarith), max_eq_left a1,
    max_eq_right (by linarith)]
  field_simp
  ring

/-- `draw` of a demand after which the top is still at outlet temperature takes exactly the outlet-temperature share. -/
theorem draw_exact (s : StratTank K) (hv : 0 < s.vol) (hs : 0 < s.slope) {vol cold supply outlet : K}
    (h0 : 0 ≤ vol) (h1 : cold < supply) (h2 : supply < outlet)
    (htop : (s.draw vol cold supply outlet).tempAt 1 = outlet) :
    (s.draw vol cold supply outlet).delta = s.delta - vol * (supply - cold) / (outlet - cold) := by
  rcases h0.eq_or_lt with rfl | h0
  · unfold draw; simp
  have hoc : 0 < outlet - cold := by linarith
  set phys := vol * (supply - cold) / (outlet - cold) with hphys
  have hp0 : 0 < phys := div_pos (mul_pos h0 (by linarith)) hoc
  set s0 : StratTank K := { s with inlet := cold, outlet := outlet } with hs0
  have hd : s.draw vol cold supply outlet =
      { s0 with delta := max (s.delta - s0.drawVol vol cold supply outlet) (s0.deltaFloor (some supply)) } := by
    unfold draw; simp only
    rw [if_neg (by rw [not_or, not_le, not_le]; exact ⟨by linarith, h0⟩)]
  rw [hd] at htop ⊢
  simp only
  set δ := max (s.delta - s0.drawVol vol cold supply outlet) (s0.deltaFloor (some supply)) with hδ
  have hraw := (top_iff { s0 with delta := δ } hv hs (T := outlet) (by show cold < outlet; linarith) le_rfl).1
    (le_of_eq htop.symm)
  have hfl : s0.deltaFloor (some supply) < δ := by
    have e : ({ s0 with delta := δ } : StratTank K).rawUsable outlet =
        δ - s0.deltaFloor (some supply) - (outlet - supply) * (s.vol / (100 * s.slope)) := by
      unfold rawUsable deltaFloor; simp only [hs0, Option.getD_some]; field_simp; ring
    rw [e] at hraw
    have : 0 < (outlet - supply) * (s.vol / (100 * s.slope)) := mul_pos (by linarith) (by positivity)
    linarith
  have hδ' : δ = s.delta - s0.drawVol vol cold supply outlet := by
    rcases max_choice (s.delta - s0.drawVol vol cold supply outlet) (s0.deltaFloor (some supply)) with h | h
    · exact h
    · rw [← hδ] at h; exact absurd h hfl.ne'
  rw [hδ']
  congr 1
  have hge : min phys s.vol ≤ s0.drawVol vol cold supply outlet := by
    unfold drawVol
    simp only
    split
    · exact min_le_left _ _
    · obtain ⟨a, b⟩ := search_ge s0 vol cold supply (min phys s.vol) 52 phys s.vol (min_le_left _ _) (min_le_right _ _)
      have hv0 : s0.vol = s.vol := rfl
      rw [hv0]
      refine le_min ?_ (min_le_right _ _)
      rw [← hphys]
      linarith
  have havg : s0.avgDraw phys = outlet := by
    refine avgDraw_hot s0 hv hs (by show cold ≤ outlet; linarith) hp0 ?_
    show min phys s.vol ≤ s0.rawUsable outlet
    have e : ({ s0 with delta := δ } : StratTank K).rawUsable outlet = s0.rawUsable outlet - (s.delta - δ) := by
      unfold rawUsable; simp only [hs0]; ring
    rw [e, hδ'] at hraw
    linarith
  unfold drawVol
  simp only
  rw [← hphys, havg, if_pos (by linarith)]

theorem draw_inter (s : StratTank K) (v c su o : K) : (s.draw v c su o).inter = s.inter := by
  unfold draw; simp only; split <;> rfl

theorem heat_inter (s : StratTank K) (q d o : K) : (s.heat q d o).inter = s.inter := by
  unfold heat; simp only; split <;> rfl

theorem raw_diff (s s' : StratTank K) (hv : s'.vol = s.vol) (hs : s'.slope = s.slope) (hi : s'.inter = s.inter)
    (T : K) : s'.rawUsable T - s.rawUsable T = s'.delta - s.delta := by
  unfold rawUsable; rw [hv, hs, hi]; ring

/-- The thermocline moves down by the heated gallons at most, and by exactly these unless the tank becomes full. -/
theorem heat_delta (s : StratTank K) (hv : 0 < s.vol) (hs : 0 < s.slope) {q dur T : K} (hq : 0 ≤ q)
    (hT : s.inlet < T) :
    (s.heat q dur T).delta ≤ s.delta + q * dur / 60 * 1000 / (rhoCp K * (T - s.inlet)) ∧
    ((s.heat q dur T).delta = s.delta + q * dur / 60 * 1000 / (rhoCp K * (T - s.inlet)) ∨
      s.vol ≤ (s.heat q dur T).rawUsable T) := by
  rcases hq.eq_or_lt with rfl | hq
  · have e : (s.heat 0 dur T).delta = s.delta := by unfold heat; simp
    rw [e]; simp
  · have e : s.heat q dur T = { s with
        outlet := T
        delta := min (s.delta + q * dur / 60 * 1000 / (rhoCp K * (T - s.inlet))) ((T - s.inter) / s.slope * s.vol / 100) } := by
      unfold heat
      simp only
      rw [if_neg (by rw [not_or, not_le, not_le]; exact ⟨hq, hT⟩)]
    rw [e]
    refine ⟨min_le_left _ _, ?_⟩
    rcases le_total (s.delta + q * dur / 60 * 1000 / (rhoCp K * (T - s.inlet)))
      ((T - s.inter) / s.slope * s.vol / 100) with h | h
    · exact .inl (min_eq_left h)
    · refine .inr ?_
      unfold rawUsable
      simp only
      rw [min_eq_right h]
      linarith

/-- A draw that leaves usable water takes at least the outlet-temperature share. -/
theorem draw_delta (s : StratTank K) (hv : 0 < s.vol) (hs : 0 < s.slope) {vol cold supply outlet : K}
    (h0 : 0 ≤ vol) (h1 : cold < supply) (h2 : supply ≤ outlet) (hle : vol ≤ s.vol)
    (hu : 0 < (s.draw vol cold supply outlet).usable supply) :
    (s.draw vol cold supply outlet).delta ≤ s.delta - vol * (supply - cold) / (outlet - cold) := by
  rcases h0.eq_or_lt with rfl | h0
  · unfold draw; simp
  have hoc : 0 < outlet - cold := by linarith
  set phys := vol * (supply - cold) / (outlet - cold) with hphys
  have hpv : phys ≤ s.vol := by
    refine le_trans ?_ hle
    rw [hphys, div_le_iff₀ hoc]
    exact mul_le_mul_of_nonneg_left (by linarith) h0.le
  set s0 : StratTank K := { s with inlet := cold, outlet := outlet } with hs0
  have hd : s.draw vol cold supply outlet =
      { s0 with delta := max (s.delta - s0.drawVol vol cold supply outlet) (s0.deltaFloor (some supply)) } := by
    unfold draw; simp only
    rw [if_neg (by rw [not_or, not_le, not_le]; exact ⟨by linarith, h0⟩)]
  have hge : phys ≤ s0.drawVol vol cold supply outlet := by
    unfold drawVol
    simp only
    rw [← hphys]
    split
    · exact le_rfl
    · obtain ⟨a, b⟩ := search_ge s0 vol cold supply phys 52 phys s0.vol le_rfl hpv
      exact le_min (by linarith) hpv
  rw [hd] at hu ⊢
  simp only
  refine max_le (by linarith) ?_
  by_contra hc
  push Not at hc
  have hfl : s.delta - s0.drawVol vol cold supply outlet ≤ s0.deltaFloor (some supply) := by linarith
  rw [max_eq_right hfl] at hu
  exact absurd (usable_floor s0 hv (d := s0.deltaFloor (some supply)) (supply := supply) le_rfl) hu.ne'

/-- The thermocline raised by `L` gallons, as by the return of a loop. -/
def lower (s : StratTank K) (L : K) : StratTank K := { s with delta := s.delta - L }

/-- What a step of heating, drawing and a loop return keeps. -/
theorem chain_fields (t : StratTank K) (q dur T d c supply L : K) :
    let t' := ((t.heat q dur T).draw d c supply T).lower L
    t'.vol = t.vol ∧ t'.slope = t.slope ∧ t'.inter = t.inter ∧ t'.inlet = c ∧ t'.outlet = T := by
  obtain ⟨d1, d2, d3, d4⟩ := draw_fields (t.heat q dur T) d c supply T
  obtain ⟨f1, f2, f3, f4⟩ := heat_fields t q dur T
  exact ⟨d1.trans f1, d2.trans f2, (draw_inter _ _ _ _ _).trans (heat_inter _ _ _ _), d3, d4⟩

/-- One step that ends hot at the top and not full. -/
theorem chain_step (t : StratTank K) (hv : 0 < t.vol) (hs : 0 < t.slope) {q dur T d c supply L : K} (hc : t.inlet = c)
    (h1 : c < supply) (h2 : supply < T) (hq : 0 ≤ q) (hd : 0 ≤ d) (hL : 0 ≤ L)
    (htop : (((t.heat q dur T).draw d c supply T).lower L).tempAt 1 = T)
    (hu : (((t.heat q dur T).draw d c supply T).lower L).usable supply + d + L < t.vol) :
    ((((t.heat q dur T).draw d c supply T).lower L).delta - t.delta) * (rhoCp K * (T - c)) =
      1000 * (q * (dur / 60)) - rhoCp K * d * (supply - c) - L * (rhoCp K * (T - c)) := by
  obtain ⟨d1, d2, d3, d4⟩ := draw_fields (t.heat q dur T) d c supply T
  obtain ⟨f1, f2, f3, f4⟩ := heat_fields t q dur T
  obtain ⟨g1, g2, g3, g4, g5⟩ := chain_fields t q dur T d c supply L
  set th := t.heat q dur T with hth
  set td := th.draw d c supply T with htd
  set tl := td.lower L with htl
  have htop' : td.tempAt 1 = T := by
    refine le_antisymm ?_ ?_
    · have := (td.tempAt_bounds (by rw [d3, d4]; linarith) 1).2
      rwa [d4] at this
    · rw [← htop]
      unfold tempAt shift
      rw [g4, g5, g2, g3, d3, d4, d2, f2, ← g3]
      have e : tl.delta ≤ td.delta := by show td.delta - L ≤ td.delta; linarith
      have e2 : tl.inter = td.inter := rfl
      have e3 : tl.vol = td.vol := rfl
      rw [e2, e3]
      have : tl.delta / td.vol ≤ td.delta / td.vol := div_le_div_of_nonneg_right e (by rw [d1, f1]; exact hv.le)
      gcongr
  have hdraw := draw_exact th (by rw [f1]; exact hv) (by rw [f2]; exact hs) hd h1 h2 htop'
  rw [← htd] at hdraw
  obtain ⟨_, hh⟩ := heat_delta t hv hs (dur := dur) hq (by rw [hc]; linarith : t.inlet < T)
  rw [hc, ← hth] at hh
  have hr : (0 : K) < rhoCp K := by unfold rhoCp; positivity
  have hTc : 0 < T - c := by linarith
  have hl : tl.delta = td.delta - L := rfl
  rcases hh with hh | hh
  · rw [hl, hdraw, hh]; field_simp; ring
  · exfalso
    have e1 := usable_raw tl (by rw [g1]; exact hv) supply
    have e2 := raw_diff th tl (by rw [g1, f1]) (by rw [g2, f2]) (by rw [g3]; exact (heat_inter _ _ _ _).symm) T
    have e3 := rawUsable_sub tl (by rw [g2]; exact hs) supply T
    have e4 : 0 ≤ (T - supply) * (tl.vol / (100 * tl.slope)) := by
      rw [g1, g2]; exact mul_nonneg (by linarith) (by positivity)
    have e5 : d * (supply - c) / (T - c) ≤ d := by
      rw [div_le_iff₀ hTc]; exact mul_le_mul_of_nonneg_left (by linarith) hd
    have e6 : t.vol - d - L ≤ tl.rawUsable supply := by
      rw [e3]
      have : tl.rawUsable T = th.rawUsable T + (tl.delta - th.delta) := by linarith
      rw [this, hl, hdraw]; linarith
    have e7 : t.vol - d - L ≤ tl.usable supply := by
      rw [e1, g1]
      exact le_max_of_le_right (le_min (by linarith) e6)
    linarith

/-- One step that ends with usable water. -/
theorem chain_step_le (t : StratTank K) (hv : 0 < t.vol) (hs : 0 < t.slope) {q dur T d c supply L : K}
    (hc : t.inlet = c) (h1 : c < supply) (h2 : supply ≤ T) (hq : 0 ≤ q) (hd : 0 ≤ d) (hL : 0 ≤ L) (hle : d ≤ t.vol)
    (hu : 0 < (((t.heat q dur T).draw d c supply T).lower L).usable supply) :
    ((((t.heat q dur T).draw d c supply T).lower L).delta - t.delta) * (rhoCp K * (T - c)) ≤
      1000 * (q * (dur / 60)) - rhoCp K * d * (supply - c) - L * (rhoCp K * (T - c)) := by
  obtain ⟨d1, d2, d3, d4⟩ := draw_fields (t.heat q dur T) d c supply T
  obtain ⟨f1, f2, f3, f4⟩ := heat_fields t q dur T
  set th := t.heat q dur T with hth
  set td := th.draw d c supply T with htd
  have hu' : 0 < td.usable supply := by
    refine lt_of_lt_of_le hu ?_
    exact usable_mono_delta td (by rw [d1, f1]; exact hv) (d := td.delta - L) (d' := td.delta) (by linarith) supply
  have hdraw := draw_delta th (by rw [f1]; exact hv) (by rw [f2]; exact hs) hd h1 h2 (by rw [f1]; exact hle) hu'
  rw [← htd] at hdraw
  obtain ⟨hh, _⟩ := heat_delta t hv hs (dur := dur) hq (by rw [hc]; linarith : t.inlet < T)
  rw [hc, ← hth] at hh
  have hr : (0 : K) < rhoCp K := by unfold rhoCp; positivity
  have hTc : 0 < T - c := by linarith
  have hl : (td.lower L).delta = td.delta - L := rfl
  have e : 1000 * (q * (dur / 60)) - rhoCp K * d * (supply - c) - L * (rhoCp K * (T - c)) =
      (q * dur / 60 * 1000 / (rhoCp K * (T - c)) - d * (supply - c) / (T - c) - L) * (rhoCp K * (T - c)) := by
    field_simp
  rw [hl, e]
  exact mul_le_mul_of_nonneg_right (by linarith) (mul_pos hr hTc).le

/-- Tanks that follow each other by heating, drawing and loop return, from `i` to `j`. -/
structure Chain (tk : ℕ → StratTank K) (q d : ℕ → K) (dur T c supply L : K) (i j : ℕ) : Prop where
  step : ∀ k, i ≤ k → k < j →
    tk (k + 1) = (((tk k).heat (q (k + 1)) dur T).draw (d (k + 1)) c supply T).lower L
  vol : 0 < (tk i).vol
  slope : 0 < (tk i).slope
  inlet : (tk i).inlet = c

theorem Chain.fields {tk : ℕ → StratTank K} {q d : ℕ → K} {dur T c supply L : K} {i j : ℕ}
    (h : Chain tk q d dur T c supply L i j) (m : ℕ) (h1 : i ≤ m) (h2 : m ≤ j) :
    (tk m).vol = (tk i).vol ∧ (tk m).slope = (tk i).slope ∧ (tk m).inter = (tk i).inter ∧ (tk m).inlet = c := by
  induction m, h1 using Nat.le_induction with
  | base => exact ⟨rfl, rfl, rfl, h.inlet⟩
  | succ m hm ih =>
    obtain ⟨a1, a2, a3, a4⟩ := ih (by omega)
    obtain ⟨g1, g2, g3, g4, g5⟩ := chain_fields (tk m) (q (m + 1)) dur T (d (m + 1)) c supply L
    rw [h.step m hm (by omega)]
    exact ⟨g1.trans a1, g2.trans a2, g3.trans a3, g4⟩

theorem Chain.exact {tk : ℕ → StratTank K} {q d : ℕ → K} {dur T c supply L : K} {i j : ℕ}
    (h : Chain tk q d dur T c supply L i j) (h1 : c < supply) (h2 : supply < T) (hL : 0 ≤ L)
    (hq : ∀ k, i < k → k ≤ j → 0 ≤ q k ∧ 0 ≤ d k) (htop : ∀ k, i < k → k ≤ j → (tk k).tempAt 1 = T)
    (hu : ∀ k, i < k → k ≤ j → (tk k).usable supply + d k + L < (tk i).vol) (m : ℕ) (hm : i ≤ m) (hm' : m ≤ j) :
    ((tk m).delta - (tk i).delta) * (rhoCp K * (T - c)) = ∑ k ∈ Finset.Ioc i m,
      (1000 * (q k * (dur / 60)) - rhoCp K * d k * (supply - c) - L * (rhoCp K * (T - c))) := by
  induction m, hm using Nat.le_induction with
  | base => simp
  | succ m hm ih =>
    obtain ⟨a1, a2, a3, a4⟩ := h.fields m hm (by omega)
    rw [Finset.sum_Ioc_succ_top (by omega), ← ih (by omega)]
    have e := h.step m hm (by omega)
    have t1 := htop (m + 1) (by omega) hm'
    have t2 := hu (m + 1) (by omega) hm'
    rw [e] at t1 t2
    obtain ⟨b1, b2⟩ := hq (m + 1) (by omega) hm'
    have := chain_step (tk m) (by rw [a1]; exact h.vol) (by rw [a2]; exact h.slope) a4 h1 h2 b1 b2 hL t1
      (by rw [a1]; exact t2)
    rw [← e] at this
    rw [← this]; ring

theorem Chain.bound {tk : ℕ → StratTank K} {q d : ℕ → K} {dur T c supply L : K} {i j : ℕ}
    (h : Chain tk q d dur T c supply L i j) (h1 : c < supply) (h2 : supply ≤ T) (hL : 0 ≤ L)
    (hq : ∀ k, i < k → k ≤ j → 0 ≤ q k ∧ 0 ≤ d k ∧ d k ≤ (tk i).vol)
    (hu : ∀ k, i < k → k ≤ j → 0 < (tk k).usable supply) (m : ℕ) (hm : i ≤ m) (hm' : m ≤ j) :
    ((tk m).delta - (tk i).delta) * (rhoCp K * (T - c)) ≤ ∑ k ∈ Finset.Ioc i m,
      (1000 * (q k * (dur / 60)) - rhoCp K * d k * (supply - c) - L * (rhoCp K * (T - c))) := by
  induction m, hm using Nat.le_induction with
  | base => simp
  | succ m hm ih =>
    obtain ⟨a1, a2, a3, a4⟩ := h.fields m hm (by omega)
    rw [Finset.sum_Ioc_succ_top (by omega)]
    have e := h.step m hm (by omega)
    have t2 := hu (m + 1) (by omega) hm'
    rw [e] at t2
    obtain ⟨b1, b2, b3⟩ := hq (m + 1) (by omega) hm'
    have := chain_step_le (tk m) (by rw [a1]; exact h.vol) (by rw [a2]; exact h.slope) a4 h1 h2 b1 b2 hL
      (by rw [a1]; exact b3) t2
    rw [← e] at this
    have := ih (by omega)
    linarith

/-- The exact balance in usable gallons. -/
theorem Chain.exact_usable {tk : ℕ → StratTank K} {q d : ℕ → K} {dur T c supply L : K} {i j : ℕ} (hij : i ≤ j)
    (h : Chain tk q d dur T c supply L i j) (h1 : c < supply) (h2 : supply < T) (hL : 0 ≤ L) (hout : (tk i).outlet = T)
    (hq : ∀ k, i ≤ k → k ≤ j → 0 ≤ q k ∧ 0 ≤ d k) (htop : ∀ k, i ≤ k → k ≤ j → (tk k).tempAt 1 = T)
    (hu : ∀ k, i ≤ k → k ≤ j → (tk k).usable supply + d k + L < (tk i).vol) :
    ((tk j).usable supply - (tk i).usable supply) * (rhoCp K * (T - c)) = ∑ k ∈ Finset.Ioc i j,
      (1000 * (q k * (dur / 60)) - rhoCp K * d k * (supply - c) - L * (rhoCp K * (T - c))) := by
  rw [← h.exact h1 h2 hL (fun k a b => hq k a.le b) (fun k a b => htop k a.le b) (fun k a b => hu k a.le b) j hij le_rfl]
  congr 1
  have key : ∀ k, i ≤ k → k ≤ j → (tk k).usable supply = (tk k).rawUsable supply := by
    intro k a b
    obtain ⟨a1, a2, a3, a4⟩ := h.fields k a b
    have hvk : 0 < (tk k).vol := by rw [a1]; exact h.vol
    have hsk : 0 < (tk k).slope := by rw [a2]; exact h.slope
    have ho : (tk k).outlet = T := by
      rcases a.eq_or_lt with rfl | a
      · exact hout
      · obtain ⟨n, rfl⟩ : ∃ n, k = n + 1 := ⟨k - 1, by omega⟩
        rw [h.step n (by omega) (by omega)]
        exact (chain_fields _ _ _ _ _ _ _ _).2.2.2.2
    have h0 : 0 ≤ (tk k).rawUsable supply := by
      rw [← top_iff (tk k) hvk hsk (by rw [a4]; exact h1) (by rw [ho]; exact h2.le), htop k a b]
      exact h2.le
    have hlt : (tk k).usable supply < (tk k).vol := by
      have := hu k a b
      have := (hq k a b).2
      rw [a1]; linarith
    rw [usable_raw (tk k) hvk] at hlt ⊢
    rw [max_eq_right (le_min hvk.le h0)] at hlt ⊢
    rcases min_lt_iff.1 hlt with x | x
    · exact absurd x (lt_irrefl _)
    · exact min_eq_right x.le
  rw [key j hij le_rfl, key i le_rfl hij]
  obtain ⟨a1, a2, a3, _⟩ := h.fields j hij le_rfl
  exact raw_diff _ _ a1 a2 a3 supply

/-- The bound in usable gallons. -/
theorem Chain.bound_usable {tk : ℕ → StratTank K} {q d : ℕ → K} {dur T c supply L : K} {i j : ℕ} (hij : i ≤ j)
    (h : Chain tk q d dur T c supply L i j) (h1 : c < supply) (h2 : supply ≤ T) (hL : 0 ≤ L)
    (hq : ∀ k, i < k → k ≤ j → 0 ≤ q k ∧ 0 ≤ d k ∧ d k ≤ (tk i).vol)
    (hu : ∀ k, i ≤ k → k ≤ j → 0 < (tk k).usable supply) (hlt : (tk i).usable supply < (tk i).vol) :
    ((tk j).usable supply - (tk i).usable supply) * (rhoCp K * (T - c)) ≤ ∑ k ∈ Finset.Ioc i j,
      (1000 * (q k * (dur / 60)) - rhoCp K * d k * (supply - c) - L * (rhoCp K * (T - c))) := by
  refine le_trans ?_ (h.bound h1 h2 hL hq (fun k a b => hu k a.le b) j hij le_rfl)
  have hr : (0 : K) < rhoCp K := by unfold rhoCp; positivity
  refine mul_le_mul_of_nonneg_right ?_ (mul_pos hr (by linarith)).le
  obtain ⟨a1, a2, a3, _⟩ := h.fields j hij le_rfl
  have hj := hu j hij le_rfl
  have hi := hu i le_rfl hij
  rw [← raw_diff _ _ a1 a2 a3 supply]
  have b1 : (tk j).usable supply ≤ (tk j).rawUsable supply := by
    rw [usable_raw (tk j) (by rw [a1]; exact h.vol)] at hj ⊢
    rcases lt_max_iff.1 hj with x | x
    · exact absurd x (lt_irrefl _)
    · rw [max_eq_right x.le]; exact min_le_right _ _
  have b2 : (tk i).rawUsable supply ≤ (tk i).usable supply := by
    rw [usable_raw (tk i) h.vol] at hlt ⊢
    have x := lt_of_le_of_lt (le_max_right _ _) hlt
    rcases min_lt_iff.1 x with x | x
    · exact absurd x (lt_irrefl _)
    · rw [min_eq_right x.le]; exact le_max_right _ _
  linarith

end StratTank

/-! ## C113 -/

/-- What a step does to the tank, and what it reports of it. -/
theorem primStep_tank {b : Building K} {ts : ℕ} {s s' : Prim K} {i : ℕ} {o : StepOut K} {t : StratTank K}
    (ht : s.tank = some t) (h : Prim.step b ts s i = .ok (s', o)) :
    ∃ T t', IsOutlet s.heaters s.storage (hourOf i ts) T ∧
      t' = (t.heat o.output ts T).draw o.demand o.inlet s.supply T ∧ s'.tank = some t' ∧
      o.usable = t'.usable s.supply ∧ o.temps = nodeFracts.map t'.tempAt ∧ o.delivery = none := by
  unfold Prim.step at h
  rw [ht] at h
  simp only [bind_eq_ok] at h
  obtain ⟨inp, hi, ⟨ws', tank', q, kws⟩, hh, h⟩ := h
  simp only [pure_eq_ok, Except.ok.injEq, Prod.mk.injEq] at h
  obtain ⟨rfl, rfl⟩ := h
  obtain ⟨i1, i2, i3, i4, i5, i6⟩ := inputs_ok hi
  obtain ⟨k1, k2, k3, k4, k5, rfl⟩ := heatPrimary_ok hh
  exact ⟨inp.outlet, _, by rw [← i4]; exact i5, rfl, rfl, rfl, rfl, rfl⟩

/-- The tanks of a run as a chain. -/
theorem run_chain (step : ℕ → Prim K → ℕ → Py (Prim K × StepOut K)) (L : K → ℕ → K → K → K)
    (hst : ∀ ts s i s' o t, s.tank = some t → step ts s i = .ok (s', o) →
      (s'.supply = s.supply ∧ s'.storage = s.storage ∧ List.Forall₂ SameHeater s.heaters s'.heaters) ∧
      ∃ T t', IsOutlet s.heaters s.storage (hourOf i ts) T ∧ s'.tank = some t' ∧
        (o.inlet < T → t' = ((t.heat o.output ts T).draw o.demand o.inlet s.supply T).lower (L s.supply ts T o.inlet)) ∧
        t'.inlet = o.inlet ∧ t'.outlet = T ∧ t'.vol = t.vol ∧ t'.slope = t.slope ∧
        o.usable = t'.usable s.supply ∧ o.temps = nodeFracts.map t'.tempAt)
    (supply : K) (tm : Bool) (thr : K) (maxMin : Int) (duration : String) (s0 s' : Prim K) (r : SimRun K)
    (h : simulateFrom step supply tm thr maxMin duration s0 = .ok (s', r)) (t0 : StratTank K) (ht0 : s0.tank = some t0)
    (hv : 0 < t0.vol) (hs : 0 < t0.slope) (c T : K) (hcT : c < T) (i j : ℕ) (hij : i ≤ j) (hj : j < r.usable.length)
    (hin : ∀ k, i ≤ k → k ≤ j → r.inlet.getD k 0 = c)
    (hT : ∀ k, i ≤ k → k ≤ j → ∀ x, IsOutlet s0.heaters s0.storage (hourOf k r.ts) x → x = T) :
    ∃ tk, StratTank.Chain tk (fun k => r.output.getD k 0) (fun k => r.demand.getD k 0) (r.ts : K) T c s0.supply
        (L s0.supply r.ts T c) i j ∧ (tk i).vol = t0.vol ∧ (tk i).outlet = T ∧
      ∀ k, i ≤ k → k ≤ j → (tk k).usable s0.supply = r.usable.getD k 0 ∧ (tk k).tempAt 1 = nodeTemp r 5 k := by
  obtain ⟨dur, ts, outs, h1, h2, h3, h4, h5, _⟩ := simulate_spec step supply tm thr maxMin duration s0 s' r h
  subst h3
  have hlen : r.usable.length = outs.length := by rw [h5.usable, List.length_map]
  obtain ⟨st, e0, _, e2⟩ := trace_states outs s0 s' 0 h4
  simp only [Nat.zero_add] at e2
  have inv : ∀ k, k ≤ outs.length → (st k).supply = s0.supply ∧ (st k).storage = s0.storage ∧
      List.Forall₂ SameHeater s0.heaters (st k).heaters ∧
      ∃ t, (st k).tank = some t ∧ t.vol = t0.vol ∧ t.slope = t0.slope := by
    intro k
    induction k with
    | zero => intro _; rw [e0]; exact ⟨rfl, rfl, sameHeater_refl _, t0, ht0, rfl, rfl⟩
    | succ k ih =>
      intro hk
      obtain ⟨a1, a2, a3, t, a4, a5, a6⟩ := ih (by omega)
      obtain ⟨⟨b1, b2, b3⟩, T', t', _, c2, _, _, _, c6, c7, _⟩ := hst _ _ _ _ _ t a4 (e2 k _ (List.getElem?_eq_getElem (by omega)))
      exact ⟨b1.trans a1, b2.trans a2, forall₂_trans a3 b3, t', c2, c6.trans a5, c7.trans a6⟩
  have hget : ∀ (f : StepOut K → K) (k : ℕ) (o : StepOut K), outs[k]? = some o → (outs.map f).getD k 0 = f o := by
    intro f k o ho
    rw [List.getD_eq_getElem?_getD, List.getElem?_map, ho]; rfl
  have hsix : ∀ o ∈ outs, o.temps.length = 6 := by
    intro o ho
    obtain ⟨k, hk⟩ := List.mem_iff_getElem?.1 ho
    have hkl := (List.getElem?_eq_some_iff.1 hk).1
    obtain ⟨a1, a2, a3, t, a4, a5, a6⟩ := inv k (by omega)
    obtain ⟨_, T', t', _, _, _, _, _, _, _, _, c9⟩ := hst _ _ _ _ _ t a4 (e2 k o hk)
    rw [c9]; simp [nodeFracts]
  set tk : ℕ → StratTank K := fun k => (st (k + 1)).tank.getD t0 with htk
  have one : ∀ k, i ≤ k → k ≤ j → ∃ o t, outs[k]? = some o ∧ (st k).tank = some t ∧ o.inlet = c ∧
      (tk k) = ((t.heat o.output r.ts T).draw o.demand c s0.supply T).lower (L s0.supply r.ts T c) ∧
      (tk k).outlet = T ∧ (tk k).inlet = c ∧ (tk k).vol = t0.vol ∧ (tk k).slope = t0.slope ∧
      (tk k).usable s0.supply = r.usable.getD k 0 ∧ (tk k).tempAt 1 = nodeTemp r 5 k := by
    intro k hk1 hk2
    have hkl : k < outs.length := by omega
    obtain ⟨a1, a2, a3, t, a4, a5, a6⟩ := inv k (by omega)
    have ho := List.getElem?_eq_getElem hkl
    obtain ⟨_, T', t', c1, c2, c3, c4, c5, c6, c7, c8, c9⟩ := hst _ _ _ _ _ t a4 (e2 k _ ho)
    obtain rfl : T' = T := hT k hk1 hk2 T' (isOutlet_congr a3 _ _ _ (by rw [← a2]; exact c1))
    have hc : outs[k].inlet = c := by
      rw [← hin k hk1 hk2, h5.inlet, hget _ k _ ho]
    rw [hc, a1] at c3
    have e : tk k = t' := by rw [htk]; simp only [c2, Option.getD_some]
    refine ⟨outs[k], t, ho, a4, hc, by rw [e]; exact c3 hcT, by rw [e, c5], by rw [e, c4, hc], by rw [e, c6, a5],
      by rw [e, c7, a6], ?_, ?_⟩
    · rw [e, h5.usable, hget _ k _ ho, c8, a1]
    · rw [e]
      unfold nodeTemp
      rw [h5.temps hsix 5 (by norm_num), hget _ k _ ho, c9]
      simp [nodeFracts]
  refine ⟨tk, ⟨?_, ?_, ?_, ?_⟩, ?_, ?_, ?_⟩
  · intro k hk1 hk2
    obtain ⟨o, t, p1, p2, _, p4, _⟩ := one (k + 1) (by omega) (by omega)
    have e : tk k = t := by rw [htk]; simp only [p2, Option.getD_some]
    rw [p4, e]
    show _ = (((t.heat (r.output.getD (k + 1) 0) r.ts T).draw (r.demand.getD (k + 1) 0) c s0.supply T)).lower _
    rw [h5.output, h5.demand, hget _ _ _ p1, hget _ _ _ p1]
  · obtain ⟨_, _, _, _, _, _, _, _, p, _⟩ := one i le_rfl hij; rw [p]; exact hv
  · obtain ⟨_, _, _, _, _, _, _, _, _, p, _⟩ := one i le_rfl hij; rw [p]; exact hs
  · obtain ⟨_, _, _, _, _, _, _, p, _⟩ := one i le_rfl hij; exact p
  · obtain ⟨_, _, _, _, _, _, _, _, p, _⟩ := one i le_rfl hij; exact p
  · obtain ⟨_, _, _, _, _, _, p, _⟩ := one i le_rfl hij; exact p
  · intro k hk1 hk2
    obtain ⟨_, _, _, _, _, _, _, _, _, _, p⟩ := one k hk1 hk2; exact p

theorem primStep_chain (b : Building K) (ts : ℕ) (s : Prim K) (i : ℕ) (s' : Prim K) (o : StepOut K) (t : StratTank K)
    (ht : s.tank = some t) (h : Prim.step b ts s i = .ok (s', o)) :
    (s'.supply = s.supply ∧ s'.storage = s.storage ∧ List.Forall₂ SameHeater s.heaters s'.heaters) ∧
      ∃ T t', IsOutlet s.heaters s.storage (hourOf i ts) T ∧ s'.tank = some t' ∧
        t' = (t.heat o.output ts T).draw o.demand o.inlet s.supply T ∧
        t'.inlet = o.inlet ∧ t'.outlet = T ∧ t'.vol = t.vol ∧ t'.slope = t.slope ∧
        o.usable = t'.usable s.supply ∧ o.temps = nodeFracts.map t'.tempAt := by
  obtain ⟨T, t', c1, c2, c3, c4, c5, _⟩ := primStep_tank ht h
  obtain ⟨d1, d2, d3, d4⟩ := draw_fields (t.heat o.output ts T) o.demand o.inlet s.supply T
  obtain ⟨f1, f2, f3, f4⟩ := heat_fields t o.output (ts : K) T
  refine ⟨?_, T, t', c1, c3, c2, by rw [c2]; exact d3, by rw [c2]; exact d4, by rw [c2]; exact d1.trans f1,
    by rw [c2]; exact d2.trans f2, c4, c5⟩
  unfold Prim.step at h
  rw [ht] at h
  simp only [bind_eq_ok] at h
  obtain ⟨inp, hi, ⟨ws', tank', q, kws⟩, hh, h⟩ := h
  simp only [pure_eq_ok, Except.ok.injEq, Prod.mk.injEq] at h
  obtain ⟨rfl, rfl⟩ := h
  exact ⟨rfl, rfl, updateAll_same (heatPrimary_ok hh).1⟩

theorem primInit_tank {s s1 : Prim K} {b : Building K} (h : s.init b = .ok s1) (t : StratTank K) (ht : s.tank = some t) :
    s1.supply = s.supply ∧ s1.storage = s.storage ∧ s1.heaters = s.heaters ∧
      ∃ t1, s1.tank = some t1 ∧ t1.vol = t.vol ∧ t1.slope = t.slope := by
  unfold Prim.init at h
  simp only [bind_eq_ok, pure_eq_ok, Except.ok.injEq] at h
  obtain ⟨cold, _, rfl⟩ := h
  exact ⟨rfl, rfl, rfl, t.init s.storage cold (initialUseable s.heaters), by rw [ht]; rfl, rfl, rfl⟩

/-- **C113.** Take two steps of a run between which the cold water has one temperature `c` and the heaters one outlet
temperature `T` above supply. If the top of the tank was recorded at outlet temperature throughout and the tank was not
full (usable volume and demand of a step together below the tank's volume), then the hot water gained between the two
steps, as heat from `c` to `T`, is exactly the heat the heaters gave less the heat of the demands from `c` to supply
temperature. -/
theorem C113_balance (s s' : Prim K) (b : Building K) (thr : K) (maxMin : Int) (duration : String) (r : SimRun K)
    (h : s.simulate b thr maxMin duration = .ok (s', r)) (t : StratTank K) (ht : s.tank = some t) (hv : 0 < t.vol)
    (hs : 0 < t.slope) (c T : K) (h1 : c < s.supply) (h2 : s.supply < T) (i j : ℕ) (hij : i ≤ j)
    (hj : j < r.usable.length) (hin : ∀ k, i ≤ k → k ≤ j → r.inlet.getD k 0 = c)
    (hT : ∀ k, i ≤ k → k ≤ j → ∀ x, IsOutlet s.heaters s.storage (hourOf k r.ts) x → x = T)
    (hq : ∀ k, i ≤ k → k ≤ j → 0 ≤ r.output.getD k 0 ∧ 0 ≤ r.demand.getD k 0)
    (htop : ∀ k, i ≤ k → k ≤ j → nodeTemp r 5 k = T)
    (hu : ∀ k, i ≤ k → k ≤ j → r.usable.getD k 0 + r.demand.getD k 0 < t.vol) :
    (r.usable.getD j 0 - r.usable.getD i 0) * (rhoCp K * (T - c)) = ∑ k ∈ Finset.Ioc i j,
      (1000 * (r.output.getD k 0 * Spec.hours r) - rhoCp K * r.demand.getD k 0 * (s.supply - c)) := by
  unfold Prim.simulate at h
  simp only [bind_eq_ok] at h
  obtain ⟨_, _, s1, k1, k2⟩ := h
  obtain ⟨a1, a2, a3, t1, a4, a5, a6⟩ := primInit_tank k1 t ht
  obtain ⟨tk, ch, c1, c2, c3⟩ := run_chain (Prim.step b) (fun _ _ _ _ => 0) (by
    intro ts s i s' o t ht h
    obtain ⟨x, T, t', y1, y2, y3, y4⟩ := primStep_chain b ts s i s' o t ht h
    refine ⟨x, T, t', y1, y2, fun _ => ?_, y4⟩
    rw [← y3]; simp [StratTank.lower]) _ _ _ _ _ _ _ _ k2 t1 a4 (by rw [a5]; exact hv) (by rw [a6]; exact hs) c T
    (h1.trans h2) i j hij hj hin (by rw [a3, a2]; exact hT)
  rw [a1] at ch c3
  have := ch.exact_usable hij h1 h2 le_rfl c2 hq (fun k x y => by rw [(c3 k x y).2]; exact htop k x y)
    (fun k x y => by rw [(c3 k x y).1, c1, a5, add_zero]; exact hu k x y)
  rw [(c3 j hij le_rfl).1, (c3 i le_rfl hij).1] at this
  rw [this]
  refine Finset.sum_congr rfl fun k _ => ?_
  unfold Spec.hours
  ring

/-- **C113 (bound).** Whatever the temperatures in the tank: in a stretch without outage that starts with a tank that is
not full and has no demand above the tank's volume, the hot water gained is never more than the heat balance allows. -/
theorem C113_bound (s s' : Prim K) (b : Building K) (thr : K) (maxMin : Int) (duration : String) (r : SimRun K)
    (h : s.simulate b thr maxMin duration = .ok (s', r)) (t : StratTank K) (ht : s.tank = some t) (hv : 0 < t.vol)
    (hs : 0 < t.slope) (c T : K) (h1 : c < s.supply) (h2 : s.supply ≤ T) (i j : ℕ) (hij : i ≤ j)
    (hj : j < r.usable.length) (hin : ∀ k, i ≤ k → k ≤ j → r.inlet.getD k 0 = c)
    (hT : ∀ k, i ≤ k → k ≤ j → ∀ x, IsOutlet s.heaters s.storage (hourOf k r.ts) x → x = T)
    (hq : ∀ k, i ≤ k → k ≤ j → 0 ≤ r.output.getD k 0 ∧ 0 ≤ r.demand.getD k 0 ∧ r.demand.getD k 0 ≤ t.vol)
    (hu : ∀ k, i ≤ k → k ≤ j → 0 < r.usable.getD k 0) (hfull : r.usable.getD i 0 < t.vol) :
    (r.usable.getD j 0 - r.usable.getD i 0) * (rhoCp K * (T - c)) ≤ ∑ k ∈ Finset.Ioc i j,
      (1000 * (r.output.getD k 0 * Spec.hours r) - rhoCp K * r.demand.getD k 0 * (s.supply - c)) := by
  unfold Prim.simulate at h
  simp only [bind_eq_ok] at h
  obtain ⟨_, _, s1, k1, k2⟩ := h
  obtain ⟨a1, a2, a3, t1, a4, a5, a6⟩ := primInit_tank k1 t ht
  obtain ⟨tk, ch, c1, c2, c3⟩ := run_chain (Prim.step b) (fun _ _ _ _ => 0) (by
    intro ts s i s' o t ht h
    obtain ⟨x, T, t', y1, y2, y3, y4⟩ := primStep_chain b ts s i s' o t ht h
    refine ⟨x, T, t', y1, y2, fun _ => ?_, y4⟩
    rw [← y3]; simp [StratTank.lower]) _ _ _ _ _ _ _ _ k2 t1 a4 (by rw [a5]; exact hv) (by rw [a6]; exact hs) c T
    (lt_of_lt_of_le h1 h2) i j hij hj hin (by rw [a3, a2]; exact hT)
  rw [a1] at ch c3
  have := ch.bound_usable hij h1 h2 le_rfl (fun k x y => by rw [c1, a5]; exact hq k x.le y)
    (fun k x y => by rw [(c3 k x y).1]; exact hu k x y) (by rw [(c3 i le_rfl hij).1, c1, a5]; exact hfull)
  rw [(c3 j hij le_rfl).1, (c3 i le_rfl hij).1] at this
  refine this.trans (le_of_eq ?_)
  refine Finset.sum_congr rfl fun k _ => ?_
  unfold Spec.hours
  ring

/-- **C113 (single-pass return to primary).** With a recirculation loop returning to the tank, the heat the loop gives off
in each step is subtracted too. -/
theorem C113_balance_loop (l : RtpLoop K) (s s' : Prim K) (b : Building K) (thr : K) (maxMin : Int) (duration : String)
    (r : SimRun K) (h : spSimulate l s b thr maxMin duration = .ok (s', r)) (t : StratTank K) (ht : s.tank = some t)
    (hv : 0 < t.vol) (hs : 0 < t.slope) (c T : K) (h1 : c < s.supply) (h2 : s.supply < T) (hf : 0 ≤ l.flow)
    (hr : l.ret ≤ s.supply) (i j : ℕ) (hij : i ≤ j) (hj : j < r.usable.length)
    (hin : ∀ k, i ≤ k → k ≤ j → r.inlet.getD k 0 = c)
    (hT : ∀ k, i ≤ k → k ≤ j → ∀ x, IsOutlet s.heaters s.storage (hourOf k r.ts) x → x = T)
    (hq : ∀ k, i ≤ k → k ≤ j → 0 ≤ r.output.getD k 0 ∧ 0 ≤ r.demand.getD k 0)
    (htop : ∀ k, i ≤ k → k ≤ j → nodeTemp r 5 k = T)
    (hu : ∀ k, i ≤ k → k ≤ j → r.usable.getD k 0 + r.demand.getD k 0 + l.flow * r.ts * (s.supply - l.ret) / (T - c) <
      t.vol) :
    (r.usable.getD j 0 - r.usable.getD i 0) * (rhoCp K * (T - c)) = ∑ k ∈ Finset.Ioc i j,
      (1000 * (r.output.getD k 0 * Spec.hours r) - rhoCp K * r.demand.getD k 0 * (s.supply - c) -
        rhoCp K * (l.flow * r.ts) * (s.supply - l.ret)) := by
  unfold spSimulate at h
  simp only [bind_eq_ok] at h
  obtain ⟨_, _, s1, k1, k2⟩ := h
  obtain ⟨a1, a2, a3, t1, a4, a5, a6⟩ := primInit_tank k1 t ht
  have hρ : (0 : K) < rhoCp K := by unfold rhoCp; positivity
  obtain ⟨tk, ch, c1, c2, c3⟩ := run_chain (spStep l b)
    (fun supply ts T c => l.flow * ts * (supply - l.ret) / (T - c)) (by
      intro ts s i s' o t ht h
      unfold spStep at h
      simp only [bind_eq_ok] at h
      obtain ⟨⟨s2, o2⟩, g1, h⟩ := h
      obtain ⟨x, T, t', y1, y2, y3, y4, y5, y6, y7, y8, y9⟩ := primStep_chain b ts s i s2 o2 t ht g1
      simp only [y2, pure_eq_ok, Except.ok.injEq, Prod.mk.injEq] at h
      obtain ⟨rfl, rfl⟩ := h
      obtain ⟨z1, z2, z3, z4⟩ := recirc_fields t' l.flow l.ret (ts : K) (some s2.supply)
      refine ⟨x, T, _, y1, rfl, ?_, z3.trans y4, z4.trans y5, z1.trans y6, z2.trans y7, ?_, rfl⟩
      · intro hlt
        simp only at hlt ⊢
        rw [← y3]
        unfold StratTank.recirc StratTank.lower
        rw [if_neg (by rw [y4, y5]; exact not_le.2 hlt), y4, y5, x.1]
        simp only [Option.getD_some]
        congr 1
        have : T - o2.inlet ≠ 0 := (sub_pos.2 hlt).ne'
        field_simp
      · rw [x.1]) _ _ _ _ _ _ _ _ k2 t1 a4 (by rw [a5]; exact hv)
    (by rw [a6]; exact hs) c T (h1.trans h2) i j hij hj hin (by rw [a3, a2]; exact hT)
  rw [a1] at ch c3
  have hTc : 0 < T - c := by linarith
  have := ch.exact_usable hij h1 h2 (by
      exact div_nonneg (mul_nonneg (mul_nonneg hf (Nat.cast_nonneg _)) (by linarith)) hTc.le) c2 hq
    (fun k x y => by rw [(c3 k x y).2]; exact htop k x y)
    (fun k x y => by rw [(c3 k x y).1, c1, a5]; exact hu k x y)
  rw [(c3 j hij le_rfl).1, (c3 i le_rfl hij).1] at this
  rw [this]
  refine Finset.sum_congr rfl fun k _ => ?_
  unfold Spec.hours
  field_simp

namespace Demo

/-- Controls with the ON sensor at a quarter of the height. -/
def quarterSensor : ControlMap ℚ := [("normal", ⟨1 / 4, 110, 1 / 10, 120, 150⟩)]

/-- A 400-gallon system for the demo building. -/
def roomy : Prim ℚ := Prim.ofSized cfg 60 400 (28 / 10) (some allNormal) (some quarterSensor)

theorem roomy_inForce (hour : ℕ) (hh : hour < 24) (w : Heater ℚ) (hw : w ∈ roomy.heaters) (c : Controls ℚ) :
    InForce w hour c ↔ c = ⟨1 / 4, 110, 1 / 10, 120, 150⟩ := by
  obtain rfl : w = Heater.fromNominal 60 (some allNormal) (some quarterSensor) := by
    simpa [roomy, Prim.ofSized] using hw
  have e : allNormal[hour]? = some "normal" := by unfold allNormal; rw [List.getElem?_replicate, if_pos hh]
  constructor
  · rintro ⟨sched, cmap, mode, a1, a2, a3, a4⟩
    obtain rfl : allNormal = sched := Option.some.inj a1
    obtain rfl : quarterSensor = cmap := Option.some.inj a2
    rw [e] at a3
    obtain rfl : "normal" = mode := Option.some.inj a3
    exact (Option.some.inj a4).symm
  · rintro rfl
    exact ⟨allNormal, quarterSensor, "normal", rfl, rfl, e, by decide +kernel⟩

end Demo

/-- Non-vacuity of C113: the first two minutes of the three-day run of a system with some spare volume meet all the
hypotheses. -/
example : ∃ s' r, Demo.roomy.simulate Demo.building 3 30 "3day" = .ok (s', r) ∧ 1 < r.usable.length ∧
    (∀ k, 0 ≤ k → k ≤ 1 → r.inlet.getD k 0 = 50) ∧
    (∀ k, 0 ≤ k → k ≤ 1 → ∀ x, IsOutlet Demo.roomy.heaters Demo.roomy.storage (hourOf k r.ts) x → x = 150) ∧
    (∀ k, 0 ≤ k → k ≤ 1 → 0 ≤ r.output.getD k 0 ∧ 0 ≤ r.demand.getD k 0) ∧
    (∀ k, 0 ≤ k → k ≤ 1 → nodeTemp r 5 k = 150) ∧
    (∀ k, 0 ≤ k → k ≤ 1 → r.usable.getD k 0 + r.demand.getD k 0 < 400) ∧
    (∀ k, 0 ≤ k → k ≤ 1 → 0 < r.usable.getD k 0 ∧ 0 < r.demand.getD k 0) := by
  have hready : ∀ w ∈ Demo.roomy.heaters, Ready w := by
    intro w hw
    refine Demo.ready_of (cap := 60) ?_ (fun hour hh => ⟨_, (Demo.roomy_inForce hour hh w hw _).2 rfl⟩)
    obtain rfl : w = Heater.fromNominal 60 (some Demo.allNormal) (some Demo.quarterSensor) := by
      simpa [Demo.roomy, Prim.ofSized] using hw
    rfl
  obtain ⟨s', r, h⟩ := C91_completes_partial Demo.roomy Demo.building 3 30 "3day" (.inl rfl) Demo.answers hready (by
    intro t ht
    obtain rfl : StratTank.new 400 (28 / 10) = t := by simpa [Demo.roomy, Prim.ofSized] using ht
    decide +kernel)
  refine ⟨s', r, h, ?_⟩
  have key : ∃ s1, Demo.roomy.init Demo.building = .ok s1 ∧ ∃ s2 o1 s3 o2, Prim.step Demo.building 1 s1 0 = .ok (s2, o1) ∧
      Prim.step Demo.building 1 s2 1 = .ok (s3, o2) ∧ ∀ o ∈ [o1, o2], o.inlet = 50 ∧ 0 ≤ o.output ∧ 0 < o.demand ∧
        o.temps.getD 5 0 = 150 ∧ o.usable + o.demand < 400 ∧ 0 < o.usable := by
    have : (match Demo.roomy.init Demo.building with
        | .error _ => false
        | .ok s1 => match Prim.step Demo.building 1 s1 0 with
          | .error _ => false
          | .ok (s2, o1) => match Prim.step Demo.building 1 s2 1 with
            | .error _ => false
            | .ok (_, o2) => decide (∀ o ∈ [o1, o2], o.inlet = 50 ∧ 0 ≤ o.output ∧ 0 < o.demand ∧
                o.temps.getD 5 0 = 150 ∧ o.usable + o.demand < 400 ∧ 0 < o.usable)) = true := by decide +kernel
    revert this
    cases Demo.roomy.init Demo.building with
    | error e => simp
    | ok s1 =>
      simp only
      cases hst : Prim.step Demo.building 1 s1 0 with
      | error e => simp
      | ok p =>
        obtain ⟨s2, o1⟩ := p
        simp only
        cases hst2 : Prim.step Demo.building 1 s2 1 with
        | error e => simp
        | ok p2 =>
          obtain ⟨s3, o2⟩ := p2
          intro hp
          exact ⟨s1, rfl, s2, o1, s3, o2, hst, hst2, of_decide_eq_true hp⟩
  obtain ⟨s1, hi, s2, o1, s3, o2, g1, g2, hp⟩ := key
  have h' := h
  unfold Prim.simulate at h'
  simp only [bind_eq_ok] at h'
  obtain ⟨_, _, s1', k1, k2⟩ := h'
  obtain rfl : s1 = s1' := by rw [hi] at k1; exact Except.ok.inj k1
  obtain ⟨dur, ts, outs, hd, _, h3, h4, h5, _, _, _, h6⟩ := simulate_spec _ _ _ _ _ _ _ _ _ k2
  obtain ⟨rfl, rfl⟩ : dur = 4320 ∧ ts = 1 := by
    have : simDuration "3day" = .ok (4320, 1) := rfl
    rw [this] at hd
    exact ⟨(Prod.mk.inj (Except.ok.inj hd)).1.symm, (Prod.mk.inj (Except.ok.inj hd)).2.symm⟩
  have hlen : 30 < outs.length := by
    rcases h6 with ⟨_, h6, _⟩ | ⟨_, a, _, ⟨k, k1, k2, k3, _⟩, _⟩
    · rw [h6]; norm_num
    · have : (30 : ℤ) < k := by simpa using k3
      omega
  obtain ⟨os, rfl⟩ : ∃ os, outs = o1 :: o2 :: os := by
    match outs, hlen, h4 with
    | [], hl, _ => simp at hl
    | [_], hl, _ => simp at hl
    | a :: b :: os, _, ⟨x, e1, y, e2, _⟩ =>
      rw [g1] at e1
      obtain ⟨rfl, rfl⟩ := Prod.mk.inj (Except.ok.inj e1)
      rw [g2] at e2
      obtain ⟨_, rfl⟩ := Prod.mk.inj (Except.ok.inj e2)
      exact ⟨os, rfl⟩
  have hsix : ∀ o ∈ o1 :: o2 :: os, o.temps.length = 6 := by
    obtain ⟨_, hf⟩ := trace_forall (fun s : Prim ℚ => ∃ t, s.tank = some t) (fun _ o => o.temps.length = 6) (by
      rintro s i s' o ⟨t, ht⟩ hst
      obtain ⟨_, _, _, _, e, _, f, _⟩ := primStep_tank ht hst
      exact ⟨⟨_, e⟩, by rw [f]; simp [nodeFracts]⟩) _ _ _ 0 (by
        obtain ⟨_, _, _, t1, e, _⟩ := primInit_tank hi (StratTank.new 400 (28 / 10)) rfl
        exact ⟨t1, e⟩) h4
    intro o ho
    obtain ⟨j, hj⟩ := List.mem_iff_getElem?.1 ho
    exact hf j o hj
  obtain ⟨p1, p2⟩ : _ ∧ _ := ⟨hp o1 (by simp), hp o2 (by simp)⟩
  have top := h5.temps hsix 5 (by norm_num)
  have split2 : ∀ (P : ℕ → Prop), P 0 → P 1 → ∀ k, 0 ≤ k → k ≤ 1 → P k := by
    intro P a b k _ hk
    interval_cases k <;> assumption
  refine ⟨by rw [h5.usable]; simp, split2 _ ?_ ?_, ?_, split2 _ ?_ ?_, split2 _ ?_ ?_, split2 _ ?_ ?_, split2 _ ?_ ?_⟩
  · rw [h5.inlet]; exact p1.1
  · rw [h5.inlet]; exact p2.1
  · intro k _ hk x hx
    have hh : hourOf k r.ts < 24 := Nat.mod_lt _ (by norm_num)
    obtain ⟨w, hw⟩ : ∃ w, w ∈ Demo.roomy.heaters := ⟨_, List.mem_cons_self ..⟩
    rcases hx with ⟨⟨w', hw', c, hc, rfl⟩, _⟩ | ⟨hx, _⟩
    · rw [(Demo.roomy_inForce _ hh w' hw' c).1 hc]
    · exact absurd ((Demo.roomy_inForce _ hh w hw _).2 rfl) (hx w hw _)
  · rw [h5.output, h5.demand]; exact ⟨p1.2.1, p1.2.2.1.le⟩
  · rw [h5.output, h5.demand]; exact ⟨p2.2.1, p2.2.2.1.le⟩
  · unfold nodeTemp; rw [top]; exact p1.2.2.2.1
  · unfold nodeTemp; rw [top]; exact p2.2.2.2.1
  · rw [h5.usable, h5.demand]; exact p1.2.2.2.2.1
  · rw [h5.usable, h5.demand]; exact p2.2.2.2.2.1
  · rw [h5.usable, h5.demand]; exact ⟨p1.2.2.2.2.2, p1.2.2.1⟩
  · rw [h5.usable, h5.demand]; exact ⟨p2.2.2.2.2.2, p2.2.2.1⟩

end Eco
