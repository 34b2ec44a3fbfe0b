import Verif.Model.Utility
import Verif.Lemmas.Py
import Verif.Lemmas.Dict
import Verif.Spec.Calendar
import Mathlib.Tactic.NormNum
import Mathlib.Tactic.Ring
import Mathlib.Tactic.Linarith
import Mathlib.Tactic.IntervalCases

/-! Lemmas about filling the rate chart and maps. -/

namespace Eco
set_option linter.unusedSectionVars false
variable {K : Type} [Field K] [LinearOrder K] [IsStrictOrderedRing K]

theorem forM_eq_ok {α : Type} {f : α → Py Unit} {l : List α} :
    l.forM f = .ok () ↔ ∀ x ∈ l, f x = .ok () := by
  induction l with
  | nil => simp [List.forM_eq_forM]
  | cons a l ih =>
    rw [List.forM_eq_forM] at *
    rw [List.forM_cons, bind_eq_ok]
    simp only [ih, List.mem_cons, forall_eq_or_imp]
    constructor
    · rintro ⟨_, h1, h2⟩; exact ⟨h1, h2⟩
    · rintro ⟨h1, h2⟩; exact ⟨(), h1, h2⟩

theorem forM_error {α : Type} {f : α → Py Unit} {l : List α} {e : PyErr}
    (h : ∀ x ∈ l, f x = .ok () ∨ f x = .error e) : l.forM f = .ok () ∨ l.forM f = .error e := by
  induction l with
  | nil => left; rfl
  | cons a l ih =>
    rw [List.forM_eq_forM] at *
    rw [List.forM_cons]
    rcases h a (by simp) with h1 | h1
    · rw [h1, ok_bind]; exact ih (fun x hx => h x (by simp [hx]))
    · rw [h1, error_bind]; right; rfl

theorem foldl_set_getElem? {β : Type} (f : ℕ → β) (n : ℕ) (a : ℕ) (c : List β) (i : ℕ) :
    ((List.range' a n).foldl (fun c h => c.set h (f h)) c)[i]? =
      if a ≤ i ∧ i < a + n then (c[i]?).map (fun _ => f i) else c[i]? := by
  induction n generalizing a c with
  | zero => simp only [List.range'_zero, List.foldl_nil]; rw [if_neg (by omega)]
  | succ n ih =>
    rw [List.range'_succ, List.foldl_cons, ih]
    by_cases h1 : a = i
    · subst h1
      rw [if_neg (by omega), if_pos (by omega), List.getElem?_set]
      simp only [if_true]
      by_cases h2 : a < c.length
      · rw [if_pos h2, List.getElem?_eq_getElem h2]; rfl
      · rw [if_neg h2, List.getElem?_eq_none (by omega)]; rfl
    · rw [List.getElem?_set_ne h1]
      by_cases h2 : a + 1 ≤ i ∧ i < a + 1 + n
      · rw [if_pos h2, if_pos (by omega)]
      · rw [if_neg h2, if_neg (by omega)]

theorem foldl_set_length {β : Type} (f : ℕ → β) (l : List ℕ) (c : List β) :
    (l.foldl (fun c h => c.set h (f h)) c).length = c.length := by
  induction l generalizing c with
  | nil => rfl
  | cons a l ih => rw [List.foldl_cons, ih, List.length_set]

/-! ### Months -/

theorem monthHourStart_sum : ∀ m ≤ 12, monthHourStart.getD m 0 = 24 * (Spec.monthLen.take m).sum := by
  decide

theorem hourToMonthFrom_le (st : List ℕ) (h n : ℕ) : hourToMonthFrom st h n ≤ n := by
  induction n with
  | zero => simp [hourToMonthFrom]
  | succ n ih => unfold hourToMonthFrom; split <;> omega

theorem hourToMonth_lt (h : ℕ) : hourToMonth h < 12 := by
  have := hourToMonthFrom_le monthHourStart h 11
  unfold hourToMonth
  omega

theorem hourToMonth_spec (h : ℕ) (hh : h < 8760) :
    monthHourStart.getD (hourToMonth h) 0 ≤ h ∧ h < monthHourStart.getD (hourToMonth h + 1) 0 := by
  simp only [hourToMonth, hourToMonthFrom, monthHourStart, List.getD_cons_succ, List.getD_cons_zero]
  split_ifs <;> simp only [List.getD_cons_succ, List.getD_cons_zero] <;> omega

theorem monthHourStart_mono : ∀ a ≤ 12, ∀ b ≤ a, monthHourStart.getD b 0 ≤ monthHourStart.getD a 0 := by
  decide

/-- Hour `h` is within the hours of month `m` exactly if `m` is its month. -/
theorem in_month_iff (h m : ℕ) (hh : h < 8760) (hm : m < 12) :
    (monthHourStart.getD m 0 ≤ h ∧ h < monthHourStart.getD (m + 1) 0) ↔ hourToMonth h = m := by
  constructor
  · rintro ⟨h1, h2⟩
    obtain ⟨h3, h4⟩ := hourToMonth_spec h hh
    have h5 := hourToMonth_lt h
    by_contra hne
    rcases Nat.lt_or_gt_of_ne hne with hlt | hgt
    · have := monthHourStart_mono m (by omega) (hourToMonth h + 1) (by omega)
      omega
    · have := monthHourStart_mono (hourToMonth h) (by omega) (m + 1) (by omega)
      omega
  · rintro rfl; exact hourToMonth_spec h hh

/-! ### The chart -/

namespace Tracker

theorem fillChart_getElem? (d : Bool) (s : Season K) (c : List Int) (m h : ℕ) (hm : m < 12)
    (hh : h < 8760) :
    (fillChart d s c m)[h]? = if hourToMonth h = m then (c[h]?).map (fun _ => periodKey d s m (h % 24))
      else c[h]? := by
  unfold fillChart
  rw [foldl_set_getElem? (fun h => periodKey d s m (h % 24))]
  have h1 := monthHourStart_mono (m + 1) (by omega) m (by omega)
  have h2 := in_month_iff h m hh hm
  by_cases hc : hourToMonth h = m
  · have := h2.mpr hc
    rw [if_pos hc, if_pos (by omega)]
  · rw [if_neg hc, if_neg]
    intro hx
    exact hc (h2.mp (by omega))

theorem fillCharts_getElem? (d : Bool) (s : Season K) (k : ℕ) (sm : ℕ) (c : List Int) (h : ℕ)
    (hk : sm + k ≤ 12) (hh : h < 8760) :
    ((List.range' sm k).foldl (fillChart d s) c)[h]? =
      if sm ≤ hourToMonth h ∧ hourToMonth h < sm + k then
        (c[h]?).map (fun _ => periodKey d s (hourToMonth h) (h % 24)) else c[h]? := by
  induction k generalizing sm c with
  | zero => simp only [List.range'_zero, List.foldl_nil]; rw [if_neg (by omega)]
  | succ k ih =>
    rw [List.range'_succ, List.foldl_cons, ih (sm + 1) _ (by omega),
      fillChart_getElem? d s c sm h (by omega) hh]
    by_cases h1 : hourToMonth h = sm
    · rw [if_neg (by omega), if_pos h1, if_pos (by omega), h1]
    · rw [if_neg h1]
      by_cases h2 : sm + 1 ≤ hourToMonth h ∧ hourToMonth h < sm + 1 + k
      · rw [if_pos h2, if_pos (by omega)]
      · rw [if_neg h2, if_neg (by omega)]

theorem fillCharts_length (d : Bool) (s : Season K) (l : List ℕ) (c : List Int) :
    (l.foldl (fillChart d s) c).length = c.length := by
  induction l generalizing c with
  | nil => rfl
  | cons a l ih => rw [List.foldl_cons, ih]; exact foldl_set_length _ _ _

/-! ### The maps -/

/-- Setting the two or three keys of month `m`. -/
def upd {β : Type} (d : Bool) (a b c : β) (D : List (Int × β)) (m : ℕ) : List (Int × β) :=
  if d then dictSet (dictSet (dictSet D (m * numPeriods d : Int) a) (m * numPeriods d + 1 : Int) b)
    (m * numPeriods d + 2 : Int) c
  else dictSet (dictSet D (m * numPeriods d : Int) a) (m * numPeriods d + 1 : Int) b

/-- The value of the key with offset `j`. -/
def pick {β : Type} (a b c : β) (j : ℕ) : β := if j = 0 then a else if j = 1 then b else c

theorem upd_get {β : Type} (d : Bool) (a b c : β) (D : List (Int × β)) (m m' j : ℕ)
    (hj : j < numPeriods d) :
    dictGet? (upd d a b c D m) (m' * numPeriods d + j : Int) =
      if m' = m then some (pick a b c j) else dictGet? D (m' * numPeriods d + j : Int) := by
  cases d with
  | false =>
    simp only [upd, numPeriods, Bool.false_eq_true, if_false, dictGet?_dictSet] at *
    by_cases hm : m' = m
    · subst hm
      interval_cases j <;> simp [pick]
    · rw [if_neg (by omega), if_neg (by omega), if_neg hm]
  | true =>
    simp only [upd, numPeriods, if_true, dictGet?_dictSet] at *
    by_cases hm : m' = m
    · subst hm
      interval_cases j <;> simp [pick]
    · rw [if_neg (by omega), if_neg (by omega), if_neg (by omega), if_neg hm]

theorem upds_get {β : Type} (d : Bool) (a b c : β) (k sm : ℕ) (D : List (Int × β)) (m' j : ℕ)
    (hj : j < numPeriods d) :
    dictGet? ((List.range' sm k).foldl (upd d a b c) D) (m' * numPeriods d + j : Int) =
      if sm ≤ m' ∧ m' < sm + k then some (pick a b c j)
      else dictGet? D (m' * numPeriods d + j : Int) := by
  induction k generalizing sm D with
  | zero => simp only [List.range'_zero, List.foldl_nil]; rw [if_neg (by omega)]
  | succ k ih =>
    rw [List.range'_succ, List.foldl_cons, ih, upd_get d a b c D sm m' j hj]
    by_cases h1 : m' = sm
    · rw [if_neg (by omega), if_pos h1, if_pos (by omega)]
    · rw [if_neg h1]
      by_cases h2 : sm + 1 ≤ m' ∧ m' < sm + 1 + k
      · rw [if_pos h2, if_pos (by omega)]
      · rw [if_neg h2, if_neg (by omega)]

theorem fillMaps_eq (d : Bool) (s : Season K) (t : Tracker K) (m : ℕ) :
    fillMaps d s t m = { t with
      demandMap := upd d s.offDemand s.pkDemand s.dDemand t.demandMap m
      energyMap := upd d s.offEnergy s.pkEnergy s.dEnergy t.energyMap m
      isPeak := upd d false true false t.isPeak m
      isDiscount := upd d false false true t.isDiscount m } := by
  cases d <;> rfl

theorem fillMaps_foldl (d : Bool) (s : Season K) (l : List ℕ) (t : Tracker K) :
    l.foldl (fillMaps d s) t = { t with
      demandMap := l.foldl (upd d s.offDemand s.pkDemand s.dDemand) t.demandMap
      energyMap := l.foldl (upd d s.offEnergy s.pkEnergy s.dEnergy) t.energyMap
      isPeak := l.foldl (upd d false true false) t.isPeak
      isDiscount := l.foldl (upd d false false true) t.isDiscount } := by
  induction l generalizing t with
  | nil => rfl
  | cons a l ih => rw [List.foldl_cons, ih, fillMaps_eq]; rfl

/-- What a tracker says about the months filled by season `s`. -/
structure MonthOk (d : Bool) (s : Season K) (t : Tracker K) (m : ℕ) : Prop where
  chart : ∀ h < 8760, hourToMonth h = m → t.chart[h]? = some (periodKey d s m (h % 24))
  demand : ∀ j < numPeriods d, dictGet? t.demandMap (m * numPeriods d + j : Int) =
    some (pick s.offDemand s.pkDemand s.dDemand j)
  energy : ∀ j < numPeriods d, dictGet? t.energyMap (m * numPeriods d + j : Int) =
    some (pick s.offEnergy s.pkEnergy s.dEnergy j)
  peak : ∀ j < numPeriods d, dictGet? t.isPeak (m * numPeriods d + j : Int) = some (pick false true false j)
  discount : ∀ j < numPeriods d, dictGet? t.isDiscount (m * numPeriods d + j : Int) =
    some (pick false false true j)

theorem fillSeason_ok (d : Bool) (s : Season K) (t : Tracker K) (hc : t.chart.length = 8760)
    (he : s.endMonth ≤ 12) (m : ℕ) (hm : s.startMonth ≤ m) (hm' : m < s.endMonth) :
    MonthOk d s (fillSeason d t s) m := by
  unfold fillSeason
  simp only [fillMaps_foldl]
  constructor
  · intro h hh hmo
    simp only
    rw [fillCharts_getElem? d s _ _ _ h (by omega) hh, if_pos (by omega),
      List.getElem?_eq_getElem (by omega), hmo]
    rfl
  all_goals
    intro j hj
    simp only
    rw [upds_get d _ _ _ _ _ _ m j hj, if_pos (by omega)]

theorem fillSeason_frame (d : Bool) (s s' : Season K) (t : Tracker K)
    (he : s.endMonth ≤ 12) (m : ℕ) (hm : m < s.startMonth) (h : MonthOk d s' t m) :
    MonthOk d s' (fillSeason d t s) m := by
  unfold fillSeason
  simp only [fillMaps_foldl]
  have hlt := h
  constructor
  · intro i hh hmo
    simp only
    by_cases hse : s.endMonth ≤ s.startMonth
    · rw [show s.endMonth - s.startMonth = 0 by omega]
      exact h.chart i hh hmo
    rw [fillCharts_getElem? d s _ _ _ i (by omega) hh, if_neg (by omega)]
    exact h.chart i hh hmo
  · intro j hj
    simp only
    rw [upds_get d _ _ _ _ _ _ m j hj, if_neg (by omega)]; exact h.demand j hj
  · intro j hj
    simp only
    rw [upds_get d _ _ _ _ _ _ m j hj, if_neg (by omega)]; exact h.energy j hj
  · intro j hj
    simp only
    rw [upds_get d _ _ _ _ _ _ m j hj, if_neg (by omega)]; exact h.peak j hj
  · intro j hj
    simp only
    rw [upds_get d _ _ _ _ _ _ m j hj, if_neg (by omega)]; exact h.discount j hj

theorem fillSeason_misc (d : Bool) (t : Tracker K) (s : Season K) :
    (fillSeason d t s).chart.length = t.chart.length ∧ (fillSeason d t s).base = t.base ∧
    (fillSeason d t s).energyByHour = t.energyByHour ∧
    (fillSeason d t s).includeDiscount = t.includeDiscount := by
  unfold fillSeason
  simp only [fillMaps_foldl, and_self, and_true]
  exact fillCharts_length d s _ _

theorem fillAll_misc (d : Bool) (l : List (Season K)) (t : Tracker K) :
    (l.foldl (fillSeason d) t).chart.length = t.chart.length ∧
    (l.foldl (fillSeason d) t).base = t.base ∧
    (l.foldl (fillSeason d) t).energyByHour = t.energyByHour ∧
    (l.foldl (fillSeason d) t).includeDiscount = t.includeDiscount := by
  induction l generalizing t with
  | nil => simp
  | cons s l ih =>
    obtain ⟨h1, h2, h3, h4⟩ := ih (fillSeason d t s)
    obtain ⟨g1, g2, g3, g4⟩ := fillSeason_misc d t s
    rw [List.foldl_cons]
    exact ⟨h1.trans g1, h2.trans g2, h3.trans g3, h4.trans g4⟩

/-- The seasons follow one another from month `a` to month `b`. -/
def Chain : ℕ → List (Season K) → ℕ → Prop
  | a, [], b => a = b
  | a, s :: l, b => s.startMonth = a ∧ a < s.endMonth ∧ Chain s.endMonth l b

theorem Chain.le {a b : ℕ} {l : List (Season K)} (h : Chain a l b) : a ≤ b := by
  induction l generalizing a with
  | nil => exact le_of_eq h
  | cons s l ih => have := ih h.2.2; have := h.2.1; omega

theorem Chain.covers {a b : ℕ} {l : List (Season K)} (h : Chain a l b) (m : ℕ) (h1 : a ≤ m)
    (h2 : m < b) : ∃ i, ∃ hi : i < l.length, l[i].startMonth ≤ m ∧ m < l[i].endMonth := by
  induction l generalizing a with
  | nil => simp only [Chain] at h; omega
  | cons s l ih =>
    obtain ⟨e, hlt, hc⟩ := h
    by_cases hm : m < s.endMonth
    · exact ⟨0, by simp, by simpa [e] using h1, by simpa using hm⟩
    · obtain ⟨i, hi, h3, h4⟩ := ih hc (by omega)
      exact ⟨i + 1, by simpa using hi, by simpa using h3, by simpa using h4⟩

theorem Chain.start_ge {a b : ℕ} {l : List (Season K)} (h : Chain a l b) :
    ∀ s ∈ l, a ≤ s.startMonth ∧ s.startMonth < s.endMonth ∧ s.endMonth ≤ b := by
  induction l generalizing a with
  | nil => simp
  | cons s l ih =>
    obtain ⟨e, hlt, hc⟩ := h
    intro x hx
    rcases List.mem_cons.mp hx with rfl | hx
    · exact ⟨by omega, by omega, hc.le⟩
    · have := ih hc x hx
      omega

theorem fillAll_frame (d : Bool) (l : List (Season K)) (t : Tracker K) (a b : ℕ) (hb : b ≤ 12)
    (hc : Chain a l b) (s' : Season K) (m : ℕ) (hm : m < a) (h : MonthOk d s' t m) :
    MonthOk d s' (l.foldl (fillSeason d) t) m := by
  induction l generalizing a t with
  | nil => exact h
  | cons s l ih =>
    obtain ⟨e, hlt, hc⟩ := hc
    have := hc.le
    rw [List.foldl_cons]
    exact ih _ s.endMonth hc (by omega) (fillSeason_frame d s s' t (by omega) m (by omega) h)

theorem fillAll_ok (d : Bool) (l : List (Season K)) (t : Tracker K) (a b : ℕ) (hb : b ≤ 12)
    (hlen : t.chart.length = 8760) (hc : Chain a l b) (s : Season K) (hs : s ∈ l) (m : ℕ)
    (hm : s.startMonth ≤ m) (hm' : m < s.endMonth) :
    MonthOk d s (l.foldl (fillSeason d) t) m := by
  induction l generalizing a t with
  | nil => simp at hs
  | cons x l ih =>
    obtain ⟨e, hlt, hc⟩ := hc
    have := hc.le
    rw [List.foldl_cons]
    rcases List.mem_cons.mp hs with rfl | hs
    · exact fillAll_frame d l _ s.endMonth b hb hc s m hm'
        (fillSeason_ok d s t hlen (by omega) m hm hm')
    · exact ih _ x.endMonth ((fillSeason_misc d t x).1.trans hlen) hc hs

end Tracker

end Eco
