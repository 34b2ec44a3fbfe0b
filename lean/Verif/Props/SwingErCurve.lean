import Verif.Props.SwingEr
import Mathlib.Data.List.TakeDrop
import Mathlib.Data.List.Forall2
import Mathlib.Tactic.IntervalCases

set_option linter.unusedSectionVars false

/-! C69: the ER trade-off points. -/

namespace Eco
variable {K : Type} [Field K] [LinearOrder K] [IsStrictOrderedRing K]

theorem sizeEr_cases (e : ErSys K) (b : Building K) :
    (∃ x, e.sizeEr b = (e, .error x)) ∨
    ∃ er, e.sizeEr b = ({ e with erCap := some er, sw := { e.sw with tmCap := e.sw.tmCap.map (· + er) } }, .ok ()) := by
  unfold ErSys.sizeEr
  dsimp only
  split
  · exact .inl ⟨_, rfl⟩
  · exact .inr ⟨_, rfl⟩

namespace Spec

/-- The system with its ER addition sized anew, from the base element `tm` and with safety factor `extra`, for the building
with `i` percent of the daily use. -/
def erAt (e : ErSys K) (b : Building K) (tm extra : K) (i : Nat) : ErSys K × Py Unit :=
  ErSys.sizeEr { sw := { e.sw with tmCap := some tm }, erCap := none, erSf := extra }
    { b with dailyGal := b.dailyGal * ((i : K) / 100) }

/-- What a point of the trade-off curve stands for: at 100 percent the system as it was sized, elsewhere the base element
plus the addition sized for that percentage. -/
def IsErPoint (e : ErSys K) (b : Building K) (total tm extra : K) (pt : Nat × K) : Prop :=
  (pt.1 = 100 ∧ pt.2 = total) ∨
  (pt.1 ≠ 100 ∧ ∃ e' er, erAt e b tm extra pt.1 = (e', .ok ()) ∧ e'.erCap = some er ∧ pt.2 = tm + er)

end Spec

/-- The state of a loop that started from `e` and `b`. -/
def ErLoop (e : ErSys K) (b : Building K) (e1 : ErSys K) (b1 : Building K) : Prop :=
  (∃ x y, e1 = ⟨{ e.sw with tmCap := x }, e.erSf, y⟩) ∧ ∃ z, b1 = { b with dailyGal := z }

theorem erIteration_spec {e e1 : ErSys K} {b b1 : Building K} (hl : ErLoop e b e1 b1) (tm extra : K) (i : Nat) :
    (∃ x, erIteration tm b.dailyGal e.erSf extra e1 b1 i
        = ((⟨{ e.sw with tmCap := some tm }, extra, none⟩,
            { b with dailyGal := b.dailyGal * ((i : K) / 100) }), .error x)) ∨
    ∃ e' er, Spec.erAt e b tm extra i = (e', .ok ()) ∧ e'.erCap = some er ∧
      erIteration tm b.dailyGal e.erSf extra e1 b1 i
        = ((⟨{ e.sw with tmCap := some (tm + er) }, e.erSf, some er⟩,
            { b with dailyGal := b.dailyGal * ((i : K) / 100) }), .ok ()) := by
  obtain ⟨⟨x, y, rfl⟩, z, rfl⟩ := hl
  unfold erIteration Spec.erAt
  dsimp only
  rcases sizeEr_cases (⟨{ e.sw with tmCap := some tm }, extra, none⟩ : ErSys K)
    { b with dailyGal := b.dailyGal * ((i : K) / 100) } with ⟨err, he⟩ | ⟨er, he⟩
  · left
    refine ⟨err, ?_⟩
    simp only at he
    rw [he]
  · right
    simp only at he
    rw [he]
    exact ⟨_, er, rfl, rfl, rfl⟩

theorem erPoints_spec {total tm extra : K} {e : ErSys K} {b : Building K} (is : List Nat) {e1 : ErSys K}
    {b1 : Building K} (hl : ErLoop e b e1 b1) :
    (∃ i ∈ is, ∃ x, erPoints total tm b.dailyGal e.erSf extra e1 b1 is
        = ((⟨{ e.sw with tmCap := some tm }, extra, none⟩,
            { b with dailyGal := b.dailyGal * ((i : K) / 100) }), .error x)) ∨
    ∃ e2 b2 ps n, erPoints total tm b.dailyGal e.erSf extra e1 b1 is = ((e2, b2), .ok ps) ∧ ErLoop e b e2 b2 ∧
      ps.map (·.1) = is.take n ∧ (is ≠ [] → 0 < n) ∧ (∀ pt ∈ ps, Spec.IsErPoint e b total tm extra pt) ∧
      (∀ i ∈ is.take (n - 1), i ≠ 100 → ∃ e' er, Spec.erAt e b tm extra i = (e', .ok ()) ∧ e'.erCap = some er ∧ 0 < er) ∧
      (n < is.length → ∀ i, (is.take n).getLast? = some i → i ≠ 100 ∧
        ∃ e' er, Spec.erAt e b tm extra i = (e', .ok ()) ∧ e'.erCap = some er ∧ er ≤ 0) := by
  induction is generalizing e1 b1 with
  | nil =>
    right
    exact ⟨e1, b1, [], 0, rfl, hl, rfl, by simp, by simp, by simp, by simp⟩
  | cons i is ih =>
    unfold erPoints
    by_cases h100 : i = 100
    · rw [if_pos h100]
      rcases ih hl with ⟨j, hj, x, h⟩ | ⟨e2, b2, ps, n, h, h1, h2, h3, h4, h5, h6⟩
      · left
        exact ⟨j, by simp [hj], x, by simp only [h, Except.map]⟩
      · right
        refine ⟨e2, b2, (i, total) :: ps, n + 1, by simp only [h, Except.map], h1, by simp [h2], by simp, ?_, ?_, ?_⟩
        · intro pt hpt
          rcases List.mem_cons.1 hpt with rfl | hpt
          · exact .inl ⟨h100, rfl⟩
          · exact h4 pt hpt
        · intro j hj hne
          rcases Nat.eq_zero_or_pos n with rfl | hn
          · simp at hj
          · obtain ⟨m, rfl⟩ := Nat.exists_eq_add_of_le' hn
            simp only [Nat.add_sub_cancel, List.take_succ_cons, List.mem_cons] at hj h5
            rcases hj with rfl | hj
            · exact absurd h100 hne
            · exact h5 j hj hne
        · intro hlt j hj
          simp only [List.length_cons] at hlt
          have hlt' : n < is.length := by omega
          have hn : 0 < n := h3 (by rintro rfl; simp at hlt')
          refine h6 hlt' j ?_
          rw [List.take_succ_cons, List.getLast?_cons] at hj
          cases hg : (is.take n).getLast? with
          | none =>
            rw [List.getLast?_eq_none_iff, List.take_eq_nil_iff] at hg
            rcases hg with h | h
            · omega
            · subst h; simp at hlt'
          | some k => rw [hg] at hj; simpa using hj
    · rw [if_neg h100]
      rcases erIteration_spec hl tm extra i with ⟨x, hx⟩ | ⟨e', er, hat, her, hit⟩
      · left
        exact ⟨i, by simp, x, by rw [hx]⟩
      · have hl2 : ErLoop e b (⟨{ e.sw with tmCap := some (tm + er) }, e.erSf, some er⟩ : ErSys K)
            { b with dailyGal := b.dailyGal * ((i : K) / 100) } := ⟨⟨_, _, rfl⟩, _, rfl⟩
        have hpt : Spec.IsErPoint e b total tm extra (i, tm + er) := .inr ⟨h100, e', er, hat, her, rfl⟩
        rw [hit]
        simp only [Option.getD_some]
        by_cases hpos : 0 < er
        · rw [if_pos hpos]
          rcases ih hl2 with ⟨j, hj, x, h⟩ | ⟨e2, b2, ps, n, h, h1, h2, h3, h4, h5, h6⟩
          · left
            exact ⟨j, by simp [hj], x, by simp only [h, Except.map]⟩
          · right
            refine ⟨e2, b2, (i, tm + er) :: ps, n + 1, by simp only [h, Except.map], h1, by simp [h2], by simp,
              ?_, ?_, ?_⟩
            · intro pt hpt'
              rcases List.mem_cons.1 hpt' with rfl | hpt'
              · exact hpt
              · exact h4 pt hpt'
            · intro j hj hne
              rcases Nat.eq_zero_or_pos n with rfl | hn
              · simp at hj
              · obtain ⟨m, rfl⟩ := Nat.exists_eq_add_of_le' hn
                simp only [Nat.add_sub_cancel, List.take_succ_cons, List.mem_cons] at hj h5
                rcases hj with rfl | hj
                · exact ⟨e', er, hat, her, hpos⟩
                · exact h5 j hj hne
            · intro hlt j hj
              simp only [List.length_cons] at hlt
              have hlt' : n < is.length := by omega
              have hn : 0 < n := h3 (by rintro rfl; simp at hlt')
              refine h6 hlt' j ?_
              rw [List.take_succ_cons, List.getLast?_cons] at hj
              cases hg : (is.take n).getLast? with
              | none =>
                rw [List.getLast?_eq_none_iff, List.take_eq_nil_iff] at hg
                rcases hg with h | h
                · omega
                · subst h; simp at hlt'
              | some k => rw [hg] at hj; simpa using hj
        · rw [if_neg hpos]
          right
          refine ⟨_, _, [(i, tm + er)], 1, rfl, hl2, by simp, by simp, ?_, by simp, ?_⟩
          · intro pt hp
            rw [List.mem_singleton.1 hp]
            exact hpt
          · intro _ j hj
            simp at hj
            subst hj
            exact ⟨h100, e', er, hat, her, not_lt.1 hpos⟩

/-- What `get_er_sized_points` has done on a system with an addition. -/
theorem getErSizedPoints_cases [FloorRing K] {e : ErSys K} {b : Building K} {er total extra : K}
    (her : e.erCap = some er) (htot : e.sw.tmCap = some total) (hpos : 0 < er) :
    (∃ i ∈ erPercents, ∃ x, e.getErSizedPoints b extra
        = ((⟨{ e.sw with tmCap := some (total - er) }, extra, none⟩,
            { b with dailyGal := b.dailyGal * ((i : K) / 100) }), .error x)) ∨
    ∃ ps n, e.getErSizedPoints b extra = ((e, b), .ok (erCurve ps)) ∧ 0 < n ∧
      ps.map (·.1) = erPercents.take n ∧ (∀ pt ∈ ps, Spec.IsErPoint e b total (total - er) extra pt) ∧
      (∀ i ∈ erPercents.take (n - 1), i ≠ 100 →
        ∃ e' er', Spec.erAt e b (total - er) extra i = (e', .ok ()) ∧ e'.erCap = some er' ∧ 0 < er') ∧
      (n < 12 → ∀ i, (erPercents.take n).getLast? = some i → i ≠ 100 ∧
        ∃ e' er', Spec.erAt e b (total - er) extra i = (e', .ok ()) ∧ e'.erCap = some er' ∧ er' ≤ 0) := by
  obtain ⟨⟨base, ret, flow, sf, tmVol, tmCa, tmCap, effMix⟩, erSf, erCap⟩ := e
  obtain ⟨climate, daily, peak, avg, bt⟩ := b
  simp only at her htot
  subst her htot
  have hl : ErLoop (⟨⟨base, ret, flow, sf, tmVol, tmCa, some total, effMix⟩, erSf, some er⟩ : ErSys K)
    (⟨climate, daily, peak, avg, bt⟩ : Building K)
    (⟨⟨base, ret, flow, sf, tmVol, tmCa, some total, effMix⟩, erSf, some er⟩ : ErSys K)
    (⟨climate, daily, peak, avg, bt⟩ : Building K) := ⟨⟨_, _, rfl⟩, _, rfl⟩
  unfold ErSys.getErSizedPoints
  simp only [if_neg (not_le.2 hpos)]
  rcases erPoints_spec (total := total) (tm := total - er) (extra := extra) erPercents hl with
    ⟨i, hi, x, h⟩ | ⟨e2, b2, ps, n, h, ⟨⟨x, y, rfl⟩, z, rfl⟩, h2, h3, h4, h5, h6⟩
  · left
    simp only at h
    exact ⟨i, hi, x, by rw [h]⟩
  · right
    simp only at h
    refine ⟨ps, n, by rw [h], h3 (by decide), h2, h4, h5, h6⟩

/-- **C69 (on return).** When `get_er_sized_points` returns, the system and the building are as before. -/
theorem C69_returns_unchanged [FloorRing K] {e e' : ErSys K} {b b' : Building K} {extra : K} {c : ErCurve K}
    (h : e.getErSizedPoints b extra = ((e', b'), .ok c)) : e' = e ∧ b' = b := by
  cases her : e.erCap with
  | none =>
    unfold ErSys.getErSizedPoints at h
    simp [her] at h
  | some er =>
    cases htot : e.sw.tmCap with
    | none =>
      unfold ErSys.getErSizedPoints at h
      simp [her, htot] at h
    | some total =>
      by_cases hpos : 0 < er
      · rcases getErSizedPoints_cases (b := b) (extra := extra) her htot hpos with ⟨i, _, x, hx⟩ | ⟨ps, n, hx, _⟩
        · rw [hx] at h
          simp at h
        · rw [hx] at h
          simp only [Prod.mk.injEq] at h
          exact ⟨h.1.1.symm, h.1.2.symm⟩
      · unfold ErSys.getErSizedPoints at h
        simp [her, htot, not_lt.1 hpos] at h

/-- **C69 (the answer).** The percentages are the last of 10, 20, …, 120, ascending; each other than 100 comes with the
rounded kW of the base element plus the addition sized for that share of the daily use, 100 with those of the system;
all above the lowest need an addition. -/
theorem C69_points [FloorRing K] {e e' : ErSys K} {b b' : Building K} {extra er total : K} {c : ErCurve K}
    (h : e.getErSizedPoints b extra = ((e', b'), .ok c)) (her : e.erCap = some er) (htot : e.sw.tmCap = some total)
    (hpos : 0 < er) :
    c.percents <:+ [10, 20, 30, 40, 50, 60, 70, 80, 90, 100, 110, 120] ∧ c.percents ≠ [] ∧
    List.Forall₂ (fun i kw => ∃ x, kw = pyRound (x / wToKbtuh K) ∧
      Spec.IsErPoint e b total (total - er) extra (i, x)) c.percents c.kw ∧
    ∀ i ∈ c.percents.drop 1, i ≠ 100 →
      ∃ e1 er1, Spec.erAt e b (total - er) extra i = (e1, .ok ()) ∧ e1.erCap = some er1 ∧ 0 < er1 := by
  rcases getErSizedPoints_cases (b := b) (extra := extra) her htot hpos with
    ⟨i, _, x, hx⟩ | ⟨ps, n, hx, hn, h2, h4, h5, -⟩
  · rw [hx] at h
    simp at h
  · rw [hx] at h
    simp only [Prod.mk.injEq, Except.ok.injEq] at h
    obtain ⟨-, rfl⟩ := h
    have e1 : (erCurve ps).percents = (erPercents.take n).reverse := by
      unfold erCurve
      rw [← h2]
    refine ⟨?_, ?_, ?_, ?_⟩
    · rw [e1]
      have := List.reverse_suffix.2 (List.take_prefix n erPercents)
      simpa [erPercents] using this
    · rw [e1]
      simp [erPercents]
      omega
    · unfold erCurve
      dsimp only
      rw [List.forall₂_reverse_iff, List.forall₂_map_left_iff, List.forall₂_map_right_iff, List.forall₂_same]
      intro pt hpt
      exact ⟨pt.2, rfl, h4 pt hpt⟩
    · intro i hi hne
      refine h5 i ?_ hne
      rw [e1, List.drop_one, List.tail_reverse, List.mem_reverse] at hi
      rw [List.dropLast_take_eq_take_dropLast] at hi
      exact ((List.dropLast_prefix _).take _).subset hi

/-- **C69 (start index).** When the list reaches 100 percent, the start index names it and the system as sized. -/
theorem C69_start_names_100_partial [FloorRing K] {e e' : ErSys K} {b b' : Building K} {extra er total : K}
    {c : ErCurve K} (h : e.getErSizedPoints b extra = ((e', b'), .ok c)) (her : e.erCap = some er)
    (htot : e.sw.tmCap = some total) (hpos : 0 < er) (h100 : 100 ∈ c.percents) :
    c.percents[c.start]? = some 100 ∧ c.kw[c.start]? = some (pyRound (total / wToKbtuh K)) := by
  rcases getErSizedPoints_cases (b := b) (extra := extra) her htot hpos with
    ⟨i, _, x, hx⟩ | ⟨ps, n, hx, hn, h2, h4, -, -⟩
  · rw [hx] at h
    simp at h
  · rw [hx] at h
    simp only [Prod.mk.injEq, Except.ok.injEq] at h
    obtain ⟨-, rfl⟩ := h
    have hmem : 100 ∈ ps.map (·.1) := by
      simpa [erCurve] using h100
    have hn3 : 3 ≤ n := by
      by_contra hlt
      rw [h2] at hmem
      interval_cases n <;> simp [erPercents] at hmem
    have hlen : 3 ≤ ps.length := by
      have := congrArg List.length h2
      simp [erPercents] at this
      omega
    have h2' : (ps.map (·.1))[2]? = some 100 := by
      rw [h2, List.getElem?_take_of_lt (by omega)]
      rfl
    have hidx : (ps.map (·.1)).idxOf 100 = 2 := by
      obtain ⟨m, rfl⟩ := Nat.exists_eq_add_of_le' hn3
      rw [h2]
      simp [erPercents, List.idxOf_cons]
    obtain ⟨pt, hpt, e100⟩ : ∃ pt, ps[2]? = some pt ∧ pt.1 = 100 := by
      rw [List.getElem?_map] at h2'
      cases hq : ps[2]? with
      | none => rw [hq] at h2'; simp at h2'
      | some pt => rw [hq] at h2'; exact ⟨pt, rfl, by simpa using h2'⟩
    have hptm : pt ∈ ps := List.mem_of_getElem? hpt
    have htotal : pt.2 = total := by
      rcases h4 pt hptm with ⟨-, h⟩ | ⟨h, -⟩
      · exact h
      · exact absurd e100 h
    unfold erCurve
    dsimp only
    rw [if_pos hmem, hidx]
    constructor
    · rw [List.getElem?_reverse (by simp; omega), List.length_map]
      have : ps.length - 1 - (ps.length - 1 - 2) = 2 := by omega
      rw [this, h2']
    · rw [List.getElem?_reverse (by simp; omega), List.length_map]
      have : ps.length - 1 - (ps.length - 1 - 2) = 2 := by omega
      rw [this, List.getElem?_map, hpt, Option.map_some, htotal]

/-- The list reaches 100 percent exactly when both 120 and 110 percent of the daily use need an addition. -/
theorem C69_start_reached_iff [FloorRing K] {e e' : ErSys K} {b b' : Building K} {extra er total : K}
    {c : ErCurve K} (h : e.getErSizedPoints b extra = ((e', b'), .ok c)) (her : e.erCap = some er)
    (htot : e.sw.tmCap = some total) (hpos : 0 < er) :
    100 ∈ c.percents ↔ ∀ i ∈ [120, 110], ∃ e1 er1,
      Spec.erAt e b (total - er) extra i = (e1, .ok ()) ∧ e1.erCap = some er1 ∧ 0 < er1 := by
  rcases getErSizedPoints_cases (b := b) (extra := extra) her htot hpos with
    ⟨i, _, x, hx⟩ | ⟨ps, n, hx, hn, h2, h4, h5, h6⟩
  · rw [hx] at h
    simp at h
  · rw [hx] at h
    simp only [Prod.mk.injEq, Except.ok.injEq] at h
    obtain ⟨-, rfl⟩ := h
    have e1 : (erCurve ps).percents = (erPercents.take n).reverse := by
      unfold erCurve
      rw [← h2]
    rw [e1, List.mem_reverse]
    constructor
    · intro hmem
      have hn3 : 3 ≤ n := by
        by_contra hlt
        interval_cases n <;> simp [erPercents] at hmem
      intro i hi
      refine h5 i ?_ (by intro h; subst h; simp at hi)
      have : [120, 110] <+: erPercents.take (n - 1) := by
        obtain ⟨m, rfl⟩ := Nat.exists_eq_add_of_le' hn3
        simp [erPercents]
      exact this.subset hi
    · intro hall
      have hn3 : 3 ≤ n := by
        by_contra hlt
        have key : ∀ i ∈ [120, 110], (erPercents.take n).getLast? = some i → False := by
          intro i hi hl
          obtain ⟨-, a, x, ha, hx, hle⟩ := h6 (by omega) i hl
          obtain ⟨a', x', ha', hx', hgt⟩ := hall i hi
          rw [ha] at ha'
          simp only [Prod.mk.injEq, and_true] at ha'
          subst ha'
          rw [hx] at hx'
          simp only [Option.some.injEq] at hx'
          subst hx'
          exact absurd hle (not_le.2 hgt)
        interval_cases n
        · exact key 120 (by simp) rfl
        · exact key 110 (by simp) rfl
      obtain ⟨m, rfl⟩ := Nat.exists_eq_add_of_le' hn3
      simp [erPercents]

/-- **C69 (start index) fails.** If 120 percent needs no addition, the answer is the single point at 120 percent and the start
index `0` names it; 100 percent is not in the list. -/
theorem C69_start_can_name_120 [FloorRing K] {e : ErSys K} {b : Building K} {extra er total : K}
    (her : e.erCap = some er) (htot : e.sw.tmCap = some total) (hpos : 0 < er) {e1 : ErSys K} {er1 : K}
    (h120 : Spec.erAt e b (total - er) extra 120 = (e1, .ok ())) (her1 : e1.erCap = some er1) (hle : er1 ≤ 0) :
    ∃ c, e.getErSizedPoints b extra = ((e, b), .ok c) ∧ c.percents = [120] ∧ c.start = 0 := by
  have hl : ErLoop e b e b := ⟨⟨e.sw.tmCap, e.erCap, rfl⟩, b.dailyGal, rfl⟩
  have hit : ∃ eb, erIteration (total - er) b.dailyGal e.erSf extra e b 120 = (eb, .ok ()) ∧ eb.1.erCap = some er1 := by
    have heq : erIteration (total - er) b.dailyGal e.erSf extra e b 120
        = match Spec.erAt e b (total - er) extra 120 with
          | (e2, .error x) => ((e2, { b with dailyGal := b.dailyGal * (((120 : Nat) : K) / 100) }), .error x)
          | (e2, .ok ()) => (({ e2 with erSf := e.erSf }, { b with dailyGal := b.dailyGal * (((120 : Nat) : K) / 100) }), .ok ()) := rfl
    rw [heq, h120]
    exact ⟨_, rfl, her1⟩
  obtain ⟨eb, hit, hcap⟩ := hit
  have hpts : erPoints total (total - er) b.dailyGal e.erSf extra e b erPercents
      = (eb, .ok [(120, eb.1.sw.tmCap.getD 0)]) := by
    unfold erPercents erPoints
    rw [if_neg (by decide), hit]
    simp only [hcap, Option.getD_some, if_neg (not_lt.2 hle)]
  rcases getErSizedPoints_cases (b := b) (extra := extra) her htot hpos with ⟨i, _, x, hx⟩ | ⟨ps, n, hx, -, h2, -, h5, -⟩
  · unfold ErSys.getErSizedPoints at hx
    simp only [her, htot, if_neg (not_le.2 hpos), hpts] at hx
    simp at hx
  · refine ⟨_, hx, ?_⟩
    unfold ErSys.getErSizedPoints at hx
    simp only [her, htot, if_neg (not_le.2 hpos), hpts, Prod.mk.injEq, Except.ok.injEq] at hx
    rw [← hx.2]
    unfold erCurve
    simp

/-- **C69 (on error).** If one of the sizings raises, the error comes out with the system and the building as that sizing
found them: another daily use, the additional safety factor, no addition and the bare base element. -/
theorem C69_error_leaves_changes [FloorRing K] {e e' : ErSys K} {b b' : Building K} {extra er total : K} {x : PyErr}
    (h : e.getErSizedPoints b extra = ((e', b'), .error x)) (her : e.erCap = some er)
    (htot : e.sw.tmCap = some total) (hpos : 0 < er) :
    e'.erCap = none ∧ e'.sw.tmCap = some (total - er) ∧ e'.erSf = extra ∧
      ∃ i ∈ erPercents, b'.dailyGal = b.dailyGal * ((i : K) / 100) := by
  rcases getErSizedPoints_cases (b := b) (extra := extra) her htot hpos with ⟨i, hi, y, hx⟩ | ⟨ps, n, hx, -⟩
  · rw [hx] at h
    simp only [Prod.mk.injEq] at h
    obtain ⟨⟨rfl, rfl⟩, -⟩ := h
    exact ⟨rfl, rfl, rfl, i, hi, rfl⟩
  · rw [hx] at h
    simp at h

/-- On a system without an addition the query raises and changes nothing. -/
theorem C69_not_needed_unchanged [FloorRing K] {e : ErSys K} {b : Building K} {extra : K}
    (h : ∀ er, e.erCap = some er → er ≤ 0) : e.getErSizedPoints b extra = ((e, b), .error .runtimeError) := by
  unfold ErSys.getErSizedPoints
  cases her : e.erCap with
  | none => rfl
  | some er =>
    cases htot : e.sw.tmCap <;> simp [h er her]

/-! ### Witnesses -/

theorem sizeEr_first_draw_too_large {e : ErSys K} {b : Building K} {p : SwingParams K} {cap full inlet d : K}
    (hp : e.sw.params = .ok p) (hcap : e.sw.base.minCap = some cap)
    (hfull : e.sw.base.minStorage = some full) (hin : requireDesignInlet b = .ok inlet) (hv : 0 < p.vol)
    (hi : inlet < p.supply) (hst : inlet ≠ e.sw.base.cfg.storage) (hl : b.peakShape.length = 24)
    (hhead : (perMinute (erHours e.sw.base.cfg b)).head? = some d) (hd : p.vol ≤ d) :
    e.sizeEr b = (e, .error .valueError) := by
  have hne : rhoCp K * (e.sw.base.cfg.storage - inlet) ≠ 0 :=
    mul_ne_zero rho_pos.ne' (sub_ne_zero.2 (Ne.symm hst))
  cases hdem : perMinute (erHours e.sw.base.cfg b) with
  | nil => rw [hdem] at hhead; simp at hhead
  | cons d' ds =>
    rw [hdem] at hhead
    simp only [List.head?_cons, Option.some.injEq] at hhead
    subst hhead
    have hdraw : swingDraw p.supply inlet p.supply d' = d' := by
      unfold swingDraw
      rw [if_pos hi, mul_div_assoc, div_self (by linarith), mul_one]
    have hrun : ∀ gen level, erRun p inlet e.sw.base.cfg.storage gen full false p.supply level (d' :: ds)
        = .error .valueError := by
      intro gen level
      simp only [erRun, erStep, erRaw, hdraw, swingMixed, if_pos (hv.trans_le hd), if_pos (sub_nonpos.2 hd)]
      rfl
    unfold ErSys.sizeEr
    simp only [hp, hcap, hfull, erCapacity, hin, ok_bind, fdiv_ok _ hne, hl, ne_eq, not_true, if_false,
      erScenarios, hdem, hrun, error_bind]

theorem fromComponents_one {supply storage ret flow erSf cap tankVol tmVol tmCap : K} {b : Building K} {oat : Option K}
    {inlet : K} {e : ErSys K} {sched : Option (List String)} {cmap : Option (ControlMap K)} (hoat : b.getDesignOat = .ok oat) (hin : requireDesignInlet b = .ok inlet)
    (he : ErSys.sizeEr (⟨⟨{ cfg := ⟨supply, storage, 24, 1⟩, minCap := some cap, minStorage := some tankVol }, ret, flow,
      6 / 5, some tmVol, none, some tmCap, 1⟩, erSf, none⟩ : ErSys K) b = (e, .ok ())) :
    ErSys.fromComponents [Heater.fromNominal cap sched cmap] tankVol tmVol tmCap b supply storage ret flow erSf
      = .ok (e, Heater.fromNominal (e.sw.tmCap.getD 0) (some (List.replicate 24 "normal"))
          (some [("normal", swingControls supply)])) := by
  have hnew : ErSys.new (⟨supply, storage, 24, 1⟩ : SysCfg K) ret flow (6 / 5) erSf
      = .ok ⟨⟨{ cfg := ⟨supply, storage, 24, 1⟩ }, ret, flow, 6 / 5, none, none, none, 1⟩, erSf, none⟩ := by
    unfold ErSys.new SwingSys.new
    rw [if_neg (by norm_num)]
    rfl
  unfold ErSys.fromComponents
  simp only [hnew, hoat, hin, ok_bind, designCapacity, Heater.fromNominal, PerfMap.getCapacity, List.mapM_cons,
    List.mapM_nil, pure_eq_ok, List.sum_cons, List.sum_nil, add_zero, he]

seal ErSys.sizeEr in
/-- **C69 fails on error.** A system built from components, whose tank takes the busiest minute of the building but not that of
120 percent: the query raises and leaves the building with another daily use and the system without its addition. -/
theorem C69_raises_and_leaves_changes :
    ∃ (heaters : List (Heater ℚ)) (b b' : Building ℚ) (e e' : ErSys ℚ) (w : Heater ℚ),
      ErSys.fromComponents heaters 100 50 20 b 120 150 110 3 1 = .ok (e, w) ∧
      e.getErSizedPoints b 1 = ((e', b'), .error .valueError) ∧
      b'.dailyGal ≠ b.dailyGal ∧ e'.erCap ≠ e.erCap ∧ e'.sw.tmCap ≠ e.sw.tmCap := by
  obtain ⟨e, he, er, her, hpos⟩ := Demo.erSys_sized
  have hin : requireDesignInlet Demo.erBuilding = .ok 50 := by decide +kernel
  have hoat : Demo.erBuilding.getDesignOat = .ok (some 20) := by decide +kernel
  have htm : e = ⟨{ Demo.erSys.sw with tmCap := some (20 + er) }, 1, some er⟩ := by
    rcases sizeEr_cases Demo.erSys Demo.erBuilding with ⟨x, hx⟩ | ⟨er', hx⟩
    · rw [hx] at he; simp at he
    · rw [hx] at he
      simp only [Prod.mk.injEq, and_true] at he
      rw [← he] at her
      simp only [Option.some.injEq] at her
      subst her
      rw [← he]
      rfl
  have h120 : ErSys.sizeEr (⟨{ Demo.erSys.sw with tmCap := some 20 }, 1, none⟩ : ErSys ℚ)
      { Demo.erBuilding with dailyGal := 10000 * (((120 : Nat) : ℚ) / 100) } = (_, .error .valueError) :=
    sizeEr_first_draw_too_large (p := ⟨50, recircLossKbtuh 120 110 3, 20, 120⟩) (cap := 500) (full := 100) (inlet := 50)
      (d := 54) rfl rfl rfl (by decide +kernel) (by norm_num) (by norm_num) (by decide +kernel) (by decide +kernel)
      (by decide +kernel) (by norm_num)
  have hit : erIteration 20 10000 1 1 e Demo.erBuilding 120
      = ((⟨{ Demo.erSys.sw with tmCap := some 20 }, 1, none⟩,
        { Demo.erBuilding with dailyGal := 10000 * (((120 : Nat) : ℚ) / 100) }), .error .valueError) := by
    rw [htm]
    unfold erIteration
    dsimp only
    simp only at h120
    rw [h120]
  have hget : e.getErSizedPoints Demo.erBuilding 1
      = ((⟨{ Demo.erSys.sw with tmCap := some 20 }, 1, none⟩,
        { Demo.erBuilding with dailyGal := 10000 * (((120 : Nat) : ℚ) / 100) }), .error .valueError) := by
    have h1 : e.sw.tmCap = some (20 + er) := by rw [htm]
    have h2 : e.erSf = 1 := by rw [htm]
    have h3 : Demo.erBuilding.dailyGal = 10000 := rfl
    have h4 : (20 : ℚ) + er - er = 20 := by ring
    unfold ErSys.getErSizedPoints
    simp only [her, h1, if_neg (not_le.2 hpos), h2, h3, h4]
    unfold erPercents erPoints
    rw [if_neg (by decide), hit]
  refine ⟨[Heater.fromNominal 500 none none], Demo.erBuilding, _, e, _,
    Heater.fromNominal (e.sw.tmCap.getD 0) (some (List.replicate 24 "normal")) (some [("normal", swingControls 120)]),
    ?_, hget, ?_, ?_, ?_⟩
  · exact fromComponents_one hoat hin he
  · change (10000 * (((120 : Nat) : ℚ) / 100)) ≠ 10000
    norm_num
  · rw [her]; simp
  · rw [htm]
    simp only [ne_eq, Option.some.injEq]
    linarith

/-- **C69 (start index), witness.** A system with an addition for which the query, asked with an additional safety factor of
zero, answers with a start index that names 120 percent. -/
theorem C69_start_names_120_witness :
    ∃ (b : Building ℚ) (e0 e : ErSys ℚ) (er : ℚ) (c : ErCurve ℚ), e0.sizeEr b = (e, .ok ()) ∧ e.erCap = some er ∧ 0 < er ∧
      e.getErSizedPoints b 0 = ((e, b), .ok c) ∧ c.percents[c.start]? = some 120 := by
  let e0 : ErSys ℚ := { Demo.erSys with sw := { Demo.erSys.sw with tmVol := some 80 } }
  have hp : e0.sw.params = .ok ⟨80, recircLossKbtuh 120 110 3, 20, 120⟩ := rfl
  have hin : requireDesignInlet Demo.erBuilding = .ok 50 := by decide +kernel
  obtain ⟨e, h⟩ := C84_er_sizing_never_fails_partial (e := e0) (b := Demo.erBuilding) hp rfl rfl hin
    (by norm_num) (by norm_num) (by norm_num) (by decide +kernel) (by decide +kernel) (by decide +kernel)
  have hpos : ∃ er, e.erCap = some er ∧ 0 < er := by
    have hr : (erRaw ⟨80, recircLossKbtuh 120 110 3, 20, (120 : ℚ)⟩ false 120 (swingDraw 120 50 120 45)
        (erFeed 50 150 (Spec.genGpm 500 150 50) 0 (swingDraw 120 50 120 45))).map (fun x => decide (x.2 < 120)) = .ok true := by
      decide +kernel
    cases hraw : erRaw ⟨80, recircLossKbtuh 120 110 3, 20, (120 : ℚ)⟩ false 120 (swingDraw 120 50 120 45)
        (erFeed 50 150 (Spec.genGpm 500 150 50) 0 (swingDraw 120 50 120 45)) with
    | error x => rw [hraw] at hr; simp [Except.map] at hr
    | ok y =>
      obtain ⟨hh, raw⟩ := y
      rw [hraw] at hr
      simp [Except.map] at hr
      exact er_pos_of_first h hp rfl rfl hin (by norm_num) (by decide +kernel) (d := 45) (by decide +kernel) hraw hr
  obtain ⟨er, her, hpos⟩ := hpos
  have htm : e.sw = { e0.sw with tmCap := some (20 + er) } := by
    rcases sizeEr_cases e0 Demo.erBuilding with ⟨x, hx⟩ | ⟨er', hx⟩
    · rw [hx] at h; simp at h
    · rw [hx] at h
      simp only [Prod.mk.injEq, and_true] at h
      rw [← h] at her
      simp only [Option.some.injEq] at her
      subst her
      rw [← h]
      rfl
  let e2 : ErSys ℚ := ⟨{ e.sw with tmCap := some (20 + er - er) }, 0, none⟩
  let b2 : Building ℚ := { Demo.erBuilding with dailyGal := Demo.erBuilding.dailyGal * (((120 : Nat) : ℚ) / 100) }
  have hp2 : e2.sw.params = .ok ⟨80, recircLossKbtuh 120 110 3, 20, 120⟩ := by
    have h4 : (20 : ℚ) + er - er = 20 := by ring
    simp only [e2, htm, h4]
    rfl
  have hb2 : e2.sw.base = Demo.erSys.sw.base := by simp only [e2, htm]; rfl
  have hin2 : requireDesignInlet b2 = .ok 50 := by decide +kernel
  have hc2 : e2.sw.base.minCap = some 500 := by rw [hb2]; rfl
  have hs2 : e2.sw.base.minStorage = some 100 := by rw [hb2]; rfl
  obtain ⟨e3, h3⟩ := C84_er_sizing_never_fails_partial (e := e2) (b := b2) hp2 hc2 hs2 hin2
    (by norm_num) (by norm_num) (by norm_num) (by rw [hb2]; decide +kernel) (by decide +kernel) (by decide +kernel)
  obtain ⟨rows, -, -, -, he3⟩ := sizeEr_ok h3 hp2 hc2 hs2 hin2
  have her3 : e3.erCap = some 0 := by
    rw [he3]
    simp [e2]
  obtain ⟨c, h1, h2, h4⟩ := C69_start_can_name_120 (e := e) (b := Demo.erBuilding) (extra := 0) her
    (total := 20 + er) (by rw [htm]) hpos h3 her3 (le_refl 0)
  exact ⟨Demo.erBuilding, e0, e, er, c, h, her, hpos, h1, by rw [h2, h4]; rfl⟩

end Eco
