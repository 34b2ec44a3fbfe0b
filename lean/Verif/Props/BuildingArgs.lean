import Verif.Spec.BuildingArgs
import Verif.Props.Building
import Mathlib.Data.List.Perm.Basic
import Mathlib.Algebra.BigOperators.Group.List.Lemmas

/-! C124: a building is the one its lists of parts describe. -/

namespace Eco
set_option linter.unusedSectionVars false
variable {K : Type} [Field K] [LinearOrder K] [IsStrictOrderedRing K]
open Spec Building

/-- **C124, one part.** One type, or a list of one type, with one magnitude, or a list of one magnitude, and one load shape
or none is the single building. -/
theorem C124_one (db : ShapeFiles K) (bt : Option String) (m : Option K) (peak avg : Option (List K))
    (climate : Option (ClimateZone K)) (o : GpdOpts K) (annual : Bool) (dO dI : Option K)
    (types : OneOr (Option String)) (mags : OneOr (Option K)) (ht : types = .one bt ∨ types = .many [bt])
    (hm : mags = .one m ∨ mags = .many [m]) :
    fromArgs db types mags (single peak) (single avg) climate o annual dO dI =
      fromBuildingType db ⟨bt, m, peak, avg⟩ climate o annual dO dI := by
  have h1 : types.collapse = .one bt := by rcases ht with rfl | rfl <;> rfl
  have h2 : mags.collapse = .one m := by rcases hm with rfl | rfl <;> rfl
  unfold fromArgs fromBuildingType
  simp only [h1, h2]
  cases bt with
  | none =>
    cases peak with
    | none => rfl
    | some l => cases avg <;> rfl
  | some t => cases peak <;> cases avg <;> rfl

theorem fromMultiUse_blend (db : ShapeFiles K) (parts : List (Part K)) (climate : Option (ClimateZone K)) (o : GpdOpts K)
    (dO dI : Option K) : fromMultiUse db parts climate o dO dI =
      (do let subs ← parts.mapM (fun p => computeSingle db p.bt p.mag p.customPeak p.customAvg o)
          blend subs climate dO dI) := rfl

theorem normaliseShapes_gives {a : ShapeArg K} {l : List (Option (List K))} (h : GivesShapes a l) :
    normaliseShapes a l.length = .ok (l.map .shape) := by
  rcases h with ⟨rfl, h⟩ | rfl
  · unfold normaliseShapes
    simp only [Except.ok.injEq]
    symm
    rw [List.eq_replicate_iff]
    refine ⟨by simp, ?_⟩
    intro b hb
    obtain ⟨x, hx, rfl⟩ := List.mem_map.1 hb
    rw [h x hx]
  · simp [normaliseShapes]

theorem normaliseShapes_ok {a : ShapeArg K} {n : ℕ} {es : List (ShapeEntry K)} (h : normaliseShapes a n = .ok es) :
    es.length = n ∧ ((∀ e ∈ es, e = .number) ∨ ∃ l, GivesShapes a l ∧ l.length = n ∧ es = l.map .shape) := by
  unfold normaliseShapes at h
  cases a with
  | none =>
    simp only [Except.ok.injEq] at h
    subst h
    refine ⟨by simp, .inr ⟨List.replicate n none, .inl ⟨rfl, fun x hx => List.eq_of_mem_replicate hx⟩, by simp, by simp⟩⟩
  | numbers l =>
    simp only at h
    split at h
    · simp at h
    · split at h
      · simp at h
      · simp only [Except.ok.injEq] at h
        subst h
        exact ⟨by simp, .inl fun e he => List.eq_of_mem_replicate he⟩
  | shapes l =>
    simp only at h
    split at h
    · simp at h
    · rename_i hl
      simp only [Except.ok.injEq] at h
      subst h
      simp only [ne_eq, not_not] at hl
      exact ⟨by simpa using hl, .inr ⟨l, .inr rfl, hl, rfl⟩⟩

theorem numberPeak_ne {db : ShapeFiles K} {bt : Option String} {m : Option K} {o : GpdOpts K} {x : K × List K × List K} :
    numberPeak db bt m o ≠ .ok x := by
  unfold numberPeak
  cases bt with
  | none => simp
  | some t => simp only [ne_eq, bind_eq_ok, not_exists, not_and]; intro _ _ h; simp at h

theorem numberAvg_ne {db : ShapeFiles K} {bt : Option String} {m : Option K} {p : Option (List K)} {o : GpdOpts K}
    {x : K × List K × List K} : numberAvg db bt m p o ≠ .ok x := by
  unfold numberAvg
  cases bt with
  | none => simp only [ne_eq, bind_eq_ok, not_exists, not_and]; intro _ _ h; simp at h
  | some t => simp only [ne_eq, bind_eq_ok, not_exists, not_and]; intro _ _ _ _ h; simp at h

theorem zip_parts (db : ShapeFiles K) (o : GpdOpts K) (parts : List (Part K)) :
    ((parts.map (·.bt)).zip ((parts.map (·.mag)).zip
      (((parts.map (·.customPeak)).map ShapeEntry.shape).zip ((parts.map (·.customAvg)).map ShapeEntry.shape)))).mapM
        (computePart db o) =
      parts.mapM (fun p => computeSingle db p.bt p.mag p.customPeak p.customAvg o) := by
  induction parts with
  | nil => rfl
  | cons p ps ih =>
    simp only [List.map_cons, List.zip_cons_cons, List.mapM_cons, ih]
    rfl

theorem collapse_many {α : Type} {l : List α} (h : l.length ≠ 1) : (OneOr.many l).collapse = .many l := by
  match l, h with
  | [], _ => rfl
  | [_], h => simp at h
  | _ :: _ :: _, _ => rfl

/-- **C124, lists.** A building is built from a list of two or more types exactly if the magnitudes and load shapes describe
as many parts, and then it is the mixed-use building of these parts. -/
theorem C124_parts (db : ShapeFiles K) (types : List (Option String)) (mags : List (Option K)) (peak avg : ShapeArg K)
    (climate : Option (ClimateZone K)) (o : GpdOpts K) (annual : Bool) (dO dI : Option K) (h2 : 2 ≤ types.length)
    (b : Building K) :
    fromArgs db (.many types) (.many mags) peak avg climate o annual dO dI = .ok b ↔
      ∃ parts, Describes types mags peak avg parts ∧ fromMultiUse db parts climate o dO dI = .ok b := by
  unfold fromArgs
  rw [collapse_many (by omega)]
  simp only
  constructor
  · intro h
    cases hm : (OneOr.many mags).collapse with
    | one m => rw [hm] at h; simp [fromMultiArgs] at h
    | many ms =>
      obtain rfl : mags = ms := by
        match mags, hm with
        | [], hm => simpa [OneOr.collapse] using hm
        | [_], hm => simp [OneOr.collapse] at hm
        | _ :: _ :: _, hm => simpa [OneOr.collapse] using hm
      rw [hm] at h
      unfold fromMultiArgs at h
      simp only at h
      split at h
      · simp at h
      rename_i hl
      simp only [ne_eq, not_not] at hl
      simp only [bind_eq_ok] at h
      obtain ⟨ps, hps, as, has, subs, hsub, hb⟩ := h
      obtain ⟨lp, hp⟩ := normaliseShapes_ok hps
      obtain ⟨la, ha⟩ := normaliseShapes_ok has
      obtain ⟨t, types', rfl⟩ : ∃ t types', types = t :: types' := by
        cases types with
        | nil => simp at h2
        | cons t l => exact ⟨t, l, rfl⟩
      obtain ⟨m, mags', rfl⟩ : ∃ m mags', mags = m :: mags' := by
        cases mags with
        | nil => simp at hl
        | cons t l => exact ⟨t, l, rfl⟩
      obtain ⟨p, ps', rfl⟩ : ∃ p ps', ps = p :: ps' := by
        cases ps with
        | nil => simp at lp
        | cons t l => exact ⟨t, l, rfl⟩
      obtain ⟨a, as', rfl⟩ : ∃ a as', as = a :: as' := by
        cases as with
        | nil => simp at la
        | cons t l => exact ⟨t, l, rfl⟩
      -- no part got a number
      have hfirst : ∃ x, computePart db o (t, m, p, a) = .ok x := by
        simp only [List.zip_cons_cons, List.mapM_cons, bind_eq_ok] at hsub
        obtain ⟨x, hx, _⟩ := hsub
        exact ⟨x, hx⟩
      obtain ⟨x, hx⟩ := hfirst
      have hp' : p ≠ .number := by
        rintro rfl
        exact numberPeak_ne (by simpa [computePart] using hx)
      have ha' : a ≠ .number := by
        rintro rfl
        cases p with
        | number => exact hp' rfl
        | shape s => exact numberAvg_ne (by simpa [computePart] using hx)
      obtain ⟨lps, gp, elp, hp⟩ : ∃ l, GivesShapes peak l ∧ l.length = (t :: types').length ∧ p :: ps' = l.map .shape := by
        rcases hp with hp | hp
        · exact absurd (hp p (by simp)) hp'
        · exact hp
      obtain ⟨las, ga, ela, ha⟩ : ∃ l, GivesShapes avg l ∧ l.length = (t :: types').length ∧ a :: as' = l.map .shape := by
        rcases ha with ha | ha
        · exact absurd (ha a (by simp)) ha'
        · exact ha
      rw [hp, ha] at hsub
      generalize t :: types' = types at *
      generalize m :: mags' = mags at *
      set parts : List (Part K) := List.zipWith (fun (x : Option String × Option K) (y : Option (List K) × Option (List K)) =>
        (⟨x.1, x.2, y.1, y.2⟩ : Part K)) (types.zip mags) (lps.zip las) with hparts
      have hlen : parts.length = types.length := by simp [hparts]; omega
      have get : ∀ (i : ℕ) (hi : i < types.length), parts[i]? = some ⟨types[i], mags[i]'(by omega), lps[i]'(by omega),
          las[i]'(by omega)⟩ := by
        intro i hi
        rw [List.getElem?_eq_getElem (by omega)]
        simp [hparts]
      have e1 : parts.map (·.bt) = types := by
        apply List.ext_getElem? ; intro i
        by_cases hi : i < types.length
        · rw [List.getElem?_map, get i hi, List.getElem?_eq_getElem hi]; rfl
        · rw [List.getElem?_eq_none (by simp; omega), List.getElem?_eq_none (by omega)]
      have e2 : parts.map (·.mag) = mags := by
        apply List.ext_getElem? ; intro i
        by_cases hi : i < types.length
        · rw [List.getElem?_map, get i hi, List.getElem?_eq_getElem (by omega)]; rfl
        · rw [List.getElem?_eq_none (by simp; omega), List.getElem?_eq_none (by omega)]
      have e3 : parts.map (·.customPeak) = lps := by
        apply List.ext_getElem? ; intro i
        by_cases hi : i < types.length
        · rw [List.getElem?_map, get i hi, List.getElem?_eq_getElem (by omega)]; rfl
        · rw [List.getElem?_eq_none (by simp; omega), List.getElem?_eq_none (by omega)]
      have e4 : parts.map (·.customAvg) = las := by
        apply List.ext_getElem? ; intro i
        by_cases hi : i < types.length
        · rw [List.getElem?_map, get i hi, List.getElem?_eq_getElem (by omega)]; rfl
        · rw [List.getElem?_eq_none (by simp; omega), List.getElem?_eq_none (by omega)]
      refine ⟨parts, ⟨e1, e2, by rwa [e3], by rwa [e4]⟩, ?_⟩
      rw [fromMultiUse_blend]
      simp only [bind_eq_ok]
      refine ⟨subs, ?_, hb⟩
      rw [← zip_parts, e1, e2, e3, e4]
      exact hsub
  · rintro ⟨parts, ⟨rfl, rfl, hp, ha⟩, hb⟩
    rw [List.length_map] at h2
    rw [collapse_many (by rw [List.length_map]; omega)]
    unfold fromMultiArgs
    simp only
    rw [if_neg (by simp)]
    have np := normaliseShapes_gives hp
    have na := normaliseShapes_gives ha
    rw [List.length_map] at np na
    simp only [List.length_map, np, na, ok_bind, zip_parts]
    rw [fromMultiUse_blend] at hb
    exact hb

/-- **C124, lists that do not match.** Two or more types with one magnitude, with another number of magnitudes, with one load
shape of 24 hours, or with another number of load shapes are a `ValueError`. -/
theorem C124_mismatch (db : ShapeFiles K) (types : List (Option String)) (mags : OneOr (Option K)) (peak avg : ShapeArg K)
    (climate : Option (ClimateZone K)) (o : GpdOpts K) (annual : Bool) (dO dI : Option K) (h2 : 2 ≤ types.length)
    (h : (∃ m, mags = .one m) ∨ (∃ l, mags = .many l ∧ l.length ≠ types.length) ∨
      (∃ l, peak = .numbers l ∧ l.length = 24) ∨ (∃ l, peak = .shapes l ∧ l.length ≠ types.length) ∨
      (∃ l, avg = .numbers l ∧ l.length = 24) ∨ ∃ l, avg = .shapes l ∧ l.length ≠ types.length) :
    fromArgs db (.many types) mags peak avg climate o annual dO dI = .error .valueError := by
  unfold fromArgs
  rw [collapse_many (by omega)]
  simp only
  unfold fromMultiArgs
  have hpk : normaliseShapes peak types.length = .error .valueError ∨ ∃ l', normaliseShapes peak types.length = .ok l' := by
    unfold normaliseShapes
    cases peak with
    | none => exact .inr ⟨_, rfl⟩
    | numbers l =>
      simp only
      split
      · exact .inl rfl
      · split
        · exact .inl rfl
        · exact .inr ⟨_, rfl⟩
    | shapes l =>
      simp only
      split
      · exact .inl rfl
      · exact .inr ⟨_, rfl⟩
  cases hm : mags.collapse with
  | one m => rfl
  | many ms =>
    simp only
    by_cases hl : ms.length = types.length
    swap
    · rw [if_pos hl]
    rw [if_neg (by simpa using hl)]
    rcases h with ⟨m, rfl⟩ | ⟨l, rfl, hne⟩ | ⟨l, rfl, h24⟩ | ⟨l, rfl, hne⟩ | hav
    · simp [OneOr.collapse] at hm
    · exfalso
      match l, hm with
      | [], hm => simp [OneOr.collapse] at hm; subst hm; exact hne hl
      | [_], hm => simp [OneOr.collapse] at hm
      | _ :: _ :: _, hm => simp [OneOr.collapse] at hm; subst hm; exact hne hl
    · simp [normaliseShapes, h24, error_bind]
    · simp [normaliseShapes, hne, error_bind]
    · rcases hpk with h | ⟨l', h⟩
      · rw [h, error_bind]
      · rw [h, ok_bind]
        rcases hav with ⟨l, rfl, h24⟩ | ⟨l, rfl, hne⟩
        · simp [normaliseShapes, h24, error_bind]
        · simp [normaliseShapes, hne, error_bind]

/-! ### The order of the parts -/

theorem weightedSum_total {l : List (K × List K)} {n : ℕ} (hne : l ≠ []) (h : ∀ p ∈ l, p.2.length = n) :
    ∃ r, weightedSum l = .ok r ∧ r.length = n := by
  induction l with
  | nil => exact absurd rfl hne
  | cons p l ih =>
    obtain ⟨g, ls⟩ := p
    have h1 : ls.length = n := h (g, ls) (by simp)
    cases l with
    | nil => exact ⟨_, rfl, by simpa using h1⟩
    | cons q l =>
      obtain ⟨r, hr, hl⟩ := ih (by simp) (fun p hp => h p (by simp [hp]))
      refine ⟨List.zipWith (· + ·) (ls.map (g * ·)) r, ?_, by simp [h1, hl]⟩
      rw [weightedSum]
      · rw [hr, ok_bind]
        unfold addArr
        rw [if_pos (by simp [h1, hl])]
      · simp

theorem getD_ext {l l' : List K} (hl : l.length = l'.length) (h : ∀ i, l.getD i 0 = l'.getD i 0) : l = l' := by
  apply List.ext_getElem hl
  intro i h1 h2
  have := h i
  rwa [List.getD_eq_getElem?_getD, List.getD_eq_getElem?_getD, List.getElem?_eq_getElem h1,
    List.getElem?_eq_getElem h2] at this

theorem weightedSum_perm {l l' : List (K × List K)} {r : List K} (hp : l.Perm l') (hne : l ≠ [])
    (h : weightedSum l = .ok r) : weightedSum l' = .ok r := by
  obtain ⟨h1, h2⟩ := weightedSum_spec hne h
  have hne' : l' ≠ [] := by rintro rfl; exact hne hp.eq_nil
  obtain ⟨r', hr', hl'⟩ := weightedSum_total hne' (fun p hp' => h1 p (hp.mem_iff.2 hp'))
  obtain ⟨_, h3⟩ := weightedSum_spec hne' hr'
  rw [hr', getD_ext hl' (fun i => by rw [h2, h3]; exact ((hp.map _).sum_eq).symm)]

theorem mapM_perm {α β : Type} {f : α → Py β} {l l' : List α} {ys : List β} (hp : l.Perm l') (h : l.mapM f = .ok ys) :
    ∃ ys', l'.mapM f = .ok ys' ∧ ys.Perm ys' := by
  induction hp generalizing ys with
  | nil => exact ⟨ys, h, .refl _⟩
  | cons x _ ih =>
    rw [List.mapM_cons] at h
    simp only [bind_eq_ok, pure_eq_ok, Except.ok.injEq] at h
    obtain ⟨y, hy, zs, hz, rfl⟩ := h
    obtain ⟨zs', hz', hp'⟩ := ih hz
    refine ⟨y :: zs', ?_, hp'.cons y⟩
    rw [List.mapM_cons, hy, ok_bind, hz', ok_bind, pure_eq_ok]
  | swap a b l =>
    simp only [List.mapM_cons, bind_eq_ok, pure_eq_ok, Except.ok.injEq] at h
    obtain ⟨y, hy, _, ⟨z, hz, zs, hzs, rfl⟩, rfl⟩ := h
    refine ⟨z :: y :: zs, ?_, .swap _ _ _⟩
    simp only [List.mapM_cons, hy, hz, hzs, ok_bind, pure_eq_ok]
  | trans _ _ ih1 ih2 =>
    obtain ⟨y1, e1, p1⟩ := ih1 h
    obtain ⟨y2, e2, p2⟩ := ih2 e1
    exact ⟨y2, e2, p1.trans p2⟩

/-- **C124, order.** The parts of a mixed-use building may be named in any order. -/
theorem C124_order (db : ShapeFiles K) (parts parts' : List (Part K)) (climate : Option (ClimateZone K)) (o : GpdOpts K)
    (dO dI : Option K) (b : Building K) (hp : parts.Perm parts') (h : fromMultiUse db parts climate o dO dI = .ok b) :
    fromMultiUse db parts' climate o dO dI = .ok b := by
  rw [fromMultiUse_blend] at h ⊢
  simp only [bind_eq_ok] at h ⊢
  obtain ⟨subs, hs, hb⟩ := h
  obtain ⟨subs', hs', hps⟩ := mapM_perm hp hs
  refine ⟨subs', hs', ?_⟩
  unfold blend at hb ⊢
  simp only at hb ⊢
  rw [← (hps.map (·.1)).sum_eq]
  split at hb
  · simp at hb
  rename_i htot
  rw [if_neg htot]
  have hne : subs ≠ [] := by rintro rfl; simp at htot
  simp only [bind_eq_ok, pure_eq_ok, Except.ok.injEq] at hb ⊢
  obtain ⟨pk, h1, av, h2, rfl⟩ := hb
  exact ⟨pk, weightedSum_perm (hps.map _) (by simpa using hne) h1, av, weightedSum_perm (hps.map _) (by simpa using hne) h2,
    rfl⟩

/-! ### Parts of one kind -/

theorem namedDailyGal_linear {db : ShapeFiles K} {bt : String} {m x : K} {o : GpdOpts K}
    (h : namedDailyGal db bt m o = .ok x) : ∃ g, ∀ m', namedDailyGal db bt m' o = .ok (g * m') := by
  unfold namedDailyGal at h ⊢
  split at h
  · rename_i hb
    simp only [hb, if_true]
    split at h
    · split at h
      · simp at h
      · exact ⟨_, fun _ => rfl⟩
    · split at h
      · simp at h
      · rename_i hk
        simp only [if_neg hk]
        simp only [bind_eq_ok] at h
        obtain ⟨data, hd, h⟩ := h
        simp only [hd, ok_bind]
        split at h
        · rename_i hca
          simp only [if_pos hca]
          split at h
          · simp at h
          · split at h
            · simp at h
            · rename_i hn
              simp only [if_neg hn]
              exact ⟨_, fun _ => rfl⟩
        · rename_i hca
          simp only [if_neg hca]
          simp only [bind_eq_ok] at h
          obtain ⟨g, hg, _⟩ := h
          exact ⟨g, fun _ => by rw [hg]; rfl⟩
  · rename_i hb
    simp only [hb, if_false]
    split at h
    · exact ⟨_, fun _ => rfl⟩
    · simp at h

/-- The daily use is proportional to the magnitude, and the shapes do not depend on it. -/
theorem computeSingle_linear {db : ShapeFiles K} {bt : Option String} {m : K} {peak avg : Option (List K)} {o : GpdOpts K}
    {x : K × List K × List K} (h : computeSingle db bt (some m) peak avg o = .ok x) :
    ∃ g, x.1 = g * m ∧ ∀ m', 0 < m' → computeSingle db bt (some m') peak avg o = .ok (g * m', x.2) := by
  unfold computeSingle at h ⊢
  cases bt with
  | none =>
    simp only at h ⊢
    cases peak with
    | none => simp at h
    | some raw =>
      simp only [bind_eq_ok, pure_eq_ok, Except.ok.injEq] at h ⊢
      obtain ⟨p, hp, a, ha, rfl⟩ := h
      exact ⟨1, by simp, fun m' _ => ⟨p, hp, a, ha, by simp⟩⟩
  | some t =>
    simp only at h ⊢
    split at h
    · simp at h
    · simp only [bind_eq_ok, pure_eq_ok, Except.ok.injEq] at h
      obtain ⟨d, hd, p, hp, a, ha, rfl⟩ := h
      obtain ⟨g, hg⟩ := namedDailyGal_linear hd
      rw [hg m] at hd
      simp only [Except.ok.injEq] at hd
      refine ⟨g, hd.symm, fun m' hm' => ?_⟩
      rw [if_neg (not_le.2 hm')]
      simp only [bind_eq_ok, pure_eq_ok, Except.ok.injEq]
      exact ⟨_, hg m', p, hp, a, ha, rfl⟩

theorem weightedSum_same {gs : List K} {s : List K} (hne : gs ≠ []) :
    weightedSum (gs.map (fun g => (g, s))) = .ok (s.map (gs.sum * ·)) := by
  have hne' : gs.map (fun g => (g, s)) ≠ [] := by simpa using hne
  obtain ⟨r, hr, hl⟩ := weightedSum_total (n := s.length) hne' (by
    intro p hp
    obtain ⟨g, _, rfl⟩ := List.mem_map.1 hp
    rfl)
  obtain ⟨_, h⟩ := weightedSum_spec hne' hr
  rw [hr]
  congr 1
  apply getD_ext (by simpa using hl)
  intro i
  rw [h]
  have e : (s.map (gs.sum * ·)).getD i 0 = gs.sum * s.getD i 0 := by
    rw [List.getD_eq_getElem?_getD, List.getD_eq_getElem?_getD, List.getElem?_map]
    cases s[i]? <;> simp
  rw [e, List.map_map]
  exact (List.sum_map_mul_right (f := fun g : K => g) (r := s.getD i 0) (l := gs)).trans (by rw [List.map_id'])

/-- **C124, split.** A building divided into parts of the same type and load shapes is, for its demand, the undivided building
with the sum of their magnitudes. -/
theorem C124_split (db : ShapeFiles K) (bt : Option String) (peak avg : Option (List K)) (mags : List K) (hne : mags ≠ [])
    (hpos : ∀ m ∈ mags, 0 < m) (climate : Option (ClimateZone K)) (o : GpdOpts K) (dO dI : Option K) (b : Building K)
    (hb : fromBuildingType db ⟨bt, some mags.sum, peak, avg⟩ climate o false dO dI = .ok b) (hd : b.dailyGal ≠ 0) :
    ∃ b', fromMultiUse db (mags.map (fun m => ⟨bt, some m, peak, avg⟩)) climate o dO dI = .ok b' ∧ SameDemand b b' := by
  unfold fromBuildingType at hb
  simp only [bind_eq_ok, pure_eq_ok, Except.ok.injEq, Bool.false_eq_true, if_false] at hb
  obtain ⟨⟨d, p, a⟩, hc, rfl⟩ := hb
  obtain ⟨g, hg, hlin⟩ := computeSingle_linear hc
  simp only at hg hlin hd
  have hmap : (mags.map (fun m => (⟨bt, some m, peak, avg⟩ : Part K))).mapM
      (fun p => computeSingle db p.bt p.mag p.customPeak p.customAvg o) = .ok (mags.map (fun m => (g * m, p, a))) := by
    rw [mapM_eq_ok, List.forall₂_map_left_iff, List.forall₂_map_right_iff, List.forall₂_same]
    exact fun m hm => hlin m (hpos m hm)
  have hsum : (mags.map (fun m => g * m)).sum = g * mags.sum := by
    rw [List.sum_map_mul_left]; simp
  have hgs : mags.map (fun m => g * m) ≠ [] := by simpa using hne
  have hdd : g * mags.sum ≠ 0 := by rw [← hg]; exact hd
  rw [fromMultiUse_blend, hmap, ok_bind]
  unfold blend
  have e1 : (mags.map (fun m => (g * m, p, a))).map (·.1) = mags.map (fun m => g * m) := by
    rw [List.map_map]; exact List.map_congr_left (fun _ _ => rfl)
  have e2 : (mags.map (fun m => (g * m, p, a))).map (fun s => (s.1, s.2.1)) =
      (mags.map (fun m => g * m)).map (fun x => (x, p)) := by rw [List.map_map, List.map_map]; rfl
  have e3 : (mags.map (fun m => (g * m, p, a))).map (fun s => (s.1, s.2.2)) =
      (mags.map (fun m => g * m)).map (fun x => (x, a)) := by rw [List.map_map, List.map_map]; rfl
  simp only [e1, e2, e3, weightedSum_same hgs, hsum, if_neg hdd, ok_bind, pure_eq_ok]
  have back : ∀ s : List K, (s.map (g * mags.sum * ·)).map (· / (g * mags.sum)) = s := by
    intro s
    rw [List.map_map]
    conv_rhs => rw [← List.map_id s]
    apply List.map_congr_left
    intro x _
    exact mul_div_cancel_left₀ x hdd
  refine ⟨_, rfl, ?_⟩
  rw [back, back]
  exact ⟨rfl, hg, rfl, rfl⟩

/-- Non-vacuity: two kinds of use, named in either order, and an office divided in three. -/
example : (fromArgs Demo.noFiles (.many [none, none]) (.many [some 100, some 300])
      (.shapes [some Demo.shape, some (List.replicate 24 (1 / 24))]) .none none ⟨some 25, none, none⟩ false none
      (some 50)).map (fun b => (b.dailyGal, b.buildingType, b.peakShape.sum)) = .ok ((400 : ℚ), "multi_use", 1) ∧
    (fromBuildingType Demo.noFiles ⟨some "office_building", some [10, 20, (30 : ℚ)].sum, some Demo.shape, some Demo.shape⟩ none
      ⟨none, none, none⟩ false none none).map (·.dailyGal) = .ok 126 := by
  decide +kernel

/-- **C124, refuted for lists of one.** With a list of one type and, as for other lists, a list of one load shape, an exception
is raised, although the part can be built and two such parts can. -/
theorem C124_one_shape_fails :
    ∃ (bt : Option String) (m : ℚ) (s : List ℚ), ∀ climate dO dI,
      fromArgs Demo.noFiles (.many [bt]) (.many [some m]) (.shapes [some s]) .none climate ⟨none, none, none⟩ false dO dI =
        .error .typeError ∧
      (∃ b, fromArgs Demo.noFiles (.one bt) (.one (some m)) (.numbers s) .none climate ⟨none, none, none⟩ false dO dI =
        .ok b) ∧
      ∃ b, fromArgs Demo.noFiles (.many [bt, bt]) (.many [some m, some m]) (.shapes [some s, some s]) .none climate
        ⟨none, none, none⟩ false dO dI = .ok b := by
  have h1 : computeSingle Demo.noFiles none (some (100 : ℚ)) (some Demo.shape) none ⟨none, none, none⟩ =
      .ok (100, Demo.shape, Demo.shape) := by decide +kernel
  have hb : ∀ climate dO dI, fromBuildingType Demo.noFiles ⟨none, some (100 : ℚ), some Demo.shape, none⟩ climate
      ⟨none, none, none⟩ false dO dI = .ok (mk' climate 100 Demo.shape Demo.shape "custom" dO dI) := by
    intro climate dO dI
    unfold fromBuildingType
    simp only [h1, ok_bind]
    rfl
  refine ⟨none, 100, Demo.shape, fun climate dO dI => ⟨rfl, ⟨_, hb climate dO dI⟩, ?_⟩⟩
  have h2 : computeSingle Demo.noFiles none (some ([100, 100] : List ℚ).sum) (some Demo.shape) none ⟨none, none, none⟩ =
      .ok (200, Demo.shape, Demo.shape) := by decide +kernel
  have hb2 : fromBuildingType Demo.noFiles ⟨none, some ([100, 100] : List ℚ).sum, some Demo.shape, none⟩ climate
      ⟨none, none, none⟩ false dO dI = .ok (mk' climate 200 Demo.shape Demo.shape "custom" dO dI) := by
    unfold fromBuildingType
    simp only [h2, ok_bind]
    rfl
  obtain ⟨b', hb', _⟩ := C124_split Demo.noFiles none (some Demo.shape) none [100, 100] (by simp) (by norm_num) climate _ dO dI _
    hb2 (by show (200 : ℚ) ≠ 0; norm_num)
  exact ⟨b', (C124_parts _ _ _ _ _ _ _ _ _ _ (by simp) b').2 ⟨_, ⟨rfl, rfl, .inr rfl, .inl ⟨rfl, by simp⟩⟩, hb'⟩⟩

end Eco
