import Verif.Model.SwingEr
import Verif.Props.SwingSize

set_option linter.unusedSectionVars false

/-! C68, C83, C84: the electric resistance addition of the swing tank. -/

namespace Eco
variable {K : Type} [Field K] [LinearOrder K] [IsStrictOrderedRing K]

namespace Spec

/-- The element alone keeps the swing tank at or above supply in every minute of a demand sequence, the primary storage
being at `level` at the start. Nothing is clamped. -/
def holdsSupply (p : SwingParams K) (inlet storage gen full : K) : Bool → K → K → List K → Prop
  | _, _, _, [] => True
  | heating, t, level, d :: ds =>
    ∃ h' t', erRaw p heating t (swingDraw p.supply inlet t d)
        (erFeed inlet storage gen level (swingDraw p.supply inlet t d)) = .ok (h', t') ∧ p.supply ≤ t' ∧
      holdsSupply p inlet storage gen full h' t' (erLevel gen full level (swingDraw p.supply inlet t d)) ds

/-- The primary's output [gal/min at storage temperature]. -/
def genGpm (capKbtuh storage inlet : K) : K := capKbtuh * 1000 / (rhoCp K * (storage - inlet)) / 60

/-- The same swing tank with an element enlarged by `er` kBTU/h. -/
def enlarged (p : SwingParams K) (er : K) : SwingParams K := { p with capKbtuh := p.capKbtuh + er }

end Spec

theorem swingElement_total {supply t1 dT : K} (heating : Bool) (h : dT ≠ 0) :
    ∃ r, swingElement supply heating t1 dT = .ok r := by
  unfold swingElement
  simp only [fdiv_ok _ h, Except.map]
  split
  · split <;> exact ⟨_, rfl⟩
  · split <;> exact ⟨_, rfl⟩

/-- Degrees per minute of a capacity [kBTU/h] in a tank. -/
def degPerMin (vol capKbtuh : K) : K := capKbtuh * 1000 / 60 / (rhoCp K * vol)

theorem degPerMin_pos {vol cap : K} (hv : 0 < vol) (hc : 0 < cap) : 0 < degPerMin vol cap := by
  have := rho_pos (K := K)
  unfold degPerMin
  positivity

theorem erRaw_eq {p : SwingParams K} (hv : 0 < p.vol) (heating : Bool) (t hw feed : K) :
    erRaw p heating t hw feed = (do
      let mixed ← swingMixed p.vol t hw feed
      let r ← swingElement p.supply heating (mixed - degPerMin p.vol p.lossKbtuh) (degPerMin p.vol p.capKbtuh)
      .ok (r.1, r.2.1)) := by
  have hne : rhoCp K * p.vol ≠ 0 := (mul_pos rho_pos hv).ne'
  unfold erRaw degPerMin
  simp only [fdiv_ok _ hne, ok_bind, pure_eq_ok]

theorem erRaw_total {p : SwingParams K} (hv : 0 < p.vol) (hc : 0 < p.capKbtuh) (heating : Bool) {t hw feed : K}
    (h0 : 0 ≤ hw) (hlt : hw < p.vol) : ∃ r, erRaw p heating t hw feed = .ok r := by
  obtain ⟨m, hm, -⟩ := swingMixed_ok (t := t) (primary := feed) h0 hlt
  obtain ⟨r, hr⟩ := swingElement_total (supply := p.supply) (t1 := m - degPerMin p.vol p.lossKbtuh) heating
    (degPerMin_pos hv hc).ne'
  exact ⟨(r.1, r.2.1), by rw [erRaw_eq hv, hm]; simp only [ok_bind, hr]⟩

theorem erStep_spec {p : SwingParams K} {heating h' : Bool} {t hw feed t' df : K}
    (h : erStep p heating t hw feed = .ok (h', t', df)) :
    ∃ raw, erRaw p heating t hw feed = .ok (h', raw) ∧ t' = max p.supply raw ∧ df = max 0 (p.supply - raw) := by
  simp only [erStep, bind_eq_ok, pure_eq_ok, Except.ok.injEq] at h
  obtain ⟨r, hr, h⟩ := h
  obtain ⟨a, raw⟩ := r
  dsimp only at h
  split at h
  · rename_i hlt
    simp only [Prod.mk.injEq] at h
    obtain ⟨rfl, rfl, rfl⟩ := h
    exact ⟨raw, hr, (max_eq_left hlt.le).symm, (max_eq_right (by linarith)).symm⟩
  · rename_i hge
    simp only [Prod.mk.injEq] at h
    obtain ⟨rfl, rfl, rfl⟩ := h
    exact ⟨raw, hr, (max_eq_right (not_lt.1 hge)).symm, (max_eq_left (by linarith [not_lt.1 hge])).symm⟩

theorem erStep_total {p : SwingParams K} (hv : 0 < p.vol) (hc : 0 < p.capKbtuh) (heating : Bool) {t hw feed : K}
    (h0 : 0 ≤ hw) (hlt : hw < p.vol) :
    ∃ h' t' df, erStep p heating t hw feed = .ok (h', t', df) ∧ p.supply ≤ t' := by
  obtain ⟨r, hr⟩ := erRaw_total (t := t) (feed := feed) hv hc heating h0 hlt
  have hs : ∃ x, erStep p heating t hw feed = .ok x := by
    simp only [erStep, hr, ok_bind, pure_eq_ok]
    exact ⟨_, rfl⟩
  obtain ⟨⟨h', t', df⟩, hx⟩ := hs
  obtain ⟨raw, -, ht, -⟩ := erStep_spec hx
  exact ⟨h', t', df, hx, ht ▸ le_max_left _ _⟩

/-- The sizing simulation runs through when no minute's demand reaches the tank's volume. -/
theorem erRun_total {p : SwingParams K} (hv : 0 < p.vol) (hc : 0 < p.capKbtuh) {inlet storage gen full : K}
    (hi : inlet < p.supply) (ds : List K) (hd : ∀ d ∈ ds, 0 ≤ d ∧ d < p.vol) (heating : Bool) {t level : K}
    (ht : p.supply ≤ t) : ∃ rows, erRun p inlet storage gen full heating t level ds = .ok rows := by
  induction ds generalizing heating t level with
  | nil => exact ⟨[], rfl⟩
  | cons d ds ih =>
    obtain ⟨hd0, hd1⟩ := hd d (by simp)
    obtain ⟨b1, b2⟩ := swingDraw_bounds hi ht hd0
    obtain ⟨h', t', df, hs, h1⟩ := erStep_total (t := t)
      (feed := erFeed inlet storage gen level (swingDraw p.supply inlet t d)) hv hc heating b1 (b2.trans_lt hd1)
    obtain ⟨rows, hrows⟩ := ih (fun x hx => hd x (by simp [hx])) h' h1
      (level := erLevel gen full level (swingDraw p.supply inlet t d))
    simp only [erRun, hs, hrows, ok_bind, pure_eq_ok]
    exact ⟨_, rfl⟩

/-- What every row of the sizing simulation records. -/
def ErRow (p : SwingParams K) (row : ErMin K) : Prop :=
  ∃ h' raw, erRaw p row.heating row.temp row.hw row.feed = .ok (h', raw) ∧ row.deficit = max 0 (p.supply - raw)

theorem erRun_rows {p : SwingParams K} {inlet storage gen full : K} {ds : List K} {heating : Bool} {t level : K}
    {rows : List (ErMin K)} (h : erRun p inlet storage gen full heating t level ds = .ok rows) :
    ∀ row ∈ rows, ErRow p row := by
  induction ds generalizing heating t level rows with
  | nil =>
    simp only [erRun, Except.ok.injEq] at h
    subst h
    simp
  | cons d ds ih =>
    simp only [erRun, bind_eq_ok, pure_eq_ok, Except.ok.injEq] at h
    obtain ⟨⟨h', t', df⟩, hs, rest, hrest, rfl⟩ := h
    obtain ⟨raw, hraw, -, hdf⟩ := erStep_spec hs
    intro row hrow
    rcases List.mem_cons.1 hrow with rfl | hrow
    · exact ⟨h', raw, hraw, hdf⟩
    · exact ih hrest row hrow

theorem erRun_holds {p : SwingParams K} {inlet storage gen full : K} {ds : List K} {heating : Bool} {t level : K}
    {rows : List (ErMin K)} (h : erRun p inlet storage gen full heating t level ds = .ok rows) :
    (∀ row ∈ rows, row.deficit = 0) ↔ Spec.holdsSupply p inlet storage gen full heating t level ds := by
  induction ds generalizing heating t level rows with
  | nil =>
    simp only [erRun, Except.ok.injEq] at h
    subst h
    simp [Spec.holdsSupply]
  | cons d ds ih =>
    simp only [erRun, bind_eq_ok, pure_eq_ok, Except.ok.injEq] at h
    obtain ⟨⟨h', t', df⟩, hs, rest, hrest, rfl⟩ := h
    obtain ⟨raw, hraw, ht', hdf⟩ := erStep_spec hs
    simp only [List.forall_mem_cons, Spec.holdsSupply]
    dsimp only at hrest ⊢
    constructor
    · rintro ⟨h1, h2⟩
      have hge : p.supply ≤ raw := by
        by_contra hlt
        rw [hdf, max_eq_right (by linarith [not_le.1 hlt])] at h1
        linarith [not_le.1 hlt]
      rw [max_eq_right hge] at ht'
      subst ht'
      exact ⟨h', t', hraw, hge, (ih hrest).1 h2⟩
    · rintro ⟨h2, t2, e, hge, hrec⟩
      rw [hraw] at e
      simp only [Except.ok.injEq, Prod.mk.injEq] at e
      obtain ⟨rfl, rfl⟩ := e
      rw [max_eq_right hge] at ht'
      subst ht'
      refine ⟨?_, (ih hrest).2 hrec⟩
      rw [hdf, max_eq_left (by linarith)]

theorem maxDeficit_eq (rows : List (ErMin K)) : maxDeficit rows = rows.foldl (fun m r => max m r.deficit) 0 := by
  unfold maxDeficit
  congr 1
  funext m r
  rcases lt_or_ge m r.deficit with h | h
  · rw [if_pos h, max_eq_right h.le]
  · rw [if_neg (not_lt.2 h), max_eq_left h]

theorem maxDeficit_ge {rows : List (ErMin K)} {row : ErMin K} (h : row ∈ rows) : row.deficit ≤ maxDeficit rows := by
  rw [maxDeficit_eq]
  exact le_foldl_max_of_mem (fun r : ErMin K => r.deficit) 0 h

theorem maxDeficit_nonneg (rows : List (ErMin K)) : 0 ≤ maxDeficit rows := by
  rw [maxDeficit_eq]
  exact le_foldl_max (fun r : ErMin K => r.deficit) rows 0

theorem maxDeficit_attained {rows : List (ErMin K)} (h : maxDeficit rows ≠ 0) :
    ∃ row ∈ rows, row.deficit = maxDeficit rows := by
  rw [maxDeficit_eq] at h ⊢
  rcases foldl_max_attained (fun r : ErMin K => r.deficit) rows 0 with h0 | ⟨x, hx, h0⟩
  · exact absurd h0 h
  · exact ⟨x, hx, h0.symm⟩

theorem maxDeficit_zero {rows : List (ErMin K)} (hn : ∀ row ∈ rows, 0 ≤ row.deficit) :
    maxDeficit rows = 0 ↔ ∀ row ∈ rows, row.deficit = 0 := by
  constructor
  · intro h row hr
    exact le_antisymm (h ▸ maxDeficit_ge hr) (hn row hr)
  · intro h
    by_contra hne
    obtain ⟨row, hr, e⟩ := maxDeficit_attained hne
    exact hne (e ▸ h row hr)

/-- What the enlarged element makes of a minute, from what the base element made of it. -/
theorem swingElement_enlarged {supply t1 dT x raw r : K} {heating h' : Bool} (hd : 0 < dT) (hx : 0 ≤ x)
    (h : swingElement supply heating t1 dT = .ok (h', raw, r)) :
    ∃ h2 t2 r2, swingElement supply heating t1 (dT + x) = .ok (h2, t2, r2) ∧
      (supply ≤ raw → supply ≤ t2) ∧ (raw < supply → min supply (raw + x) ≤ t2) ∧
      (raw < supply → raw + x < supply → t2 = raw + x) := by
  have hdx : 0 < dT + x := by linarith
  unfold swingElement at h ⊢
  simp only [fdiv_ok _ hd.ne', fdiv_ok _ hdx.ne', Except.map] at h ⊢
  cases heating
  · simp only [Bool.false_eq_true, if_false] at h ⊢
    by_cases hle : t1 ≤ supply
    · rw [if_pos hle] at h ⊢
      simp only [Except.ok.injEq, Prod.mk.injEq] at h
      obtain ⟨-, rfl, -⟩ := h
      refine ⟨_, _, _, rfl, ?_, ?_, ?_⟩
      · intro hs
        have h1 : supply - t1 ≤ dT := by
          have := mul_le_mul_of_nonneg_left (min_le_right ((supply - t1) / dT) 1) hd.le
          linarith
        have h2 : (supply - t1) / (dT + x) ≤ 1 := by rw [div_le_one hdx]; linarith
        rw [min_eq_left h2, mul_div_cancel₀ _ hdx.ne']
        linarith
      · intro hs
        have h1 : dT < supply - t1 := by
          by_contra hn
          have h2 : (supply - t1) / dT ≤ 1 := by rw [div_le_one hd]; linarith
          rw [min_eq_left h2, mul_div_cancel₀ _ hd.ne'] at hs
          linarith
        have h2 : 1 ≤ (supply - t1) / dT := by rw [le_div_iff₀ hd]; linarith
        rw [min_eq_right h2]
        rcases le_total ((supply - t1) / (dT + x)) 1 with h3 | h3
        · rw [min_eq_left h3, mul_div_cancel₀ _ hdx.ne']
          have := min_le_left supply (t1 + dT * 1 + x)
          linarith
        · rw [min_eq_right h3]
          have := min_le_right supply (t1 + dT * 1 + x)
          linarith
      · intro hs hs2
        have h1 : dT < supply - t1 := by
          by_contra hn
          have h2 : (supply - t1) / dT ≤ 1 := by rw [div_le_one hd]; linarith
          rw [min_eq_left h2, mul_div_cancel₀ _ hd.ne'] at hs
          linarith
        have h2 : 1 ≤ (supply - t1) / dT := by rw [le_div_iff₀ hd]; linarith
        rw [min_eq_right h2] at hs2 ⊢
        have h3 : 1 ≤ (supply - t1) / (dT + x) := by rw [le_div_iff₀ hdx]; linarith
        rw [min_eq_right h3]
        ring
    · rw [if_neg hle] at h ⊢
      simp only [Except.ok.injEq, Prod.mk.injEq] at h
      obtain ⟨-, rfl, -⟩ := h
      exact ⟨_, _, _, rfl, id, fun hs => absurd (not_le.1 hle) (not_lt.2 hs.le),
        fun hs => absurd (not_le.1 hle) (not_lt.2 hs.le)⟩
  · simp only [if_true] at h ⊢
    have hcap : ∀ D : K, 0 < D → supply + 8 < t1 + D →
        supply ≤ t1 + D - D * min ((t1 + D - (supply + 8)) / D) 1 := by
      intro D hD h8
      have h1 : D * min ((t1 + D - (supply + 8)) / D) 1 ≤ t1 + D - (supply + 8) := by
        calc _ ≤ D * ((t1 + D - (supply + 8)) / D) := mul_le_mul_of_nonneg_left (min_le_left _ _) hD.le
          _ = _ := mul_div_cancel₀ _ hD.ne'
      linarith
    have hraw : raw < supply → raw = t1 + dT := by
      intro hs
      split at h
      · rename_i h8
        simp only [Except.ok.injEq, Prod.mk.injEq] at h
        obtain ⟨-, rfl, -⟩ := h
        exact absurd (hcap dT hd h8) (not_le.2 hs)
      · simp only [Except.ok.injEq, Prod.mk.injEq] at h
        exact h.2.1.symm
    by_cases h8 : supply + 8 < t1 + (dT + x)
    · rw [if_pos h8]
      have := hcap (dT + x) hdx h8
      refine ⟨_, _, _, rfl, fun _ => this, fun _ => (min_le_left _ _).trans this, fun hs hs2 => ?_⟩
      have := hraw hs
      linarith
    · rw [if_neg h8]
      refine ⟨_, _, _, rfl, fun hs => ?_, fun hs => ?_, fun hs _ => ?_⟩
      · have h9 : ¬ supply + 8 < t1 + dT := by linarith
        rw [if_neg h9] at h
        simp only [Except.ok.injEq, Prod.mk.injEq] at h
        linarith [h.2.1]
      · have := hraw hs
        have := min_le_right supply (raw + x)
        linarith
      · have := hraw hs
        linarith

theorem degPerMin_add {vol a b : K} : degPerMin vol (a + b) = degPerMin vol a + degPerMin vol b := by
  unfold degPerMin
  ring

/-- The addition sized for a deficit warms the tank by that deficit in one minute. -/
theorem degPerMin_er {vol df sf : K} (hv : 0 < vol) :
    degPerMin vol (vol * rhoCp K * 60 * df / 1000 * sf) = df * sf := by
  have := rho_pos (K := K)
  unfold degPerMin
  field_simp

theorem row_enlarged {p : SwingParams K} (hv : 0 < p.vol) (hc : 0 < p.capKbtuh) {row : ErMin K} (hrow : ErRow p row)
    {er : K} (her : 0 ≤ er) :
    (row.deficit ≤ degPerMin p.vol er →
      ∃ h2 t2 r2, swingStep (Spec.enlarged p er) row.heating row.temp row.hw row.feed = .ok (h2, t2, r2) ∧
        p.supply ≤ t2) ∧
    (degPerMin p.vol er < row.deficit →
      swingStep (Spec.enlarged p er) row.heating row.temp row.hw row.feed = .error .valueError) := by
  obtain ⟨h', raw, hraw, hdf⟩ := hrow
  rw [erRaw_eq hv] at hraw
  simp only [bind_eq_ok, Except.ok.injEq, Prod.mk.injEq] at hraw
  obtain ⟨m, hm, ⟨a, b, c⟩, hel, rfl, rfl⟩ := hraw
  have hx : 0 ≤ degPerMin p.vol er := by
    have := rho_pos (K := K)
    unfold degPerMin
    positivity
  obtain ⟨h2, t2, r2, he2, hA, hB, hC⟩ := swingElement_enlarged (degPerMin_pos hv hc) hx hel
  rw [← degPerMin_add] at he2
  have hstep : swingStep (Spec.enlarged p er) row.heating row.temp row.hw row.feed
      = if t2 < p.supply then .error .valueError else .ok (h2, t2, r2) := by
    unfold swingStep Spec.enlarged
    unfold degPerMin at he2
    simp only [hm, ok_bind, he2, pure_eq_ok]
  constructor
  · intro hle
    have hge : p.supply ≤ t2 := by
      rcases le_or_gt p.supply b with hs | hs
      · exact hA hs
      · have h1 : p.supply - b ≤ row.deficit := hdf ▸ le_max_right _ _
        refine le_trans (le_min (le_refl _) ?_) (hB hs)
        linarith
    exact ⟨h2, t2, r2, by rw [hstep, if_neg (not_lt.2 hge)], hge⟩
  · intro hlt
    have hs : b < p.supply := by
      by_contra hn
      rw [hdf, max_eq_left (by linarith [not_lt.1 hn])] at hlt
      linarith
    rw [hdf, max_eq_right (by linarith)] at hlt
    have ht := hC hs (by linarith)
    rw [hstep, if_pos (by rw [ht]; linarith)]

/-! ## C68 -/

/-- What a successful ER sizing has done. -/
theorem sizeEr_ok {e e' : ErSys K} {b : Building K} {p : SwingParams K} {cap full inlet : K}
    (h : e.sizeEr b = (e', .ok ())) (hp : e.sw.params = .ok p) (hcap : e.sw.base.minCap = some cap)
    (hfull : e.sw.base.minStorage = some full) (hin : requireDesignInlet b = .ok inlet) :
    ∃ rows, b.peakShape.length = 24 ∧ e.sw.base.cfg.storage - inlet ≠ 0 ∧
      erScenarios p inlet e.sw.base.cfg.storage (Spec.genGpm cap e.sw.base.cfg.storage inlet) full
        (perMinute (erHours e.sw.base.cfg b)) = .ok rows ∧
      e' = { e with erCap := some (p.vol * rhoCp K * 60 * maxDeficit rows / 1000 * e.erSf),
                    sw := { e.sw with tmCap := some (p.capKbtuh + p.vol * rhoCp K * 60 * maxDeficit rows / 1000 * e.erSf) } } := by
  have htm : e.sw.tmCap = some p.capKbtuh := by
    unfold SwingSys.params at hp
    split at hp
    · rename_i h1 h2
      injection hp with hp
      rw [h2, ← hp]
    · simp at hp
  unfold ErSys.sizeEr at h
  simp only [hp, hcap, hfull] at h
  cases hr : erCapacity e.sw.base.cfg p cap full e.erSf b with
  | error x => rw [hr] at h; simp at h
  | ok er =>
    rw [hr] at h
    simp only [Prod.mk.injEq, and_true] at h
    unfold erCapacity at hr
    simp only [hin, ok_bind] at hr
    simp only [bind_eq_ok] at hr
    obtain ⟨g, hg, hr⟩ := hr
    obtain ⟨hne, hg⟩ := fdiv_eq_ok.1 hg
    split at hr
    · simp at hr
    · rename_i hlen
      simp only [bind_eq_ok, pure_eq_ok, Except.ok.injEq] at hr
      obtain ⟨rows, hrows, rfl⟩ := hr
      refine ⟨rows, not_not.1 hlen, fun h0 => hne (by rw [h0, mul_zero]), ?_, ?_⟩
      · rw [← hrows, hg]
        rfl
      · rw [← h, htm]
        rfl

theorem enlarged_params {e : ErSys K} {p : SwingParams K} (hp : e.sw.params = .ok p) (er : K) :
    ({ e.sw with tmCap := some (p.capKbtuh + er) } : SwingSys K).params = .ok (Spec.enlarged p er) := by
  unfold SwingSys.params at hp ⊢
  split at hp
  · rename_i h1 h2
    injection hp with hp
    simp only [h1]
    rw [← hp]
    rfl
  · simp at hp

theorem erScenarios_ok {p : SwingParams K} {inlet storage gen full : K} {ds : List K} {rows : List (ErMin K)}
    (h : erScenarios p inlet storage gen full ds = .ok rows) :
    (∀ row ∈ rows, ErRow p row) ∧
    ((∀ row ∈ rows, row.deficit = 0) ↔
      Spec.holdsSupply p inlet storage gen full false p.supply 0 ds ∧
      Spec.holdsSupply p inlet storage gen full false p.supply full ds) := by
  simp only [erScenarios, bind_eq_ok, pure_eq_ok, Except.ok.injEq] at h
  obtain ⟨r1, h1, r2, h2, rfl⟩ := h
  refine ⟨fun row hrow => ?_, ?_⟩
  · rcases List.mem_append.1 hrow with hr | hr
    · exact erRun_rows h1 row hr
    · exact erRun_rows h2 row hr
  · rw [← erRun_holds h1, ← erRun_holds h2]
    simp only [List.mem_append]
    exact ⟨fun h => ⟨fun r hr => h r (.inl hr), fun r hr => h r (.inr hr)⟩,
      fun h r hr => hr.elim (h.1 r) (h.2 r)⟩

theorem row_nonneg {p : SwingParams K} {row : ErMin K} (h : ErRow p row) : 0 ≤ row.deficit := by
  obtain ⟨_, _, _, hd⟩ := h
  exact hd ▸ le_max_left _ _

theorem er_pos_iff {vol m sf : K} (hv : 0 < vol) (hsf : 0 < sf) (hm : 0 ≤ m) :
    0 ≤ vol * rhoCp K * 60 * m / 1000 * sf ∧ (vol * rhoCp K * 60 * m / 1000 * sf = 0 ↔ m = 0) := by
  have hr := rho_pos (K := K)
  refine ⟨by positivity, ?_⟩
  rw [mul_eq_zero, div_eq_zero_iff, mul_eq_zero, mul_eq_zero, mul_eq_zero]
  simp [hv.ne', hr.ne', hsf.ne']

/-- **C68.** When the electric resistance addition is sized with a safety factor of at least one, the added capacity is
non-negative; it is zero exactly if the base element alone keeps supply temperature over the two days of demand, both from
an empty and from a full primary storage; and from every state of the sizing simulation the ordinary minute of the system
with the enlarged element ends at or above supply. -/
theorem C68_er_covers_every_minute {e e' : ErSys K} {b : Building K} {p : SwingParams K} {cap full inlet : K}
    (h : e.sizeEr b = (e', .ok ())) (hp : e.sw.params = .ok p) (hcap : e.sw.base.minCap = some cap)
    (hfull : e.sw.base.minStorage = some full) (hin : requireDesignInlet b = .ok inlet)
    (hv : 0 < p.vol) (hc : 0 < p.capKbtuh) (hsf : 1 ≤ e.erSf) :
    let storage := e.sw.base.cfg.storage
    let gen := Spec.genGpm cap storage inlet
    let demand := Spec.byMinute (erHours e.sw.base.cfg b)
    ∃ er, e'.erCap = some er ∧ e'.sw.params = .ok (Spec.enlarged p er) ∧ 0 ≤ er ∧
      (er = 0 ↔ Spec.holdsSupply p inlet storage gen full false p.supply 0 demand ∧
        Spec.holdsSupply p inlet storage gen full false p.supply full demand) ∧
      ∃ rows, erScenarios p inlet storage gen full demand = .ok rows ∧
        ∀ row ∈ rows, ∃ h2 t2 r2,
          swingStep (Spec.enlarged p er) row.heating row.temp row.hw row.feed = .ok (h2, t2, r2) ∧
          p.supply ≤ t2 := by
  intro storage gen demand
  obtain ⟨rows, -, -, hrows, rfl⟩ := sizeEr_ok h hp hcap hfull hin
  rw [perMinute_eq] at hrows
  obtain ⟨hR, hZ⟩ := erScenarios_ok hrows
  have hsf0 : 0 < e.erSf := zero_lt_one.trans_le hsf
  obtain ⟨h1, h2⟩ := er_pos_iff hv hsf0 (maxDeficit_nonneg rows)
  refine ⟨_, rfl, enlarged_params hp _, h1, ?_, rows, hrows, fun row hrow => ?_⟩
  · rw [h2, maxDeficit_zero (fun r hr => row_nonneg (hR r hr)), hZ]
  · refine (row_enlarged hv hc (hR row hrow) h1).1 ?_
    rw [degPerMin_er hv]
    have := maxDeficit_ge hrow
    have h3 := mul_le_mul_of_nonneg_left hsf (maxDeficit_nonneg rows)
    linarith

/-- **C68 fails for small safety factors.** The safety factor is not checked: below one, if the base element falls short at
all, the enlarged element falls short of supply in the worst minute. -/
theorem C68_small_safety_factor_fails {e e' : ErSys K} {b : Building K} {p : SwingParams K} {cap full inlet er : K}
    (h : e.sizeEr b = (e', .ok ())) (hp : e.sw.params = .ok p) (hcap : e.sw.base.minCap = some cap)
    (hfull : e.sw.base.minStorage = some full) (hin : requireDesignInlet b = .ok inlet)
    (hv : 0 < p.vol) (hc : 0 < p.capKbtuh) (hsf0 : 0 < e.erSf) (hsf : e.erSf < 1)
    (her : e'.erCap = some er) (hne : er ≠ 0) :
    ∃ rows, erScenarios p inlet e.sw.base.cfg.storage (Spec.genGpm cap e.sw.base.cfg.storage inlet) full
        (Spec.byMinute (erHours e.sw.base.cfg b)) = .ok rows ∧
      ∃ row ∈ rows, swingStep (Spec.enlarged p er) row.heating row.temp row.hw row.feed = .error .valueError := by
  obtain ⟨rows, -, -, hrows, rfl⟩ := sizeEr_ok h hp hcap hfull hin
  rw [perMinute_eq] at hrows
  obtain ⟨hR, -⟩ := erScenarios_ok hrows
  simp only [Option.some.injEq] at her
  obtain ⟨h1, h2⟩ := er_pos_iff hv hsf0 (maxDeficit_nonneg rows)
  rw [her] at h1 h2
  have hm : maxDeficit rows ≠ 0 := fun h0 => hne (h2.2 h0)
  obtain ⟨row, hrow, hd⟩ := maxDeficit_attained hm
  refine ⟨rows, hrows, row, hrow, (row_enlarged hv hc (hR row hrow) h1).2 ?_⟩
  rw [← her, degPerMin_er hv, hd]
  have hpos : 0 < maxDeficit rows := lt_of_le_of_ne (maxDeficit_nonneg rows) (Ne.symm hm)
  have := mul_lt_mul_of_pos_left hsf hpos
  linarith

/-- The demand of the sizing simulation is the design day, twice, from the first hour at which demand overtakes an even
generation. -/
theorem C68_demand {c : SysCfg K} {b : Building K} (hl : b.peakShape.length = 24) {start : Nat} (hr : c.maxRunHr ≠ 0)
    (hs : Spec.FirstDeficit b.peakShape c.maxRunHr start) (k : Nat) (hk : k < 48) :
    (erHours c b)[k]? = (b.peakShape[(start + k) % 24]?).map (fun f => f * b.dailyGal) := by
  rw [firstDeficit_iff] at hs
  have hlt : start < 24 := by
    cases hp : (peakIndices (b.peakShape.map (fun f => 1 / c.maxRunHr - f))) with
    | nil => rw [hp] at hs; simp at hs; omega
    | cons i is =>
      rw [hp] at hs
      simp at hs
      have hm : i ∈ peakIndices (b.peakShape.map (fun f => 1 / c.maxRunHr - f)) := by rw [hp]; simp
      unfold peakIndices at hm
      have := List.mem_range.1 (List.mem_filter.1 hm).1
      simp [hl] at this
      omega
  unfold erHours
  simp only [if_neg hr, hs]
  rw [List.getElem?_take_of_lt hk, List.getElem?_drop]
  have hlen : (b.peakShape.map (fun f => f * b.dailyGal)).length = 24 := by simp [hl]
  rcases lt_or_ge (start + k) 24 with h1 | h1
  · rw [List.getElem?_append_left (by simp; omega), List.getElem?_append_left (by omega), List.getElem?_map,
      Nat.mod_eq_of_lt h1]
  · rcases lt_or_ge (start + k) 48 with h2 | h2
    · rw [List.getElem?_append_left (by simp; omega), List.getElem?_append_right (by omega), hlen, List.getElem?_map]
      congr 2
      omega
    · rw [List.getElem?_append_right (by simp; omega), List.length_append, hlen, List.getElem?_map]
      congr 2
      omega

/-! ## C84: which buildings can be sized -/

theorem erHours_mem {c : SysCfg K} {b : Building K} {x : K} (h : x ∈ erHours c b) :
    ∃ f ∈ b.peakShape, x = f * b.dailyGal := by
  unfold erHours at h
  have h1 := List.mem_of_mem_drop (List.mem_of_mem_take h)
  simp only [List.mem_append, List.mem_map, or_self] at h1
  obtain ⟨f, hf, rfl⟩ := h1
  exact ⟨f, hf, rfl⟩

/-- **C84 (daily buildings).** The ER addition can be sized for every building with a 24-hour shape whose busiest minute is
below the swing tank's volume. -/
theorem C84_er_sizing_never_fails_partial {e : ErSys K} {b : Building K} {p : SwingParams K} {cap full inlet : K}
    (hp : e.sw.params = .ok p) (hcap : e.sw.base.minCap = some cap)
    (hfull : e.sw.base.minStorage = some full) (hin : requireDesignInlet b = .ok inlet)
    (hv : 0 < p.vol) (hc : 0 < p.capKbtuh) (hi : inlet < p.supply) (hst : p.supply ≤ e.sw.base.cfg.storage)
    (hl : b.peakShape.length = 24) (hd : ∀ f ∈ b.peakShape, 0 ≤ f * b.dailyGal ∧ f * b.dailyGal / 60 < p.vol) :
    ∃ e', e.sizeEr b = (e', .ok ()) := by
  have hne : rhoCp K * (e.sw.base.cfg.storage - inlet) ≠ 0 := (mul_pos rho_pos (by linarith)).ne'
  have hdd : ∀ d ∈ perMinute (erHours e.sw.base.cfg b), 0 ≤ d ∧ d < p.vol := by
    intro d hd'
    obtain ⟨y, hy, rfl⟩ := mem_perMinute hd'
    obtain ⟨f, hf, rfl⟩ := erHours_mem hy
    exact ⟨div_nonneg (hd f hf).1 (by norm_num), (hd f hf).2⟩
  obtain ⟨r1, h1⟩ := erRun_total (storage := e.sw.base.cfg.storage) (full := full)
    (gen := cap * 1000 / (rhoCp K * (e.sw.base.cfg.storage - inlet)) / 60) hv hc hi _ hdd false
    (level := 0) (le_refl _)
  obtain ⟨r2, h2⟩ := erRun_total (storage := e.sw.base.cfg.storage) (full := full)
    (gen := cap * 1000 / (rhoCp K * (e.sw.base.cfg.storage - inlet)) / 60) hv hc hi _ hdd false
    (level := full) (le_refl _)
  unfold ErSys.sizeEr
  simp only [hp, hcap, hfull, erCapacity, hin, ok_bind, fdiv_ok _ hne, hl, ne_eq, not_true, if_false,
    erScenarios, h1, h2, pure_eq_ok]
  exact ⟨_, rfl⟩

theorem sizeEr_not_daily (e : ErSys K) {b : Building K} (hl : b.peakShape.length ≠ 24) :
    ∃ err, e.sizeEr b = (e, .error err) := by
  have key : ∀ c : SysCfg K, ∀ p : SwingParams K, ∀ cap full sf : K, ∃ err,
      erCapacity c p cap full sf b = .error err := by
    intro c p cap full sf
    unfold erCapacity
    cases requireDesignInlet b with
    | error x => exact ⟨x, rfl⟩
    | ok inlet =>
      simp only [ok_bind]
      cases fdiv (cap * 1000) (rhoCp K * (c.storage - inlet)) with
      | error x => exact ⟨x, rfl⟩
      | ok g => exact ⟨.valueError, by simp only [ok_bind, if_pos hl]⟩
  unfold ErSys.sizeEr
  split
  · rename_i p cap full _ _ _
    obtain ⟨err, he⟩ := key e.sw.base.cfg p cap full e.erSf
    exact ⟨err, by simp only [he]⟩
  · cases requireDesignInlet b with
    | error x => exact ⟨x, rfl⟩
    | ok inlet => exact ⟨.typeError, rfl⟩

/-- **C84 fails for annual buildings.** A building with an annual load shape can be sized with a swing tank, but the ER step
that follows reads the annual shape again and always raises; the system keeps the swing sizing without an ER result. -/
theorem C84_annual_building_raises {db : ShapeFiles K} {e : ErSys K} {s' : SwingSys K} {b b' : Building K}
    {sched : Option (List String)} {cmap : Option (ControlMap K)} {slope fract : K}
    (hann : b.isAnnual = true) (h : e.sw.size db b sched cmap slope fract = ((s', b'), .ok ()))
    (hb' : b'.isAnnual = true) :
    ∃ err, e.size db b sched cmap slope fract = (({ e with sw := s' }, b'), .error err) := by
  have hl : b'.peakShape.length ≠ 24 := by
    unfold Building.isAnnual at hb'
    rw [of_decide_eq_true hb']
    decide
  obtain ⟨err, he⟩ := sizeEr_not_daily { e with sw := s' } hl
  refine ⟨err, ?_⟩
  unfold ErSys.size
  simp only [h, he]

/-! ## C83: the sized system in its own sizing run -/

/-- **C83 fails.** The addition is sized along a simulation that lifts the tank back to supply after every deficit. In the same
run the enlarged element reaches its cut-off earlier, is off when the large draw comes, and leaves the tank below
supply: here after three idle minutes, with a safety factor of one. -/
theorem C83_enlarged_run_falls_short :
    ∃ (p : SwingParams ℚ) (inlet storage gen full : ℚ) (demand : List ℚ) (rows : List (ErMin ℚ)),
      0 < p.vol ∧ 0 < p.lossKbtuh ∧ p.lossKbtuh < p.capKbtuh ∧ inlet < p.supply ∧ p.supply < storage ∧ 0 < gen ∧
      (∀ d ∈ demand, 0 ≤ d ∧ d < p.vol) ∧
      erScenarios p inlet storage gen full demand = .ok rows ∧
      ¬ Spec.holdsSupply (Spec.enlarged p (p.vol * rhoCp ℚ * 60 * maxDeficit rows / 1000 * 1)) inlet storage gen full
        false p.supply 0 demand := by
  let L : ℚ := 3 * 60 * rhoCp ℚ * 40 / 1000
  let C : ℚ := 7 * 60 * rhoCp ℚ * 40 / 1000
  let p : SwingParams ℚ := ⟨40, L, C, 120⟩
  let demand : List ℚ := [0, 0, 0, 27]
  have hrun : ∃ rows, erScenarios p 40 140 2 100 demand = .ok rows ∧ maxDeficit rows = 22 := by
    cases h : erScenarios p 40 140 2 100 demand with
    | error x => exact absurd h (by cases x <;> decide +kernel)
    | ok rows =>
      refine ⟨rows, rfl, ?_⟩
      have : (erScenarios p 40 140 2 100 demand).map maxDeficit = .ok 22 := by decide +kernel
      rw [h] at this
      simpa [Except.map] using this
  obtain ⟨rows, hrows, hmax⟩ := hrun
  refine ⟨p, 40, 140, 2, 100, demand, rows, by decide +kernel, by decide +kernel, by decide +kernel, by decide +kernel,
    by decide +kernel, by decide +kernel, by decide +kernel, hrows, ?_⟩
  rw [hmax]
  intro hh
  have hall : (erRun (Spec.enlarged p (p.vol * rhoCp ℚ * 60 * 22 / 1000 * 1)) 40 140 2 100 false 120 0 demand).map
      (fun rows => rows.all (fun r => decide (r.deficit = 0))) = .ok false := by decide +kernel
  cases h2 : erRun (Spec.enlarged p (p.vol * rhoCp ℚ * 60 * 22 / 1000 * 1)) 40 140 2 100 false 120 0 demand with
  | error x => rw [h2] at hall; simp [Except.map] at hall
  | ok rows2 =>
    rw [h2] at hall
    have := (erRun_holds h2).2 hh
    simp only [Except.map, Except.ok.injEq, List.all_eq_false, decide_eq_true_eq] at hall
    obtain ⟨r, hr, hne⟩ := hall
    exact hne (this r hr)

/-- **C83 (a primary that keeps up).** If the primary generates at least every minute's demand, the base element alone holds supply
from any start at or above supply, whatever the level of the primary storage. -/
theorem C83_holds_when_primary_keeps_up_partial {p : SwingParams K} {inlet storage gen full : K}
    (ok : SwingOk p inlet storage) (hf : 0 ≤ full) (hg : 0 < gen) (demand : List K)
    (hd : ∀ d ∈ demand, 0 ≤ d ∧ d < p.vol ∧ d ≤ gen) (heating : Bool) {t level : K} (ht : p.supply ≤ t) (hl : 0 ≤ level) :
    Spec.holdsSupply p inlet storage gen full heating t level demand := by
  induction demand generalizing heating t level with
  | nil => trivial
  | cons d ds ih =>
    obtain ⟨hd0, hd1, hd2⟩ := hd d (by simp)
    obtain ⟨b1, b2⟩ := swingDraw_bounds ok.inlet_lt ht hd0
    set hw := swingDraw p.supply inlet t d with hhw
    set feed := erFeed inlet storage gen level hw with hfeed
    obtain ⟨m, hm, hmt⟩ := swingMixed_ok (t := t) (primary := feed) b1 (b2.trans_lt hd1)
    have hms : p.supply ≤ m := by
      rcases eq_or_lt_of_le b1 with h0 | h0
      · rw [← h0, zero_mul] at hmt
        rcases mul_eq_zero.1 hmt with h | h
        · exact absurd h ok.vol_pos.ne'
        · linarith
      · have hf' : feed = storage := by
          rw [hfeed, erFeed, if_neg (by push Not; exact ⟨h0, by linarith⟩), if_pos (by linarith)]
        have h1 : p.vol * (m - p.supply) = hw * (storage - p.supply) + (p.vol - hw) * (t - p.supply) := by
          rw [hf'] at hmt
          linear_combination hmt
        have h2 : 0 ≤ p.vol * (m - p.supply) := by
          rw [h1]
          exact add_nonneg (mul_nonneg b1 (by linarith [ok.storage_ge])) (mul_nonneg (by linarith) (by linarith))
        linarith [nonneg_of_mul_nonneg_right h2 ok.vol_pos]
    obtain ⟨h', t', r, he, h1, -, -⟩ := swingElement_ok heating hms (L := degPerMin p.vol p.lossKbtuh)
      (D := degPerMin p.vol p.capKbtuh) (degPerMin_pos ok.vol_pos ok.loss_pos)
      (by
        have := degPerMin_pos ok.vol_pos (sub_pos.2 ok.cap_gt)
        have e : p.capKbtuh = p.lossKbtuh + (p.capKbtuh - p.lossKbtuh) := by ring
        rw [e, degPerMin_add]
        linarith)
    refine ⟨h', t', ?_, h1, ih (fun x hx => hd x (by simp [hx])) h' h1 ?_⟩
    · rw [erRaw_eq ok.vol_pos, hm]
      simp only [ok_bind, he]
    · exact le_min (le_max_right _ _) hf

theorem er_pos_of_first {e e' : ErSys K} {b : Building K} {p : SwingParams K} {cap full inlet d raw : K} {h' : Bool}
    (h : e.sizeEr b = (e', .ok ())) (hp : e.sw.params = .ok p) (hcap : e.sw.base.minCap = some cap)
    (hfull : e.sw.base.minStorage = some full) (hin : requireDesignInlet b = .ok inlet) (hv : 0 < p.vol)
    (hsf : 0 < e.erSf) (hhead : (perMinute (erHours e.sw.base.cfg b)).head? = some d)
    (hraw : erRaw p false p.supply (swingDraw p.supply inlet p.supply d)
      (erFeed inlet e.sw.base.cfg.storage (Spec.genGpm cap e.sw.base.cfg.storage inlet) 0
        (swingDraw p.supply inlet p.supply d)) = .ok (h', raw)) (hlt : raw < p.supply) :
    ∃ er, e'.erCap = some er ∧ 0 < er := by
  obtain ⟨rows, -, -, hrows, rfl⟩ := sizeEr_ok h hp hcap hfull hin
  refine ⟨_, rfl, ?_⟩
  cases hdem : perMinute (erHours e.sw.base.cfg b) with
  | nil => rw [hdem] at hhead; simp at hhead
  | cons d' ds =>
    rw [hdem] at hhead hrows
    simp only [List.head?_cons, Option.some.injEq] at hhead
    subst hhead
    have hN := (erScenarios_ok hrows).1
    simp only [erScenarios, bind_eq_ok, pure_eq_ok, Except.ok.injEq] at hrows
    obtain ⟨r1, h1, r2, h2, rfl⟩ := hrows
    simp only [erRun, bind_eq_ok, pure_eq_ok, Except.ok.injEq] at h1
    obtain ⟨⟨a, t', df⟩, hs, rest, -, hr1⟩ := h1
    obtain ⟨raw', hraw', -, hdf⟩ := erStep_spec hs
    rw [hraw] at hraw'
    simp only [Except.ok.injEq, Prod.mk.injEq] at hraw'
    obtain ⟨-, rfl⟩ := hraw'
    have hdf0 : 0 < df := by
      rw [hdf, max_eq_right (by linarith)]
      linarith
    have hm : df ≤ maxDeficit (r1 ++ r2) := by
      rw [← hr1]
      exact maxDeficit_ge (row := ⟨false, p.supply, 0, _, _, df⟩) (List.mem_append_left _ (List.mem_cons_self ..))
    have hpos := hdf0.trans_le hm
    have hr := rho_pos (K := K)
    exact mul_pos (div_pos (mul_pos (mul_pos (mul_pos hv hr) (by norm_num)) hpos) (by norm_num)) hsf

namespace Demo

/-- One busy hour, at five in the morning; sums to 1. -/
def erShape : List ℚ := List.replicate 5 (1/100) ++ [27/100] ++ List.replicate 17 (4/100) ++ [0]

def erBuilding : Building ℚ :=
  ⟨some (ClimateZone.fromDesignConditions (some 20) (some 50)), 10000, erShape, erShape, "custom"⟩

/-- A system whose primary is too small for the busy hour. -/
def erSys : ErSys ℚ :=
  ⟨⟨{ cfg := ⟨120, 150, 24, 1⟩, minCap := some 500, minStorage := some 100 }, 110, 3, 6/5, some 50, none, some 20, 1⟩,
    1, none⟩

end Demo

theorem Demo.erSys_sized : ∃ e', Demo.erSys.sizeEr Demo.erBuilding = (e', .ok ()) ∧ ∃ er, e'.erCap = some er ∧ 0 < er := by
  have hp : Demo.erSys.sw.params = .ok ⟨50, recircLossKbtuh 120 110 3, 20, 120⟩ := rfl
  have hin : requireDesignInlet Demo.erBuilding = .ok 50 := by decide +kernel
  obtain ⟨e', h⟩ := C84_er_sizing_never_fails_partial (e := Demo.erSys) (b := Demo.erBuilding) hp rfl rfl hin
    (by norm_num) (by norm_num) (by norm_num) (by decide +kernel) (by decide +kernel) (by decide +kernel)
  refine ⟨e', h, ?_⟩
  have hr : (erRaw ⟨50, recircLossKbtuh 120 110 3, 20, (120 : ℚ)⟩ false 120 (swingDraw 120 50 120 45)
      (erFeed 50 150 (Spec.genGpm 500 150 50) 0 (swingDraw 120 50 120 45))).map (fun x => decide (x.2 < 120)) = .ok true := by
    decide +kernel
  cases hraw : erRaw ⟨50, recircLossKbtuh 120 110 3, 20, (120 : ℚ)⟩ false 120 (swingDraw 120 50 120 45)
      (erFeed 50 150 (Spec.genGpm 500 150 50) 0 (swingDraw 120 50 120 45)) with
  | error x => rw [hraw] at hr; simp [Except.map] at hr
  | ok y =>
    obtain ⟨hh, raw⟩ := y
    rw [hraw] at hr
    simp [Except.map] at hr
    exact er_pos_of_first h hp rfl rfl hin (by norm_num) (by decide +kernel) (d := 45) (by decide +kernel) hraw hr

/-- The hypotheses of C68 are met, with an addition that is not zero. -/
example : ∃ e' er, Demo.erSys.sizeEr Demo.erBuilding = (e', .ok ()) ∧ e'.erCap = some er ∧ 0 < er ∧
    e'.sw.params = .ok (Spec.enlarged ⟨50, recircLossKbtuh 120 110 3, 20, 120⟩ er) := by
  obtain ⟨e', h, er, h1, h2⟩ := Demo.erSys_sized
  obtain ⟨er', h3, h4, -⟩ := C68_er_covers_every_minute (p := ⟨50, recircLossKbtuh 120 110 3, 20, 120⟩) h rfl rfl rfl
    (inlet := 50) (by decide +kernel) (by norm_num) (by norm_num) (by decide +kernel)
  rw [h1, Option.some.injEq] at h3
  subst h3
  exact ⟨e', er, h, h1, h2, h4⟩

end Eco
