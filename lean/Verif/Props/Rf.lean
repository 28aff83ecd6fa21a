import Verif.Lemmas.Rf
import Mathlib.Tactic.NormNum

/-!
# Rate tables, transmit power and capacity (C16–C19, C71, C72)
-/

namespace Verif

/-! ## C16 -/

/-- **C16.** On a nonempty table the level returned is the highest whose threshold
the SNR meets, and 0 when no threshold is met. -/
theorem C16_best_level (tbl : List McsRow) (h : tbl ≠ []) (snr : ℚ) :
    ∃ m, mcsFromSnr snr tbl = .ok m ∧
      ((Supports tbl snr m ∧ ∀ m', Supports tbl snr m' → m' ≤ m) ∨
        (m = 0 ∧ ∀ m', ¬ Supports tbl snr m')) :=
  mcsFromSnr_spec tbl h snr

/-- **C16.** More SNR never selects a lower level (levels are not negative). -/
theorem C16_monotone (tbl : List McsRow) (h : tbl ≠ []) (h0 : ∀ r ∈ tbl, 0 ≤ r.mcs)
    {snr snr' : ℚ} (hle : snr ≤ snr') :
    ∃ m m', mcsFromSnr snr tbl = .ok m ∧ mcsFromSnr snr' tbl = .ok m' ∧ 0 ≤ m ∧ m ≤ m' := by
  obtain ⟨m, e, hm⟩ := mcsFromSnr_spec tbl h snr
  obtain ⟨m', e', hm'⟩ := mcsFromSnr_spec tbl h snr'
  have hnn : ∀ k x, Supports tbl x k → 0 ≤ k := by
    rintro k x ⟨s, ⟨pre, row, post, rfl, rfl, _, _⟩, _⟩
    exact h0 row (by simp)
  have hup : ∀ k, Supports tbl snr k → Supports tbl snr' k :=
    fun k ⟨s, h1, h2⟩ => ⟨s, h1, le_trans h2 hle⟩
  refine ⟨m, m', e, e', ?_, ?_⟩
  · rcases hm with ⟨h1, _⟩ | ⟨h1, _⟩
    · exact hnn _ _ h1
    · omega
  · rcases hm with ⟨h1, _⟩ | ⟨h1, _⟩
    · rcases hm' with ⟨_, h3⟩ | ⟨_, h3⟩
      · exact h3 m (hup m h1)
      · exact absurd (hup m h1) (h3 m)
    · rcases hm' with ⟨h2, _⟩ | ⟨h2, _⟩
      · have := hnn _ _ h2; omega
      · omega

/-- **C16.** In a table with one row per level and thresholds growing with the
level, the two look-ups are inverse on the rows. -/
theorem C16_lookups_inverse (tbl : List McsRow) (hs : StrictTable tbl) (r : McsRow) (hr : r ∈ tbl) :
    snrFromMcs r.mcs tbl = .ok r.snr ∧ mcsFromSnr r.snr tbl = .ok r.mcs := by
  refine ⟨snrFromMcs_row hs hr, ?_⟩
  obtain ⟨m, e, hm⟩ := mcsFromSnr_spec tbl (List.ne_nil_of_mem hr) r.snr
  rw [e]
  have hsup : Supports tbl r.snr r.mcs :=
    ⟨r.snr, (threshold_iff_row hs.1 _ _).2 ⟨r, hr, rfl, rfl⟩, le_rfl⟩
  rcases hm with ⟨⟨s, h1, h2⟩, h3⟩ | ⟨_, h3⟩
  · obtain ⟨q, hq, rfl, rfl⟩ := (threshold_iff_row hs.1 _ _).1 h1
    have := h3 _ hsup
    rcases lt_or_eq_of_le this with c | c
    · exact absurd (hs.2 r hr q hq c) (not_lt.2 h2)
    · rw [c]
  · exact absurd hsup (h3 _)

/-- An empty table raises (`min` of an empty sequence). -/
theorem C16_empty_raises (snr : ℚ) : mcsFromSnr snr [] = .error .valueError := rfl

/-- A table and SNR values on, between, below and above its thresholds. -/
example :
    mcsFromSnr 12 defaultRateTable = .ok 9 ∧ mcsFromSnr (25/2) defaultRateTable = .ok 9 ∧
    mcsFromSnr 2 defaultRateTable = .ok 0 ∧ mcsFromSnr 100 defaultRateTable = .ok 12 := by
  decide +kernel

theorem defaultRateTable_strict : StrictTable defaultRateTable := by
  unfold StrictTable; decide +kernel

theorem defaultRateTable_consecutive : Consecutive defaultRateTable := by
  intro a ha b hb k h1 h2
  have ha' : 3 ≤ a.mcs := by
    have : ∀ a ∈ defaultRateTable, 3 ≤ a.mcs := by decide +kernel
    exact this a ha
  have hb' : b.mcs ≤ 12 := by
    have : ∀ a ∈ defaultRateTable, a.mcs ≤ 12 := by decide +kernel
    exact this b hb
  have : k = 3 ∨ k = 4 ∨ k = 5 ∨ k = 6 ∨ k = 7 ∨ k = 8 ∨ k = 9 ∨ k = 10 ∨ k = 11 ∨ k = 12 := by
    omega
  rcases this with rfl | rfl | rfl | rfl | rfl | rfl | rfl | rfl | rfl | rfl <;>
    simp [defaultRateTable]

/-! ## C17 -/

/-- **C17.** On a nonempty table the adjustment returns. Either no level is left
(level 0, power minus infinity), or the level is positive and not above the
starting one, and the power is at least the minimum and at most the maximum less
the back-off of the level. -/
theorem C17_power_in_range (tbl : List McsRow) (h : tbl ≠ []) (minTx : Option ℚ)
    (maxTx gain np : ℚ) (start : ℤ) :
    ∃ m p, adjustTxPower start tbl minTx maxTx gain np = .ok (m, p) ∧
      (m = 0 ∧ p = ⊥ ∨
        0 < m ∧ m ≤ start ∧ ∃ q : ℚ, p = q ∧ (∀ lo ∈ minTx, lo ≤ q) ∧
          q ≤ maxTx - backoffOf m tbl) := by
  obtain ⟨m, p, e, h0, h1, _, h3⟩ := adjustTxPower_spec h minTx maxTx gain np start
  refine ⟨m, p, e, ?_⟩
  rcases h3 with h3 | ⟨h3, s, _, h5, h6⟩
  · exact Or.inl h3
  · exact Or.inr ⟨h3, by omega, _, h5, (neededPower_ge _ _ _ _).1, h6⟩

/-- **C17 (partial).** Thresholds growing strictly with the level: when the level
returned is one of the table, its row is usable, and
the power is the least allowed one that reaches the row's threshold. -/
theorem C17_power_supports_level_partial (tbl : List McsRow) (hs : StrictTable tbl) (minTx : Option ℚ)
    (maxTx gain np : ℚ) (start : ℤ) (r : McsRow) (hr : r ∈ tbl) (q : ℚ)
    (e : adjustTxPower start tbl minTx maxTx gain np = .ok (r.mcs, (q : WithBot ℚ))) :
    Usable minTx maxTx gain np r ∧
    (∀ lo ∈ minTx, lo ≤ q) ∧ q ≤ maxTx - r.txBackoff ∧ r.snr ≤ q + gain - np ∧
    ∀ q', (∀ lo ∈ minTx, lo ≤ q') → r.snr ≤ q' + gain - np → q ≤ q' := by
  obtain ⟨m, p, e', _, _, _, h3⟩ :=
    adjustTxPower_spec (List.ne_nil_of_mem hr) minTx maxTx gain np start
  rw [e'] at e
  simp only [Except.ok.injEq, Prod.mk.injEq] at e
  obtain ⟨rfl, rfl⟩ := e
  rcases h3 with ⟨_, h3⟩ | ⟨_, s, h4, h5, h6⟩
  · exact absurd h3 (by simp)
  · rw [snrFromMcs_row hs hr] at h4
    cases h4
    rw [backoffOf_row hs.1 hr] at h6
    have h5 : q = neededPower minTx gain np r.snr := WithBot.coe_injective h5
    subst h5
    exact ⟨(usable_iff ..).2 h6, (neededPower_ge _ _ _ _).1, h6, (neededPower_ge _ _ _ _).2,
      fun q' h1 h2 => neededPower_least _ _ _ _ _ h1 h2⟩

/-- **C17.** No usable level is passed over: every row at or below the starting
level that is usable has a level at most the one returned. -/
theorem C17_no_usable_level_skipped (tbl : List McsRow) (hs : StrictTable tbl) (minTx : Option ℚ)
    (maxTx gain np : ℚ) (start m : ℤ) (p : WithBot ℚ)
    (e : adjustTxPower start tbl minTx maxTx gain np = .ok (m, p))
    (r : McsRow) (hr : r ∈ tbl) (hle : r.mcs ≤ start) (hu : Usable minTx maxTx gain np r) :
    r.mcs ≤ m := by
  obtain ⟨m', p', e', _, _, h2, _⟩ :=
    adjustTxPower_spec (List.ne_nil_of_mem hr) minTx maxTx gain np start
  rw [e'] at e
  simp only [Except.ok.injEq, Prod.mk.injEq] at e
  obtain ⟨rfl, rfl⟩ := e
  by_contra c
  have := h2 r.mcs (by omega) hle r.snr (snrFromMcs_row hs hr)
  rw [backoffOf_row hs.1 hr] at this
  exact this ((usable_iff ..).1 hu)

/-- **C17 is false for tables with equal thresholds:** levels 4 and 5 both need 5 dB;
for level 4 the code looks up 3 dB, the threshold of level 3, and the power returned
leaves the link 2 dB short. -/
theorem C17_tied_threshold_violation :
    ∃ (tbl : List McsRow) (maxTx gain np q : ℚ) (r : McsRow),
      tbl.Pairwise (fun a b => a.mcs < b.mcs ∧ a.snr ≤ b.snr) ∧ r ∈ tbl ∧
      adjustTxPower 5 tbl none maxTx gain np = .ok (r.mcs, (q : WithBot ℚ)) ∧
      q + gain - np < r.snr :=
  ⟨[⟨3, 3, 10, 0⟩, ⟨4, 5, 20, 2⟩, ⟨5, 5, 30, 3⟩], 5, 0, 0, 3, ⟨4, 5, 20, 2⟩,
    by decide +kernel, by decide +kernel, by decide +kernel, by decide +kernel⟩

/-- Level 12 needs more power than its back-off leaves; the adjustment stops at 11
with the least power reaching 16 dB. -/
example :
    adjustTxPower 12 defaultRateTable (some 5) 16 (-70) (-75) = .ok (11, ((11 : ℚ) : WithBot ℚ)) ∧
    adjustTxPower 12 defaultRateTable none 16 (-200) (-75) = .ok (0, ⊥) := by
  decide +kernel

/-! ## C18 -/

/-- **C18.** The maximum power is the device maximum, cut at the EIRP limit less
the antenna gain, raised to the device minimum. It is within the device maximum
because a device minimum is. -/
theorem C18_within_device_maximum (p : SectorParams) (e : Option ℚ)
    (h : ∀ lo ∈ p.minimumTxPower, lo ≤ p.maximumTxPower) :
    maxTxPower p e ≤ p.maximumTxPower ∧ ∀ lo ∈ p.minimumTxPower, lo ≤ maxTxPower p e := by
  unfold maxTxPower
  cases e <;> cases hm : p.minimumTxPower <;> simp_all

/-- **C18 (partial).** The EIRP at boresight exceeds the limit exactly when the
device minimum power already does; so the limit holds for every device without a
minimum power, and for every device whose minimum respects it. -/
theorem C18_eirp_limit_partial (p : SectorParams) (e : ℚ) :
    (e < maxTxPower p (some e) + (p.antennaBoresightGain + p.txDiversityGain) ↔
      ∃ lo ∈ p.minimumTxPower, e < lo + (p.antennaBoresightGain + p.txDiversityGain)) := by
  unfold maxTxPower
  cases hm : p.minimumTxPower with
  | none =>
    simp only [Option.mem_def, reduceCtorEq, false_and, exists_false, iff_false, not_lt]
    have := min_le_right p.maximumTxPower (e - (p.antennaBoresightGain + p.txDiversityGain))
    linarith
  | some lo =>
    simp only [Option.mem_def, Option.some.injEq, exists_eq_left']
    have h1 := min_le_right p.maximumTxPower (e - (p.antennaBoresightGain + p.txDiversityGain))
    constructor
    · intro h
      rcases max_choice lo (min p.maximumTxPower (e - (p.antennaBoresightGain + p.txDiversityGain)))
        with c | c <;> rw [c] at h
      · exact h
      · linarith
    · intro h
      have := le_max_left lo (min p.maximumTxPower (e - (p.antennaBoresightGain + p.txDiversityGain)))
      linarith

theorem nearestVal_mem {ν : Type} (d : Dict ℚ ν) (x : ℚ) (v : ν) (h : nearestVal d x = .ok v) :
    v ∈ d.vals := by
  unfold nearestVal at h
  cases h1 : nearestKey x d.keys with
  | none => rw [h1] at h; simp at h
  | some k =>
    rw [h1] at h
    dsimp only at h
    cases h2 : d.get? k with
    | none => rw [h2] at h; simp at h
    | some w =>
      rw [h2] at h
      cases h
      exact List.mem_map.2 ⟨(k, v), Dict.mem_of_get? d h2, rfl⟩

theorem mapM_max_mem (l : List (Dict ℚ ℚ)) (ms : List ℚ)
    (h : l.mapM (fun r => pyMax r.vals) = some ms) :
    ∀ r ∈ l, ∀ v ∈ r.vals, ∃ m ∈ ms, v ≤ m := by
  induction l generalizing ms with
  | nil => simp
  | cons a t ih =>
    rw [List.mapM_cons] at h
    cases h1 : pyMax (Dict.vals a) with
    | none => rw [h1] at h; simp at h
    | some g =>
      rw [h1] at h
      cases h2 : t.mapM (fun r => pyMax (Dict.vals r)) with
      | none => rw [h2] at h; simp at h
      | some gs =>
        rw [h2] at h
        simp at h
        subst h
        intro r hr v hv
        rcases List.mem_cons.1 hr with rfl | hr
        · exact ⟨g, by simp, ((pyMax_iff _ _).1 h1).2 v hv⟩
        · obtain ⟨m, hm, hle⟩ := ih gs h2 r hr v hv
          exact ⟨m, by simp [hm], hle⟩

/-- **C18.** With a scan pattern the gain in any direction is at most the gain used
for the limit, so a limit met at boresight is met in every direction. -/
theorem C18_every_direction (boresight diversity : ℚ) (pattern : Option (Dict ℚ (Dict ℚ ℚ)))
    (az el g : ℚ) (h : extractGain boresight diversity pattern az el = .ok g) :
    g ≤ boresight + diversity := by
  unfold extractGain at h
  cases pattern with
  | none => cases h; exact le_rfl
  | some d =>
    dsimp only at h
    cases h1 : maxBoresightGain d with
    | error e => rw [h1] at h; simp at h
    | ok top =>
      rw [h1] at h; dsimp only at h
      cases h2 : nearestVal d az with
      | error e => rw [h2] at h; simp at h
      | ok r =>
        rw [h2] at h; dsimp only at h
        cases h3 : nearestVal r el with
        | error e => rw [h3] at h; simp at h
        | ok v =>
          rw [h3] at h
          cases h
          have hr := nearestVal_mem d az r h2
          have hv := nearestVal_mem r el v h3
          unfold maxBoresightGain at h1
          cases h4 : d.vals.mapM (fun r => pyMax (Dict.vals r)) with
          | none => rw [h4] at h1; simp at h1
          | some ms =>
            rw [h4] at h1; dsimp only at h1
            cases h5 : pyMax ms with
            | none => rw [h5] at h1; simp at h1
            | some t =>
              rw [h5] at h1
              cases h1
              obtain ⟨m, hm, hle⟩ := mapM_max_mem _ _ h4 r hr v hv
              have := ((pyMax_iff _ _).1 h5).2 m hm
              linarith

/-- **C18 is false of the code:** a device with a minimum power of 10 dBm, 30 dB of
gain and a 38 dBm limit transmits 40 dBm EIRP. -/
theorem C18_eirp_violation :
    ∃ (p : SectorParams) (e : ℚ), (∀ lo ∈ p.minimumTxPower, lo ≤ p.maximumTxPower) ∧
      e < maxTxPower p (some e) + (p.antennaBoresightGain + p.txDiversityGain) :=
  ⟨{ maximumTxPower := 16, minimumTxPower := some 10, antennaBoresightGain := 30 }, 38,
    by decide +kernel, by decide +kernel⟩

example : maxTxPower { maximumTxPower := 16, minimumTxPower := some 2, antennaBoresightGain := 30 }
    (some 38) = 8 := by decide +kernel

example : extractGain 30 2 (some [(-10, [(0, 20), (5, 18)]), (0, [(0, 25), (5, 24)])]) (-8) 4
    = .ok 25 := by decide +kernel

/-! ## C71: capacity never falls as the signal improves -/

/-- The level chosen never falls as the net gain grows, whatever the table. -/
theorem estimate_level_mono (tbl : List McsRow) (h : tbl ≠ []) (h0 : ∀ r ∈ tbl, 0 ≤ r.mcs)
    (minTx : Option ℚ) (maxTx np : ℚ) {gain gain' : ℚ} (hle : gain ≤ gain') :
    ∃ b b', estimate gain np maxTx minTx tbl = .ok b ∧ estimate gain' np maxTx minTx tbl = .ok b' ∧
      0 ≤ b.mcsLevel ∧ b.mcsLevel ≤ b'.mcsLevel := by
  obtain ⟨s, s', e, e', hs0, hss⟩ := C16_monotone tbl h h0
    (show maxTx + gain - np ≤ maxTx + gain' - np by linarith)
  obtain ⟨m, p, e1, hm0, hms, hbest, hres⟩ := adjustTxPower_spec h minTx maxTx gain np s
  obtain ⟨m', p', e1', hm0', hms', hbest', hres'⟩ := adjustTxPower_spec h minTx maxTx gain' np s'
  refine ⟨_, _, by simp only [estimate, e, e1]; rfl, by simp only [estimate, e', e1']; rfl, hm0, ?_⟩
  dsimp only
  rcases hres with ⟨h1, _⟩ | ⟨h1, t, h2, h3, h4⟩
  · omega
  · by_contra c
    exact hbest' m (by omega) (by omega) t h2 (le_trans (neededPower_mono minTx hle) h4)

/-- The level reported is at most some level of the table, or 0. -/
theorem estimate_level_le (tbl : List McsRow) (h : tbl ≠ [])
    (minTx : Option ℚ) (maxTx np gain : ℚ) (b : LinkBudget)
    (e : estimate gain np maxTx minTx tbl = .ok b) :
    0 ≤ b.mcsLevel ∧ (b.mcsLevel = 0 ∨ ∃ r ∈ tbl, b.mcsLevel ≤ r.mcs) := by
  obtain ⟨s, e1, hs⟩ := mcsFromSnr_spec tbl h (maxTx + gain - np)
  obtain ⟨m, p, e2, hm0, hms, _, hres⟩ := adjustTxPower_spec h minTx maxTx gain np s
  simp only [estimate, e1, e2, Except.ok.injEq] at e
  subst e
  refine ⟨hm0, ?_⟩
  dsimp only
  rcases hs with ⟨⟨t, ⟨pre, row, post, rfl, rfl, _, _⟩, _⟩, _⟩ | ⟨h1, _⟩
  · by_cases c : m = 0
    · exact Or.inl c
    · exact Or.inr ⟨row, by simp, by omega⟩
  · left; omega

theorem estimate_capacity (tbl : List McsRow) 
    (minTx : Option ℚ) (maxTx np gain : ℚ) (b : LinkBudget)
    (e : estimate gain np maxTx minTx tbl = .ok b) :
    b.capacity = capacityOf b.mcsLevel tbl ∧ b.txPower = maxTx - backoffOf b.mcsLevel tbl ∧
    b.rsl = b.txPower + gain ∧ b.snr = b.rsl - np := by
  unfold estimate at e
  cases h1 : mcsFromSnr (maxTx + gain - np) tbl with
  | error => rw [h1] at e; simp at e
  | ok s =>
    rw [h1] at e; dsimp only at e
    cases h2 : adjustTxPower s tbl minTx maxTx gain np with
    | error => rw [h2] at e; simp at e
    | ok q =>
      obtain ⟨m, p⟩ := q
      rw [h2] at e
      cases e
      exact ⟨rfl, rfl, rfl, rfl⟩

/-- **C71 (partial).** For a table with consecutive positive levels whose rates grow
with the level, a larger net gain never gives a smaller capacity. -/
theorem C71_capacity_monotone_partial (tbl : List McsRow) (h : tbl ≠ [])
    (hs : (tbl.map McsRow.mcs).Nodup) (hr : RateOrdered tbl) (hc : Consecutive tbl)
    (h0 : ∀ r ∈ tbl, 0 < r.mcs) (minTx : Option ℚ) (maxTx np : ℚ) {gain gain' : ℚ}
    (hle : gain ≤ gain') :
    ∃ b b', estimate gain np maxTx minTx tbl = .ok b ∧ estimate gain' np maxTx minTx tbl = .ok b' ∧
      b.capacity ≤ b'.capacity := by
  obtain ⟨b, b', e, e', hb0, hbb⟩ :=
    estimate_level_mono tbl h (fun r hr => le_of_lt (h0 r hr)) minTx maxTx np hle
  refine ⟨b, b', e, e', ?_⟩
  obtain ⟨c1, -, -, -⟩ := estimate_capacity tbl minTx maxTx np gain b e
  obtain ⟨c2, -, -, -⟩ := estimate_capacity tbl minTx maxTx np gain' b' e'
  obtain ⟨_, hup⟩ := estimate_level_le tbl h minTx maxTx np gain' b' e'
  rw [c1, c2]
  have hnn : ∀ m, 0 ≤ capacityOf m tbl := by
    intro m
    by_cases c : ∃ r ∈ tbl, r.mcs = m
    · obtain ⟨r, hr', rfl⟩ := c
      rw [capacityOf_row hs hr']
      have := (hr r hr').1
      positivity
    · rw [capacityOf_absent (by push Not at c; exact c)]
  by_cases c : ∃ r ∈ tbl, r.mcs = b.mcsLevel
  · obtain ⟨r, hr', hrm⟩ := c
    have hpos := h0 r hr'
    rcases hup with hz | ⟨top, ht, htl⟩
    · omega
    · obtain ⟨r', hr'', hrm'⟩ := hc r hr' top ht b'.mcsLevel (by omega) htl
      rw [← hrm, ← hrm', capacityOf_row hs hr', capacityOf_row hs hr'']
      rcases lt_or_eq_of_le hbb with c | c
      · have := (hr r hr').2 r' hr'' (by omega)
        linarith
      · have : r = r' := List.inj_on_of_nodup_map hs hr' hr'' (by omega)
        rw [this]
  · rw [capacityOf_absent (by push Not at c; exact c)]
    exact hnn _

/-- **C71 is false for tables with a gap:** raising the gain from 4 to 5 dB lowers
the capacity from 1 Gbps to 0, because the power loop stops at the absent level 9. -/
theorem C71_gap_violation :
    ∃ (tbl : List McsRow) (maxTx np gain gain' : ℚ), StrictTable tbl ∧ RateOrdered tbl ∧
      (∀ r ∈ tbl, 0 < r.mcs) ∧ gain ≤ gain' ∧
      (estimate gain np maxTx none tbl).map LinkBudget.capacity = .ok 1 ∧
      (estimate gain' np maxTx none tbl).map LinkBudget.capacity = .ok 0 :=
  ⟨[⟨8, 5, 1000, 0⟩, ⟨10, 10, 2000, 6⟩], 5, 0, 4, 5, by unfold StrictTable; decide +kernel,
    by unfold RateOrdered; decide +kernel, by decide +kernel, by decide +kernel,
    by decide +kernel, by decide +kernel⟩

theorem defaultRateTable_rateOrdered : RateOrdered defaultRateTable := by
  unfold RateOrdered; decide +kernel

/-- The default table meets every hypothesis. -/
example (minTx : Option ℚ) (maxTx np : ℚ) {gain gain' : ℚ} (hle : gain ≤ gain') :
    ∃ b b', estimate gain np maxTx minTx defaultRateTable = .ok b ∧
      estimate gain' np maxTx minTx defaultRateTable = .ok b' ∧ b.capacity ≤ b'.capacity :=
  C71_capacity_monotone_partial _ (by decide) defaultRateTable_strict.1
    defaultRateTable_rateOrdered defaultRateTable_consecutive (by decide +kernel) _ _ _ hle

/-! ## C72: capacity needs signal -/

/-- **C72 (partial).** When no row has level 0, a link with positive capacity reports
the level and rate of a row, at the maximum power less the row's back-off, and its
reported SNR meets the row's threshold. -/
theorem C72_capacity_has_signal_partial (tbl : List McsRow) (hs : StrictTable tbl)
    (h0 : ∀ r ∈ tbl, r.mcs ≠ 0) (minTx : Option ℚ) (maxTx np gain : ℚ) (b : LinkBudget)
    (e : estimate gain np maxTx minTx tbl = .ok b) (hpos : 0 < b.capacity) :
    ∃ r ∈ tbl, b.mcsLevel = r.mcs ∧ b.capacity = r.mbps / 1000 ∧
      b.txPower = maxTx - r.txBackoff ∧ b.snr = b.txPower + gain - np ∧ r.snr ≤ b.snr ∧
      ∀ lo ∈ minTx, lo ≤ b.txPower := by
  have h : tbl ≠ [] := by
    rintro rfl; simp [estimate, C16_empty_raises] at e
  obtain ⟨s, e1, hss⟩ := mcsFromSnr_spec tbl h (maxTx + gain - np)
  obtain ⟨m, p, e2, hm0, hms, _, hres⟩ := adjustTxPower_spec h minTx maxTx gain np s
  simp only [estimate, e1, e2, Except.ok.injEq] at e
  subst e
  dsimp only at hpos ⊢
  have hrow : ∃ r ∈ tbl, r.mcs = m := by
    by_contra c
    push Not at c
    rw [capacityOf_absent c] at hpos
    exact lt_irrefl _ hpos
  obtain ⟨r, hr, rfl⟩ := hrow
  rcases hres with ⟨h1, _⟩ | ⟨_, t, h2, h3, h4⟩
  · exact absurd h1 (h0 r hr)
  · rw [snrFromMcs_row hs hr] at h2
    cases h2
    rw [backoffOf_row hs.1 hr] at h4 ⊢
    rw [capacityOf_row hs.1 hr]
    obtain ⟨g1, g2⟩ := neededPower_ge minTx gain np r.snr
    exact ⟨r, hr, rfl, rfl, rfl, rfl, by linarith, fun lo hlo => le_trans (g1 lo hlo) h4⟩

/-- **C72 is false for tables with a level 0:** a link 100 dB below every threshold
is given the capacity of level 0. -/
theorem C72_level_zero_violation :
    ∃ (tbl : List McsRow) (maxTx np gain : ℚ) (b : LinkBudget), StrictTable tbl ∧
      RateOrdered tbl ∧ estimate gain np maxTx none tbl = .ok b ∧
      (∀ r ∈ tbl, b.snr < r.snr - 100) ∧ 0 < b.capacity :=
  ⟨[⟨0, 1, 27, 0⟩, ⟨1, 3, 385, 0⟩], 10, -75, -190, ⟨0, -180, -105, 27/1000, 10⟩,
    by unfold StrictTable; decide +kernel, by unfold RateOrdered; decide +kernel,
    by decide +kernel, by decide +kernel, by decide +kernel⟩

example : estimate (-70) (-75) 16 (some 5) defaultRateTable = .ok ⟨11, -58, 17, 1415/1000, 12⟩ := by
  decide +kernel

/-! ## C19 -/

/-- **C19 (partial).** When levels are consecutive and positive and the lowest row
has no back-off, the level reported for a link is a level of the table, or 0 when
the SNR at full power meets no threshold. -/
theorem C19_level_in_table_partial (tbl : List McsRow) (hs : StrictTable tbl)
    (hc : Consecutive tbl) (h0 : ∀ r ∈ tbl, 0 < r.mcs) (low : McsRow) (hlow : low ∈ tbl)
    (hmin : ∀ r ∈ tbl, low.mcs ≤ r.mcs) (hb : low.txBackoff = 0) (minTx : Option ℚ)
    (maxTx np gain : ℚ) (hmt : ∀ lo ∈ minTx, lo ≤ maxTx) (b : LinkBudget)
    (e : estimate gain np maxTx minTx tbl = .ok b) :
    (∃ r ∈ tbl, r.mcs = b.mcsLevel) ∨
      (b.mcsLevel = 0 ∧ ∀ r ∈ tbl, maxTx + gain - np < r.snr) := by
  have h : tbl ≠ [] := List.ne_nil_of_mem hlow
  obtain ⟨s, e1, hss⟩ := mcsFromSnr_spec tbl h (maxTx + gain - np)
  obtain ⟨m, p, e2, hm0, hms, hbest, hres⟩ := adjustTxPower_spec h minTx maxTx gain np s
  simp only [estimate, e1, e2, Except.ok.injEq] at e
  subst e
  dsimp only
  rcases hss with ⟨⟨t, ht, htl⟩, _⟩ | ⟨hz, hno⟩
  · left
    obtain ⟨top, htop, rfl, rfl⟩ := (threshold_iff_row hs.1 _ _).1 ht
    have hsnr : low.snr ≤ maxTx + gain - np := by
      rcases lt_or_eq_of_le (hmin top htop) with c | c
      · have := hs.2 low hlow top htop c; linarith
      · have : low = top := List.inj_on_of_nodup_map hs.1 hlow htop c
        rw [this]; exact htl
    have hge : low.mcs ≤ m := by
      by_contra c
      refine hbest low.mcs (by omega) (hmin top htop) low.snr (snrFromMcs_row hs hlow) ?_
      rw [backoffOf_row hs.1 hlow, hb, sub_zero]
      exact neededPower_least _ _ _ _ _ hmt hsnr
    have := h0 low hlow
    exact hc low hlow top htop m hge (by have := h0 top htop; omega)
  · right
    refine ⟨by omega, fun r hr => ?_⟩
    by_contra c
    exact hno r.mcs ⟨r.snr, (threshold_iff_row hs.1 _ _).2 ⟨r, hr, rfl, rfl⟩, not_lt.1 c⟩

/-- **C19 is false for tables with a gap:** the level reported is 9, the table holds
8 and 10 only. -/
theorem C19_gap_violation :
    ∃ (tbl : List McsRow) (maxTx np gain : ℚ) (b : LinkBudget), StrictTable tbl ∧
      estimate gain np maxTx none tbl = .ok b ∧ b.mcsLevel = 9 ∧ ∀ r ∈ tbl, r.mcs ≠ 9 :=
  ⟨[⟨8, 5, 1000, 0⟩, ⟨10, 10, 2000, 6⟩], 5, 0, 5, ⟨9, 10, 10, 0, 5⟩,
    by unfold StrictTable; decide +kernel, by decide +kernel, rfl, by decide +kernel⟩

/-- **C19 is false for consecutive tables whose lowest level has a back-off:** the
level reported is 2, below the table. -/
theorem C19_below_table_violation :
    ∃ (tbl : List McsRow) (maxTx np gain : ℚ) (b : LinkBudget), StrictTable tbl ∧
      Consecutive tbl ∧ estimate gain np maxTx none tbl = .ok b ∧ b.mcsLevel = 2 ∧
      ∀ r ∈ tbl, 3 ≤ r.mcs :=
  ⟨[⟨3, 3, 300, 2⟩], 5, 0, -1, ⟨2, 4, 4, 0, 5⟩,
    by unfold StrictTable; decide +kernel,
    by
      intro a ha b hb k h1 h2
      simp only [List.mem_singleton] at ha hb
      subst ha; subst hb
      exact ⟨_, by simp, le_antisymm h1 h2⟩,
    by decide +kernel, rfl, by decide +kernel⟩

/-- The default table meets the hypotheses of the partial theorem. -/
example (minTx : Option ℚ) (maxTx np gain : ℚ) (hmt : ∀ lo ∈ minTx, lo ≤ maxTx) (b : LinkBudget)
    (e : estimate gain np maxTx minTx defaultRateTable = .ok b) :
    (∃ r ∈ defaultRateTable, r.mcs = b.mcsLevel) ∨
      (b.mcsLevel = 0 ∧ ∀ r ∈ defaultRateTable, maxTx + gain - np < r.snr) :=
  C19_level_in_table_partial _ defaultRateTable_strict defaultRateTable_consecutive
    (by decide +kernel) ⟨3, 3, 0, 0⟩ (by decide +kernel) (by decide +kernel) rfl _ _ _ _ hmt b e

end Verif
