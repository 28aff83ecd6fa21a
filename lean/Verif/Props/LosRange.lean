import Verif.Props.Rf

/-!
# Maximum LOS distance (C20) and device pair ranges (C21)
-/

namespace Verif

/-! ## C20 -/

theorem searchLoop_spec (cap : ℤ → ℚ) (n : ℕ) :
    ∀ lo hi : ℤ, lo ≤ hi → (hi - lo).toNat ≤ n →
    ∃ d, searchLoop (fun x => .ok (cap x)) lo hi = .ok d ∧ lo ≤ d ∧ d ≤ hi ∧
      (d = hi ∨ ¬ 0 < cap d) ∧ (d = lo ∨ 0 < cap (d - 1)) := by
  induction n with
  | zero =>
    intro lo hi h1 h2
    refine ⟨lo, ?_, le_rfl, h1, Or.inl (by omega), Or.inl rfl⟩
    rw [searchLoop, dif_neg (by omega)]
  | succ n ih =>
    intro lo hi h1 h2
    by_cases c : lo < hi
    · rw [searchLoop, dif_pos c]
      dsimp only
      by_cases hc : 0 < cap ((lo + hi) / 2)
      · rw [if_pos hc]
        obtain ⟨d, e, g1, g2, g3, g4⟩ := ih ((lo + hi) / 2 + 1) hi (by omega) (by omega)
        refine ⟨d, e, by omega, g2, g3, ?_⟩
        rcases g4 with g4 | g4
        · right; rw [g4]; simpa using hc
        · exact Or.inr g4
      · rw [if_neg hc]
        obtain ⟨d, e, g1, g2, g3, g4⟩ := ih lo ((lo + hi) / 2) (by omega) (by omega)
        refine ⟨d, e, g1, by omega, ?_, g4⟩
        rcases g3 with g3 | g3
        · right; rw [g3]; exact hc
        · exact Or.inr g3
    · rw [searchLoop, dif_neg c]
      exact ⟨lo, rfl, le_rfl, h1, Or.inl (by omega), Or.inl rfl⟩

/-- **C20.** For every capacity function, the distance returned lies within the
bounds, supports no link, and is the lower bound or one more than a distance that
supports a link. Nothing is returned only if the upper bound supports a link. -/
theorem C20_result_is_an_edge (cap : ℤ → ℚ) (lo hi : ℤ) (h : lo ≤ hi) :
    (∃ d, searchMaxLos (fun x => .ok (cap x)) lo hi = .ok (some d) ∧ lo ≤ d ∧ d ≤ hi ∧
        cap d ≤ 0 ∧ (d = lo ∨ 0 < cap (d - 1))) ∨
      (searchMaxLos (fun x => .ok (cap x)) lo hi = .ok none ∧ 0 < cap hi) := by
  obtain ⟨d, e, g1, g2, g3, g4⟩ := searchLoop_spec cap _ lo hi h le_rfl
  by_cases c : 0 < cap d
  · right
    rcases g3 with g3 | g3
    · subst g3
      exact ⟨by simp [searchMaxLos, e, c], c⟩
    · exact absurd c g3
  · left
    exact ⟨d, by simp [searchMaxLos, e, c], g1, g2, not_lt.1 c, g4⟩

/-- **C20.** When support for a link, once lost, stays lost with distance, the
distance `d` returned separates exactly: a distance within the bounds supports a
link iff it is below `d`. Nothing is returned iff every distance supports one. -/
theorem C20_exact_boundary (cap : ℤ → ℚ) (lo hi : ℤ) (h : lo ≤ hi)
    (hmono : ∀ x y, lo ≤ x → x ≤ y → y ≤ hi → 0 < cap y → 0 < cap x) :
    (∀ d, searchMaxLos (fun x => .ok (cap x)) lo hi = .ok (some d) ↔
      lo ≤ d ∧ d ≤ hi ∧ ∀ x, lo ≤ x → x ≤ hi → (0 < cap x ↔ x < d)) ∧
    (searchMaxLos (fun x => .ok (cap x)) lo hi = .ok none ↔
      ∀ x, lo ≤ x → x ≤ hi → 0 < cap x) := by
  have key : ∀ d, lo ≤ d → d ≤ hi → cap d ≤ 0 → (d = lo ∨ 0 < cap (d - 1)) →
      ∀ x, lo ≤ x → x ≤ hi → (0 < cap x ↔ x < d) := by
    intro d g1 g2 g3 g4 x hx1 hx2
    constructor
    · intro hx
      by_contra c
      exact absurd (hmono d x g1 (by omega) hx2 hx) (not_lt.2 g3)
    · intro hx
      rcases g4 with g4 | g4
      · omega
      · exact hmono x (d - 1) hx1 (by omega) (by omega) g4
  rcases C20_result_is_an_edge cap lo hi h with ⟨d, e, g1, g2, g3, g4⟩ | ⟨e, g⟩
  · have hk := key d g1 g2 g3 g4
    rw [e]
    refine ⟨fun d' => ?_, ?_⟩
    · constructor
      · intro hd
        simp only [Except.ok.injEq, Option.some.injEq] at hd
        subst hd
        exact ⟨g1, g2, hk⟩
      · rintro ⟨k1, k2, k3⟩
        have a1 := hk d' k1 k2
        have a2 := k3 d g1 g2
        have a3 := k3 d' k1 k2
        have a4 := hk d g1 g2
        have : d = d' := by
          by_contra c
          rcases lt_or_gt_of_ne c with c | c
          · exact absurd (a4.1 (a2.2 c)) (lt_irrefl _)
          · exact absurd (a3.1 (a1.2 c)) (lt_irrefl _)
        rw [this]
    · simp only [Except.ok.injEq, reduceCtorEq, false_iff, not_forall]
      exact ⟨d, g1, g2, not_lt.2 g3⟩
  · rw [e]
    have hall : ∀ x, lo ≤ x → x ≤ hi → 0 < cap x := fun x h1 h2 => hmono x hi h1 h2 le_rfl g
    refine ⟨fun d' => ?_, ?_⟩
    · simp only [Except.ok.injEq, reduceCtorEq, false_iff, not_and, not_forall]
      intro k1 k2
      refine ⟨d', k1, k2, ?_⟩
      intro hc
      exact lt_irrefl _ (hc.1 (hall d' k1 k2))
    · simp only [true_iff]; exact hall

example : searchMaxLos (fun d => .ok (if d < 37 then 1 else 0)) 0 100 = .ok (some 37) := by
  decide +kernel

/-- The rows of the receiver's table that meet the minimum level of the link kind. -/
def AllowedRows (minDn minCn : Option ℤ) (rx : RfDevice) : List McsRow :=
  rx.params.mcsMap.filter fun r => decide (∀ lo ∈ (if rx.isCn then minCn else minDn), lo ≤ r.mcs)

theorem pairTable_eq (minDn minCn : Option ℤ) (rx : RfDevice) (hne : rx.params.mcsMap ≠ []) :
    pairTable minDn minCn rx = .ok (AllowedRows minDn minCn rx) ∧ AllowedRows minDn minCn rx ≠ [] ∨
    pairTable minDn minCn rx = .error .config ∧ AllowedRows minDn minCn rx = [] := by
  unfold pairTable AllowedRows
  generalize (if rx.isCn then minCn else minDn) = lo
  cases lo with
  | none => left; simpa using hne
  | some lo =>
    simp only [Option.mem_def, Option.some.injEq, forall_eq']
    cases h : rx.params.mcsMap.filter (fun r => decide (lo ≤ r.mcs)) with
    | nil => right; simp
    | cons a l => left; simp

/-- **C20.** The range of a device pair, for a receiver with a consecutive table of
positive levels and a net gain that never grows with distance (see C145): on the rows allowed by
the minimum level, the link budget gives a positive capacity exactly at the distances
below the range. -/
theorem C20_pair_range (gain : RfDevice → RfDevice → ℤ → ℚ) (maxEirp : Option ℚ)
    (minDn minCn : Option ℤ) (tx rx : RfDevice) (hne' : rx.params.mcsMap ≠ [])
    (hs' : (rx.params.mcsMap.map McsRow.mcs).Nodup) (hr' : RateOrdered rx.params.mcsMap)
    (hc' : Consecutive rx.params.mcsMap) (h0' : ∀ r ∈ rx.params.mcsMap, 0 < r.mcs)
    (hg : ∀ x y, 0 ≤ x → x ≤ y → y ≤ 10000 → gain tx rx y ≤ gain tx rx x) (d : ℤ)
    (e : pairRange gain maxEirp minDn minCn tx rx = .ok d) :
    0 ≤ d ∧ d ≤ 10000 ∧ ∀ x, 0 ≤ x → x ≤ 10000 →
      ∃ b, estimate (gain tx rx x) (rx.params.noiseFigure + rx.params.thermalNoisePower)
          (maxTxPower tx.params maxEirp) tx.params.minimumTxPower
          (AllowedRows minDn minCn rx) = .ok b ∧
        (0 < b.capacity ↔ x < d) := by
  obtain ⟨htbl, hne⟩ : pairTable minDn minCn rx = .ok (AllowedRows minDn minCn rx) ∧
      AllowedRows minDn minCn rx ≠ [] := by
    rcases pairTable_eq minDn minCn rx hne' with h | ⟨h, _⟩
    · exact h
    · unfold pairRange at e; rw [h] at e; simp at e
  have hsub : ∀ r ∈ AllowedRows minDn minCn rx, r ∈ rx.params.mcsMap :=
    fun r hr => (List.mem_filter.1 hr).1
  have hs : ((AllowedRows minDn minCn rx).map McsRow.mcs).Nodup :=
    hs'.sublist (List.filter_sublist.map _)
  have hr : RateOrdered (AllowedRows minDn minCn rx) :=
    fun a ha => ⟨(hr' a (hsub a ha)).1, fun b hb => (hr' a (hsub a ha)).2 b (hsub b hb)⟩
  have h0 : ∀ r ∈ AllowedRows minDn minCn rx, 0 < r.mcs := fun r hr => h0' r (hsub r hr)
  have hc : Consecutive (AllowedRows minDn minCn rx) := by
    intro a ha b hb k h1 h2
    obtain ⟨r, hr, rfl⟩ := hc' a (hsub a ha) b (hsub b hb) k h1 h2
    refine ⟨r, List.mem_filter.2 ⟨hr, ?_⟩, rfl⟩
    have := (List.mem_filter.1 ha).2
    simp only [decide_eq_true_eq] at this ⊢
    exact fun lo hlo => le_trans (this lo hlo) h1
  have hm := fun x y (hxy : gain tx rx y ≤ gain tx rx x) => C71_capacity_monotone_partial (AllowedRows minDn minCn rx) hne
    hs hr hc h0 tx.params.minimumTxPower (maxTxPower tx.params maxEirp)
    (rx.params.noiseFigure + rx.params.thermalNoisePower) hxy
  have hex := fun x => (hm x x le_rfl)
  choose f _ hf _ _ using hex
  have hmono : ∀ x y, (0 : ℤ) ≤ x → x ≤ y → y ≤ 10000 → 0 < (f y).capacity → 0 < (f x).capacity := by
    intro x y hx hxy hy hp
    obtain ⟨b, b', e1, e2, hle⟩ := hm x y (hg x y hx hxy hy)
    rw [hf y] at e1
    rw [hf x] at e2
    cases e1; cases e2
    exact lt_of_lt_of_le hp hle
  have hcap : (fun x => (estimate (gain tx rx x)
      (rx.params.noiseFigure + rx.params.thermalNoisePower)
      (maxTxPower tx.params maxEirp) tx.params.minimumTxPower
      (AllowedRows minDn minCn rx)).map
        LinkBudget.capacity) = fun x => .ok (f x).capacity := by
    funext x
    rw [hf x]; rfl
  unfold pairRange at e
  rw [htbl] at e
  dsimp only at e
  rw [hcap] at e
  have hb := (C20_exact_boundary (fun x => (f x).capacity) 0 10000 (by norm_num) hmono).1
  generalize searchMaxLos (fun x => .ok (f x).capacity) 0 10000 = o at e hb
  cases o with
  | error => simp at e
  | ok o =>
    cases o with
    | none => simp at e
    | some d' =>
      simp only [Except.ok.injEq] at e
      subst e
      obtain ⟨k1, k2, k3⟩ := (hb d').1 rfl
      exact ⟨k1, k2, fun x hx1 hx2 => ⟨f x, hf x, k3 x hx1 hx2⟩⟩

/-- A pair of devices with the default table, and gain falling with distance. -/
example :
    let dev : RfDevice := ⟨"DN", false, { maximumTxPower := 16, mcsMap := defaultRateTable }⟩
    pairRange (fun _ _ d => - d / 10) none none none dev dev = .ok 116 := by
  decide +kernel

/-! ## C21 -/

/-- Cut at the upper bound, if any. -/
def Capped (ub : Option ℤ) (d : ℤ) : ℤ :=
  match ub with
  | none => d
  | some u => min u d

theorem get?_capRanges (ub : Option ℤ) (acc : Dict (String × String) ℤ) (k : String × String) :
    (capRanges ub acc).get? k = (acc.get? k).map (Capped ub) := by
  unfold capRanges
  cases ub with
  | none => simp only [Capped]; cases acc.get? k <;> rfl
  | some u =>
    induction acc with
    | nil => rfl
    | cons p t ih =>
      obtain ⟨k', v⟩ := p
      simp only [List.map_cons]
      by_cases c : u < v
      · rw [if_pos c]
        simp only [Dict.get?_cons, ih]
        by_cases hk : k' = k
        · simp [hk, Capped, le_of_lt c]
        · simp [hk]
      · rw [if_neg c]
        simp only [Dict.get?_cons, ih]
        by_cases hk : k' = k
        · simp [hk, Capped, not_lt.1 c]
        · simp [hk]

theorem get?_recordRange (acc : Dict (String × String) ℤ) (tx rx : String) (d : ℤ)
    (k : String × String) :
    (recordRange acc tx rx d).get? k =
      if k = (tx, rx) then some (match acc.get? (rx, tx) with | some d' => max d' d | none => d)
      else if k = (rx, tx) then (acc.get? k).map (max · d)
      else acc.get? k := by
  unfold recordRange
  cases h : acc.get? (rx, tx) with
  | none =>
    simp only [Dict.get?_set]
    by_cases c : k = (tx, rx)
    · simp [c]
    · rw [if_neg (Ne.symm c), if_neg c]
      by_cases c2 : k = (rx, tx)
      · rw [if_pos c2, c2, h]; rfl
      · rw [if_neg c2]
  | some d' =>
    simp only [Dict.get?_set]
    by_cases c : k = (tx, rx)
    · simp [c]
    · rw [if_neg (Ne.symm c), if_neg c]
      by_cases c2 : k = (rx, tx)
      · rw [if_pos c2, if_pos c2.symm, c2, h]; rfl
      · rw [if_neg c2, if_neg (Ne.symm c2)]

/-- The value the inner loop leaves under `(tx, y)`. -/
def joined (acc : Dict (String × String) ℤ) (tx y : String) (d : ℤ) : ℤ :=
  match acc.get? (y, tx) with
  | some d' => max d' d
  | none => d

theorem rxLoop_spec (range : RfDevice → RfDevice → Except Err ℤ) (tx : RfDevice)
    (l : List RfDevice) (acc out : Dict (String × String) ℤ)
    (hnd : (l.map RfDevice.sku).Nodup) (hself : tx.sku ∈ l.map RfDevice.sku →
      acc.get? (tx.sku, tx.sku) = none)
    (h : rxLoop range tx l acc = .ok out) :
    (∀ y ∈ l, ∃ d, range tx y = .ok d ∧
      out.get? (tx.sku, y.sku) = some (joined acc tx.sku y.sku d) ∧
      (y.sku ≠ tx.sku → out.get? (y.sku, tx.sku) = (acc.get? (y.sku, tx.sku)).map (max · d))) ∧
    (∀ k, (∀ y ∈ l, k ≠ (tx.sku, y.sku) ∧ k ≠ (y.sku, tx.sku)) → out.get? k = acc.get? k) := by
  induction l generalizing acc with
  | nil =>
    simp only [rxLoop, Except.ok.injEq] at h
    subst h
    simp
  | cons r t ih =>
    simp only [rxLoop] at h
    cases hr : range tx r with
    | error e => rw [hr] at h; simp at h
    | ok d =>
      rw [hr] at h
      dsimp only at h
      simp only [List.map_cons, List.nodup_cons] at hnd
      have hself' : tx.sku ∈ t.map RfDevice.sku →
          (recordRange acc tx.sku r.sku d).get? (tx.sku, tx.sku) = none := by
        intro hm
        have hne : r.sku ≠ tx.sku := by rintro e; exact hnd.1 (e ▸ hm)
        rw [get?_recordRange, if_neg (by simpa using Ne.symm hne),
          if_neg (by simpa using Ne.symm hne)]
        exact hself (by simp [hm])
      obtain ⟨g1, g2⟩ := ih _ hnd.2 hself' h
      have hfar : ∀ y ∈ t, y.sku ≠ r.sku := by
        rintro y hy e; exact hnd.1 (List.mem_map.2 ⟨y, hy, e⟩)
      constructor
      · intro y hy
        rcases List.mem_cons.1 hy with rfl | hy
        · refine ⟨d, hr, ?_, ?_⟩
          · rw [g2, get?_recordRange, if_pos rfl]
            · rfl
            · intro z hz
              refine ⟨by simpa using Ne.symm (hfar z hz), ?_⟩
              simp only [ne_eq, Prod.mk.injEq, not_and]
              intro h1 h2
              exact hfar z hz (h1.symm.trans h2.symm)
          · intro hne
            rw [g2, get?_recordRange, if_neg (by simp [hne]), if_pos rfl]
            intro z hz
            refine ⟨by simp [hne], ?_⟩
            simpa using Ne.symm (hfar z hz)
        · obtain ⟨d', k1, k2, k3⟩ := g1 y hy
          refine ⟨d', k1, ?_, ?_⟩
          · rw [k2]
            congr 1
            unfold joined
            rw [get?_recordRange]
            by_cases hyt : y.sku = tx.sku
            · have : acc.get? (tx.sku, tx.sku) = none := hself (by
                simp only [List.map_cons, List.mem_cons]; right
                exact hyt ▸ List.mem_map.2 ⟨y, hy, rfl⟩)
              have hne : r.sku ≠ tx.sku := by rw [← hyt]; exact Ne.symm (hfar y hy)
              rw [hyt, if_neg (by simpa using Ne.symm hne), if_neg (by simpa using Ne.symm hne)]
            · rw [if_neg (by simp [hyt]), if_neg (by simp [hfar y hy])]
          · intro hne
            rw [k3 hne, get?_recordRange, if_neg (by simp [hne]), if_neg (by simp [hfar y hy])]
      · intro k hk
        rw [g2 k (fun y hy => hk y (by simp [hy])), get?_recordRange,
          if_neg (hk r (by simp)).1, if_neg (hk r (by simp)).2]

/-- Every pair of a non-CN transmitter in `l` and any receiver was ranged. -/
theorem txLoop_ranges (range : RfDevice → RfDevice → Except Err ℤ) (ub : Option ℤ)
    (all l : List RfDevice) (acc out : Dict (String × String) ℤ)
    (h : txLoop range ub all l acc = .ok out) :
    ∀ a ∈ l, a.isCn = false → ∀ b ∈ all, ∃ d, range a b = .ok d := by
  have rx : ∀ (tx : RfDevice) (l : List RfDevice) acc out, rxLoop range tx l acc = .ok out →
      ∀ b ∈ l, ∃ d, range tx b = .ok d := by
    intro tx l
    induction l with
    | nil => simp
    | cons r t ih =>
      intro acc out h b hb
      simp only [rxLoop] at h
      cases hr : range tx r with
      | error e => rw [hr] at h; simp at h
      | ok d =>
        rw [hr] at h
        rcases List.mem_cons.1 hb with rfl | hb
        · exact ⟨d, hr⟩
        · exact ih _ _ h b hb
  induction l generalizing acc with
  | nil => simp
  | cons tx t ih =>
    simp only [txLoop] at h
    intro a ha hcn b hb
    by_cases c : tx.isCn
    · rw [if_pos c] at h
      rcases List.mem_cons.1 ha with rfl | ha
      · simp [c] at hcn
      · exact ih _ h a ha hcn b hb
    · rw [if_neg c] at h
      cases hr : rxLoop range tx all acc with
      | error e => rw [hr] at h; simp at h
      | ok acc' =>
        rw [hr] at h
        rcases List.mem_cons.1 ha with rfl | ha
        · exact rx _ _ _ _ hr b hb
        · exact ih _ h a ha hcn b hb

theorem capped_capped_max (ub : Option ℤ) (x y : ℤ) :
    Capped ub (max (Capped ub x) y) = Capped ub (max x y) := by
  cases ub with
  | none => rfl
  | some u => simp only [Capped]; omega

theorem capped_capped (ub : Option ℤ) (x : ℤ) : Capped ub (Capped ub x) = Capped ub x := by
  cases ub with
  | none => rfl
  | some u => simp only [Capped]; omega

/-- What the table of ranges holds once the transmitters in `done` were processed:
`r a b` is the range found for the ordered pair. -/
def RangesAfter (r : RfDevice → RfDevice → ℤ) (ub : Option ℤ) (all done : List RfDevice)
    (acc : Dict (String × String) ℤ) : Prop :=
  (∀ a ∈ done, a.isCn = false → ∀ b ∈ all, acc.get? (a.sku, b.sku) =
    some (Capped ub (if b.isCn = false ∧ b ∈ done then max (r a b) (r b a) else r a b))) ∧
  (∀ k, (∀ a ∈ done, a.isCn = false → ∀ b ∈ all, k ≠ (a.sku, b.sku)) → acc.get? k = none)

theorem txLoop_spec (range : RfDevice → RfDevice → Except Err ℤ) (r : RfDevice → RfDevice → ℤ)
    (ub : Option ℤ) (all : List RfDevice) (hnd : (all.map RfDevice.sku).Nodup)
    (hr : ∀ a ∈ all, a.isCn = false → ∀ b ∈ all, range a b = .ok (r a b)) :
    ∀ (l done : List RfDevice) (acc out : Dict (String × String) ℤ), done ++ l = all →
    RangesAfter r ub all done acc → txLoop range ub all l acc = .ok out →
    RangesAfter r ub all all out := by
  have inj : ∀ a ∈ all, ∀ b ∈ all, a.sku = b.sku → a = b := fun a ha b hb e =>
    List.inj_on_of_nodup_map hnd ha hb e
  intro l
  induction l with
  | nil =>
    intro done acc out e inv h
    simp only [txLoop, Except.ok.injEq] at h
    simp only [List.append_nil] at e
    subst h; subst e; exact inv
  | cons tx t ih =>
    intro done acc out e inv h
    have htx : tx ∈ all := by rw [← e]; simp
    have hdone : ∀ a ∈ done, a ∈ all := by intro a ha; rw [← e]; simp [ha]
    have hnot : tx ∉ done := by
      intro hm
      have : all.Nodup := hnd.of_map _
      rw [← e] at this
      rw [List.nodup_append] at this
      exact this.2.2 tx hm tx (by simp) rfl
    simp only [txLoop] at h
    by_cases c : tx.isCn
    · rw [if_pos c] at h
      refine ih (done ++ [tx]) acc out (by simp [e]) ?_ h
      obtain ⟨i1, i2⟩ := inv
      constructor
      · intro a ha hcn b hb
        rcases List.mem_append.1 ha with ha | ha
        · rw [i1 a ha hcn b hb]
          congr 2
          have : (b.isCn = false ∧ b ∈ done ++ [tx]) ↔ (b.isCn = false ∧ b ∈ done) := by
            constructor
            · rintro ⟨h1, h2⟩
              rcases List.mem_append.1 h2 with h2 | h2
              · exact ⟨h1, h2⟩
              · simp at h2; subst h2; simp [c] at h1
            · rintro ⟨h1, h2⟩; exact ⟨h1, by simp [h2]⟩
          simp only [this]
        · simp at ha; subst ha; simp [c] at hcn
      · intro k hk
        exact i2 k (fun a ha => hk a (by simp [ha]))
    · rw [if_neg c] at h
      have hcn : tx.isCn = false := by simpa using c
      cases hrx : rxLoop range tx all acc with
      | error e => rw [hrx] at h; simp at h
      | ok acc' =>
        rw [hrx] at h
        dsimp only at h
        refine ih (done ++ [tx]) _ out (by simp [e]) ?_ h
        obtain ⟨i1, i2⟩ := inv
        have hnone : ∀ b ∈ all, acc.get? (tx.sku, b.sku) = none := by
          intro b hb
          apply i2
          intro a ha _ b' _ he
          simp only [Prod.mk.injEq] at he
          exact hnot (inj tx htx a (hdone a ha) he.1 ▸ ha)
        obtain ⟨g1, g2⟩ := rxLoop_spec range tx all acc acc' hnd (fun _ => hnone tx htx) hrx
        -- the reverse entry before the inner loop
        have hrev : ∀ b ∈ all, acc.get? (b.sku, tx.sku) =
            if b.isCn = false ∧ b ∈ done then some (Capped ub (r b tx)) else none := by
          intro b hb
          by_cases cb : b.isCn = false ∧ b ∈ done
          · rw [if_pos cb, i1 b cb.2 cb.1 tx htx, if_neg (fun hh => hnot hh.2)]
          · rw [if_neg cb]
            apply i2
            intro a ha hacn b' _ he
            simp only [Prod.mk.injEq] at he
            have := inj b hb a (hdone a ha) he.1
            subst this
            exact cb ⟨hacn, ha⟩
        constructor
        · intro a ha hacn b hb
          rw [get?_capRanges]
          by_cases hat : a = tx
          · subst hat
            obtain ⟨d, k1, k2, _⟩ := g1 b hb
            rw [hr a htx hcn b hb] at k1
            cases k1
            rw [k2, Option.map_some]
            congr 1
            unfold joined
            rw [hrev b hb]
            by_cases cb : b.isCn = false ∧ b ∈ done
            · rw [if_pos cb, if_pos ⟨cb.1, by simp [cb.2]⟩]
              dsimp only
              rw [capped_capped_max, max_comm]
            · rw [if_neg cb]
              dsimp only
              by_cases hba : b = a
              · subst hba; simp
              · rw [if_neg]
                rintro ⟨h1, h2⟩
                rcases List.mem_append.1 h2 with h2 | h2
                · exact cb ⟨h1, h2⟩
                · exact hba (by simpa using h2)
          · have had : a ∈ done := by
              rcases List.mem_append.1 ha with h | h
              · exact h
              · exact absurd (by simpa using h) hat
            have haa := hdone a had
            by_cases hbt : b = tx
            · subst hbt
              obtain ⟨d, k1, _, k3⟩ := g1 a haa
              rw [hr b htx hcn a haa] at k1
              cases k1
              rw [k3 (fun e => hat (inj a haa b htx e)), hrev a haa, if_pos ⟨hacn, had⟩,
                if_pos ⟨hcn, by simp⟩]
              simp only [Option.map_some, Option.some.injEq]
              rw [capped_capped_max]
            · rw [g2, i1 a had hacn b hb, Option.map_some, capped_capped]
              · congr 2
                have : (b.isCn = false ∧ b ∈ done ++ [tx]) ↔ (b.isCn = false ∧ b ∈ done) := by
                  simp [hbt]
                simp only [this]
              · intro y hy
                constructor
                · simp only [ne_eq, Prod.mk.injEq, not_and]
                  intro h1; exact absurd (inj a haa tx htx h1) hat
                · simp only [ne_eq, Prod.mk.injEq, not_and]
                  intro _ h1; exact absurd (inj b hb tx htx h1) hbt
        · intro k hk
          rw [get?_capRanges]
          have hold : acc.get? k = none := i2 k (fun a ha => hk a (by simp [ha]))
          by_cases hex : ∃ y ∈ all, k = (y.sku, tx.sku)
          · obtain ⟨y, hy, rfl⟩ := hex
            have hyt : y.sku ≠ tx.sku := by
              intro he
              exact hk tx (by simp) hcn tx htx (by rw [he])
            obtain ⟨d, _, _, k3⟩ := g1 y hy
            rw [k3 hyt, hold]; rfl
          · rw [g2, hold]; · rfl
            intro y hy
            exact ⟨hk tx (by simp) hcn y hy, fun he => hex ⟨y, hy, he⟩⟩

/-- **C21.** With distinct SKUs, on success every pair of a DN transmitter and any
receiver has a range: the range found for that pair, for two DN devices the larger
of the two directions, cut at the upper bound. No other pair has one. -/
theorem C21_pair_ranges (gain : RfDevice → RfDevice → ℤ → ℚ) (devices : List RfDevice)
    (hnd : (devices.map RfDevice.sku).Nodup) (maxEirp : Option ℚ) (minDn minCn ub : Option ℤ)
    (out : Dict (String × String) ℤ)
    (h : maxLosDistForPairs gain devices maxEirp minDn minCn ub = .ok out) :
    (∀ a ∈ devices, a.isCn = false → ∀ b ∈ devices, ∃ d,
      pairRange gain maxEirp minDn minCn a b = .ok d ∧
      (b.isCn = true → out.get? (a.sku, b.sku) = some (Capped ub d)) ∧
      (b.isCn = false → ∃ d', pairRange gain maxEirp minDn minCn b a = .ok d' ∧
        out.get? (a.sku, b.sku) = some (Capped ub (max d d')))) ∧
    (∀ k, (∀ a ∈ devices, a.isCn = false → ∀ b ∈ devices, k ≠ (a.sku, b.sku)) →
      out.get? k = none) := by
  unfold maxLosDistForPairs at h
  have hall := txLoop_ranges _ _ _ _ _ _ h
  let r : RfDevice → RfDevice → ℤ := fun a b =>
    match pairRange gain maxEirp minDn minCn a b with
    | .ok d => d
    | .error _ => 0
  have hr : ∀ a ∈ devices, a.isCn = false → ∀ b ∈ devices,
      pairRange gain maxEirp minDn minCn a b = .ok (r a b) := by
    intro a ha hcn b hb
    obtain ⟨d, hd⟩ := hall a ha hcn b hb
    simp only [r, hd]
  have inv := txLoop_spec _ r ub devices hnd hr devices [] [] out rfl
    ⟨by simp, fun k _ => rfl⟩ h
  refine ⟨?_, inv.2⟩
  intro a ha hcn b hb
  refine ⟨r a b, hr a ha hcn b hb, ?_, ?_⟩
  · intro hb'
    rw [inv.1 a ha hcn b hb, if_neg (by simp [hb'])]
  · intro hb'
    exact ⟨r b a, hr b hb hb' a ha, by rw [inv.1 a ha hcn b hb, if_pos ⟨hb', hb⟩]⟩

/-- **C21.** Consequences: two DN devices have the same range in both directions,
and no range exceeds the bound. -/
theorem C21_symmetric_and_capped (gain : RfDevice → RfDevice → ℤ → ℚ) (devices : List RfDevice)
    (hnd : (devices.map RfDevice.sku).Nodup) (maxEirp : Option ℚ) (minDn minCn ub : Option ℤ)
    (out : Dict (String × String) ℤ)
    (h : maxLosDistForPairs gain devices maxEirp minDn minCn ub = .ok out) :
    (∀ a ∈ devices, a.isCn = false → ∀ b ∈ devices, b.isCn = false →
      out.get? (a.sku, b.sku) = out.get? (b.sku, a.sku)) ∧
    (∀ u ∈ ub, ∀ k d, out.get? k = some d → d ≤ u) := by
  obtain ⟨g1, g2⟩ := C21_pair_ranges gain devices hnd maxEirp minDn minCn ub out h
  constructor
  · intro a ha hcn b hb hb'
    obtain ⟨d, e1, _, k⟩ := g1 a ha hcn b hb
    obtain ⟨d', e2, k⟩ := k hb'
    obtain ⟨d1, e3, _, k'⟩ := g1 b hb hb' a ha
    obtain ⟨d1', e4, k'⟩ := k' hcn
    rw [e2] at e3; rw [e1] at e4
    cases e3; cases e4
    rw [k, k', max_comm]
  · rintro u hu ⟨x, y⟩ d hd
    simp only [Option.mem_def] at hu
    subst hu
    by_cases hex : ∃ a ∈ devices, a.isCn = false ∧ ∃ b ∈ devices, (x, y) = (a.sku, b.sku)
    · obtain ⟨a, ha, hcn, b, hb, he⟩ := hex
      rw [he] at hd
      obtain ⟨d0, e1, k1, k2⟩ := g1 a ha hcn b hb
      cases hb' : b.isCn with
      | true =>
        rw [k1 hb'] at hd
        cases hd
        simp [Capped]
      | false =>
        obtain ⟨d', _, k2⟩ := k2 hb'
        rw [k2] at hd
        cases hd
        simp [Capped]
    · push Not at hex
      rw [g2 (x, y) (fun a ha hcn b hb => hex a ha hcn b hb)] at hd
      simp at hd

/-- Two DN devices with different power and a CN device; bound 130. -/
example :
    let a : RfDevice := ⟨"A", false, { maximumTxPower := 16, mcsMap := defaultRateTable }⟩
    let b : RfDevice := ⟨"B", false, { maximumTxPower := 18, mcsMap := defaultRateTable }⟩
    let c : RfDevice := ⟨"C", true, { maximumTxPower := 5, mcsMap := defaultRateTable }⟩
    maxLosDistForPairs (fun _ _ d => - d / 10) [a, c, b] none none none (some 130) =
      .ok [(("A", "A"), 116), (("A", "C"), 116), (("A", "B"), 130), (("B", "A"), 130),
        (("B", "C"), 130), (("B", "B"), 130)] := by
  decide +kernel

end Verif
