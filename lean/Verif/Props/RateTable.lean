import Verif.Lemmas.Rf
import Mathlib.Data.List.Sort
import Mathlib.Data.List.Perm.Basic
import Mathlib.Tactic.NormNum

/-!
# Loading rate tables (C31, C73, C74)
-/

namespace Verif

theorem no_two_orders {α : Type} {l : List α} (h : l.Nodup) {a b : α}
    (h1 : [a, b].Sublist l) (h2 : [b, a].Sublist l) : False := by
  induction l with
  | nil => simp at h1
  | cons c t ih =>
    rw [List.nodup_cons] at h
    have hb : b ∈ t ∨ False := by
      cases h1 with
      | cons _ h1 => exact Or.inl (h1.subset (by simp))
      | cons_cons _ h1 => exact Or.inl (h1.subset (by simp))
    have ha : a ∈ t := by
      cases h2 with
      | cons _ h2 => exact h2.subset (by simp)
      | cons_cons _ h2 => exact h2.subset (by simp)
    have hb : b ∈ t := by simpa using hb
    cases h1 with
    | cons_cons _ _ => exact h.1 ha
    | cons _ h1 =>
      cases h2 with
      | cons_cons _ _ => exact h.1 hb
      | cons _ h2 => exact ih h.2 h1 h2

theorem pair_order {α : Type} {l : List α} {a b : α} (hne : a ≠ b) (ha : a ∈ l) (hb : b ∈ l) :
    [a, b].Sublist l ∨ [b, a].Sublist l := by
  induction l with
  | nil => simp at ha
  | cons c t ih =>
    rcases List.mem_cons.1 ha with rfl | ha'
    · rcases List.mem_cons.1 hb with h | hb'
      · exact absurd h.symm hne
      · exact Or.inl (List.Sublist.cons_cons _ (by simpa using hb'))
    · rcases List.mem_cons.1 hb with rfl | hb'
      · exact Or.inr (List.Sublist.cons_cons _ (by simpa using ha'))
      · rcases ih ha' hb' with h | h
        · exact Or.inl (h.cons _)
        · exact Or.inr (h.cons _)

/-- `(x, i)` comes before `(y, j)` in a stable sort by value. -/
def StableBefore (p q : ℚ × ℕ) : Prop := p.1 < q.1 ∨ p.1 = q.1 ∧ p.2 < q.2

theorem zipIdx_pairwise (xs : List ℚ) (n : ℕ) :
    (xs.zipIdx n).Pairwise (fun a b => a.2 < b.2) := by
  induction xs generalizing n with
  | nil => simp
  | cons x t ih =>
    rw [List.zipIdx_cons, List.pairwise_cons]
    refine ⟨?_, ih _⟩
    rintro ⟨y, j⟩ hm
    have := (List.mem_zipIdx hm).1
    simp only
    omega

theorem zipIdx_sublist (xs : List ℚ) {a b : ℚ × ℕ} (n : ℕ) (ha : a ∈ xs.zipIdx n)
    (hb : b ∈ xs.zipIdx n) (h : a.2 < b.2) : [a, b].Sublist (xs.zipIdx n) := by
  have hp := zipIdx_pairwise xs n
  generalize xs.zipIdx n = l at *
  induction l with
  | nil => simp at ha
  | cons c t ih =>
    rw [List.pairwise_cons] at hp
    rcases List.mem_cons.1 ha with rfl | ha'
    · rcases List.mem_cons.1 hb with rfl | hb'
      · omega
      · exact List.Sublist.cons_cons _ (by simpa using hb')
    · rcases List.mem_cons.1 hb with rfl | hb'
      · have := hp.1 a ha'; omega
      · exact List.Sublist.cons _ (ih ha' hb' hp.2)

theorem sorted_stable (xs : List ℚ) :
    ((xs.zipIdx).mergeSort (fun a b => decide (a.1 ≤ b.1))).Pairwise StableBefore := by
  have htrans : ∀ a b c : ℚ × ℕ, decide (a.1 ≤ b.1) = true → decide (b.1 ≤ c.1) = true →
      decide (a.1 ≤ c.1) = true := by
    intro a b c h1 h2; simp only [decide_eq_true_eq] at *; exact le_trans h1 h2
  have htotal : ∀ a b : ℚ × ℕ, (decide (a.1 ≤ b.1) || decide (b.1 ≤ a.1)) = true := by
    intro a b; simpa using le_total a.1 b.1
  have hsorted := List.pairwise_mergeSort htrans htotal xs.zipIdx
  have hnd0 : (xs.zipIdx).Nodup :=
    (zipIdx_pairwise xs 0).imp (fun {a b} h e => by rw [e] at h; exact lt_irrefl _ h)
  have hperm := List.mergeSort_perm xs.zipIdx (fun a b => decide (a.1 ≤ b.1))
  have hnd := hperm.nodup_iff.2 hnd0
  rw [List.pairwise_iff_forall_sublist]
  intro a b hab
  have hle : a.1 ≤ b.1 := by
    simpa using (List.pairwise_iff_forall_sublist.1 hsorted) hab
  rcases lt_or_eq_of_le hle with c | c
  · exact Or.inl c
  · refine Or.inr ⟨c, ?_⟩
    have ha : a ∈ xs.zipIdx := hperm.subset (hab.subset (by simp))
    have hb : b ∈ xs.zipIdx := hperm.subset (hab.subset (by simp))
    by_contra hc
    rcases lt_or_eq_of_le (not_lt.1 hc) with h | h
    · have := List.pair_sublist_mergeSort (le := fun a b : ℚ × ℕ => decide (a.1 ≤ b.1))
        htrans htotal (a := b) (b := a) (by simp [c]) (zipIdx_sublist xs 0 hb ha h)
      exact no_two_orders hnd hab this
    · have : a = b := Prod.ext c h.symm
      subst this
      exact no_two_orders hnd hab hab

/-- The position relation of `orderingOf`, on indices. -/
def IdxBefore (xs : List ℚ) (i j : ℕ) : Prop :=
  ∃ x y, xs[i]? = some x ∧ xs[j]? = some y ∧ (x < y ∨ x = y ∧ i < j)

theorem orderingOf_pairwise (xs : List ℚ) : (orderingOf xs).Pairwise (IdxBefore xs) := by
  unfold orderingOf
  rw [List.pairwise_map]
  have hperm := List.mergeSort_perm xs.zipIdx (fun a b => decide (a.1 ≤ b.1))
  refine (sorted_stable xs).imp_of_mem ?_
  rintro ⟨x, i⟩ ⟨y, j⟩ hi hj h
  exact ⟨x, y, List.mem_zipIdx_iff_getElem?.1 (hperm.subset hi),
    List.mem_zipIdx_iff_getElem?.1 (hperm.subset hj), h⟩

theorem orderingOf_perm (xs : List ℚ) : (orderingOf xs).Perm (List.range xs.length) := by
  unfold orderingOf
  have := (List.mergeSort_perm xs.zipIdx (fun a b => decide (a.1 ≤ b.1))).map Prod.snd
  refine this.trans ?_
  rw [List.zipIdx_eq_zip_range', List.map_snd_zip (by simp), List.range_eq_range']

theorem mem_orderingOf (xs : List ℚ) (i : ℕ) : i ∈ orderingOf xs ↔ i < xs.length := by
  rw [(orderingOf_perm xs).mem_iff, List.mem_range]

theorem orderingOf_nodup (xs : List ℚ) : (orderingOf xs).Nodup :=
  (orderingOf_perm xs).nodup_iff.2 List.nodup_range

/-- Two columns have the same ordering iff each earlier-later pair of rows compares
the same way in both. -/
theorem orderingOf_eq_iff (xs ys : List ℚ) (hl : xs.length = ys.length) :
    orderingOf xs = orderingOf ys ↔
      ∀ (i j : ℕ) (x x' y y' : ℚ), i < j → xs[i]? = some x → xs[j]? = some x' → ys[i]? = some y →
        ys[j]? = some y' → (x ≤ x' ↔ y ≤ y') := by
  have dir : ∀ (zs : List ℚ) (i j : ℕ) (z z' : ℚ), i < j → zs[i]? = some z → zs[j]? = some z' →
      (z ≤ z' ↔ IdxBefore zs i j) ∧ (¬ z ≤ z' ↔ IdxBefore zs j i) := by
    intro zs i j z z' hij h1 h2
    unfold IdxBefore
    constructor
    · constructor
      · intro h
        refine ⟨z, z', h1, h2, ?_⟩
        rcases lt_or_eq_of_le h with c | c
        · exact Or.inl c
        · exact Or.inr ⟨c, hij⟩
      · rintro ⟨a, b, e1, e2, h⟩
        rw [h1] at e1; rw [h2] at e2; cases e1; cases e2
        rcases h with h | h
        · exact le_of_lt h
        · exact le_of_eq h.1
    · constructor
      · intro h
        exact ⟨z', z, h2, h1, Or.inl (not_le.1 h)⟩
      · rintro ⟨a, b, e1, e2, h⟩
        rw [h2] at e1; rw [h1] at e2; cases e1; cases e2
        rcases h with h | h
        · exact not_le.2 h
        · omega
  have asym : ∀ (zs : List ℚ) i j, IdxBefore zs i j → IdxBefore zs j i → i = j := by
    rintro zs i j ⟨a, b, e1, e2, h⟩ ⟨b', a', e3, e4, h'⟩
    rw [e2] at e3; rw [e1] at e4; cases e3; cases e4
    rcases h with h | h <;> rcases h' with h' | h'
    · exact absurd h (not_lt.2 (le_of_lt h'))
    · rw [h'.1] at h; exact absurd h (lt_irrefl _)
    · rw [h.1] at h'; exact absurd h' (lt_irrefl _)
    · omega
  constructor
  · intro e i j x x' y y' hij h1 h2 h3 h4
    have hi : i < xs.length := (List.getElem?_eq_some_iff.1 h1).1
    have hj : j < xs.length := (List.getElem?_eq_some_iff.1 h2).1
    -- either order of two distinct members
    have hsub := pair_order (show i ≠ j by omega) ((mem_orderingOf xs i).2 hi)
      ((mem_orderingOf xs j).2 hj)
    have px := orderingOf_pairwise xs
    have py := orderingOf_pairwise ys
    rw [List.pairwise_iff_forall_sublist] at px py
    obtain ⟨dx1, dx2⟩ := dir xs i j x x' hij h1 h2
    obtain ⟨dy1, dy2⟩ := dir ys i j y y' hij h3 h4
    rcases hsub with h | h
    · have a := px h
      rw [e] at h
      have b := py h
      exact ⟨fun _ => dy1.2 b, fun _ => dx1.2 a⟩
    · have a := px h
      rw [e] at h
      have b := py h
      constructor
      · intro hx; exact absurd hx (dx2.2 a)
      · intro hy; exact absurd hy (dy2.2 b)
  · intro h
    have hperm : (orderingOf xs).Perm (orderingOf ys) :=
      (orderingOf_perm xs).trans (hl ▸ (orderingOf_perm ys).symm)
    refine hperm.eq_of_pairwise (le := IdxBefore xs) ?_ (orderingOf_pairwise xs) ?_
    · intro a b _ _ h1 h2; exact asym xs a b h1 h2
    · refine (orderingOf_pairwise ys).imp ?_
      rintro i j ⟨y, y', e1, e2, h'⟩
      have hi : i < xs.length := hl ▸ (List.getElem?_eq_some_iff.1 e1).1
      have hj : j < xs.length := hl ▸ (List.getElem?_eq_some_iff.1 e2).1
      have f1 : xs[i]? = some xs[i] := List.getElem?_eq_getElem hi
      have f2 : xs[j]? = some xs[j] := List.getElem?_eq_getElem hj
      rcases lt_trichotomy i j with c | c | c
      · refine (dir xs i j _ _ c f1 f2).1.1 ((h i j _ _ y y' c f1 f2 e1 e2).2 ?_)
        rcases h' with h' | h'
        · exact le_of_lt h'
        · exact le_of_eq h'.1
      · subst c
        rw [e1] at e2; cases e2
        rcases h' with h' | h'
        · exact absurd h' (lt_irrefl _)
        · omega
      · refine (dir xs j i _ _ c f2 f1).2.1 (fun hc => ?_)
        have := (h j i _ _ y' y c f2 f1 e2 e1).1 hc
        rcases h' with h' | h'
        · exact absurd h' (not_lt.2 this)
        · omega

/-- An earlier row `a` and a later row `b` compare the same way in all columns. -/
def SameWay (a b : RawRow) : Prop :=
  (a.mcs ≤ b.mcs ↔ a.snr ≤ b.snr) ∧ (a.mcs ≤ b.mcs ↔ a.mbps ≤ b.mbps) ∧
    (a.mcs ≤ b.mcs ↔ a.txBackoff ≤ b.txBackoff)

instance (a b : RawRow) : Decidable (SameWay a b) := by unfold SameWay; infer_instance

theorem column_iff (rows : List RawRow) (f g : RawRow → ℚ) :
    orderingOf (rows.map f) = orderingOf (rows.map g) ↔
      rows.Pairwise (fun a b => f a ≤ f b ↔ g a ≤ g b) := by
  rw [orderingOf_eq_iff _ _ (by simp), List.pairwise_iff_getElem]
  constructor
  · intro h i j hi hj hij
    exact h i j _ _ _ _ hij (by simp [hi]) (by simp [hj]) (by simp [hi]) (by simp [hj])
  · intro h i j x x' y y' hij h1 h2 h3 h4
    simp only [List.getElem?_map, Option.map_eq_some_iff] at h1 h2 h3 h4
    obtain ⟨r1, e1, rfl⟩ := h1
    obtain ⟨r2, e2, rfl⟩ := h2
    obtain ⟨r3, e3, rfl⟩ := h3
    obtain ⟨r4, e4, rfl⟩ := h4
    rw [e1] at e3; rw [e2] at e4; cases e3; cases e4
    obtain ⟨a1, rfl⟩ := List.getElem?_eq_some_iff.1 e1
    obtain ⟨a2, rfl⟩ := List.getElem?_eq_some_iff.1 e2
    exact h i j a1 a2 hij

theorem columns_iff (rows : List RawRow) :
    (orderingOf (rows.map RawRow.mcs) = orderingOf (rows.map RawRow.snr) ∧
      orderingOf (rows.map RawRow.mcs) = orderingOf (rows.map RawRow.mbps) ∧
      orderingOf (rows.map RawRow.mcs) = orderingOf (rows.map RawRow.txBackoff)) ↔
      rows.Pairwise SameWay := by
  rw [column_iff, column_iff, column_iff, ← List.pairwise_and_iff, ← List.pairwise_and_iff]
  rfl

/-- A table with rows out of step is rejected with a `DataException`. -/
theorem readRateTable_rejects (p : SectorParams) (rows : List RawRow)
    (h : ¬ rows.Pairwise SameWay) : readRateTable p rows = .error .data := by
  unfold readRateTable
  dsimp only
  rw [if_neg (fun h' => h ((columns_iff rows).1 h'))]

/-- **C31.** A table is accepted exactly when each earlier row compares with each
later row the same way in all four columns and, if a minimum level is set, some row
reaches it. What is returned is the rows that the device can use (full power less the
back-off is at least the minimum power; the level is at least the minimum), in file
order, with the level cut to an integer. -/
theorem C31_accepted_iff (p : SectorParams) (rows : List RawRow) (tbl : List McsRow) :
    readRateTable p rows = .ok tbl ↔
      rows.Pairwise SameWay ∧ (∀ m ∈ p.minimumMcsLevel, ∃ r ∈ rows, (m : ℚ) ≤ r.mcs) ∧
      tbl = (rows.filter fun r =>
          decide ((∀ lo ∈ p.minimumTxPower, lo + r.txBackoff ≤ p.maximumTxPower) ∧
            ∀ m ∈ p.minimumMcsLevel, (m : ℚ) ≤ r.mcs)).map
        fun r => ⟨pyInt r.mcs, r.snr, r.mbps, r.txBackoff⟩ := by
  have hcols := columns_iff rows
  have hkeep : (fun r => decide ((∀ lo ∈ p.minimumTxPower, lo + r.txBackoff ≤ p.maximumTxPower) ∧
            ∀ m ∈ p.minimumMcsLevel, (m : ℚ) ≤ r.mcs)) = keepRow p := by
    funext r
    unfold keepRow
    cases p.minimumTxPower <;> cases p.minimumMcsLevel <;> simp [le_sub_iff_add_le]
  rw [hkeep]
  unfold readRateTable
  dsimp only
  by_cases c : rows.Pairwise SameWay
  · rw [if_pos (hcols.2 c)]
    simp only [c, true_and]
    cases hm : p.minimumMcsLevel with
    | none => simp [eq_comm]
    | some m =>
      simp only [Option.mem_def, Option.some.injEq, forall_eq']
      cases ht : pyMax (rows.map RawRow.mcs) with
      | none =>
        rw [pyMax_none] at ht
        simp at ht
        simp [ht]
      | some top =>
        rw [pyMax_iff] at ht
        obtain ⟨h1, h2⟩ := ht
        obtain ⟨r, hr, rfl⟩ := List.mem_map.1 h1
        dsimp only
        by_cases hc : (m : ℚ) ≤ r.mcs
        · rw [if_pos hc]
          simp only [Except.ok.injEq]
          exact ⟨fun e => ⟨⟨r, hr, hc⟩, e.symm⟩, fun e => e.2.symm⟩
        · rw [if_neg hc]
          simp only [reduceCtorEq, false_iff, not_and]
          rintro ⟨q, hq, hle⟩
          exact absurd (le_trans hle (h2 q.mcs (List.mem_map.2 ⟨q, hq, rfl⟩))) hc
  · rw [if_neg (fun h => c (hcols.1 h))]
    simp [c]

theorem pyInt_mono {x y : ℚ} (h : x ≤ y) : pyInt x ≤ pyInt y := by
  unfold pyInt
  by_cases c1 : 0 ≤ x
  · rw [if_pos c1, if_pos (le_trans c1 h)]; exact Int.floor_le_floor h
  · rw [if_neg c1]
    by_cases c2 : 0 ≤ y
    · rw [if_pos c2]
      have h1 : ⌈x⌉ ≤ 0 := by rw [Int.ceil_le]; push_cast; linarith [not_le.1 c1]
      have h2 : 0 ≤ ⌊y⌋ := Int.floor_nonneg.2 c2
      omega
    · rw [if_neg c2]; exact Int.ceil_le_ceil h

theorem le_pyInt {m : ℤ} {x : ℚ} (h : (m : ℚ) ≤ x) : m ≤ pyInt x := by
  unfold pyInt
  split
  · exact Int.le_floor.2 h
  · have := Int.le_ceil x
    have : (m : ℚ) ≤ (⌈x⌉ : ℚ) := le_trans h this
    exact_mod_cast this

/-- **C31.** In an accepted table a higher level has at least the SNR threshold, the
throughput and the back-off of a lower one. -/
theorem C31_jointly_ordered (p : SectorParams) (rows : List RawRow) (tbl : List McsRow)
    (h : readRateTable p rows = .ok tbl) (a b : McsRow) (ha : a ∈ tbl) (hb : b ∈ tbl)
    (hlt : a.mcs < b.mcs) :
    a.snr ≤ b.snr ∧ a.mbps ≤ b.mbps ∧ a.txBackoff ≤ b.txBackoff := by
  obtain ⟨h1, _, rfl⟩ := (C31_accepted_iff p rows tbl).1 h
  obtain ⟨r, hr, rfl⟩ := List.mem_map.1 ha
  obtain ⟨q, hq, rfl⟩ := List.mem_map.1 hb
  have hr := (List.mem_filter.1 hr).1
  have hq := (List.mem_filter.1 hq).1
  have hlt' : r.mcs < q.mcs := by
    by_contra c
    exact absurd (pyInt_mono (not_lt.1 c)) (not_le.2 hlt)
  have hne : r ≠ q := by rintro rfl; exact lt_irrefl _ hlt'
  have := pair_order hne hr hq
  rw [List.pairwise_iff_forall_sublist] at h1
  rcases this with h | h
  · obtain ⟨s1, s2, s3⟩ := h1 h
    have := le_of_lt hlt'
    exact ⟨s1.1 this, s2.1 this, s3.1 this⟩
  · obtain ⟨s1, s2, s3⟩ := h1 h
    have hn := not_le.2 hlt'
    exact ⟨le_of_lt (not_le.1 fun c => hn (s1.2 c)), le_of_lt (not_le.1 fun c => hn (s2.2 c)),
      le_of_lt (not_le.1 fun c => hn (s3.2 c))⟩

/-- A table in descending order with a back-off column; the last row is dropped for
the minimum level. -/
example :
    readRateTable { maximumTxPower := 16, minimumMcsLevel := some 3 }
      [⟨9, 12, 700, 2⟩, ⟨4, 5, 60, 1⟩, ⟨2, 1, 10, 0⟩] =
      .ok [⟨9, 12, 700, 2⟩, ⟨4, 5, 60, 1⟩] :=
  (C31_accepted_iff _ _ _).2 ⟨by decide +kernel, by decide +kernel, by decide +kernel⟩

/-- Thresholds out of step with the levels are rejected. -/
example : readRateTable { maximumTxPower := 16 } [⟨3, 9, 10, 0⟩, ⟨4, 5, 60, 0⟩] = .error .data :=
  readRateTable_rejects _ _ (by decide +kernel)

/-! ## C74: every ordered table is accepted -/

/-- Every two rows of a table compare strictly the same way in level, threshold and
throughput, and a higher level has at least the back-off. -/
def ProperTable (rows : List RawRow) : Prop :=
  ∀ a ∈ rows, ∀ b ∈ rows, a.mcs < b.mcs → a.snr < b.snr ∧ a.mbps < b.mbps ∧ a.txBackoff ≤ b.txBackoff

/-- **C74 (partial).** A proper table with distinct levels is accepted when its rows
are in ascending order of level. -/
theorem C74_ascending_accepted_partial (p : SectorParams) (rows : List RawRow)
    (hp : ProperTable rows) (hasc : (rows.map RawRow.mcs).Pairwise (· < ·))
    (hm : ∀ m ∈ p.minimumMcsLevel, ∃ r ∈ rows, (m : ℚ) ≤ r.mcs) :
    ∃ tbl, readRateTable p rows = .ok tbl := by
  refine ⟨_, (C31_accepted_iff p rows _).2 ⟨?_, hm, rfl⟩⟩
  rw [List.pairwise_map] at hasc
  refine hasc.imp_of_mem ?_
  intro a b ha hb hlt
  obtain ⟨h1, h2, h3⟩ := hp a ha b hb hlt
  exact ⟨iff_of_true hlt.le h1.le, iff_of_true hlt.le h2.le, iff_of_true hlt.le h3⟩

/-- **C74 is false of the code:** the same rows in descending order, with no
back-off, are rejected. -/
theorem C74_descending_violation :
    ∃ (p : SectorParams) (rows : List RawRow), ProperTable rows ∧
      (rows.map RawRow.mcs).Pairwise (· ≠ ·) ∧
      readRateTable p rows = .error .data ∧ ∃ tbl, readRateTable p rows.reverse = .ok tbl :=
  ⟨{ maximumTxPower := 16 }, [⟨9, 12, 700, 0⟩, ⟨8, 9, 600, 0⟩],
    by unfold ProperTable; decide +kernel, by decide +kernel,
    readRateTable_rejects _ _ (by decide +kernel), [⟨8, 9, 600, 0⟩, ⟨9, 12, 700, 0⟩],
    (C31_accepted_iff _ _ _).2 ⟨by decide +kernel, by decide +kernel, by decide +kernel⟩⟩

example : ∃ tbl, readRateTable { maximumTxPower := 16, minimumMcsLevel := some 4 }
    [⟨3, 1, 10, 0⟩, ⟨4, 5, 60, 0⟩] = .ok tbl :=
  C74_ascending_accepted_partial _ _ (by unfold ProperTable; decide +kernel) (by decide +kernel)
    (by decide +kernel)

/-! ## C73: the minimum level of a device -/

/-- **C73 (partial).** With a rate table file, no row below the device's minimum level
remains, and every remaining row leaves the minimum power after back-off. -/
theorem C73_minimum_level_partial (p : SectorParams) (rows : List RawRow) (tbl : List McsRow)
    (h : loadRateTable p (some rows) = .ok tbl) (r : McsRow) (hr : r ∈ tbl) :
    (∀ m ∈ p.minimumMcsLevel, m ≤ r.mcs) ∧
      ∀ lo ∈ p.minimumTxPower, lo + r.txBackoff ≤ p.maximumTxPower := by
  obtain ⟨_, _, rfl⟩ := (C31_accepted_iff p rows tbl).1 h
  obtain ⟨q, hq, rfl⟩ := List.mem_map.1 hr
  have := (List.mem_filter.1 hq).2
  simp only [decide_eq_true_eq] at this
  exact ⟨fun m hm => le_pyInt (this.2 m hm), this.1⟩

/-- **C73 is false of the code:** without a file the default table is used as it is,
and a device with minimum level 8 keeps the rows 3 to 7. -/
theorem C73_default_table_violation :
    ∃ (p : SectorParams) (tbl : List McsRow) (r : McsRow), loadRateTable p none = .ok tbl ∧
      r ∈ tbl ∧ p.minimumMcsLevel = some 8 ∧ r.mcs = 3 :=
  ⟨{ maximumTxPower := 16, minimumMcsLevel := some 8 }, defaultRateTable, ⟨3, 3, 0, 0⟩, rfl,
    by decide +kernel, rfl, rfl⟩

example :
    let p : SectorParams :=
      { maximumTxPower := 16, minimumMcsLevel := some 4, minimumTxPower := some 15 }
    loadRateTable p (some [⟨3, 1, 10, 0⟩, ⟨4, 5, 60, 0⟩, ⟨5, 7, 80, 2⟩]) = .ok [⟨4, 5, 60, 0⟩] := by
  intro p
  show readRateTable p _ = _
  exact (C31_accepted_iff _ _ _).2 ⟨by decide +kernel, by decide +kernel, by decide +kernel⟩

end Verif
