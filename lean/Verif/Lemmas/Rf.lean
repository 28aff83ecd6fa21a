import Verif.Spec.Rf
import Mathlib.Data.List.Induction
import Mathlib.Algebra.Order.Field.Basic
import Mathlib.Tactic.Linarith

/-! # Look-ups in rate tables -/

namespace Verif

namespace Dict
variable {κ ν : Type} [DecidableEq κ]

theorem ofList_append (ps : List (κ × ν)) (p : κ × ν) :
    Dict.ofList (ps ++ [p]) = (Dict.ofList ps).set p.1 p.2 := by
  simp [Dict.ofList]

theorem ofList_nodup (ps : List (κ × ν)) : (Dict.ofList ps).NodupKeys := by
  induction ps using List.reverseRecOn with
  | nil => exact nodupKeys_nil
  | append_singleton ps p ih => rw [ofList_append]; exact ih.set _ _

theorem get?_ofList (ps : List (κ × ν)) (k : κ) (v : ν) :
    (Dict.ofList ps).get? k = some v ↔
      ∃ pre post, ps = pre ++ (k, v) :: post ∧ ∀ p ∈ post, p.1 ≠ k := by
  induction ps using List.reverseRecOn with
  | nil => simp [Dict.ofList]
  | append_singleton ps p ih =>
    rw [ofList_append, get?_set]
    constructor
    · intro h
      by_cases c : p.1 = k
      · rw [if_pos c] at h
        simp only [Option.some.injEq] at h
        exact ⟨ps, [], by rw [← c, ← h], by simp⟩
      · rw [if_neg c] at h
        obtain ⟨pre, post, e, hp⟩ := ih.1 h
        refine ⟨pre, post ++ [p], by simp [e], ?_⟩
        intro q hq
        rcases List.mem_append.1 hq with h' | h'
        · exact hp q h'
        · simp at h'; subst h'; exact c
    · rintro ⟨pre, post, e, hp⟩
      induction post using List.reverseRecOn with
      | nil =>
        have := List.append_inj' e rfl
        simp at this
        rw [this.2]; simp
      | append_singleton post q _ =>
        have e' : ps ++ [p] = (pre ++ (k, v) :: post) ++ [q] := by rw [e]; simp
        have := List.append_inj' e' rfl
        simp at this
        have hq := hp q (by simp)
        rw [this.2, if_neg hq]
        exact ih.2 ⟨pre, post, this.1, fun r hr => hp r (by simp [hr])⟩

theorem mem_ofList (ps : List (κ × ν)) (k : κ) (v : ν) :
    (k, v) ∈ Dict.ofList ps ↔
      ∃ pre post, ps = pre ++ (k, v) :: post ∧ ∀ p ∈ post, p.1 ≠ k := by
  rw [mem_iff_get? (ofList_nodup ps), get?_ofList]

/-- With distinct keys the comprehension keeps every entry. -/
theorem mem_ofList_of_nodup {ps : List (κ × ν)} (h : (ps.map Prod.fst).Nodup) (p : κ × ν) :
    p ∈ Dict.ofList ps ↔ p ∈ ps := by
  obtain ⟨k, v⟩ := p
  rw [mem_ofList]
  constructor
  · rintro ⟨pre, post, e, _⟩; rw [e]; simp
  · intro hm
    obtain ⟨pre, post, e⟩ := List.append_of_mem hm
    refine ⟨pre, post, e, ?_⟩
    rintro q hq rfl
    rw [e] at h
    simp only [List.map_append, List.map_cons, List.nodup_append, List.nodup_cons] at h
    exact h.2.1.1 (List.mem_map.2 ⟨q, hq, rfl⟩)

theorem ofList_eq_nil (ps : List (κ × ν)) : Dict.ofList ps = [] ↔ ps = [] := by
  induction ps using List.reverseRecOn with
  | nil => simp [Dict.ofList]
  | append_singleton ps p ih =>
    rw [ofList_append]
    simp only [List.append_eq_nil_iff, List.cons_ne_self, and_false, iff_false]
    intro h
    have := get?_set_self (Dict.ofList ps) p.1 p.2
    rw [h] at this; simp at this

end Dict

section minmax
variable {α : Type} [LinearOrder α]

theorem foldl_min_spec (as : List α) (a : α) :
    (as.foldl min a = a ∨ as.foldl min a ∈ as) ∧ as.foldl min a ≤ a ∧
      ∀ b ∈ as, as.foldl min a ≤ b := by
  induction as generalizing a with
  | nil => simp
  | cons x xs ih =>
    obtain ⟨h1, h2, h3⟩ := ih (min a x)
    simp only [List.foldl_cons]
    refine ⟨?_, le_trans h2 (min_le_left _ _), ?_⟩
    · rcases h1 with h1 | h1
      · rw [h1]
        rcases min_choice a x with h | h <;> rw [h] <;> simp
      · right; exact List.mem_cons_of_mem _ h1
    · intro b hb
      rcases List.mem_cons.1 hb with rfl | hb
      · exact le_trans h2 (min_le_right _ _)
      · exact h3 b hb

theorem foldl_max_spec (as : List α) (a : α) :
    (as.foldl max a = a ∨ as.foldl max a ∈ as) ∧ a ≤ as.foldl max a ∧
      ∀ b ∈ as, b ≤ as.foldl max a := foldl_min_spec (α := αᵒᵈ) as a

theorem pyMin_iff (l : List α) (a : α) : pyMin l = some a ↔ a ∈ l ∧ ∀ b ∈ l, a ≤ b := by
  cases l with
  | nil => simp [pyMin]
  | cons x xs =>
    simp only [pyMin, Option.some.injEq]
    obtain ⟨h1, h2, h3⟩ := foldl_min_spec xs x
    constructor
    · rintro rfl
      refine ⟨?_, ?_⟩
      · rcases h1 with h | h
        · rw [h]; simp
        · exact List.mem_cons_of_mem _ h
      · intro b hb
        rcases List.mem_cons.1 hb with rfl | hb
        · exact h2
        · exact h3 b hb
    · rintro ⟨hm, hle⟩
      apply le_antisymm
      · rcases List.mem_cons.1 hm with rfl | hm
        · exact h2
        · exact h3 a hm
      · rcases h1 with h | h
        · rw [h]; exact hle x (by simp)
        · exact hle _ (List.mem_cons_of_mem _ h)

theorem pyMax_iff (l : List α) (a : α) : pyMax l = some a ↔ a ∈ l ∧ ∀ b ∈ l, b ≤ a :=
  pyMin_iff (α := αᵒᵈ) l a

theorem pyMin_none (l : List α) : pyMin l = none ↔ l = [] := by cases l <;> simp [pyMin]
theorem pyMax_none (l : List α) : pyMax l = none ↔ l = [] := by cases l <;> simp [pyMax]

end minmax

/-- The shared shape of `get_mcs_from_snr` and `get_snr_from_mcs`: the largest key
whose value is at most `x`, 0 if there is none. -/
theorem lookup_spec {κ ν : Type} [LinearOrder κ] [LinearOrder ν] [Zero κ]
    (d : Dict κ ν) (x : ν) (hd : d ≠ []) :
    ∃ m, largestKeyWithin d x = .ok m ∧
      (((∃ v, (m, v) ∈ d ∧ v ≤ x) ∧ ∀ m' v, (m', v) ∈ d → v ≤ x → m' ≤ m) ∨
        (m = 0 ∧ ∀ m' v, (m', v) ∈ d → x < v)) := by
  unfold largestKeyWithin
  cases h : pyMin d.vals with
  | none =>
    rw [pyMin_none] at h
    simp [Dict.vals] at h; exact absurd h hd
  | some lo =>
    rw [pyMin_iff] at h
    obtain ⟨hm, hle⟩ := h
    dsimp only
    by_cases c : x < lo
    · rw [if_pos c]
      refine ⟨0, rfl, Or.inr ⟨rfl, ?_⟩⟩
      intro m' v hv
      exact lt_of_lt_of_le c (hle v (List.mem_map.2 ⟨_, hv, rfl⟩))
    · rw [if_neg c]
      obtain ⟨⟨k, v⟩, hk, rfl⟩ := List.mem_map.1 hm
      cases h2 : pyMax ((d.filter fun p : κ × ν => decide (p.2 ≤ x)).map Prod.fst) with
      | none =>
        rw [pyMax_none] at h2
        simp only [List.map_eq_nil_iff, List.filter_eq_nil_iff] at h2
        exact absurd (not_lt.1 c) (by simpa using h2 _ hk)
      | some m =>
        rw [pyMax_iff] at h2
        obtain ⟨h3, h4⟩ := h2
        simp only [List.mem_map, List.mem_filter, decide_eq_true_eq] at h3
        obtain ⟨⟨k', v'⟩, ⟨h5, h6⟩, rfl⟩ := h3
        refine ⟨k', rfl, Or.inl ⟨⟨v', h5, h6⟩, ?_⟩⟩
        intro m' v'' h7 h8
        exact h4 m' (List.mem_map.2 ⟨(m', v''), List.mem_filter.2 ⟨h7, by simpa using h8⟩, rfl⟩)

theorem mem_levels_iff (tbl : List McsRow) (m : ℤ) (s : ℚ) :
    (m, s) ∈ Dict.ofList (tbl.map fun r => (r.mcs, r.snr)) ↔ Threshold tbl m s := by
  rw [Dict.mem_ofList]
  constructor
  · rintro ⟨pre, post, e, h⟩
    obtain ⟨l1, l2, rfl, rfl, h2⟩ := List.map_eq_append_iff.1 e
    obtain ⟨r, l3, rfl, h3, rfl⟩ := List.map_eq_cons_iff.1 h2
    simp only [Prod.mk.injEq] at h3
    exact ⟨l1, r, l3, rfl, h3.1, h3.2, fun q hq => h (q.mcs, q.snr) (List.mem_map.2 ⟨q, hq, rfl⟩)⟩
  · rintro ⟨pre, row, post, rfl, rfl, rfl, h⟩
    refine ⟨_, _, by simp only [List.map_append, List.map_cons]; rfl, ?_⟩
    intro p hp
    obtain ⟨q, hq, rfl⟩ := List.mem_map.1 hp
    exact h q hq

theorem mcsFromSnr_spec (tbl : List McsRow) (h : tbl ≠ []) (snr : ℚ) :
    ∃ m, mcsFromSnr snr tbl = .ok m ∧
      ((Supports tbl snr m ∧ ∀ m', Supports tbl snr m' → m' ≤ m) ∨
        (m = 0 ∧ ∀ m', ¬ Supports tbl snr m')) := by
  have hd : Dict.ofList (tbl.map fun r => (r.mcs, r.snr)) ≠ [] := by
    rw [ne_eq, Dict.ofList_eq_nil]; simpa using h
  obtain ⟨m, e, hm⟩ := lookup_spec _ snr hd
  refine ⟨m, e, ?_⟩
  simp only [mem_levels_iff] at hm
  rcases hm with ⟨h1, h2⟩ | ⟨h1, h2⟩
  · exact Or.inl ⟨h1, fun m' ⟨s, h3, h4⟩ => h2 m' s h3 h4⟩
  · exact Or.inr ⟨h1, fun m' ⟨s, h3, h4⟩ => absurd (h2 m' s h3) (not_lt.2 h4)⟩

theorem nodup_snr {tbl : List McsRow} (h : StrictTable tbl) : (tbl.map McsRow.snr).Nodup := by
  obtain ⟨h1, h2⟩ := h
  induction tbl with
  | nil => simp
  | cons r t ih =>
    simp only [List.map_cons, List.nodup_cons] at h1 ⊢
    refine ⟨?_, ih h1.2 (fun a ha b hb => h2 a (by simp [ha]) b (by simp [hb]))⟩
    intro hm
    obtain ⟨q, hq, e⟩ := List.mem_map.1 hm
    rcases lt_trichotomy q.mcs r.mcs with c | c | c
    · have := h2 q (by simp [hq]) r (by simp) c
      rw [e] at this; exact lt_irrefl _ this
    · exact h1.1 (List.mem_map.2 ⟨q, hq, c⟩)
    · have := h2 r (by simp) q (by simp [hq]) c
      rw [e] at this; exact lt_irrefl _ this

theorem threshold_iff_row {tbl : List McsRow} (h : (tbl.map McsRow.mcs).Nodup) (m : ℤ) (s : ℚ) :
    Threshold tbl m s ↔ ∃ r ∈ tbl, r.mcs = m ∧ r.snr = s := by
  rw [← mem_levels_iff, Dict.mem_ofList_of_nodup (by simpa [Function.comp_def] using h)]
  simp

theorem snrFromMcs_spec {tbl : List McsRow} (h : tbl ≠ []) (hs : StrictTable tbl) (k : ℤ) :
    ∃ s, snrFromMcs k tbl = .ok s ∧
      ((∃ r ∈ tbl, r.snr = s ∧ r.mcs ≤ k ∧ ∀ q ∈ tbl, q.mcs ≤ k → q.mcs ≤ r.mcs) ∨
        (s = 0 ∧ ∀ r ∈ tbl, k < r.mcs)) := by
  have hd : Dict.ofList (tbl.map fun r => (r.snr, r.mcs)) ≠ [] := by
    rw [ne_eq, Dict.ofList_eq_nil]; simpa using h
  obtain ⟨s, e, hm⟩ := lookup_spec _ k hd
  refine ⟨s, e, ?_⟩
  have hmem : ∀ s m, (s, m) ∈ Dict.ofList (tbl.map fun r => (r.snr, r.mcs)) ↔
      ∃ r ∈ tbl, r.snr = s ∧ r.mcs = m := by
    intro s m
    rw [Dict.mem_ofList_of_nodup (by simpa [Function.comp_def] using nodup_snr hs)]
    simp
  simp only [hmem] at hm
  rcases hm with ⟨⟨v, ⟨r, hr, rfl, rfl⟩, hle⟩, h2⟩ | ⟨h1, h2⟩
  · refine Or.inl ⟨r, hr, rfl, hle, ?_⟩
    intro q hq hqk
    by_contra c
    exact absurd (h2 q.snr q.mcs ⟨q, hq, rfl, rfl⟩ hqk)
      (not_le.2 (hs.2 r hr q hq (not_le.1 c)))
  · exact Or.inr ⟨h1, fun r hr => h2 _ _ ⟨r, hr, rfl, rfl⟩⟩

theorem snrFromMcs_row {tbl : List McsRow} (hs : StrictTable tbl) {r : McsRow} (hr : r ∈ tbl) :
    snrFromMcs r.mcs tbl = .ok r.snr := by
  obtain ⟨s, e, hm⟩ := snrFromMcs_spec (List.ne_nil_of_mem hr) hs r.mcs
  rw [e]
  rcases hm with ⟨q, hq, rfl, h1, h2⟩ | ⟨_, h2⟩
  · have : q.mcs = r.mcs := le_antisymm h1 (h2 r hr le_rfl)
    have : q = r := List.inj_on_of_nodup_map hs.1 hq hr this
    rw [this]
  · exact absurd (h2 r hr) (lt_irrefl _)

theorem filter_level {tbl : List McsRow} (h : (tbl.map McsRow.mcs).Nodup) {r : McsRow}
    (hr : r ∈ tbl) : tbl.filter (fun q => decide (q.mcs = r.mcs)) = [r] := by
  induction tbl with
  | nil => simp at hr
  | cons a t ih =>
    simp only [List.map_cons, List.nodup_cons] at h
    rcases List.mem_cons.1 hr with rfl | hr
    · rw [List.filter_cons_of_pos (by simp)]
      congr 1
      rw [List.filter_eq_nil_iff]
      intro q hq hc
      exact h.1 (List.mem_map.2 ⟨q, hq, by simpa using hc⟩)
    · rw [List.filter_cons_of_neg, ih h.2 hr]
      intro hc
      exact h.1 (List.mem_map.2 ⟨r, hr, by simpa using (of_decide_eq_true hc).symm⟩)

theorem backoffOf_row {tbl : List McsRow} (h : (tbl.map McsRow.mcs).Nodup) {r : McsRow}
    (hr : r ∈ tbl) : backoffOf r.mcs tbl = r.txBackoff := by
  simp [backoffOf, filter_level h hr]

theorem capacityOf_row {tbl : List McsRow} (h : (tbl.map McsRow.mcs).Nodup) {r : McsRow}
    (hr : r ∈ tbl) : capacityOf r.mcs tbl = r.mbps / 1000 := by
  simp [capacityOf, filter_level h hr]

theorem filter_absent {tbl : List McsRow} {m : ℤ} (h : ∀ r ∈ tbl, r.mcs ≠ m) :
    tbl.filter (fun q => decide (q.mcs = m)) = [] := by
  rw [List.filter_eq_nil_iff]; intro q hq; simpa using h q hq

theorem capacityOf_absent {tbl : List McsRow} {m : ℤ} (h : ∀ r ∈ tbl, r.mcs ≠ m) :
    capacityOf m tbl = 0 := by simp [capacityOf, filter_absent h]

theorem backoffOf_absent {tbl : List McsRow} {m : ℤ} (h : ∀ r ∈ tbl, r.mcs ≠ m) :
    backoffOf m tbl = 0 := by simp [backoffOf, filter_absent h]

theorem neededPower_ge (minTx : Option ℚ) (gain np s : ℚ) :
    (∀ lo ∈ minTx, lo ≤ neededPower minTx gain np s) ∧ s ≤ neededPower minTx gain np s + gain - np := by
  cases minTx with
  | none => simp [neededPower]
  | some lo =>
    simp only [neededPower, Option.mem_def, Option.some.injEq, forall_eq']
    refine ⟨le_max_left _ _, ?_⟩
    have := le_max_right lo (s + np - gain)
    linarith

theorem neededPower_least (minTx : Option ℚ) (gain np s p : ℚ) (h1 : ∀ lo ∈ minTx, lo ≤ p)
    (h2 : s ≤ p + gain - np) : neededPower minTx gain np s ≤ p := by
  cases minTx with
  | none => simp only [neededPower]; linarith
  | some lo =>
    simp only [neededPower]
    exact max_le (h1 lo rfl) (by linarith)

theorem usable_iff (minTx : Option ℚ) (maxTx gain np : ℚ) (r : McsRow) :
    Usable minTx maxTx gain np r ↔ neededPower minTx gain np r.snr ≤ maxTx - r.txBackoff := by
  constructor
  · rintro ⟨p, h1, h2, h3⟩
    exact le_trans (neededPower_least minTx gain np _ p h1 h3) h2
  · intro h
    exact ⟨_, (neededPower_ge minTx gain np r.snr).1, h, (neededPower_ge minTx gain np r.snr).2⟩

theorem neededPower_mono (minTx : Option ℚ) {gain gain' np s : ℚ} (h : gain ≤ gain') :
    neededPower minTx gain' np s ≤ neededPower minTx gain np s := by
  have := neededPower_ge minTx gain np s
  exact neededPower_least _ _ _ _ _ this.1 (by linarith [this.2])

theorem snrFromMcs_ok {tbl : List McsRow} (h : tbl ≠ []) (k : ℤ) :
    ∃ s, snrFromMcs k tbl = .ok s := by
  have hd : Dict.ofList (tbl.map fun r => (r.snr, r.mcs)) ≠ [] := by
    rw [ne_eq, Dict.ofList_eq_nil]; simpa using h
  obtain ⟨s, e, _⟩ := lookup_spec _ k hd
  exact ⟨s, e⟩

/-- Exactly what the power loop returns. -/
theorem adjustLoop_spec {tbl : List McsRow} (h : tbl ≠ []) (minTx : Option ℚ)
    (maxTx gain np : ℚ) (n : ℕ) :
    ∃ (m : ℕ) (p : WithBot ℚ), adjustLoop tbl minTx maxTx gain np n = .ok ((m : ℤ), p) ∧ m ≤ n ∧
      (∀ k : ℕ, m < k → k ≤ n → ∀ s, snrFromMcs k tbl = .ok s →
        ¬ neededPower minTx gain np s ≤ maxTx - backoffOf k tbl) ∧
      (m = 0 ∧ p = ⊥ ∨ 0 < m ∧ ∃ s, snrFromMcs m tbl = .ok s ∧
        p = (neededPower minTx gain np s : ℚ) ∧
        neededPower minTx gain np s ≤ maxTx - backoffOf m tbl) := by
  induction n with
  | zero => exact ⟨0, ⊥, rfl, le_rfl, fun k h1 h2 => by omega, Or.inl ⟨rfl, rfl⟩⟩
  | succ n ih =>
    obtain ⟨s, hs⟩ := snrFromMcs_ok h ((n : ℤ) + 1)
    simp only [adjustLoop, hs]
    by_cases c : neededPower minTx gain np s ≤ maxTx - backoffOf ((n : ℤ) + 1) tbl
    · rw [if_pos c]
      refine ⟨n + 1, _, by push_cast; rfl, le_rfl, fun k h1 h2 => by omega, Or.inr ⟨by omega, s, ?_, rfl, ?_⟩⟩
      · push_cast; exact hs
      · push_cast; exact c
    · rw [if_neg c]
      obtain ⟨m, p, e, hle, hbest, hres⟩ := ih
      refine ⟨m, p, e, by omega, ?_, hres⟩
      intro k h1 h2 s' hs'
      by_cases hk : k = n + 1
      · subst hk; push_cast at hs' ⊢
        rw [hs] at hs'; cases hs'; exact c
      · exact hbest k h1 (by omega) s' hs'

theorem adjustTxPower_spec {tbl : List McsRow} (h : tbl ≠ []) (minTx : Option ℚ)
    (maxTx gain np : ℚ) (start : ℤ) :
    ∃ (m : ℤ) (p : WithBot ℚ), adjustTxPower start tbl minTx maxTx gain np = .ok (m, p) ∧ 0 ≤ m ∧
      m ≤ max start 0 ∧
      (∀ k : ℤ, m < k → k ≤ start → ∀ s, snrFromMcs k tbl = .ok s →
        ¬ neededPower minTx gain np s ≤ maxTx - backoffOf k tbl) ∧
      (m = 0 ∧ p = ⊥ ∨ 0 < m ∧ ∃ s, snrFromMcs m tbl = .ok s ∧
        p = (neededPower minTx gain np s : ℚ) ∧
        neededPower minTx gain np s ≤ maxTx - backoffOf m tbl) := by
  obtain ⟨m, p, e, h1, h2, h3⟩ := adjustLoop_spec h minTx maxTx gain np start.toNat
  refine ⟨m, p, e, by omega, by omega, ?_, ?_⟩
  · intro k hk1 hk2 s hs
    have : k = (k.toNat : ℤ) := by omega
    rw [this] at hs ⊢
    exact h2 k.toNat (by omega) (by omega) s hs
  · rcases h3 with ⟨h3, h4⟩ | ⟨h3, h4⟩
    · exact Or.inl ⟨by omega, h4⟩
    · exact Or.inr ⟨by omega, h4⟩

end Verif
