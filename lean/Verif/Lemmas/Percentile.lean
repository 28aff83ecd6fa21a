import Verif.Lemmas.Statistics
import Mathlib.Data.List.Sort
import Mathlib.Data.List.GetD
import Mathlib.Tactic.Push

/-! # Percentiles by linear interpolation -/

namespace Verif

/-- Entry `i` of a sorted list, the last one beyond its end. -/
def entry (s : List ℚ) (i : Nat) : ℚ := s.getD (min i (s.length - 1)) 0

/-- The value at a place between two entries. -/
def between (s : List ℚ) (v : ℚ) : ℚ :=
  entry s ⌊v⌋.toNat + (entry s (⌊v⌋.toNat + 1) - entry s ⌊v⌋.toNat) * (v - ⌊v⌋.toNat)

theorem entry_mono {s : List ℚ} (hs : s.Pairwise (· ≤ ·)) {i j : Nat} (h : i ≤ j) : entry s i ≤ entry s j := by
  unfold entry
  cases hn : s with
  | nil => simp
  | cons a s' =>
    rw [← hn]
    have hl : 0 < s.length := by rw [hn]; simp
    have h1 : min i (s.length - 1) < s.length := by omega
    have h2 : min j (s.length - 1) < s.length := by omega
    rw [List.getD_eq_getElem _ _ h1, List.getD_eq_getElem _ _ h2]
    have h3 : min i (s.length - 1) ≤ min j (s.length - 1) := by omega
    rcases Nat.lt_or_eq_of_le h3 with h4 | h4
    · exact List.pairwise_iff_getElem.1 hs _ _ h1 h2 h4
    · simp only [h4]; exact le_refl _

theorem entry_mem {s : List ℚ} (hs : s ≠ []) (i : Nat) : entry s i ∈ s := by
  unfold entry
  have hl : 0 < s.length := List.length_pos_iff.2 hs
  have h1 : min i (s.length - 1) < s.length := by omega
  rw [List.getD_eq_getElem _ _ h1]
  exact List.getElem_mem h1

theorem between_bounds {s : List ℚ} (hs : s.Pairwise (· ≤ ·)) {v : ℚ} (hv : 0 ≤ v) :
    entry s ⌊v⌋.toNat ≤ between s v ∧ between s v ≤ entry s (⌊v⌋.toNat + 1) := by
  have h := entry_mono hs (Nat.le_succ ⌊v⌋.toNat)
  have hf : (0 : ℤ) ≤ ⌊v⌋ := Int.floor_nonneg.2 hv
  have e : ((⌊v⌋.toNat : ℕ) : ℚ) = (⌊v⌋ : ℚ) := by
    have : ((⌊v⌋.toNat : ℕ) : ℤ) = ⌊v⌋ := Int.toNat_of_nonneg hf
    exact_mod_cast this
  have h0 : 0 ≤ v - ⌊v⌋.toNat := by rw [e]; linarith [Int.floor_le v]
  have h1 : v - ⌊v⌋.toNat ≤ 1 := by rw [e]; linarith [Int.lt_floor_add_one v]
  have hd : 0 ≤ entry s (⌊v⌋.toNat + 1) - entry s ⌊v⌋.toNat := sub_nonneg.2 h
  unfold between
  constructor
  · have := mul_nonneg hd h0
    linarith
  · have := mul_le_mul_of_nonneg_left h1 hd
    linarith

theorem between_mono {s : List ℚ} (hs : s.Pairwise (· ≤ ·)) {v w : ℚ} (hv : 0 ≤ v) (h : v ≤ w) :
    between s v ≤ between s w := by
  have hf : ⌊v⌋ ≤ ⌊w⌋ := Int.floor_le_floor h
  rcases eq_or_lt_of_le hf with e | e
  · unfold between
    rw [← e]
    have hd : 0 ≤ entry s (⌊v⌋.toNat + 1) - entry s ⌊v⌋.toNat := sub_nonneg.2 (entry_mono hs (Nat.le_succ _))
    have := mul_le_mul_of_nonneg_left (sub_le_sub_right h (⌊v⌋.toNat : ℚ)) hd
    linarith
  · refine (between_bounds hs hv).2.trans (le_trans (entry_mono hs ?_) (between_bounds hs (hv.trans h)).1)
    have : (0 : ℤ) ≤ ⌊v⌋ := Int.floor_nonneg.2 hv
    omega

theorem percentile_eq {xs : List ℚ} (hx : xs ≠ []) {p : ℚ} (h0 : 0 ≤ p) (h1 : p ≤ 100) :
    percentile xs p = between (xs.insertionSort (· ≤ ·)) (p / 100 * ((xs.length : ℚ) - 1)) := by
  unfold percentile between entry
  dsimp only
  have hl : 0 < xs.length := List.length_pos_iff.2 hx
  have hq : (1 : ℚ) ≤ xs.length := by exact_mod_cast hl
  have hv1 : p / 100 * ((xs.length : ℚ) - 1) ≤ xs.length - 1 := by
    have : p / 100 ≤ 1 := by rw [div_le_one (by norm_num)]; exact h1
    have := mul_le_mul_of_nonneg_right this (sub_nonneg.2 hq)
    linarith
  have hv0 : 0 ≤ p / 100 * ((xs.length : ℚ) - 1) := mul_nonneg (by positivity) (sub_nonneg.2 hq)
  generalize p / 100 * ((xs.length : ℚ) - 1) = v at *
  have hlen : (xs.insertionSort (· ≤ ·)).length = xs.length := List.length_insertionSort _ _
  have hfl : ⌊v⌋ ≤ (xs.length : ℤ) - 1 := by
    have h2 : (⌊v⌋ : ℚ) ≤ (xs.length : ℚ) - 1 := (Int.floor_le v).trans hv1
    exact_mod_cast h2
  have hi : ⌊v⌋.toNat ≤ xs.length - 1 := by omega
  rw [hlen, min_eq_left hi]
  generalize hs : xs.insertionSort (· ≤ ·) = s at *
  by_cases c : ⌊v⌋.toNat + 1 < s.length
  · have h2 : min (⌊v⌋.toNat + 1) (xs.length - 1) = ⌊v⌋.toNat + 1 := by omega
    rw [h2, List.getD_eq_getElem _ _ c, List.getD_eq_getElem _ _ c]
  · have h2 : min (⌊v⌋.toNat + 1) (xs.length - 1) = ⌊v⌋.toNat := by omega
    have h3 : s.getD (⌊v⌋.toNat + 1) (s.getD ⌊v⌋.toNat 0) = s.getD ⌊v⌋.toNat 0 :=
      List.getD_eq_default _ _ (not_lt.1 c)
    rw [h2, h3]

theorem sorted_of (xs : List ℚ) : (xs.insertionSort (· ≤ ·)).Pairwise (· ≤ ·) :=
  List.pairwise_insertionSort (· ≤ ·) xs

/-- Percentiles grow with the percentage. -/
theorem percentile_mono {xs : List ℚ} (hx : xs ≠ []) {p q : ℚ} (h0 : 0 ≤ p) (h1 : p ≤ q) (h2 : q ≤ 100) :
    percentile xs p ≤ percentile xs q := by
  rw [percentile_eq hx h0 (h1.trans h2), percentile_eq hx (h0.trans h1) h2]
  have hl : 0 < xs.length := List.length_pos_iff.2 hx
  have hq : (1 : ℚ) ≤ xs.length := by exact_mod_cast hl
  apply between_mono (sorted_of xs)
  · exact mul_nonneg (by positivity) (sub_nonneg.2 hq)
  · exact mul_le_mul_of_nonneg_right (by linarith) (sub_nonneg.2 hq)

theorem percentile_zero {xs : List ℚ} (hx : xs ≠ []) :
    percentile xs 0 ∈ xs ∧ ∀ x ∈ xs, percentile xs 0 ≤ x := by
  rw [percentile_eq hx (le_refl _) (by norm_num)]
  have hs : xs.insertionSort (· ≤ ·) ≠ [] := by
    intro h
    have := List.length_insertionSort (· ≤ ·) xs
    rw [h] at this
    exact hx (List.length_eq_zero_iff.1 this.symm)
  have e : between (xs.insertionSort (· ≤ ·)) (0 / 100 * ((xs.length : ℚ) - 1)) =
      entry (xs.insertionSort (· ≤ ·)) 0 := by
    unfold between
    simp
  rw [e]
  have hp := List.perm_insertionSort (· ≤ ·) xs
  refine ⟨hp.mem_iff.1 (entry_mem hs 0), fun x hxm => ?_⟩
  have hm := hp.mem_iff.2 hxm
  obtain ⟨i, hi, rfl⟩ := List.getElem_of_mem hm
  have := entry_mono (sorted_of xs) (Nat.zero_le i)
  refine this.trans (le_of_eq ?_)
  unfold entry
  rw [show min i ((xs.insertionSort (· ≤ ·)).length - 1) = i by omega, List.getD_eq_getElem _ _ hi]

theorem percentile_hundred {xs : List ℚ} (hx : xs ≠ []) :
    percentile xs 100 ∈ xs ∧ ∀ x ∈ xs, x ≤ percentile xs 100 := by
  rw [percentile_eq hx (by norm_num) (le_refl _)]
  have hl : 0 < xs.length := List.length_pos_iff.2 hx
  have hlen : (xs.insertionSort (· ≤ ·)).length = xs.length := List.length_insertionSort _ _
  have hs : xs.insertionSort (· ≤ ·) ≠ [] := by
    intro h
    rw [h] at hlen
    exact hx (List.length_eq_zero_iff.1 hlen.symm)
  have hv : (100 : ℚ) / 100 * ((xs.length : ℚ) - 1) = ((xs.length - 1 : ℕ) : ℚ) := by
    rw [Nat.cast_sub hl]
    norm_num
  have e : between (xs.insertionSort (· ≤ ·)) (100 / 100 * ((xs.length : ℚ) - 1)) =
      entry (xs.insertionSort (· ≤ ·)) (xs.length - 1) := by
    rw [hv]
    unfold between
    rw [Int.floor_natCast, Int.toNat_natCast, sub_self, mul_zero, add_zero]
  rw [e]
  have hp := List.perm_insertionSort (· ≤ ·) xs
  refine ⟨hp.mem_iff.1 (entry_mem hs _), fun x hxm => ?_⟩
  have hm := hp.mem_iff.2 hxm
  obtain ⟨i, hi, rfl⟩ := List.getElem_of_mem hm
  have := entry_mono (sorted_of xs) (show i ≤ xs.length - 1 by omega)
  refine le_trans (le_of_eq ?_) this
  unfold entry
  rw [show min i ((xs.insertionSort (· ≤ ·)).length - 1) = i by omega, List.getD_eq_getElem _ _ hi]

/-- The share of the values up to the percentile, and from it on. -/
theorem percentile_share {xs : List ℚ} (hx : xs ≠ []) {p : ℚ} (h0 : 0 ≤ p) (h1 : p ≤ 100) :
    p * ((xs.length : ℚ) - 1) < 100 * (xs.filter (fun x => x ≤ percentile xs p)).length ∧
    (100 - p) * ((xs.length : ℚ) - 1) < 100 * (xs.filter (fun x => percentile xs p ≤ x)).length := by
  have hl : 0 < xs.length := List.length_pos_iff.2 hx
  have hq : (1 : ℚ) ≤ xs.length := by exact_mod_cast hl
  have hp := List.perm_insertionSort (· ≤ ·) xs
  have hlen : (xs.insertionSort (· ≤ ·)).length = xs.length := List.length_insertionSort _ _
  have hs := sorted_of xs
  have hf : ∀ (g : ℚ → Bool), (xs.filter g).length = ((xs.insertionSort (· ≤ ·)).filter g).length :=
    fun g => ((hp.filter g).length_eq).symm
  rw [hf, hf, percentile_eq hx h0 h1]
  have hv0 : 0 ≤ p / 100 * ((xs.length : ℚ) - 1) := mul_nonneg (by positivity) (sub_nonneg.2 hq)
  have hv1 : p / 100 * ((xs.length : ℚ) - 1) ≤ xs.length - 1 := by
    have : p / 100 ≤ 1 := by rw [div_le_one (by norm_num)]; exact h1
    have := mul_le_mul_of_nonneg_right this (sub_nonneg.2 hq)
    linarith
  have hpv : p * ((xs.length : ℚ) - 1) = 100 * (p / 100 * ((xs.length : ℚ) - 1)) := by ring
  have hpv2 : (100 - p) * ((xs.length : ℚ) - 1) =
      100 * ((xs.length : ℚ) - 1 - (p / 100 * ((xs.length : ℚ) - 1))) := by ring
  rw [hpv, hpv2]
  generalize p / 100 * ((xs.length : ℚ) - 1) = v at *
  generalize xs.insertionSort (· ≤ ·) = s at *
  obtain ⟨b1, b2⟩ := between_bounds hs hv0
  have hfl0 : (0 : ℤ) ≤ ⌊v⌋ := Int.floor_nonneg.2 hv0
  have hfl : ⌊v⌋ ≤ (xs.length : ℤ) - 1 := by
    have h2 : (⌊v⌋ : ℚ) ≤ (xs.length : ℚ) - 1 := (Int.floor_le v).trans hv1
    exact_mod_cast h2
  have hi : ⌊v⌋.toNat < s.length := by omega
  have eqi : ((⌊v⌋.toNat : ℕ) : ℚ) = (⌊v⌋ : ℚ) := by
    have : ((⌊v⌋.toNat : ℕ) : ℤ) = ⌊v⌋ := Int.toNat_of_nonneg hfl0
    exact_mod_cast this
  have hent : ∀ (j : ℕ) (hj : j < s.length), entry s j = s[j] := by
    intro j hj
    unfold entry
    rw [show min j (s.length - 1) = j by omega, List.getD_eq_getElem _ _ hj]
  have hlt := Int.lt_floor_add_one v
  -- the first entries are below
  have c1 : ⌊v⌋.toNat + 1 ≤ (s.filter (fun x => decide (x ≤ between s v))).length := by
    have hall : ∀ x ∈ s.take (⌊v⌋.toNat + 1), decide (x ≤ between s v) = true := by
      intro x hxm
      obtain ⟨j, hj, rfl⟩ := List.getElem_of_mem hxm
      rw [List.length_take] at hj
      rw [List.getElem_take, ← hent j (by omega), decide_eq_true_eq]
      exact (entry_mono hs (by omega)).trans b1
    have := (List.take_sublist (⌊v⌋.toNat + 1) s).filter (fun x => decide (x ≤ between s v))
    rw [List.filter_eq_self.2 hall] at this
    have h2 := this.length_le
    rw [List.length_take] at h2
    omega
  have c2 : ∀ k : ℕ, between s v ≤ entry s k → s.length - k ≤ (s.filter (fun x => decide (between s v ≤ x))).length := by
    intro k hk
    have hall : ∀ x ∈ s.drop k, decide (between s v ≤ x) = true := by
      intro x hxm
      obtain ⟨j, hj, rfl⟩ := List.getElem_of_mem hxm
      rw [List.length_drop] at hj
      rw [List.getElem_drop, ← hent (k + j) (by omega), decide_eq_true_eq]
      exact hk.trans (entry_mono hs (by omega))
    have := (List.drop_sublist k s).filter (fun x => decide (between s v ≤ x))
    rw [List.filter_eq_self.2 hall] at this
    have h2 := this.length_le
    rw [List.length_drop] at h2
    exact h2
  constructor
  · have : ((⌊v⌋.toNat + 1 : ℕ) : ℚ) ≤ ((s.filter (fun x => decide (x ≤ between s v))).length : ℚ) := by
      exact_mod_cast c1
    push_cast at this
    rw [eqi] at this
    linarith
  · rcases eq_or_lt_of_le (Int.floor_le v) with e | e
    · have hb : between s v = entry s ⌊v⌋.toNat := by
        unfold between
        rw [eqi, e, sub_self, mul_zero, add_zero]
      have h3 := c2 ⌊v⌋.toNat (le_of_eq hb)
      have h4 : ((s.length - ⌊v⌋.toNat : ℕ) : ℚ) ≤ ((s.filter (fun x => decide (between s v ≤ x))).length : ℚ) := by
        exact_mod_cast h3
      rw [Nat.cast_sub (le_of_lt hi), eqi, hlen] at h4
      linarith
    · have h3 := c2 (⌊v⌋.toNat + 1) b2
      have h4 : ((s.length - (⌊v⌋.toNat + 1) : ℕ) : ℚ) ≤
          ((s.filter (fun x => decide (between s v ≤ x))).length : ℚ) := by exact_mod_cast h3
      rw [Nat.cast_sub hi, hlen] at h4
      push_cast at h4
      rw [eqi] at h4
      linarith

end Verif
