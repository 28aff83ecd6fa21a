import Verif.Spec.Statistics
import Verif.Props.Metrics
import Mathlib.Tactic.FieldSimp
import Mathlib.Algebra.BigOperators.Fin
import Mathlib.Algebra.Order.BigOperators.Group.Finset

/-! # Lemmas on averages, greatest and least values -/

namespace Verif
open Spec Finset

theorem foldMax_spec (xs : List ℚ) (x : ℚ) :
    (xs.foldl (fun m y => if m < y then y else m) x = x ∨ xs.foldl (fun m y => if m < y then y else m) x ∈ xs) ∧
    x ≤ xs.foldl (fun m y => if m < y then y else m) x ∧
    ∀ y ∈ xs, y ≤ xs.foldl (fun m y => if m < y then y else m) x := by
  induction xs generalizing x with
  | nil => simp
  | cons a xs ih =>
    rw [List.foldl_cons]
    obtain ⟨h1, h2, h3⟩ := ih (if x < a then a else x)
    refine ⟨?_, ?_, ?_⟩
    · rcases h1 with h | h
      · rw [h]
        split
        · right; simp
        · left; rfl
      · right; exact List.mem_cons_of_mem _ h
    · refine le_trans ?_ h2
      split
      · rename_i c; exact le_of_lt c
      · exact le_refl _
    · intro y hy
      rcases List.mem_cons.1 hy with rfl | hy
      · refine le_trans ?_ h2
        split
        · exact le_refl _
        · rename_i c; exact not_lt.1 c
      · exact h3 y hy

theorem maxOf_spec {xs : List ℚ} (h : xs ≠ []) : maxOf xs ∈ xs ∧ ∀ x ∈ xs, x ≤ maxOf xs := by
  cases xs with
  | nil => exact absurd rfl h
  | cons x xs =>
    obtain ⟨h1, h2, h3⟩ := foldMax_spec xs x
    unfold maxOf
    dsimp only
    refine ⟨?_, ?_⟩
    · rcases h1 with h | h
      · rw [h]; simp
      · exact List.mem_cons_of_mem _ h
    · intro y hy
      rcases List.mem_cons.1 hy with rfl | hy
      · exact h2
      · exact h3 y hy

theorem foldMin_spec (xs : List ℚ) (x : ℚ) :
    (xs.foldl (fun m y => if y < m then y else m) x = x ∨ xs.foldl (fun m y => if y < m then y else m) x ∈ xs) ∧
    xs.foldl (fun m y => if y < m then y else m) x ≤ x ∧
    ∀ y ∈ xs, xs.foldl (fun m y => if y < m then y else m) x ≤ y := by
  induction xs generalizing x with
  | nil => simp
  | cons a xs ih =>
    rw [List.foldl_cons]
    obtain ⟨h1, h2, h3⟩ := ih (if a < x then a else x)
    refine ⟨?_, ?_, ?_⟩
    · rcases h1 with h | h
      · rw [h]
        split
        · right; simp
        · left; rfl
      · right; exact List.mem_cons_of_mem _ h
    · refine le_trans h2 ?_
      split
      · rename_i c; exact le_of_lt c
      · exact le_refl _
    · intro y hy
      rcases List.mem_cons.1 hy with rfl | hy
      · refine le_trans h2 ?_
        split
        · exact le_refl _
        · rename_i c; exact not_lt.1 c
      · exact h3 y hy

theorem minOf_spec {xs : List ℚ} (h : xs ≠ []) : minOf xs ∈ xs ∧ ∀ x ∈ xs, minOf xs ≤ x := by
  cases xs with
  | nil => exact absurd rfl h
  | cons x xs =>
    obtain ⟨h1, h2, h3⟩ := foldMin_spec xs x
    unfold minOf
    dsimp only
    refine ⟨?_, ?_⟩
    · rcases h1 with h | h
      · rw [h]; simp
      · exact List.mem_cons_of_mem _ h
    · intro y hy
      rcases List.mem_cons.1 hy with rfl | hy
      · exact h2
      · exact h3 y hy

theorem sectorStat_eq (xs : List ℚ) : sectorStat xs xs.length = statOf xs := by
  unfold sectorStat statOf
  by_cases h : xs.length > 0
  · simp only [if_pos h]
  · simp only [if_neg h]

/-- The statistics of a list of values. -/
theorem statOf_describes {ι : Type} [DecidableEq ι] (L : List ι) (hn : L.Nodup) (f : ι → ℚ) :
    Describes (statOf (L.map f)) L.toFinset f := by
  have hsum : ∑ i ∈ L.toFinset, f i = (L.map f).sum := List.sum_toFinset f hn
  have hcard : L.toFinset.card = L.length := List.toFinset_card_of_nodup hn
  cases hL : L with
  | nil => exact ⟨fun _ => rfl, by simp, by simp, by simp⟩
  | cons a L' =>
    rw [← hL]
    have hne : L.map f ≠ [] := by rw [hL]; simp
    have hpos : (L.map f).length > 0 := by rw [hL]; simp
    have hq : ((L.map f).length : ℚ) ≠ 0 := by
      have : (0 : ℚ) < (L.map f).length := by exact_mod_cast hpos
      exact ne_of_gt this
    unfold statOf
    rw [if_pos hpos]
    obtain ⟨m1, m2⟩ := maxOf_spec hne
    obtain ⟨n1, n2⟩ := minOf_spec hne
    refine ⟨fun h => ?_, ?_, fun _ => ⟨?_, fun i hi => ?_⟩, fun _ => ⟨?_, fun i hi => ?_⟩⟩
    · rw [hL] at h; simp at h
    · rw [hsum, hcard]
      dsimp only
      rw [List.length_map] at hq ⊢
      exact div_mul_cancel₀ _ hq
    · obtain ⟨i, hi, e⟩ := List.mem_map.1 m1
      exact ⟨i, List.mem_toFinset.2 hi, e⟩
    · exact m2 _ (List.mem_map.2 ⟨i, List.mem_toFinset.1 hi, rfl⟩)
    · obtain ⟨i, hi, e⟩ := List.mem_map.1 n1
      exact ⟨i, List.mem_toFinset.2 hi, e⟩
    · exact n2 _ (List.mem_map.2 ⟨i, List.mem_toFinset.1 hi, rfl⟩)

/-- The statistics of failures, of which only those are listed that matter. -/
theorem failStat_describes {ι : Type} [DecidableEq ι] (K : List ι) (hn : K.Nodup) (S : Finset ι)
    (hK : ∀ i ∈ K, i ∈ S) (f : ι → ℕ) (hpos : ∀ i ∈ K, 0 < f i) (h0 : ∀ i ∈ S, i ∉ K → f i = 0) :
    Describes (failStat (K.map fun i => (f i : ℚ)) S.card) S (fun i => (f i : ℚ)) := by
  have hsub : K.toFinset ⊆ S := fun i hi => hK i (List.mem_toFinset.1 hi)
  have hsum : ∑ i ∈ S, (f i : ℚ) = (K.map fun i => (f i : ℚ)).sum := by
    rw [← List.sum_toFinset _ hn]
    symm
    apply Finset.sum_subset hsub
    intro i hi hni
    rw [h0 i hi (fun c => hni (List.mem_toFinset.2 c))]
    rfl
  have hlen : K.length ≤ S.card := by
    rw [← List.toFinset_card_of_nodup hn]
    exact Finset.card_le_card hsub
  have hp : ∀ i ∈ S, i ∉ K → (f i : ℚ) = 0 := fun i hi hni => by rw [h0 i hi hni]; rfl
  have nn : ∀ i, (0 : ℚ) ≤ f i := fun i => Nat.cast_nonneg _
  refine ⟨fun h => ?_, ?_, fun hne => ?_, fun hne => ?_⟩
  · subst h
    have : K = [] := by
      cases K with
      | nil => rfl
      | cons a K => exact absurd (hK a (by simp)) (by simp)
    subst this
    rfl
  · unfold failStat
    dsimp only
    rw [hsum]
    by_cases c : S.card > 0
    · rw [if_pos c]
      have : (S.card : ℚ) ≠ 0 := by exact_mod_cast (ne_of_gt c)
      exact div_mul_cancel₀ _ this
    · rw [if_neg c, zero_mul, ← hsum]
      have : S = ∅ := Finset.card_eq_zero.1 (by omega)
      rw [this]
      rfl
  · unfold failStat
    dsimp only
    cases hKL : K with
    | nil =>
      subst hKL
      obtain ⟨i, hi⟩ := hne
      exact ⟨⟨i, hi, by simpa using hp i hi (by simp)⟩, fun j hj => by simpa using le_of_eq (hp j hj (by simp))⟩
    | cons a K' =>
      rw [← hKL]
      have hne' : (K.map fun i => (f i : ℚ)) ≠ [] := by rw [hKL]; simp
      rw [if_pos (by rw [hKL]; simp)]
      obtain ⟨m1, m2⟩ := maxOf_spec hne'
      obtain ⟨i, hi, e⟩ := List.mem_map.1 m1
      refine ⟨⟨i, hK i hi, e⟩, fun j hj => ?_⟩
      by_cases c : j ∈ K
      · exact m2 _ (List.mem_map.2 ⟨j, c, rfl⟩)
      · rw [hp j hj c, ← e]
        exact nn i
  · unfold failStat
    dsimp only
    rw [List.length_map]
    by_cases c : K.length = S.card
    · have hS : K.toFinset = S := Finset.eq_of_subset_of_card_le hsub (by
        rw [List.toFinset_card_of_nodup hn, c])
      have hpos' : K.length > 0 := by rw [c]; exact Finset.card_pos.2 hne
      rw [if_pos ⟨hpos', c⟩]
      have hne' : (K.map fun i => (f i : ℚ)) ≠ [] := by
        intro h; rw [List.map_eq_nil_iff] at h; rw [h] at hpos'; simp at hpos'
      obtain ⟨m1, m2⟩ := minOf_spec hne'
      obtain ⟨i, hi, e⟩ := List.mem_map.1 m1
      refine ⟨⟨i, hK i hi, e⟩, fun j hj => ?_⟩
      rw [← hS] at hj
      exact m2 _ (List.mem_map.2 ⟨j, List.mem_toFinset.1 hj, rfl⟩)
    · rw [if_neg (fun h => c h.2)]
      refine ⟨?_, fun j _ => nn j⟩
      by_contra hno
      apply c
      apply le_antisymm hlen
      rw [← List.toFinset_card_of_nodup hn]
      apply Finset.card_le_card
      intro i hi
      by_contra hni
      exact hno ⟨i, hi, hp i hi (fun h => hni (List.mem_toFinset.2 h))⟩

end Verif
