import Verif.Lemmas.Orient
import Verif.Spec.Orient
import Verif.Props.Angles
import Mathlib.Data.List.GetD
import Mathlib.Algebra.BigOperators.Group.List.Basic
import Mathlib.Tactic.FieldSimp

/-! # Bearings, sectors and the metric of the sector search -/

namespace Verif
open Spec

theorem delta_eq (a b : ℚ) : Search.delta a b = bearingGap a b := by
  unfold Search.delta bearingGap
  generalize |a - b| = x
  rcases le_total x 180 with h | h
  · rw [abs_of_nonneg (by linarith), min_eq_left (by linarith)]; ring
  · rw [abs_of_nonpos (by linarith), min_eq_right (by linarith)]; ring

theorem bearingGap_comm (a b : ℚ) : bearingGap a b = bearingGap b a := by
  unfold bearingGap; rw [abs_sub_comm]

/-- A bearing. -/
def IsBearing (a : ℚ) : Prop := 0 ≤ a ∧ a < 360

theorem bearingGap_nonneg {a b : ℚ} (ha : IsBearing a) (hb : IsBearing b) : 0 ≤ bearingGap a b := by
  obtain ⟨a0, a1⟩ := ha
  obtain ⟨b0, b1⟩ := hb
  unfold bearingGap
  have : |a - b| ≤ 360 := abs_le.2 ⟨by linarith, by linarith⟩
  exact le_min (abs_nonneg _) (by linarith)

theorem bearingGap_le (a b : ℚ) : bearingGap a b ≤ 180 := by
  unfold bearingGap
  rcases le_total |a - b| 180 with h | h
  · exact min_le_of_left_le h
  · exact min_le_of_right_le (by linarith)

theorem bearingGap_le_of_turn {a b y : ℚ} (ha : IsBearing a) (hb : IsBearing b) (k : ℤ)
    (h : a - b = y + 360 * k) : bearingGap a b ≤ |y| := by
  obtain ⟨a0, a1⟩ := ha
  obtain ⟨b0, b1⟩ := hb
  unfold bearingGap
  have hab : |a - b| < 360 := abs_lt.2 ⟨by linarith, by linarith⟩
  by_cases h0 : k = 0
  · subst h0
    apply min_le_of_left_le
    rw [h]; simp
  · rcases lt_or_gt_of_ne h0 with hk | hk
    · have : (k : ℚ) ≤ -1 := by exact_mod_cast Int.le_sub_one_of_lt hk
      rcases le_total (a - b) 0 with hs | hs
      · apply min_le_of_right_le
        rw [abs_of_nonpos hs]
        exact le_trans (by linarith) (le_abs_self y)
      · apply min_le_of_left_le
        rw [abs_of_nonneg hs]
        exact le_trans (by linarith) (le_abs_self y)
    · have : (1 : ℚ) ≤ k := by exact_mod_cast hk
      rcases le_total (a - b) 0 with hs | hs
      · apply min_le_of_left_le
        rw [abs_of_nonpos hs]
        exact le_trans (by linarith) (neg_le_abs y)
      · apply min_le_of_right_le
        rw [abs_of_nonneg hs]
        exact le_trans (by linarith) (neg_le_abs y)

/-- The gap is one of the two ways round. -/
theorem bearingGap_cases (a b : ℚ) : ∃ (y : ℚ) (k : ℤ), a - b = y + 360 * k ∧ bearingGap a b = |y| ∨
    bearingGap a b = 360 - |a - b| ∧ 360 - |a - b| < 0 := by
  unfold bearingGap
  rcases le_total |a - b| (360 - |a - b|) with h | h
  · exact ⟨a - b, 0, Or.inl ⟨by simp, min_eq_left h⟩⟩
  · rw [min_eq_right h]
    by_cases hn : 360 - |a - b| < 0
    · exact ⟨0, 0, Or.inr ⟨rfl, hn⟩⟩
    · rcases le_total 0 (a - b) with hs | hs
      · refine ⟨a - b - 360, 1, Or.inl ⟨by push_cast; ring, ?_⟩⟩
        rw [abs_of_nonneg hs] at hn ⊢
        rw [abs_of_nonpos (by linarith)]; ring
      · refine ⟨a - b + 360, -1, Or.inl ⟨by push_cast; ring, ?_⟩⟩
        rw [abs_of_nonpos hs] at hn ⊢
        rw [abs_of_nonneg (by linarith)]; ring

theorem bearingGap_triangle {a b c : ℚ} (ha : IsBearing a) (hb : IsBearing b) (hc : IsBearing c) :
    bearingGap a c ≤ bearingGap a b + bearingGap b c := by
  have n1 := bearingGap_nonneg ha hb
  have n2 := bearingGap_nonneg hb hc
  obtain ⟨y, k, ⟨e, g⟩ | ⟨e, g⟩⟩ := bearingGap_cases a b
  · obtain ⟨y', k', ⟨e', g'⟩ | ⟨e', g'⟩⟩ := bearingGap_cases b c
    · rw [g, g']
      refine le_trans (bearingGap_le_of_turn ha hc (y := y + y') (k + k') ?_) (abs_add_le _ _)
      push_cast
      linarith
    · linarith
  · linarith

theorem isBearing_mod360 (x : ℚ) : IsBearing (mod360 x) := mod360_range x

theorem mod360_eq (x : ℚ) : ∃ k : ℤ, mod360 x = x + 360 * k :=
  ⟨-⌊x / 360⌋, by unfold mod360; push_cast; ring⟩

/-- Two angles that are at least `d` apart both ways round. -/
theorem le_bearingGap_mod {x y d : ℚ} (h1 : d ≤ y - x) (h2 : d ≤ 360 - (y - x)) (hd : 0 < d) :
    d ≤ bearingGap (mod360 x) (mod360 y) := by
  obtain ⟨k, hk⟩ := mod360_eq x
  obtain ⟨m, hm⟩ := mod360_eq y
  have rx := mod360_range x
  have ry := mod360_range y
  have e : mod360 x - mod360 y = -(y - x) + 360 * ((k - m : ℤ) : ℚ) := by push_cast; linarith
  unfold bearingGap
  have b1 : mod360 x - mod360 y < 360 := by linarith
  have b2 : -360 < mod360 x - mod360 y := by linarith
  rw [e] at b1 b2 ⊢
  generalize k - m = n at *
  have n1 : (n : ℚ) < 2 := by linarith
  have n2 : (-1 : ℚ) < n := by linarith
  have n1' : n < 2 := by exact_mod_cast n1
  have n2' : -1 < n := by exact_mod_cast n2
  have : n = 0 ∨ n = 1 := by omega
  rcases this with rfl | rfl
  · simp only [Int.cast_zero, mul_zero, add_zero, abs_neg]
    rw [abs_of_nonneg (by linarith)]
    exact le_min h1 h2
  · simp only [Int.cast_one, mul_one]
    rw [abs_of_nonneg (by linarith)]
    exact le_min (by linarith) (by linarith)

/-! ## The sectors of a node -/

theorem nodeAzimuths_eq (c scan : ℚ) (n : ℕ) (hs : 0 < scan) :
    nodeAzimuths c n scan = .ok (nodeSectors c scan n) := by
  unfold nodeAzimuths nodeSectors
  by_cases h0 : n = 0
  · subst h0; simp
  · rw [if_neg h0]
    have half : (if n % 2 = 0 then (n : ℚ) / 2 - 1 / 2 else ((n / 2 : ℕ) : ℚ)) = ((n : ℚ) - 1) / 2 := by
      split
      · ring
      · have : n = 2 * (n / 2) + 1 := by omega
        have h2 : (n : ℚ) = 2 * ((n / 2 : ℕ) : ℚ) + 1 := by exact_mod_cast this
        linarith
    rw [half]
    dsimp only
    have hlen : ⌈(c + scan * (((n : ℚ) - 1) / 2) + scan / 2 - (c - scan * (((n : ℚ) - 1) / 2))) / scan⌉.toNat = n := by
      have e : (c + scan * (((n : ℚ) - 1) / 2) + scan / 2 - (c - scan * (((n : ℚ) - 1) / 2))) / scan
          = (n : ℚ) - 1 / 2 := by
        field_simp
        ring
      rw [e]
      have : ⌈(n : ℚ) - 1 / 2⌉ = (n : ℤ) := by
        rw [Int.ceil_eq_iff]
        push_cast
        constructor <;> linarith
      rw [this]; simp
    have hr : (arange (c - scan * (((n : ℚ) - 1) / 2))
        (c + scan * (((n : ℚ) - 1) / 2) + scan / 2) scan).map mod360 =
        (List.range n).map (sectorAt c scan n) := by
      unfold arange
      rw [hlen, List.map_map]
      apply List.map_congr_left
      intro i _
      simp only [Function.comp, sectorAt]
      congr 1
      ring
    rw [hr, if_pos (by simp)]

theorem isBearing_sector {c scan : ℚ} {n : ℕ} {az : ℚ} (h : az ∈ nodeSectors c scan n) : IsBearing az := by
  unfold nodeSectors at h
  obtain ⟨i, _, rfl⟩ := List.mem_map.1 h
  exact isBearing_mod360 _

/-- Sectors of two nodes that do not overlap. -/
theorem sectors_apart {c c' scan : ℚ} {n : ℕ} (hs : 0 < scan) (h1 : scan * n ≤ c' - c)
    (h2 : scan * n ≤ 360 - (c' - c)) {a b : ℚ} (ha : a ∈ nodeSectors c scan n)
    (hb : b ∈ nodeSectors c' scan n) : scan ≤ bearingGap a b := by
  unfold nodeSectors at ha hb
  obtain ⟨i, hi, rfl⟩ := List.mem_map.1 ha
  obtain ⟨j, hj, rfl⟩ := List.mem_map.1 hb
  rw [List.mem_range] at hi hj
  have hi' : (i : ℚ) + 1 ≤ n := by exact_mod_cast hi
  have hj' : (j : ℚ) + 1 ≤ n := by exact_mod_cast hj
  have i0 : (0 : ℚ) ≤ i := Nat.cast_nonneg _
  have j0 : (0 : ℚ) ≤ j := Nat.cast_nonneg _
  apply le_bearingGap_mod _ _ hs
  · nlinarith
  · nlinarith

/-- Sectors of one node. -/
theorem sectors_apart_same {c scan : ℚ} {n : ℕ} (hs : 0 < scan) (h : scan * n ≤ 360) :
    (nodeSectors c scan n).Pairwise (fun a b => scan ≤ bearingGap a b) := by
  unfold nodeSectors
  rw [List.pairwise_map]
  refine List.Pairwise.imp_of_mem ?_ List.pairwise_lt_range
  intro i j hi hj hij
  rw [List.mem_range] at hi hj
  have hij' : (i : ℚ) + 1 ≤ j := by exact_mod_cast hij
  have hj' : (j : ℚ) + 1 ≤ n := by exact_mod_cast hj
  have i0 : (0 : ℚ) ≤ i := Nat.cast_nonneg _
  apply le_bearingGap_mod _ _ hs
  · nlinarith
  · nlinarith

/-- All sectors of nodes that do not overlap. -/
theorem all_apart {scan : ℚ} {n : ℕ} (hs : 0 < scan) (h : scan * n ≤ 360) {s : List ℚ}
    (hg : s.Pairwise (fun a b => scan * n ≤ b - a ∧ scan * n ≤ 360 - (b - a))) :
    (s.flatMap (fun c => nodeSectors c scan n)).Pairwise (fun a b => scan ≤ bearingGap a b) := by
  rw [List.flatMap_def, List.pairwise_flatten]
  refine ⟨?_, ?_⟩
  · intro l hl
    obtain ⟨c, _, rfl⟩ := List.mem_map.1 hl
    exact sectors_apart_same hs h
  · rw [List.pairwise_map]
    refine hg.imp ?_
    intro a b hab x hx y hy
    exact sectors_apart hs hab.1 hab.2 hx hy

/-- A link that a sector of a node sees lies within the node. -/
theorem node_sees {c scan l : ℚ} {n : ℕ} (hs : 0 < scan) (hc : IsBearing c) (hl : IsBearing l) {az : ℚ}
    (ha : az ∈ nodeSectors c scan n) (h : bearingGap az l < scan / 2) : bearingGap c l < scan * n / 2 := by
  have hb := isBearing_sector ha
  unfold nodeSectors at ha
  obtain ⟨i, hi, rfl⟩ := List.mem_map.1 ha
  rw [List.mem_range] at hi
  have hi' : (i : ℚ) + 1 ≤ n := by exact_mod_cast hi
  have i0 : (0 : ℚ) ≤ i := Nat.cast_nonneg _
  have ht := bearingGap_triangle hc hb hl
  have hg : bearingGap c (sectorAt c scan n i) ≤ scan * (((n : ℚ) - 1) / 2) := by
    rw [bearingGap_comm]
    unfold sectorAt at hb ⊢
    obtain ⟨k, hk⟩ := mod360_eq (c + scan * ((i : ℚ) - ((n : ℚ) - 1) / 2))
    refine le_trans (bearingGap_le_of_turn hb hc (y := scan * ((i : ℚ) - ((n : ℚ) - 1) / 2)) k
      (by rw [hk]; ring)) ?_
    rw [abs_mul, abs_of_pos hs]
    apply mul_le_mul_of_nonneg_left _ (le_of_lt hs)
    exact abs_le.2 ⟨by linarith, by linarith⟩
  nlinarith

end Verif
