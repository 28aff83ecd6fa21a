import Verif.Props.Create3
import Mathlib.Algebra.Order.BigOperators.Group.List

/-! # C126: the orientation of client sites -/

namespace Verif
open Spec Verif.Topology

theorem argminFrom_spec : ∀ (xs : List ℚ) (i : ℕ) (best : ℚ) (place : ℕ) (f : ℕ → ℚ),
    f place = best → (∀ j (h : j < xs.length), f (i + j) = xs[j]) →
    f (argminFrom xs i best place) ≤ best ∧ (∀ j (_ : j < xs.length), f (argminFrom xs i best place) ≤ f (i + j)) ∧
      (argminFrom xs i best place = place ∨
        (i ≤ argminFrom xs i best place ∧ argminFrom xs i best place < i + xs.length)) := by
  intro xs
  induction xs with
  | nil => intro i best place f h _; simp [argminFrom, h]
  | cons x xs ih =>
    intro i best place f h hf
    have h0 : f i = x := hf 0 (by simp)
    have hf' : ∀ j (h : j < xs.length), f (i + 1 + j) = xs[j] := by
      intro j hj
      have := hf (j + 1) (by simpa using hj)
      rw [List.getElem_cons_succ] at this
      rw [← this]
      congr 1
      omega
    unfold argminFrom
    split
    · next hlt =>
      obtain ⟨g1, g2, g3⟩ := ih (i + 1) x i f h0 hf'
      refine ⟨le_trans g1 (le_of_lt hlt), ?_, ?_⟩
      · intro j hj
        cases j with
        | zero => show _ ≤ f i; rw [h0]; exact g1
        | succ j =>
          have := g2 j (by simpa using hj)
          rwa [show i + (j + 1) = i + 1 + j by omega]
      · right
        simp only [List.length_cons]
        rcases g3 with g3 | g3 <;> omega
    · next hlt =>
      obtain ⟨g1, g2, g3⟩ := ih (i + 1) best place f h hf'
      refine ⟨g1, ?_, ?_⟩
      · intro j hj
        cases j with
        | zero => show _ ≤ f i; rw [h0]; exact le_trans g1 (not_lt.1 hlt)
        | succ j =>
          have := g2 j (by simpa using hj)
          rwa [show i + (j + 1) = i + 1 + j by omega]
      · simp only [List.length_cons]
        rcases g3 with g3 | g3
        · exact Or.inl g3
        · right; omega

/-- The metric of the search for one node. -/
def oneNodeCost (w : ℚ) (angles : List ℚ) (c : ℚ) : ℚ :=
  (angles.map (fun a => (if |a - c| > w / 2 then 360 else a - c) ^ 2)).sum

/-- The search for one node takes the best of the 120 bearings. -/
theorem equidistant_one {r : Radio} (hn : r.nodes = 1) (hs : 0 < r.scan) (hp : 0 < r.perNode)
    (hw : r.scan * r.perNode ≤ 360) {angles : List ℚ} (ha : angles ≠ []) :
    ∃ k : ℕ, k < 120 ∧ equidistant r angles = .ok [nodeSectors (3 * k) r.scan r.perNode] ∧
      ∀ j : ℕ, j < 120 → oneNodeCost (r.scan * r.perNode) angles (3 * k) ≤
        oneNodeCost (r.scan * r.perNode) angles (3 * j) := by
  have hp' : (0 : ℚ) < r.perNode := by exact_mod_cast hp
  have w0 : 0 < r.scan * r.perNode := mul_pos hs hp'
  have h1 : min ⌊360 / (r.scan * r.perNode)⌋.toNat r.nodes = 1 := by
    rw [hn]
    apply min_eq_right
    have : (1 : ℤ) ≤ ⌊360 / (r.scan * r.perNode)⌋ := by
      rw [Int.le_floor]
      push_cast
      rw [le_div_iff₀ w0]
      linarith
    omega
  have hst : (roundHalfEven ((360 / ((1 : ℕ) : ℚ)) / ((Search.precision : ℕ) : ℚ))).toNat = 120 := by decide +kernel
  have hrot : ∀ i : ℕ, (i : ℚ) * (360 / ((1 : ℕ) : ℚ)) / ((120 : ℕ) : ℚ) = 3 * i := by
    intro i; push_cast; ring
  have hmet : ∀ c : ℚ, (angles.map (fun a =>
      (if |a - (((roundHalfEven ((a - c) / (360 / ((1 : ℕ) : ℚ))) % ((1 : ℕ) : ℤ) : ℤ) : ℚ)) * (360 / ((1 : ℕ) : ℚ)) - c|
          > r.scan * r.perNode / 2 then 360
        else a - (((roundHalfEven ((a - c) / (360 / ((1 : ℕ) : ℚ))) % ((1 : ℕ) : ℤ) : ℤ) : ℚ)) * (360 / ((1 : ℕ) : ℚ)) - c) ^ 2)).sum
      = oneNodeCost (r.scan * r.perNode) angles c := by
    intro c
    unfold oneNodeCost
    congr 1
    apply List.map_congr_left
    intro a _
    have : (roundHalfEven ((a - c) / (360 / ((1 : ℕ) : ℚ))) % ((1 : ℕ) : ℤ) : ℤ) = 0 := by simp
    rw [this]
    simp
  have key : equidistant r angles =
      (match ((List.range 120).map (fun i : ℕ => oneNodeCost (r.scan * r.perNode) angles (3 * i))) with
        | [] => .error .valueError
        | m :: ms => (List.range 1).mapM (fun i : ℕ => nodeAzimuths
            (((List.range 120).map (fun i : ℕ => 3 * (i : ℚ))).getD (argminFrom ms 1 m 0) 0 + (i : ℚ) * (360 / ((1 : ℕ) : ℚ)))
            r.perNode r.scan)) := by
    unfold equidistant
    dsimp only
    rw [if_neg (ne_of_gt w0), h1, if_neg (by decide), if_neg ha, hst]
    simp only [hrot, List.map_map, Function.comp_def, hmet]
    rfl
  rw [key]
  obtain ⟨ms, hms⟩ : ∃ ms, (List.range 120).map (fun i : ℕ => oneNodeCost (r.scan * r.perNode) angles (3 * i)) =
      oneNodeCost (r.scan * r.perNode) angles (3 * ((0 : ℕ) : ℚ)) :: ms := by
    rw [List.range_succ_eq_map]
    exact ⟨_, rfl⟩
  have hlen : ms.length = 119 := by
    have := congrArg List.length hms
    simp only [List.length_map, List.length_range, List.length_cons] at this
    omega
  have hget : ∀ j (h : j < ms.length), oneNodeCost (r.scan * r.perNode) angles (3 * ((1 + j : ℕ) : ℚ)) = ms[j] := by
    intro j hj
    have e : ((List.range 120).map (fun i : ℕ => oneNodeCost (r.scan * r.perNode) angles (3 * i)))[j + 1]? =
        (oneNodeCost (r.scan * r.perNode) angles (3 * ((0 : ℕ) : ℚ)) :: ms)[j + 1]? := by rw [hms]
    rw [List.getElem?_cons_succ, List.getElem?_eq_getElem hj, List.getElem?_map,
      List.getElem?_range (by omega)] at e
    simp only [Option.map_some, Option.some.injEq] at e
    rw [← e, add_comm]
  obtain ⟨g1, g2, g3⟩ := argminFrom_spec ms 1 _ 0
    (fun i : ℕ => oneNodeCost (r.scan * r.perNode) angles (3 * (i : ℚ))) rfl hget
  rw [hms]
  dsimp only
  generalize argminFrom ms 1 (oneNodeCost (r.scan * r.perNode) angles (3 * ((0 : ℕ) : ℚ))) 0 = b at *
  have hb : b < 120 := by omega
  refine ⟨b, hb, ?_, ?_⟩
  · rw [mapM_nodes r.scan r.perNode hs, List.getD_eq_getElem _ _ (by simpa using hb), List.getElem_map,
      List.getElem_range]
    simp
  · intro j hj
    cases j with
    | zero => exact g1
    | succ j =>
      have := g2 j (by omega)
      rwa [add_comm] at this

/-- A link within the width of a node is within the width of one of its sectors. -/
theorem node_covers {c scan l : ℚ} {n : ℕ} (hs : 0 < scan) (hn : 0 < n) (hc : IsBearing c) (hl : IsBearing l)
    (h : bearingGap c l ≤ scan * n / 2) : ∃ az ∈ nodeSectors c scan n, bearingGap az l ≤ scan / 2 := by
  obtain ⟨y, k, ⟨e, g⟩ | ⟨e, g⟩⟩ := bearingGap_cases l c
  · rw [bearingGap_comm, g] at h
    obtain ⟨y1, y2⟩ := abs_le.1 h
    have nn : (1 : ℚ) ≤ n := by exact_mod_cast hn
    -- the sector
    have hi : ∃ i : ℕ, i < n ∧ |y - scan * ((i : ℚ) - ((n : ℚ) - 1) / 2)| ≤ scan / 2 := by
      by_cases hy : y = scan * n / 2
      · refine ⟨n - 1, by omega, ?_⟩
        rw [Nat.cast_sub (by omega), hy, Nat.cast_one]
        rw [show scan * (n : ℚ) / 2 - scan * ((n : ℚ) - 1 - ((n : ℚ) - 1) / 2) = scan / 2 by ring, abs_of_pos (by linarith)]
      · have hlt : y < scan * n / 2 := lt_of_le_of_ne y2 hy
        have f0 : 0 ≤ ⌊(y + scan * n / 2) / scan⌋ := Int.floor_nonneg.2 (div_nonneg (by linarith) (le_of_lt hs))
        obtain ⟨i, hi⟩ := Int.eq_ofNat_of_zero_le f0
        have h1 := Int.floor_le ((y + scan * n / 2) / scan)
        have h2 := Int.lt_floor_add_one ((y + scan * n / 2) / scan)
        rw [hi] at h1 h2
        rw [le_div_iff₀ hs] at h1
        rw [div_lt_iff₀ hs] at h2
        have h1' : (i : ℚ) * scan ≤ y + scan * n / 2 := by exact_mod_cast h1
        have h2' : y + scan * n / 2 < ((i : ℚ) + 1) * scan := by exact_mod_cast h2
        refine ⟨i, ?_, ?_⟩
        · have : (i : ℚ) * scan < n * scan := by linarith
          have := lt_of_mul_lt_mul_right this (le_of_lt hs)
          exact_mod_cast this
        · rw [abs_le]
          constructor <;> linarith
    obtain ⟨i, hi, hb⟩ := hi
    refine ⟨sectorAt c scan n i, List.mem_map.2 ⟨i, List.mem_range.2 hi, rfl⟩, ?_⟩
    rw [bearingGap_comm]
    obtain ⟨m, hm⟩ := mod360_eq (c + scan * ((i : ℚ) - ((n : ℚ) - 1) / 2))
    unfold sectorAt
    refine le_trans (bearingGap_le_of_turn hl (isBearing_mod360 _)
      (y := y - scan * ((i : ℚ) - ((n : ℚ) - 1) / 2)) (k - m) ?_) hb
    rw [hm]
    push_cast
    linarith
  · have := bearingGap_nonneg hl hc
    linarith

/-- C126 for one neighbour: the radio of a client site with a single neighbour
points to it, up to three degrees. -/
theorem C126_one (r : Radio) (hn : r.nodes = 1) (hs : 0 < r.scan) (hp : 0 < r.perNode)
    (hw : r.scan * r.perNode ≤ 360) (h6 : 6 ≤ r.scan * r.perNode) (a : ℚ) (ha : 0 ≤ a ∧ a < 360) :
    ∃ c, equidistant r [a] = .ok [nodeSectors c r.scan r.perNode] ∧ 0 ≤ c ∧ c < 360 ∧ bearingGap c a < 3 := by
  obtain ⟨k, hk, e, hmin⟩ := equidistant_one hn hs hp hw (angles := [a]) (by simp)
  have hk' : (k : ℚ) < 120 := by exact_mod_cast hk
  have k0 : (0 : ℚ) ≤ k := Nat.cast_nonneg _
  refine ⟨3 * k, e, by linarith, by linarith, ?_⟩
  -- the multiple of three below
  have f0 : 0 ≤ ⌊a / 3⌋ := Int.floor_nonneg.2 (by linarith [ha.1])
  obtain ⟨j, hj⟩ := Int.eq_ofNat_of_zero_le f0
  have h1 := Int.floor_le (a / 3)
  have h2 := Int.lt_floor_add_one (a / 3)
  rw [hj] at h1 h2
  have h1' : (j : ℚ) ≤ a / 3 := by exact_mod_cast h1
  have h2' : a / 3 < (j : ℚ) + 1 := by exact_mod_cast h2
  have hj' : j < 120 := by
    have : (j : ℚ) < 120 := by linarith [ha.2]
    exact_mod_cast this
  have hm := hmin j hj'
  unfold oneNodeCost at hm
  simp only [List.map_cons, List.map_nil, List.sum_cons, List.sum_nil, add_zero] at hm
  rw [if_neg (c := |a - 3 * (j : ℚ)| > r.scan * r.perNode / 2) (by
    rw [not_lt, abs_of_nonneg (by linarith)]; linarith)] at hm
  have hlt : (a - 3 * (j : ℚ)) ^ 2 < 9 := by nlinarith
  have hlt' : |a - 3 * (k : ℚ)| < 3 := by
    split at hm
    · linarith
    · exact abs_lt_of_sq_lt_sq (by linarith) (by norm_num)
  rw [bearingGap_comm]
  exact lt_of_le_of_lt (min_le_left _ _) hlt'

/-- C126 for several neighbours: the radio of a client site sees all its links
if it can. Shown when there is a bearing, a multiple of three degrees, from which
all links are within half the width of the radio without crossing north, and the
links are few for the width of the radio (62 at 90 degrees, 15 at 180). Missing:
links on both sides of north (`C126_all_violation`), other bearings and more
links. -/
theorem C126_all_partial (r : Radio) (hn : r.nodes = 1) (hs : 0 < r.scan) (hp : 0 < r.perNode)
    (hw : r.scan * r.perNode ≤ 360) (angles : List ℚ) (hne : angles ≠ [])
    (ha : ∀ a ∈ angles, 0 ≤ a ∧ a < 360)
    (hfew : angles.length * (r.scan * r.perNode / 2) ^ 2 < 360 ^ 2)
    (hex : ∃ j : ℕ, j < 120 ∧ ∀ a ∈ angles, |a - 3 * j| ≤ r.scan * r.perNode / 2) :
    ∃ node, equidistant r angles = .ok [node] ∧ ∀ a ∈ angles, ∃ az ∈ node, bearingGap az a ≤ r.scan / 2 := by
  obtain ⟨k, hk, e, hmin⟩ := equidistant_one hn hs hp hw hne
  refine ⟨_, e, ?_⟩
  have hk' : (k : ℚ) < 120 := by exact_mod_cast hk
  have k0 : (0 : ℚ) ≤ k := Nat.cast_nonneg _
  obtain ⟨j, hj, hall⟩ := hex
  have hup : oneNodeCost (r.scan * r.perNode) angles (3 * j) ≤ angles.length * (r.scan * r.perNode / 2) ^ 2 := by
    unfold oneNodeCost
    have : ∀ x ∈ angles.map (fun a => (if |a - 3 * (j : ℚ)| > r.scan * r.perNode / 2 then 360 else a - 3 * (j : ℚ)) ^ 2),
        x ≤ (r.scan * r.perNode / 2) ^ 2 := by
      intro x hx
      obtain ⟨a, haa, rfl⟩ := List.mem_map.1 hx
      have hb := hall a haa
      rw [if_neg (not_lt.2 hb)]
      exact sq_le_sq' (by linarith [(abs_le.1 hb).1]) (abs_le.1 hb).2
    have h2 := List.sum_le_card_nsmul _ _ this
    rw [List.length_map, nsmul_eq_mul] at h2
    exact h2
  intro a haa
  apply node_covers hs hp ⟨by linarith, by linarith⟩ (ha a haa)
  rw [bearingGap_comm]
  refine le_trans (min_le_left _ _) ?_
  by_contra hcon
  have hlow : (360 : ℚ) ^ 2 ≤ oneNodeCost (r.scan * r.perNode) angles (3 * k) := by
    unfold oneNodeCost
    have hmem : (360 : ℚ) ^ 2 ∈ angles.map (fun a => (if |a - 3 * (k : ℚ)| > r.scan * r.perNode / 2 then 360 else a - 3 * (k : ℚ)) ^ 2) := by
      refine List.mem_map.2 ⟨a, haa, ?_⟩
      rw [if_pos (not_le.1 hcon)]
    refine List.single_le_sum ?_ _ hmem
    intro x hx
    obtain ⟨b, _, rfl⟩ := List.mem_map.1 hx
    exact sq_nonneg _
  have := hmin j hj
  linarith

/-- Two links, at 100 and at 160 degrees, and a radio of 70 degrees. -/
example : ∃ node, equidistant { nodes := 1, perNode := 1, scan := 70 } [100, 160] = .ok [node] ∧
    ∀ a ∈ ([100, 160] : List ℚ), ∃ az ∈ node, bearingGap az a ≤ 70 / 2 :=
  C126_all_partial { nodes := 1, perNode := 1, scan := 70 } rfl (by norm_num) (by norm_num) (by norm_num) _ (by simp)
    (by decide +kernel) (by norm_num) ⟨43, by norm_num, by decide +kernel⟩

/-- C126 fails: links at 330 and 25 degrees, and a radio of 70 degrees. Pointed
to 357 degrees it sees both, but the search takes 330, which sees one of them. -/
theorem C126_all_violation :
    (∀ a ∈ ([330, 25] : List ℚ), bearingGap 357 a < 70 / 2) ∧
    ∃ c, equidistant { nodes := 1, perNode := 1, scan := 70 } [330, 25] = .ok [[c]] ∧
      bearingGap c 25 > 70 / 2 := by
  refine ⟨by decide +kernel, 330, ?_, by decide +kernel⟩
  have h : (match equidistant { nodes := 1, perNode := 1, scan := 70 } [330, 25] with
    | .ok o => some o | .error _ => none) = some [[330]] := by decide +kernel
  generalize equidistant { nodes := 1, perNode := 1, scan := 70 } [330, 25] = x at *
  cases x with
  | ok o => simp only [Option.some.injEq] at h; rw [h]
  | error e => cases h

end Verif
