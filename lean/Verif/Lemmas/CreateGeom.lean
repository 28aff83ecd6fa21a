import Verif.Lemmas.Create

/-! # The sectors of a node pass the check -/

namespace Verif
open Spec

theorem sectorAt_before {c scan : ℚ} {n i : ℕ} (hc : IsBearing c) (hs : 0 < scan) (hw : scan * n < 360)
    (hn : 0 < n) (hi : 2 * i + 1 ≤ n) :
    (sectorAt c scan n i ≤ c ∧ sectorAt c scan n i > c - 180) ∨ sectorAt c scan n i > c + 180 := by
  obtain ⟨c0, c1⟩ := hc
  have hi' : 2 * (i : ℚ) + 1 ≤ n := by exact_mod_cast hi
  have i0 : (0 : ℚ) ≤ i := Nat.cast_nonneg _
  have o1 : scan * ((i : ℚ) - ((n : ℚ) - 1) / 2) ≤ 0 := mul_nonpos_of_nonneg_of_nonpos (le_of_lt hs) (by linarith)
  have o2 : -180 < scan * ((i : ℚ) - ((n : ℚ) - 1) / 2) := by nlinarith
  unfold sectorAt
  generalize scan * ((i : ℚ) - ((n : ℚ) - 1) / 2) = o at *
  by_cases h : 0 ≤ c + o
  · rw [mod360_unique (c + o) (c + o) 0 (by simp) h (by linarith)]
    exact Or.inl ⟨by linarith, by linarith⟩
  · rw [mod360_unique (c + o) (c + o + 360) (-1) (by push_cast; ring) (by linarith) (by linarith)]
    exact Or.inr (by linarith)

theorem sectorAt_after {c scan : ℚ} {n i : ℕ} (hc : IsBearing c) (hs : 0 < scan) (hw : scan * n < 360)
    (hi : n < 2 * i + 1) (hin : i < n) :
    ¬ ((sectorAt c scan n i ≤ c ∧ sectorAt c scan n i > c - 180) ∨ sectorAt c scan n i > c + 180) := by
  obtain ⟨c0, c1⟩ := hc
  have hi' : (n : ℚ) + 1 ≤ 2 * (i : ℚ) + 1 := by exact_mod_cast hi
  have hin' : (i : ℚ) + 1 ≤ n := by exact_mod_cast hin
  have o1 : 0 < scan * ((i : ℚ) - ((n : ℚ) - 1) / 2) := mul_pos hs (by linarith)
  have o2 : scan * ((i : ℚ) - ((n : ℚ) - 1) / 2) < 180 := by nlinarith
  unfold sectorAt
  generalize scan * ((i : ℚ) - ((n : ℚ) - 1) / 2) = o at *
  by_cases h : c + o < 360
  · rw [mod360_unique (c + o) (c + o) 0 (by simp) (by linarith) h]
    rintro (⟨h1, h2⟩ | h1) <;> linarith
  · rw [mod360_unique (c + o) (c + o - 360) 1 (by push_cast; ring) (by linarith) (by linarith)]
    rintro (⟨h1, h2⟩ | h1) <;> linarith

/-- The order of the check is the order of the sectors. -/
theorem node_around {c scan : ℚ} {n : ℕ} (hc : IsBearing c) (hs : 0 < scan) (hw : scan * n < 360)
    (hn : 0 < n) (ho : n ≤ 2 ∨ (nodeSectors c scan n).Pairwise (· < ·)) :
    aroundMean c (nodeSectors c scan n) = nodeSectors c scan n := by
  have e := List.take_append_drop ((n + 1) / 2) (nodeSectors c scan n)
  have s : ((nodeSectors c scan n).take ((n + 1) / 2)).Pairwise (· ≤ ·) ∧
      ((nodeSectors c scan n).drop ((n + 1) / 2)).Pairwise (· ≤ ·) := by
    rcases ho with ho | ho
    · have : n = 1 ∨ n = 2 := by omega
      rcases this with rfl | rfl <;> simp [nodeSectors, List.range_succ]
    · have ho' : (nodeSectors c scan n).Pairwise (· ≤ ·) := ho.imp le_of_lt
      exact ⟨ho'.sublist (List.take_sublist _ _), ho'.sublist (List.drop_sublist _ _)⟩
  have h1 : ∀ a ∈ (nodeSectors c scan n).take ((n + 1) / 2), (a ≤ c ∧ a > c - 180) ∨ a > c + 180 := by
    intro a ha
    obtain ⟨i, hi, rfl⟩ := List.mem_take_iff_getElem.1 ha
    simp only [nodeSectors, List.length_map, List.length_range] at hi
    simp only [nodeSectors, List.getElem_map, List.getElem_range]
    exact sectorAt_before hc hs hw hn (by omega)
  have h2 : ∀ a ∈ (nodeSectors c scan n).drop ((n + 1) / 2), ¬ ((a ≤ c ∧ a > c - 180) ∨ a > c + 180) := by
    intro a ha
    obtain ⟨i, hi, rfl⟩ := List.mem_drop_iff_getElem.1 ha
    simp only [nodeSectors, List.length_map, List.length_range] at hi
    simp only [nodeSectors, List.getElem_map, List.getElem_range]
    exact sectorAt_after hc hs hw (by omega) (by omega)
  have := aroundMean_id c _ _ h1 h2 s.1 s.2
  rwa [e] at this

theorem gap_next {c scan : ℚ} {n i : ℕ} (hs : 0 < scan) (hw : scan ≤ 180) :
    bearingGap (sectorAt c scan n i) (sectorAt c scan n (i + 1)) = scan := by
  apply le_antisymm
  · unfold sectorAt
    obtain ⟨k, hk⟩ := mod360_eq (c + scan * ((i : ℚ) - ((n : ℚ) - 1) / 2))
    obtain ⟨m, hm⟩ := mod360_eq (c + scan * (((i + 1 : ℕ) : ℚ) - ((n : ℚ) - 1) / 2))
    refine le_trans (bearingGap_le_of_turn (isBearing_mod360 _) (isBearing_mod360 _) (y := -scan) (k - m) ?_) ?_
    · rw [hk, hm]; push_cast; ring
    · rw [abs_neg, abs_of_pos hs]
  · unfold sectorAt
    apply le_bearingGap_mod _ _ hs
    · push_cast; linarith
    · push_cast; linarith

theorem node_even {c scan : ℚ} {n : ℕ} (hs : 0 < scan) (hw : scan ≤ 180) :
    evenlySpaced scan (nodeSectors c scan n) = true := by
  have gen : ∀ m i, evenlySpaced scan ((List.range' i m).map (sectorAt c scan n)) = true := by
    intro m
    induction m with
    | zero => intro i; rfl
    | succ m ih =>
      intro i
      rw [List.range'_succ]
      cases m with
      | zero => rfl
      | succ m =>
        have h2 := ih (i + 1)
        rw [List.range'_succ] at h2 ⊢
        simp only [List.map_cons, evenlySpaced, Bool.and_eq_true, decide_eq_true_eq] at h2 ⊢
        refine ⟨?_, h2⟩
        have b : ∀ j, IsBearing (sectorAt c scan n j) := fun j => isBearing_mod360 _
        rw [abs_angleDelta (b _) (b _), gap_next hs hw]
        unfold angleTol
        norm_num
  have := gen n 0
  rwa [← List.range_eq_range'] at this

/-- A bearing a sector's width away from all sectors of a node is not between them. -/
theorem node_outside {c scan b : ℚ} {n : ℕ} (hs : 0 < scan) (hw : scan * n < 360) (hn : 0 < n)
    (hb : IsBearing b) (h : ∀ a ∈ nodeSectors c scan n, scan ≤ bearingGap b a) :
    insideInterval b (sectorAt c scan n 0) (sectorAt c scan n (n - 1)) = false := by
  by_contra hcon
  rw [Bool.not_eq_false] at hcon
  obtain ⟨k, hk⟩ := mod360_eq (c + scan * (((0 : ℕ) : ℚ) - ((n : ℚ) - 1) / 2))
  obtain ⟨m, hm⟩ := mod360_eq (c + scan * (((n - 1 : ℕ) : ℚ) - ((n : ℚ) - 1) / 2))
  have rk := isBearing_mod360 (c + scan * (((0 : ℕ) : ℚ) - ((n : ℚ) - 1) / 2))
  have rm := isBearing_mod360 (c + scan * (((n - 1 : ℕ) : ℚ) - ((n : ℚ) - 1) / 2))
  have hn1 : ((n - 1 : ℕ) : ℚ) = n - 1 := by
    rw [Nat.cast_sub (by omega)]; simp
  have nn : (1 : ℚ) ≤ n := by exact_mod_cast hn
  -- b is x after the first sector
  have hx : ∃ (x : ℚ) (j : ℤ), 0 ≤ x ∧ x ≤ scan * (n - 1) ∧ b = sectorAt c scan n 0 + x + 360 * j := by
    have e : sectorAt c scan n (n - 1) = sectorAt c scan n 0 + scan * (n - 1) + 360 * ((m - k : ℤ) : ℚ) := by
      unfold sectorAt
      rw [hk, hm, hn1]; push_cast; ring
    have b0 : IsBearing (sectorAt c scan n 0) := rk
    have b1 : IsBearing (sectorAt c scan n (n - 1)) := rm
    have sn : 0 ≤ scan * ((n : ℚ) - 1) := mul_nonneg (le_of_lt hs) (by linarith)
    have sn' : scan * ((n : ℚ) - 1) < 360 := by nlinarith
    generalize sectorAt c scan n 0 = f at *
    generalize sectorAt c scan n (n - 1) = l at *
    generalize m - k = d at e
    obtain ⟨f0, f1⟩ := b0
    obtain ⟨l0, l1⟩ := b1
    obtain ⟨bb0, bb1⟩ := hb
    have d1 : (d : ℚ) < 1 := by linarith
    have d2 : (-2 : ℚ) < d := by linarith
    have d1' : d < 1 := by exact_mod_cast d1
    have d2' : -2 < d := by exact_mod_cast d2
    have : d = 0 ∨ d = -1 := by omega
    unfold insideInterval at hcon
    rcases this with rfl | rfl
    · simp only [Int.cast_zero, mul_zero, add_zero] at e
      rw [if_pos (by linarith)] at hcon
      obtain ⟨p, q⟩ := of_decide_eq_true hcon
      exact ⟨b - f, 0, by linarith, by linarith, by simp⟩
    · push_cast at e
      rw [if_neg (by linarith)] at hcon
      rcases of_decide_eq_true hcon with p | p
      · exact ⟨b - f, 0, by linarith, by linarith, by simp⟩
      · exact ⟨b + 360 - f, -1, by linarith, by linarith, by push_cast; ring⟩
  obtain ⟨x, j, x0, x1, e⟩ := hx
  -- the sector before b
  have hi : ∃ i : ℕ, i < n ∧ (i : ℚ) * scan ≤ x ∧ x < (i + 1) * scan := by
    have f0 : 0 ≤ ⌊x / scan⌋ := Int.floor_nonneg.2 (div_nonneg x0 (le_of_lt hs))
    obtain ⟨i, hi⟩ := Int.eq_ofNat_of_zero_le f0
    have h1 := Int.floor_le (x / scan)
    have h2 := Int.lt_floor_add_one (x / scan)
    rw [hi] at h1 h2
    rw [le_div_iff₀ hs] at h1
    rw [div_lt_iff₀ hs] at h2
    refine ⟨i, ?_, by exact_mod_cast h1, by exact_mod_cast h2⟩
    have : (i : ℚ) * scan ≤ (n - 1) * scan := by
      have h1' : (i : ℚ) * scan ≤ x := by exact_mod_cast h1
      linarith
    have := le_of_mul_le_mul_right this hs
    have : (i : ℚ) + 1 ≤ n := by linarith
    exact_mod_cast this
  obtain ⟨i, hin, i1, i2⟩ := hi
  have hge := h (sectorAt c scan n i) (List.mem_map.2 ⟨i, List.mem_range.2 hin, rfl⟩)
  obtain ⟨k', hk'⟩ := mod360_eq (c + scan * ((i : ℚ) - ((n : ℚ) - 1) / 2))
  have hlt := bearingGap_le_of_turn hb (isBearing_mod360 (c + scan * ((i : ℚ) - ((n : ℚ) - 1) / 2)))
    (y := x - i * scan) (j + k - k') (by
      rw [e, hk']
      unfold sectorAt
      rw [hk]; push_cast; ring)
  have : |x - i * scan| < scan := abs_lt.2 ⟨by linarith, by linarith⟩
  unfold sectorAt at hge
  linarith

theorem headD_nodeSectors (c scan : ℚ) {n : ℕ} (hn : 0 < n) : (nodeSectors c scan n).headD 0 = sectorAt c scan n 0 := by
  obtain ⟨m, rfl⟩ : ∃ m, n = m + 1 := ⟨n - 1, by omega⟩
  unfold nodeSectors
  rw [List.range_succ_eq_map]
  rfl

theorem getLastD_nodeSectors (c scan : ℚ) {n : ℕ} (hn : 0 < n) :
    (nodeSectors c scan n).getLastD 0 = sectorAt c scan n (n - 1) := by
  obtain ⟨m, rfl⟩ : ∃ m, n = m + 1 := ⟨n - 1, by omega⟩
  unfold nodeSectors
  rw [List.range_succ, List.map_append]
  simp

/-- Two nodes whose sectors are apart pass the check. -/
theorem node_apart {c c' scan : ℚ} {n : ℕ} (hs : 0 < scan) (hw : scan * n < 360) (hn : 0 < n)
    (h : ∀ a ∈ nodeSectors c scan n, ∀ b ∈ nodeSectors c' scan n, scan ≤ bearingGap a b) :
    nodesApart scan (nodeSectors c scan n) (nodeSectors c' scan n) = true := by
  unfold nodesApart
  rw [headD_nodeSectors _ _ hn, headD_nodeSectors _ _ hn, getLastD_nodeSectors _ _ hn, getLastD_nodeSectors _ _ hn]
  have B : ∀ c i, IsBearing (sectorAt c scan n i) := fun c i => isBearing_mod360 _
  have M : ∀ c i, i < n → sectorAt c scan n i ∈ nodeSectors c scan n :=
    fun c i hi => List.mem_map.2 ⟨i, List.mem_range.2 hi, rfl⟩
  have m0 : 0 < n := hn
  have m1 : n - 1 < n := by omega
  dsimp only
  rw [Bool.and_eq_true]
  constructor
  · rw [decide_eq_true_eq, abs_angleDelta (B _ _) (B _ _), abs_angleDelta (B _ _) (B _ _),
      abs_angleDelta (B _ _) (B _ _), abs_angleDelta (B _ _) (B _ _)]
    exact le_min (le_min (h _ (M _ _ m0) _ (M _ _ m0)) (h _ (M _ _ m1) _ (M _ _ m0)))
      (le_min (h _ (M _ _ m0) _ (M _ _ m1)) (h _ (M _ _ m1) _ (M _ _ m1)))
  · have g1 : ∀ i, i < n → insideInterval (sectorAt c' scan n i) (sectorAt c scan n 0) (sectorAt c scan n (n - 1)) = false :=
      fun i hi => node_outside hs hw hn (B _ _) (fun a ha => by
        rw [bearingGap_comm]; exact h a ha _ (M _ _ hi))
    have g2 : ∀ i, i < n → insideInterval (sectorAt c scan n i) (sectorAt c' scan n 0) (sectorAt c' scan n (n - 1)) = false :=
      fun i hi => node_outside hs hw hn (B _ _) (fun a ha => h _ (M _ _ hi) a ha)
    rw [g1 _ m0, g1 _ m1, g2 _ m0, g2 _ m1]
    rfl

end Verif
