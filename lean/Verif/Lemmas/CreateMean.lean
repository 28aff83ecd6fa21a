import Verif.Lemmas.CreateGeom

/-! # The circular mean of the sectors of a node is the bearing of the node -/

namespace Verif
open Spec

theorem cosDeg_mod (x : ℚ) : cosDeg (mod360 x) = cosDeg x := by
  obtain ⟨k, hk⟩ := mod360_eq x
  unfold cosDeg
  rw [hk, ← Real.cos_add_int_mul_two_pi ((x : ℝ) * Real.pi / 180) k]
  congr 1
  push_cast
  ring

theorem sinDeg_mod (x : ℚ) : sinDeg (mod360 x) = sinDeg x := by
  obtain ⟨k, hk⟩ := mod360_eq x
  unfold sinDeg
  rw [hk, ← Real.sin_add_int_mul_two_pi ((x : ℝ) * Real.pi / 180) k]
  congr 1
  push_cast
  ring

theorem telescope_cos (A θ : ℝ) (m : ℕ) :
    2 * Real.sin (θ / 2) * ((List.range m).map (fun i : ℕ => Real.cos (A + θ * i))).sum =
      Real.sin (A + θ * (m - 1 / 2)) - Real.sin (A - θ / 2) := by
  induction m with
  | zero => simp; ring_nf
  | succ m ih =>
    rw [List.range_succ, List.map_append, List.sum_append, mul_add, ih]
    simp only [List.map_cons, List.map_nil, List.sum_cons, List.sum_nil, add_zero]
    have e1 : A + θ * (((m + 1 : ℕ) : ℝ) - 1 / 2) = (A + θ * m) + θ / 2 := by push_cast; ring
    have e2 : A + θ * ((m : ℝ) - 1 / 2) = (A + θ * m) - θ / 2 := by ring
    rw [e1, e2, Real.sin_add, Real.sin_sub]
    ring

theorem telescope_sin (A θ : ℝ) (m : ℕ) :
    2 * Real.sin (θ / 2) * ((List.range m).map (fun i : ℕ => Real.sin (A + θ * i))).sum =
      Real.cos (A - θ / 2) - Real.cos (A + θ * (m - 1 / 2)) := by
  induction m with
  | zero => simp; ring_nf
  | succ m ih =>
    rw [List.range_succ, List.map_append, List.sum_append, mul_add, ih]
    simp only [List.map_cons, List.map_nil, List.sum_cons, List.sum_nil, add_zero]
    have e1 : A + θ * (((m + 1 : ℕ) : ℝ) - 1 / 2) = (A + θ * m) + θ / 2 := by push_cast; ring
    have e2 : A + θ * ((m : ℝ) - 1 / 2) = (A + θ * m) - θ / 2 := by ring
    rw [e1, e2, Real.cos_add (A + θ * m) (θ / 2), Real.cos_sub (A + θ * m) (θ / 2)]
    ring

theorem node_mean {c scan : ℚ} {n : ℕ} (hc : IsBearing c) (hs : 0 < scan) (hw : scan * n < 360)
    (hn : 0 < n) : IsCircularMean (nodeSectors c scan n) c := by
  have hpi := Real.pi_pos
  have hs' : (0 : ℝ) < scan := by exact_mod_cast hs
  have hw' : (scan : ℝ) * n < 360 := by exact_mod_cast hw
  have hn' : (1 : ℝ) ≤ n := by exact_mod_cast hn
  set θ : ℝ := (scan : ℝ) * Real.pi / 180 with hθ
  set C : ℝ := (c : ℝ) * Real.pi / 180 with hC
  have θ0 : 0 < θ := by positivity
  have θn : θ * n < 2 * Real.pi := by rw [hθ]; nlinarith
  have p1 : 0 < Real.sin (θ / 2) := Real.sin_pos_of_pos_of_lt_pi (by linarith) (by nlinarith)
  have p2 : 0 < Real.sin (θ * n / 2) := Real.sin_pos_of_pos_of_lt_pi (by positivity) (by linarith)
  have ecos : (nodeSectors c scan n).map cosDeg =
      (List.range n).map (fun i : ℕ => Real.cos ((C - θ * (n - 1) / 2) + θ * i)) := by
    unfold nodeSectors
    rw [List.map_map]
    apply List.map_congr_left
    intro i _
    simp only [Function.comp, sectorAt]
    rw [cosDeg_mod]
    unfold cosDeg
    congr 1
    rw [hC, hθ]; push_cast; ring
  have esin : (nodeSectors c scan n).map sinDeg =
      (List.range n).map (fun i : ℕ => Real.sin ((C - θ * (n - 1) / 2) + θ * i)) := by
    unfold nodeSectors
    rw [List.map_map]
    apply List.map_congr_left
    intro i _
    simp only [Function.comp, sectorAt]
    rw [sinDeg_mod]
    unfold sinDeg
    congr 1
    rw [hC, hθ]; push_cast; ring
  have a1 : (C - θ * (n - 1) / 2) + θ * ((n : ℝ) - 1 / 2) = C + θ * n / 2 := by ring
  have a2 : (C - θ * (n - 1) / 2) - θ / 2 = C - θ * n / 2 := by ring
  have tc := telescope_cos (C - θ * (n - 1) / 2) θ n
  have ts := telescope_sin (C - θ * (n - 1) / 2) θ n
  rw [a1, a2, ← ecos, Real.sin_add, Real.sin_sub] at tc
  rw [a1, a2, ← esin, Real.cos_add, Real.cos_sub] at ts
  refine ⟨hc, Real.sin (θ * n / 2) / Real.sin (θ / 2), div_pos p2 p1, ?_, ?_⟩
  · show _ = _ * Real.cos C
    rw [div_mul_eq_mul_div, eq_div_iff (ne_of_gt p1)]
    linarith
  · show _ = _ * Real.sin C
    rw [div_mul_eq_mul_div, eq_div_iff (ne_of_gt p1)]
    linarith

/-- The circular mean is unique. -/
theorem mean_unique {l : List ℚ} {a b : ℚ} (ha : IsCircularMean l a) (hb : IsCircularMean l b) : a = b := by
  obtain ⟨⟨a0, a1⟩, k, k0, c1, s1⟩ := ha
  obtain ⟨⟨b0, b1⟩, k', k0', c2, s2⟩ := hb
  have hpi := Real.pi_pos
  have ec : k * cosDeg a = k' * cosDeg b := by rw [← c1, c2]
  have es : k * sinDeg a = k' * sinDeg b := by rw [← s1, s2]
  unfold cosDeg at ec
  unfold sinDeg at es
  set A : ℝ := (a : ℝ) * Real.pi / 180 with hA
  set B : ℝ := (b : ℝ) * Real.pi / 180 with hB
  have hk : k = k' := by
    have h : k ^ 2 = k' ^ 2 := by
      have h1 := Real.sin_sq_add_cos_sq A
      have h2 := Real.sin_sq_add_cos_sq B
      calc k ^ 2 = (k * Real.cos A) ^ 2 + (k * Real.sin A) ^ 2 := by
            rw [mul_pow, mul_pow, ← mul_add, add_comm, h1, mul_one]
        _ = k' ^ 2 := by rw [ec, es, mul_pow, mul_pow, ← mul_add, add_comm, h2, mul_one]
    exact (pow_left_inj₀ (le_of_lt k0) (le_of_lt k0') (by norm_num)).1 h
  subst hk
  have hc := mul_left_cancel₀ (ne_of_gt k0) ec
  have hs := mul_left_cancel₀ (ne_of_gt k0) es
  have h1 : Real.cos (A - B) = 1 := by
    rw [Real.cos_sub, hc, hs]
    have := Real.sin_sq_add_cos_sq B
    nlinarith
  have a0' : (0 : ℝ) ≤ a := by exact_mod_cast a0
  have a1' : (a : ℝ) < 360 := by exact_mod_cast a1
  have b0' : (0 : ℝ) ≤ b := by exact_mod_cast b0
  have b1' : (b : ℝ) < 360 := by exact_mod_cast b1
  have h2 := (Real.cos_eq_one_iff_of_lt_of_lt (by rw [hA, hB]; nlinarith) (by rw [hA, hB]; nlinarith)).1 h1
  have h3 : ((a : ℝ) - b) * (Real.pi / 180) = 0 := by rw [hA, hB] at h2; linarith
  have h4 := (mul_eq_zero.1 h3).resolve_right (by positivity)
  have h5 : (a : ℝ) = b := by linarith
  exact_mod_cast h5

/-- A function that computes circular means. -/
theorem exists_mean : ∃ mean, ComputesMean mean := by
  classical
  refine ⟨fun l => if h : ∃ m, IsCircularMean l m then h.choose else 0, ?_⟩
  intro l m hm
  have h : ∃ m, IsCircularMean l m := ⟨m, hm⟩
  show (if h : ∃ m, IsCircularMean l m then h.choose else 0) = m
  rw [dif_pos h]
  exact mean_unique h.choose_spec hm

end Verif
