import Verif.Model.Fresnel
import Verif.Props.LosConf

/-!
# The ellipsoidal LOS validator
-/

namespace Verif
open Classical LosGeom

namespace Zone

/-- The smaller root of a quadratic polynomial, as `_solve_for_lower_ellipsoid_height` computes it. -/
theorem lower_root {A B C : ℝ} (hA : 0 < A) (hD : 0 < B * B - 4 * A * C) :
    (if B ≥ 0 then (-B - Real.sqrt (B * B - 4 * A * C)) / (2 * A) else 2 * C / (-B + Real.sqrt (B * B - 4 * A * C)))
      = (-B - Real.sqrt (B * B - 4 * A * C)) / (2 * A) := by
  split_ifs with h
  · rfl
  · push Not at h
    have hs := Real.mul_self_sqrt hD.le
    have h0 := Real.sqrt_nonneg (B * B - 4 * A * C)
    set S := Real.sqrt (B * B - 4 * A * C)
    have : 0 < -B + S := by linarith
    rw [div_eq_div_iff this.ne' (by linarith)]
    nlinarith

theorem quad_neg_iff {A B C : ℝ} (hA : 0 < A) :
    (∃ w, A * (w * w) + B * w + C < 0) ↔ 0 < B * B - 4 * A * C := by
  have e : ∀ w, 4 * A * (A * (w * w) + B * w + C) = (2 * A * w + B) * (2 * A * w + B) - (B * B - 4 * A * C) := by
    intro w; ring
  constructor
  · rintro ⟨w, hw⟩
    have h1 := e w
    have h2 : 4 * A * (A * (w * w) + B * w + C) < 0 := mul_neg_of_pos_of_neg (by linarith) hw
    nlinarith [mul_self_nonneg (2 * A * w + B)]
  · intro h
    refine ⟨-B / (2 * A), ?_⟩
    have h1 := e (-B / (2 * A))
    have h2 : 2 * A * (-B / (2 * A)) + B = 0 := by field_simp; ring
    rw [h2] at h1
    by_contra c
    push Not at c
    have : 0 ≤ 4 * A * (A * (-B / (2 * A) * (-B / (2 * A))) + B * (-B / (2 * A)) + C) :=
      mul_nonneg (by linarith) c
    linarith

theorem root_le_iff {A B C : ℝ} (hA : 0 < A) (hD : 0 < B * B - 4 * A * C) (w : ℝ) :
    (-B - Real.sqrt (B * B - 4 * A * C)) / (2 * A) ≤ w ↔ ∃ w' ≤ w, A * (w' * w') + B * w' + C ≤ 0 := by
  have hs := Real.mul_self_sqrt hD.le
  have h0 := Real.sqrt_nonneg (B * B - 4 * A * C)
  set S := Real.sqrt (B * B - 4 * A * C)
  have e : ∀ w, 4 * A * (A * (w * w) + B * w + C) = (2 * A * w + B) * (2 * A * w + B) - S * S := by
    intro w; rw [hs]; ring
  constructor
  · intro h
    refine ⟨_, h, ?_⟩
    have h1 := e ((-B - S) / (2 * A))
    have h2 : 2 * A * ((-B - S) / (2 * A)) + B = -S := by field_simp; ring
    rw [h2] at h1
    by_contra c
    push Not at c
    have : 0 < 4 * A * (A * ((-B - S) / (2 * A) * ((-B - S) / (2 * A))) + B * ((-B - S) / (2 * A)) + C) :=
      mul_pos (by linarith) c
    linarith
  · rintro ⟨w', hw, h⟩
    refine le_trans ?_ hw
    rw [div_le_iff₀ (by linarith)]
    have h1 := e w'
    have h2 : 4 * A * (A * (w' * w') + B * w' + C) ≤ 0 := mul_nonpos_of_nonneg_of_nonpos (by linarith) h
    by_contra c
    push Not at c
    nlinarith

variable (Z : Zone)

/-- Distance along the link from its middle, in the horizontal plane. -/
noncomputable def u (x y : ℝ) : ℝ := (x - Z.xm) * Z.cosA + (y - Z.ym) * Z.sinA

/-- Distance from the link in the horizontal plane, with a sign. -/
noncomputable def v (x y : ℝ) : ℝ := (x - Z.xm) * Z.sinA - (y - Z.ym) * Z.cosA

/-- Distance along the link from its middle, in space. -/
noncomputable def e1 (g : P3) : ℝ := Z.u g.x g.y * Z.cosB + (g.z - Z.zm) * Z.sinB

/-- Distance from the link in the vertical plane, with a sign. -/
noncomputable def e3 (g : P3) : ℝ := (g.z - Z.zm) * Z.cosB - Z.u g.x g.y * Z.sinB

/-- The left side of the equation of the ellipsoid. -/
noncomputable def F (r2 : ℝ) (g : P3) : ℝ :=
  Z.e1 g * Z.e1 g / Z.half2 + (Z.v g.x g.y * Z.v g.x g.y + Z.e3 g * Z.e3 g) / r2

/-- What the constants of a Fresnel zone satisfy. -/
structure Good : Prop where
  circB : Z.cosB * Z.cosB + Z.sinB * Z.sinB = 1
  cosB : 0 < Z.cosB
  radius : 0 < Z.radius
  half2 : 0 < Z.half2
  halfXY2 : Z.halfXY2 = Z.half2 * (Z.cosB * Z.cosB)
  plane : ∀ x y, -(Z.aOverC * x + Z.bOverC * y + Z.dOverC) = Z.zm + Z.u x y * Z.sinB / Z.cosB
  site1 : Z.v Z.x1 Z.y1 = 0 ∧ Z.u Z.x1 Z.y1 * Z.u Z.x1 Z.y1 = Z.halfXY2
  site2 : Z.v Z.x2 Z.y2 = 0 ∧ Z.u Z.x2 Z.y2 * Z.u Z.x2 Z.y2 = Z.halfXY2
  thr : 0 ≤ Z.threshold ∧ Z.threshold ≤ 1

variable {Z}

theorem quadA_pos (G : Z.Good) {r2 : ℝ} (hr : 0 < r2) :
    0 < Z.sinB * Z.sinB / Z.half2 + Z.cosB * Z.cosB / r2 := by
  have h1 : 0 ≤ Z.sinB * Z.sinB / Z.half2 := div_nonneg (mul_self_nonneg _) G.half2.le
  have h2 : 0 < Z.cosB * Z.cosB / r2 := div_pos (mul_pos G.cosB G.cosB) hr
  linarith

theorem lowerHeight_iff (G : Z.Good) {r2 : ℝ} (hr : 0 < r2) (x y z : ℝ) :
    (∃ h ∈ Z.lowerHeight x y r2, z ≥ h) ↔ (∃ z0, Z.F r2 ⟨x, y, z0⟩ < 1) ∧ ∃ z' ≤ z, Z.F r2 ⟨x, y, z'⟩ ≤ 1 := by
  unfold lowerHeight
  dsimp only
  have hA := quadA_pos G hr
  set t1 := (x - Z.xm) * Z.cosA * Z.cosB + (y - Z.ym) * Z.sinA * Z.cosB with ht1
  set t2 := (Z.xm - x) * Z.cosA * Z.sinB + (Z.ym - y) * Z.sinA * Z.sinB with ht2
  set t3 := (Z.xm - x) * Z.sinA + (y - Z.ym) * Z.cosA with ht3
  set A := Z.sinB * Z.sinB / Z.half2 + Z.cosB * Z.cosB / r2 with hAe
  set B := 2 * (t1 * Z.sinB / Z.half2 + t2 * Z.cosB / r2) with hB
  set C := t1 * t1 / Z.half2 + t2 * t2 / r2 + t3 * t3 / r2 - 1 with hC
  have hF : ∀ z0, Z.F r2 ⟨x, y, z0⟩ - 1 = A * ((z0 - Z.zm) * (z0 - Z.zm)) + B * (z0 - Z.zm) + C := by
    intro z0
    have q1 : Z.e1 ⟨x, y, z0⟩ = t1 + (z0 - Z.zm) * Z.sinB := by simp only [e1, u, ht1]; ring
    have q3 : Z.e3 ⟨x, y, z0⟩ = t2 + (z0 - Z.zm) * Z.cosB := by simp only [e3, u, ht2]; ring
    have q2 : Z.v x y = -t3 := by simp only [v, ht3]; ring
    simp only [F, q1, q2, q3, hAe, hB, hC]
    ring
  have n : (∃ z0, Z.F r2 ⟨x, y, z0⟩ < 1) ↔ 0 < B * B - 4 * A * C := by
    rw [← quad_neg_iff hA]
    constructor
    · rintro ⟨z0, h⟩
      exact ⟨z0 - Z.zm, by rw [← hF]; linarith⟩
    · rintro ⟨w, h⟩
      refine ⟨w + Z.zm, ?_⟩
      have := hF (w + Z.zm)
      rw [add_sub_cancel_right] at this
      linarith
  rw [n]
  by_cases c : B * B - 4 * A * C ≤ 0
  · rw [if_pos c]
    constructor
    · rintro ⟨h, hh, _⟩; cases hh
    · rintro ⟨h, _⟩; linarith
  · rw [if_neg c]
    push Not at c
    have e : (if B ≥ 0 then some ((-B - Real.sqrt (B * B - 4 * A * C)) / (2 * A) + Z.zm)
        else some (2 * C / (-B + Real.sqrt (B * B - 4 * A * C)) + Z.zm))
        = some ((-B - Real.sqrt (B * B - 4 * A * C)) / (2 * A) + Z.zm) := by
      rw [← lower_root hA c]
      split_ifs <;> rfl
    rw [e]
    have r := root_le_iff hA c (z - Z.zm)
    constructor
    · rintro ⟨h, hh, hz⟩
      simp only [Option.mem_def, Option.some.injEq] at hh
      subst hh
      obtain ⟨w, h1, h2⟩ := r.1 (by linarith)
      refine ⟨c, w + Z.zm, by linarith, ?_⟩
      have := hF (w + Z.zm)
      rw [add_sub_cancel_right] at this
      linarith
    · rintro ⟨_, z', h1, h2⟩
      refine ⟨_, rfl, ?_⟩
      have := r.2 ⟨z' - Z.zm, by linarith, by rw [← hF]; linarith⟩
      linarith

theorem plane_iff (G : Z.Good) (g : P3) :
    g.z ≥ -(Z.aOverC * g.x + Z.bOverC * g.y + Z.dOverC) ↔ 0 ≤ Z.e3 g := by
  rw [G.plane]
  unfold e3
  have hc := G.cosB
  rw [ge_iff_le, ← le_sub_iff_add_le', div_le_iff₀ hc]
  constructor <;> intro h <;> linarith

/-- The point of the plane above or below a given point of the map. -/
theorem onPlane (G : Z.Good) (x y : ℝ) (r2 : ℝ) :
    let z := Z.zm + Z.u x y * Z.sinB / Z.cosB
    Z.e3 ⟨x, y, z⟩ = 0 ∧ Z.F r2 ⟨x, y, z⟩ = Z.u x y * Z.u x y / Z.halfXY2 + Z.v x y * Z.v x y / r2 := by
  intro z
  have hc := G.cosB.ne'
  have h3 : Z.e3 ⟨x, y, z⟩ = 0 := by
    simp only [e3, z]
    field_simp
    ring
  have h1 : Z.e1 ⟨x, y, z⟩ = Z.u x y / Z.cosB := by
    simp only [e1, z]
    field_simp
    linear_combination Z.u x y * G.circB
  refine ⟨h3, ?_⟩
  unfold F
  rw [h3, h1, G.halfXY2]
  have := G.half2.ne'
  field_simp
  simp

theorem inEllipse_iff {r2 x y : ℝ} : Z.inEllipse r2 x y ↔ Z.u x y * Z.u x y / Z.halfXY2 + Z.v x y * Z.v x y / r2 ≤ 1 :=
  Iff.rfl

theorem F_anti {r2 r2' : ℝ} (h : 0 < r2) (hle : r2 ≤ r2') (g : P3) : Z.F r2' g ≤ Z.F r2 g := by
  unfold F
  have : (Z.v g.x g.y * Z.v g.x g.y + Z.e3 g * Z.e3 g) / r2' ≤ (Z.v g.x g.y * Z.v g.x g.y + Z.e3 g * Z.e3 g) / r2 :=
    div_le_div_of_nonneg_left (add_nonneg (mul_self_nonneg _) (mul_self_nonneg _)) h hle
  linarith

theorem ellipse_anti {r2 r2' x y : ℝ} (h : 0 < r2) (hle : r2 ≤ r2') (hi : Z.inEllipse r2 x y) : Z.inEllipse r2' x y := by
  rw [inEllipse_iff] at hi ⊢
  have : Z.v x y * Z.v x y / r2' ≤ Z.v x y * Z.v x y / r2 := div_le_div_of_nonneg_left (mul_self_nonneg _) h hle
  linarith

theorem radius2d_eq (x y : ℝ) : Z.radius2d x y = if Z.u x y * Z.u x y / Z.halfXY2 ≥ 1 then Z.radius
    else Real.sqrt (Z.v x y * Z.v x y / (1 - Z.u x y * Z.u x y / Z.halfXY2)) := rfl

theorem radius3d_eq (g : P3) : Z.radius3d g.x g.y g.z = if Z.e1 g * Z.e1 g / Z.half2 ≥ 1 then Z.radius
    else Real.sqrt ((Z.v g.x g.y * Z.v g.x g.y + Z.e3 g * Z.e3 g) / (1 - Z.e1 g * Z.e1 g / Z.half2)) := by
  unfold radius3d
  dsimp only
  have q1 : (g.x - Z.xm) * Z.cosA * Z.cosB + (g.y - Z.ym) * Z.sinA * Z.cosB + (g.z - Z.zm) * Z.sinB = Z.e1 g := by
    simp only [e1, u]; ring
  have q3 : (Z.xm - g.x) * Z.cosA * Z.sinB + (Z.ym - g.y) * Z.sinA * Z.sinB + (g.z - Z.zm) * Z.cosB = Z.e3 g := by
    simp only [e3, u]; ring
  have q2 : ((Z.xm - g.x) * Z.sinA + (g.y - Z.ym) * Z.cosA) * ((Z.xm - g.x) * Z.sinA + (g.y - Z.ym) * Z.cosA)
      = Z.v g.x g.y * Z.v g.x g.y := by
    simp only [v]; ring
  rw [q1, q2, q3]

theorem maxRadius_nonneg (G : Z.Good) (g : P3) : 0 ≤ Z.maxRadius g := by
  have h2 : 0 ≤ Z.radius2d g.x g.y := by
    rw [radius2d_eq]; split_ifs
    · exact G.radius.le
    · exact Real.sqrt_nonneg _
  have h3 : 0 ≤ Z.radius3d g.x g.y g.z := by
    rw [radius3d_eq]; split_ifs
    · exact G.radius.le
    · exact Real.sqrt_nonneg _
  unfold maxRadius
  cases Z.lowerHeight g.x g.y (Z.radius * Z.radius) with
  | none => exact G.radius.le
  | some h =>
    dsimp only
    split_ifs
    · exact G.radius.le
    · exact h2
    · exact h3

theorem maxRadius_cases (G : Z.Good) (g : P3) :
    Z.maxRadius g = if ∃ h ∈ Z.lowerHeight g.x g.y (Z.radius * Z.radius), g.z ≥ h then
      (if 0 ≤ Z.e3 g then Z.radius2d g.x g.y else Z.radius3d g.x g.y g.z) else Z.radius := by
  unfold maxRadius
  cases Z.lowerHeight g.x g.y (Z.radius * Z.radius) with
  | none =>
    have : ¬ ∃ h ∈ (none : Option ℝ), g.z ≥ h := by simp
    rw [if_neg this]
  | some h =>
    have : (∃ h' ∈ some h, g.z ≥ h') ↔ ¬ g.z < h := by simp
    dsimp only
    simp only [this, plane_iff G]
    by_cases c : g.z < h
    · rw [if_pos c, if_neg (not_not.2 c)]
    · rw [if_neg c, if_pos c]

theorem scan_le (G : Z.Good) : ∀ {L : List P3} {m : ℝ}, 0 ≤ m → 0 ≤ Z.scan m L ∧ Z.scan m L ≤ m / Z.radius
    ∧ ∀ g ∈ L, Z.scan m L ≤ Z.maxRadius g / Z.radius
  | [], m, h => ⟨div_nonneg h G.radius.le, le_refl _, by simp⟩
  | g :: L, m, h => by
    unfold scan
    have hd : ∀ {p q : ℝ}, p ≤ q → p / Z.radius ≤ q / Z.radius := fun h => (div_le_div_iff_of_pos_right G.radius).2 h
    split_ifs with c
    · refine ⟨le_refl _, div_nonneg h G.radius.le, fun g _ => div_nonneg (maxRadius_nonneg G g) G.radius.le⟩
    · obtain ⟨h1, h2, h3⟩ := scan_le G (L := L) (m := min (Z.maxRadius g) m) (le_min (maxRadius_nonneg G g) h)
      refine ⟨h1, h2.trans (hd (min_le_right _ _)), ?_⟩
      intro q hq
      rcases List.mem_cons.1 hq with rfl | hq
      · exact h2.trans (hd (min_le_left _ _))
      · exact h3 q hq

theorem scan_zero : ∀ {L : List P3} {m : ℝ}, (∃ g ∈ L, Z.obstructsInner g) → Z.scan m L = 0
  | [], m, h => by obtain ⟨g, hg, _⟩ := h; cases hg
  | g :: L, m, h => by
    unfold scan
    split_ifs with c
    · rfl
    · apply scan_zero
      obtain ⟨q, hq, ho⟩ := h
      rcases List.mem_cons.1 hq with rfl | hq
      · exact absurd ho c
      · exact ⟨q, hq, ho⟩

/-- Without an obstruction of the inner zone the result is the least radius. -/
theorem scan_open (G : Z.Good) : ∀ {L : List P3} {m : ℝ}, (¬ ∃ g ∈ L, Z.obstructsInner g) →
    ∀ c, c ≤ m / Z.radius → (∀ g ∈ L, c ≤ Z.maxRadius g / Z.radius) → c ≤ Z.scan m L
  | [], m, _, c, hc, _ => hc
  | g :: L, m, h, c, hc, hL => by
    unfold scan
    rw [if_neg fun q => h ⟨g, List.mem_cons_self, q⟩]
    apply scan_open G (fun ⟨q, hq, ho⟩ => h ⟨q, List.mem_cons_of_mem _ hq, ho⟩)
    · rcases min_cases (Z.maxRadius g) m with ⟨e, _⟩ | ⟨e, _⟩ <;> rw [e]
      · exact hL g List.mem_cons_self
      · exact hc
    · exact fun q hq => hL q (List.mem_cons_of_mem _ hq)


theorem of_good {freq thr : ℝ} {a b : RSite} (hxy : ¬ sameXY a b) (hf : 0 < freq) (ht : 0 ≤ thr ∧ thr ≤ 1) :
    (Zone.of freq thr a b).Good := by
  have hH := b2_pos hxy
  simp only [toward] at hH
  set dx := b.x - a.x with hdx
  set dy := b.y - a.y with hdy
  set dz := b.alt.getD 0 - a.alt.getD 0 with hdz
  have hD : 0 < dx * dx + dy * dy + dz * dz := by linarith [mul_self_nonneg dz]
  have sH := Real.sqrt_pos.2 hH
  have sD := Real.sqrt_pos.2 hD
  have qH := Real.mul_self_sqrt hH.le
  have qD := Real.mul_self_sqrt hD.le
  set H := Real.sqrt (dx * dx + dy * dy)
  set D := Real.sqrt (dx * dx + dy * dy + dz * dz)
  have hu : ∀ x y, (Zone.of freq thr a b).u x y = ((x - (a.x + b.x) / 2) * dx + (y - (a.y + b.y) / 2) * dy) / H := by
    intro x y
    show (x - (a.x + b.x) / 2) * (dx / H) + (y - (a.y + b.y) / 2) * (dy / H) = _
    ring
  have hv : ∀ x y, (Zone.of freq thr a b).v x y = ((x - (a.x + b.x) / 2) * dy - (y - (a.y + b.y) / 2) * dx) / H := by
    intro x y
    show (x - (a.x + b.x) / 2) * (dy / H) - (y - (a.y + b.y) / 2) * (dx / H) = _
    ring
  have hxyH : (Zone.of freq thr a b).halfXY2 = H * H / 4 := by rw [qH]; rfl
  have half : (Zone.of freq thr a b).half2 = D * D / 4 := by rw [qD]; rfl
  refine ⟨?_, div_pos sH sD, ?_, ?_, ?_, ?_, ?_, ?_, ht⟩
  · show H / D * (H / D) + dz / D * (dz / D) = 1
    have : H / D * (H / D) + dz / D * (dz / D) = (H * H + dz * dz) / (D * D) := by
      field_simp
    rw [this, qH, qD, div_self hD.ne']
  · show 0 < zoneMultiplier * Real.sqrt (D / freq)
    exact mul_pos (by unfold zoneMultiplier; norm_num) (Real.sqrt_pos.2 (div_pos sD hf))
  · rw [half]
    have := mul_pos sD sD
    linarith
  · rw [hxyH, half]
    show H * H / 4 = D * D / 4 * (H / D * (H / D))
    field_simp
  · intro x y
    rw [hu]
    have hs : (Zone.of freq thr a b).sinB = dz / D := rfl
    have hc : (Zone.of freq thr a b).cosB = H / D := rfl
    have hz : (Zone.of freq thr a b).zm = (a.alt.getD 0 + b.alt.getD 0) / 2 := rfl
    rw [hs, hc, hz]
    have rhs : ((x - (a.x + b.x) / 2) * dx + (y - (a.y + b.y) / 2) * dy) / H * (dz / D) / (H / D)
        = ((x - (a.x + b.x) / 2) * dx + (y - (a.y + b.y) / 2) * dy) * dz / (dx * dx + dy * dy) := by
      rw [← qH]
      field_simp
    rw [rhs]
    have ratio : ∃ c : ℝ, c ≠ 0 ∧ (third a.x a.y b.x b.y).1 - a.x = -dy * c ∧ (third a.x a.y b.x b.y).2 - a.y = dx * c := by
      unfold third
      dsimp only
      by_cases h0 : b.x - a.x = 0
      · have h1 : dy ≠ 0 := by
          intro h1
          rw [← hdx] at h0
          rw [h0, h1] at hH
          norm_num at hH
        rw [if_neg (by simpa using h0)]
        refine ⟨-1 / dy, div_ne_zero (by norm_num) h1, ?_, ?_⟩
        · dsimp only; field_simp; ring
        · dsimp only
          rw [h0, ← hdy, hdx, h0]; simp
      · rw [if_pos h0]
        rw [← hdx] at h0
        refine ⟨1 / dx, one_div_ne_zero h0, ?_, ?_⟩
        · dsimp only; rw [← hdy, ← hdx]; field_simp; ring
        · dsimp only; field_simp; ring
    obtain ⟨c, hc0, t1, t2⟩ := ratio
    have pa : dy * (a.alt.getD 0 - a.alt.getD 0) - dz * ((third a.x a.y b.x b.y).2 - a.y) = -(dz * dx * c) := by
      rw [t2]; ring
    have pb : dz * ((third a.x a.y b.x b.y).1 - a.x) - dx * (a.alt.getD 0 - a.alt.getD 0) = -(dz * dy * c) := by
      rw [t1]; ring
    have pc : dx * ((third a.x a.y b.x b.y).2 - a.y) - dy * ((third a.x a.y b.x b.y).1 - a.x)
        = (dx * dx + dy * dy) * c := by
      rw [t1, t2]; ring
    have eA : (Zone.of freq thr a b).aOverC = -(dz * dx * c) / ((dx * dx + dy * dy) * c) := by
      rw [← pa, ← pc]; rfl
    have eB : (Zone.of freq thr a b).bOverC = -(dz * dy * c) / ((dx * dx + dy * dy) * c) := by
      rw [← pb, ← pc]; rfl
    have eD : (Zone.of freq thr a b).dOverC = -(-(dz * dx * c) * a.x + -(dz * dy * c) * a.y
        + ((dx * dx + dy * dy) * c) * a.alt.getD 0) / ((dx * dx + dy * dy) * c) := by
      rw [← pa, ← pb, ← pc]; rfl
    rw [eA, eB, eD]
    have bx : b.x = a.x + dx := by rw [hdx]; ring
    have by' : b.y = a.y + dy := by rw [hdy]; ring
    have bz : b.alt.getD 0 = a.alt.getD 0 + dz := by rw [hdz]; ring
    rw [bx, by', bz]
    clear_value dx dy dz
    have h2 : dx ^ 2 + dy ^ 2 ≠ 0 := by rw [pow_two, pow_two]; exact hH.ne'
    field_simp
    ring
  · rw [hu, hv, hxyH]
    have bx : b.x = a.x + dx := by rw [hdx]; ring
    have by' : b.y = a.y + dy := by rw [hdy]; ring
    show ((a.x - (a.x + b.x) / 2) * dy - (a.y - (a.y + b.y) / 2) * dx) / H = 0
      ∧ ((a.x - (a.x + b.x) / 2) * dx + (a.y - (a.y + b.y) / 2) * dy) / H
        * (((a.x - (a.x + b.x) / 2) * dx + (a.y - (a.y + b.y) / 2) * dy) / H) = H * H / 4
    have e : (a.x - (a.x + b.x) / 2) * dx + (a.y - (a.y + b.y) / 2) * dy = -(H * H) / 2 := by
      rw [qH, bx, by']; ring
    have e' : (a.x - (a.x + b.x) / 2) * dy - (a.y - (a.y + b.y) / 2) * dx = 0 := by rw [bx, by']; ring
    rw [e, e']
    refine ⟨by simp, ?_⟩
    field_simp
    ring
  · rw [hu, hv, hxyH]
    have bx : b.x = a.x + dx := by rw [hdx]; ring
    have by' : b.y = a.y + dy := by rw [hdy]; ring
    show ((b.x - (a.x + b.x) / 2) * dy - (b.y - (a.y + b.y) / 2) * dx) / H = 0
      ∧ ((b.x - (a.x + b.x) / 2) * dx + (b.y - (a.y + b.y) / 2) * dy) / H
        * (((b.x - (a.x + b.x) / 2) * dx + (b.y - (a.y + b.y) / 2) * dy) / H) = H * H / 4
    have e : (b.x - (a.x + b.x) / 2) * dx + (b.y - (a.y + b.y) / 2) * dy = H * H / 2 := by
      rw [qH, bx, by']; ring
    have e' : (b.x - (a.x + b.x) / 2) * dy - (b.y - (a.y + b.y) / 2) * dx = 0 := by rw [bx, by']; ring
    rw [e, e']
    refine ⟨by simp, ?_⟩
    field_simp
    ring

end Zone

/-- The squared length of a link. -/
noncomputable def length2 (a b : RSite) : ℝ :=
  (b.x - a.x) * (b.x - a.x) + (b.y - a.y) * (b.y - a.y) + (b.alt.getD 0 - a.alt.getD 0) * (b.alt.getD 0 - a.alt.getD 0)

/-- The greatest radius of the first Fresnel zone of a link, `½ √(c · length / frequency)` with the speed of light `c`,
for a frequency in MHz. -/
noncomputable def fresnelRadius (freq : ℝ) (a b : RSite) : ℝ :=
  865725790883 / 100000000000 * Real.sqrt (Real.sqrt (length2 a b) / freq)

/-- The scalar product of the vector from the middle of a link to a point and the vector from one end to the other. -/
noncomputable def alongLink (a b : RSite) (g : P3) : ℝ :=
  (g.x - (a.x + b.x) / 2) * (b.x - a.x) + (g.y - (a.y + b.y) / 2) * (b.y - a.y)
    + (g.z - (a.alt.getD 0 + b.alt.getD 0) / 2) * (b.alt.getD 0 - a.alt.getD 0)

/-- The squared distance of a point from the middle of a link. -/
noncomputable def fromMiddle2 (a b : RSite) (g : P3) : ℝ :=
  (g.x - (a.x + b.x) / 2) * (g.x - (a.x + b.x) / 2) + (g.y - (a.y + b.y) / 2) * (g.y - (a.y + b.y) / 2)
    + (g.z - (a.alt.getD 0 + b.alt.getD 0) / 2) * (g.z - (a.alt.getD 0 + b.alt.getD 0) / 2)

/-- Inside the ellipsoid around the link with the given radius: the squared distance from the line is less than
`ρ² (1 - 4 t²)`, for the position `t` along the link in units of its length, from its middle. -/
def InsideZone (a b : RSite) (ρ : ℝ) (g : P3) : Prop :=
  fromMiddle2 a b g - alongLink a b g * alongLink a b g / length2 a b
    < ρ * ρ * (1 - 4 * (alongLink a b g / length2 a b * (alongLink a b g / length2 a b)))

/-- A surface of height `g.z` at `g` reaches into the ellipsoid with radius `ρ` or is above it. -/
def ReachesInto (a b : RSite) (ρ : ℝ) (g : P3) : Prop := ∃ z ≤ g.z, InsideZone a b ρ ⟨g.x, g.y, z⟩

namespace Zone

theorem of_radius (freq thr : ℝ) (a b : RSite) : (Zone.of freq thr a b).radius = fresnelRadius freq a b := rfl

theorem of_coords (freq thr : ℝ) {a b : RSite} (hxy : ¬ sameXY a b) (g : P3) :
    (Zone.of freq thr a b).e1 g * (Zone.of freq thr a b).e1 g = alongLink a b g * alongLink a b g / length2 a b
    ∧ (Zone.of freq thr a b).v g.x g.y * (Zone.of freq thr a b).v g.x g.y
      + (Zone.of freq thr a b).e3 g * (Zone.of freq thr a b).e3 g
        = fromMiddle2 a b g - alongLink a b g * alongLink a b g / length2 a b
    ∧ (Zone.of freq thr a b).half2 = length2 a b / 4 ∧ 0 < length2 a b := by
  have hH := b2_pos hxy
  simp only [toward] at hH
  unfold alongLink fromMiddle2 length2
  set dx := b.x - a.x with hdx
  set dy := b.y - a.y with hdy
  set dz := b.alt.getD 0 - a.alt.getD 0 with hdz
  have hD : 0 < dx * dx + dy * dy + dz * dz := by linarith [mul_self_nonneg dz]
  have sH := Real.sqrt_pos.2 hH
  have sD := Real.sqrt_pos.2 hD
  have qH := Real.mul_self_sqrt hH.le
  have qD := Real.mul_self_sqrt hD.le
  set H := Real.sqrt (dx * dx + dy * dy) with hHe
  set D := Real.sqrt (dx * dx + dy * dy + dz * dz) with hDe
  have h1 : (Zone.of freq thr a b).e1 g = ((g.x - (a.x + b.x) / 2) * dx + (g.y - (a.y + b.y) / 2) * dy
      + (g.z - (a.alt.getD 0 + b.alt.getD 0) / 2) * dz) / D := by
    show ((g.x - (a.x + b.x) / 2) * (dx / H) + (g.y - (a.y + b.y) / 2) * (dy / H)) * (H / D)
      + (g.z - (a.alt.getD 0 + b.alt.getD 0) / 2) * (dz / D) = _
    clear_value H D
    field_simp
  have hv : (Zone.of freq thr a b).v g.x g.y = ((g.x - (a.x + b.x) / 2) * dy - (g.y - (a.y + b.y) / 2) * dx) / H := by
    show (g.x - (a.x + b.x) / 2) * (dy / H) - (g.y - (a.y + b.y) / 2) * (dx / H) = _
    ring
  have h3 : (Zone.of freq thr a b).e3 g = ((g.z - (a.alt.getD 0 + b.alt.getD 0) / 2) * (H * H)
      - ((g.x - (a.x + b.x) / 2) * dx + (g.y - (a.y + b.y) / 2) * dy) * dz) / (H * D) := by
    show (g.z - (a.alt.getD 0 + b.alt.getD 0) / 2) * (H / D)
      - ((g.x - (a.x + b.x) / 2) * (dx / H) + (g.y - (a.y + b.y) / 2) * (dy / H)) * (dz / D) = _
    clear_value H D
    field_simp
  refine ⟨?_, ?_, rfl, hD⟩
  · rw [h1, div_mul_div_comm, qD]
  · rw [hv, h3, div_mul_div_comm, div_mul_div_comm, mul_mul_mul_comm H D, qH, qD]
    generalize g.x - (a.x + b.x) / 2 = X
    generalize g.y - (a.y + b.y) / 2 = Y
    generalize g.z - (a.alt.getD 0 + b.alt.getD 0) / 2 = W
    clear_value H D
    clear_value dx dy dz
    have g1 : dx ^ 2 + dy ^ 2 ≠ 0 := by rw [pow_two, pow_two]; exact hH.ne'
    have g2 : dx ^ 2 + dy ^ 2 + dz ^ 2 ≠ 0 := by rw [pow_two, pow_two, pow_two]; exact hD.ne'
    field_simp
    ring

theorem inside_iff (freq thr : ℝ) {a b : RSite} (hxy : ¬ sameXY a b) {ρ : ℝ} (hρ : 0 < ρ) (g : P3) :
    InsideZone a b ρ g ↔ (Zone.of freq thr a b).F (ρ * ρ) g < 1 := by
  obtain ⟨c1, c2, c3, c4⟩ := of_coords freq thr hxy g
  unfold F InsideZone
  rw [c1, c2, c3]
  set S := alongLink a b g
  set L := length2 a b
  have e : S * S / L / (L / 4) = 4 * (S / L * (S / L)) := by field_simp
  rw [e, ← lt_sub_iff_add_lt', div_lt_iff₀ (mul_pos hρ hρ), mul_comm (1 - _)]

theorem reaches_iff (freq thr : ℝ) {a b : RSite} (hxy : ¬ sameXY a b) {ρ : ℝ} (hρ : 0 < ρ) (g : P3) :
    ReachesInto a b ρ g ↔ ∃ z ≤ g.z, (Zone.of freq thr a b).F (ρ * ρ) ⟨g.x, g.y, z⟩ < 1 := by
  unfold ReachesInto
  simp only [inside_iff freq thr hxy hρ]

end Zone

theorem ellipsoidal_zero {freq : ℝ} {V : Validator} {a b : RSite} (h : ¬ passes V a b) : ellipsoidal freq V a b = 0 := by
  unfold ellipsoidal
  rw [if_neg h]

theorem ellipsoidal_flat {freq : ℝ} {V : Validator} {a b : RSite} (h : passes V a b) (hs : V.surface = none) :
    ellipsoidal freq V a b = 1 := by
  unfold ellipsoidal
  rw [if_pos h, hs]

theorem ellipsoidal_some {freq : ℝ} {V : Validator} {a b : RSite} (h : passes V a b) {s : ℝ → ℝ → ℝ → ℝ → List P3}
    (hs : V.surface = some s) : ellipsoidal freq V a b
      = (Zone.of freq V.threshold a b).scan (fresnelRadius freq a b) ((Zone.of freq V.threshold a b).obstructions s a b) := by
  unfold ellipsoidal
  rw [if_pos h, hs]
  rfl

theorem Zone.mem_obstructions {freq thr : ℝ} {a b : RSite} {s : ℝ → ℝ → ℝ → ℝ → List P3} {g : P3} :
    g ∈ (Zone.of freq thr a b).obstructions s a b ↔ g ∈ boxCells s (fresnelRadius freq a b) a b
      ∧ (Zone.of freq thr a b).inEllipse (fresnelRadius freq a b * fresnelRadius freq a b) g.x g.y := by
  unfold Zone.obstructions boxCells
  rw [Zone.of_radius]
  dsimp only
  rw [List.mem_filter, decide_eq_true_eq]

/-- **C109, bounds.** The confidence is between zero and one. -/
theorem C109_bounds_partial {freq : ℝ} (hf : 0 < freq) {V : Validator} (hV : V.Valid) (a b : RSite) :
    0 ≤ ellipsoidal freq V a b ∧ ellipsoidal freq V a b ≤ 1 := by
  by_cases hp : passes V a b
  · obtain hsur | ⟨s, hsur⟩ : V.surface = none ∨ ∃ s, V.surface = some s := by
      cases V.surface <;> simp
    · rw [ellipsoidal_flat hp hsur]; norm_num
    · rw [ellipsoidal_some hp hsur]
      have G := Zone.of_good (freq := freq) hp.1 hf hV.thr
      have := Zone.scan_le G (L := (Zone.of freq V.threshold a b).obstructions s a b) G.radius.le
      rw [div_self G.radius.ne'] at this
      exact ⟨this.1, this.2.1⟩
  · rw [ellipsoidal_zero hp]; norm_num

/-- **C109, obstructions.** Adding cells to the elevation data never raises the confidence; in particular the order of
the cells does not matter, and elevation data is not more permissive than none. -/
theorem C109_obstructions {freq : ℝ} (hf : 0 < freq) {V : Validator} (hV : V.Valid) {s' : ℝ → ℝ → ℝ → ℝ → List P3}
    (hh : ∀ s, V.surface = some s → ∀ x1 y1 x2 y2, s x1 y1 x2 y2 ⊆ s' x1 y1 x2 y2) (a b : RSite) :
    ellipsoidal freq { V with surface := some s' } a b ≤ ellipsoidal freq V a b := by
  by_cases hp : passes V a b
  · have hp' : passes { V with surface := some s' } a b := hp
    have hV' : Validator.Valid { V with surface := some s' } := ⟨hV.min_pos, hV.min_lt, hV.el, hV.thr, hV.radius⟩
    obtain hsur | ⟨s, hsur⟩ : V.surface = none ∨ ∃ s, V.surface = some s := by
      cases V.surface <;> simp
    · rw [ellipsoidal_flat hp hsur]
      exact (C109_bounds_partial hf hV' a b).2
    · rw [ellipsoidal_some hp hsur, ellipsoidal_some hp' rfl]
      have G := Zone.of_good (freq := freq) hp.1 hf hV.thr
      have sub : ∀ g ∈ (Zone.of freq V.threshold a b).obstructions s a b,
          g ∈ (Zone.of freq V.threshold a b).obstructions s' a b := by
        intro g hg
        rw [Zone.mem_obstructions] at hg ⊢
        exact ⟨hh s hsur _ _ _ _ hg.1, hg.2⟩
      have hr : (Zone.of freq V.threshold a b).radius = fresnelRadius freq a b := rfl
      obtain ⟨h1, h2, h3⟩ := Zone.scan_le G (L := (Zone.of freq V.threshold a b).obstructions s' a b) G.radius.le
      by_cases ho : ∃ g ∈ (Zone.of freq V.threshold a b).obstructions s a b, (Zone.of freq V.threshold a b).obstructsInner g
      · obtain ⟨g, hg, ho'⟩ := ho
        rw [Zone.scan_zero ⟨g, sub g hg, ho'⟩]
        exact (Zone.scan_le G (L := (Zone.of freq V.threshold a b).obstructions s a b) G.radius.le).1
      · exact Zone.scan_open G ho _ h2 fun g hg => h3 g (sub g hg)
  · rw [ellipsoidal_zero hp, ellipsoidal_zero (V := { V with surface := some s' }) hp]

/-- **C109, order.** -/
theorem C109_order {freq : ℝ} (hf : 0 < freq) {V : Validator} (hV : V.Valid) {s s' : ℝ → ℝ → ℝ → ℝ → List P3}
    (hs : V.surface = some s) (hh : ∀ x1 y1 x2 y2 g, g ∈ s x1 y1 x2 y2 ↔ g ∈ s' x1 y1 x2 y2) (a b : RSite) :
    ellipsoidal freq { V with surface := some s' } a b = ellipsoidal freq V a b := by
  apply le_antisymm
  · apply C109_obstructions hf hV
    intro s0 h0 x1 y1 x2 y2 g hg
    rw [hs] at h0
    cases h0
    exact (hh _ _ _ _ _).1 hg
  · have hV' : Validator.Valid { V with surface := some s' } := ⟨hV.min_pos, hV.min_lt, hV.el, hV.thr, hV.radius⟩
    have := C109_obstructions hf hV' (s' := s) (by
      intro s0 h0 x1 y1 x2 y2 g hg
      cases h0
      exact (hh _ _ _ _ _).2 hg) a b
    have e : ({ { V with surface := some s' } with surface := some s } : Validator) = V := by
      cases V; simp only at hs; rw [hs]
    rwa [e] at this

/-- **C109, threshold.** Raising the threshold leaves the confidence as it is or makes it zero. -/
theorem C109_threshold {freq : ℝ} (hf : 0 < freq) {V : Validator} (hV : V.Valid) {thr : ℝ} (hthr : V.threshold ≤ thr)
    (h1 : thr ≤ 1) (a b : RSite) :
    ellipsoidal freq { V with threshold := thr } a b = ellipsoidal freq V a b
    ∨ ellipsoidal freq { V with threshold := thr } a b = 0 := by
  by_cases hp : passes V a b
  · have hp' : passes { V with threshold := thr } a b := hp
    obtain hsur | ⟨s, hsur⟩ : V.surface = none ∨ ∃ s, V.surface = some s := by
      cases V.surface <;> simp
    · rw [ellipsoidal_flat hp hsur, ellipsoidal_flat hp' hsur]
      exact .inl rfl
    · rw [ellipsoidal_some hp hsur, ellipsoidal_some hp' hsur]
      dsimp only
      have G := Zone.of_good (freq := freq) hp.1 hf hV.thr
      have G' := Zone.of_good (freq := freq) hp.1 hf (thr := thr) ⟨hV.thr.1.trans hthr, h1⟩
      have mem : (Zone.of freq thr a b).obstructions s a b = (Zone.of freq V.threshold a b).obstructions s a b := rfl
      have rad : ∀ g, (Zone.of freq thr a b).maxRadius g = (Zone.of freq V.threshold a b).maxRadius g := fun _ => rfl
      rw [mem]
      set L := (Zone.of freq V.threshold a b).obstructions s a b
      have mono : ∀ g, (Zone.of freq V.threshold a b).obstructsInner g → (Zone.of freq thr a b).obstructsInner g := by
        rintro g ⟨o1, o2, o3, o4⟩
        have t0 : 0 < V.threshold := lt_of_le_of_ne hV.thr.1 (Ne.symm o2)
        have i0 : 0 < (Zone.of freq V.threshold a b).inner := mul_pos G.radius t0
        have ile : (Zone.of freq V.threshold a b).inner ≤ (Zone.of freq thr a b).inner :=
          mul_le_mul_of_nonneg_left hthr G.radius.le
        have i1 := mul_pos i0 i0
        have i2 := mul_self_le_mul_self i0.le ile
        refine ⟨o1, (t0.trans_le hthr).ne', Zone.ellipse_anti i1 i2 o3, ?_⟩
        rw [Zone.lowerHeight_iff G i1] at o4
        obtain ⟨⟨z0, q0⟩, z', q1, q2⟩ := o4
        refine (Zone.lowerHeight_iff G' (i1.trans_le i2) _ _ _).2 ⟨⟨z0, ?_⟩, z', q1, ?_⟩
        · exact lt_of_le_of_lt (Zone.F_anti i1 i2 _) q0
        · exact (Zone.F_anti i1 i2 _).trans q2
      by_cases ho : ∃ g ∈ L, (Zone.of freq thr a b).obstructsInner g
      · exact .inr (Zone.scan_zero ho)
      · left
        have ho' : ¬ ∃ g ∈ L, (Zone.of freq V.threshold a b).obstructsInner g := fun ⟨g, hg, h⟩ => ho ⟨g, hg, mono g h⟩
        obtain ⟨_, a2, a3⟩ := Zone.scan_le G' (L := L) G'.radius.le
        obtain ⟨_, b2, b3⟩ := Zone.scan_le G (L := L) G.radius.le
        exact le_antisymm (Zone.scan_open G ho' _ a2 a3) (Zone.scan_open G' ho _ b2 b3)
  · rw [ellipsoidal_zero hp, ellipsoidal_zero (V := { V with threshold := thr }) hp]
    exact .inl rfl


namespace Zone

theorem scan_congr {Z Z' : Zone} (G : Z.Good) (G' : Z'.Good) (hr : Z'.radius = Z.radius) {L L' : List P3}
    (hL : ∀ g, g ∈ L ↔ g ∈ L') (ho : ∀ g ∈ L, Z.obstructsInner g ↔ Z'.obstructsInner g)
    (hm : ∀ g ∈ L, Z.maxRadius g = Z'.maxRadius g) : Z.scan Z.radius L = Z'.scan Z'.radius L' := by
  by_cases c : ∃ g ∈ L, Z.obstructsInner g
  · obtain ⟨g, hg, h⟩ := c
    rw [scan_zero ⟨g, hg, h⟩, scan_zero ⟨g, (hL g).1 hg, (ho g hg).1 h⟩]
  · have c' : ¬ ∃ g ∈ L', Z'.obstructsInner g :=
      fun ⟨g, hg, h⟩ => c ⟨g, (hL g).2 hg, (ho g ((hL g).2 hg)).2 h⟩
    obtain ⟨_, a2, a3⟩ := scan_le G (L := L) G.radius.le
    obtain ⟨_, b2, b3⟩ := scan_le G' (L := L') G'.radius.le
    apply le_antisymm
    · refine scan_open G' c' _ (by rw [hr]; exact a2) fun g hg => ?_
      rw [hr, ← hm g ((hL g).2 hg)]
      exact a3 g ((hL g).2 hg)
    · refine scan_open G c _ (by rw [← hr]; exact b2) fun g hg => ?_
      rw [← hr, hm g hg]
      exact b3 g ((hL g).1 hg)

/-- The zone of the reverse link. -/
theorem of_swap (freq thr : ℝ) (a b : RSite) :
    (Zone.of freq thr b a).radius = (Zone.of freq thr a b).radius
    ∧ (Zone.of freq thr b a).half2 = (Zone.of freq thr a b).half2
    ∧ (Zone.of freq thr b a).halfXY2 = (Zone.of freq thr a b).halfXY2
    ∧ (∀ x y, (Zone.of freq thr b a).u x y = -(Zone.of freq thr a b).u x y)
    ∧ (∀ x y, (Zone.of freq thr b a).v x y = -(Zone.of freq thr a b).v x y)
    ∧ (∀ g, (Zone.of freq thr b a).e1 g = -(Zone.of freq thr a b).e1 g)
    ∧ (∀ g, (Zone.of freq thr b a).e3 g = (Zone.of freq thr a b).e3 g) := by
  have e1 : (a.x - b.x) * (a.x - b.x) + (a.y - b.y) * (a.y - b.y)
      = (b.x - a.x) * (b.x - a.x) + (b.y - a.y) * (b.y - a.y) := by ring
  have e2 : (a.x - b.x) * (a.x - b.x) + (a.y - b.y) * (a.y - b.y)
      + (a.alt.getD 0 - b.alt.getD 0) * (a.alt.getD 0 - b.alt.getD 0)
      = (b.x - a.x) * (b.x - a.x) + (b.y - a.y) * (b.y - a.y)
      + (b.alt.getD 0 - a.alt.getD 0) * (b.alt.getD 0 - a.alt.getD 0) := by ring
  have cA : (Zone.of freq thr b a).cosA = -(Zone.of freq thr a b).cosA := by
    show (a.x - b.x) / Real.sqrt _ = -((b.x - a.x) / Real.sqrt _)
    rw [e1]; ring
  have sA : (Zone.of freq thr b a).sinA = -(Zone.of freq thr a b).sinA := by
    show (a.y - b.y) / Real.sqrt _ = -((b.y - a.y) / Real.sqrt _)
    rw [e1]; ring
  have cB : (Zone.of freq thr b a).cosB = (Zone.of freq thr a b).cosB := by
    show Real.sqrt _ / Real.sqrt _ = Real.sqrt _ / Real.sqrt _
    rw [e2, e1]
  have sB : (Zone.of freq thr b a).sinB = -(Zone.of freq thr a b).sinB := by
    show (a.alt.getD 0 - b.alt.getD 0) / Real.sqrt _ = -((b.alt.getD 0 - a.alt.getD 0) / Real.sqrt _)
    rw [e2]; ring
  have xm : (Zone.of freq thr b a).xm = (Zone.of freq thr a b).xm := by
    show (b.x + a.x) / 2 = (a.x + b.x) / 2
    ring
  have ym : (Zone.of freq thr b a).ym = (Zone.of freq thr a b).ym := by
    show (b.y + a.y) / 2 = (a.y + b.y) / 2
    ring
  have zm : (Zone.of freq thr b a).zm = (Zone.of freq thr a b).zm := by
    show (b.alt.getD 0 + a.alt.getD 0) / 2 = (a.alt.getD 0 + b.alt.getD 0) / 2
    ring
  have hu : ∀ x y, (Zone.of freq thr b a).u x y = -(Zone.of freq thr a b).u x y := by
    intro x y; unfold u; rw [cA, sA, xm, ym]; ring
  refine ⟨?_, ?_, ?_, hu, ?_, ?_, ?_⟩
  · show zoneMultiplier * Real.sqrt (Real.sqrt _ / freq) = zoneMultiplier * Real.sqrt (Real.sqrt _ / freq)
    rw [e2]
  · show _ / 4 = _ / 4
    rw [e2]
  · show _ / 4 = _ / 4
    rw [e1]
  · intro x y; unfold v; rw [cA, sA, xm, ym]; ring
  · intro g; unfold Zone.e1; rw [hu, cB, sB, zm]; ring
  · intro g; unfold Zone.e3; rw [hu, cB, sB, zm]; ring

/-- On a level link. -/
structure Level (Z : Zone) : Prop extends Z.Good where
  flat : Z.sinB = 0

variable {Z : Zone}

theorem Level.cosB_one (G : Z.Level) : Z.cosB = 1 := by
  have := G.circB
  rw [G.flat] at this
  nlinarith [G.cosB]

theorem Level.F_eq (G : Z.Level) (r2 : ℝ) (g : P3) : Z.F r2 g
    = Z.u g.x g.y * Z.u g.x g.y / Z.halfXY2 + (Z.v g.x g.y * Z.v g.x g.y + (g.z - Z.zm) * (g.z - Z.zm)) / r2 := by
  unfold F e1 e3
  rw [G.halfXY2, G.flat, G.cosB_one]
  simp

/-- The squared distance of the column below a cell from the level of the link. -/
noncomputable def drop (Z : Zone) (g : P3) : ℝ := min (g.z - Z.zm) 0 * min (g.z - Z.zm) 0

theorem drop_le {Z : Zone} {x y z z' : ℝ} (h : z' ≤ z) : Z.drop ⟨x, y, z⟩ ≤ (z' - Z.zm) * (z' - Z.zm) := by
  unfold drop
  dsimp only
  rcases le_total (z - Z.zm) 0 with c | c
  · rw [min_eq_left c]; nlinarith
  · rw [min_eq_right c]; nlinarith [mul_self_nonneg (z' - Z.zm)]

theorem Level.reach_iff (G : Z.Level) {r2 : ℝ} (hr : 0 < r2) (g : P3) :
    (∃ z ≤ g.z, Z.F r2 ⟨g.x, g.y, z⟩ < 1) ↔
      Z.u g.x g.y * Z.u g.x g.y / Z.halfXY2 + (Z.v g.x g.y * Z.v g.x g.y + Z.drop g) / r2 < 1 := by
  constructor
  · rintro ⟨z, hz, h⟩
    rw [G.F_eq] at h
    refine lt_of_le_of_lt ?_ h
    have : Z.drop g ≤ (z - Z.zm) * (z - Z.zm) := drop_le (x := g.x) (y := g.y) hz
    have := (div_le_div_iff_of_pos_right hr).2 (add_le_add_right this (Z.v g.x g.y * Z.v g.x g.y))
    dsimp only
    linarith
  · intro h
    refine ⟨Z.zm + min (g.z - Z.zm) 0, by linarith [min_le_left (g.z - Z.zm) 0], ?_⟩
    rw [G.F_eq]
    dsimp only
    rw [add_sub_cancel_left]
    exact h

theorem Level.touch_iff (G : Z.Level) {r2 : ℝ} (hr : 0 < r2) (g : P3) :
    (∃ z ≤ g.z, Z.F r2 ⟨g.x, g.y, z⟩ ≤ 1) ↔
      Z.u g.x g.y * Z.u g.x g.y / Z.halfXY2 + (Z.v g.x g.y * Z.v g.x g.y + Z.drop g) / r2 ≤ 1 := by
  constructor
  · rintro ⟨z, hz, h⟩
    rw [G.F_eq] at h
    refine le_trans ?_ h
    have : Z.drop g ≤ (z - Z.zm) * (z - Z.zm) := drop_le (x := g.x) (y := g.y) hz
    have := (div_le_div_iff_of_pos_right hr).2 (add_le_add_right this (Z.v g.x g.y * Z.v g.x g.y))
    dsimp only
    linarith
  · intro h
    refine ⟨Z.zm + min (g.z - Z.zm) 0, by linarith [min_le_left (g.z - Z.zm) 0], ?_⟩
    rw [G.F_eq]
    dsimp only
    rw [add_sub_cancel_left]
    exact h

theorem drop_nonneg (Z : Zone) (g : P3) : 0 ≤ Z.drop g := mul_self_nonneg _

theorem sqrt_lt_iff {q A ρ : ℝ} (hρ : 0 < ρ) (hA : A < 1) : Real.sqrt (q / (1 - A)) < ρ ↔ A + q / (ρ * ρ) < 1 := by
  have h1 : 0 < 1 - A := by linarith
  rw [Real.sqrt_lt' hρ, div_lt_iff₀ h1, ← lt_sub_iff_add_lt', div_lt_iff₀ (mul_pos hρ hρ)]
  constructor <;> intro h <;> nlinarith

/-- Whether a cell in the outer ellipse reaches into an ellipsoid within the zone. -/
theorem Level.maxRadius_lt (G : Z.Level) {g : P3} {ρ : ℝ} (h0 : 0 < ρ)
    (hle : ρ ≤ Z.radius) : Z.maxRadius g < ρ ↔ ∃ z ≤ g.z, Z.F (ρ * ρ) ⟨g.x, g.y, z⟩ < 1 := by
  have r2 := mul_pos h0 h0
  have R2 := mul_pos G.radius G.radius
  have le2 := mul_self_le_mul_self h0.le hle
  rw [maxRadius_cases G.toGood]
  by_cases c : ∃ h ∈ Z.lowerHeight g.x g.y (Z.radius * Z.radius), g.z ≥ h
  · rw [if_pos c]
    rw [lowerHeight_iff G.toGood R2] at c
    obtain ⟨⟨z0, hz0⟩, _⟩ := c
    rw [G.reach_iff r2]
    have hA : Z.u g.x g.y * Z.u g.x g.y / Z.halfXY2 < 1 := by
      rw [G.F_eq] at hz0
      dsimp only at hz0
      have : 0 ≤ (Z.v g.x g.y * Z.v g.x g.y + (z0 - Z.zm) * (z0 - Z.zm)) / (Z.radius * Z.radius) :=
        div_nonneg (add_nonneg (mul_self_nonneg _) (mul_self_nonneg _)) R2.le
      linarith
    have he3 : Z.e3 g = g.z - Z.zm := by unfold e3; rw [G.cosB_one, G.flat]; ring
    have he1 : Z.e1 g = Z.u g.x g.y := by unfold e1; rw [G.cosB_one, G.flat]; ring
    have hh : Z.half2 = Z.halfXY2 := by rw [G.halfXY2, G.cosB_one]; ring
    by_cases d : 0 ≤ Z.e3 g
    · rw [if_pos d, radius2d_eq, if_neg (not_le.2 hA), sqrt_lt_iff h0 hA]
      have : Z.drop g = 0 := by unfold drop; rw [min_eq_right (by rw [← he3]; exact d)]; ring
      rw [this, add_zero]
    · rw [if_neg d, radius3d_eq, he1, hh, if_neg (not_le.2 hA), sqrt_lt_iff h0 hA, he3]
      have : Z.drop g = (g.z - Z.zm) * (g.z - Z.zm) := by
        unfold drop; rw [min_eq_left (by rw [← he3]; exact (not_le.1 d).le)]
      rw [this]
  · rw [if_neg c]
    constructor
    · intro h; exact absurd hle (not_le.2 h)
    · rintro ⟨z, hz, h⟩
      have h' := lt_of_le_of_lt (F_anti r2 le2 _) h
      exact absurd ((lowerHeight_iff G.toGood R2 _ _ _).2 ⟨⟨z, h'⟩, z, hz, h'.le⟩) c

theorem Level.obstructs_of (G : Z.Level) (ht : 0 < Z.threshold) {g : P3}
    (h : ∃ z ≤ g.z, Z.F (Z.inner * Z.inner) ⟨g.x, g.y, z⟩ < 1) : Z.obstructsInner g := by
  have i0 : 0 < Z.inner := mul_pos G.radius ht
  have i2 := mul_pos i0 i0
  have h' := (G.reach_iff i2 g).1 h
  have hd : 0 ≤ (Z.v g.x g.y * Z.v g.x g.y + Z.drop g) / (Z.inner * Z.inner) :=
    div_nonneg (add_nonneg (mul_self_nonneg _) (drop_nonneg _ _)) i2.le
  have hne : Z.halfXY2 ≠ 0 := by
    rw [G.halfXY2]
    exact (mul_pos G.half2 (mul_pos G.cosB G.cosB)).ne'
  refine ⟨?_, ht.ne', ?_, (lowerHeight_iff G.toGood i2 _ _ _).2 ?_⟩
  · rintro (⟨p, q⟩ | ⟨p, q⟩) <;> rw [p, q] at h' hd
    · rw [G.site1.2, div_self hne] at h'; linarith
    · rw [G.site2.2, div_self hne] at h'; linarith
  · rw [inEllipse_iff]
    have : Z.v g.x g.y * Z.v g.x g.y / (Z.inner * Z.inner)
        ≤ (Z.v g.x g.y * Z.v g.x g.y + Z.drop g) / (Z.inner * Z.inner) :=
      (div_le_div_iff_of_pos_right i2).2 (by linarith [drop_nonneg Z g])
    linarith
  · obtain ⟨z, hz, hF⟩ := h
    exact ⟨⟨z, hF⟩, z, hz, hF.le⟩

end Zone

/-- **C109, symmetric.** The confidence is the same in both directions. -/
theorem C109_symmetric {freq : ℝ} (hf : 0 < freq) {V : Validator} (hV : V.Valid) (a b : RSite) :
    ellipsoidal freq V b a = ellipsoidal freq V a b := by
  by_cases hp : passes V a b
  · have hp' := passes_swap hp
    obtain hsur | ⟨s, hsur⟩ : V.surface = none ∨ ∃ s, V.surface = some s := by
      cases V.surface <;> simp
    · rw [ellipsoidal_flat hp hsur, ellipsoidal_flat hp' hsur]
    · rw [ellipsoidal_some hp hsur, ellipsoidal_some hp' hsur]
      have G := Zone.of_good (freq := freq) hp.1 hf hV.thr
      have G' := Zone.of_good (freq := freq) hp'.1 hf hV.thr
      obtain ⟨w1, w2, w3, w4, w5, w6, w7⟩ := Zone.of_swap freq V.threshold a b
      have hF : ∀ r2 g, (Zone.of freq V.threshold b a).F r2 g = (Zone.of freq V.threshold a b).F r2 g := by
        intro r2 g
        unfold Zone.F
        rw [w2, w5, w6, w7, neg_mul_neg, neg_mul_neg]
      have hE : ∀ r2 x y, (Zone.of freq V.threshold b a).inEllipse r2 x y ↔ (Zone.of freq V.threshold a b).inEllipse r2 x y := by
        intro r2 x y
        rw [Zone.inEllipse_iff, Zone.inEllipse_iff, w3, w4, w5, neg_mul_neg, neg_mul_neg]
      have hH : ∀ {r2}, 0 < r2 → ∀ x y z, (∃ h ∈ (Zone.of freq V.threshold b a).lowerHeight x y r2, z ≥ h)
          ↔ ∃ h ∈ (Zone.of freq V.threshold a b).lowerHeight x y r2, z ≥ h := by
        intro r2 hr x y z
        rw [Zone.lowerHeight_iff G hr, Zone.lowerHeight_iff G' hr]
        simp only [hF]
      have hr : fresnelRadius freq b a = fresnelRadius freq a b := w1
      refine Zone.scan_congr G' G w1.symm ?_ ?_ ?_
      · intro g
        rw [Zone.mem_obstructions, Zone.mem_obstructions, hr, box_swap, hE]
      · intro g _
        have hi : (Zone.of freq V.threshold b a).inner = (Zone.of freq V.threshold a b).inner := by
          unfold Zone.inner; rw [w1]; rfl
        by_cases t0 : V.threshold = 0
        · constructor <;> rintro ⟨_, h, _⟩ <;> exact absurd t0 h
        · have i0 : 0 < (Zone.of freq V.threshold a b).inner :=
            mul_pos G.radius (lt_of_le_of_ne hV.thr.1 (Ne.symm t0))
          unfold Zone.obstructsInner
          rw [hi, hE, hH (mul_pos i0 i0)]
          have : ((g.x = b.x ∧ g.y = b.y) ∨ (g.x = a.x ∧ g.y = a.y)) ↔ ((g.x = a.x ∧ g.y = a.y) ∨ (g.x = b.x ∧ g.y = b.y)) :=
            or_comm
          exact and_congr (not_congr this) Iff.rfl
      · intro g _
        rw [Zone.maxRadius_cases G, Zone.maxRadius_cases G', w1, w7, Zone.radius2d_eq, Zone.radius2d_eq,
          Zone.radius3d_eq, Zone.radius3d_eq, w1, w2, w3, w4, w5, w6, w7, neg_mul_neg, neg_mul_neg, neg_mul_neg]
        simp only [hH (mul_pos G.radius G.radius)]
  · rw [ellipsoidal_zero hp, ellipsoidal_zero (fun c => hp (passes_swap c))]


theorem Zone.of_level {freq thr : ℝ} {a b : RSite} (hxy : ¬ sameXY a b) (hf : 0 < freq) (ht : 0 ≤ thr ∧ thr ≤ 1)
    (hz : a.alt.getD 0 = b.alt.getD 0) : (Zone.of freq thr a b).Level := by
  refine ⟨Zone.of_good hxy hf ht, ?_⟩
  show (b.alt.getD 0 - a.alt.getD 0) / _ = 0
  rw [hz, sub_self, zero_div]

theorem not_reaches_zero {a b : RSite} (hxy : ¬ sameXY a b) (g : P3) : ¬ ReachesInto a b 0 g := by
  rintro ⟨z, _, h⟩
  unfold InsideZone at h
  have := (Zone.of_coords 1 1 hxy ⟨g.x, g.y, z⟩).2.1
  rw [← this] at h
  simp only [mul_zero, zero_mul] at h
  nlinarith [mul_self_nonneg ((Zone.of 1 1 a b).v g.x g.y), mul_self_nonneg ((Zone.of 1 1 a b).e3 ⟨g.x, g.y, z⟩)]

/-- **C109, level links.** Between sites of the same altitude, with the radius `r` of the Fresnel zone: if the surface
reaches into the ellipsoid with the threshold times `r`, the confidence is zero; if the confidence is zero, it reaches
into each greater ellipsoid. Otherwise the confidence is at least the threshold and it is the exact clearance: the
surface does not reach into the ellipsoid with the confidence times `r`, but into each greater one within the zone. -/
theorem C109_level {freq : ℝ} (hf : 0 < freq) {V : Validator} (hV : V.Valid) {a b : RSite} (hp : passes V a b)
    {s : ℝ → ℝ → ℝ → ℝ → List P3} (hs : V.surface = some s) (hz : a.alt.getD 0 = b.alt.getD 0) :
    let r := fresnelRadius freq a b
    let c := ellipsoidal freq V a b
    let cells := boxCells s r a b
    (0 < V.threshold → (∃ g ∈ cells, ReachesInto a b (V.threshold * r) g) → c = 0)
    ∧ (0 < V.threshold → c = 0 → ∀ ρ, V.threshold * r < ρ → ρ ≤ r → ∃ g ∈ cells, ReachesInto a b ρ g)
    ∧ (c ≠ 0 → V.threshold ≤ c)
    ∧ (c ≠ 0 ∨ V.threshold = 0 → (∀ g ∈ cells, ¬ ReachesInto a b (c * r) g)
        ∧ ∀ ρ, c * r < ρ → ρ ≤ r → ∃ g ∈ cells, ReachesInto a b ρ g) := by
  intro r c cells
  have G := Zone.of_level (freq := freq) hp.1 hf hV.thr hz
  have hr : (Zone.of freq V.threshold a b).radius = r := rfl
  have r0 : 0 < r := G.radius
  have hc : c = (Zone.of freq V.threshold a b).scan r ((Zone.of freq V.threshold a b).obstructions s a b) :=
    ellipsoidal_some hp hs
  have hin : (Zone.of freq V.threshold a b).inner = V.threshold * r := mul_comm _ _
  set Z := Zone.of freq V.threshold a b with hZ
  set L := Z.obstructions s a b with hL
  have hthr : Z.threshold = V.threshold := rfl
  have reach : ∀ {ρ}, 0 < ρ → ∀ g, ReachesInto a b ρ g ↔ ∃ z ≤ g.z, Z.F (ρ * ρ) ⟨g.x, g.y, z⟩ < 1 :=
    fun h g => Zone.reaches_iff freq V.threshold hp.1 h g
  have mem : ∀ {ρ}, 0 < ρ → ρ ≤ r → ∀ g ∈ cells, ReachesInto a b ρ g → g ∈ L := by
    intro ρ h0 hle g hg h
    rw [reach h0, G.reach_iff (mul_pos h0 h0)] at h
    refine Zone.mem_obstructions.2 ⟨hg, ?_⟩
    have e : Z.inEllipse (ρ * ρ) g.x g.y := by
      rw [Zone.inEllipse_iff]
      have : Z.v g.x g.y * Z.v g.x g.y / (ρ * ρ) ≤ (Z.v g.x g.y * Z.v g.x g.y + Z.drop g) / (ρ * ρ) :=
        (div_le_div_iff_of_pos_right (mul_pos h0 h0)).2 (by linarith [Zone.drop_nonneg Z g])
      linarith
    exact Zone.ellipse_anti (mul_pos h0 h0) (mul_self_le_mul_self h0.le hle) e
  have sub : ∀ g ∈ L, g ∈ cells := fun g hg => (Zone.mem_obstructions.1 hg).1
  obtain ⟨b1, b2, b3⟩ := Zone.scan_le G.toGood (L := L) G.radius.le
  have tr : V.threshold * r ≤ r := mul_le_of_le_one_left r0.le hV.thr.2
  have low : (¬ ∃ g ∈ L, Z.obstructsInner g) → V.threshold ≤ c := by
    intro hno
    rw [hc]
    apply Zone.scan_open G.toGood hno
    · rw [hr, div_self r0.ne']; exact hV.thr.2
    · intro g hg
      rw [hr, le_div_iff₀ r0]
      by_cases t0 : V.threshold = 0
      · rw [t0, zero_mul]; exact Zone.maxRadius_nonneg G.toGood g
      · have t1 := lt_of_le_of_ne hV.thr.1 (Ne.symm t0)
        by_contra hlt
        push Not at hlt
        have := (G.maxRadius_lt (g := g) (mul_pos t1 r0) tr).1 hlt
        rw [← hin] at this
        exact hno ⟨g, hg, G.obstructs_of t1 this⟩
  have clear : (¬ ∃ g ∈ L, Z.obstructsInner g) → (∀ g ∈ cells, ¬ ReachesInto a b (c * r) g)
        ∧ ∀ ρ, c * r < ρ → ρ ≤ r → ∃ g ∈ cells, ReachesInto a b ρ g := by
    intro hno
    have hcr : c * r ≤ r := by
      rw [hc]
      have := b2
      rw [hr, div_self r0.ne'] at this
      exact mul_le_of_le_one_left r0.le this
    have hc0 : 0 ≤ c := by rw [hc]; exact b1
    constructor
    · intro g hg h
      rcases hc0.eq_or_lt with e | e
      · rw [← e, zero_mul] at h
        exact not_reaches_zero hp.1 g h
      · have p0 := mul_pos e r0
        have hg' := mem p0 hcr g hg h
        have := (G.maxRadius_lt (g := g) p0 hcr).2 ((reach p0 g).1 h)
        have q := b3 g hg'
        rw [hr, ← hc, le_div_iff₀ r0] at q
        linarith
    · intro ρ h1 h2
      have h0 : 0 < ρ := lt_of_le_of_lt (mul_nonneg hc0 r0.le) h1
      by_contra hne
      push Not at hne
      have : ρ / r ≤ c := by
        rw [hc]
        apply Zone.scan_open G.toGood hno
        · exact (div_le_div_iff_of_pos_right r0).2 h2
        · intro g hg
          rw [hr]
          apply (div_le_div_iff_of_pos_right r0).2
          by_contra hlt
          push Not at hlt
          exact hne g (sub g hg) ((reach h0 g).2 ((G.maxRadius_lt (g := g) h0 h2).1 hlt))
      rw [div_le_iff₀ r0] at this
      linarith
  refine ⟨?_, ?_, ?_, ?_⟩
  · rintro t0 ⟨g, hg, h⟩
    have p0 := mul_pos t0 r0
    rw [hc]
    refine Zone.scan_zero ⟨g, mem p0 tr g hg h, G.obstructs_of t0 ?_⟩
    rw [hin]
    exact (reach p0 g).1 h
  · intro t0 h0 ρ h1 h2
    by_cases hno : ∃ g ∈ L, Z.obstructsInner g
    · obtain ⟨g, hg, ⟨_, _, _, o⟩⟩ := hno
      refine ⟨g, sub g hg, ?_⟩
      have p0 := mul_pos t0 r0
      have q0 : 0 < ρ := p0.trans h1
      rw [hin, Zone.lowerHeight_iff G.toGood (mul_pos p0 p0)] at o
      obtain ⟨⟨z0, o1⟩, o2⟩ := o
      rw [G.F_eq] at o1
      dsimp only at o1
      have hA : Z.u g.x g.y * Z.u g.x g.y / Z.halfXY2 < 1 := by
        have : 0 ≤ (Z.v g.x g.y * Z.v g.x g.y + (z0 - Z.zm) * (z0 - Z.zm)) / (V.threshold * r * (V.threshold * r)) :=
          div_nonneg (add_nonneg (mul_self_nonneg _) (mul_self_nonneg _)) (mul_pos p0 p0).le
        linarith
      have o3 := (G.touch_iff (mul_pos p0 p0) g).1 o2
      rw [reach q0, G.reach_iff (mul_pos q0 q0)]
      rcases (add_nonneg (mul_self_nonneg (Z.v g.x g.y)) (Zone.drop_nonneg Z g)).eq_or_lt with e | e
      · rw [← e]; simpa using hA
      · have := div_lt_div_of_pos_left e (mul_pos p0 p0) (mul_self_lt_mul_self p0.le h1)
        linarith
    · have := low hno
      rw [h0] at this
      exact absurd t0 (not_lt.2 this)
  · intro h0
    exact low fun h => h0 (by rw [hc]; exact Zone.scan_zero h)
  · intro h
    apply clear
    rintro ⟨g, hg, ho⟩
    rcases h with h | h
    · exact h (by rw [hc]; exact Zone.scan_zero ⟨g, hg, ho⟩)
    · exact ho.2.1 h

/-- **C109, blocked.** A cell of the surface that is vertically above or on a point of the line between the sites makes
the confidence zero, for level and sloped links and each threshold. -/
theorem C109_blocked {freq : ℝ} (hf : 0 < freq) {V : Validator} (hV : V.Valid) {a b : RSite} (hp : passes V a b)
    {s : ℝ → ℝ → ℝ → ℝ → List P3} (hs : V.surface = some s) {g : P3}
    (hg : g ∈ boxCells s (fresnelRadius freq a b) a b) {t : ℝ} (t0 : 0 < t) (t1 : t < 1)
    (hx : g.x = a.x + t * (b.x - a.x)) (hy : g.y = a.y + t * (b.y - a.y))
    (hz : a.alt.getD 0 + t * (b.alt.getD 0 - a.alt.getD 0) ≤ g.z) : ellipsoidal freq V a b = 0 := by
  have G := Zone.of_good (freq := freq) hp.1 hf hV.thr
  have hr : (Zone.of freq V.threshold a b).radius = fresnelRadius freq a b := rfl
  have hH := b2_pos hp.1
  simp only [toward] at hH
  have sH := Real.sqrt_pos.2 hH
  have qH := Real.mul_self_sqrt hH.le
  have hu : (Zone.of freq V.threshold a b).u g.x g.y
      = (t - 1 / 2) * Real.sqrt ((b.x - a.x) * (b.x - a.x) + (b.y - a.y) * (b.y - a.y)) := by
    show (g.x - (a.x + b.x) / 2) * ((b.x - a.x) / _) + (g.y - (a.y + b.y) / 2) * ((b.y - a.y) / _) = _
    rw [← mul_div_assoc, ← mul_div_assoc, ← add_div, div_eq_iff sH.ne', mul_assoc, qH, hx, hy]
    ring
  have hv : (Zone.of freq V.threshold a b).v g.x g.y = 0 := by
    show (g.x - (a.x + b.x) / 2) * ((b.y - a.y) / _) - (g.y - (a.y + b.y) / 2) * ((b.x - a.x) / _) = _
    rw [← mul_div_assoc, ← mul_div_assoc, ← sub_div, div_eq_iff sH.ne', hx, hy]
    ring
  have hA : (Zone.of freq V.threshold a b).u g.x g.y * (Zone.of freq V.threshold a b).u g.x g.y
      / (Zone.of freq V.threshold a b).halfXY2 < 1 := by
    show _ / (((b.x - a.x) * (b.x - a.x) + (b.y - a.y) * (b.y - a.y)) / 4) < 1
    rw [hu, div_lt_one (by linarith), mul_mul_mul_comm, qH]
    have := mul_pos (mul_pos t0 (sub_pos.2 t1)) hH
    linear_combination this
  have plane : (Zone.of freq V.threshold a b).zm + (Zone.of freq V.threshold a b).u g.x g.y
      * (Zone.of freq V.threshold a b).sinB / (Zone.of freq V.threshold a b).cosB ≤ g.z := by
    have e : (Zone.of freq V.threshold a b).sinB / (Zone.of freq V.threshold a b).cosB
        = (b.alt.getD 0 - a.alt.getD 0) / Real.sqrt ((b.x - a.x) * (b.x - a.x) + (b.y - a.y) * (b.y - a.y)) := by
      have hD : 0 < length2 a b := (Zone.of_coords freq V.threshold hp.1 g).2.2.2
      have sD := Real.sqrt_pos.2 hD
      show (b.alt.getD 0 - a.alt.getD 0) / Real.sqrt (length2 a b) / (Real.sqrt _ / Real.sqrt (length2 a b)) = _
      rw [div_div_div_cancel_right₀ sD.ne']
    rw [mul_div_assoc, e, hu]
    refine le_trans (le_of_eq ?_) hz
    show (a.alt.getD 0 + b.alt.getD 0) / 2 + _ = _
    rw [mul_assoc, mul_div_cancel₀ _ sH.ne']
    ring
  have flat : ∀ r2, (Zone.of freq V.threshold a b).F r2 ⟨g.x, g.y, (Zone.of freq V.threshold a b).zm
      + (Zone.of freq V.threshold a b).u g.x g.y * (Zone.of freq V.threshold a b).sinB
        / (Zone.of freq V.threshold a b).cosB⟩ < 1 := by
    intro r2
    rw [(Zone.onPlane G g.x g.y r2).2, hv, mul_zero, zero_div, add_zero]
    exact hA
  have high : ∀ {r2}, 0 < r2 → ∃ h ∈ (Zone.of freq V.threshold a b).lowerHeight g.x g.y r2, g.z ≥ h := by
    intro r2 h
    exact (Zone.lowerHeight_iff G h _ _ _).2 ⟨⟨_, flat r2⟩, _, plane, (flat r2).le⟩
  have mem : g ∈ (Zone.of freq V.threshold a b).obstructions s a b := by
    refine Zone.mem_obstructions.2 ⟨hg, ?_⟩
    rw [Zone.inEllipse_iff, hv, mul_zero, zero_div, add_zero]
    exact hA.le
  rw [ellipsoidal_some hp hs]
  by_cases th : V.threshold = 0
  · obtain ⟨b1, _, b3⟩ := Zone.scan_le G (L := (Zone.of freq V.threshold a b).obstructions s a b) G.radius.le
    refine le_antisymm ?_ b1
    refine (b3 g mem).trans ?_
    have he3 : 0 ≤ (Zone.of freq V.threshold a b).e3 g := by
      rw [← Zone.plane_iff G, G.plane]
      exact plane
    rw [Zone.maxRadius_cases G, if_pos (high (mul_pos G.radius G.radius)), if_pos he3, Zone.radius2d_eq,
      if_neg (not_le.2 hA), hv, mul_zero, zero_div, Real.sqrt_zero, zero_div]
  · have i0 : 0 < (Zone.of freq V.threshold a b).inner := mul_pos G.radius (lt_of_le_of_ne hV.thr.1 (Ne.symm th))
    refine Zone.scan_zero ⟨g, mem, ?_, th, ?_, high (mul_pos i0 i0)⟩
    · rintro (⟨p, q⟩ | ⟨p, q⟩)
      · have := G.site1.2
        rw [← p, ← q] at this
        rw [this, div_self] at hA
        · exact lt_irrefl _ hA
        · show ((b.x - a.x) * (b.x - a.x) + (b.y - a.y) * (b.y - a.y)) / 4 ≠ 0
          linarith
      · have := G.site2.2
        rw [← p, ← q] at this
        rw [this, div_self] at hA
        · exact lt_irrefl _ hA
        · show ((b.x - a.x) * (b.x - a.x) + (b.y - a.y) * (b.y - a.y)) / 4 ≠ 0
          linarith
    · rw [Zone.inEllipse_iff, hv, mul_zero, zero_div, add_zero]
      exact hA.le


/-- The site at altitude zero. -/
def ground (a : RSite) : RSite := { a with alt := some 0 }

/-- **C109, sloped links.** With a positive threshold and a confidence other than zero, no cell that lies, seen from
above, inside the ellipse with the threshold times the radius of the zone reaches into the ellipsoid with that radius. -/
theorem C109_inner {freq : ℝ} (hf : 0 < freq) {V : Validator} (hV : V.Valid) {a b : RSite} (hp : passes V a b)
    {s : ℝ → ℝ → ℝ → ℝ → List P3} (hs : V.surface = some s) (ht : 0 < V.threshold)
    (hc : ellipsoidal freq V a b ≠ 0) :
    ∀ g ∈ boxCells s (fresnelRadius freq a b) a b,
      InsideZone (ground a) (ground b) (V.threshold * fresnelRadius freq a b) ⟨g.x, g.y, 0⟩ →
      ¬ ReachesInto a b (V.threshold * fresnelRadius freq a b) g := by
  intro g hg hin hre
  have G := Zone.of_good (freq := freq) hp.1 hf hV.thr
  have r0 : 0 < fresnelRadius freq a b := G.radius
  have p0 := mul_pos ht r0
  have G0 : (Zone.of freq V.threshold (ground a) (ground b)).Level := Zone.of_level hp.1 hf hV.thr rfl
  rw [Zone.inside_iff freq V.threshold (show ¬ sameXY (ground a) (ground b) from hp.1) p0, G0.F_eq] at hin
  have e1 : (Zone.of freq V.threshold (ground a) (ground b)).halfXY2 = (Zone.of freq V.threshold a b).halfXY2 := rfl
  have e2 : (Zone.of freq V.threshold (ground a) (ground b)).u g.x g.y = (Zone.of freq V.threshold a b).u g.x g.y := rfl
  have e3 : (Zone.of freq V.threshold (ground a) (ground b)).v g.x g.y = (Zone.of freq V.threshold a b).v g.x g.y := rfl
  have e4 : (Zone.of freq V.threshold (ground a) (ground b)).zm = 0 := by
    show ((0 : ℝ) + 0) / 2 = 0
    norm_num
  dsimp only at hin
  rw [e1, e2, e3, e4, sub_self, mul_zero, add_zero] at hin
  have hi : (Zone.of freq V.threshold a b).inner = V.threshold * fresnelRadius freq a b := mul_comm _ _
  have hA : (Zone.of freq V.threshold a b).u g.x g.y * (Zone.of freq V.threshold a b).u g.x g.y
      / (Zone.of freq V.threshold a b).halfXY2 < 1 := by
    have := div_nonneg (mul_self_nonneg ((Zone.of freq V.threshold a b).v g.x g.y)) (mul_pos p0 p0).le
    linarith
  have hH := b2_pos hp.1
  simp only [toward] at hH
  have hne : (Zone.of freq V.threshold a b).halfXY2 ≠ 0 := by
    show ((b.x - a.x) * (b.x - a.x) + (b.y - a.y) * (b.y - a.y)) / 4 ≠ 0
    linarith
  have el : (Zone.of freq V.threshold a b).inEllipse
      (V.threshold * fresnelRadius freq a b * (V.threshold * fresnelRadius freq a b)) g.x g.y :=
    Zone.inEllipse_iff.2 hin.le
  apply hc
  rw [ellipsoidal_some hp hs]
  refine Zone.scan_zero ⟨g, Zone.mem_obstructions.2 ⟨hg, ?_⟩, ?_, ht.ne', ?_, ?_⟩
  · exact Zone.ellipse_anti (mul_pos p0 p0)
      (mul_self_le_mul_self p0.le (mul_le_of_le_one_left r0.le hV.thr.2)) el
  · rintro (⟨p, q⟩ | ⟨p, q⟩)
    · have := G.site1.2
      rw [← p, ← q] at this
      rw [this, div_self hne] at hA
      exact lt_irrefl _ hA
    · have := G.site2.2
      rw [← p, ← q] at this
      rw [this, div_self hne] at hA
      exact lt_irrefl _ hA
  · rw [hi]; exact el
  · rw [hi]
    obtain ⟨z, h1, h2⟩ := (Zone.reaches_iff freq V.threshold hp.1 p0 g).1 hre
    exact (Zone.lowerHeight_iff G (mul_pos p0 p0) _ _ _).2 ⟨⟨z, h2⟩, z, h1, h2.le⟩

/-- A link that is 60 meters long seen from above and climbs 80 meters; with this frequency the radius of its Fresnel
zone is 10 meters. -/
noncomputable def slopeA : RSite := ⟨-30, 0, some (-40), .unknown, none⟩
noncomputable def slopeB : RSite := ⟨30, 0, some 40, .unknown, none⟩
noncomputable def slopeFreq : ℝ := zoneMultiplier * zoneMultiplier
noncomputable def slopeV (z : ℝ) : Validator :=
  { surface := some fun _ _ _ _ => [⟨244 / 10, 292 / 100, z⟩], maxDist := 200, minDist := 5, maxEl := 90, radius := 1,
    threshold := 1 / 2 }

theorem slopeV_valid (z : ℝ) : (slopeV z).Valid :=
  ⟨by norm_num [slopeV], by norm_num [slopeV], by norm_num [slopeV], by norm_num [slopeV], by norm_num [slopeV]⟩

theorem slope_passes (z : ℝ) : passes (slopeV z) slopeA slopeB := by
  refine ⟨?_, ?_, ?_, ?_, ?_⟩
  · rintro ⟨h, _⟩; norm_num [slopeA, slopeB] at h
  · rintro ⟨_, h, _⟩; cases h
  · have : losDistance slopeA slopeB = 100 := by
      unfold losDistance zDiff
      show Real.sqrt ((-30 - 30) * (-30 - 30) + (0 - 0) * (0 - 0) + (-40 - 40) * (-40 - 40)) = 100
      rw [show ((-30 - 30) * (-30 - 30) + (0 - 0) * (0 - 0) + (-40 - 40) * (-40 - 40) : ℝ) = 100 * 100 by norm_num]
      exact Real.sqrt_mul_self (by norm_num)
    rw [this]
    norm_num [slopeV]
  · show ¬ (Real.arcsin (|(-40 : ℝ) - 40| / losDistance slopeA slopeB) * 180 / Real.pi > 90)
    have := Real.arcsin_le_pi_div_two (|(-40 : ℝ) - 40| / losDistance slopeA slopeB)
    rw [gt_iff_lt, not_lt, div_le_iff₀ Real.pi_pos]
    linarith
  · intro z hz; cases hz

theorem slope_zone : (Zone.of slopeFreq (1 / 2) slopeA slopeB).radius = 10
    ∧ (Zone.of slopeFreq (1 / 2) slopeA slopeB).cosB = 6 / 10 ∧ (Zone.of slopeFreq (1 / 2) slopeA slopeB).sinB = 8 / 10
    ∧ (Zone.of slopeFreq (1 / 2) slopeA slopeB).half2 = 2500 ∧ (Zone.of slopeFreq (1 / 2) slopeA slopeB).halfXY2 = 900
    ∧ (Zone.of slopeFreq (1 / 2) slopeA slopeB).zm = 0
    ∧ (∀ x y, (Zone.of slopeFreq (1 / 2) slopeA slopeB).u x y = x ∧ (Zone.of slopeFreq (1 / 2) slopeA slopeB).v x y = -y) := by
  have q1 : Real.sqrt ((30 - -30) * (30 - -30) + (0 - 0) * (0 - 0)) = 60 := by
    rw [show ((30 - -30) * (30 - -30) + (0 - 0) * (0 - 0) : ℝ) = 60 * 60 by norm_num]
    exact Real.sqrt_mul_self (by norm_num)
  have q2 : Real.sqrt ((30 - -30) * (30 - -30) + (0 - 0) * (0 - 0) + (40 - -40) * (40 - -40)) = 100 := by
    rw [show ((30 - -30) * (30 - -30) + (0 - 0) * (0 - 0) + (40 - -40) * (40 - -40) : ℝ) = 100 * 100 by norm_num]
    exact Real.sqrt_mul_self (by norm_num)
  have m0 : 0 < zoneMultiplier := by norm_num [zoneMultiplier]
  refine ⟨?_, ?_, ?_, ?_, ?_, ?_, fun x y => ⟨?_, ?_⟩⟩
  · show zoneMultiplier * Real.sqrt (Real.sqrt ((30 - -30) * (30 - -30) + (0 - 0) * (0 - 0) + (40 - -40) * (40 - -40))
      / (zoneMultiplier * zoneMultiplier)) = 10
    rw [q2, show (100 : ℝ) / (zoneMultiplier * zoneMultiplier) = 10 / zoneMultiplier * (10 / zoneMultiplier) by
      rw [div_mul_div_comm]; norm_num, Real.sqrt_mul_self (by positivity), mul_div_cancel₀ _ m0.ne']
  · show Real.sqrt ((30 - -30) * (30 - -30) + (0 - 0) * (0 - 0)) / Real.sqrt ((30 - -30) * (30 - -30) + (0 - 0) * (0 - 0)
      + (40 - -40) * (40 - -40)) = _
    rw [q1, q2]; norm_num
  · show (40 - -40) / Real.sqrt ((30 - -30) * (30 - -30) + (0 - 0) * (0 - 0) + (40 - -40) * (40 - -40)) = (8 : ℝ) / 10
    rw [q2]; norm_num
  · show ((30 - -30) * (30 - -30) + (0 - 0) * (0 - 0) + (40 - -40) * (40 - -40)) / 4 = (2500 : ℝ)
    norm_num
  · show ((30 - -30) * (30 - -30) + (0 - 0) * (0 - 0)) / 4 = (900 : ℝ)
    norm_num
  · show ((-40 : ℝ) + 40) / 2 = 0
    norm_num
  · show (x - (-30 + 30) / 2) * ((30 - -30) / Real.sqrt ((30 - -30) * (30 - -30) + (0 - 0) * (0 - 0)))
      + (y - (0 + 0) / 2) * ((0 - 0) / Real.sqrt ((30 - -30) * (30 - -30) + (0 - 0) * (0 - 0))) = x
    rw [q1]; norm_num
  · show (x - (-30 + 30) / 2) * ((0 - 0) / Real.sqrt ((30 - -30) * (30 - -30) + (0 - 0) * (0 - 0)))
      - (y - (0 + 0) / 2) * ((30 - -30) / Real.sqrt ((30 - -30) * (30 - -30) + (0 - 0) * (0 - 0))) = -y
    rw [q1]; norm_num

theorem slope_value (z : ℝ) : ellipsoidal slopeFreq (slopeV z) slopeA slopeB
    = min ((Zone.of slopeFreq (1 / 2) slopeA slopeB).maxRadius ⟨244 / 10, 292 / 100, z⟩) 10 / 10 := by
  obtain ⟨h1, h2, h3, h4, h5, h6, h7⟩ := slope_zone
  rw [ellipsoidal_some (slope_passes z) rfl]
  show (Zone.of slopeFreq (1 / 2) slopeA slopeB).scan (Zone.of slopeFreq (1 / 2) slopeA slopeB).radius
    (([⟨244 / 10, 292 / 100, z⟩] : List P3).filter fun g => decide ((Zone.of slopeFreq (1 / 2) slopeA slopeB).inEllipse
      ((Zone.of slopeFreq (1 / 2) slopeA slopeB).radius * (Zone.of slopeFreq (1 / 2) slopeA slopeB).radius) g.x g.y)) = _
  rw [List.filter_cons_of_pos (by
    rw [decide_eq_true_eq, Zone.inEllipse_iff, (h7 _ _).1, (h7 _ _).2, h1, h5]
    norm_num), List.filter_nil, Zone.scan, if_neg, Zone.scan, h1]
  rintro ⟨_, _, h, _⟩
  have hi : (Zone.of slopeFreq (1 / 2) slopeA slopeB).inner = 5 := by
    unfold Zone.inner
    rw [h1]
    show (10 : ℝ) * (1 / 2) = 5
    norm_num
  rw [Zone.inEllipse_iff, (h7 _ _).1, (h7 _ _).2, hi, h5] at h
  norm_num at h

theorem slope_good : (Zone.of slopeFreq (1 / 2) slopeA slopeB).Good :=
  Zone.of_good (slope_passes 0).1 (mul_pos (by norm_num [zoneMultiplier]) (by norm_num [zoneMultiplier])) (by norm_num)

/-- **C109, violated on sloped links.** There is a steep link whose confidence is positive but below the threshold, and
raising the only cell of the surface raises the confidence. -/
theorem C109_sloped_violation : 0 < slopeFreq ∧ (∀ z, (slopeV z).Valid ∧ passes (slopeV z) slopeA slopeB)
    ∧ 0 < ellipsoidal slopeFreq (slopeV (317 / 10)) slopeA slopeB
    ∧ ellipsoidal slopeFreq (slopeV (317 / 10)) slopeA slopeB < (slopeV (317 / 10)).threshold
    ∧ ellipsoidal slopeFreq (slopeV (317 / 10)) slopeA slopeB < ellipsoidal slopeFreq (slopeV 33) slopeA slopeB := by
  obtain ⟨h1, h2, h3, h4, h5, h6, h7⟩ := slope_zone
  have hhigh : ∀ z : ℝ, 317 / 10 ≤ z → ∃ h ∈ (Zone.of slopeFreq (1 / 2) slopeA slopeB).lowerHeight (244 / 10) (292 / 100)
      (10 * 10), z ≥ h := by
    intro z hz
    refine (Zone.lowerHeight_iff slope_good (by norm_num) _ _ _).2 ⟨⟨317 / 10, ?_⟩, 317 / 10, hz, ?_⟩ <;>
    · unfold Zone.F Zone.e1 Zone.e3
      dsimp only
      rw [(h7 _ _).1, (h7 _ _).2, h2, h3, h4, h6]
      norm_num
  have m1 : (Zone.of slopeFreq (1 / 2) slopeA slopeB).maxRadius ⟨244 / 10, 292 / 100, 317 / 10⟩
      = Real.sqrt (87764 / 10000 / (36 / 100)) := by
    rw [Zone.maxRadius_cases slope_good, h1, if_pos (hhigh _ le_rfl), if_neg, Zone.radius3d_eq]
    · unfold Zone.e1 Zone.e3
      dsimp only
      rw [(h7 _ _).1, (h7 _ _).2, h2, h3, h4, h6, if_neg (by norm_num)]
      congr 1
      norm_num
    · unfold Zone.e3
      dsimp only
      rw [(h7 _ _).1, h2, h3, h6]
      norm_num
  have m2 : (Zone.of slopeFreq (1 / 2) slopeA slopeB).maxRadius ⟨244 / 10, 292 / 100, 33⟩
      = Real.sqrt (85264 / 10000 / (1 - 59536 / 90000)) := by
    rw [Zone.maxRadius_cases slope_good, h1, if_pos (hhigh _ (by norm_num)), if_pos, Zone.radius2d_eq]
    · dsimp only
      rw [(h7 _ _).1, (h7 _ _).2, h5, if_neg (by norm_num)]
      congr 1
      norm_num
    · unfold Zone.e3
      dsimp only
      rw [(h7 _ _).1, h2, h3, h6]
      norm_num
  have r1 : 0 < Real.sqrt ((87764 : ℝ) / 10000 / (36 / 100)) := Real.sqrt_pos.2 (by norm_num)
  have r2 : Real.sqrt ((87764 : ℝ) / 10000 / (36 / 100)) < 5 := (Real.sqrt_lt' (by norm_num)).2 (by norm_num)
  have r3 : 5 < Real.sqrt ((85264 : ℝ) / 10000 / (1 - 59536 / 90000)) := (Real.lt_sqrt (by norm_num)).2 (by norm_num)
  have e1 : ellipsoidal slopeFreq (slopeV (317 / 10)) slopeA slopeB < 1 / 2 := by
    rw [slope_value, m1, div_lt_iff₀ (by norm_num)]
    exact lt_of_le_of_lt (min_le_left _ _) (by linarith)
  refine ⟨mul_pos (by norm_num [zoneMultiplier]) (by norm_num [zoneMultiplier]),
    fun z => ⟨slopeV_valid z, slope_passes z⟩, ?_, e1, e1.trans ?_⟩
  · rw [slope_value, m1]
    exact div_pos (lt_min r1 (by norm_num)) (by norm_num)
  · rw [slope_value, m2, lt_div_iff₀ (by norm_num)]
    exact lt_min (by linarith) (by norm_num)

/-- A level link with a cell two meters below the middle of the line: it meets the hypotheses of `C109_level`, and the
cell reaches into the zone. -/
example : ∃ (V : Validator) (a b : RSite) (s : ℝ → ℝ → ℝ → ℝ → List P3), V.Valid ∧ passes V a b ∧ V.surface = some s
    ∧ a.alt.getD 0 = b.alt.getD 0 ∧ 0 < V.threshold ∧ ∃ g ∈ boxCells s (fresnelRadius 60000 a b) a b, ReachesInto a b 3 g := by
  refine ⟨{ surface := some fun _ _ _ _ => [⟨5, 0, 8⟩], maxDist := 200, minDist := 5, maxEl := 25, radius := 1,
            threshold := 1 / 2 }, ⟨0, 0, some 10, .unknown, none⟩, ⟨10, 0, some 10, .unknown, none⟩,
    fun _ _ _ _ => [⟨5, 0, 8⟩], ⟨by norm_num, by norm_num, by norm_num, by norm_num, by norm_num⟩,
    ⟨?_, ?_, ?_, ?_, ?_⟩, rfl, rfl, by norm_num, ⟨5, 0, 8⟩, List.mem_singleton.2 rfl, 8, le_rfl, ?_⟩
  · rintro ⟨h, _⟩; norm_num at h
  · rintro ⟨_, h, _⟩; cases h
  · have : losDistance ⟨0, 0, some 10, .unknown, none⟩ ⟨10, 0, some 10, .unknown, none⟩ = 10 := by
      unfold losDistance zDiff
      have : (((0 : ℝ) - 10) * (0 - 10) + (0 - 0) * (0 - 0) + (10 - 10) * (10 - 10)) = 10 * 10 := by norm_num
      simp only [this]
      exact Real.sqrt_mul_self (by norm_num)
    rw [this]
    norm_num
  · unfold exceedsEl
    simp
  · intro z hz; cases hz
  · unfold InsideZone fromMiddle2 alongLink length2
    norm_num

/-- The sloped link above meets the hypotheses of `C109_inner`, and of `C109_blocked` with a cell over its middle. -/
example : (slopeV (317 / 10)).Valid ∧ passes (slopeV (317 / 10)) slopeA slopeB ∧ 0 < (slopeV (317 / 10)).threshold
    ∧ ellipsoidal slopeFreq (slopeV (317 / 10)) slopeA slopeB ≠ 0
    ∧ (∃ t : ℝ, 0 < t ∧ t < 1 ∧ (0 : ℝ) = slopeA.x + t * (slopeB.x - slopeA.x) ∧ (0 : ℝ) = slopeA.y + t * (slopeB.y - slopeA.y)
        ∧ slopeA.alt.getD 0 + t * (slopeB.alt.getD 0 - slopeA.alt.getD 0) ≤ 1) := by
  refine ⟨slopeV_valid _, slope_passes _, by norm_num [slopeV], C109_sloped_violation.2.2.1.ne', 1 / 2, ?_⟩
  norm_num [slopeA, slopeB]

end Verif
