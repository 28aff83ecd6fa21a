import Verif.Model.LosGeom
import Mathlib.Tactic.LinearCombination
import Mathlib.Tactic.FieldSimp
import Mathlib.Tactic.Positivity
import Mathlib.Order.Bounds.Basic

/-!
# The confidence of the cylindrical LOS validator

C27, and the other half of C23.
-/

namespace Verif
open Classical

namespace LosGeom

/-- The corner offsets are the direction of the line turned by a right angle, with the length of the radius. -/
theorem offset_spec {x1 y1 x2 y2 r : ℝ} (h : ¬ (x1 = x2 ∧ y1 = y2)) :
    ∃ k : ℝ, offset x1 y1 x2 y2 r = (k * (y2 - y1), k * (x2 - x1))
      ∧ k * k * ((x2 - x1) * (x2 - x1) + (y2 - y1) * (y2 - y1)) = r * r := by
  have one : ∀ s : ℝ, 0 < 1 + s * s := fun s => by nlinarith [mul_self_nonneg s]
  have sq : ∀ s : ℝ, (r / Real.sqrt (1 + s * s)) * (r / Real.sqrt (1 + s * s)) * (1 + s * s) = r * r := by
    intro s
    have h0 := (Real.sqrt_pos.2 (one s)).ne'
    have h1 := Real.mul_self_sqrt (one s).le
    generalize hq : Real.sqrt (1 + s * s) = w at h0 h1
    rw [← h1]
    field_simp
  unfold offset
  split_ifs with c
  · have hx : x2 - x1 ≠ 0 := by
      intro e
      rw [e, abs_zero] at c
      have : y2 - y1 = 0 := abs_eq_zero.1 (le_antisymm c (abs_nonneg _))
      exact h ⟨by linarith, by linarith⟩
    have s1 := sq ((y2 - y1) / (x2 - x1))
    generalize hw : r / Real.sqrt (1 + (y2 - y1) / (x2 - x1) * ((y2 - y1) / (x2 - x1))) = w at s1
    refine ⟨w / (x2 - x1), ?_, ?_⟩
    · simp only [hw, Prod.mk.injEq]
      constructor <;> field_simp
    · rw [← s1]
      field_simp
  · have hy : y2 - y1 ≠ 0 := by
      intro e
      rw [e, abs_zero] at c
      exact c (abs_nonneg _)
    have s1 := sq ((x2 - x1) / (y2 - y1))
    generalize hw : r / Real.sqrt (1 + (x2 - x1) / (y2 - y1) * ((x2 - x1) / (y2 - y1))) = w at s1
    refine ⟨w / (y2 - y1), ?_, ?_⟩
    · simp only [hw, Prod.mk.injEq]
      constructor <;> field_simp
    · rw [← s1]
      field_simp
      ring

/-- The cell is beside the segment between the two points, at most the radius away from it. -/
def Beside (x1 y1 x2 y2 r x y : ℝ) : Prop :=
  0 ≤ (x - x1) * (x2 - x1) + (y - y1) * (y2 - y1)
  ∧ (x - x1) * (x2 - x1) + (y - y1) * (y2 - y1) ≤ (x2 - x1) * (x2 - x1) + (y2 - y1) * (y2 - y1)
  ∧ (-(x - x1) * (y2 - y1) + (y - y1) * (x2 - x1)) * (-(x - x1) * (y2 - y1) + (y - y1) * (x2 - x1))
      ≤ r * r * ((x2 - x1) * (x2 - x1) + (y2 - y1) * (y2 - y1))

theorem inRectangle_iff {x1 y1 x2 y2 r : ℝ} (h : ¬ (x1 = x2 ∧ y1 = y2)) (hr : 0 < r) (x y : ℝ) :
    inRectangle (corners x1 y1 x2 y2 r).1 (corners x1 y1 x2 y2 r).2.1 (corners x1 y1 x2 y2 r).2.2.1 x y
      ↔ Beside x1 y1 x2 y2 r x y := by
  obtain ⟨k, hk, hk2⟩ := offset_spec (r := r) h
  have b2 : 0 < (x2 - x1) * (x2 - x1) + (y2 - y1) * (y2 - y1) := by
    rcases not_and_or.1 h with c | c
    · have : 0 < (x2 - x1) * (x2 - x1) := mul_self_pos.2 (sub_ne_zero.2 (Ne.symm c))
      nlinarith [mul_self_nonneg (y2 - y1)]
    · have : 0 < (y2 - y1) * (y2 - y1) := mul_self_pos.2 (sub_ne_zero.2 (Ne.symm c))
      nlinarith [mul_self_nonneg (x2 - x1)]
  unfold inRectangle corners Beside
  simp only [hk]
  generalize hb : (x2 - x1) * (x2 - x1) + (y2 - y1) * (y2 - y1) = B at *
  generalize hL : -(x - x1) * (y2 - y1) + (y - y1) * (x2 - x1) = L
  have e1 : (x - (x1 + k * (y2 - y1))) * (x1 - k * (y2 - y1) - (x1 + k * (y2 - y1)))
      + (y - (y1 - k * (x2 - x1))) * (y1 + k * (x2 - x1) - (y1 - k * (x2 - x1))) = 2 * k * L + 2 * (r * r) := by
    rw [← hL, ← hk2, ← hb]; ring
  have e2 : (x1 - k * (y2 - y1) - (x1 + k * (y2 - y1))) * (x1 - k * (y2 - y1) - (x1 + k * (y2 - y1)))
      + (y1 + k * (x2 - x1) - (y1 - k * (x2 - x1))) * (y1 + k * (x2 - x1) - (y1 - k * (x2 - x1))) = 4 * (r * r) := by
    rw [← hk2, ← hb]; ring
  have e3 : (x - (x1 + k * (y2 - y1))) * (x2 + k * (y2 - y1) - (x1 + k * (y2 - y1)))
      + (y - (y1 - k * (x2 - x1))) * (y2 - k * (x2 - x1) - (y1 - k * (x2 - x1)))
      = (x - x1) * (x2 - x1) + (y - y1) * (y2 - y1) := by ring
  have e4 : (x2 + k * (y2 - y1) - (x1 + k * (y2 - y1))) * (x2 + k * (y2 - y1) - (x1 + k * (y2 - y1)))
      + (y2 - k * (x2 - x1) - (y1 - k * (x2 - x1))) * (y2 - k * (x2 - x1) - (y1 - k * (x2 - x1))) = B := by
    rw [← hb]; ring
  rw [e1, e2, e3, e4]
  have key : (0 ≤ 2 * k * L + 2 * (r * r) ∧ 2 * k * L + 2 * (r * r) ≤ 4 * (r * r)) ↔ L * L ≤ r * r * B := by
    have r2 : 0 < r * r := mul_pos hr hr
    have kk : 0 < k * k := by
      rcases (mul_self_nonneg k).eq_or_lt with c | c
      · rw [← c, zero_mul] at hk2; linarith
      · exact c
    have : L * L ≤ r * r * B ↔ (k * L) * (k * L) ≤ (r * r) * (r * r) := by
      constructor
      · intro hh
        nlinarith [mul_le_mul_of_nonneg_left hh kk.le]
      · intro hh
        have : (k * k) * (L * L) ≤ (k * k) * (r * r * B) := by nlinarith
        exact le_of_mul_le_mul_left this kk
    rw [this, ← abs_le_iff_mul_self_le, abs_of_pos r2, abs_le]
    constructor <;> rintro ⟨c, d⟩ <;> constructor <;> linarith
  rw [key]
  tauto

/-- The distance in closed form: `p` is where along the line the cell is beside it, `L` how far, `q` by how much the
top of the cell exceeds the line there. -/
noncomputable def closed (g a b : P3) : Option ℝ :=
  let dx := g.x - a.x
  let dy := g.y - a.y
  let b2 := b.x * b.x + b.y * b.y
  let b3 := b2 + b.z * b.z
  let L := -dx * b.y + dy * b.x
  let p := (dx * b.x + dy * b.y) / b2
  let q := g.z - a.z - p * b.z
  if q ≤ 0 ∧ (p + q * b.z / b3 < 0 ∨ p + q * b.z / b3 > 1) then none
  else some (Real.sqrt (L * L / b2 + min q 0 * min q 0 * b2 / b3))

/-- The cell is beside the segment. -/
def Within (g a b : P3) : Prop :=
  0 ≤ (g.x - a.x) * b.x + (g.y - a.y) * b.y ∧ (g.x - a.x) * b.x + (g.y - a.y) * b.y ≤ b.x * b.x + b.y * b.y

theorem gridDistance_closed {g a b : P3} (hb : 0 < b.x * b.x + b.y * b.y) (hw : Within g a b) :
    gridDistance g a b = closed g a b := by
  unfold gridDistance closed
  dsimp only
  obtain ⟨w1, w2⟩ := hw
  have b3 : 0 < b.x * b.x + b.y * b.y + b.z * b.z := by nlinarith [mul_self_nonneg b.z]
  generalize hdx : g.x - a.x = dx at *
  generalize hdy : g.y - a.y = dy at *
  generalize hdz : g.z - a.z = dz at *
  generalize hB : b.x * b.x + b.y * b.y = B at *
  generalize hp : (dx * b.x + dy * b.y) / B = p at *
  have hp' : dx * b.x + dy * b.y = p * B := by rw [← hp]; field_simp
  have p0 : 0 ≤ p := by rw [← hp]; exact div_nonneg w1 hb.le
  have p1 : p ≤ 1 := by rw [← hp]; exact (div_le_one hb).2 w2
  generalize hq : dz - p * b.z = q at *
  by_cases c : q > 0
  · rw [if_pos c, if_pos ⟨p0, p1⟩, if_neg (by rintro ⟨d, _⟩; linarith), min_eq_right c.le]
    congr 1
    rw [mul_zero, zero_mul, zero_div, add_zero, Real.sqrt_div (mul_self_nonneg _), Real.sqrt_mul_self_eq_abs]
  · rw [if_neg c, min_eq_left (not_lt.1 c)]
    have ht : (dx * b.x + dy * b.y + dz * b.z) / (B + b.z * b.z) = p + q * b.z / (B + b.z * b.z) := by
      rw [hp', ← hq]
      field_simp
      ring
    rw [ht]
    by_cases d : p + q * b.z / (B + b.z * b.z) < 0 ∨ p + q * b.z / (B + b.z * b.z) > 1
    · rw [if_pos d, if_pos ⟨not_lt.1 c, d⟩]
    · rw [if_neg d, if_neg (fun e => d e.2)]
      congr 2
      generalize hC : B + b.z * b.z = C at *
      have hz : b.z * b.z = C - B := by linarith
      have hdz' : dz = q + p * b.z := by linarith
      rw [hdz']
      have ld : (-dx * b.y + dy * b.x) * (-dx * b.y + dy * b.x) = (dx * dx + dy * dy) * B - (p * B) * (p * B) := by
        rw [← hp', ← hB]; ring
      rw [ld]
      have e : ∀ t : ℝ, (t * b.x - dx) * (t * b.x - dx) + (t * b.y - dy) * (t * b.y - dy)
          + (t * b.z - (q + p * b.z)) * (t * b.z - (q + p * b.z))
          = t * t * B - 2 * t * (p * B) + (dx * dx + dy * dy) + ((t - p) * (t - p) * (C - B) - 2 * (t - p) * (q * b.z) + q * q) := by
        intro t
        linear_combination (t * t) * hB - 2 * t * hp' + (t - p) * (t - p) * hz
      rw [e]
      field_simp
      linear_combination (-(C * q * q)) * hz

/-- A point of the segment from `a` in the direction `b`, and one of the vertical line under the top of a cell. -/
noncomputable def between (g a b : P3) (s w : ℝ) : ℝ :=
  Real.sqrt ((a.x + s * b.x - g.x) * (a.x + s * b.x - g.x) + (a.y + s * b.y - g.y) * (a.y + s * b.y - g.y)
    + (a.z + s * b.z - w) * (a.z + s * b.z - w))

theorem closed_least {g a b : P3} (hb : 0 < b.x * b.x + b.y * b.y) (hw : Within g a b) {d : ℝ}
    (h : closed g a b = some d) : IsLeast {r | ∃ s w, 0 ≤ s ∧ s ≤ 1 ∧ w ≤ g.z ∧ r = between g a b s w} d := by
  unfold closed at h
  dsimp only at h
  unfold between
  obtain ⟨w1, w2⟩ := hw
  have b3 : 0 < b.x * b.x + b.y * b.y + b.z * b.z := by nlinarith [mul_self_nonneg b.z]
  generalize hdx : g.x - a.x = dx at *
  generalize hdy : g.y - a.y = dy at *
  generalize hdz : g.z - a.z = dz at *
  generalize hB : b.x * b.x + b.y * b.y = B at *
  generalize hp : (dx * b.x + dy * b.y) / B = p at *
  have hp' : dx * b.x + dy * b.y = p * B := by rw [← hp]; field_simp
  have p0 : 0 ≤ p := by rw [← hp]; exact div_nonneg w1 hb.le
  have p1 : p ≤ 1 := by rw [← hp]; exact (div_le_one hb).2 w2
  generalize hq : dz - p * b.z = q at *
  generalize hC : B + b.z * b.z = C at *
  have hz : b.z * b.z = C - B := by linarith
  have ld : (-dx * b.y + dy * b.x) * (-dx * b.y + dy * b.x) = (dx * dx + dy * dy) * B - (p * B) * (p * B) := by
    rw [← hp', ← hB]; ring
  have ld' : (-dx * b.y + dy * b.x) * (-dx * b.y + dy * b.x) / B = dx * dx + dy * dy - p * p * B := by
    rw [ld]; field_simp
  have e : ∀ s w : ℝ, (a.x + s * b.x - g.x) * (a.x + s * b.x - g.x) + (a.y + s * b.y - g.y) * (a.y + s * b.y - g.y)
      + (a.z + s * b.z - w) * (a.z + s * b.z - w)
      = (-dx * b.y + dy * b.x) * (-dx * b.y + dy * b.x) / B + (s - p) * (s - p) * B
        + ((s - p) * b.z - q + (g.z - w)) * ((s - p) * b.z - q + (g.z - w)) := by
    intro s w
    rw [ld']
    have g1 : g.x = a.x + dx := by linarith
    have g2 : g.y = a.y + dy := by linarith
    have g3 : a.z = g.z - q - p * b.z := by linarith
    rw [g1, g2, g3]
    linear_combination (s * s) * hB - 2 * s * hp'
  split_ifs at h with c
  have hd := Option.some.inj h
  rw [← hd]
  constructor
  · by_cases qp : q ≤ 0
    · have t0 : 0 ≤ p + q * b.z / C ∧ p + q * b.z / C ≤ 1 := by
        have := not_or.1 fun x => c ⟨qp, x⟩
        rw [not_lt, not_lt] at this
        exact this
      refine ⟨p + q * b.z / C, g.z, t0.1, t0.2, le_refl _, ?_⟩
      rw [e, min_eq_left qp]
      congr 1
      field_simp
      linear_combination (-(B * q * q) * (b.z * b.z - C)) * hz
    · rw [not_le] at qp
      refine ⟨p, a.z + p * b.z, p0, p1, by linarith, ?_⟩
      rw [e, min_eq_right qp.le]
      congr 1
      have : (p - p) * b.z - q + (g.z - (a.z + p * b.z)) = 0 := by linarith
      rw [this]
      ring
  · rintro r ⟨s, w, s0, s1, hw, rfl⟩
    apply Real.sqrt_le_sqrt
    rw [e]
    have : min q 0 * min q 0 * B / C ≤ (s - p) * (s - p) * B
        + ((s - p) * b.z - q + (g.z - w)) * ((s - p) * b.z - q + (g.z - w)) := by
      rw [div_le_iff₀ b3]
      generalize s - p = u
      have hBu : 0 ≤ u * u * B := mul_nonneg (mul_self_nonneg _) hb.le
      have bz0 := mul_self_nonneg b.z
      by_cases qp : q ≤ 0
      · rw [min_eq_left qp]
        by_cases hh : 0 ≤ u * b.z - q
        · have h1 : (u * b.z - q) * (u * b.z - q) ≤ (u * b.z - q + (g.z - w)) * (u * b.z - q + (g.z - w)) :=
            mul_self_le_mul_self hh (by linarith)
          have h2 : q * q * B ≤ (u * u * B + (u * b.z - q) * (u * b.z - q)) * C := by
            have : (u * u * B + (u * b.z - q) * (u * b.z - q)) * C - q * q * B = (u * C - q * b.z) * (u * C - q * b.z) := by
              linear_combination (u * u * C - q * q) * hz
            linarith [mul_self_nonneg (u * C - q * b.z)]
          exact h2.trans (mul_le_mul_of_nonneg_right (by linarith) b3.le)
        · rw [not_le] at hh
          have h1 : q * q ≤ (u * b.z) * (u * b.z) := by
            have := mul_self_le_mul_self (neg_nonneg.2 qp) (by linarith : -q ≤ -(u * b.z))
            rwa [neg_mul_neg, neg_mul_neg] at this
          have h3 : (u * b.z) * (u * b.z) = u * u * (C - B) := by rw [← hz]; ring
          have h4 := mul_le_mul_of_nonneg_right (h1.trans_eq h3) hb.le
          have h5 := mul_nonneg hBu hb.le
          have h6 := mul_nonneg (mul_self_nonneg (u * b.z - q + (g.z - w))) b3.le
          rw [add_mul]
          have h7 : u * u * (C - B) * B = u * u * B * C - u * u * B * B := by ring
          linarith
      · rw [min_eq_right (not_le.1 qp).le]
        have h6 := mul_nonneg (mul_self_nonneg (u * b.z - q + (g.z - w))) b3.le
        have h7 := mul_nonneg hBu b3.le
        rw [add_mul, mul_zero, zero_mul]
        linarith
    linarith

/-- A cell blocks the link altogether. -/
def Blocks (V : Validator) (a b : P3) (high : ℝ) (g : P3) : Prop :=
  (V.threshold = 1 ∧ g.z > high) ∨ ∃ d, gridDistance g a b = some d ∧ d < V.radius * V.threshold

theorem scan_blocked {V : Validator} {a b : P3} {high : ℝ} : ∀ {L : List P3} {m : ℝ},
    (∃ g ∈ L, Blocks V a b high g) → scan V a b high m L = 0
  | [], _, h => by obtain ⟨g, hg, _⟩ := h; cases hg
  | g :: L, m, ⟨g', hg', hB⟩ => by
    unfold scan
    split_ifs with c
    · rfl
    · have rest : Blocks V a b high g → (∃ d, gridDistance g a b = some d ∧ d < V.radius * V.threshold) :=
        fun h => h.resolve_left c
      split
      · rename_i hn
        rcases List.mem_cons.1 hg' with rfl | hg'
        · obtain ⟨d, hd, _⟩ := rest hB
          rw [hn] at hd; cases hd
        · exact scan_blocked ⟨g', hg', hB⟩
      · rename_i d hd
        split_ifs with e
        · rfl
        · rcases List.mem_cons.1 hg' with rfl | hg'
          · obtain ⟨d', hd', hlt⟩ := rest hB
            rw [hd] at hd'
            cases hd'
            exact (e hlt).elim
          · exact scan_blocked ⟨g', hg', hB⟩

theorem scan_open {V : Validator} {a b : P3} {high : ℝ} : ∀ {L : List P3} {m : ℝ},
    (¬ ∃ g ∈ L, Blocks V a b high g) →
    ∃ M, scan V a b high m L = M / V.radius ∧ IsLeast {d | d = m ∨ ∃ g ∈ L, gridDistance g a b = some d} M
  | [], m, _ => ⟨m, rfl, .inl rfl, by rintro d (rfl | ⟨g, hg, _⟩); exact le_refl _; cases hg⟩
  | g :: L, m, h => by
    have hg : ¬ Blocks V a b high g := fun c => h ⟨g, List.mem_cons_self, c⟩
    have hL : ¬ ∃ g ∈ L, Blocks V a b high g := fun ⟨g, m, c⟩ => h ⟨g, List.mem_cons_of_mem _ m, c⟩
    unfold Blocks at hg
    rw [not_or] at hg
    unfold scan
    rw [if_neg hg.1]
    split
    · rename_i hn
      obtain ⟨M, e, i1, i2⟩ := scan_open (m := m) hL
      refine ⟨M, e, ?_, ?_⟩
      · rcases i1 with i1 | ⟨g', h1, h2⟩
        · exact .inl i1
        · exact .inr ⟨g', List.mem_cons_of_mem _ h1, h2⟩
      · rintro d (rfl | ⟨g', h1, h2⟩)
        · exact i2 (.inl rfl)
        · rcases List.mem_cons.1 h1 with rfl | h1
          · rw [hn] at h2; cases h2
          · exact i2 (.inr ⟨g', h1, h2⟩)
    · rename_i d hd
      rw [if_neg fun c => hg.2 ⟨d, hd, c⟩]
      obtain ⟨M, e, i1, i2⟩ := scan_open (m := min m d) hL
      refine ⟨M, e, ?_, ?_⟩
      · rcases i1 with i1 | ⟨g', h1, h2⟩
        · rcases min_choice m d with c | c
          · exact .inl (i1.trans c)
          · exact .inr ⟨g, List.mem_cons_self, by rw [hd, i1, c]⟩
        · exact .inr ⟨g', List.mem_cons_of_mem _ h1, h2⟩
      · have i3 := i2 (.inl rfl)
        rintro d' (rfl | ⟨g', h1, h2⟩)
        · exact i3.trans (min_le_left _ _)
        · rcases List.mem_cons.1 h1 with rfl | h1
          · rw [hd] at h2
            cases h2
            exact i3.trans (min_le_right _ _)
          · exact i2 (.inr ⟨g', h1, h2⟩)

end LosGeom
end Verif
