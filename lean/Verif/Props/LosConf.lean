import Verif.Props.LosGeom
import Verif.Props.Los

/-!
# The confidence of the cylindrical LOS validator, continued

C27, and the other half of C23.
-/

namespace Verif
open Classical

namespace LosGeom

theorem b2_pos {a b : RSite} (h : ¬ sameXY a b) :
    0 < (toward a b).x * (toward a b).x + (toward a b).y * (toward a b).y := by
  simp only [toward]
  rcases not_and_or.1 h with c | c
  · have : 0 < (b.x - a.x) * (b.x - a.x) := mul_self_pos.2 (sub_ne_zero.2 (Ne.symm c))
    linarith [mul_self_nonneg (b.y - a.y)]
  · have : 0 < (b.y - a.y) * (b.y - a.y) := mul_self_pos.2 (sub_ne_zero.2 (Ne.symm c))
    linarith [mul_self_nonneg (b.x - a.x)]

/-- The cells of the box around the rectangle. -/
noncomputable def boxCells (surface : ℝ → ℝ → ℝ → ℝ → List P3) (r : ℝ) (a b : RSite) : List P3 :=
  let c := corners a.x a.y b.x b.y r
  surface
    (min (min (min c.1.1 c.2.1.1) c.2.2.1.1) c.2.2.2.1) (max (max (max c.1.2 c.2.1.2) c.2.2.1.2) c.2.2.2.2)
    (max (max (max c.1.1 c.2.1.1) c.2.2.1.1) c.2.2.2.1) (min (min (min c.1.2 c.2.1.2) c.2.2.1.2) c.2.2.2.2)

theorem obstructions_eq (s : ℝ → ℝ → ℝ → ℝ → List P3) {r : ℝ} (hr : 0 < r) {a b : RSite} (h : ¬ sameXY a b) :
    obstructions s r a b = (boxCells s r a b).filter fun g => decide (Beside a.x a.y b.x b.y r g.x g.y) := by
  unfold obstructions boxCells
  refine List.filter_congr fun g _ => ?_
  rw [decide_eq_decide]
  exact inRectangle_iff h hr g.x g.y

theorem within_of_mem {s : ℝ → ℝ → ℝ → ℝ → List P3} {r : ℝ} (hr : 0 < r) {a b : RSite} (h : ¬ sameXY a b) {g : P3}
    (hg : g ∈ obstructions s r a b) : Within g (at3 a) (toward a b) := by
  rw [obstructions_eq s hr h, List.mem_filter, decide_eq_true_eq] at hg
  exact ⟨hg.2.1, hg.2.2.1⟩

theorem offset_swap (x1 y1 x2 y2 r : ℝ) : offset x2 y2 x1 y1 r = offset x1 y1 x2 y2 r := by
  unfold offset
  rw [abs_sub_comm x1 x2, abs_sub_comm y1 y2]
  have e1 : (y1 - y2) / (x1 - x2) = (y2 - y1) / (x2 - x1) := by
    rw [← neg_sub y2 y1, ← neg_sub x2 x1, neg_div_neg_eq]
  have e2 : (x1 - x2) / (y1 - y2) = (x2 - x1) / (y2 - y1) := by
    rw [← neg_sub y2 y1, ← neg_sub x2 x1, neg_div_neg_eq]
  rw [e1, e2]

theorem box_swap (s : ℝ → ℝ → ℝ → ℝ → List P3) (r : ℝ) (a b : RSite) : boxCells s r b a = boxCells s r a b := by
  unfold boxCells corners
  rw [offset_swap]
  dsimp only
  have m : ∀ p q u v : ℝ, min (min (min u v) p) q = min (min (min p q) u) v := by
    intro p q u v; ac_rfl
  have M : ∀ p q u v : ℝ, max (max (max u v) p) q = max (max (max p q) u) v := by
    intro p q u v; ac_rfl
  exact congr (congr (congr (congrArg s (m _ _ _ _)) (M _ _ _ _)) (M _ _ _ _)) (m _ _ _ _)

theorem beside_swap {x1 y1 x2 y2 r x y : ℝ} (h : Beside x1 y1 x2 y2 r x y) : Beside x2 y2 x1 y1 r x y := by
  obtain ⟨h1, h2, h3⟩ := h
  refine ⟨by nlinarith, by nlinarith, ?_⟩
  have e1 : -(x - x2) * (y1 - y2) + (y - y2) * (x1 - x2) = -(-(x - x1) * (y2 - y1) + (y - y1) * (x2 - x1)) := by ring
  have e2 : (x1 - x2) * (x1 - x2) + (y1 - y2) * (y1 - y2) = (x2 - x1) * (x2 - x1) + (y2 - y1) * (y2 - y1) := by ring
  rw [e1, e2, neg_mul_neg]
  exact h3

theorem obstructions_swap (s : ℝ → ℝ → ℝ → ℝ → List P3) {r : ℝ} (hr : 0 < r) {a b : RSite} (h : ¬ sameXY a b) :
    obstructions s r b a = obstructions s r a b := by
  have h' : ¬ sameXY b a := fun c => h ⟨c.1.symm, c.2.symm⟩
  rw [obstructions_eq s hr h, obstructions_eq s hr h', box_swap]
  refine List.filter_congr fun g _ => ?_
  rw [decide_eq_decide]
  exact ⟨beside_swap, beside_swap⟩

theorem closed_swap {a b : RSite} (h : ¬ sameXY a b) (g : P3) :
    closed g (at3 b) (toward b a) = closed g (at3 a) (toward a b) := by
  have hb := b2_pos h
  unfold closed
  dsimp only
  have b3 : 0 < (toward a b).x * (toward a b).x + (toward a b).y * (toward a b).y + (toward a b).z * (toward a b).z := by
    linarith [mul_self_nonneg (toward a b).z]
  have ex : (toward b a).x = -(toward a b).x := by simp [toward]
  have ey : (toward b a).y = -(toward a b).y := by simp [toward]
  have ez : (toward b a).z = -(toward a b).z := by simp [toward]
  have ax : (at3 b).x = (at3 a).x + (toward a b).x := by simp [toward, at3]
  have ay : (at3 b).y = (at3 a).y + (toward a b).y := by simp [toward, at3]
  have az : (at3 b).z = (at3 a).z + (toward a b).z := by simp [toward, at3]
  rw [ex, ey, ez, ax, ay, az]
  generalize toward a b = t at *
  generalize at3 a = o at *
  have eB : -t.x * -t.x + -t.y * -t.y = t.x * t.x + t.y * t.y := by ring
  have eC : t.x * t.x + t.y * t.y + -t.z * -t.z = t.x * t.x + t.y * t.y + t.z * t.z := by ring
  have eL : (-(g.x - (o.x + t.x)) * -t.y + (g.y - (o.y + t.y)) * -t.x) * (-(g.x - (o.x + t.x)) * -t.y + (g.y - (o.y + t.y)) * -t.x)
      = (-(g.x - o.x) * t.y + (g.y - o.y) * t.x) * (-(g.x - o.x) * t.y + (g.y - o.y) * t.x) := by ring
  have ep : ((g.x - (o.x + t.x)) * -t.x + (g.y - (o.y + t.y)) * -t.y) / (t.x * t.x + t.y * t.y)
      = 1 - ((g.x - o.x) * t.x + (g.y - o.y) * t.y) / (t.x * t.x + t.y * t.y) := by
    rw [eq_sub_iff_add_eq, ← add_div, div_eq_one_iff_eq hb.ne']; ring
  rw [eB, eC, eL, ep]
  generalize ((g.x - o.x) * t.x + (g.y - o.y) * t.y) / (t.x * t.x + t.y * t.y) = p
  have eq : g.z - (o.z + t.z) - (1 - p) * -t.z = g.z - o.z - p * t.z := by ring
  rw [eq]
  generalize g.z - o.z - p * t.z = q
  have et : 1 - p + q * -t.z / (t.x * t.x + t.y * t.y + t.z * t.z) = 1 - (p + q * t.z / (t.x * t.x + t.y * t.y + t.z * t.z)) := by
    ring
  rw [et]
  generalize p + q * t.z / (t.x * t.x + t.y * t.y + t.z * t.z) = v
  have : (q ≤ 0 ∧ (1 - v < 0 ∨ 1 - v > 1)) ↔ (q ≤ 0 ∧ (v < 0 ∨ v > 1)) := by
    constructor <;> rintro ⟨h1, h2 | h2⟩ <;> refine ⟨h1, ?_⟩
    · exact .inr (by linarith)
    · exact .inl (by linarith)
    · exact .inr (by linarith)
    · exact .inl (by linarith)
  simp only [this]

theorem losDistance_symm (a b : RSite) : losDistance a b = losDistance b a := by
  unfold losDistance
  congr 1
  have : zDiff a b * zDiff a b = zDiff b a * zDiff b a := by
    unfold zDiff
    cases a.alt <;> cases b.alt <;> dsimp only
    ring
  rw [this]; ring

theorem passes_swap {V : Validator} {a b : RSite} (h : passes V a b) : passes V b a := by
  obtain ⟨h1, h2, h3, h4, h5⟩ := h
  refine ⟨fun c => h1 ⟨c.1.symm, c.2.symm⟩, fun c => h2 ⟨c.1.symm, c.1.trans c.2.1, c.2.2.symm⟩, ?_, ?_, ?_⟩
  · rw [losDistance_symm]; exact h3
  · unfold exceedsEl at *
    rw [losDistance_symm b a]
    cases ha : a.alt <;> cases hb : b.alt <;> rw [ha, hb] at h4 <;> dsimp only at *
    · exact h4
    · exact h4
    · exact h4
    · rwa [abs_sub_comm]
  · intro z hz
    rw [segment_symm]
    exact h5 z hz

/-- Whether any of the obstructions blocks the link, and the least distance otherwise. -/
theorem confidence_cases {sort : List P3 → List P3} (hs : ∀ L, (sort L).Perm L) {V : Validator} {a b : RSite}
    {s : ℝ → ℝ → ℝ → ℝ → List P3} (hp : passes V a b) (hsur : V.surface = some s) :
    ((∃ g ∈ obstructions s V.radius a b, Blocks V (at3 a) (toward a b) (max (a.alt.getD 0) (b.alt.getD 0)) g)
      ∧ confidence sort V a b = 0)
    ∨ ((¬ ∃ g ∈ obstructions s V.radius a b, Blocks V (at3 a) (toward a b) (max (a.alt.getD 0) (b.alt.getD 0)) g)
      ∧ ∃ M, confidence sort V a b = M / V.radius
        ∧ IsLeast {d | d = V.radius ∨ ∃ g ∈ obstructions s V.radius a b, gridDistance g (at3 a) (toward a b) = some d} M) := by
  have e : confidence sort V a b = scan V (at3 a) (toward a b) (max (a.alt.getD 0) (b.alt.getD 0)) V.radius
      (sort (obstructions s V.radius a b)) := by
    unfold confidence
    rw [if_pos hp, hsur]
  have mem : ∀ g, g ∈ sort (obstructions s V.radius a b) ↔ g ∈ obstructions s V.radius a b := fun g => (hs _).mem_iff
  by_cases c : ∃ g ∈ obstructions s V.radius a b, Blocks V (at3 a) (toward a b) (max (a.alt.getD 0) (b.alt.getD 0)) g
  · refine .inl ⟨c, ?_⟩
    rw [e]
    obtain ⟨g, hg, hB⟩ := c
    exact scan_blocked ⟨g, (mem g).2 hg, hB⟩
  · refine .inr ⟨c, ?_⟩
    rw [e]
    obtain ⟨M, h1, h2⟩ := scan_open (V := V) (a := at3 a) (b := toward a b)
      (high := max (a.alt.getD 0) (b.alt.getD 0)) (L := sort (obstructions s V.radius a b)) (m := V.radius)
      (fun ⟨g, hg, hB⟩ => c ⟨g, (mem g).1 hg, hB⟩)
    refine ⟨M, h1, ?_⟩
    have : {d | d = V.radius ∨ ∃ g ∈ obstructions s V.radius a b, gridDistance g (at3 a) (toward a b) = some d}
        = {d | d = V.radius ∨ ∃ g ∈ sort (obstructions s V.radius a b), gridDistance g (at3 a) (toward a b) = some d} := by
      ext d
      simp only [Set.mem_setOf_eq, mem]
    rw [this]
    exact h2

theorem confidence_zero {sort : List P3 → List P3} {V : Validator} {a b : RSite} (h : ¬ passes V a b) :
    confidence sort V a b = 0 := by
  unfold confidence
  rw [if_neg h]

theorem confidence_flat {sort : List P3 → List P3} {V : Validator} {a b : RSite} (h : passes V a b)
    (hs : V.surface = none) : confidence sort V a b = 1 := by
  unfold confidence
  rw [if_pos h, hs]

/-- Cells that are higher are at most as far away, and are not left out if the lower ones were not. -/
theorem closed_mono {g g' a b : P3} (hb : 0 < b.x * b.x + b.y * b.y) (hw : Within g a b) (hx : g'.x = g.x)
    (hy : g'.y = g.y) (hz : g.z ≤ g'.z) {d : ℝ} (h : closed g a b = some d) :
    ∃ d', closed g' a b = some d' ∧ d' ≤ d := by
  unfold closed at h ⊢
  dsimp only at h ⊢
  rw [hx, hy]
  obtain ⟨w1, w2⟩ := hw
  have b3 : 0 < b.x * b.x + b.y * b.y + b.z * b.z := by linarith [mul_self_nonneg b.z]
  generalize hp : ((g.x - a.x) * b.x + (g.y - a.y) * b.y) / (b.x * b.x + b.y * b.y) = p at *
  have p0 : 0 ≤ p := by rw [← hp]; exact div_nonneg w1 hb.le
  have p1 : p ≤ 1 := by rw [← hp]; exact (div_le_one hb).2 w2
  generalize hq : g.z - a.z - p * b.z = q at *
  generalize hq' : g'.z - a.z - p * b.z = q' at *
  have qq : q ≤ q' := by linarith
  generalize hB : b.x * b.x + b.y * b.y = B at *
  generalize hC : B + b.z * b.z = C at *
  split_ifs at h with c
  have hd := Option.some.inj h
  rw [if_neg]
  · refine ⟨_, rfl, ?_⟩
    rw [← hd]
    apply Real.sqrt_le_sqrt
    have m1 : min q 0 ≤ min q' 0 := min_le_min qq le_rfl
    have m2 : min q' 0 ≤ 0 := min_le_right _ _
    have : min q' 0 * min q' 0 ≤ min q 0 * min q 0 := by nlinarith
    have h2 : min q' 0 * min q' 0 * B / C ≤ min q 0 * min q 0 * B / C := by
      rw [div_le_div_iff_of_pos_right b3]
      exact mul_le_mul_of_nonneg_right this hb.le
    linarith
  · rintro ⟨e1, e2⟩
    apply c
    refine ⟨qq.trans e1, ?_⟩
    have hle : q / C ≤ q' / C := (div_le_div_iff_of_pos_right b3).2 qq
    have hq0 : q' / C ≤ 0 := div_nonpos_of_nonpos_of_nonneg e1 b3.le
    have r1 : q * b.z / C = q / C * b.z := by ring
    have r2 : q' * b.z / C = q' / C * b.z := by ring
    rw [r1]
    rw [r2] at e2
    rcases le_total 0 b.z with z | z
    · have h1 : q' / C * b.z ≤ 0 := mul_nonpos_of_nonpos_of_nonneg hq0 z
      have h2 : q / C * b.z ≤ q' / C * b.z := mul_le_mul_of_nonneg_right hle z
      rcases e2 with e2 | e2
      · exact .inl (by linarith)
      · linarith
    · have h1 : 0 ≤ q' / C * b.z := mul_nonneg_of_nonpos_of_nonpos hq0 z
      have h2 : q' / C * b.z ≤ q / C * b.z := mul_le_mul_of_nonpos_right hle z
      rcases e2 with e2 | e2
      · linarith
      · exact .inr (by linarith)

/-- The cell is not left out: its top is above the line where it is beside it, or the point of the line nearest to the
top is between the sites. -/
def Counted (g a b : P3) : Prop :=
  (∃ p, p * (b.x * b.x + b.y * b.y) = (g.x - a.x) * b.x + (g.y - a.y) * b.y ∧ a.z + p * b.z < g.z)
  ∨ (0 ≤ (g.x - a.x) * b.x + (g.y - a.y) * b.y + (g.z - a.z) * b.z
    ∧ (g.x - a.x) * b.x + (g.y - a.y) * b.y + (g.z - a.z) * b.z ≤ b.x * b.x + b.y * b.y + b.z * b.z)

theorem counted_iff {g a b : P3} (hb : 0 < b.x * b.x + b.y * b.y) (hw : Within g a b) :
    Counted g a b ↔ ∃ d, gridDistance g a b = some d := by
  unfold gridDistance Counted
  dsimp only
  obtain ⟨w1, w2⟩ := hw
  have b3 : 0 < b.x * b.x + b.y * b.y + b.z * b.z := by linarith [mul_self_nonneg b.z]
  generalize hB : b.x * b.x + b.y * b.y = B at *
  generalize hC : B + b.z * b.z = C at *
  generalize hD : (g.x - a.x) * b.x + (g.y - a.y) * b.y = D at *
  generalize hE : D + (g.z - a.z) * b.z = E at *
  have p0 : 0 ≤ D / B ∧ D / B ≤ 1 := ⟨div_nonneg w1 hb.le, (div_le_one hb).2 w2⟩
  have hpp : (∃ p, p * B = D ∧ a.z + p * b.z < g.z) ↔ g.z - a.z - D / B * b.z > 0 := by
    constructor
    · rintro ⟨p, rfl, h⟩
      rw [mul_div_assoc, div_self hb.ne', mul_one]
      linarith
    · intro h
      exact ⟨D / B, by field_simp, by linarith⟩
  rw [hpp]
  have ht : (0 ≤ E ∧ E ≤ C) ↔ ¬ (E / C < 0 ∨ E / C > 1) := by
    rw [not_or, not_lt, not_lt, le_div_iff₀ b3, div_le_one b3, zero_mul]
  rw [ht]
  by_cases c : g.z - a.z - D / B * b.z > 0
  · rw [if_pos c, if_pos p0]
    simp [c]
  · rw [if_neg c]
    by_cases e : E / C < 0 ∨ E / C > 1
    · rw [if_pos e]
      simp only [c, e, not_true_eq_false, or_self, reduceCtorEq, exists_const]
    · rw [if_neg e]
      exact ⟨fun _ => ⟨_, rfl⟩, fun _ => .inr e⟩

/-- The surface `s'` has a cell at least as high wherever `s` has one. -/
def Higher (s s' : ℝ → ℝ → ℝ → ℝ → List P3) : Prop :=
  ∀ x1 y1 x2 y2, ∀ g ∈ s x1 y1 x2 y2, ∃ g' ∈ s' x1 y1 x2 y2, g'.x = g.x ∧ g'.y = g.y ∧ g.z ≤ g'.z

end LosGeom

open LosGeom

variable {sort : List P3 → List P3}

/-- **C27, bounds.** The confidence is zero, or at least the threshold and at most one. -/
theorem C27_bounds (hs : ∀ L, (sort L).Perm L) {V : Validator} (hV : V.Valid) (a b : RSite) :
    confidence sort V a b = 0 ∨ (V.threshold ≤ confidence sort V a b ∧ confidence sort V a b ≤ 1) := by
  by_cases hp : passes V a b
  · cases hsur : V.surface with
    | none =>
      rw [confidence_flat hp hsur]
      exact .inr ⟨hV.thr.2, le_refl _⟩
    | some s =>
      rcases confidence_cases hs hp hsur with ⟨_, h⟩ | ⟨hn, M, h, hM⟩
      · exact .inl h
      · refine .inr ?_
        rw [h]
        constructor
        · rw [le_div_iff₀ hV.radius]
          rcases hM.1 with e | ⟨g, hg, hd⟩
          · rw [e]
            exact mul_le_of_le_one_left hV.radius.le hV.thr.2
          · by_contra c
            refine hn ⟨g, hg, .inr ⟨M, hd, ?_⟩⟩
            rw [mul_comm]
            exact not_le.1 c
        · rw [div_le_one hV.radius]
          exact hM.2 (.inl rfl)
  · exact .inl (confidence_zero hp)

/-- **C27, order.** The confidence does not depend on the order in which the obstructions are visited. -/
theorem C27_order {sort' : List P3 → List P3} (hs : ∀ L, (sort L).Perm L) (hs' : ∀ L, (sort' L).Perm L)
    (V : Validator) (a b : RSite) : confidence sort V a b = confidence sort' V a b := by
  by_cases hp : passes V a b
  · cases hsur : V.surface with
    | none => rw [confidence_flat hp hsur, confidence_flat hp hsur]
    | some s =>
      rcases confidence_cases hs hp hsur with ⟨h1, h⟩ | ⟨hn, M, h, hM⟩
      · rcases confidence_cases hs' hp hsur with ⟨_, h'⟩ | ⟨hn', _⟩
        · rw [h, h']
        · exact (hn' h1).elim
      · rcases confidence_cases hs' hp hsur with ⟨h1, h'⟩ | ⟨hn', M', h', hM'⟩
        · exact (hn h1).elim
        · rw [h, h', hM.unique hM']
  · rw [confidence_zero hp, confidence_zero hp]

/-- **C27, obstructions.** Adding cells to the elevation data, or raising some, never raises the confidence. Elevation
data is not more permissive than none. -/
theorem C27_obstructions (hs : ∀ L, (sort L).Perm L) {V : Validator} (hV : V.Valid) {s' : ℝ → ℝ → ℝ → ℝ → List P3}
    (hh : ∀ s, V.surface = some s → Higher s s') (a b : RSite) :
    confidence sort { V with surface := some s' } a b ≤ confidence sort V a b := by
  have hV' : Validator.Valid { V with surface := some s' } := ⟨hV.min_pos, hV.min_lt, hV.el, hV.thr, hV.radius⟩
  have hpp : passes { V with surface := some s' } a b ↔ passes V a b := Iff.rfl
  have pos : ∀ W : Validator, W.Valid → 0 ≤ confidence sort W a b := by
    intro W hW
    rcases C27_bounds hs hW a b with h | h
    · rw [h]
    · exact hW.thr.1.trans h.1
  by_cases hp : passes V a b
  · have hxy := hp.1
    cases hsur : V.surface with
    | none =>
      rw [confidence_flat hp hsur]
      rcases C27_bounds hs hV' a b with h | h
      · rw [h]; exact zero_le_one
      · exact h.2
    | some s =>
      have hh := hh s hsur
      have lift : ∀ g ∈ obstructions s V.radius a b, ∃ g' ∈ obstructions s' V.radius a b,
          g'.x = g.x ∧ g'.y = g.y ∧ g.z ≤ g'.z := by
        intro g hg
        rw [obstructions_eq s hV.radius hxy, List.mem_filter, decide_eq_true_eq] at hg
        obtain ⟨g', hg', hx, hy, hz⟩ := hh _ _ _ _ g hg.1
        refine ⟨g', ?_, hx, hy, hz⟩
        rw [obstructions_eq s' hV.radius hxy, List.mem_filter, decide_eq_true_eq, hx, hy]
        exact ⟨hg', hg.2⟩
      have dist : ∀ g ∈ obstructions s V.radius a b, ∀ d, gridDistance g (at3 a) (toward a b) = some d →
          ∃ g' ∈ obstructions s' V.radius a b, ∃ d', gridDistance g' (at3 a) (toward a b) = some d' ∧ d' ≤ d := by
        intro g hg d hd
        obtain ⟨g', hg', hx, hy, hz⟩ := lift g hg
        rw [gridDistance_closed (b2_pos hxy) (within_of_mem hV.radius hxy hg)] at hd
        obtain ⟨d', h1, h2⟩ := closed_mono (b2_pos hxy) (within_of_mem hV.radius hxy hg) hx hy hz hd
        refine ⟨g', hg', d', ?_, h2⟩
        rw [gridDistance_closed (b2_pos hxy) (within_of_mem hV.radius hxy hg')]
        exact h1
      rcases confidence_cases (V := { V with surface := some s' }) hs hp rfl with ⟨_, h⟩ | ⟨hn, M', h', hM'⟩
      · rw [h]; exact pos V hV
      · rcases confidence_cases hs hp hsur with ⟨⟨g, hg, hB⟩, _⟩ | ⟨_, M, h, hM⟩
        · refine (hn ?_).elim
          rcases hB with ⟨h1, h2⟩ | ⟨d, hd, h2⟩
          · obtain ⟨g', hg', _, _, hz⟩ := lift g hg
            exact ⟨g', hg', .inl ⟨h1, lt_of_lt_of_le h2 hz⟩⟩
          · obtain ⟨g', hg', d', hd', hle⟩ := dist g hg d hd
            exact ⟨g', hg', .inr ⟨d', hd', lt_of_le_of_lt hle h2⟩⟩
        · rw [h', h]
          refine (div_le_div_iff_of_pos_right hV.radius).2 ?_
          rcases hM.1 with e | ⟨g, hg, hd⟩
          · rw [e]
            exact hM'.2 (.inl rfl)
          · obtain ⟨g', hg', d', hd', hle⟩ := dist g hg M hd
            exact (hM'.2 (.inr ⟨g', hg', hd'⟩)).trans hle
  · rw [confidence_zero (hpp.not.2 hp)]
    exact pos V hV

/-- **C27, threshold.** If there is a line of sight with a higher threshold, then with a lower one too, with the same
confidence. -/
theorem C27_threshold (hs : ∀ L, (sort L).Perm L) {V : Validator} (hV : V.Valid) {thr : ℝ} (hthr : V.threshold ≤ thr)
    (h1 : thr ≤ 1) (a b : RSite) (hc : confidence sort { V with threshold := thr } a b ≠ 0) :
    confidence sort V a b = confidence sort { V with threshold := thr } a b := by
  by_cases hp : passes V a b
  · obtain hsur | ⟨s, hsur⟩ : V.surface = none ∨ ∃ s, V.surface = some s := by
      cases V.surface with
      | none => exact .inl rfl
      | some s => exact .inr ⟨s, rfl⟩
    · rw [confidence_flat hp hsur, confidence_flat (V := { V with threshold := thr }) hp hsur]
    · rcases confidence_cases (V := { V with threshold := thr }) hs hp hsur with ⟨_, h⟩ | ⟨hn, M', h', hM'⟩
      · exact (hc h).elim
      · rcases confidence_cases hs hp hsur with ⟨⟨g, hg, hB⟩, _⟩ | ⟨_, M, h, hM⟩
        · refine (hn ⟨g, hg, ?_⟩).elim
          rcases hB with ⟨e1, e2⟩ | ⟨d, hd, e2⟩
          · exact .inl ⟨le_antisymm h1 (e1 ▸ hthr), e2⟩
          · exact .inr ⟨d, hd, lt_of_lt_of_le e2 (mul_le_mul_of_nonneg_left hthr hV.radius.le)⟩
        · rw [h, h', hM.unique hM']
  · exact (hc (confidence_zero (V := { V with threshold := thr }) hp)).elim

/-- **C27, symmetry.** The confidence from one site to another is the one in the opposite direction. -/
theorem C27_symmetric (hs : ∀ L, (sort L).Perm L) {V : Validator} (hr : 0 < V.radius) (a b : RSite) :
    confidence sort V a b = confidence sort V b a := by
  by_cases hp : passes V a b
  · have hp' := passes_swap hp
    cases hsur : V.surface with
    | none => rw [confidence_flat hp hsur, confidence_flat hp' hsur]
    | some s =>
      have ho := obstructions_swap s hr hp.1
      have hd : ∀ g ∈ obstructions s V.radius a b,
          gridDistance g (at3 b) (toward b a) = gridDistance g (at3 a) (toward a b) := by
        intro g hg
        rw [gridDistance_closed (b2_pos hp.1) (within_of_mem hr hp.1 hg),
          gridDistance_closed (b2_pos hp'.1) (within_of_mem hr hp'.1 (by rw [ho]; exact hg)), closed_swap hp.1]
      have hB : ∀ g ∈ obstructions s V.radius a b,
          (Blocks V (at3 b) (toward b a) (max (b.alt.getD 0) (a.alt.getD 0)) g
            ↔ Blocks V (at3 a) (toward a b) (max (a.alt.getD 0) (b.alt.getD 0)) g) := by
        intro g hg
        unfold Blocks
        rw [hd g hg, max_comm]
      rcases confidence_cases hs hp hsur with ⟨⟨g, hg, hb⟩, h⟩ | ⟨hn, M, h, hM⟩
      · rcases confidence_cases hs hp' hsur with ⟨_, h'⟩ | ⟨hn', _⟩
        · rw [h, h']
        · exact (hn' ⟨g, by rw [ho]; exact hg, (hB g hg).2 hb⟩).elim
      · rcases confidence_cases hs hp' hsur with ⟨⟨g, hg, hb⟩, h'⟩ | ⟨hn', M', h', hM'⟩
        · rw [ho] at hg
          exact (hn ⟨g, hg, (hB g hg).1 hb⟩).elim
        · rw [h, h']
          congr 1
          have e : {d | d = V.radius ∨ ∃ g ∈ obstructions s V.radius b a, gridDistance g (at3 b) (toward b a) = some d}
              = {d | d = V.radius ∨ ∃ g ∈ obstructions s V.radius a b, gridDistance g (at3 a) (toward a b) = some d} := by
            ext d
            simp only [Set.mem_setOf_eq, ho]
            constructor
            · rintro (c | ⟨g, hg, c⟩)
              · exact .inl c
              · exact .inr ⟨g, hg, by rw [← hd g hg]; exact c⟩
            · rintro (c | ⟨g, hg, c⟩)
              · exact .inl c
              · exact .inr ⟨g, hg, by rw [hd g hg]; exact c⟩
          rw [e] at hM'
          exact hM.unique hM'
  · rw [confidence_zero hp, confidence_zero fun c => hp (passes_swap c)]

/-- **C27, clearance.** A cell of the elevation data beside the line between the sites, within the Fresnel radius, and
not left out (`Counted`) stays clear of the line: with confidence `c` not zero, no point of the line between the sites
is closer than `c` times the radius to any point of the vertical line under the top of the cell. If the confidence is
below one, some cell is exactly that close. Without elevation data, the confidence is one whenever the simple checks
pass, and it is zero if they fail. -/
theorem C27_clearance (hs : ∀ L, (sort L).Perm L) {V : Validator} (hV : V.Valid) (a b : RSite) :
    (¬ passes V a b → confidence sort V a b = 0)
    ∧ (passes V a b → V.surface = none → confidence sort V a b = 1)
    ∧ ∀ s, V.surface = some s → confidence sort V a b ≠ 0 →
        (∀ g ∈ boxCells s V.radius a b, Beside a.x a.y b.x b.y V.radius g.x g.y → Counted g (at3 a) (toward a b) →
          ∀ u w, 0 ≤ u → u ≤ 1 → w ≤ g.z → confidence sort V a b * V.radius ≤ between g (at3 a) (toward a b) u w)
        ∧ (confidence sort V a b < 1 → ∃ g ∈ boxCells s V.radius a b, Beside a.x a.y b.x b.y V.radius g.x g.y
            ∧ ∃ u w, 0 ≤ u ∧ u ≤ 1 ∧ w ≤ g.z ∧
              confidence sort V a b * V.radius = between g (at3 a) (toward a b) u w) := by
  refine ⟨confidence_zero, confidence_flat, fun s hsur hc => ?_⟩
  by_cases hp : passes V a b
  · rcases confidence_cases hs hp hsur with ⟨_, h⟩ | ⟨hn, M, h, hM⟩
    · exact (hc h).elim
    · have hcm : confidence sort V a b * V.radius = M := by
        rw [h, div_mul_cancel₀ _ hV.radius.ne']
      have mem : ∀ g, g ∈ obstructions s V.radius a b ↔ g ∈ boxCells s V.radius a b ∧ Beside a.x a.y b.x b.y V.radius g.x g.y := by
        intro g
        rw [obstructions_eq s hV.radius hp.1, List.mem_filter, decide_eq_true_eq]
      constructor
      · intro g hg hbe hcnt u w u0 u1 hw
        have hg' := (mem g).2 ⟨hg, hbe⟩
        have hwi := within_of_mem hV.radius hp.1 hg'
        obtain ⟨d, hd⟩ := (counted_iff (b2_pos hp.1) hwi).1 hcnt
        rw [hcm]
        refine (hM.2 (.inr ⟨g, hg', hd⟩)).trans ?_
        rw [gridDistance_closed (b2_pos hp.1) hwi] at hd
        exact (closed_least (b2_pos hp.1) hwi hd).2 ⟨u, w, u0, u1, hw, rfl⟩
      · intro hlt
        rw [hcm]
        rcases hM.1 with e | ⟨g, hg, hd⟩
        · rw [h, e, div_self hV.radius.ne'] at hlt
          exact (lt_irrefl _ hlt).elim
        · have hwi := within_of_mem hV.radius hp.1 hg
          rw [gridDistance_closed (b2_pos hp.1) hwi] at hd
          obtain ⟨u, w, u0, u1, hw, e⟩ := (closed_least (b2_pos hp.1) hwi hd).1
          exact ⟨g, ((mem g).1 hg).1, ((mem g).1 hg).2, u, w, u0, u1, hw, e⟩
  · exact (hc (confidence_zero hp)).elim

/-- The square of the distance of two sites, in space if both altitudes are known and on the ground otherwise. -/
noncomputable def sqDist (a b : RSite) : ℝ :=
  match a.alt, b.alt with
  | some z, some w => (a.x - b.x) ^ 2 + (a.y - b.y) ^ 2 + (z - w) ^ 2
  | _, _ => (a.x - b.x) ^ 2 + (a.y - b.y) ^ 2

/-- The conditions a line of sight has to satisfy whatever the surface is like: two places, not on one rooftop, at
least the minimal and at most the maximal distance apart, no steeper than the maximal elevation angle (if the altitudes
are known), and not through an exclusion zone. -/
structure Eligible (V : Validator) (a b : RSite) : Prop where
  places : a.x ≠ b.x ∨ a.y ≠ b.y
  roofs : a.loc = .rooftop → b.loc = .rooftop → a.building ≠ b.building
  far : V.minDist ^ 2 ≤ sqDist a b
  near : sqDist a b ≤ V.maxDist ^ 2
  steep : ∀ z w, a.alt = some z → b.alt = some w →
    |z - w| ≤ Real.sin (V.maxEl * Real.pi / 180) * Real.sqrt (sqDist a b)
  zones : ∀ s, 0 ≤ s → s ≤ 1 → ∀ zone ∈ V.zones, (a.x + s * (b.x - a.x), a.y + s * (b.y - a.y)) ∉ zone

theorem losDistance_eq (a b : RSite) : losDistance a b = Real.sqrt (sqDist a b) := by
  unfold losDistance sqDist zDiff
  rcases a.alt with _ | z <;> rcases b.alt with _ | w <;> dsimp only <;> congr 1 <;> ring

theorem passes_iff {V : Validator} (hV : V.Valid) (a b : RSite) : passes V a b ↔ Eligible V a b := by
  have sq0 : 0 ≤ sqDist a b := by
    unfold sqDist
    split <;> positivity
  have hmax : 0 < V.maxDist := hV.min_pos.trans hV.min_lt
  have h1 : ¬ sameXY a b ↔ (a.x ≠ b.x ∨ a.y ≠ b.y) := by
    unfold sameXY
    exact not_and_or
  have h2 : ¬ sameBuilding a b ↔ (a.loc = .rooftop → b.loc = .rooftop → a.building ≠ b.building) := by
    unfold sameBuilding
    constructor
    · intro h ha hb hc
      exact h ⟨ha.trans hb.symm, hb, hc⟩
    · rintro h ⟨ha, hb, hc⟩
      exact h (ha.trans hb) hb hc
  have h3 : V.minDist ≤ losDistance a b ↔ V.minDist ^ 2 ≤ sqDist a b := by
    rw [losDistance_eq]
    exact Real.le_sqrt' hV.min_pos
  have h4 : losDistance a b ≤ V.maxDist ↔ sqDist a b ≤ V.maxDist ^ 2 := by
    rw [losDistance_eq]
    exact Real.sqrt_le_left hmax.le
  have h5 : V.minDist ≤ losDistance a b → (¬ exceedsEl V a b ↔ ∀ z w, a.alt = some z → b.alt = some w →
      |z - w| ≤ Real.sin (V.maxEl * Real.pi / 180) * Real.sqrt (sqDist a b)) := by
    intro hm
    have hd : 0 < losDistance a b := lt_of_lt_of_le hV.min_pos hm
    unfold exceedsEl
    cases hz : a.alt with
    | none => simp
    | some z =>
      cases hw : b.alt with
      | none => simp
      | some w =>
        dsimp only
        have e : (Real.arcsin (|z - w| / losDistance a b) * 180 / Real.pi > V.maxEl) ↔
            ¬ Real.arcsin (|z - w| / losDistance a b) ≤ V.maxEl * Real.pi / 180 := by
          rw [not_le, gt_iff_lt, lt_div_iff₀ Real.pi_pos, div_lt_iff₀ (by norm_num : (0 : ℝ) < 180)]
        rw [e, not_not]
        have hel := hV.el
        have pp := Real.pi_pos
        have le1 : |z - w| / losDistance a b ≤ 1 := by
          rw [div_le_one hd, losDistance_eq]
          apply Real.le_sqrt_of_sq_le
          rw [sq_abs]
          unfold sqDist
          rw [hz, hw]
          dsimp only
          nlinarith [sq_nonneg (a.x - b.x), sq_nonneg (a.y - b.y)]
        have ge0 : 0 ≤ |z - w| / losDistance a b := div_nonneg (abs_nonneg _) hd.le
        rw [Real.arcsin_le_iff_le_sin ⟨by linarith, le1⟩ ⟨by nlinarith, by nlinarith⟩, div_le_iff₀ hd, losDistance_eq]
        constructor
        · intro h z' w' e1 e2
          cases e1; cases e2
          exact h
        · intro h
          exact h z w rfl rfl
  have h6 : (∀ zone ∈ V.zones, ¬ (segment ℝ (a.x, a.y) (b.x, b.y) ∩ zone).Nonempty) ↔
      ∀ s, 0 ≤ s → s ≤ 1 → ∀ zone ∈ V.zones, (a.x + s * (b.x - a.x), a.y + s * (b.y - a.y)) ∉ zone := by
    rw [segment_eq_image']
    constructor
    · intro h s s0 s1 zone hz hc
      refine h zone hz ⟨_, ⟨s, ⟨s0, s1⟩, rfl⟩, ?_⟩
      simpa using hc
    · rintro h zone hz ⟨p, ⟨s, ⟨s0, s1⟩, rfl⟩, hc⟩
      refine h s s0 s1 zone hz ?_
      simpa using hc
  unfold passes
  constructor
  · rintro ⟨p1, p2, ⟨p3, p4⟩, p5, p6⟩
    exact ⟨h1.1 p1, h2.1 p2, h3.1 p3, h4.1 p4, (h5 p3).1 p5, h6.1 p6⟩
  · rintro ⟨p1, p2, p3, p4, p5, p6⟩
    exact ⟨h1.2 p1, h2.2 p2, ⟨h3.2 p3, h4.2 p4⟩, (h5 (h3.2 p3)).2 p5, h6.2 p6⟩

/-- **C27, range.** There is a line of sight only between sites that satisfy the conditions on places, distance,
elevation angle and exclusion zones, and without elevation data the confidence is one between all of these. -/
theorem C27_range {V : Validator} (hV : V.Valid) (a b : RSite) :
    (confidence sort V a b ≠ 0 → Eligible V a b)
    ∧ (V.surface = none → Eligible V a b → confidence sort V a b = 1) := by
  constructor
  · intro h
    by_contra c
    rw [← passes_iff hV] at c
    exact h (confidence_zero c)
  · intro hs h
    unfold confidence
    rw [if_pos ((passes_iff hV a b).2 h), hs]

/-- **C27, blocked.** If the simple checks pass and the confidence is zero although the threshold is positive, then
some cell beside the line is closer to it than the threshold times the radius, or the threshold is one and some cell
beside the line is higher than both sites. -/
theorem C27_blocked (hs : ∀ L, (sort L).Perm L) {V : Validator} (hV : V.Valid) (ht : 0 < V.threshold) (a b : RSite)
    (hp : passes V a b) (hc : confidence sort V a b = 0) :
    ∃ s, V.surface = some s ∧ ∃ g ∈ boxCells s V.radius a b, Beside a.x a.y b.x b.y V.radius g.x g.y ∧
      ((∃ u w, 0 ≤ u ∧ u ≤ 1 ∧ w ≤ g.z ∧ between g (at3 a) (toward a b) u w < V.radius * V.threshold)
        ∨ (V.threshold = 1 ∧ g.z > a.alt.getD 0 ∧ g.z > b.alt.getD 0)) := by
  cases hsur : V.surface with
  | none =>
    rw [confidence_flat hp hsur] at hc
    exact (one_ne_zero hc).elim
  | some s =>
    refine ⟨s, rfl, ?_⟩
    rcases confidence_cases hs hp hsur with ⟨⟨g, hg, hB⟩, _⟩ | ⟨hn, M, h, hM⟩
    · have hwi := within_of_mem hV.radius hp.1 hg
      have hg' := hg
      rw [obstructions_eq s hV.radius hp.1, List.mem_filter, decide_eq_true_eq] at hg'
      refine ⟨g, hg'.1, hg'.2, ?_⟩
      rcases hB with ⟨e1, e2⟩ | ⟨d, hd, e2⟩
      · exact .inr ⟨e1, lt_of_le_of_lt (le_max_left _ _) e2, lt_of_le_of_lt (le_max_right _ _) e2⟩
      · rw [gridDistance_closed (b2_pos hp.1) hwi] at hd
        obtain ⟨u, w, u0, u1, hw, e⟩ := (closed_least (b2_pos hp.1) hwi hd).1
        exact .inl ⟨u, w, u0, u1, hw, by rw [← e]; exact e2⟩
    · exfalso
      rcases C27_bounds hs hV a b with h0 | h0
      · have : M = 0 := by
          rw [h] at hc
          rcases div_eq_zero_iff.1 hc with e | e
          · exact e
          · exact (hV.radius.ne' e).elim
        rcases hM.1 with e | ⟨g, hg, hd⟩
        · exact hV.radius.ne' (by rw [← e, this])
        · exact hn ⟨g, hg, .inr ⟨M, hd, by rw [this]; exact mul_pos hV.radius ht⟩⟩
      · rw [hc] at h0
        exact absurd h0.1 (not_le.2 ht)

/-- Two sites ten metres apart and ten metres up, radius 1; a cell between them, eight metres high. -/
example : Validator.Valid { surface := some fun _ _ _ _ => [⟨5, 0, 8⟩], maxDist := 200, minDist := 5, maxEl := 25, radius := 1, threshold := 1 }
    ∧ passes { surface := some fun _ _ _ _ => [⟨5, 0, 8⟩], maxDist := 200, minDist := 5, maxEl := 25, radius := 1, threshold := 1 }
      ⟨0, 0, some 10, .unknown, none⟩ ⟨10, 0, some 10, .unknown, none⟩ := by
  refine ⟨⟨by norm_num, by norm_num, by norm_num, by norm_num, by norm_num⟩, ?_, ?_, ?_, ?_, ?_⟩
  · rintro ⟨h, _⟩; norm_num at h
  · rintro ⟨_, h, _⟩; cases h
  · have : losDistance ⟨0, 0, some 10, .unknown, none⟩ ⟨10, 0, some 10, .unknown, none⟩ = 10 := by
      unfold losDistance zDiff
      have : (((0 : ℝ) - 10) * (0 - 10) + (0 - 0) * (0 - 0) + (10 - 10) * (10 - 10)) = 10 * 10 := by norm_num
      simp only [this]
      exact Real.sqrt_mul_self (by norm_num)
    rw [this]
    norm_num
  · unfold exceedsEl
    simp
  · intro z hz; cases hz

/-- The site with its coordinates as real numbers. -/
noncomputable def LosSite.real (s : LosSite) : RSite := ⟨s.x, s.y, s.alt.map (↑), s.loc, s.building⟩

/-- **C23 (partial), for the cylindrical validator.** If sites in the same place are at the same kind of location and on
the same building, then neither the memo nor the batches matter: the links found are those found by computing each
candidate afresh. -/
theorem C23_cylindrical_partial (hs : ∀ L, (sort L).Perm L) {V : Validator} (hV : V.Valid) (sites : List LosSite)
    (hp : ∀ a ∈ sites, ∀ b ∈ sites, a.x = b.x → a.y = b.y → a.alt = b.alt → a.loc = b.loc ∧ a.building = b.building)
    (size : Nat) (hsz : 0 < size) (ls : List CandidateLos) :
    computeLos (fun a b => confidence sort V a.real b.real) (fun c => decide (0 < c)) size sites ls
      = ls.flatMap (freshLinks (fun a b => confidence sort V a.real b.real) (fun c => decide (0 < c)) sites) := by
  refine C23_memo_partial _ _ sites ⟨?_, ?_⟩ size hsz ls
  · intro a ha b hb a' ha' b' hb' h h'
    simp only [Prod.mk.injEq] at h h'
    have e1 : a = a' := by
      have := hp a ha a' ha' h.1 h.2.1 h.2.2
      cases a; cases a'
      simp_all
    have e2 : b = b' := by
      have := hp b hb b' hb' h'.1 h'.2.1 h'.2.2
      cases b; cases b'
      simp_all
    rw [e1, e2]
  · intro a _ b _
    exact C27_symmetric hs hV.radius a.real b.real

/-- **C23 fails.** Three input or detected sites: two in the same place, one of which is recorded as being on a
building, and a third on that building. Without elevation data, the pair of the third and the one that is not on the
building has confidence one. Computed after the other pair, it gets none. -/
theorem C23_memo_violation {V : Validator} (hV : V.Valid) (hf : V.surface = none) (hz : V.zones = [])
    (hd : V.minDist ≤ 10 ∧ 10 ≤ V.maxDist) :
    computeLos (fun a b => confidence sort V a.real b.real) (fun c => decide (0 < c)) 1000
        [⟨0, 0, none, .rooftop, some 3⟩, ⟨0, 0, none, .streetLevel, none⟩, ⟨10, 0, none, .rooftop, some 3⟩]
        [⟨0, 2, true⟩, ⟨1, 2, true⟩] = []
    ∧ freshLinks (fun a b => confidence sort V a.real b.real) (fun c => decide (0 < c))
        [⟨0, 0, none, .rooftop, some 3⟩, ⟨0, 0, none, .streetLevel, none⟩, ⟨10, 0, none, .rooftop, some 3⟩]
        ⟨1, 2, true⟩ = [⟨1, 2, 1⟩, ⟨2, 1, 1⟩] := by
  have c0 : confidence sort V (LosSite.real ⟨0, 0, none, .rooftop, some 3⟩) (LosSite.real ⟨10, 0, none, .rooftop, some 3⟩) = 0 := by
    refine confidence_zero fun h => h.2.1 ⟨rfl, rfl, rfl⟩
  have c1 : confidence sort V (LosSite.real ⟨0, 0, none, .streetLevel, none⟩) (LosSite.real ⟨10, 0, none, .rooftop, some 3⟩) = 1 := by
    refine confidence_flat ⟨?_, ?_, ?_, ?_, ?_⟩ hf
    · rintro ⟨h, _⟩
      norm_num [LosSite.real] at h
    · rintro ⟨h, _⟩
      cases h
    · have : losDistance (LosSite.real ⟨0, 0, none, .streetLevel, none⟩) (LosSite.real ⟨10, 0, none, .rooftop, some 3⟩) = 10 := by
        unfold losDistance zDiff LosSite.real
        simp only [Option.map_none]
        have : ((((0 : ℚ) : ℝ) - ((10 : ℚ) : ℝ)) * (((0 : ℚ) : ℝ) - ((10 : ℚ) : ℝ)) + (((0 : ℚ) : ℝ) - ((0 : ℚ) : ℝ)) * (((0 : ℚ) : ℝ) - ((0 : ℚ) : ℝ)) + 0 * 0) = 10 * 10 := by norm_num
        rw [this]
        exact Real.sqrt_mul_self (by norm_num)
      rw [this]
      exact hd
    · unfold exceedsEl LosSite.real
      simp
    · rw [hz]
      intro z h; cases h
  constructor
  · have e : losBatches 1000 [(⟨0, 2, true⟩ : CandidateLos), ⟨1, 2, true⟩] = [[⟨0, 2, true⟩, ⟨1, 2, true⟩]] := by decide
    unfold computeLos
    rw [e]
    simp only [List.flatMap_cons, List.flatMap_nil, List.append_nil, losBatch, List.getElem?_cons_zero,
      List.getElem?_cons_succ, memoConfidence, LosSite.key, Dict.get?, validLinks]
    simp only [c0, c1]
    simp [Dict.set, Dict.get?]
  · simp only [freshLinks, List.getElem?_cons_zero, List.getElem?_cons_succ, c1, validLinks]
    simp

end Verif
