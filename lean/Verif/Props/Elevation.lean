import Verif.Model.Elevation
import Mathlib.Tactic.Linarith
import Mathlib.Tactic.Ring
import Mathlib.Tactic.FieldSimp
import Mathlib.Algebra.Order.Field.Rat
import Mathlib.Data.List.ProdSigma
import Mathlib.Data.List.Nodup

/-! # Elevation raster (C60, C80, C81, C82) -/

namespace Verif

/-! ## Rounding and clamping -/

theorem pyRound_near (x : ℚ) : |x - pyRound x| ≤ 1 / 2 := by
  have h1 := Int.floor_le x
  have h2 := Int.lt_floor_add_one x
  unfold pyRound
  split
  · rw [abs_le]; constructor <;> linarith
  · split
    · push_cast
      rw [abs_le]; constructor <;> linarith
    · split
      · rw [abs_le]; constructor <;> linarith
      · push_cast
        rw [abs_le]; constructor <;> linarith

theorem pyRound_int (i : ℤ) : pyRound (i : ℚ) = i := by
  unfold pyRound
  rw [Int.floor_intCast, if_pos (by norm_num)]

theorem pyRound_mono {x y : ℚ} (h : x ≤ y) : pyRound x ≤ pyRound y := by
  have hf := Int.floor_le_floor h
  have h1 := Int.floor_le x
  have h2 := Int.lt_floor_add_one x
  have h3 := Int.floor_le y
  have h4 := Int.lt_floor_add_one y
  rcases hf.lt_or_eq with c | c
  · have : ((⌊x⌋ : ℤ) : ℚ) + 1 ≤ ⌊y⌋ := by exact_mod_cast c
    have a : pyRound x ≤ ⌊x⌋ + 1 := by
      unfold pyRound; split
      · omega
      · split
        · omega
        · split <;> omega
    have b : ⌊y⌋ ≤ pyRound y := by
      unfold pyRound; split
      · omega
      · split
        · omega
        · split <;> omega
    omega
  · unfold pyRound
    rw [← c]
    have cq : ((⌊x⌋ : ℤ) : ℚ) = ⌊y⌋ := by exact_mod_cast c
    by_cases p : x - (⌊x⌋ : ℚ) < 1 / 2
    · rw [if_pos p]
      split
      · omega
      · split
        · omega
        · split <;> omega
    · rw [if_neg p, if_neg (show ¬ y - (⌊x⌋ : ℚ) < 1 / 2 by linarith)]
      by_cases q : x - (⌊x⌋ : ℚ) > 1 / 2
      · rw [if_pos q, if_pos (show y - (⌊x⌋ : ℚ) > 1 / 2 by linarith)]
      · rw [if_neg q]
        split
        · split <;> omega
        · omega

theorem clampIdx_range {n : Nat} (h : 0 < n) (i : ℤ) : 0 ≤ clampIdx i n ∧ clampIdx i n < n := by
  unfold clampIdx
  omega

theorem clampIdx_mono (n : Nat) {i j : ℤ} (h : i ≤ j) : clampIdx i n ≤ clampIdx j n := by
  unfold clampIdx
  omega

theorem clampIdx_of_lt {n : Nat} {i : Nat} (h : i < n) : clampIdx (i : ℤ) n = i := by
  unfold clampIdx
  omega

theorem clampIdx_near {n : Nat} (x : ℚ) {k : ℤ} (h0 : 0 ≤ k) (hk : k < n) :
    |x - clampIdx (pyRound x) n| ≤ |x - k| := by
  have hr := abs_le.1 (pyRound_near x)
  by_cases c0 : pyRound x < 0
  · have e : clampIdx (pyRound x) n = 0 := by unfold clampIdx; omega
    rw [e]
    have : (pyRound x : ℚ) ≤ -1 := by exact_mod_cast Int.le_sub_one_of_lt c0
    have hk0 : (0 : ℚ) ≤ k := by exact_mod_cast h0
    push_cast
    rw [abs_of_nonpos (by linarith), abs_of_nonpos (by linarith)]
    linarith
  · by_cases c1 : pyRound x < n
    · have e : clampIdx (pyRound x) n = pyRound x := by unfold clampIdx; omega
      rw [e]
      by_cases q : k = pyRound x
      · rw [q]
      · rcases lt_or_gt_of_ne q with q | q
        · have : (k : ℚ) ≤ pyRound x - 1 := by exact_mod_cast Int.le_sub_one_of_lt q
          calc |x - pyRound x| ≤ 1 / 2 := pyRound_near x
            _ ≤ x - k := by linarith
            _ ≤ |x - k| := le_abs_self _
        · have : (pyRound x : ℚ) + 1 ≤ k := by exact_mod_cast q
          calc |x - pyRound x| ≤ 1 / 2 := pyRound_near x
            _ ≤ -(x - k) := by linarith
            _ ≤ |x - k| := neg_le_abs _
    · have e : clampIdx (pyRound x) n = n - 1 := by unfold clampIdx; omega
      rw [e]
      have a : (n : ℚ) ≤ pyRound x := by exact_mod_cast not_lt.1 c1
      have b : (k : ℚ) ≤ n - 1 := by
        have : k ≤ (n : ℤ) - 1 := by omega
        exact_mod_cast this
      push_cast
      rw [abs_of_nonneg (by linarith), abs_of_nonneg (by linarith)]
      linarith

namespace Raster

theorem scaled_x (r : Raster) (hx : 0 < r.xRes) (x : ℚ) (k : ℤ) :
    |x - (r.left + r.xRes * k)| = r.xRes * |(x - r.left) / r.xRes - k| := by
  rw [← abs_of_pos hx, ← abs_mul, abs_of_pos hx]
  congr 1
  field_simp
  ring

theorem scaled_y (r : Raster) (hy : 0 < r.yRes) (y : ℚ) (k : ℤ) :
    |y - (r.top - r.yRes * k)| = r.yRes * |(r.top - y) / r.yRes - k| := by
  rw [← abs_of_pos hy, ← abs_mul, abs_of_pos hy, ← abs_neg]
  congr 1
  field_simp
  ring

/-- C60: every coordinate is converted to the index of a cell of the raster. -/
theorem C60_index_valid (r : Raster) (hx : 0 < r.xSize) (hy : 0 < r.ySize) (x y : ℚ) :
    (0 ≤ (r.utmToIdx x y).1 ∧ (r.utmToIdx x y).1 < r.xSize) ∧
    (0 ≤ (r.utmToIdx x y).2 ∧ (r.utmToIdx x y).2 < r.ySize) :=
  ⟨clampIdx_range hx _, clampIdx_range hy _⟩

/-- C60: no cell of the raster has its centre nearer to the coordinate, on either
axis, than the one chosen. -/
theorem C60_index_nearest (r : Raster) (hx : 0 < r.xRes) (hy : 0 < r.yRes) (x y : ℚ)
    (i j : Nat) (hi : i < r.xSize) (hj : j < r.ySize) :
    |x - (r.left + r.xRes * (r.utmToIdx x y).1)| ≤ |x - (r.left + r.xRes * i)| ∧
    |y - (r.top - r.yRes * (r.utmToIdx x y).2)| ≤ |y - (r.top - r.yRes * j)| := by
  have a := r.scaled_x hx x i
  have b := r.scaled_y hy y j
  push_cast at a b
  rw [a, b, scaled_x r hx, scaled_y r hy]
  constructor
  · apply mul_le_mul_of_nonneg_left _ hx.le
    exact clampIdx_near _ (Int.natCast_nonneg i) (by exact_mod_cast hi)
  · apply mul_le_mul_of_nonneg_left _ hy.le
    exact clampIdx_near _ (Int.natCast_nonneg j) (by exact_mod_cast hj)

/-- The centre of a cell is converted to the index of that cell. -/
theorem utmToIdx_centre (r : Raster) (hx : 0 < r.xRes) (hy : 0 < r.yRes) {i j : Nat}
    (hi : i < r.xSize) (hj : j < r.ySize) :
    r.utmToIdx (r.left + r.xRes * i) (r.top - r.yRes * j) = ((i : ℤ), (j : ℤ)) := by
  unfold utmToIdx
  have a : (r.left + r.xRes * i - r.left) / r.xRes = ((i : ℤ) : ℚ) := by
    push_cast
    field_simp
    ring
  have b : (r.top - (r.top - r.yRes * j)) / r.yRes = ((j : ℤ) : ℚ) := by
    push_cast
    field_simp
    ring
  rw [a, b, pyRound_int, pyRound_int, clampIdx_of_lt hi, clampIdx_of_lt hj]

/-- C60: a lookup returns the value of the cell the coordinate is converted to, and
leaves the raster alone, if that cell has a value; otherwise it returns the value
found nearby and writes it into that cell and no other. -/
theorem C60_value (r : Raster) (fill : Fill) (hx : 0 < r.xSize) (hy : 0 < r.ySize) (x y : ℚ) :
    ∃ i j : Nat, i < r.xSize ∧ j < r.ySize ∧ r.utmToIdx x y = ((i : ℤ), (j : ℤ)) ∧
      (r.cell j i ≠ noData → r.getValue fill x y = (r, .ok (r.cell j i))) ∧
      (r.cell j i = noData → ∀ v, fill x y = some v →
        (r.getValue fill x y).2 = .ok v ∧ (r.getValue fill x y).1.cell j i = v ∧
        ∀ a b, (a, b) ≠ (j, i) → (r.getValue fill x y).1.cell a b = r.cell a b) ∧
      (r.cell j i = noData → fill x y = none → r.getValue fill x y = (r, .error .data)) := by
  obtain ⟨⟨h1, h2⟩, h3, h4⟩ := r.C60_index_valid hx hy x y
  refine ⟨(r.utmToIdx x y).1.toNat, (r.utmToIdx x y).2.toNat, by omega, by omega, ?_, ?_, ?_, ?_⟩
  · rw [Int.toNat_of_nonneg h1, Int.toNat_of_nonneg h3]
  · intro hv
    unfold getValue
    dsimp only
    rw [if_pos ⟨h1, h2, h3, h4⟩, if_neg hv]
  · intro hv v hf
    have e : r.getValue fill x y =
        (r.setCell (r.utmToIdx x y).2.toNat (r.utmToIdx x y).1.toNat v, .ok v) := by
      unfold getValue
      dsimp only
      rw [if_pos ⟨h1, h2, h3, h4⟩, if_pos hv, hf]
    rw [e]
    refine ⟨rfl, ?_, ?_⟩
    · unfold setCell
      exact if_pos ⟨rfl, rfl⟩
    · intro a b hab
      unfold setCell
      exact if_neg (fun q => hab (by rw [q.1, q.2]))
  · intro hv hf
    unfold getValue
    dsimp only
    rw [if_pos ⟨h1, h2, h3, h4⟩, if_pos hv, hf]

/-- C60: looking up again any coordinate of the same cell gives the same value and
changes nothing. -/
theorem C60_repeat (r : Raster) (fill : Fill) (hx : 0 < r.xSize) (hy : 0 < r.ySize) (x y x' y' v : ℚ)
    (h : (r.getValue fill x y).2 = .ok v) (hv : v ≠ noData) (same : r.utmToIdx x' y' = r.utmToIdx x y) :
    (r.getValue fill x y).1.getValue fill x' y' = ((r.getValue fill x y).1, .ok v) := by
  obtain ⟨⟨h1, h2⟩, h3, h4⟩ := r.C60_index_valid hx hy x y
  have fact : (r.getValue fill x y).1.xSize = r.xSize ∧ (r.getValue fill x y).1.ySize = r.ySize ∧
      (r.getValue fill x y).1.utmToIdx x' y' = r.utmToIdx x' y' ∧
      (r.getValue fill x y).1.cell (r.utmToIdx x y).2.toNat (r.utmToIdx x y).1.toNat = v := by
    unfold getValue at h ⊢
    dsimp only at h ⊢
    rw [if_pos ⟨h1, h2, h3, h4⟩] at h ⊢
    by_cases c : r.cell (r.utmToIdx x y).2.toNat (r.utmToIdx x y).1.toNat = noData
    · rw [if_pos c] at h ⊢
      cases hf : fill x y with
      | none => rw [hf] at h; cases h
      | some w =>
        rw [hf] at h
        cases h
        exact ⟨rfl, rfl, rfl, if_pos ⟨rfl, rfl⟩⟩
    · rw [if_neg c] at h ⊢
      cases h
      exact ⟨rfl, rfl, rfl, rfl⟩
  generalize (r.getValue fill x y).1 = r' at fact
  obtain ⟨e1, e2, e3, e4⟩ := fact
  rw [same] at e3
  unfold getValue
  dsimp only
  rw [e3, e1, e2, if_pos ⟨h1, h2, h3, h4⟩, e4, if_neg hv]

/-! ## Windows -/

theorem sliceBound_nonneg {n : Nat} {a : ℤ} (h : 0 ≤ a) : sliceBound n a = min a.toNat n := by
  unfold sliceBound
  rw [if_neg (by omega)]

theorem pySlice_nonneg (n : Nat) {a b : ℤ} (ha : 0 ≤ a) (hb : 0 ≤ b) :
    pySlice n a b = (List.range n).filter (fun i : Nat => decide (a ≤ i ∧ (i : ℤ) < b)) := by
  unfold pySlice
  apply List.filter_congr
  intro i hi
  rw [List.mem_range] at hi
  rw [sliceBound_nonneg ha, sliceBound_nonneg hb, ← Bool.decide_and, decide_eq_decide]
  omega

/-- C60 (full claim: the matrix returned for any bound holds exactly the cells whose
centres lie in it). Proved for a bound that starts less than one cell outside the
raster and contains some centre; it may end anywhere. Missing: bounds that start
further to the west or north, see `C60_window_violation`. -/
theorem C60_window_partial (r : Raster) (fill : Fill) (hx : 0 < r.xRes) (hy : 0 < r.yRes)
    (minX minY maxX maxY : ℚ) (hX : minX ≤ maxX) (hY : minY ≤ maxY)
    (hl : r.left - r.xRes < minX) (ht : maxY < r.top + r.yRes)
    (i j : Nat) (hi : i < r.xSize) (hj : j < r.ySize)
    (hi' : minX ≤ r.left + r.xRes * i ∧ r.left + r.xRes * i ≤ maxX)
    (hj' : minY ≤ r.top - r.yRes * j ∧ r.top - r.yRes * j ≤ maxY) :
    r.valueMatrix fill minX minY maxX maxY = (r, .ok
      (((List.range r.ySize).filter (fun j : Nat =>
          decide (minY ≤ r.top - r.yRes * j ∧ r.top - r.yRes * j ≤ maxY))).map (fun j =>
        ((List.range r.xSize).filter (fun i : Nat =>
          decide (minX ≤ r.left + r.xRes * i ∧ r.left + r.xRes * i ≤ maxX))).map (r.cell j)))) := by
  have cx : ∀ k : ℤ, (r.colFrom minX ≤ k ↔ minX ≤ r.left + r.xRes * k) := by
    intro k
    unfold colFrom
    rw [Int.ceil_le, div_le_iff₀ hx]
    constructor <;> intro h <;> linarith
  have cx' : ∀ k : ℤ, (k < r.colTo maxX + 1 ↔ r.left + r.xRes * k ≤ maxX) := by
    intro k
    unfold colTo
    rw [Int.lt_add_one_iff, Int.le_floor, le_div_iff₀ hx]
    constructor <;> intro h <;> linarith
  have cy : ∀ k : ℤ, (r.rowFrom maxY ≤ k ↔ r.top - r.yRes * k ≤ maxY) := by
    intro k
    unfold rowFrom
    rw [Int.ceil_le, div_le_iff₀ hy]
    constructor <;> intro h <;> linarith
  have cy' : ∀ k : ℤ, (k < r.rowTo minY + 1 ↔ minY ≤ r.top - r.yRes * k) := by
    intro k
    unfold rowTo
    rw [Int.lt_add_one_iff, Int.le_floor, le_div_iff₀ hy]
    constructor <;> intro h <;> linarith
  have a0 : 0 ≤ r.colFrom minX := by
    by_contra c
    have := (cx (-1)).1 (by omega)
    push_cast at this
    linarith
  have b0 : 0 ≤ r.rowFrom maxY := by
    by_contra c
    have := (cy (-1)).1 (by omega)
    push_cast at this
    linarith
  have a1 : 0 ≤ r.colTo maxX + 1 := by
    have := (cx' i).2 (by push_cast; exact hi'.2)
    omega
  have b1 : 0 ≤ r.rowTo minY + 1 := by
    have := (cy' j).2 (by push_cast; exact hj'.1)
    omega
  have e : r.window minX minY maxX maxY =
      (((List.range r.ySize).filter (fun j : Nat =>
          decide (minY ≤ r.top - r.yRes * j ∧ r.top - r.yRes * j ≤ maxY))).map (fun j =>
        ((List.range r.xSize).filter (fun i : Nat =>
          decide (minX ≤ r.left + r.xRes * i ∧ r.left + r.xRes * i ≤ maxX))).map (r.cell j))) := by
    unfold window
    rw [pySlice_nonneg _ a0 a1, pySlice_nonneg _ b0 b1]
    have q1 : (fun k : Nat => decide (r.rowFrom maxY ≤ (k : ℤ) ∧ (k : ℤ) < r.rowTo minY + 1)) =
        (fun k : Nat => decide (minY ≤ r.top - r.yRes * k ∧ r.top - r.yRes * k ≤ maxY)) := by
      funext k
      rw [decide_eq_decide, cy, cy', and_comm]
      push_cast
      rfl
    have q2 : (fun k : Nat => decide (r.colFrom minX ≤ (k : ℤ) ∧ (k : ℤ) < r.colTo maxX + 1)) =
        (fun k : Nat => decide (minX ≤ r.left + r.xRes * k ∧ r.left + r.xRes * k ≤ maxX)) := by
      funext k
      rw [decide_eq_decide, cx, cx']
      push_cast
      rfl
    rw [q1, q2]
  unfold valueMatrix
  rw [if_neg ?_, e]
  rw [e]
  apply List.ne_nil_of_mem (a := r.cell j i)
  rw [List.mem_flatten]
  exact ⟨_, List.mem_map.2 ⟨j, List.mem_filter.2 ⟨List.mem_range.2 hj, decide_eq_true hj'⟩, rfl⟩,
    List.mem_map.2 ⟨i, List.mem_filter.2 ⟨List.mem_range.2 hi, decide_eq_true hi'⟩, rfl⟩⟩

/-- A raster of one row and four columns, the cells `0, 1, 2, 3`. -/
def strip : Raster where
  xSize := 4
  ySize := 1
  cell := fun _ i => i
  xRes := 1
  yRes := 1
  left := 0
  top := 0
  minX := 0
  minY := 0
  maxX := 3
  maxY := 0

/-- C60: a bound that starts one cell outside the raster contains the centres of
the first three cells, but only the first value comes back; one that starts three
cells outside loses the first cell; and one that lies entirely outside returns
three cells instead of the nearest. -/
theorem C60_window_violation :
    (strip.valueMatrix (fun _ _ => none) (-1) 0 2 0).2.toOption = some [[0]] ∧
    (strip.valueMatrix (fun _ _ => none) (-3) 0 2 0).2.toOption = some [[1, 2]] ∧
    (strip.valueMatrix (fun _ _ => none) (-4) 0 (-2) 0).2.toOption = some [[0, 1, 2]] := by
  decide +kernel

/-! ## Lists of lookups -/

/-- Every cell has a value. -/
def NoVoid (r : Raster) : Prop := ∀ j i : Nat, j < r.ySize → i < r.xSize → r.cell j i ≠ noData

/-- Value of the cell a coordinate is converted to. -/
def valueAt (r : Raster) (x y : ℚ) : ℚ := r.cell (r.utmToIdx x y).2.toNat (r.utmToIdx x y).1.toNat

theorem getValue_noVoid {r : Raster} (hx : 0 < r.xSize) (hy : 0 < r.ySize) (hv : r.NoVoid)
    (fill : Fill) (x y : ℚ) : r.getValue fill x y = (r, .ok (r.valueAt x y)) := by
  obtain ⟨⟨h1, h2⟩, h3, h4⟩ := r.C60_index_valid hx hy x y
  unfold getValue
  dsimp only
  rw [if_pos ⟨h1, h2, h3, h4⟩, if_neg (hv _ _ (by omega) (by omega))]
  rfl

theorem getValues_noVoid {r : Raster} (hx : 0 < r.xSize) (hy : 0 < r.ySize) (hv : r.NoVoid)
    (fill : Fill) (ps : List (ℚ × ℚ)) :
    getValues fill r ps = (r, .ok (ps.map (fun p => (p.1, p.2, r.valueAt p.1 p.2)))) := by
  induction ps with
  | nil => rfl
  | cons p ps ih =>
    obtain ⟨x, y⟩ := p
    unfold getValues
    rw [getValue_noVoid hx hy hv]
    dsimp only
    rw [ih]
    rfl

theorem mem_pyRange (a b k : ℤ) : k ∈ pyRange a b ↔ a ≤ k ∧ k < b := by
  unfold pyRange
  rw [List.mem_map]
  constructor
  · rintro ⟨n, hn, rfl⟩
    rw [List.mem_range] at hn
    omega
  · intro h
    exact ⟨(k - a).toNat, List.mem_range.2 (by omega), by omega⟩

theorem pyRange_nodup (a b : ℤ) : (pyRange a b).Nodup := by
  unfold pyRange
  apply List.Nodup.map _ List.nodup_range
  intro x y h
  dsimp only at h
  omega

/-- C60: the list returned for a bound has one entry for each point of the raster's
grid, extended in all directions, that lies in the bound, with the value of the
lookup at that point. -/
theorem C60_list (r : Raster) (fill : Fill) (hx : 0 < r.xSize) (hy : 0 < r.ySize) (hv : r.NoVoid)
    (hxr : 0 < r.xRes) (hyr : 0 < r.yRes) (minX minY maxX maxY : ℚ) :
    ∃ L, r.valueList fill minX minY maxX maxY = (r, .ok L) ∧ L.Nodup ∧
      ∀ x y v, (x, y, v) ∈ L ↔ (∃ k : ℤ, x = r.left + r.xRes * k) ∧ minX ≤ x ∧ x ≤ maxX ∧
        (∃ k : ℤ, y = r.top - r.yRes * k) ∧ minY ≤ y ∧ y ≤ maxY ∧ r.getValue fill x y = (r, .ok v) := by
  refine ⟨_, getValues_noVoid hx hy hv fill _, ?_, ?_⟩
  · apply List.Nodup.map
    · intro p q h
      simp only [Prod.mk.injEq] at h
      exact Prod.ext h.1 h.2.1
    · apply List.Nodup.product
      · apply List.Nodup.map _ (pyRange_nodup _ _)
        intro a b h
        have : r.xRes * ((a : ℚ) - b) = 0 := by dsimp only at h; linarith
        rcases mul_eq_zero.1 this with e | e
        · exact absurd e hxr.ne'
        · have : (a : ℚ) = b := by linarith
          exact_mod_cast this
      · apply List.Nodup.map _ (pyRange_nodup _ _)
        intro a b h
        have : r.yRes * ((a : ℚ) - b) = 0 := by dsimp only at h; linarith
        rcases mul_eq_zero.1 this with e | e
        · exact absurd e hyr.ne'
        · have : (a : ℚ) = b := by linarith
          exact_mod_cast this
  · intro x y v
    rw [getValue_noVoid hx hy hv, List.mem_map]
    constructor
    · rintro ⟨⟨a, b⟩, h, e⟩
      simp only [Prod.mk.injEq] at e
      obtain ⟨rfl, rfl, rfl⟩ := e
      rw [List.mem_product] at h
      obtain ⟨h1, h2⟩ := h
      obtain ⟨i, hi, rfl⟩ := List.mem_map.1 h1
      obtain ⟨j, hj, rfl⟩ := List.mem_map.1 h2
      rw [mem_pyRange] at hi hj
      unfold colFrom colTo at hi
      unfold rowFrom rowTo at hj
      rw [Int.ceil_le, div_le_iff₀ hxr, Int.lt_add_one_iff, Int.le_floor, le_div_iff₀ hxr] at hi
      rw [Int.ceil_le, div_le_iff₀ hyr, Int.lt_add_one_iff, Int.le_floor, le_div_iff₀ hyr] at hj
      exact ⟨⟨i, by ring⟩, by linarith [hi.1], by linarith [hi.2], ⟨j, by ring⟩, by linarith [hj.2],
        by linarith [hj.1], rfl⟩
    · rintro ⟨⟨i, rfl⟩, h1, h2, ⟨j, rfl⟩, h3, h4, h5⟩
      simp only [Prod.mk.injEq, Except.ok.injEq, true_and] at h5
      refine ⟨(r.left + r.xRes * i, r.top - r.yRes * j), ?_, by rw [h5]⟩
      rw [List.mem_product]
      constructor
      · refine List.mem_map.2 ⟨i, ?_, by ring⟩
        rw [mem_pyRange]
        unfold colFrom colTo
        rw [Int.ceil_le, div_le_iff₀ hxr, Int.lt_add_one_iff, Int.le_floor, le_div_iff₀ hxr]
        constructor <;> linarith
      · refine List.mem_map.2 ⟨j, ?_, by ring⟩
        rw [mem_pyRange]
        unfold rowFrom rowTo
        rw [Int.ceil_le, div_le_iff₀ hyr, Int.lt_add_one_iff, Int.le_floor, le_div_iff₀ hyr]
        constructor <;> linarith

/-! ## Obstructions -/

theorem within_id {lo hi x : ℚ} (h1 : lo ≤ x) (h2 : x ≤ hi) : within lo hi x = x := by
  unfold within
  rw [max_eq_left h1, min_eq_left h2]

theorem within_mono (lo hi : ℚ) {x y : ℚ} (h : x ≤ y) : within lo hi x ≤ within lo hi y :=
  min_le_min_right _ (max_le_max_right _ h)

theorem utmToIdx_mono_x (r : Raster) (hx : 0 < r.xRes) {a b : ℚ} (h : a ≤ b) (y y' : ℚ) :
    (r.utmToIdx a y).1 ≤ (r.utmToIdx b y').1 := by
  apply clampIdx_mono
  apply pyRound_mono
  rw [div_le_div_iff_of_pos_right hx]
  linarith

theorem utmToIdx_mono_y (r : Raster) (hy : 0 < r.yRes) {a b : ℚ} (h : a ≤ b) (x x' : ℚ) :
    (r.utmToIdx x b).2 ≤ (r.utmToIdx x' a).2 := by
  apply clampIdx_mono
  apply pyRound_mono
  rw [div_le_div_iff_of_pos_right hy]
  linarith

theorem mem_obstructions (r : Raster) (hx : 0 < r.xSize) (hy : 0 < r.ySize) (x1 y1 x2 y2 : ℚ)
    (inside : ℚ → ℚ → Bool) (p : ℚ × ℚ × ℚ) :
    p ∈ r.obstructions x1 y1 x2 y2 inside ↔ ∃ j i : Nat, j < r.ySize ∧ i < r.xSize ∧
      (r.utmToIdx (min (within r.minX r.maxX x1) (within r.minX r.maxX x2)) 0).1 ≤ i ∧
      (i : ℤ) ≤ (r.utmToIdx (max (within r.minX r.maxX x1) (within r.minX r.maxX x2)) 0).1 ∧
      (r.utmToIdx 0 (max (within r.minY r.maxY y1) (within r.minY r.maxY y2))).2 ≤ j ∧
      (j : ℤ) ≤ (r.utmToIdx 0 (min (within r.minY r.maxY y1) (within r.minY r.maxY y2))).2 ∧
      inside (r.left + r.xRes * i) (r.top - r.yRes * j) = true ∧
      p = (r.left + r.xRes * i, r.top - r.yRes * j, r.cell j i) := by
  have ix : ∀ a b c : ℚ, (r.utmToIdx a b).1 = (r.utmToIdx a c).1 := fun _ _ _ => rfl
  have iy : ∀ a b c : ℚ, (r.utmToIdx a c).2 = (r.utmToIdx b c).2 := fun _ _ _ => rfl
  unfold obstructions
  dsimp only
  rw [List.mem_filterMap]
  constructor
  · rintro ⟨⟨j, i⟩, h, e⟩
    rw [List.mem_flatMap] at h
    obtain ⟨j', hj, h⟩ := h
    obtain ⟨i', hi, h⟩ := List.mem_map.1 h
    cases h
    rw [mem_pyRange] at hi hj
    dsimp only at e
    split at e
    · rename_i hin
      cases e
      have v1 := (r.C60_index_valid hx hy (min (within r.minX r.maxX x1) (within r.minX r.maxX x2))
        (max (within r.minY r.maxY y1) (within r.minY r.maxY y2)))
      have v2 := (r.C60_index_valid hx hy (max (within r.minX r.maxX x1) (within r.minX r.maxX x2))
        (min (within r.minY r.maxY y1) (within r.minY r.maxY y2)))
      have ei : ((i.toNat : ℕ) : ℤ) = i := Int.toNat_of_nonneg (by omega)
      have ej : ((j.toNat : ℕ) : ℤ) = j := Int.toNat_of_nonneg (by omega)
      have qi : ((i.toNat : ℕ) : ℚ) = (i : ℚ) := by rw [← Int.cast_natCast, ei]
      have qj : ((j.toNat : ℕ) : ℚ) = (j : ℚ) := by rw [← Int.cast_natCast, ej]
      refine ⟨j.toNat, i.toNat, by omega, by omega, ?_, ?_, ?_, ?_, ?_, ?_⟩
      · rw [ei, ix _ 0]; exact hi.1
      · rw [ei, ix _ 0]; exact Int.lt_add_one_iff.1 hi.2
      · rw [ej, iy 0]; exact hj.1
      · rw [ej, iy 0]; exact Int.lt_add_one_iff.1 hj.2
      · rw [qi, qj]; exact hin
      · rw [qi, qj]; rfl
    · cases e
  · rintro ⟨j, i, hj, hi, h1, h2, h3, h4, hin, rfl⟩
    refine ⟨((j : ℤ), (i : ℤ)), ?_, ?_⟩
    · rw [List.mem_flatMap]
      refine ⟨(j : ℤ), ?_, List.mem_map.2 ⟨(i : ℤ), ?_, rfl⟩⟩
      · rw [mem_pyRange, Int.lt_add_one_iff]
        exact ⟨h3, h4⟩
      · rw [mem_pyRange, Int.lt_add_one_iff]
        exact ⟨h1, h2⟩
    · unfold idxToUtm
      dsimp only
      rw [Int.cast_natCast, Int.cast_natCast, if_pos hin]
      rfl

theorem within_min (lo hi x y : ℚ) : min (within lo hi x) (within lo hi y) = within lo hi (min x y) := by
  rcases le_total x y with h | h
  · rw [min_eq_left h, min_eq_left (within_mono _ _ h)]
  · rw [min_eq_right h, min_eq_right (within_mono _ _ h)]

theorem within_max (lo hi x y : ℚ) : max (within lo hi x) (within lo hi y) = within lo hi (max x y) := by
  rcases le_total x y with h | h
  · rw [max_eq_right h, max_eq_right (within_mono _ _ h)]
  · rw [max_eq_left h, max_eq_left (within_mono _ _ h)]

/-- C80: no obstruction is missed. Every cell whose centre lies in the rectangle
spanned by the two corners, in the bounding box of the raster, and satisfies the
filter, is reported with its elevation. -/
theorem C80_none_missed (r : Raster) (hxr : 0 < r.xRes) (hyr : 0 < r.yRes)
    (x1 y1 x2 y2 : ℚ) (inside : ℚ → ℚ → Bool) (i j : Nat) (hi : i < r.xSize) (hj : j < r.ySize)
    (hx1 : min x1 x2 ≤ r.left + r.xRes * i) (hx2 : r.left + r.xRes * i ≤ max x1 x2)
    (hy1 : min y1 y2 ≤ r.top - r.yRes * j) (hy2 : r.top - r.yRes * j ≤ max y1 y2)
    (bx : r.minX ≤ r.left + r.xRes * i ∧ r.left + r.xRes * i ≤ r.maxX)
    (bY : r.minY ≤ r.top - r.yRes * j ∧ r.top - r.yRes * j ≤ r.maxY)
    (hin : inside (r.left + r.xRes * i) (r.top - r.yRes * j) = true) :
    (r.left + r.xRes * i, r.top - r.yRes * j, r.cell j i) ∈ r.obstructions x1 y1 x2 y2 inside := by
  rw [mem_obstructions r (by omega) (by omega)]
  have c := r.utmToIdx_centre hxr hyr hi hj
  rw [within_min, within_max, within_min, within_max]
  have kx1 := within_mono r.minX r.maxX hx1
  have kx2 := within_mono r.minX r.maxX hx2
  have ky1 := within_mono r.minY r.maxY hy1
  have ky2 := within_mono r.minY r.maxY hy2
  rw [within_id bx.1 bx.2] at kx1 kx2
  rw [within_id bY.1 bY.2] at ky1 ky2
  refine ⟨j, i, hj, hi, ?_, ?_, ?_, ?_, hin, rfl⟩
  · have := r.utmToIdx_mono_x hxr kx1 0 (r.top - r.yRes * j)
    rwa [c] at this
  · have := r.utmToIdx_mono_x hxr kx2 (r.top - r.yRes * j) 0
    rwa [c] at this
  · have := r.utmToIdx_mono_y hyr ky2 0 (r.left + r.xRes * i)
    rwa [c] at this
  · have := r.utmToIdx_mono_y hyr ky1 (r.left + r.xRes * i) 0
    rwa [c] at this

theorem idx_low {n : Nat} {u : ℚ} {i : Nat} (hi : i < n) (h : clampIdx (pyRound u) n ≤ i) :
    u - 1 / 2 ≤ i ∨ i + 1 = n := by
  have hr := abs_le.1 (pyRound_near u)
  by_cases c : pyRound u ≤ i
  · left
    have : (pyRound u : ℚ) ≤ i := by exact_mod_cast c
    linarith
  · right
    unfold clampIdx at h
    omega

theorem idx_high {n : Nat} {u : ℚ} {i : Nat} (h : (i : ℤ) ≤ clampIdx (pyRound u) n) :
    (i : ℚ) ≤ u + 1 / 2 ∨ i = 0 := by
  have hr := abs_le.1 (pyRound_near u)
  by_cases c : (i : ℤ) ≤ pyRound u
  · left
    have : (i : ℚ) ≤ pyRound u := by exact_mod_cast c
    linarith
  · right
    unfold clampIdx at h
    omega

/-- C80: nothing else is reported. Every reported point is the centre of a cell of
the raster that satisfies the filter, with the elevation of that cell. After the
rectangle has been limited to the bounding box, the point is at most half a cell
outside of it on either axis, unless it is on the edge of the raster. -/
theorem C80_only_cells (r : Raster) (hx : 0 < r.xSize) (hy : 0 < r.ySize) (hxr : 0 < r.xRes) (hyr : 0 < r.yRes)
    (x1 y1 x2 y2 : ℚ) (inside : ℚ → ℚ → Bool) (x y z : ℚ)
    (h : (x, y, z) ∈ r.obstructions x1 y1 x2 y2 inside) :
    ∃ j i : Nat, j < r.ySize ∧ i < r.xSize ∧ x = r.left + r.xRes * i ∧ y = r.top - r.yRes * j ∧
      z = r.cell j i ∧ inside x y = true ∧
      (min (max r.minX (min x1 x2)) r.maxX - r.xRes / 2 ≤ x ∨ i + 1 = r.xSize) ∧
      (x ≤ min (max r.minX (max x1 x2)) r.maxX + r.xRes / 2 ∨ i = 0) ∧
      (y ≤ min (max r.minY (max y1 y2)) r.maxY + r.yRes / 2 ∨ j + 1 = r.ySize) ∧
      (min (max r.minY (min y1 y2)) r.maxY - r.yRes / 2 ≤ y ∨ j = 0) := by
  obtain ⟨j, i, hj, hi, h1, h2, h3, h4, hin, e⟩ := (mem_obstructions r hx hy x1 y1 x2 y2 inside _).1 h
  simp only [Prod.mk.injEq] at e
  obtain ⟨rfl, rfl, rfl⟩ := e
  rw [within_min] at h1 h4
  rw [within_max] at h2 h3
  refine ⟨j, i, hj, hi, rfl, rfl, rfl, hin, ?_, ?_, ?_, ?_⟩
  · rcases idx_low hi h1 with q | q
    · left
      have := mul_le_mul_of_nonneg_left q hxr.le
      rw [mul_sub, mul_div_cancel₀ _ hxr.ne'] at this
      unfold within at this
      rw [max_comm r.minX]
      linarith
    · exact Or.inr q
  · rcases idx_high h2 with q | q
    · left
      have := mul_le_mul_of_nonneg_left q hxr.le
      rw [mul_add, mul_div_cancel₀ _ hxr.ne'] at this
      unfold within at this
      rw [max_comm r.minX]
      linarith
    · exact Or.inr q
  · rcases idx_low hj h3 with q | q
    · left
      have := mul_le_mul_of_nonneg_left q hyr.le
      rw [mul_sub, mul_div_cancel₀ _ hyr.ne'] at this
      unfold within at this
      rw [max_comm r.minY]
      linarith
    · exact Or.inr q
  · rcases idx_high h4 with q | q
    · left
      have := mul_le_mul_of_nonneg_left q hyr.le
      rw [mul_add, mul_div_cancel₀ _ hyr.ne'] at this
      unfold within at this
      rw [max_comm r.minY]
      linarith
    · exact Or.inr q

/-! ## Sums and differences of rasters -/

/-- C81: adding or subtracting two rasters of the same shape and position works
cell by cell, so the result looked up at any coordinate is the sum or difference
of the two lookups. -/
theorem C81_cellwise (op : ℚ → ℚ → ℚ) (a b : Raster) (h : a.epsg = b.epsg) (hx : a.xSize = b.xSize)
    (hy : a.ySize = b.ySize) (hxr : a.xRes = b.xRes) (hyr : a.yRes = b.yRes) (hl : a.left = b.left)
    (ht : a.top = b.top) :
    ∃ c, combine op a b = .ok c ∧ c.xSize = a.xSize ∧ c.ySize = a.ySize ∧
      ∀ x y, c.utmToIdx x y = a.utmToIdx x y ∧ c.valueAt x y = op (a.valueAt x y) (b.valueAt x y) := by
  refine ⟨_, if_pos ?_, rfl, rfl, ?_⟩
  · unfold sameMeta
    rw [h, hx, hy, hxr, hyr, hl, ht]
    simp
  · intro x y
    refine ⟨rfl, ?_⟩
    have e : b.utmToIdx x y = a.utmToIdx x y := by
      unfold utmToIdx
      rw [hx, hy, hxr, hyr, hl, ht]
    show op _ _ = op _ _
    unfold valueAt
    rw [e]
    rfl

/-- C81: rasters that differ in projection, shape, resolution or position are
rejected with a `DataException`. -/
theorem C81_rejects (op : ℚ → ℚ → ℚ) (a b : Raster)
    (h : a.epsg ≠ b.epsg ∨ a.xSize ≠ b.xSize ∨ a.ySize ≠ b.ySize ∨ a.xRes ≠ b.xRes ∨ a.yRes ≠ b.yRes ∨
      a.left ≠ b.left ∨ a.top ≠ b.top) : combine op a b = .error .data := by
  unfold combine
  rw [if_neg]
  unfold sameMeta
  simp only [Bool.and_eq_true, beq_iff_eq]
  rintro ⟨⟨⟨⟨⟨⟨h1, h2⟩, h3⟩, h4⟩, h5⟩, h6⟩, h7⟩
  rcases h with h | h | h | h | h | h | h <;> exact h (by assumption)

/-! ## Resampling -/

theorem flatMap_map_getElem? {α : Type} (f : Nat → Nat → α) (n : Nat) : ∀ (m k j i : Nat), i < n → j < m →
    ((List.range' k m).flatMap (fun b => (List.range n).map (f b)))[j * n + i]? = some (f (k + j) i) := by
  intro m
  induction m with
  | zero => intro k j i _ h; omega
  | succ m ih =>
    intro k j i hi hj
    rw [List.range'_succ, List.flatMap_cons]
    cases j with
    | zero =>
      rw [List.getElem?_append_left (by simp; omega)]
      simp [hi]
    | succ j =>
      have e : (j + 1) * n + i = n + (j * n + i) := by ring
      rw [List.getElem?_append_right (by simp; omega), e]
      simp only [List.length_map, List.length_range, Nat.add_sub_cancel_left]
      rw [ih (k + 1) j i hi (by omega)]
      congr 2
      omega

/-- C82: resampling keeps the position of the raster, and gives every new cell the
value that a lookup at its centre gave before. -/
theorem C82_nearest (r : Raster) (fill : Fill) (hx : 0 < r.xSize) (hy : 0 < r.ySize) (hv : r.NoVoid)
    (xRes yRes : ℚ) (hne : ¬ (xRes = r.xRes ∧ yRes = r.yRes)) :
    ∃ r', r.setResolution fill xRes yRes = (r', none) ∧ r'.left = r.left ∧ r'.top = r.top ∧
      r'.xRes = xRes ∧ r'.yRes = yRes ∧
      ∀ j i : Nat, j < r'.ySize → i < r'.xSize →
        r.getValue fill (r'.left + r'.xRes * i) (r'.top - r'.yRes * j) = (r, .ok (r'.cell j i)) := by
  unfold setResolution
  rw [if_neg hne, getValues_noVoid hx hy hv]
  refine ⟨_, rfl, rfl, rfl, rfl, rfl, ?_⟩
  intro j i hj hi
  rw [getValue_noVoid hx hy hv]
  dsimp only at hi hj ⊢
  congr 2
  unfold newCentres
  rw [List.getElem?_map, List.range_eq_range' (n := r.newYSize yRes),
    flatMap_map_getElem? (fun b i => (r.left + xRes * (i : ℚ), r.top - yRes * (b : ℚ))) _ _ 0 j i hi hj]
  simp

theorem getValues_position (fill : Fill) : ∀ (ps : List (ℚ × ℚ)) (r : Raster),
    (getValues fill r ps).1.left = r.left ∧ (getValues fill r ps).1.top = r.top := by
  intro ps
  induction ps with
  | nil => intro r; exact ⟨rfl, rfl⟩
  | cons p ps ih =>
    intro r
    obtain ⟨x, y⟩ := p
    have h1 : (r.getValue fill x y).1.left = r.left ∧ (r.getValue fill x y).1.top = r.top := by
      unfold getValue
      dsimp only
      split
      · split
        · split <;> exact ⟨rfl, rfl⟩
        · exact ⟨rfl, rfl⟩
      · exact ⟨rfl, rfl⟩
    unfold getValues
    generalize r.getValue fill x y = o at *
    obtain ⟨r1, e⟩ := o
    cases e with
    | error e => exact h1
    | ok v =>
      have h2 := ih r1
      dsimp only at h1 ⊢
      generalize getValues fill r1 ps = o at *
      obtain ⟨r2, e⟩ := o
      cases e with
      | error e => exact ⟨h2.1.trans h1.1, h2.2.trans h1.2⟩
      | ok v => exact ⟨h2.1.trans h1.1, h2.2.trans h1.2⟩

theorem clampIdx_half {n : Nat} {u w : ℚ} (h0 : 0 ≤ u) (h1 : u + 1 / 2 ≤ w) (hn : n = ⌈w⌉.toNat) :
    |u - clampIdx (pyRound u) n| ≤ 1 / 2 := by
  have hr := abs_le.1 (pyRound_near u)
  have hw : w ≤ n := by
    have a := Int.le_ceil w
    have b : ⌈w⌉ ≤ (n : ℤ) := by rw [hn]; exact Int.self_le_toNat _
    have b' : ((⌈w⌉ : ℤ) : ℚ) ≤ n := by exact_mod_cast b
    linarith
  have r0 : 0 ≤ pyRound u := by
    have := pyRound_mono h0
    rw [show (0 : ℚ) = ((0 : ℤ) : ℚ) by norm_num, pyRound_int] at this
    exact this
  by_cases c : pyRound u < n
  · have e : clampIdx (pyRound u) n = pyRound u := by unfold clampIdx; omega
    rw [e]
    exact pyRound_near u
  · have e : clampIdx (pyRound u) n = n - 1 := by unfold clampIdx; omega
    have a : (n : ℚ) ≤ pyRound u := by exact_mod_cast not_lt.1 c
    rw [e]
    push_cast
    rw [abs_le]
    constructor <;> linarith

/-- C82: the new cells cover the raster's bounding box: every coordinate in it is
at most half a new cell from the centre of the new cell it is converted to. -/
theorem C82_covers (r : Raster) (fill : Fill) (xRes yRes : ℚ) (hxr : 0 < xRes) (hyr : 0 < yRes)
    (r' : Raster) (hne : ¬ (xRes = r.xRes ∧ yRes = r.yRes)) (h : r.setResolution fill xRes yRes = (r', none))
    (x y : ℚ) (hx : r.left ≤ x ∧ x ≤ r.maxX) (hy : r.minY ≤ y ∧ y ≤ r.top)
    (i j : ℤ) (hij : r'.utmToIdx x y = (i, j)) :
    |x - (r'.left + r'.xRes * i)| ≤ xRes / 2 ∧ |y - (r'.top - r'.yRes * j)| ≤ yRes / 2 := by
  unfold setResolution at h
  rw [if_neg hne] at h
  have hp := getValues_position fill (r.newCentres xRes yRes) r
  generalize getValues fill r (r.newCentres xRes yRes) = o at *
  obtain ⟨r1, e⟩ := o
  cases e with
  | error e => cases h
  | ok vs =>
    dsimp only at h hp
    cases h
    unfold utmToIdx at hij
    simp only [Prod.mk.injEq] at hij
    obtain ⟨rfl, rfl⟩ := hij
    rw [scaled_x _ hxr, scaled_y _ hyr]
    dsimp only
    rw [hp.1, hp.2]
    constructor
    · rw [show xRes / 2 = xRes * (1 / 2) by ring]
      apply mul_le_mul_of_nonneg_left _ hxr.le
      refine clampIdx_half ?_ ?_ rfl
      · exact div_nonneg (by linarith [hx.1]) hxr.le
      · rw [le_div_iff₀ hxr, add_mul, div_mul_cancel₀ _ hxr.ne']
        linarith [hx.2]
    · rw [show yRes / 2 = yRes * (1 / 2) by ring]
      apply mul_le_mul_of_nonneg_left _ hyr.le
      refine clampIdx_half ?_ ?_ rfl
      · exact div_nonneg (by linarith [hy.2]) hyr.le
      · rw [le_div_iff₀ hyr, add_mul, div_mul_cancel₀ _ hyr.ne']
        linarith [hy.1]

/-! ## Examples -/

example : 0 < strip.xSize ∧ 0 < strip.ySize ∧ 0 < strip.xRes ∧ 0 < strip.yRes ∧
    strip.utmToIdx (5 / 2) 7 = (2, 0) ∧ strip.utmToIdx (7 / 2) 0 = (3, 0) ∧ strip.utmToIdx (-9) 0 = (0, 0) := by
  decide +kernel

example : strip.NoVoid := by
  intro j i _ _ h
  have h : (i : ℚ) = -32768 := h
  have : (0 : ℚ) ≤ i := Nat.cast_nonneg i
  rw [h] at this
  norm_num at this

/-- A bound that `C60_window_partial` covers. -/
example : strip.left - strip.xRes < -1 / 2 ∧ (-1 / 2 : ℚ) ≤ 9 ∧ (0 : ℚ) < strip.top + strip.yRes ∧
    (strip.valueMatrix (fun _ _ => none) (-1 / 2) (-3) 9 0).2.toOption = some [[0, 1, 2, 3]] := by
  decide +kernel

/-- A cell without value is filled, once. -/
example : ((strip.setCell 0 2 noData).getValue (fun _ _ => some 7) 2 0).2.toOption = some 7 ∧
    ((strip.setCell 0 2 noData).getValue (fun _ _ => some 7) 2 0).1.cell 0 2 = 7 := by decide +kernel

example : strip.obstructions (1 / 2) (-1) 2 1 (fun x _ => decide (x ≠ 1)) = [(0, 0, 0), (2, 0, 2)] := by
  decide +kernel

example : (combine (· - ·) strip strip).toOption.isSome = true ∧
    combine (· + ·) strip { strip with left := 1 } = .error .data :=
  ⟨rfl, C81_rejects _ _ _ (by decide +kernel)⟩

example : (strip.setResolution (fun _ _ => none) 2 2).1.xSize = 2 ∧
    (strip.setResolution (fun _ _ => none) 2 2).1.cell 0 1 = 2 ∧
    (strip.setResolution (fun _ _ => none) 2 2).2 = none := by decide +kernel

end Raster
end Verif
