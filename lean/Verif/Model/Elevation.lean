import Verif.Model.Status
import Mathlib.Data.Rat.Floor

/-!
# Elevation raster: `los/elevation.py`

A raster is a `ySize × xSize` matrix of exact rationals (`float32` in the code);
the cell in row `j` and column `i` is `cell j i`. The spatial reference, the
collection time and the KD tree library are left out: what the tree answers for a
point is the parameter `Fill`, with `none` for the `DataException` of a raster
without any value (`elevation.py:142-154, 192-210, 321-378`).
-/

namespace Verif

/-- `NO_DATA_VALUE`, `data_io/constants.py`. -/
def noData : ℚ := -32768

/-- `Elevation`, `elevation.py:35-64`. -/
structure Raster where
  xSize : Nat
  ySize : Nat
  cell : Nat → Nat → ℚ
  xRes : ℚ
  yRes : ℚ
  left : ℚ
  top : ℚ
  minX : ℚ
  minY : ℚ
  maxX : ℚ
  maxY : ℚ
  epsg : Option Nat := none

/-- `find_closest_valid_elevation([(x, y)])[0]`. -/
abbrev Fill := ℚ → ℚ → Option ℚ

/-- Python's `round`: to the nearest integer, halves to the even one. -/
def pyRound (x : ℚ) : ℤ :=
  if x - ⌊x⌋ < 1 / 2 then ⌊x⌋
  else if x - ⌊x⌋ > 1 / 2 then ⌊x⌋ + 1
  else if ⌊x⌋ % 2 = 0 then ⌊x⌋ else ⌊x⌋ + 1

/-- `min(max(i, 0), n - 1)`, `elevation.py:81-82`. -/
def clampIdx (i : ℤ) (n : Nat) : ℤ := min (max i 0) ((n : ℤ) - 1)

/-- One bound of a Python slice of a sequence of length `n`. -/
def sliceBound (n : Nat) (a : ℤ) : Nat :=
  if a < 0 then (a + n).toNat else min a.toNat n

/-- Positions selected by the slice `a:b` of a sequence of length `n`. -/
def pySlice (n : Nat) (a b : ℤ) : List Nat :=
  (List.range n).filter (fun i => decide (sliceBound n a ≤ i) && decide (i < sliceBound n b))

/-- `range(a, b)`. -/
def pyRange (a b : ℤ) : List ℤ := (List.range (b - a).toNat).map (fun k : Nat => a + (k : ℤ))

namespace Raster

/-- `idx_to_utm`, `elevation.py:66-72`. -/
def idxToUtm (r : Raster) (i j : ℤ) : ℚ × ℚ := (r.left + r.xRes * i, r.top - r.yRes * j)

/-- `utm_to_idx`, `elevation.py:74-83`. -/
def utmToIdx (r : Raster) (x y : ℚ) : ℤ × ℤ :=
  (clampIdx (pyRound ((x - r.left) / r.xRes)) r.xSize, clampIdx (pyRound ((r.top - y) / r.yRes)) r.ySize)

/-- `data_matrix[j, i] = v`. -/
def setCell (r : Raster) (j i : Nat) (v : ℚ) : Raster :=
  { r with cell := fun a b => if a = j ∧ b = i then v else r.cell a b }

/-- `get_value`, `elevation.py:130-140`; returns the raster, in which a missing
value may have been filled in, and the value. -/
def getValue (r : Raster) (fill : Fill) (x y : ℚ) : Raster × Except Err ℚ :=
  let i := (r.utmToIdx x y).1
  let j := (r.utmToIdx x y).2
  if 0 ≤ i ∧ i < r.xSize ∧ 0 ≤ j ∧ j < r.ySize then
    if r.cell j.toNat i.toNat = noData then
      match fill x y with
      | none => (r, .error .data)
      | some v => (r.setCell j.toNat i.toNat v, .ok v)
    else (r, .ok (r.cell j.toNat i.toNat))
  else (r, .error .data)

/-- A list of lookups one after the other, each on the raster the previous one
left behind; stops at the first exception. -/
def getValues (fill : Fill) : Raster → List (ℚ × ℚ) → Raster × Except Err (List (ℚ × ℚ × ℚ))
  | r, [] => (r, .ok [])
  | r, (x, y) :: rest =>
    match r.getValue fill x y with
    | (r1, .error e) => (r1, .error e)
    | (r1, .ok v) =>
      match getValues fill r1 rest with
      | (r2, .error e) => (r2, .error e)
      | (r2, .ok vs) => (r2, .ok ((x, y, v) :: vs))

/-- First and last column, first and last row of a bound, `elevation.py:223-230, 256-263`. -/
def colFrom (r : Raster) (minX : ℚ) : ℤ := ⌈(minX - r.left) / r.xRes⌉
/-- See `colFrom`. -/
def colTo (r : Raster) (maxX : ℚ) : ℤ := ⌊(maxX - r.left) / r.xRes⌋
/-- See `colFrom`. -/
def rowFrom (r : Raster) (maxY : ℚ) : ℤ := ⌈(r.top - maxY) / r.yRes⌉
/-- See `colFrom`. -/
def rowTo (r : Raster) (minY : ℚ) : ℤ := ⌊(r.top - minY) / r.yRes⌋

/-- `get_value_list_within_bound`, `elevation.py:212-243`. -/
def valueList (r : Raster) (fill : Fill) (minX minY maxX maxY : ℚ) :
    Raster × Except Err (List (ℚ × ℚ × ℚ)) :=
  let xs := (pyRange (r.colFrom minX) (r.colTo maxX + 1)).map (fun i : ℤ => r.left + (i : ℚ) * r.xRes)
  let ys := (pyRange (r.rowFrom maxY) (r.rowTo minY + 1)).map (fun j : ℤ => r.top - (j : ℚ) * r.yRes)
  getValues fill r (xs ×ˢ ys)

/-- The slice of `get_value_matrix_within_bound`, `elevation.py:256-266`. -/
def window (r : Raster) (minX minY maxX maxY : ℚ) : List (List ℚ) :=
  (pySlice r.ySize (r.rowFrom maxY) (r.rowTo minY + 1)).map (fun j =>
    (pySlice r.xSize (r.colFrom minX) (r.colTo maxX + 1)).map (r.cell j))

/-- `get_value_matrix_within_bound`, `elevation.py:245-271`. A matrix of size 0 is
one without rows or without columns. -/
def valueMatrix (r : Raster) (fill : Fill) (minX minY maxX maxY : ℚ) :
    Raster × Except Err (List (List ℚ)) :=
  if (r.window minX minY maxX maxY).flatten = [] then
    match r.getValue fill minX minY with
    | (r1, .ok v) => (r1, .ok [[v]])
    | (r1, .error e) => (r1, .error e)
  else (r, .ok (r.window minX minY maxX maxY))

/-- `min(max(x, lo), hi)`, `elevation.py:99-114`. -/
def within (lo hi x : ℚ) : ℚ := min (max x lo) hi

/-- `get_all_obstructions`, `elevation.py:85-128`; the points in the order of the
loops, as `(x, y, elevation)`. -/
def obstructions (r : Raster) (x1 y1 x2 y2 : ℚ) (inside : ℚ → ℚ → Bool) : List (ℚ × ℚ × ℚ) :=
  let a := within r.minX r.maxX x1
  let b := within r.minX r.maxX x2
  let c := within r.minY r.maxY y1
  let d := within r.minY r.maxY y2
  let lo := r.utmToIdx (min a b) (max c d)
  let hi := r.utmToIdx (max a b) (min c d)
  ((pyRange lo.2 (hi.2 + 1)).flatMap (fun j => (pyRange lo.1 (hi.1 + 1)).map (fun i => (j, i)))).filterMap
    (fun p =>
      if inside (r.idxToUtm p.2 p.1).1 (r.idxToUtm p.2 p.1).2 then
        some ((r.idxToUtm p.2 p.1).1, (r.idxToUtm p.2 p.1).2, r.cell p.1.toNat p.2.toNat)
      else none)

/-- Numbers of columns and rows after resampling, `elevation.py:165-180`. -/
def newXSize (r : Raster) (xRes : ℚ) : Nat := ⌈(r.maxX + xRes / 2 - r.left) / xRes⌉.toNat
/-- See `newXSize`. -/
def newYSize (r : Raster) (yRes : ℚ) : Nat := ⌈(r.top - r.minY + yRes / 2) / yRes⌉.toNat

/-- Centres of the new cells in the order of the loops, `elevation.py:182-187`. -/
def newCentres (r : Raster) (xRes yRes : ℚ) : List (ℚ × ℚ) :=
  (List.range (r.newYSize yRes)).flatMap (fun j : Nat =>
    (List.range (r.newXSize xRes)).map (fun i : Nat => (r.left + xRes * (i : ℚ), r.top - yRes * (j : ℚ))))

/-- `set_resolution`, `elevation.py:156-190`; the loops fill the new matrix in
row-major order. -/
def setResolution (r : Raster) (fill : Fill) (xRes yRes : ℚ) : Raster × Option Err :=
  if xRes = r.xRes ∧ yRes = r.yRes then (r, none)
  else
    match getValues fill r (r.newCentres xRes yRes) with
    | (r1, .error e) => (r1, some e)
    | (r1, .ok vs) =>
      ({ r1 with
          xSize := r.newXSize xRes
          ySize := r.newYSize yRes
          cell := fun j i => ((vs[j * r.newXSize xRes + i]?).map (fun v => v.2.2)).getD 0
          xRes := xRes
          yRes := yRes }, none)

/-- `_has_same_metadata`, `elevation.py:273-282`. -/
def sameMeta (a b : Raster) : Bool :=
  a.epsg == b.epsg && a.xSize == b.xSize && a.ySize == b.ySize && a.xRes == b.xRes &&
    a.yRes == b.yRes && a.left == b.left && a.top == b.top

/-- `__add__` and `__sub__`, `elevation.py:284-318`, for the operation `op`. -/
def combine (op : ℚ → ℚ → ℚ) (a b : Raster) : Except Err Raster :=
  if a.sameMeta b then .ok { a with cell := fun j i => op (a.cell j i) (b.cell j i) }
  else .error .data

end Raster
end Verif
