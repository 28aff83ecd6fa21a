import Verif.Model.GeoHash
import Mathlib.Data.Rat.Floor
import Mathlib.Tactic.Linarith
import Mathlib.Tactic.Ring
import Mathlib.Tactic.FieldSimp
import Mathlib.Tactic.NormNum
import Mathlib.Tactic.IntervalCases

/-! # C67: the geohash identifies grid cells -/

namespace Verif

/-- Index of the cell containing `x` when `[lo, lo + w]` is cut into `2^n` equal
cells, closed below; the last cell is closed on both sides. -/
def Spec.cellIndex (lo w : ℚ) (n : Nat) (x : ℚ) : ℤ :=
  min ⌊(x - lo) / w * 2 ^ n⌋ (2 ^ n - 1)

/-- The bits produced by `m` steps and the final state. -/
def geoBits (lat lon : ℚ) : Nat → GeoState → List Bool × GeoState
  | 0, s => ([], s)
  | m + 1, s =>
    ((geoBit lat lon s).2 :: (geoBits lat lon m (geoBit lat lon s).1).1,
      (geoBits lat lon m (geoBit lat lon s).1).2)

theorem geoBits_add (lat lon : ℚ) (m n : Nat) (s : GeoState) :
    geoBits lat lon (m + n) s =
      ((geoBits lat lon m s).1 ++ (geoBits lat lon n (geoBits lat lon m s).2).1,
        (geoBits lat lon n (geoBits lat lon m s).2).2) := by
  induction m generalizing s with
  | zero => simp [geoBits]
  | succ m ih => rw [Nat.succ_add]; simp [geoBits, ih]

/-- Number with the given five bits, first bit highest. -/
def bits5 (l : List Bool) : Nat :=
  match l with
  | [a, b, c, d, e] => ((((a.toNat * 2 + b.toNat) * 2 + c.toNat) * 2 + d.toNat) * 2 + e.toNat)
  | _ => 0

theorem geoChar_eq (lat lon : ℚ) (s : GeoState) :
    geoChar lat lon s = ((geoBits lat lon 5 s).2, bits5 (geoBits lat lon 5 s).1) := by
  simp only [geoChar, geoBits, List.foldl_cons, List.foldl_nil, bits5]
  generalize geoBit lat lon s = o; obtain ⟨s1, b1⟩ := o; dsimp only
  generalize geoBit lat lon s1 = o; obtain ⟨s2, b2⟩ := o; dsimp only
  generalize geoBit lat lon s2 = o; obtain ⟨s3, b3⟩ := o; dsimp only
  generalize geoBit lat lon s3 = o; obtain ⟨s4, b4⟩ := o; dsimp only
  generalize geoBit lat lon s4 = o; obtain ⟨s5, b5⟩ := o; dsimp only
  refine Prod.ext rfl ?_
  dsimp only
  cases b1 <;> cases b2 <;> cases b3 <;> cases b4 <;> cases b5 <;> simp

theorem geoBits_length (lat lon : ℚ) (m : Nat) (s : GeoState) :
    (geoBits lat lon m s).1.length = m := by
  induction m generalizing s with
  | zero => rfl
  | succ m ih => simp [geoBits, ih]

theorem bits5_inj {a b : List Bool} (ha : a.length = 5) (hb : b.length = 5)
    (h : bits5 a = bits5 b) : a = b := by
  match a, ha with
  | [a1, a2, a3, a4, a5], _ =>
  match b, hb with
  | [b1, b2, b3, b4, b5], _ =>
  have key : ∀ a1 a2 a3 a4 a5 b1 b2 b3 b4 b5 : Bool,
      bits5 [a1, a2, a3, a4, a5] = bits5 [b1, b2, b3, b4, b5] →
      [a1, a2, a3, a4, a5] = [b1, b2, b3, b4, b5] := by decide +kernel
  exact key _ _ _ _ _ _ _ _ _ _ h

theorem bits5_lt (a : List Bool) : bits5 a < 32 := by
  unfold bits5
  split
  · rename_i a b c d e; cases a <;> cases b <;> cases c <;> cases d <;> cases e <;> decide
  · decide

theorem geoSeed_inj {a b : Nat} (ha : a < 32) (hb : b < 32) (h : geoSeed a = geoSeed b) : a = b := by
  have : ∀ a < 32, ∀ b < 32, geoSeed a = geoSeed b → a = b := by decide +kernel
  exact this a ha b hb h

theorem geoChars_eq_iff (lat lon lat' lon' : ℚ) (n : Nat) (s s' : GeoState) :
    (geoChars lat lon n s).map geoSeed = (geoChars lat' lon' n s').map geoSeed ↔
      (geoBits lat lon (5 * n) s).1 = (geoBits lat' lon' (5 * n) s').1 := by
  induction n generalizing s s' with
  | zero => simp [geoChars, geoBits]
  | succ n ih =>
    have e : 5 * (n + 1) = 5 + 5 * n := by ring
    rw [e, geoBits_add, geoBits_add]
    simp only [geoChars, List.map_cons, List.cons.injEq, ih, geoChar_eq]
    have hl := geoBits_length lat lon 5 s
    have hl' := geoBits_length lat' lon' 5 s'
    constructor
    · rintro ⟨h1, h2⟩
      rw [h2, bits5_inj hl hl' (geoSeed_inj (bits5_lt _) (bits5_lt _) h1)]
    · intro h
      obtain ⟨h1, h2⟩ := List.append_inj h (by rw [hl, hl'])
      exact ⟨by rw [h1], h2⟩

/-- `[lo, hi]` is cell `k` of the `2^n` cells of `[a, a+w]`, and contains `x`
(strictly below `hi` unless `hi` is the right end). -/
structure Cell (a w : ℚ) (n k : Nat) (lo hi x : ℚ) : Prop where
  lo_eq : lo = a + w * k / 2 ^ n
  hi_eq : hi = a + w * (k + 1) / 2 ^ n
  ge : lo ≤ x
  lt : x < hi ∨ (x ≤ hi ∧ k + 1 = 2 ^ n)
  bd : k < 2 ^ n

theorem Cell.lower {a w lo hi x : ℚ} {n k : Nat} (h : Cell a w n k lo hi x)
    (hx : x < (lo + hi) / 2) : Cell a w (n + 1) (2 * k) lo ((lo + hi) / 2) x := by
  obtain ⟨h1, h2, h3, h4, hb⟩ := h
  refine ⟨?_, ?_, h3, Or.inl hx, by rw [pow_succ]; omega⟩
  · rw [h1]; push_cast; field_simp; ring
  · rw [h1, h2]; push_cast; field_simp; ring

theorem Cell.upper {a w lo hi x : ℚ} {n k : Nat} (h : Cell a w n k lo hi x)
    (hx : ¬ x < (lo + hi) / 2) : Cell a w (n + 1) (2 * k + 1) ((lo + hi) / 2) hi x := by
  obtain ⟨h1, h2, h3, h4, hb⟩ := h
  refine ⟨?_, ?_, not_lt.1 hx, ?_, by rw [pow_succ]; omega⟩
  · rw [h1, h2]; push_cast; field_simp; ring
  · rw [h2]; push_cast; field_simp; ring
  · rcases h4 with h4 | ⟨h4, h5⟩
    · exact Or.inl h4
    · refine Or.inr ⟨h4, ?_⟩; rw [pow_succ]; omega

theorem Cell.index {a w lo hi x : ℚ} {n k : Nat} (hw : 0 < w) (h : Cell a w n k lo hi x) :
    Spec.cellIndex a w n x = k := by
  obtain ⟨h1, h2, h3, h4, hb⟩ := h
  have hp : (0 : ℚ) < 2 ^ n := by positivity
  rw [h1] at h3
  have l1 : (k : ℚ) ≤ (x - a) / w * 2 ^ n := by
    rw [div_mul_eq_mul_div, le_div_iff₀ hw]
    have : w * k / 2 ^ n ≤ x - a := by linarith
    rw [div_le_iff₀ hp] at this; linarith
  have f1 : (k : ℤ) ≤ ⌊(x - a) / w * 2 ^ n⌋ := by
    rw [Int.le_floor]; exact_mod_cast l1
  unfold Spec.cellIndex
  rcases h4 with h4 | ⟨h4, h5⟩
  · rw [h2] at h4
    have l2 : (x - a) / w * 2 ^ n < k + 1 := by
      rw [div_mul_eq_mul_div, div_lt_iff₀ hw]
      have : x - a < w * (k + 1) / 2 ^ n := by linarith
      rw [lt_div_iff₀ hp] at this; linarith
    have f2 : ⌊(x - a) / w * 2 ^ n⌋ < k + 1 := by
      rw [Int.floor_lt]; exact_mod_cast l2
    have hlo0 : (0 : ℤ) ≤ k := by positivity
    have e : ⌊(x - a) / w * 2 ^ n⌋ = k := by omega
    rw [e]
    apply min_eq_left
    have : ((k + 1 : ℕ) : ℤ) ≤ ((2 ^ n : ℕ) : ℤ) := by exact_mod_cast hb
    push_cast at this; omega
  · have : (k : ℤ) = 2 ^ n - 1 := by
      have : ((k + 1 : ℕ) : ℤ) = ((2 ^ n : ℕ) : ℤ) := by rw [h5]
      push_cast at this; omega
    rw [← this]; exact min_eq_right f1

/-- State reached with `nx` longitude bits forming `kx` and `ny` latitude bits forming `ky`. -/
structure GeoInv (lat lon : ℚ) (s : GeoState) (nx kx ny ky : Nat) : Prop where
  x : Cell (-180) 360 nx kx s.lonLo s.lonHi lon
  y : Cell (-90) 180 ny ky s.latLo s.latHi lat
  odd : nx = ny + s.odd.toNat

theorem geoBit_inv {lat lon : ℚ} {s : GeoState} {nx kx ny ky : Nat}
    (h : GeoInv lat lon s nx kx ny ky) :
    (geoBit lat lon s).1.odd = !s.odd ∧
    (s.odd = true → GeoInv lat lon (geoBit lat lon s).1 nx kx (ny + 1)
      (2 * ky + (geoBit lat lon s).2.toNat)) ∧
    (s.odd = false → GeoInv lat lon (geoBit lat lon s).1 (nx + 1)
      (2 * kx + (geoBit lat lon s).2.toNat) ny ky) := by
  obtain ⟨hx, hy, ho⟩ := h
  unfold geoBit
  cases hodd : s.odd
  · simp only [Bool.false_eq_true, if_false, Bool.not_false, forall_const]
    rw [hodd] at ho
    split
    · rename_i hc
      exact ⟨rfl, fun h => h.elim, ⟨hx.lower hc, hy, by simp at ho; simp [ho]⟩⟩
    · rename_i hc
      exact ⟨rfl, fun h => h.elim, ⟨hx.upper hc, hy, by simp at ho; simp [ho]⟩⟩
  · simp only [if_true, Bool.not_true, forall_const]
    rw [hodd] at ho
    split
    · rename_i hc
      exact ⟨rfl, ⟨hx, hy.lower hc, by simp at ho; simp [ho]⟩, fun h => by simp at h⟩
    · rename_i hc
      exact ⟨rfl, ⟨hx, hy.upper hc, by simp at ho; simp [ho]⟩, fun h => by simp at h⟩

theorem geoBits_iff {lat lon lat' lon' : ℚ} (m : Nat) :
    ∀ {s s' : GeoState} {nx ny kx ky kx' ky' : Nat}, s.odd = s'.odd →
    GeoInv lat lon s nx kx ny ky → GeoInv lat' lon' s' nx kx' ny ky' →
    ∃ mx my jx jy jx' jy', mx + my = nx + ny + m ∧ (mx = my ∨ mx = my + 1) ∧
      GeoInv lat lon (geoBits lat lon m s).2 mx jx my jy ∧
      GeoInv lat' lon' (geoBits lat' lon' m s').2 mx jx' my jy' ∧
      ((geoBits lat lon m s).1 = (geoBits lat' lon' m s').1 ∧ kx = kx' ∧ ky = ky' ↔
        jx = jx' ∧ jy = jy') := by
  induction m with
  | zero =>
    intro s s' nx ny kx ky kx' ky' ho h h'
    refine ⟨nx, ny, kx, ky, kx', ky', rfl, ?_, h, h', by simp [geoBits]⟩
    have := h.odd; cases hs : s.odd <;> simp [hs] at this <;> omega
  | succ m ih =>
    intro s s' nx ny kx ky kx' ky' ho h h'
    obtain ⟨o1, a1, b1⟩ := geoBit_inv h
    obtain ⟨o2, a2, b2⟩ := geoBit_inv h'
    simp only [geoBits]
    generalize geoBit lat lon s = p at *
    generalize geoBit lat' lon' s' = p' at *
    obtain ⟨s1, v⟩ := p; obtain ⟨s1', v'⟩ := p'
    dsimp only at *
    have ho1 : s1.odd = s1'.odd := by rw [o1, o2, ho]
    cases hs : s.odd
    · obtain ⟨mx, my, jx, jy, jx', jy', q1, q2, q3, q4, q5⟩ := ih ho1 (b1 hs) (b2 (ho ▸ hs))
      refine ⟨mx, my, jx, jy, jx', jy', by omega, q2, q3, q4, ?_⟩
      rw [← q5]
      simp only [List.cons.injEq]
      cases v <;> cases v' <;> simp <;> omega
    · obtain ⟨mx, my, jx, jy, jx', jy', q1, q2, q3, q4, q5⟩ := ih ho1 (a1 hs) (a2 (ho ▸ hs))
      refine ⟨mx, my, jx, jy, jx', jy', by omega, q2, q3, q4, ?_⟩
      rw [← q5]
      simp only [List.cons.injEq]
      cases v <;> cases v' <;> simp <;> omega

/-- **C67.** `lat_lon_to_geo_hash` succeeds exactly for coordinates in range. -/
theorem C67_defined_iff (lat lon : ℚ) :
    (geoHash lat lon).isSome = true ↔ -90 ≤ lat ∧ lat ≤ 90 ∧ -180 ≤ lon ∧ lon ≤ 180 := by
  unfold geoHash
  split
  · split
    · simp_all
    · simp only [Option.isSome_none, Bool.false_eq_true, false_iff]; tauto
  · simp only [Option.isSome_none, Bool.false_eq_true, false_iff]; tauto

/-- **C67.** Two locations have the same geohash iff they lie in the same cell
of the grid of 2^25 longitude by 2^25 latitude cells. -/
theorem C67_same_hash_iff (lat lon lat' lon' : ℚ) (h h' : String)
    (e : geoHash lat lon = some h) (e' : geoHash lat' lon' = some h') :
    h = h' ↔ Spec.cellIndex (-180) 360 25 lon = Spec.cellIndex (-180) 360 25 lon' ∧
      Spec.cellIndex (-90) 180 25 lat = Spec.cellIndex (-90) 180 25 lat' := by
  have d := (C67_defined_iff lat lon).1 (by simp [e])
  have d' := (C67_defined_iff lat' lon').1 (by simp [e'])
  unfold geoHash at e e'
  rw [if_pos ⟨d.1, d.2.1⟩, if_pos d.2.2] at e
  rw [if_pos ⟨d'.1, d'.2.1⟩, if_pos d'.2.2] at e'
  simp only [Option.some.injEq] at e e'
  rw [← e, ← e', String.ofList_inj, geoChars_eq_iff]
  have init : ∀ a b : ℚ, -90 ≤ a → a ≤ 90 → -180 ≤ b → b ≤ 180 → GeoInv a b {} 0 0 0 0 := by
    intro a b h1 h2 h3 h4
    refine ⟨⟨by norm_num, by norm_num, h3, Or.inr ⟨h4, rfl⟩, by norm_num⟩,
      ⟨by norm_num, by norm_num, h1, Or.inr ⟨h2, rfl⟩, by norm_num⟩, rfl⟩
  obtain ⟨mx, my, jx, jy, jx', jy', q1, q2, q3, q4, q5⟩ := geoBits_iff (5 * 10) (s := {}) (s' := {}) rfl
    (init lat lon d.1 d.2.1 d.2.2.1 d.2.2.2) (init lat' lon' d'.1 d'.2.1 d'.2.2.1 d'.2.2.2)
  have hx : mx = 25 := by omega
  have hy : my = 25 := by omega
  subst hx; subst hy
  simp only [and_true] at q5
  rw [q5, q3.x.index (by norm_num), q4.x.index (by norm_num), q3.y.index (by norm_num),
    q4.y.index (by norm_num)]
  simp

theorem geoChars_lt (lat lon : ℚ) (n : Nat) (s : GeoState) : ∀ c ∈ geoChars lat lon n s, c < 32 := by
  induction n generalizing s with
  | zero => simp [geoChars]
  | succ n ih =>
    intro c hc
    simp only [geoChars, List.mem_cons] at hc
    rcases hc with rfl | hc
    · rw [geoChar_eq]; dsimp only; exact bits5_lt _
    · exact ih _ c hc

theorem geoChars_length (lat lon : ℚ) (n : Nat) (s : GeoState) : (geoChars lat lon n s).length = n := by
  induction n generalizing s with
  | zero => rfl
  | succ n ih => simp [geoChars, ih]

/-- **C67.** A geohash is ten characters of the 32-character alphabet. -/
theorem C67_format (lat lon : ℚ) (h : String) (e : geoHash lat lon = some h) :
    h.length = 10 ∧ ∀ c ∈ h.toList, c ∈ "0123456789abcdefghijklmnopqrstuv".toList := by
  unfold geoHash at e
  split at e
  · split at e
    · simp only [Option.some.injEq] at e
      subst e
      refine ⟨by simp [geoChars_length], ?_⟩
      intro c hc
      simp only [String.toList_ofList, List.mem_map] at hc
      obtain ⟨i, hi, rfl⟩ := hc
      have : ∀ i < 32, geoSeed i ∈ "0123456789abcdefghijklmnopqrstuv".toList := by decide +kernel
      exact this i (geoChars_lt _ _ _ _ i hi)
    · simp at e
  · simp at e

/-- Two points about a centimetre apart share a hash; the far corner is covered. -/
example : geoHash (37/1) (-122) = geoHash (37 + 1/10000000) (-122 + 1/10000000) ∧
    geoHash 90 180 = some "vvvvvvvvvv" ∧ geoHash (-90) (-180) = some "0000000000" ∧
    geoHash 37 (-122) ≠ geoHash 37 (-121) ∧ geoHash 91 0 = none := by decide +kernel

end Verif
