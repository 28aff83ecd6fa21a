import Verif.Props.GisData2
import Mathlib.Data.List.TakeWhile

/-!
# C151 and C153: collection times, the kind of exception, names in archives
-/

namespace Verif
namespace Gis

/-- **C151, collection times.** The rules find nothing wrong with elevation data that have a collection time exactly if the
data are good otherwise and the time can be read, is not in the future and is at most 20 years ago (of 365 days). These
are the rules alone: the loader does not get that far, see `C151_time_violation`. -/
theorem C151_times (parse : String → Option ℤ) (now : ℤ) (r : Raster) (sr : SpatialRef) (s : String) :
    elevationFaults parse now r sr (some s) = [] ↔
      GoodElevation sr r ∧ ∃ t, parse s = some t ∧ t ≤ now ∧ now ≤ t + 20 * 365 * 24 * 60 * 60 := by
  have h1 := elevation_iff parse now r sr
  have h2 : recentTime parse now (some s) = [] ↔ ∃ t, parse s = some t ∧ t ≤ now ∧ now ≤ t + 20 * 365 * 24 * 60 * 60 := by
    unfold recentTime
    dsimp only
    cases hp : parse s with
    | none => simp
    | some t =>
      dsimp only
      constructor
      · intro h
        split at h
        · cases h
        · split at h
          · cases h
          · exact ⟨t, rfl, by omega, by omega⟩
      · rintro ⟨t', e, h3, h4⟩
        cases e
        rw [if_neg (by omega), if_neg (by omega)]
  rw [← h1, ← h2]
  unfold elevationFaults
  simp only [List.append_eq_nil_iff]
  have : recentTime parse now none = [] := rfl
  tauto

/-- The exception is one of the data. -/
def OnlyData {α : Type} (x : Except Err α) : Prop := ∀ e, x = .error e → e = .data

theorem getValue_error (r : Raster) (fill : Fill) (x y : ℚ) (r1 : Raster) (e : Err) (h : r.getValue fill x y = (r1, .error e)) :
    e = .data := by
  unfold Raster.getValue at h
  dsimp only at h
  split at h
  · split at h
    · split at h
      · exact (Except.error.inj (Prod.mk.inj h).2).symm
      · exact absurd (Prod.mk.inj h).2 (by simp)
    · exact absurd (Prod.mk.inj h).2 (by simp)
  · exact (Except.error.inj (Prod.mk.inj h).2).symm

theorem getValues_error (fill : Fill) (ps : List (ℚ × ℚ)) (r r1 : Raster) (e : Err)
    (h : Raster.getValues fill r ps = (r1, .error e)) : e = .data := by
  induction ps generalizing r r1 with
  | nil => exact absurd (Prod.mk.inj h).2 (by simp)
  | cons p ps ih =>
    unfold Raster.getValues at h
    split at h
    · rename_i r2 e2 h2
      cases h
      exact getValue_error _ _ _ _ _ _ h2
    · rename_i r2 v h2
      split at h
      · rename_i r3 e3 h3
        cases h
        exact ih _ _ h3
      · exact absurd (Prod.mk.inj h).2 (by simp)

theorem setResolution_error (r : Raster) (fill : Fill) (a b : ℚ) (r1 : Raster) (e : Err)
    (h : r.setResolution fill a b = (r1, some e)) : e = .data := by
  unfold Raster.setResolution at h
  split at h
  · exact absurd (Prod.mk.inj h).2 (by simp)
  · split at h
    · rename_i r2 e2 h2
      cases h
      exact getValues_error _ _ _ _ _ h2
    · exact absurd (Prod.mk.inj h).2 (by simp)

theorem combine_error (op : ℚ → ℚ → ℚ) (a b : Raster) : OnlyData (Raster.combine op a b) := by
  intro e h
  unfold Raster.combine at h
  split at h
  · cases h
  · exact (Except.error.inj h).symm

theorem upsample_error (fill : Raster → Fill) (a b : Raster) : OnlyData (upsample fill a b) := by
  intro e h
  unfold upsample at h
  split at h
  · rename_i h1
    cases h
    exact setResolution_error _ _ _ _ _ _ h1
  · split at h
    · rename_i h1
      cases h
      exact setResolution_error _ _ _ _ _ _ h1
    · cases h

theorem surfaceTerrain_error (fill : Raster → Fill) (a b c : Option Raster) : OnlyData (surfaceTerrain fill a b c) := by
  intro e h
  unfold surfaceTerrain at h
  split at h
  · split at h
    · rename_i h1
      cases h
      exact upsample_error _ _ _ _ h1
    · split at h
      · rename_i h1
        cases h
        exact combine_error _ _ _ _ h1
      · cases h
  · split at h
    · rename_i h1
      cases h
      exact combine_error _ _ _ _ h1
    · cases h
  · cases h

/-- **C151, rejection.** If the boundary and the building file are read or rejected as faulty data, buildings have the code
of their projection and no elevation file has a collection time, then whatever is wrong is reported by a DataException. -/
theorem C151_rejected_partial {B C : Type} (boundary : Except Err C) (validBoundary : C → Bool) (g : C → Geometry B)
    (readBuildings : String → Except Err (BuildingFile B)) (gdal : List String → Option Tiff)
    (parse : String → Option ℤ) (now : ℤ) (fill : Raster → Fill) (paths : Paths)
    (hb : OnlyData boundary) (hr : ∀ p, OnlyData (readBuildings p))
    (he : ∀ p file, readBuildings p = .ok file → file.sr.epsg ≠ none) (ht : ∀ ps t, gdal ps = some t → t.time = none) :
    OnlyData (loadGis boundary validBoundary g readBuildings (readElevation gdal parse now) fill paths) := by
  have elev : ∀ ps there, OnlyData (optional (readElevation gdal parse now ps) there) := by
    intro ps there e h
    unfold optional at h
    split at h
    · split at h
      · rename_i e' h'
        cases h
        unfold readElevation at h'
        split at h'
        · exact (Except.error.inj h').symm
        · rename_i t ht'
          rw [ht ps t ht'] at h'
          cases h'
      · cases h
    · cases h
  have group : ∀ c, OnlyData (readGroup (g c) readBuildings paths.buildings) := by
    intro c e h
    unfold readGroup at h
    split at h
    · cases h
    · split at h
      · rename_i e' h'
        cases h
        exact hr _ _ h'
      · rename_i file h'
        split at h
        · rename_i e' h2
          unfold preprocess at h2
          rw [if_neg (he _ _ h')] at h2
          cases h2
        · cases h
  intro e h
  unfold loadGis at h
  cases b : boundary with
  | error e' =>
    rw [b] at h
    cases h
    exact hb _ b
  | ok c =>
    rw [b] at h
    dsimp only [bind, Except.bind] at h
    split at h
    · cases h1 : readGroup (g c) readBuildings paths.buildings with
      | error e' => rw [h1] at h; cases h; exact group c _ h1
      | ok x1 =>
        rw [h1] at h
        dsimp only at h
        cases h2 : optional (readElevation gdal parse now paths.dsm) (decide (0 < paths.dsm.length)) with
        | error e' => rw [h2] at h; cases h; exact elev _ _ _ h2
        | ok x2 =>
          rw [h2] at h
          dsimp only at h
          cases h3 : optional (readElevation gdal parse now paths.dtm.toList) paths.dtm.isSome with
          | error e' => rw [h3] at h; cases h; exact elev _ _ _ h3
          | ok x3 =>
            rw [h3] at h
            dsimp only at h
            cases h4 : optional (readElevation gdal parse now paths.dhm.toList) paths.dhm.isSome with
            | error e' => rw [h4] at h; cases h; exact elev _ _ _ h4
            | ok x4 =>
              rw [h4] at h
              dsimp only at h
              cases h5 : surfaceTerrain fill x2.1 x3.1 x4.1 with
              | error e' => rw [h5] at h; cases h; exact surfaceTerrain_error _ _ _ _ _ h5
              | ok x5 =>
                rw [h5] at h
                dsimp only at h
                split at h
                · cases h
                · exact (Except.error.inj h).symm
    · exact (Except.error.inj h).symm

/-- **C153, rejection.** An archive that is not read is rejected with a DataException. -/
theorem C153_rejected (cwd : String → List String) (names : List String) : OnlyData (pickShp cwd names) := by
  intro e h
  unfold pickShp at h
  dsimp only at h
  split at h
  · exact (Except.error.inj h).symm
  · split at h
    · exact (Except.error.inj h).symm
    · cases h

/-- The name is that of a file in the folder that macOS adds. -/
def InMacFolder (n : String) : Prop :=
  ∃ (k : ℕ) (base : List Char), n.toList = "__MACOSX".toList ++ List.replicate (k + 1) '/' ++ base ∧ '/' ∉ base

/-- The last component of the name ends in `.shp` and does not begin with a dot. -/
def IsShp (n : String) : Prop :=
  ∃ dir base : List Char, n.toList = dir ++ base ∧ (dir = [] ∨ dir.getLast? = some '/') ∧ '/' ∉ base ∧
    base.head? ≠ some '.' ∧ ".shp".toList <:+ base

theorem split_slash (s : List Char) : '/' ∉ s ∨ ∃ u v : List Char, s = u ++ '/' :: v ∧ '/' ∉ v := by
  by_cases h : '/' ∈ s
  · right
    obtain ⟨v, u, hs, hn⟩ := List.eq_append_cons_of_mem (List.mem_reverse.2 h)
    refine ⟨u.reverse, v.reverse, ?_, by simpa using hn⟩
    simpa using congrArg List.reverse hs
  · exact .inl h

theorem takeWhile_slash {u v : List Char} (hv : '/' ∉ v) :
    ((u ++ '/' :: v).reverse.takeWhile (· ≠ '/')) = v.reverse ∧
    ((u ++ '/' :: v).reverse.dropWhile (· ≠ '/')) = '/' :: u.reverse := by
  have p : ∀ c ∈ v.reverse, (decide (c ≠ '/')) = true := by
    intro c hc
    simp only [decide_eq_true_eq]
    rintro rfl
    exact hv (List.mem_reverse.1 hc)
  rw [List.reverse_append, List.reverse_cons, List.append_assoc]
  constructor
  · rw [List.takeWhile_append_of_pos p]
    simp
  · rw [List.dropWhile_append_of_pos p]
    simp

theorem mac_iff (n : String) (h : '/' ∈ n.toList) : dirName n.toList = "__MACOSX".toList ↔ InMacFolder n := by
  rcases split_slash n.toList with c | ⟨u, v, e, hv⟩
  · exact absurd h c
  unfold dirName InMacFolder
  rw [e, (takeWhile_slash hv).2, List.dropWhile_cons_of_pos (by simp)]
  constructor
  · intro h1
    refine ⟨(u.reverse.takeWhile (· = '/')).length, v, ?_, hv⟩
    have h2 : u = ((u.reverse.dropWhile (· = '/')).reverse) ++ (u.reverse.takeWhile (· = '/')).reverse := by
      have := List.takeWhile_append_dropWhile (p := fun c : Char => decide (c = '/')) (l := u.reverse)
      have := congrArg List.reverse this
      rw [List.reverse_append, List.reverse_reverse] at this
      exact this.symm
    have h3 : (u.reverse.takeWhile (· = '/')).reverse = List.replicate (u.reverse.takeWhile (· = '/')).length '/' := by
      rw [List.eq_replicate_iff]
      refine ⟨by simp, ?_⟩
      intro c hc
      have := List.mem_takeWhile_imp (List.mem_reverse.1 hc)
      simpa using this
    rw [h1, h3] at h2
    conv_lhs => rw [h2]
    rw [List.replicate_succ', List.append_assoc, List.append_assoc, List.append_assoc]
    rfl
  · rintro ⟨k, base, h1, hb⟩
    have h2 : u = "__MACOSX".toList ++ List.replicate k '/' ∧ v = base := by
      have e1 : u ++ '/' :: v = ("__MACOSX".toList ++ List.replicate k '/') ++ '/' :: base := by
        rw [h1, List.replicate_succ']
        simp
      have t := congrArg (fun l => (l.reverse.takeWhile (· ≠ '/'))) e1
      rw [(takeWhile_slash hv).1, (takeWhile_slash hb).1] at t
      have d := congrArg (fun l => (l.reverse.dropWhile (· ≠ '/'))) e1
      rw [(takeWhile_slash hv).2, (takeWhile_slash hb).2] at d
      exact ⟨List.reverse_injective (List.cons.inj d).2, List.reverse_injective t⟩
    rw [h2.1, List.reverse_append, List.reverse_replicate, List.dropWhile_append_of_pos]
    · decide
    · intro c hc
      simpa using (List.mem_replicate.1 hc).2

theorem shp_iff (n : String) : countsAsShp n = true ↔ IsShp n := by
  have key : ∀ dir base : List Char, n.toList = dir ++ base → (dir = [] ∨ dir.getLast? = some '/') → '/' ∉ base →
      baseName n.toList = base := by
    intro dir base e hd hb
    rcases hd with rfl | hd
    · rw [e, List.nil_append]
      exact baseName_top hb
    · obtain ⟨u, rfl⟩ := List.getLast?_eq_some_iff.1 hd
      unfold baseName
      rw [e, List.append_assoc, List.singleton_append, (takeWhile_slash hb).1, List.reverse_reverse]
  obtain ⟨dir, base, e, hd, hb⟩ : ∃ dir base : List Char, n.toList = dir ++ base ∧ (dir = [] ∨ dir.getLast? = some '/') ∧ '/' ∉ base := by
    rcases split_slash n.toList with c | ⟨u, v, e, hv⟩
    · exact ⟨[], n.toList, rfl, .inl rfl, c⟩
    · exact ⟨u ++ ['/'], v, by rw [e]; simp, .inr (by simp), hv⟩
  have kb := key dir base e hd hb
  have suf : ∀ b : List Char, ".shp".toList <:+ dir ++ b → '/' ∉ b → 4 ≤ b.length → ".shp".toList <:+ b := by
    intro b h _ hl
    exact List.suffix_of_suffix_length_le h (List.suffix_append _ _) hl
  unfold countsAsShp hasShpExt
  rw [kb, Bool.and_eq_true, Bool.and_eq_true, decide_eq_true_eq, decide_eq_true_eq, List.any_eq_true]
  constructor
  · rintro ⟨h1, h2, c, hc, -⟩
    refine ⟨dir, base, e, hd, hb, h1, ?_⟩
    rw [e] at h2
    refine suf base h2 hb ?_
    by_contra hl
    rw [show base.length - 4 = 0 by omega] at hc
    simp at hc
  · rintro ⟨dir', base', e', hd', hb', h1, h2⟩
    have : base' = base := (key dir' base' e' hd' hb').symm.trans kb
    subst this
    refine ⟨h1, ?_, ?_⟩
    · rw [e']
      exact h2.trans (List.suffix_append _ _)
    · obtain ⟨u, rfl⟩ := h2
      cases u with
      | nil => exact absurd rfl h1
      | cons c u =>
        refine ⟨c, ?_, ?_⟩
        · have : (c :: u ++ ".shp".toList).length - 4 = (c :: u).length := by
            rw [List.length_append, show ".shp".toList.length = 4 from rfl]
            omega
          rw [this, List.take_left]
          exact List.mem_cons_self
        · simp only [bne_iff_ne]
          rintro rfl
          exact h1 rfl

/-- **C153, names.** An archive without entries for folders is accepted exactly if one name, `p`, that is not in a folder,
is that of a shape file, no other is, and all names in folders are in the folder that macOS adds; `p` is then opened. -/
theorem C153_names_partial (cwd : String → List String) (names : List String)
    (hd : ∀ n ∈ names, n.toList.getLast? ≠ some '/') (p : String) :
    pickShp cwd names = .ok (p, []) ↔
      (∀ n ∈ names, '/' ∈ n.toList → InMacFolder n) ∧ '/' ∉ p.toList ∧
      ∃ l r, names = l ++ p :: r ∧ IsShp p ∧ ∀ n ∈ l ++ r, ¬ IsShp n := by
  rw [C153_archive_partial cwd names hd p]
  unfold GoodArchive
  have one : names.filter countsAsShp = [p] ↔ ∃ l r, names = l ++ p :: r ∧ IsShp p ∧ ∀ n ∈ l ++ r, ¬ IsShp n := by
    simp only [← shp_iff]
    constructor
    · intro h
      obtain ⟨l, r, e, h1, h2, h3⟩ := List.filter_eq_cons_iff.1 h
      refine ⟨l, r, e, h2, ?_⟩
      intro n hn
      rcases List.mem_append.1 hn with hn | hn
      · exact h1 n hn
      · exact List.filter_eq_nil_iff.1 h3 n hn
    · rintro ⟨l, r, e, h2, h3⟩
      rw [List.filter_eq_cons_iff]
      exact ⟨l, r, e, fun n hn => h3 n (List.mem_append_left _ hn), h2,
        List.filter_eq_nil_iff.2 fun n hn => h3 n (List.mem_append_right _ hn)⟩
  rw [one]
  constructor
  · rintro ⟨h1, h2, h3⟩
    exact ⟨fun n hn hs => (mac_iff n hs).1 (h1 n hn hs), h3, h2⟩
  · rintro ⟨h1, h2, h3⟩
    exact ⟨fun n hn hs => (mac_iff n hs).2 (h1 n hn hs), h3, h2⟩

/-- An archive as macOS makes it, without entries for folders. -/
example : pickShp (fun _ => []) ["b.shp", "b.dbf", "__MACOSX/._b.shp"] = .ok ("b.shp", []) ∧ IsShp "b.shp" ∧
    InMacFolder "__MACOSX/._b.shp" :=
  ⟨(C153_archive_partial _ _ (by decide +kernel) _).2 ⟨by decide +kernel, by decide +kernel, by decide +kernel⟩,
    (shp_iff _).1 (by decide +kernel), (mac_iff _ (by decide +kernel)).1 (by decide +kernel)⟩

/-- Good data of a week ago. -/
example : elevationFaults (fun _ => some 1000000) 1604800 Raster.strip utmRef (some "2020:01:01 00:00:00") = [] :=
  (C151_times _ _ _ _ _).2 ⟨utmRef_good, 1000000, rfl, by norm_num, by norm_num⟩

/-- A surface file that cannot be read. -/
example {B : Type} (g : Unit → Geometry B) (fill : Raster → Fill) :
    loadGis (.ok ()) (fun _ => true) g (fun _ => .error .data) (readElevation (fun _ => none) (fun _ => none) 0) fill
      ⟨["a.tif"], none, none, none⟩ = .error .data := rfl

end Gis
end Verif
