import Verif.Props.Csv2
import Verif.Props.Kml5

/-! # C143: what goes wrong, and examples -/

namespace Verif
namespace Csv

theorem loaded_row {lib : Lib} (empty : lib.float "" = none) {t : Table} {user : Bool} (S : Single lib t) {xs : List Row}
    (h : loadSites lib t user = .ok xs) {r : List String} (hr : r ∈ t.rows) : ∃ x ∈ xs, RowSays lib t r x := by
  obtain ⟨-, hf⟩ := (C143_sites_partial lib empty t user S xs).1 h
  exact Kml.forall₂_mem_left hf hr

theorem apart_sep {p q : List Char} {ps : List (List Char)} {l : List Char} (h : Apart (p :: q :: ps) l) :
    ∃ c ∈ l, Sep c := by
  obtain ⟨-, -, u, r, h1, h2, rfl, -⟩ := h
  obtain ⟨c, hc⟩ := List.exists_mem_of_ne_nil _ h1
  exact ⟨c, by simp [hc], h2 c hc⟩

/-- **C143 violated.** If one latitude (or longitude) of a file is not a plain number, then one that is a plain number,
or empty, makes the whole file fail, as all entries of the column are then read as angles with a direction. -/
theorem C143_mixed_violation (lib : Lib) (empty : lib.float "" = none) (t : Table) (user : Bool) (S : Single lib t)
    (k : Col) (hk : k = .lat ∨ k = .lon) (i : Nat) (hi : At lib t k i) (r r' : List String) (hr : r ∈ t.rows)
    (hr' : r' ∈ t.rows) (h : lib.num (entry r i) = none) (h' : ∀ c ∈ (lib.strip (entry r' i)).toList, ¬ Sep c)
    (xs : List Row) : loadSites lib t user ≠ .ok xs := by
  intro hx
  obtain ⟨x, -, hs⟩ := loaded_row empty S hx hr'
  have nn : ¬ Numbers lib t i := by
    intro hn
    obtain ⟨q, hq⟩ := hn r hr
    rw [h] at hq
    cases hq
  have no : ∀ v, ¬ Angle lib (entry r' i) v := by
    rintro v ⟨d, e, -, ⟨a, x, hp, -⟩ | ⟨a, b, c, x, y, z, hp, -⟩⟩ <;> obtain ⟨c, hc, hsep⟩ := apart_sep hp <;>
      exact h' c hc hsep
  have deg : ∀ v, ¬ SaysDegrees lib t k r' v := by
    rintro v ⟨j, hj, -, ha⟩
    rw [S k j i hj hi] at ha
    exact no v (ha nn)
  rcases hk with rfl | rfl
  · exact deg _ hs.lat
  · exact deg _ hs.lon

/-- **C143 violated.** A row without latitude is not skipped: the file is not read. -/
theorem C143_blank_violation (lib : Lib) (empty : lib.float "" = none) (num : lib.num "" = none) (strip : lib.strip "" = "")
    (t : Table) (user : Bool) (S : Single lib t) (i : Nat) (hi : At lib t .lat i) (r : List String) (hr : r ∈ t.rows)
    (h : entry r i = "") (xs : List Row) : loadSites lib t user ≠ .ok xs :=
  C143_mixed_violation lib empty t user S .lat (.inl rfl) i hi r r hr hr (by rw [h, num]) (by rw [h, strip]; simp) xs

/-- **C143 violated.** An empty device in a file with a column for the devices does not mean any device: no site can be
made of the row. -/
theorem C143_sku_violation (lib : Lib) (empty : lib.float "" = none) (num : lib.num "" = none) (strip : lib.strip "" = "")
    (t : Table) (user : Bool) (S : Single lib t) (i : Nat) (hi : At lib t .sku i) (r : List String) (hr : r ∈ t.rows)
    (h : entry r i = "") (xs : List Row) (hx : loadSites lib t user = .ok xs) (L : Kml.Loader) (hL : L.device "" = none) :
    ∃ x ∈ xs, RowSays lib t r x ∧ ∀ alt, construct L alt x = .error .data := by
  obtain ⟨x, hxm, hs⟩ := loaded_row empty S hx hr
  refine ⟨x, hxm, hs, fun alt => ?_⟩
  have nn : ¬ Numbers lib t i := by
    intro hn
    obtain ⟨q, hq⟩ := hn r hr
    rw [h, num] at hq
    cases hq
  have : x.sku = some "" := by
    rcases hs.sku with ⟨h', -⟩ | ⟨j, hj, -, h2⟩
    · exact absurd hi (h' i)
    · rw [S .sku j i hj hi] at h2
      rw [h2 nn, h, strip]
  unfold construct
  rw [this]
  dsimp only
  rw [hL]

/-- **C143 violated.** No site can be made of a row of the sites of a candidate topology if there is a column for the
building. -/
theorem C143_building_violation (lib : Lib) (empty : lib.float "" = none) (t : Table) (user : Bool) (S : Single lib t)
    (i : Nat) (hi : At lib t .building i) (xs : List Row) (hx : loadSites lib t user = .ok xs) (x : Row) (hxm : x ∈ xs)
    (L : Kml.Loader) (alt : Option ℚ) (ss : List NamedSite) (h : construct L alt x = .ok ss) : ss = [] := by
  obtain ⟨-, hf⟩ := (C143_sites_partial lib empty t user S xs).1 hx
  obtain ⟨r, -, hs⟩ := forall₂_mem_right hf hxm
  have : x.building ≠ none := by
    rcases hs.building with ⟨h', -⟩ | ⟨j, hj, h1, h2⟩
    · exact absurd hi (h' i)
    · by_cases hn : Numbers lib t j
      · rw [h1 hn]; simp
      · rw [h2 hn]; simp
  unfold construct at h
  dsimp only at h
  split at h
  · split at h
    · cases h
    · rw [if_pos this] at h
      cases h
  · rw [mapM_iff] at h
    cases ss with
    | nil => rfl
    | cons s ss =>
      obtain ⟨d, -, hd⟩ := forall₂_mem_right h (List.mem_cons_self (a := s) (l := ss))
      rw [if_pos this] at hd
      cases hd

/-- **C143 violated.** Whatever a file says about the kind of location, the sites of a candidate topology have an unknown
one. -/
theorem C143_location_violation (L : Kml.Loader) (alt : Option ℚ) (x : Row) (ss : List NamedSite)
    (h : construct L alt x = .ok ss) : ∀ s ∈ ss, s.loc = .unknown := by
  have one : ∀ r d s, Kml.Loader.site L r d = .ok s → s.loc = r.loc := by
    intro r d s h
    unfold Kml.Loader.site at h
    split at h
    · cases h
    · split at h
      · cases h
      · split at h
        · cases h
        · cases h; rfl
  have two : ∀ (c : Prop) [Decidable c] r d s, (if c then .error .topology else Kml.Loader.site L r d) = .ok s →
      s.loc = r.loc := by
    intro c _ r d s h
    split at h
    · cases h
    · exact one r d s h
  unfold construct at h
  dsimp only at h
  intro s hs
  split at h
  · split at h
    · cases h
    · split at h
      · cases h
      · rename_i hz
        cases h
        rw [List.mem_singleton] at hs
        subst hs
        exact two _ _ _ _ hz
  · rw [mapM_iff] at h
    obtain ⟨d, -, hd⟩ := forall₂_mem_right h hs
    exact two _ _ _ _ hd

/-- **C143.** A row of a candidate topology without columns for device and building becomes one site for each device
that suits its type, with the place, name and altitude of the row. -/
theorem C143_devices_partial (L : Kml.Loader) (alt : Option ℚ) (x : Row) (h1 : x.sku = none) (h2 : x.building = none) :
    ∃ ss, construct L alt x = .ok ss ∧
      ss.map (·.site.device) = L.devices.filter (fun d => decide (x.typ = .cn ↔ d.deviceType = .cn)) ∧
      ∀ s ∈ ss, s.site.siteType = x.typ ∧ s.site.lat = x.lat ∧ s.site.lon = x.lon ∧ s.site.alt = alt ∧
        s.given = x.name.getD "" ∧ s.site.status = .candidate := by
  have e : (fun d : Device => decide (d.deviceType = if x.typ = .cn then .cn else .dn)) =
      fun d => decide (x.typ = .cn ↔ d.deviceType = .cn) := by
    funext d
    cases x.typ <;> cases d.deviceType <;> rfl
  unfold construct
  rw [h1, h2]
  dsimp only
  rw [e]
  have key : ∀ ds : List Device, (∀ d ∈ ds, (x.typ = .cn ↔ d.deviceType = .cn)) → ∃ ss,
      ds.mapM (fun d => (if (none : Option String) ≠ none then .error .topology
        else L.site { typ := x.typ, status := .candidate, sku := none, name := x.name, lat := x.lat, lon := x.lon
                      alt := alt, loc := .unknown, subs := x.subs.map fun q => q.floor.toNat } d : Except Err NamedSite)) =
        .ok ss ∧ ss.map (·.site.device) = ds ∧
      ∀ s ∈ ss, s.site.siteType = x.typ ∧ s.site.lat = x.lat ∧ s.site.lon = x.lon ∧ s.site.alt = alt ∧
        s.given = x.name.getD "" ∧ s.site.status = .candidate := by
    intro ds
    induction ds with
    | nil => intro _; exact ⟨[], rfl, rfl, by simp⟩
    | cons d ds ih =>
      intro h
      obtain ⟨ss, g1, g2, g3⟩ := ih fun d hd => h d (by simp [hd])
      have hd := h d (by simp)
      have : x.typ = .cn ∧ d.deviceType = .cn ∨ x.typ ≠ .cn ∧ d.deviceType = .dn := by
        revert hd
        cases x.typ <;> cases d.deviceType <;> simp
      rw [List.mapM_cons, g1, if_neg (by simp)]
      unfold Kml.Loader.site
      dsimp only
      rw [if_neg (fun h => absurd h.1 (by simp)), if_neg (fun h => h.2 rfl), if_neg (not_not.2 this)]
      refine ⟨_, rfl, ?_, ?_⟩
      · rw [List.map_cons, g2]
      · intro s hs
        rcases List.mem_cons.1 hs with rfl | hs
        · exact ⟨rfl, rfl, rfl, rfl, rfl, rfl⟩
        · exact g3 s hs
  obtain ⟨ss, g1, g2, g3⟩ := key _ fun d hd => of_decide_eq_true (List.mem_filter.1 hd).2
  exact ⟨ss, g1, g2, g3⟩

/-- The behaviour of `pandas` and Python on the texts of the examples. -/
def demoLib : Lib where
  num := fun s => if s = "007" then some 7 else if s = "10" then some 10 else if s = "20" then some 20 else none
  text := fun _ s => if s = "007" then "7" else s
  float := fun s => if s = "10" then some 10 else if s = "30" then some 30 else if s = "0" then some 0
    else if s = "-100" then some (-100) else none
  int := fun s => if s = "10" then some 10 else none
  strip := id
  upper := fun s => String.ofList (s.toList.map Char.toUpper)
  norm := fun s => String.ofList (s.toList.map Char.toLower)

/-- C141: an angle. -/
example : dms demoLib "10°30'0\"S" = .ok (-21 / 2) ∧ dms demoLib "10° W" = .ok (-10) ∧ dms demoLib "10" = .error .data := by
  decide +kernel

/-- C142: a header. -/
example : checkHeader demoLib ⟨["Name", "LAT", "lon", "Type", "other"], []⟩ false = .ok () ∧
    checkHeader demoLib ⟨["Name", "LAT", "latitude", "lon", "Type"], []⟩ false = .error .data ∧
    checkHeader demoLib ⟨["LAT", "lon"], []⟩ false = .error .data := by
  decide +kernel

/-- A table for the examples. -/
def csvDemo : Table := ⟨["Name", "Lat", "Lon", "Type", "SKU"], [["a", "10", "20", "cn two", ""], ["b", "20", "10", "DN", "x"]]⟩

theorem csvDemo_single : Single demoLib csvDemo := by
  rintro k i j ⟨h, h1, h2⟩ ⟨h', h3, h4⟩
  have b1 : i < 5 := (List.getElem?_eq_some_iff.1 h1).1
  have b2 : j < 5 := (List.getElem?_eq_some_iff.1 h3).1
  have key : ∀ k ∈ Col.all, ∀ i < 5, ∀ j < 5, demoLib.norm ((csvDemo.header[i]?).getD "") ∈ accepted k →
      demoLib.norm ((csvDemo.header[j]?).getD "") ∈ accepted k → i = j := by decide +kernel
  refine key k (by cases k <;> decide) i b1 j b2 ?_ ?_
  · rw [h1]; exact h2
  · rw [h3]; exact h4

/-- C143: the table is read. -/
example : loadSites demoLib csvDemo false =
    .ok [⟨.cn, some "", some "a", 10, 20, none, none, none, none⟩, ⟨.dn, some "x", some "b", 20, 10, none, none, none, none⟩] := by
  decide +kernel

/-- C143: the conditions of `C143_sku_violation` hold of the table. -/
example : demoLib.float "" = none ∧ demoLib.num "" = none ∧ demoLib.strip "" = "" ∧
    At demoLib csvDemo .sku 4 ∧ entry ["a", "10", "20", "cn two", ""] 4 = "" ∧ Kml.kmlLoader.device "" = none := by
  refine ⟨by decide +kernel, by decide +kernel, rfl, ⟨"SKU", rfl, by decide +kernel⟩, rfl, by decide +kernel⟩

/-- **C143 violated.** A name of digits is read as a number, if all names are, and printed differently. -/
theorem C143_names_violation : loadSites demoLib ⟨["name", "lat", "lon"], [["007", "10", "20"]]⟩ true =
    .ok [⟨.pop, none, some "7", 10, 20, none, none, none, none⟩] := by
  decide +kernel

/-- **C143 violated.** One empty altitude turns the other altitudes of the file into texts. -/
theorem C143_altitude_violation :
    loadSites demoLib ⟨["lat", "lon", "alt"], [["10", "20", "10"], ["20", "10", ""]]⟩ true =
    .ok [⟨.pop, none, none, 10, 20, some (.text "10"), none, none, none⟩,
      ⟨.pop, none, none, 20, 10, some (.text ""), none, none, none⟩] := by
  decide +kernel

/-- **C143 violated.** A number of subscribers that is no integer raises a `ValueError` instead of a
`DataException`. -/
theorem C143_subscribers_violation :
    loadSites demoLib ⟨["lat", "lon", "demand sites"], [["10", "20", "many"]]⟩ true = .error .valueError := by
  decide +kernel

end Csv
end Verif
