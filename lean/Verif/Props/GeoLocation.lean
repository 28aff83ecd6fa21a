import Verif.Model.GeoLocation
import Verif.Props.Exclusion

/-!
# C171 and C172: places and UTM zones
-/

namespace Verif

/-- The coordinates of a place. -/
structure Coords where
  lat : ℚ
  lon : ℚ
  x : ℚ
  y : ℚ
  epsg : ℤ
  alt : Option ℚ

namespace Coords
open GeoLocation

/-- The coordinates of a place given by latitude and longitude. -/
def ofLatLon (P : Proj) (lat lon : ℚ) (alt : Option ℚ) : Coords where
  lat := lat
  lon := lon
  x := (P.toUtm (utmCode lat lon) lon lat).1
  y := (P.toUtm (utmCode lat lon) lon lat).2
  epsg := utmCode lat lon
  alt := alt

/-- The coordinates of a place given in a UTM zone. -/
def ofUtm (P : Proj) (x y : ℚ) (epsg : ℤ) (alt : Option ℚ) : Coords where
  lat := (P.toLonLat epsg x y).2
  lon := (P.toLonLat epsg x y).1
  x := x
  y := y
  epsg := epsg
  alt := alt

/-- What is read at a place. -/
def get (c : Coords) : Field → Option ℚ
  | .latitude => some c.lat
  | .longitude => some c.lon
  | .utmX => some c.x
  | .utmY => some c.y
  | .utmEpsg => some (c.epsg : ℚ)
  | .altitude => c.alt

end Coords

namespace GeoLocation

/-- The attributes are filled with the coordinates, by latitude and longitude or by zone, or both. -/
structure Holds (c : Coords) (g : GeoLocation) : Prop where
  alt : g.alt = c.alt
  ll : (g.lat = none ∧ g.lon = none) ∨ (g.lat = some c.lat ∧ g.lon = some c.lon)
  utm : (g.x = none ∧ g.y = none ∧ g.epsg = none) ∨ (g.x = some c.x ∧ g.y = some c.y ∧ g.epsg = some c.epsg)

/-- A place given by latitude and longitude: these are always filled. -/
def byLL (P : Proj) (c : Coords) (g : GeoLocation) : Prop :=
  Holds c g ∧ c = Coords.ofLatLon P c.lat c.lon c.alt ∧ g.lat = some c.lat

/-- A place given in a zone: the coordinates in it are always filled. -/
def byUtm (P : Proj) (c : Coords) (g : GeoLocation) : Prop :=
  Holds c g ∧ c = Coords.ofUtm P c.x c.y c.epsg c.alt ∧ g.x = some c.x

theorem byLL.read {P : Proj} {c : Coords} {g : GeoLocation} (h : byLL P c g) (f : Field) :
    ∃ g', read P f g = .ok (c.get f, g') ∧ byLL P c g' := by
  obtain ⟨⟨halt, hll, hutm⟩, hc, hl⟩ := h
  obtain ⟨lat, lon, x, y, epsg, alt⟩ := g
  dsimp only at *
  subst halt hl
  obtain ⟨h, -⟩ | ⟨-, rfl⟩ := hll
  · cases h
  have hx : c.x = (P.toUtm (utmCode c.lat c.lon) c.lon c.lat).1 := congrArg Coords.x hc
  have hy : c.y = (P.toUtm (utmCode c.lat c.lon) c.lon c.lat).2 := congrArg Coords.y hc
  have he : c.epsg = utmCode c.lat c.lon := congrArg Coords.epsg hc
  obtain ⟨rfl, rfl, rfl⟩ | ⟨rfl, rfl, rfl⟩ := hutm
  · have up : updateUtm P ⟨some c.lat, some c.lon, none, none, none, c.alt⟩ =
        .ok ⟨some c.lat, some c.lon, some c.x, some c.y, some c.epsg, c.alt⟩ := by
      simp only [updateUtm, readLat, readLon, hx, hy, he]
    cases f <;> simp only [GeoLocation.read, orUpdate, up, Coords.get, Option.map]
    all_goals exact ⟨_, rfl, ⟨rfl, .inr ⟨rfl, rfl⟩, by simp⟩, hc, rfl⟩
  · cases f <;> simp only [GeoLocation.read, orUpdate, Coords.get, Option.map]
    all_goals exact ⟨_, rfl, ⟨rfl, .inr ⟨rfl, rfl⟩, by simp⟩, hc, rfl⟩

theorem byUtm.read {P : Proj} {c : Coords} {g : GeoLocation} (h : byUtm P c g) (f : Field) :
    ∃ g', read P f g = .ok (c.get f, g') ∧ byUtm P c g' ∧ (g'.lat = g.lat ∨ f = .latitude ∨ f = .longitude) := by
  obtain ⟨⟨halt, hll, hutm⟩, hc, hl⟩ := h
  obtain ⟨lat, lon, x, y, epsg, alt⟩ := g
  dsimp only at *
  subst halt hl
  obtain ⟨h, -⟩ | ⟨-, rfl, rfl⟩ := hutm
  · cases h
  have hx : c.lat = (P.toLonLat c.epsg c.x c.y).2 := congrArg Coords.lat hc
  have hy : c.lon = (P.toLonLat c.epsg c.x c.y).1 := congrArg Coords.lon hc
  obtain ⟨rfl, rfl⟩ | ⟨rfl, rfl⟩ := hll
  · have up : updateLatLon P ⟨none, none, some c.x, some c.y, some c.epsg, c.alt⟩ =
        .ok ⟨some c.lat, some c.lon, some c.x, some c.y, some c.epsg, c.alt⟩ := by
      simp only [updateLatLon, hx, hy]
    cases f <;> simp only [GeoLocation.read, orUpdate, up, Coords.get, Option.map]
    all_goals exact ⟨_, rfl, ⟨⟨rfl, by simp, .inr ⟨rfl, rfl, rfl⟩⟩, hc, rfl⟩, by simp⟩
  · cases f <;> simp only [GeoLocation.read, orUpdate, Coords.get, Option.map]
    all_goals exact ⟨_, rfl, ⟨⟨rfl, by simp, .inr ⟨rfl, rfl, rfl⟩⟩, hc, rfl⟩, by simp⟩

theorem byLL.reads {P : Proj} {c : Coords} {g : GeoLocation} (h : byLL P c g) (fs : List Field) :
    ∃ g', reads P fs g = .ok (fs.map c.get, g') ∧ byLL P c g' := by
  induction fs generalizing g with
  | nil => exact ⟨g, rfl, h⟩
  | cons f fs ih =>
    obtain ⟨g1, h1, k1⟩ := h.read f
    obtain ⟨g2, h2, k2⟩ := ih k1
    refine ⟨g2, ?_, k2⟩
    simp only [GeoLocation.reads, h1, h2, List.map_cons]

theorem byUtm.reads {P : Proj} {c : Coords} {g : GeoLocation} (h : byUtm P c g) (fs : List Field) :
    ∃ g', reads P fs g = .ok (fs.map c.get, g') ∧ byUtm P c g' ∧
      (Field.latitude ∉ fs → Field.longitude ∉ fs → g'.lat = g.lat) := by
  induction fs generalizing g with
  | nil => exact ⟨g, rfl, h, fun _ _ => rfl⟩
  | cons f fs ih =>
    obtain ⟨g1, h1, k1, l1⟩ := h.read f
    obtain ⟨g2, h2, k2, l2⟩ := ih k1
    refine ⟨g2, ?_, k2, ?_⟩
    · simp only [GeoLocation.reads, h1, h2, List.map_cons]
    · intro n1 n2
      simp only [List.mem_cons, not_or] at n1 n2
      rw [l2 n1.2 n2.2]
      rcases l1 with h | rfl | rfl
      · exact h
      · exact absurd rfl n1.1
      · exact absurd rfl n2.1

theorem make_ll {a : GeoLocation} {φ l : ℚ} (h1 : a.lat = some φ) (h2 : a.lon = some l) (h3 : -90 ≤ φ ∧ φ ≤ 90)
    (h4 : -180 ≤ l ∧ l ≤ 180) : make a = .ok { lat := some φ, lon := some l, alt := a.alt } := by
  unfold make
  simp only [h1, h2, if_pos h3, if_pos h4]

theorem make_utm {a : GeoLocation} (h : a.lat = none ∨ a.lon = none) {x y : ℚ} {e : ℤ} (h1 : a.x = some x) (h2 : a.y = some y)
    (h3 : a.epsg = some e) (h4 : 32600 < e ∧ e ≤ 32660 ∨ 32700 < e ∧ e ≤ 32760) :
    make a = .ok { x := some x, y := some y, epsg := some e, alt := a.alt } := by
  unfold make
  split
  · rename_i e1 e2
    rcases h with h | h
    · rw [h] at e1; cases e1
    · rw [h] at e2; cases e2
  · simp only [h1, h2, h3, if_pos h4]

/-- The arguments describe a place by latitude and longitude. -/
def GivesLatLon (a : GeoLocation) (lat lon : ℚ) : Prop :=
  a.lat = some lat ∧ a.lon = some lon ∧ -90 ≤ lat ∧ lat ≤ 90 ∧ -180 ≤ lon ∧ lon ≤ 180

/-- The arguments describe a place in a UTM zone, and not by latitude and longitude. -/
def GivesUtm (a : GeoLocation) (x y : ℚ) (e : ℤ) : Prop :=
  (a.lat = none ∨ a.lon = none) ∧ a.x = some x ∧ a.y = some y ∧ a.epsg = some e ∧
    (32601 ≤ e ∧ e ≤ 32660 ∨ 32701 ≤ e ∧ e ≤ 32760)

theorem make_iff (a g : GeoLocation) : make a = .ok g ↔
    (∃ lat lon, GivesLatLon a lat lon ∧ g = { lat := some lat, lon := some lon, alt := a.alt }) ∨
    ∃ x y e, GivesUtm a x y e ∧ g = { x := some x, y := some y, epsg := some e, alt := a.alt } := by
  constructor
  · intro h
    unfold make at h
    split at h
    · rename_i φ l e1 e2
      split at h
      · split at h
        · rename_i h1 h2
          cases h
          exact .inl ⟨φ, l, ⟨e1, e2, h1.1, h1.2, h2.1, h2.2⟩, rfl⟩
        · cases h
      · cases h
    · rename_i hno
      split at h
      · rename_i x y e e1 e2 e3
        split at h
        · rename_i hr
          cases h
          refine .inr ⟨x, y, e, ⟨?_, e1, e2, e3, by omega⟩, rfl⟩
          cases ha : a.lat with
          | none => exact .inl rfl
          | some φ =>
            cases hb : a.lon with
            | none => exact .inr rfl
            | some l => exact absurd hb (hno φ l ha)
        · cases h
      · cases h
  · rintro (⟨φ, l, ⟨h1, h2, h3, h4, h5, h6⟩, rfl⟩ | ⟨x, y, e, ⟨h1, h2, h3, h4, h5⟩, rfl⟩)
    · exact make_ll h1 h2 ⟨h3, h4⟩ ⟨h5, h6⟩
    · exact make_utm h1 h2 h3 h4 (by omega)

/-- **C171.** A location is created exactly from a latitude and a longitude in range, or else from coordinates in a UTM
zone, otherwise a GeoSystemException is raised. Whatever was read before, each property has the same value: those given,
and the others computed from them, in the zone of the place if it was given by latitude and longitude. That zone exists. -/
theorem C171_reads (P : Proj) (a : GeoLocation) :
    (∀ e, make a = .error e ↔ e = .geoSystem ∧ (¬ ∃ lat lon, GivesLatLon a lat lon) ∧ ¬ ∃ x y z, GivesUtm a x y z) ∧
    ∀ g, make a = .ok g → ∃ c : Coords,
      (∀ lat lon, GivesLatLon a lat lon → c = Coords.ofLatLon P lat lon a.alt ∧
        (32601 ≤ c.epsg ∧ c.epsg ≤ 32660 ∧ 0 ≤ lat ∨ 32701 ≤ c.epsg ∧ c.epsg ≤ 32760 ∧ lat < 0)) ∧
      (∀ x y e, GivesUtm a x y e → c = Coords.ofUtm P x y e a.alt) ∧
      ∀ fs : List Field, ∃ g', reads P fs g = .ok (fs.map c.get, g') := by
  constructor
  · intro e
    constructor
    · intro h
      refine ⟨?_, ?_, ?_⟩
      · unfold make at h
        split at h
        · split at h
          · split at h
            · cases h
            · exact (Except.error.inj h).symm
          · exact (Except.error.inj h).symm
        · split at h
          · split at h
            · cases h
            · exact (Except.error.inj h).symm
          · exact (Except.error.inj h).symm
      · rintro ⟨φ, l, hg⟩
        rw [(make_iff a _).2 (.inl ⟨φ, l, hg, rfl⟩)] at h
        cases h
      · rintro ⟨x, y, z, hg⟩
        rw [(make_iff a _).2 (.inr ⟨x, y, z, hg, rfl⟩)] at h
        cases h
    · rintro ⟨rfl, h1, h2⟩
      cases hm : make a with
      | ok g =>
        rcases (make_iff a g).1 hm with ⟨φ, l, hg, -⟩ | ⟨x, y, z, hg, -⟩
        · exact absurd ⟨φ, l, hg⟩ h1
        · exact absurd ⟨x, y, z, hg⟩ h2
      | error e =>
        unfold make at hm
        split at hm
        · split at hm
          · split at hm
            · cases hm
            · exact hm.symm
          · exact hm.symm
        · split at hm
          · split at hm
            · cases hm
            · exact hm.symm
          · exact hm.symm
  · intro g hg
    rcases (make_iff a g).1 hg with ⟨φ, l, h, rfl⟩ | ⟨x, y, z, h, rfl⟩
    · refine ⟨Coords.ofLatLon P φ l a.alt, ?_, ?_, ?_⟩
      · intro φ' l' h'
        have e1 : φ' = φ := Option.some.inj (h'.1.symm.trans h.1)
        have e2 : l' = l := Option.some.inj (h'.2.1.symm.trans h.2.1)
        subst e1 e2
        refine ⟨rfl, ?_⟩
        have z1 : 1 ≤ utmZone l' ∧ utmZone l' ≤ 60 := by
          unfold utmZone
          omega
        show 32601 ≤ utmCode φ' l' ∧ utmCode φ' l' ≤ 32660 ∧ 0 ≤ φ' ∨ 32701 ≤ utmCode φ' l' ∧ utmCode φ' l' ≤ 32760 ∧ φ' < 0
        unfold utmCode
        split
        · rename_i h0
          exact .inl ⟨by omega, by omega, h0⟩
        · rename_i h0
          exact .inr ⟨by omega, by omega, not_le.1 h0⟩
      · intro x y e h'
        rcases h'.1 with c | c
        · rw [h.1] at c; cases c
        · rw [h.2.1] at c; cases c
      · intro fs
        obtain ⟨g', h1, -⟩ := byLL.reads (P := P) (c := Coords.ofLatLon P φ l a.alt)
          (g := { lat := some φ, lon := some l, alt := a.alt })
          ⟨⟨rfl, .inr ⟨rfl, rfl⟩, .inl ⟨rfl, rfl, rfl⟩⟩, rfl, rfl⟩ fs
        exact ⟨g', h1⟩
    · refine ⟨Coords.ofUtm P x y z a.alt, ?_, ?_, ?_⟩
      · intro φ' l' h'
        rcases h.1 with c | c
        · rw [h'.1] at c; cases c
        · rw [h'.2.1] at c; cases c
      · intro x' y' z' h'
        have e1 : x' = x := Option.some.inj (h'.2.1.symm.trans h.2.1)
        have e2 : y' = y := Option.some.inj (h'.2.2.1.symm.trans h.2.2.1)
        have e3 : z' = z := Option.some.inj (h'.2.2.2.1.symm.trans h.2.2.2.1)
        rw [e1, e2, e3]
      · intro fs
        obtain ⟨g', h1, -⟩ := byUtm.reads (P := P) (c := Coords.ofUtm P x y z a.alt)
          (g := { x := some x, y := some y, epsg := some z, alt := a.alt })
          ⟨⟨rfl, .inl ⟨rfl, rfl⟩, .inr ⟨rfl, rfl, rfl⟩⟩, rfl, rfl⟩ fs
        exact ⟨g', h1⟩

/-- **C171 for copies, partial.** A copy of a location with another altitude is the same place: all else that is read from
it is what is read from the original, whatever was read from this before - if the location was given by latitude and
longitude, or if neither latitude nor longitude have been read from it. Full statement: for each location. -/
theorem C171_copy_partial (P : Proj) (a g g' : GeoLocation) (hg : make a = .ok g) (before : List Field)
    (vs : List (Option ℚ)) (hr : reads P before g = .ok (vs, g'))
    (h : (∃ lat lon, GivesLatLon a lat lon) ∨ Field.latitude ∉ before ∧ Field.longitude ∉ before) (alt : Option ℚ) :
    ∃ k, copy { alt := some alt } g' = .ok k ∧ ∀ f, ∃ v h1 h2, read P f g = .ok (v, h1) ∧
      read P f k = .ok (if f = .altitude then alt else v, h2) := by
  rcases (make_iff a g).1 hg with ⟨φ, l, hl, rfl⟩ | ⟨x, y, z, hu, rfl⟩
  · have b : byLL P (Coords.ofLatLon P φ l a.alt) { lat := some φ, lon := some l, alt := a.alt } :=
      ⟨⟨rfl, .inr ⟨rfl, rfl⟩, .inl ⟨rfl, rfl, rfl⟩⟩, rfl, rfl⟩
    obtain ⟨g1, e1, b1⟩ := b.reads before
    rw [e1] at hr
    cases hr
    obtain ⟨⟨-, ll, -⟩, -, hlat⟩ := b1
    have hlon : g'.lon = some l := by
      rcases ll with ⟨c, -⟩ | ⟨-, c⟩
      · rw [c] at hlat; cases hlat
      · exact c
    refine ⟨{ lat := some φ, lon := some l, alt := alt }, ?_, ?_⟩
    · unfold copy
      exact make_ll (a := ⟨_, _, _, _, _, _⟩) hlat hlon ⟨hl.2.2.1, hl.2.2.2.1⟩ ⟨hl.2.2.2.2.1, hl.2.2.2.2.2⟩
    · intro f
      obtain ⟨g2, e2, -⟩ := b.read f
      have b' : byLL P (Coords.ofLatLon P φ l alt) { lat := some φ, lon := some l, alt := alt } :=
        ⟨⟨rfl, .inr ⟨rfl, rfl⟩, .inl ⟨rfl, rfl, rfl⟩⟩, rfl, rfl⟩
      obtain ⟨g3, e3, -⟩ := b'.read f
      refine ⟨_, g2, g3, e2, ?_⟩
      rw [e3]
      cases f <;> rfl
  · have b : byUtm P (Coords.ofUtm P x y z a.alt) { x := some x, y := some y, epsg := some z, alt := a.alt } :=
      ⟨⟨rfl, .inl ⟨rfl, rfl⟩, .inr ⟨rfl, rfl, rfl⟩⟩, rfl, rfl⟩
    have no : ¬ ∃ lat lon, GivesLatLon a lat lon := by
      rintro ⟨φ, l, c⟩
      rcases hu.1 with d | d
      · rw [c.1] at d; cases d
      · rw [c.2.1] at d; cases d
    obtain ⟨n1, n2⟩ := h.resolve_left no
    obtain ⟨g1, e1, b1, keep⟩ := b.reads before
    rw [e1] at hr
    cases hr
    obtain ⟨⟨-, -, utm⟩, -, hx⟩ := b1
    obtain ⟨hy, hz⟩ : g'.y = some y ∧ g'.epsg = some z := by
      rcases utm with ⟨c, -⟩ | ⟨-, c, d⟩
      · rw [c] at hx; cases hx
      · exact ⟨c, d⟩
    refine ⟨{ x := some x, y := some y, epsg := some z, alt := alt }, ?_, ?_⟩
    · unfold copy
      have := hu.2.2.2.2
      exact make_utm (a := ⟨g'.lat, g'.lon, g'.x, g'.y, g'.epsg, alt⟩) (.inl (keep n1 n2)) hx hy hz (by omega)
    · intro f
      obtain ⟨g2, e2, -⟩ := b.read f
      have b' : byUtm P (Coords.ofUtm P x y z alt) { x := some x, y := some y, epsg := some z, alt := alt } :=
        ⟨⟨rfl, .inl ⟨rfl, rfl⟩, .inr ⟨rfl, rfl, rfl⟩⟩, rfl, rfl⟩
      obtain ⟨g3, e3, -⟩ := b'.read f
      refine ⟨_, g2, g3, e2, ?_⟩
      rw [e3]
      cases f <;> rfl

/-- **C171 for moved copies.** A copy with another latitude and longitude is the location created from these, at the
altitude of the original, whatever was read from this before. -/
theorem C171_moved (P : Proj) (a g g' : GeoLocation) (hg : make a = .ok g) (before : List Field)
    (vs : List (Option ℚ)) (hr : reads P before g = .ok (vs, g')) (lat lon : ℚ) :
    copy { lat := some (some lat), lon := some (some lon) } g' = make { lat := some lat, lon := some lon, alt := a.alt } := by
  have alt : g'.alt = a.alt := by
    rcases (make_iff a g).1 hg with ⟨φ, l, hl, rfl⟩ | ⟨x, y, z, hu, rfl⟩
    · have b : byLL P (Coords.ofLatLon P φ l a.alt) { lat := some φ, lon := some l, alt := a.alt } :=
        ⟨⟨rfl, .inr ⟨rfl, rfl⟩, .inl ⟨rfl, rfl, rfl⟩⟩, rfl, rfl⟩
      obtain ⟨g1, e1, b1⟩ := b.reads before
      rw [e1] at hr
      cases hr
      exact b1.1.1
    · have b : byUtm P (Coords.ofUtm P x y z a.alt) { x := some x, y := some y, epsg := some z, alt := a.alt } :=
        ⟨⟨rfl, .inl ⟨rfl, rfl⟩, .inr ⟨rfl, rfl, rfl⟩⟩, rfl, rfl⟩
      obtain ⟨g1, e1, b1, -⟩ := b.reads before
      rw [e1] at hr
      cases hr
      exact b1.1.1
  unfold copy make
  rw [← alt]
  rfl

/-- **C171 violated for copies.** A location in a UTM zone that is not the zone of its longitude, as that of a rooftop
beyond the edge of the zone in which an area is planned: once its latitude has been read, a copy of it has other
coordinates in another zone. -/
theorem C171_copy_violation (P : Proj) (x y : ℚ) (z : ℤ) (hz : 32601 ≤ z ∧ z ≤ 32660 ∨ 32701 ≤ z ∧ z ≤ 32760) (alt : Option ℚ)
    (lat lon : ℚ) (hp : P.toLonLat z x y = (lon, lat)) (h1 : -90 ≤ lat ∧ lat ≤ 90) (h2 : -180 ≤ lon ∧ lon ≤ 180)
    (other : utmCode lat lon ≠ z) :
    ∃ g g' k h, make { x := some x, y := some y, epsg := some z, alt := alt } = .ok g ∧
      read P .utmEpsg g = .ok (some (z : ℚ), g) ∧ read P .latitude g = .ok (some lat, g') ∧ copy {} g' = .ok k ∧
      read P .utmEpsg k = .ok (some ((utmCode lat lon : ℤ) : ℚ), h) ∧ ((utmCode lat lon : ℤ) : ℚ) ≠ z ∧
      read P .utmX h = .ok (some (P.toUtm (utmCode lat lon) lon lat).1, h) := by
  refine ⟨{ x := some x, y := some y, epsg := some z, alt := alt },
    { lat := some lat, lon := some lon, x := some x, y := some y, epsg := some z, alt := alt },
    { lat := some lat, lon := some lon, alt := alt }, ?_, ?_, ?_, ?_, ?_, ?_, ?_, ?_⟩
  · exact ⟨some lat, some lon, some (P.toUtm (utmCode lat lon) lon lat).1, some (P.toUtm (utmCode lat lon) lon lat).2,
      some (utmCode lat lon), alt⟩
  · exact make_utm (.inl rfl) rfl rfl rfl (by omega)
  · rfl
  · simp only [read, orUpdate, updateLatLon, hp]
  · exact make_ll rfl rfl h1 h2
  · simp only [read, orUpdate, updateUtm, readLat, readLon, Option.map]
  · exact_mod_cast other
  · rfl

/-- **C171 violated for moved copies.** A copy of a location given by latitude and longitude that is to have other
coordinates in its zone is silently the original place. -/
theorem C171_move_violation (a g : GeoLocation) (lat lon : ℚ) (h : GivesLatLon a lat lon) (hg : make a = .ok g) (x y : ℚ) :
    copy { x := some (some x), y := some (some y) } g = .ok g := by
  rw [make_ll h.1 h.2.1 ⟨h.2.2.1, h.2.2.2.1⟩ ⟨h.2.2.2.2.1, h.2.2.2.2.2⟩] at hg
  cases hg
  exact make_ll rfl rfl ⟨h.2.2.1, h.2.2.2.1⟩ ⟨h.2.2.2.2.1, h.2.2.2.2.2⟩

/-- A stand-in for UTM: the meridians are parallel. -/
def flat : Proj where
  toUtm e l φ := (500000 + 11000 * (l - (6 * ((e % 100 : ℤ) : ℚ) - 183)), if e < 32700 then 110000 * φ else 10000000 + 110000 * φ)
  toLonLat e x y := ((x - 500000) / 11000 + (6 * ((e % 100 : ℤ) : ℚ) - 183), (if e < 32700 then y else y - 10000000) / 110000)

/-- A place at 48 N, 12.5 E, given in zone 32, is in zone 33. -/
example : flat.toLonLat 32632 538500 5280000 = (25 / 2, 48) ∧ utmCode 48 (25 / 2) = 32633 := by decide +kernel

/-- A place given by latitude and longitude. -/
example : GivesLatLon { lat := some 48, lon := some 9 } 48 9 ∧ GivesUtm { x := some 500000, y := some 5280000, epsg := some 32632 } 500000 5280000 32632 := by
  unfold GivesLatLon GivesUtm
  decide +kernel

end GeoLocation

namespace Exclusion
open Classical LosGeom

/-- What is known of the UTM coordinates between 80 S and 84 N: the middle of zone `n` is the meridian `6 n - 183` with
easting 500 km. Two to three degrees from the middle the easting differs from this by more than 20 km. In the south,
northings are counted from 10000 km, so within a degree of the equator they are below 200 km in the north and above
9800 km in the south. -/
structure Utm (P : Proj) : Prop where
  east : ∀ n : ℤ, 1 ≤ n → n ≤ 60 → ∀ e, e = 32600 + n ∨ e = 32700 + n → ∀ lat lon : ℚ, -80 ≤ lat → lat ≤ 84 →
    2 ≤ lon - (6 * n - 183) → lon - (6 * n - 183) ≤ 3 → 520000 < (P.toUtm e lon lat).1
  west : ∀ n : ℤ, 1 ≤ n → n ≤ 60 → ∀ e, e = 32600 + n ∨ e = 32700 + n → ∀ lat lon : ℚ, -80 ≤ lat → lat ≤ 84 →
    -3 ≤ lon - (6 * n - 183) → lon - (6 * n - 183) ≤ -2 → (P.toUtm e lon lat).1 < 480000
  north : ∀ n : ℤ, 1 ≤ n → n ≤ 60 → ∀ lat lon : ℚ, 0 ≤ lat → lat ≤ 1 →
    -3 ≤ lon - (6 * n - 183) → lon - (6 * n - 183) ≤ 3 → (P.toUtm (32600 + n) lon lat).2 < 200000
  south : ∀ n : ℤ, 1 ≤ n → n ≤ 60 → ∀ lat lon : ℚ, -1 ≤ lat → lat < 0 →
    -3 ≤ lon - (6 * n - 183) → lon - (6 * n - 183) ≤ 3 → 9800000 < (P.toUtm (32700 + n) lon lat).2

theorem zone_of {lon : ℚ} {n : ℤ} (h1 : 1 ≤ n) (h2 : n ≤ 60) (h3 : 6 * (n : ℚ) - 186 ≤ lon) (h4 : lon < 6 * (n : ℚ) - 180) :
    utmZone lon = n := by
  have : ⌊(lon + 180) / 6⌋ = n - 1 := by
    rw [Int.floor_eq_iff]
    push_cast
    constructor <;> linarith
  unfold utmZone
  rw [this]
  omega

theorem code_of {lat lon : ℚ} {n : ℤ} (h : utmZone lon = n) : utmCode lat lon = 32600 + n ∨ utmCode lat lon = 32700 + n := by
  unfold utmCode
  split
  · exact .inl (by rw [h])
  · exact .inr (by rw [h])

theorem confidence_range {sort : List P3 → List P3} {surface : Option (ℝ → ℝ → ℝ → ℝ → List P3)} {L : Limits} (hL : L.Ok)
    {area : List (ℝ × ℝ) → Set (ℝ × ℝ)} {polygons : List (List (ℝ × ℝ))} {a b : RSite}
    (h : confidence sort surface L area polygons a b ≠ 0) :
    (L.minDist * (1 - 2 / 100)) ^ 2 ≤ sqDist a b ∧ sqDist a b ≤ (L.maxDist * (1 + 2 / 100)) ^ 2 :=
  have := (passes_iff (validator_valid hL) a b).1 (confidence_passes h)
  ⟨this.far, this.near⟩

theorem sq_le (a b : RSite) : (a.x - b.x) ^ 2 ≤ sqDist a b ∧ (a.y - b.y) ^ 2 ≤ sqDist a b := by
  unfold sqDist
  split <;> constructor <;> nlinarith [sq_nonneg (a.x - b.x), sq_nonneg (a.y - b.y), sq_nonneg (a.x - b.x)]

/-- How far one site is above the other, if both altitudes are known. -/
def rise (alt alt' : Option ℚ) : ℚ :=
  match alt, alt' with
  | some z, some w => z - w
  | _, _ => 0

/-- **C172, partial.** If the coordinates in one zone give the distance of two sites, then a line between them has a
positive confidence only if the distance is at least 98 % of the minimal and at most 102 % of the maximal one. Full
statement: for any two sites. -/
theorem C172_one_zone_partial (P : Proj) (sort : List P3 → List P3) (surface : Option (ℝ → ℝ → ℝ → ℝ → List P3)) (L : Limits)
    (hL : L.Ok) (area : List (ℝ × ℝ) → Set (ℝ × ℝ)) (polygons : List (List (ℝ × ℝ))) (lat lon lat' lon' : ℚ)
    (alt alt' : Option ℚ) (one : utmCode lat lon = utmCode lat' lon') (d : ℝ) (d0 : 0 ≤ d)
    (hd : d ^ 2 = (((P.toUtm (utmCode lat lon) lon lat).1 - (P.toUtm (utmCode lat lon) lon' lat').1 : ℚ) : ℝ) ^ 2
      + (((P.toUtm (utmCode lat lon) lon lat).2 - (P.toUtm (utmCode lat lon) lon' lat').2 : ℚ) : ℝ) ^ 2
      + (rise alt alt' : ℝ) ^ 2)
    (loc loc' : LocationType) (building building' : Option Int)
    (h : confidence sort surface L area polygons (losSite P lat lon alt loc building) (losSite P lat' lon' alt' loc' building') ≠ 0) :
    98 / 100 * L.minDist ≤ d ∧ d ≤ 102 / 100 * L.maxDist := by
  obtain ⟨h1, h2⟩ := confidence_range hL h
  have e : sqDist (losSite P lat lon alt loc building) (losSite P lat' lon' alt' loc' building') = d ^ 2 := by
    rw [hd]
    unfold sqDist losSite rise
    rw [← one]
    cases alt <;> cases alt' <;> simp
  rw [e] at h1 h2
  have m0 := hL.min_pos
  have m1 := hL.min_lt
  constructor
  · have := (pow_le_pow_iff_left₀ (by linarith) d0 two_ne_zero).1 h1
    linarith
  · have := (pow_le_pow_iff_left₀ d0 (by linarith) two_ne_zero).1 h2
    linarith

/-- **C172 violated at the edges of zones.** Each site has coordinates in its own zone. Between two sites on different
sides of the meridian between two zones, and no more than a degree from it, there is no line of sight, however near they
are to each other. -/
theorem C172_edge_violation (P : Proj) (U : Utm P) (sort : List P3 → List P3) (surface : Option (ℝ → ℝ → ℝ → ℝ → List P3))
    (L : Limits) (hL : L.Ok) (far : L.maxDist ≤ 39000) (area : List (ℝ × ℝ) → Set (ℝ × ℝ)) (polygons : List (List (ℝ × ℝ)))
    (n : ℤ) (n1 : 1 ≤ n) (n2 : n ≤ 59) (lat lon lat' lon' : ℚ) (a1 : -80 ≤ lat) (a2 : lat ≤ 84) (b1 : -80 ≤ lat') (b2 : lat' ≤ 84)
    (l1 : 6 * (n : ℚ) - 181 ≤ lon) (l2 : lon < 6 * n - 180) (m1 : 6 * (n : ℚ) - 180 ≤ lon') (m2 : lon' ≤ 6 * n - 179)
    (alt alt' : Option ℚ) (loc loc' : LocationType) (building building' : Option Int) :
    confidence sort surface L area polygons (losSite P lat lon alt loc building) (losSite P lat' lon' alt' loc' building') = 0 := by
  by_contra h
  have z1 : utmZone lon = n := zone_of n1 (by omega) (by linarith) l2
  have z2 : utmZone lon' = n + 1 := zone_of (by omega) (by omega) (by push_cast; linarith) (by push_cast; linarith)
  have x1 := U.east n n1 (by omega) _ (code_of (lat := lat) z1) lat lon a1 a2 (by linarith) (by linarith)
  have x2 := U.west (n + 1) (by omega) (by omega) _ (code_of (lat := lat') z2) lat' lon' b1 b2 (by push_cast; linarith)
    (by push_cast; linarith)
  have y1 : (520000 : ℝ) < (losSite P lat lon alt loc building).x := by
    show (520000 : ℝ) < (((P.toUtm (utmCode lat lon) lon lat).1 : ℚ) : ℝ)
    exact_mod_cast x1
  have y2 : (losSite P lat' lon' alt' loc' building').x < (480000 : ℝ) := by
    show (((P.toUtm (utmCode lat' lon') lon' lat').1 : ℚ) : ℝ) < (480000 : ℝ)
    exact_mod_cast x2
  have h2 := (confidence_range hL h).2
  have h3 := (sq_le (losSite P lat lon alt loc building) (losSite P lat' lon' alt' loc' building')).1
  have m0 := hL.min_pos
  have m1 := hL.min_lt
  nlinarith

/-- **C172 violated at the equator.** Nor is there a line of sight across the equator. -/
theorem C172_equator_violation (P : Proj) (U : Utm P) (sort : List P3 → List P3) (surface : Option (ℝ → ℝ → ℝ → ℝ → List P3))
    (L : Limits) (hL : L.Ok) (far : L.maxDist ≤ 39000) (area : List (ℝ × ℝ) → Set (ℝ × ℝ)) (polygons : List (List (ℝ × ℝ)))
    (n : ℤ) (n1 : 1 ≤ n) (n2 : n ≤ 60) (lat lon lat' lon' : ℚ) (a1 : -1 ≤ lat) (a2 : lat < 0) (b1 : 0 ≤ lat') (b2 : lat' ≤ 1)
    (l1 : 6 * (n : ℚ) - 186 ≤ lon) (l2 : lon < 6 * n - 180) (m1 : 6 * (n : ℚ) - 186 ≤ lon') (m2 : lon' < 6 * n - 180)
    (alt alt' : Option ℚ) (loc loc' : LocationType) (building building' : Option Int) :
    confidence sort surface L area polygons (losSite P lat lon alt loc building) (losSite P lat' lon' alt' loc' building') = 0 := by
  by_contra h
  have z1 : utmCode lat lon = 32700 + n := by
    unfold utmCode
    rw [if_neg (not_le.2 a2), zone_of n1 n2 l1 l2]
  have z2 : utmCode lat' lon' = 32600 + n := by
    unfold utmCode
    rw [if_pos b1, zone_of n1 n2 m1 m2]
  have x1 := U.south n n1 n2 lat lon a1 a2 (by linarith) (by linarith)
  have x2 := U.north n n1 n2 lat' lon' b1 b2 (by linarith) (by linarith)
  have y1 : (9800000 : ℝ) < (losSite P lat lon alt loc building).y := by
    show (9800000 : ℝ) < (((P.toUtm (utmCode lat lon) lon lat).2 : ℚ) : ℝ)
    rw [z1]
    exact_mod_cast x1
  have y2 : (losSite P lat' lon' alt' loc' building').y < (200000 : ℝ) := by
    show (((P.toUtm (utmCode lat' lon') lon' lat').2 : ℚ) : ℝ) < (200000 : ℝ)
    rw [z2]
    exact_mod_cast x2
  have h2 := (confidence_range hL h).2
  have h3 := (sq_le (losSite P lat lon alt loc building) (losSite P lat' lon' alt' loc' building')).2
  have m0 := hL.min_pos
  have m1 := hL.min_lt
  nlinarith

/-- The flat stand-in for UTM satisfies what is assumed of it. -/
theorem utm_flat : Utm GeoLocation.flat := by
  have mod : ∀ n : ℤ, 1 ≤ n → n ≤ 60 → ∀ e, e = 32600 + n ∨ e = 32700 + n → e % 100 = n := by
    intro n h1 h2 e he
    omega
  refine ⟨?_, ?_, ?_, ?_⟩
  · intro n h1 h2 e he lat lon _ _ h3 h4
    simp only [GeoLocation.flat]
    rw [mod n h1 h2 e he]
    linarith
  · intro n h1 h2 e he lat lon _ _ h3 h4
    simp only [GeoLocation.flat]
    rw [mod n h1 h2 e he]
    linarith
  · intro n h1 h2 lat lon h3 h4 _ _
    simp only [GeoLocation.flat]
    rw [if_pos (by omega)]
    linarith
  · intro n h1 h2 lat lon h3 h4 _ _
    simp only [GeoLocation.flat]
    rw [if_neg (by omega)]
    linarith

/-- Two sites in 48 N, some fifteen metres apart, on both sides of 12 E. -/
example : confidence id none limits (fun c => convexHull ℝ {p | p ∈ c}) [] (losSite GeoLocation.flat 48 (119999 / 10000) none .unknown none)
    (losSite GeoLocation.flat 48 (120001 / 10000) none .unknown none) = 0 :=
  C172_edge_violation GeoLocation.flat utm_flat id none limits limits_ok (by norm_num [limits]) _ _ 32 (by norm_num) (by norm_num)
    _ _ _ _ (by norm_num) (by norm_num) (by norm_num) (by norm_num) (by norm_num) (by norm_num) (by norm_num) (by norm_num)
    _ _ _ _ _ _

/-- Two sites some twenty metres apart, on both sides of the equator. -/
example : confidence id none limits (fun c => convexHull ℝ {p | p ∈ c}) [] (losSite GeoLocation.flat (-1 / 10000) 9 none .unknown none)
    (losSite GeoLocation.flat (1 / 10000) 9 none .unknown none) = 0 :=
  C172_equator_violation GeoLocation.flat utm_flat id none limits limits_ok (by norm_num [limits]) _ _ 32 (by norm_num) (by norm_num)
    _ _ _ _ (by norm_num) (by norm_num) (by norm_num) (by norm_num) (by norm_num) (by norm_num) (by norm_num) (by norm_num)
    _ _ _ _ _ _

/-- Two sites in one zone, 110 metres apart, between which there is a line of sight. -/
example : utmCode 48 9 = utmCode (48001 / 1000) 9 ∧
    confidence id none limits (fun c => convexHull ℝ {p | p ∈ c}) [] (losSite GeoLocation.flat 48 9 none .unknown none)
      (losSite GeoLocation.flat (48001 / 1000) 9 none .unknown none) ≠ 0 := by
  have c1 : utmCode 48 9 = 32632 := by decide +kernel
  have c2 : utmCode (48001 / 1000) 9 = 32632 := by decide +kernel
  refine ⟨c1.trans c2.symm, ?_⟩
  have e : Eligible (validator none limits (fun c => convexHull ℝ {p | p ∈ c}) [])
      (losSite GeoLocation.flat 48 9 none .unknown none) (losSite GeoLocation.flat (48001 / 1000) 9 none .unknown none) := by
    have x1 : (losSite GeoLocation.flat 48 9 none .unknown none).x = 500000 := by
      simp only [losSite, c1, GeoLocation.flat]
      norm_num
    have x2 : (losSite GeoLocation.flat (48001 / 1000) 9 none .unknown none).x = 500000 := by
      simp only [losSite, c2, GeoLocation.flat]
      norm_num
    have y1 : (losSite GeoLocation.flat 48 9 none .unknown none).y = 5280000 := by
      simp only [losSite, c1, GeoLocation.flat]
      norm_num
    have y2 : (losSite GeoLocation.flat (48001 / 1000) 9 none .unknown none).y = 5280110 := by
      simp only [losSite, c2, GeoLocation.flat]
      norm_num
    have d : sqDist (losSite GeoLocation.flat 48 9 none .unknown none) (losSite GeoLocation.flat (48001 / 1000) 9 none .unknown none) = 12100 := by
      show ((losSite GeoLocation.flat 48 9 none .unknown none).x - (losSite GeoLocation.flat (48001 / 1000) 9 none .unknown none).x) ^ 2
        + ((losSite GeoLocation.flat 48 9 none .unknown none).y - (losSite GeoLocation.flat (48001 / 1000) 9 none .unknown none).y) ^ 2 = 12100
      rw [x1, x2, y1, y2]
      norm_num
    refine ⟨.inr (by rw [y1, y2]; norm_num), ?_, ?_, ?_, ?_, ?_⟩
    · intro h; cases h
    · rw [d]; norm_num [validator, limits]
    · rw [d]; norm_num [validator, limits]
    · intro z w h; cases h
    · intro _ _ _ _ h; cases h
  have p := (passes_iff (validator_valid limits_ok) _ _).2 e
  have : confidence id none limits (fun c => convexHull ℝ {p | p ∈ c}) [] (losSite GeoLocation.flat 48 9 none .unknown none)
      (losSite GeoLocation.flat (48001 / 1000) 9 none .unknown none) = 1 := by
    unfold confidence
    rw [if_neg (by simp [limits])]
    unfold LosGeom.confidence
    rw [if_pos p]
    rfl
  rw [this]
  exact one_ne_zero

end Exclusion
end Verif
