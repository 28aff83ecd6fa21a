import Verif.Model.Csv

/-! # What a site file in CSV format says -/

namespace Verif
namespace Csv

/-- The characters between the parts of an angle. -/
def Sep (c : Char) : Prop := c ∈ [' ', '\t', '\n', '\r', '°', '\'', '"']

/-- The text consists of these parts, with separators in between. -/
def Apart : List (List Char) → List Char → Prop
  | [], _ => False
  | [p], l => l = p ∧ p ≠ [] ∧ ∀ c ∈ p, ¬ Sep c
  | p :: q :: ps, l => p ≠ [] ∧ (∀ c ∈ p, ¬ Sep c) ∧
      ∃ u r, u ≠ [] ∧ (∀ c ∈ u, Sep c) ∧ l = p ++ u ++ r ∧ Apart (q :: ps) r

/-- North and east count positive, south and west negative. -/
def Direction (d : List Char) (e : ℚ) : Prop :=
  (d = ['N'] ∨ d = ['E']) ∧ e = 1 ∨ (d = ['S'] ∨ d = ['W']) ∧ e = -1

/-- The text is an angle: a number of degrees and a direction, or degrees, minutes, seconds and a direction. -/
def Angle (lib : Lib) (s : String) (v : ℚ) : Prop :=
  ∃ d e, Direction d e ∧
    ((∃ a x, Apart [a, d] (lib.strip s).toList ∧ lib.float (String.ofList a) = some x ∧ v = e * x) ∨
     ∃ a b c x y z, Apart [a, b, c, d] (lib.strip s).toList ∧ lib.float (String.ofList a) = some x ∧
       lib.float (String.ofList b) = some y ∧ lib.float (String.ofList c) = some z ∧
       v = e * (x + y / 60 + z / 3600))

/-- The acceptable names of the attributes, as in the table of `docs/runbook/Input_Files.md:94-105` and, for what is
not in that table, `data_key.py:122-140`. -/
def accepted : Col → List String
  | .lat => ["base_lat", "latitude", "lat"]
  | .lon => ["base_lon", "longitude", "lon"]
  | .alt => ["altitude", "alt"]
  | .height => ["height", "install_height", "site_height", "height_m", "height(m)", "height (m)"]
  | .name => ["name", "site_name", "site name", "pole_name"]
  | .typ => ["type", "site_type", "site type"]
  | .sku => ["sku", "device_sku", "device sku"]
  | .subs => ["number_of_demand_points", "number of demand points", "num_demand_points", "number_of_subscribers",
      "number of subscribers", "number of demand sites", "num_demand_sites", "demand_points", "demand points",
      "demand_sites", "demand sites"]
  | .mode => ["altitude mode", "altitude_mode", "altitudemode"]
  | .building => ["building id", "building_id"]
  | .loc => ["location type", "location_type"]
  | .status => ["status", "status type", "status_type"]

/-- Column `i` is the column of the attribute. -/
def At (lib : Lib) (t : Table) (k : Col) (i : Nat) : Prop := ∃ h, t.header[i]? = some h ∧ lib.norm h ∈ accepted k

/-- No attribute has two columns. -/
def Single (lib : Lib) (t : Table) : Prop := ∀ k i j, At lib t k i → At lib t k j → i = j

/-- The attributes that must have a column. -/
def Needed (user : Bool) (k : Col) : Prop := k = .lat ∨ k = .lon ∨ user = false ∧ (k = .name ∨ k = .typ)

/-- The text in column `i` of the row. -/
def entry (r : List String) (i : Nat) : String := r.getD i ""

/-- All entries of the column are numbers. -/
def Numbers (lib : Lib) (t : Table) (i : Nat) : Prop := ∀ r ∈ t.rows, ∃ q, lib.num (entry r i) = some q

/-- The latitude or longitude that the row says: a number if the column has numbers only, an angle otherwise. -/
def SaysDegrees (lib : Lib) (t : Table) (k : Col) (r : List String) (v : ℚ) : Prop :=
  ∃ i, At lib t k i ∧ (Numbers lib t i → lib.num (entry r i) = some v) ∧
    (¬ Numbers lib t i → Angle lib (entry r i) v)

/-- The text that the row says: none if there is no such column; the printed number if the column has numbers only;
without blanks around it. -/
def SaysText (lib : Lib) (t : Table) (k : Col) (r : List String) (s : Option String) : Prop :=
  ((∀ i, ¬ At lib t k i) ∧ s = none) ∨
  ∃ i, At lib t k i ∧ (Numbers lib t i → s = some (lib.strip (lib.text (t.rows.map (entry · i)) (entry r i)))) ∧
    (¬ Numbers lib t i → s = some (lib.strip (entry r i)))

/-- The altitude or height that the row says: a number if the column has numbers only, otherwise the text. -/
def SaysCell (lib : Lib) (t : Table) (k : Col) (r : List String) (c : Option Cell) : Prop :=
  ((∀ i, ¬ At lib t k i) ∧ c = none) ∨
  ∃ i, At lib t k i ∧ (Numbers lib t i → ∃ q, lib.num (entry r i) = some q ∧ c = some (.num q)) ∧
    (¬ Numbers lib t i → c = some (.text (entry r i)))

/-- The number of subscribers that the row says: none if there is no column or no entry. -/
def SaysSubs (lib : Lib) (t : Table) (r : List String) (n : Option ℚ) : Prop :=
  ((∀ i, ¬ At lib t .subs i) ∧ n = none) ∨
  ∃ i, At lib t .subs i ∧ (Numbers lib t i → ∃ q, lib.num (entry r i) = some q ∧ n = some q) ∧
    (¬ Numbers lib t i → (entry r i = "" ∧ n = none) ∨
      entry r i ≠ "" ∧ ∃ m : Int, lib.int (entry r i) = some m ∧ n = some (m : ℚ))

/-- The first word of the text, in capital letters, is the type. -/
def SaysType (lib : Lib) (t : Table) (r : List String) (ty : SiteType) : Prop :=
  ∃ s, SaysText lib t .typ r s ∧ ∃ w rest, (lib.upper (s.getD "POP")).toList = w ++ rest ∧ ' ' ∉ w ∧
    (rest = [] ∨ ∃ q, rest = ' ' :: q) ∧ String.ofList w = ty.str

/-- The row says this site. -/
structure RowSays (lib : Lib) (t : Table) (r : List String) (x : Row) : Prop where
  lat : SaysDegrees lib t .lat r x.lat
  lon : SaysDegrees lib t .lon r x.lon
  typ : SaysType lib t r x.typ
  name : SaysText lib t .name r x.name
  sku : SaysText lib t .sku r x.sku
  building : SaysText lib t .building r x.building
  alt : SaysCell lib t .alt r x.alt
  height : SaysCell lib t .height r x.height
  subs : SaysSubs lib t r x.subs

/-- The header has all columns needed, and no attribute has two columns of different names. -/
def HeaderOk (lib : Lib) (t : Table) (user : Bool) : Prop :=
  (∀ k, Needed user k → ∃ i, At lib t k i) ∧
  ∀ k i j h h', At lib t k i → At lib t k j → t.header[i]? = some h → t.header[j]? = some h' → lib.norm h = lib.norm h'

end Csv
end Verif

namespace Verif
namespace Csv

/-- The acceptable names of the columns of a link file, as in the table of `docs/runbook/Input_Files.md:211-222` and, for
what is not in that table, `data_key.py:258-267`. -/
def laccepted : LCol → List String
  | .tx => ["tx_site", "tx_site_name", "tx_site_id", "from_site", "from_site_name", "from_site_id"]
  | .rx => ["rx_site", "rx_site_name", "rx_site_id", "to_site", "to_site_name", "to_site_id"]
  | .site1 => ["site1", "site1_id", "site1_name"]
  | .site2 => ["site2", "site2_id", "site2_name"]
  | .pair => ["site_pair", "sites"]
  | .conf => ["confidence level", "confidence_level"]
  | .typ => ["link type", "link_type"]
  | .status => ["status", "status type", "status_type"]

/-- Column `i` is the column of the attribute. -/
def LAt (lib : Lib) (t : Table) (k : LCol) (i : Nat) : Prop := ∃ h, t.header[i]? = some h ∧ lib.norm h ∈ laccepted k

/-- No attribute has two columns. -/
def LSingle (lib : Lib) (t : Table) : Prop := ∀ k i j, LAt lib t k i → LAt lib t k j → i = j

/-- The text that the row has in the column: the printed number if the column has numbers only; without blanks around
it. -/
def Shown (lib : Lib) (t : Table) (i : Nat) (r : List String) (s : String) : Prop :=
  (Numbers lib t i → s = lib.strip (lib.text (t.rows.map (entry · i)) (entry r i))) ∧
  (¬ Numbers lib t i → s = lib.strip (entry r i))

/-- The text has one arrow, between the two texts. -/
def OneArrow (s a b : String) : Prop :=
  s.toList = a.toList ++ ['-', '-', '>'] ++ b.toList ∧ ¬ ['-', '-', '>'] <:+: a.toList ∧ ¬ ['-', '-', '>'] <:+: b.toList

/-- The row has these texts in the two columns. -/
def Both (lib : Lib) (t : Table) (i j : Nat) (r : List String) (p : String × String) : Prop :=
  ∃ a b, Shown lib t i r a ∧ Shown lib t j r b ∧ p = (lib.strip a, lib.strip b)

/-- The links that the file says: those of the column with arrows; without it, those between two sites, in both
directions; without these columns, those from transmitter to receiver. -/
def SaysLinks (lib : Lib) (t : Table) (L : List (String × String)) : Prop :=
  (∃ i, LAt lib t .pair i ∧ List.Forall₂ (fun r p => ∃ s a b, Shown lib t i r s ∧ OneArrow s a b ∧
      p = (lib.strip a, lib.strip b)) t.rows L) ∨
  ((∀ i, ¬ LAt lib t .pair i) ∧ ∃ i j, LAt lib t .site1 i ∧ LAt lib t .site2 j ∧
    ∃ ps, List.Forall₂ (Both lib t i j) t.rows ps ∧ L = ps.flatMap fun p => [p, (p.2, p.1)]) ∨
  ((∀ i, ¬ LAt lib t .pair i) ∧ (∀ i j, LAt lib t .site1 i → ¬ LAt lib t .site2 j) ∧
    ∃ i j, LAt lib t .tx i ∧ LAt lib t .rx j ∧ List.Forall₂ (Both lib t i j) t.rows L)

end Csv
end Verif
