import Verif.Model.InputSites
import Verif.Model.Prepare
import Verif.Model.Statistics

/-!
# The KML files: writing a topology and reading it again

`common/data_io/topology_serializer.py` (writer), `common/data_io/kml_library.py:31-245` (reader),
`common/data_io/input_sites_loader.py:132-204` (construction of the sites) and `common/data_io/data_key.py`.

The file is modelled as its tree: a document has folders, these have folders, and these have placemarks. Text is kept
as written, so that what the XML parser makes of it can be told. Numbers are kept as numbers: printing and parsing a
float gives the same float. The reader gets the file through OGR's LIBKML driver, which is taken to work as documented:
one layer for each folder in the order of the file, one feature for each placemark directly in it, with the name, the
altitude mode and the `Data` elements as fields; the name of the field for a `Data` element, in small letters, is the
parameter `ogr`.
-/

namespace Verif

/-- `StatusType.to_string`, `enums.py:12-13`, `111-116`. -/
def StatusType.str : StatusType → String
  | .proposed => "PROPOSED"
  | .existing => "EXISTING"
  | .candidate => "CANDIDATE"
  | .unavailable => "UNAVAILABLE"
  | .unreachable => "UNREACHABLE"

/-- `LinkType.to_string`, `enums.py:12-13`, `50-53`. -/
def LinkType.str : LinkType → String
  | .wirelessBackhaul => "WIRELESS_BACKHAUL"
  | .wirelessAccess => "WIRELESS_ACCESS"
  | .ethernet => "ETHERNET"

/-- `LocationType.to_string`, `enums.py:12-13`, `59-62`. -/
def LocationType.str : LocationType → String
  | .streetLevel => "STREET_LEVEL"
  | .rooftop => "ROOFTOP"
  | .unknown => "UNKNOWN"

/-- `PolarityType.to_string`, `enums.py:12-13`, `83-86`. -/
def PolarityType.str : PolarityType → String
  | .odd => "ODD"
  | .even => "EVEN"
  | .unassigned => "UNASSIGNED"

namespace Kml

/-- `str.replace` of one character. -/
def replaceChar (c : Char) (r s : List Char) : List Char := s.flatMap fun x => if x = c then r else [x]

/-- `xml.sax.saxutils.escape`, used in `topology_serializer.py:282` and `data_key.py:75`. -/
def escape (s : String) : String :=
  String.ofList (replaceChar '<' ['&', 'l', 't', ';'] (replaceChar '>' ['&', 'g', 't', ';']
    (replaceChar '&' ['&', 'a', 'm', 'p', ';'] s.toList)))

/-- What an XML parser makes of the text of an element; `none` if the file is rejected. Entities other than the three
that `escape` writes are not modelled. -/
def readChars : List Char → Option (List Char)
  | [] => some []
  | '&' :: 'a' :: 'm' :: 'p' :: ';' :: rest => (readChars rest).map ('&' :: ·)
  | '&' :: 'l' :: 't' :: ';' :: rest => (readChars rest).map ('<' :: ·)
  | '&' :: 'g' :: 't' :: ';' :: rest => (readChars rest).map ('>' :: ·)
  | c :: rest => if c = '&' ∨ c = '<' then none else (readChars rest).map (c :: ·)

/-- The same for strings. -/
def readText (s : String) : Option String := (readChars s.toList).map String.ofList

/-- The value of a `Data` element: a text, the digits of an `int`, or a `float` (which always has a point). -/
inductive Val
  | text (s : String)
  | int (n : Nat)
  | float (q : ℚ)
  deriving DecidableEq, Repr

/-- A `Placemark`: name, style, altitude mode, `Data` elements (or fields of a schema) and coordinates (longitude,
latitude, altitude). -/
structure Mark where
  name : String
  style : String
  mode : String
  data : List (String × Val) := []
  coords : List (ℚ × ℚ × Option ℚ)
  deriving DecidableEq, Repr

/-- A folder of placemarks. -/
structure Sub where
  id : String
  name : String
  vis : Nat := 0
  marks : List Mark
  deriving DecidableEq, Repr

/-- A folder of folders. -/
structure Top where
  id : String
  name : String
  vis : Nat := 0
  subs : List Sub
  deriving DecidableEq, Repr

/-- The document: its name, the ids of its styles, its folders. -/
structure Doc where
  title : String
  styles : List String
  tops : List Top
  deriving DecidableEq, Repr

/-- What the writer reads and the model of a topology lacks: `topology.name`, `site.name`, `site.location_type`,
`link.utilization`, and `round(x, 1)`. -/
structure Info where
  title : String := ""
  name : SiteId → String
  loc : SiteId → LocationType
  util : LinkId → ℚ := fun _ => 0
  round : ℚ → ℚ := id

/-- `COMPONENT_VISIBILITY`, `topology_serializer.py:92-98`. -/
def visibility : StatusType → Nat
  | .proposed => 1
  | .existing => 0
  | .candidate => 0
  | .unavailable => 0
  | .unreachable => 1

/-- `get_site_altitude_mode`, `topology_serializer.py:615-616`. -/
def altMode : Option ℚ → String
  | none => "clampToGround"
  | some _ => "absolute"

/-- The text of a value that may be missing, `data_key.py:67-70`. -/
def orNA : Option ℚ → Val
  | none => .text "N/A"
  | some q => .float q

/-- `_site_markup`, `topology_serializer.py:261-293`, with the keys of `SiteKey.kml_output_keys`, `data_key.py:169-179`. -/
def siteMark (K : Info) (s : Site) : Mark :=
  { name := escape (K.name s.id)
    style := s.siteType.str ++ "_" ++ s.status.str
    mode := altMode s.alt
    data := [("Site Type", .text (escape s.siteType.str)), ("Site Geohash", .text (escape s.hash)),
      ("Altitude", orNA (s.alt.map K.round)), ("Status", .text (escape s.status.str)),
      ("Polarity", .text (escape s.polarity.str)), ("Location Type", .text (escape (K.loc s.id).str)),
      ("Device SKU", .text (escape s.device.sku)), ("Number of Subscribers", .int s.subscribers)]
    coords := [(s.lon, s.lat, s.alt)] }

/-- The colour of busy links: `topology_serializer.py:351-361`; `rev` is the utilization of the reverse link. -/
def busy (u rev : ℚ) (wireless : Bool) : String := if max u rev > 80 && wireless then "_high_util" else ""

/-- The channel shown for a link, `topology_serializer.py:340-347`; `UNASSIGNED_CHANNEL` is -1. -/
def channelVal (c : Int) : Val := if c > -1 then .int c.toNat else .text "UNASSIGNED"

/-- `_link_markup`, `topology_serializer.py:296-378`. Of the keys of `LinkKey.kml_output_keys` those whose values come
from the link budget, the geometry and the flow are left out. -/
def linkMark (t : Topology) (K : Info) (l : Link) : Except Err Mark :=
  match t.sites.get? l.tx, t.sites.get? l.rx with
  | some a, some b =>
    if altMode a.alt ≠ altMode b.alt then .error .topology
    else match t.linkChannelE l with
      | .error e => .error e
      | .ok c => match t.getLinkBySiteIds l.rx l.tx with
        | .error e => .error e
        | .ok r => .ok
          { name := t.linkHash l
            style := "backhaul_link_" ++ l.status.str ++
              busy (K.util l.id) (match r with | some r => K.util r.id | none => 0) l.isWireless
            mode := altMode a.alt
            data := [("Link Type", .text (escape (t.linkType l).str)),
              ("Tx Site Name", .text (escape (K.name l.tx))), ("Rx Site Name", .text (escape (K.name l.rx))),
              ("Status", .text (escape l.status.str)), ("Confidence Level", orNA (l.confidence.map K.round)),
              ("Channel", channelVal c)]
            coords := [(a.lon, a.lat, a.alt), (b.lon, b.lat, b.alt)] }
  | _, _ => .error .keyError

/-- `itertools.groupby`. -/
def groupOn {α κ : Type} [DecidableEq κ] (key : α → κ) : List α → List (κ × List α)
  | [] => []
  | x :: rest => match groupOn key rest with
    | [] => [(key x, [x])]
    | (k, g) :: more => if key x = k then (k, x :: g) :: more else (key x, [x]) :: (k, g) :: more

/-- The value of a site type, `enums.py:101-104`. -/
def siteRank : SiteType → Nat
  | .cn => 1
  | .dn => 2
  | .pop => 3

/-- The value of a link type, `enums.py:50-53`. -/
def linkRank : LinkType → Nat
  | .wirelessBackhaul => 1
  | .wirelessAccess => 2
  | .ethernet => 3

/-- Comparison of pairs of a number and a text. -/
def pairLe (a b : Nat × String) : Prop := a.1 < b.1 ∨ a.1 = b.1 ∧ ¬ b.2 < a.2

instance : DecidableRel pairLe := fun a b => by unfold pairLe; infer_instance

/-- The sites of a status in the order of `_ordered_site_type_key`, `topology_serializer.py:170-171`, `186-193`. -/
def sitesOf (t : Topology) (K : Info) (st : StatusType) : List Site :=
  (t.sites.vals.filter (·.status = st)).insertionSort
    fun a b => pairLe (siteRank a.siteType, K.name a.id) (siteRank b.siteType, K.name b.id)

/-- The links of a status in the order of `_ordered_link_type_key`, `topology_serializer.py:176-177`, `194-201`. -/
def linksOf (t : Topology) (st : StatusType) : List Link :=
  (t.links.vals.filter (·.status = st)).insertionSort
    fun a b => pairLe (linkRank (t.linkType a), t.linkHash a) (linkRank (t.linkType b), t.linkHash b)

/-- The order of the links of a folder, `topology_serializer.py:240-248`. -/
def orderLinks (t : Topology) (K : Info) (g : List Link) : List Link :=
  (groupOn t.linkHash (g.insertionSort fun a b => ¬ t.linkHash b < t.linkHash a)).flatMap fun h =>
    h.2.insertionSort fun a b => K.util b.id ≤ K.util a.id

/-- The folder of the sites of a type, `topology_serializer.py:211-229`. -/
def siteSub (K : Info) (st : StatusType) (g : SiteType × List Site) : Sub :=
  { id := st.str ++ "_" ++ g.1.str ++ "_sites", name := g.1.str ++ " Sites", vis := visibility st
    marks := g.2.map (siteMark K) }

/-- The folder of the links of a type, `topology_serializer.py:231-257`. -/
def linkSub (t : Topology) (K : Info) (st : StatusType) (g : LinkType × List Link) : Except Err Sub :=
  match (orderLinks t K g.2).mapM (linkMark t K) with
  | .error e => .error e
  | .ok ms => .ok
    { id := g.1.str ++ "_links", name := g.1.str ++ " Links", vis := visibility st, marks := ms }

/-- The folder of a status, `topology_serializer.py:185-258`; none if it would be empty. -/
def statusTop (t : Topology) (K : Info) (st : StatusType) : Except Err (List Top) :=
  if (sitesOf t K st).length = 0 ∧ (linksOf t st).length = 0 then .ok []
  else match (groupOn t.linkType (linksOf t st)).mapM (linkSub t K st) with
    | .error e => .error e
    | .ok ls => .ok [
      { id := st.str, name := st.str, vis := visibility st
        subs := (groupOn (·.siteType) (sitesOf t K st)).map (siteSub K st) ++ ls }]

/-- Python's `int` of a number. -/
def truncate (q : ℚ) : Int := if q < 0 then ⌈q⌉ else ⌊q⌋

/-- `demand_values`, `topology_serializer.py:400-402`: a missing demand counts 0. -/
def demandValues (t : Topology) : List ℚ := (t.demandSites.vals.map (·.demand.getD 0)).dedup

/-- `scale`, `topology_serializer.py:407-417`; there are 3 colours. -/
def demandScale (values : List ℚ) (d : DemandSite) : Except Err Int :=
  if values.length > 1 then
    match d.demand with
    | none => .error .attributeError
    | some x =>
      if maxOf values = 0 then .error .zeroDivision
      else if truncate (x / maxOf values * 3) ≥ 3 then .ok 2 else .ok (truncate (x / maxOf values * 3))
  else .ok 0

/-- `_demand_markup`, `topology_serializer.py:448-466`. A place outside of the ranges, which no `GeoLocation` has, is
given an empty name. -/
def demandMark (values : List ℚ) (d : DemandSite) : Except Err Mark :=
  match demandScale values d with
  | .error e => .error e
  | .ok n => .ok
    { name := (geoHash d.lat d.lon).getD "", style := "demand_site_" ++ toString n, mode := ""
      data := [("site_demand", match d.demand with | none => .text "None" | some q => .float q),
        ("site_type", .text "DEMAND"), ("status", .text "PROPOSED")]
      coords := [(d.lon, d.lat, some 0)] }

/-- The lines from a demand site to its sites in use, `topology_serializer.py:425-443`. The sites are looked up in
the topology; the code reads them from the objects. -/
def connMarks (t : Topology) (d : DemandSite) : List Mark :=
  d.connected.filterMap fun s => match t.sites.get? s with
    | none => none
    | some x =>
      if x.status.active then some
        { name := "link_" ++ x.id ++ "_" ++ d.id, style := "demand_links", mode := "clampToGround"
          coords := [(d.lon, d.lat, some 0), (x.lon, x.lat, some 0)] }
      else none

/-- `_add_demands`, `topology_serializer.py:389-445`. -/
def demandTop (t : Topology) : Except Err Top :=
  match t.demandSites.vals.mapM (demandMark (demandValues t)) with
  | .error e => .error e
  | .ok ms => .ok
    { id := "demand", name := "Demand"
      subs := [{ id := "sites_demand", name := "Demand Sites", marks := ms },
        { id := "conns_demand", name := "Demand Connections", marks := t.demandSites.vals.flatMap (connMarks t) }] }

/-- The ids of the styles that `_set_styles` writes, `topology_serializer.py:487-535`. -/
def styleIds : List String :=
  ["POP_UNAVAILABLE", "POP_CANDIDATE", "POP_PROPOSED", "POP_EXISTING",
    "DN_UNAVAILABLE", "DN_UNREACHABLE", "DN_CANDIDATE", "DN_PROPOSED", "DN_EXISTING",
    "CN_UNAVAILABLE", "CN_UNREACHABLE", "CN_CANDIDATE", "CN_PROPOSED", "CN_EXISTING",
    "UNKNOWN", "demand_site_0", "demand_site_1", "demand_site_2", "demand_links"] ++
  (["UNAVAILABLE", "UNREACHABLE", "CANDIDATE", "PROPOSED", "EXISTING"].flatMap fun s =>
    ["backhaul_link_" ++ s, "access_link_" ++ s, "wired_link_" ++ s]) ++
  ["PROPOSED", "EXISTING"].flatMap fun s =>
    ["backhaul_link_" ++ s ++ "_high_util", "access_link_" ++ s ++ "_high_util"]

/-- The statuses in the order of `StatusType`, `enums.py:111-116`. -/
def allStatus : List StatusType := [.proposed, .existing, .candidate, .unavailable, .unreachable]

/-- `write_to_kml_file`, `topology_serializer.py:137-160`. -/
def write (t : Topology) (K : Info) : Except Err Doc :=
  match allStatus.mapM (statusTop t K) with
  | .error e => .error e
  | .ok tops => match demandTop t with
    | .error e => .error e
    | .ok d => .ok
      { title := if K.title = "" then "topology" else K.title, styles := styleIds, tops := tops.flatten ++ [d] }

/-! ## Reading -/

/-- The text of a value as the parser sees it. -/
def Val.decode : Val → Option Val
  | .text s => (readText s).map .text
  | v => some v

/-- A placemark as the parser sees it. -/
def Mark.decode (m : Mark) : Option Mark :=
  match readText m.name, m.data.mapM (fun d => d.2.decode.map fun v => (d.1, v)) with
  | some n, some d => some { m with name := n, data := d }
  | _, _ => none

/-- A layer of OGR: its name and its features. -/
structure Layer where
  name : String
  feats : List Mark
  deriving DecidableEq, Repr

/-- The layer of a folder. -/
def Sub.layer (s : Sub) : Option Layer :=
  match readText s.name, s.marks.mapM Mark.decode with
  | some n, some m => some ⟨n, m⟩
  | _, _ => none

/-- The layers of a folder of folders. -/
def Top.layers (f : Top) : Option (List Layer) :=
  match readText f.name, f.subs.mapM Sub.layer with
  | some n, some ls => some (⟨n, []⟩ :: ls)
  | _, _ => none

/-- The layers of the file; `none` if it is no XML file. -/
def Doc.layers (d : Doc) : Option (List Layer) :=
  match readText d.title, d.tops.mapM Top.layers with
  | some _, some ls => some ls.flatten
  | _, _ => none

/-- `_get_feature_field`, `kml_library.py:31-45`. If several fields match the code takes any of them, the model the
first. -/
def field (ogr : String → String) (m : Mark) (names : List String) : Val :=
  match (("name", Val.text m.name) :: ("altitudemode", Val.text m.mode) :: m.data.map fun d => (ogr d.1, d.2)).find?
      fun f => names.contains f.1 with
  | some f => f.2
  | none => .text ""

/-- The text of a field as Python sees it. A number in a field that is not read as number is not modelled. -/
def Val.str : Val → String
  | .text s => s
  | _ => ""

/-- `int(x) if x.isdecimal() else None`, `kml_library.py:114-119`, `147-149`. A text of digits is always given as
`Val.int`. -/
def Val.decimal : Val → Option Nat
  | .int n => some n
  | _ => none

/-- `possible_input_names` of `SiteKey.DEVICE_SKU`, `data_key.py:102-104`. -/
def skuNames : List String := ["sku", "device_sku", "device sku"]
/-- `possible_input_names` of `SiteKey.NAME`, `data_key.py:96-98`. -/
def nameNames : List String := ["name", "site_name", "site name", "pole_name"]
/-- `possible_input_names` of `SiteKey.ALTITUDE_MODE`, `data_key.py:122-126`. -/
def modeNames : List String := ["altitude mode", "altitude_mode", "altitudemode"]
/-- `possible_input_names` of `SiteKey.LOCATION_TYPE`, `data_key.py:130-132`. -/
def locNames : List String := ["location type", "location_type"]
/-- `possible_input_names` of `SiteKey.BUILDING_ID`, `data_key.py:127-129`. -/
def buildingNames : List String := ["building id", "building_id"]
/-- `possible_input_names` of `SiteKey.NUMBER_OF_SUBSCRIBERS`, `data_key.py:105-121`. -/
def subsNames : List String :=
  ["number_of_demand_points", "number of demand points", "num_demand_points", "number_of_subscribers",
    "number of subscribers", "number of demand sites", "num_demand_sites", "demand_points", "demand points",
    "demand_sites", "demand sites"]
/-- `possible_input_names` of `LinkKey.LINK_TYPE`, `data_key.py:263`. -/
def linkTypeNames : List String := ["link type", "link_type"]
/-- `possible_input_names` of `LinkKey.TX_SITE_NAME`, `data_key.py:208-219`. -/
def txNames : List String := ["tx_site", "tx_site_name", "tx_site_id", "from_site", "from_site_name", "from_site_id"]
/-- `possible_input_names` of `LinkKey.RX_SITE_NAME`, `data_key.py:220-231`. -/
def rxNames : List String := ["rx_site", "rx_site_name", "rx_site_id", "to_site", "to_site_name", "to_site_id"]
/-- `possible_input_names` of `LinkKey.CONFIDENCE_LEVEL`, `data_key.py:258-262`. -/
def confNames : List String := ["confidence level", "confidence_level"]

/-- `RawSite`, `structs.py:58-74`. -/
structure RawSite where
  typ : SiteType
  status : StatusType
  sku : Option String := none
  name : Option String := none
  lat : ℚ
  lon : ℚ
  alt : Option ℚ := none
  height : Option ℚ := none
  loc : LocationType := .streetLevel
  building : Option Nat := none
  subs : Option Nat := none
  deriving DecidableEq, Repr

/-- `RawLink`, `structs.py:77-91`. -/
structure KmlLink where
  typ : LinkType
  status : StatusType
  conf : Option Nat
  tx : String
  rx : String
  txAt : ℚ × ℚ
  rxAt : ℚ × ℚ
  deriving DecidableEq, Repr

/-- `_get_site_altitude_height`, `kml_library.py:48-75`. -/
def altHeight (mode : String) (z : ℚ) : Option ℚ × Option ℚ :=
  if mode = "absolute" then (some z, none)
  else if mode = "relativeToGround" then (none, some z)
  else (none, none)

/-- The location type of a text, `kml_library.py:95-99`; the text is taken as given, without `upper`. -/
def readLoc (s : String) : LocationType :=
  if s = "ROOFTOP" then .rooftop else if s = "UNKNOWN" then .unknown else .streetLevel

/-- `x if len(x) > 0 else None`. -/
def nonEmpty (s : String) : Option String := if s = "" then none else some s

/-- The body of the loop of `extract_sites`, `kml_library.py:88-121`. A feature without coordinates is given none
(the code raises). A missing altitude is read as 0. -/
def readSite (ogr : String → String) (typ : SiteType) (st : StatusType) (m : Mark) : Option RawSite :=
  match m.coords with
  | (lon, lat, z) :: _ =>
    let ah := altHeight (field ogr m modeNames).str (z.getD 0)
    let loc := readLoc (field ogr m locNames).str
    some
      { typ := typ, status := st, sku := nonEmpty (field ogr m skuNames).str, name := nonEmpty (field ogr m nameNames).str
        lat := lat, lon := lon, alt := ah.1, height := ah.2, loc := loc
        building := if loc = .rooftop then (field ogr m buildingNames).decimal else none
        subs := (field ogr m subsNames).decimal }
  | [] => none

/-- The link type of a text, `kml_library.py:136-140`; the text is taken as given, without `upper`. -/
def readLinkType (s : String) : LinkType :=
  if s = "WIRELESS_ACCESS" then .wirelessAccess else if s = "ETHERNET" then .ethernet else .wirelessBackhaul

/-- The body of the loop of `extract_links`, `kml_library.py:134-157`. -/
def readLink (ogr : String → String) (st : StatusType) (m : Mark) : Option KmlLink :=
  match m.coords with
  | (lon1, lat1, _) :: (lon2, lat2, _) :: _ => some
    { typ := readLinkType (field ogr m linkTypeNames).str, status := st
      conf := (field ogr m confNames).decimal
      tx := (field ogr m txNames).str, rx := (field ogr m rxNames).str
      txAt := (lat1, lon1), rxAt := (lat2, lon2) }
  | _ => none

/-- The body of the loop of `extract_demand_sites`, `kml_library.py:168-177`: latitude and longitude. -/
def readDemand (m : Mark) : Option (ℚ × ℚ) :=
  match m.coords with
  | (lon, lat, _) :: _ => some (lat, lon)
  | [] => none

/-- `x.casefold() in layer_name`, for the letters of English. -/
def within (x name : String) : Bool := decide (x.toList.map Char.toLower <:+: name.toList.map Char.toLower)

/-- What has been read so far. -/
structure Read where
  status : StatusType := .candidate
  sites : List RawSite := []
  links : List KmlLink := []
  demand : List (ℚ × ℚ) := []
  deriving DecidableEq, Repr

/-- The body of the loop over the layers, `kml_library.py:214-242`. -/
def readLayer (ogr : String → String) (r : Read) (l : Layer) : Option Read :=
  match allStatus.find? fun s => within s.str l.name with
  | some st => some { r with status := st }
  | none => match [SiteType.cn, .dn, .pop].find? fun s => within s.str l.name with
    | some ty => (l.feats.mapM (readSite ogr ty r.status)).map fun xs => { r with sites := r.sites ++ xs }
    | none => match [LinkType.wirelessBackhaul, .wirelessAccess, .ethernet].find? fun s => within s.str l.name with
      | some _ => (l.feats.mapM (readLink ogr r.status)).map fun xs => { r with links := r.links ++ xs }
      | none =>
        if within "demand site" l.name then
          (l.feats.mapM readDemand).map fun xs => { r with demand := r.demand ++ xs }
        else some r

/-- `extract_raw_data_from_kml_file`, `kml_library.py:192-245`. Any exception becomes a `DataException`. -/
def readDoc (ogr : String → String) (d : Doc) : Except Err Read :=
  match d.layers with
  | none => .error .data
  | some ls => match ls.foldlM (readLayer ogr) {} with
    | none => .error .data
    | some r => .ok r

/-- The devices and the library functions of the loader: `device_list`, `casefold`, `deterministic_hash` of the key
attributes of a site (`site.py:96-102`) and the search for the sites near a place. -/
structure Loader where
  devices : List Device
  fold : String → String
  hash : SiteType → ℚ → ℚ → Option ℚ → String → SiteId
  near : InputSites → ℚ × ℚ → Except Err (List Site)

/-- `sku_to_device`, `input_sites_loader.py:46-54`: the last device of the list counts. -/
def Loader.device (L : Loader) (sku : String) : Option Device :=
  L.devices.reverse.find? fun d => L.fold d.sku = L.fold sku

/-- `Site.__init__`, `site.py:72-113`, and `number_of_subscribers`, `site.py:193-199`. -/
def Loader.site (L : Loader) (r : RawSite) (d : Device) : Except Err NamedSite :=
  if r.loc = .rooftop ∧ r.building = none then .error .topology
  else if r.loc ≠ .rooftop ∧ r.building ≠ none then .error .topology
  else if ¬ (r.typ = .cn ∧ d.deviceType = .cn ∨ r.typ ≠ .cn ∧ d.deviceType = .dn) then .error .topology
  else .ok
    { site := { id := L.hash r.typ r.lat r.lon r.alt d.sku, siteType := r.typ, status := r.status, lat := r.lat
                lon := r.lon, alt := r.alt, device := d, building := r.building.map Int.ofNat
                subscribers := if r.typ = .cn then (if r.subs.getD 0 = 0 then 1 else r.subs.getD 0) else 0 }
      loc := r.loc, given := r.name.getD "" }

/-- `_construct_sites`, `input_sites_loader.py:132-204`, without `infer_input_site_location`, as for a candidate
topology (`topology_optimization.py:109-113`). -/
def Loader.sites (L : Loader) (r : RawSite) : Except Err (List NamedSite) :=
  match r.sku with
  | some sku => match L.device sku with
    | none => .error .data
    | some d => match L.site r d with
      | .error e => .error e
      | .ok s => .ok [s]
  | none => (L.devices.filter fun d => decide (d.deviceType = if r.typ = .cn then .cn else .dn)).mapM (L.site r)

/-- What `map_input_sites_links_from_kml` makes of a link, `data_io/utils.py:169-208`. The names are never `None`. -/
def Loader.raw (L : Loader) (S : InputSites) (k : KmlLink) : RawLink :=
  { attr := { status := k.status, isWireless := k.typ.isWireless, confidence := k.conf.map fun n => (n : ℚ) }
    ends := some (k.tx, k.rx)
    near := match L.near S k.txAt with
      | .error e => .error e
      | .ok A => match L.near S k.rxAt with
        | .error e => .error e
        | .ok B => .ok (A, B) }

/-- `extract_topology_from_kml_file`, `data_io/utils.py:211-228`, for a candidate topology: the topology, with the sites
by name, and the demand sites. The sites are constructed and added one after the other; here all are constructed
first, so that only which of several exceptions is raised may differ. -/
def load (L : Loader) (ogr : String → String) (d : Doc) : Except Err (InputSites × Topology × List (ℚ × ℚ)) :=
  match readDoc ogr d with
  | .error e => .error e
  | .ok r => match r.sites.mapM L.sites with
    | .error e => .error e
    | .ok xs => match ({} : InputSites).load L.fold xs.flatten with
      | .error e => .error e
      | .ok S => match Topology.fromKml S (r.links.map (L.raw S)) with
        | .error e => .error e
        | .ok t => .ok (S, t, r.demand)

end Kml
end Verif
