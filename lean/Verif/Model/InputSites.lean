import Verif.Model.Status

/-!
# Sites and links read from files

`terragraph_planner/common/data_io/input_sites.py`, `data_io/utils.py`, and the link list of
`data_io/csv_library.py`. Reading the files and the choice of devices is not modelled; a site comes with its
device. Each call of `add_site` is taken to get a new object, as `input_sites_loader.py:104-130` does.
-/

namespace Verif
open Topology

/-- A site with the attributes only the loader uses, `site.py:106-109`. `given` is `_name`. -/
structure NamedSite where
  site : Site
  loc : LocationType := .unknown
  given : String := ""
  deriving DecidableEq, Repr

/-- `Site.name`, `site.py:184-187`. -/
def NamedSite.name (x : NamedSite) : String := if x.given = "" then x.site.id else x.given

/-- What `_is_duplicated_site` compares, `input_sites.py:68-76`; `fold` is `str.casefold`. -/
structure SiteKey where
  lat : ℚ
  lon : ℚ
  alt : Option ℚ
  typ : SiteType
  loc : LocationType
  name : String
  sku : String
  deriving DecidableEq, Repr

/-- The key of a site, `input_sites.py:68-76`. -/
def NamedSite.key (fold : String → String) (x : NamedSite) : SiteKey :=
  ⟨x.site.lat, x.site.lon, x.site.alt, x.site.siteType, x.loc, x.name, fold x.site.device.sku⟩

/-- `f"{site.name}_{site.device.device_sku.casefold()}"`, `input_sites.py:107`. -/
def NamedSite.longName (fold : String → String) (x : NamedSite) : String :=
  x.name ++ "_" ++ fold x.site.device.sku

/-- `InputSites`, `input_sites.py:15-26`. The dictionaries of sites hold positions in `list`, since the sites
are objects whose name may change later. -/
structure InputSites where
  list : List NamedSite := []
  skus : Dict String (List String) := []
  byName : Dict String Nat := []
  byId : Dict String Nat := []
  keys : List SiteKey := []
  deriving DecidableEq, Repr

namespace InputSites

variable (fold : String → String)

/-- `get_site_by_name`, `input_sites.py:54-55`. -/
def getByName (S : InputSites) (n : String) : Option NamedSite := (S.byName.get? n).bind (S.list[·]?)

/-- `get_site_by_id`, `input_sites.py:57-58`. -/
def getById (S : InputSites) (i : SiteId) : Option NamedSite := (S.byId.get? i).bind (S.list[·]?)

/-- `_append_device_sku_to_site_name`, `input_sites.py:104-108`, on the site at position `i`. -/
def rename (S : InputSites) (i : Nat) : InputSites :=
  match S.list[i]? with
  | none => S
  | some x =>
    { S with
      byName := (S.byName.del x.name).set (x.longName fold) i
      list := S.list.set i { x with given := x.longName fold } }

/-- `_site_name_to_device_skus[n]`. -/
def skusOf (S : InputSites) (n : String) : List String := (S.skus.get? n).getD []

/-- The renaming of the only other site with this name, `input_sites.py:92-95`. -/
def renameFirst (S : InputSites) (n : String) : Except Err InputSites :=
  if (S.skusOf n).length = 1 then
    match S.byName.get? n with
    | none => .error .keyError
    | some i => .ok (S.rename fold i)
  else .ok S

/-- The rest of `_validate_site_name` and of `add_site`, `input_sites.py:96-102,64-65`. The new site is put
into the list before its name may change, which makes no difference as nothing reads the list in between. -/
def insert (S : InputSites) (x : NamedSite) : InputSites :=
  let sk := fold x.site.device.sku :: S.skusOf x.name
  let S1 := { S with
    skus := S.skus.set x.name sk
    list := S.list ++ [x]
    byId := S.byId.set x.site.id S.list.length }
  if sk.length > 1 then S1.rename fold S.list.length
  else { S1 with byName := S1.byName.set x.name S.list.length }

/-- `add_site`, `input_sites.py:60-102`. After an exception the object is not used any more. -/
def add (S : InputSites) (x : NamedSite) : Except Err InputSites :=
  if S.keys.contains (x.key fold) then .ok S
  else if (S.skusOf x.name).contains (fold x.site.device.sku) then .error .data
  else match { S with keys := x.key fold :: S.keys }.renameFirst fold x.name with
    | .error e => .error e
    | .ok S1 => .ok (S1.insert fold x)

/-- `get_input_sites`, `input_sites_loader.py:104-130`, for the sites constructed from the input. -/
def load : InputSites → List NamedSite → Except Err InputSites
  | S, [] => .ok S
  | S, x :: rest => match S.add fold x with
    | .error e => .error e
    | .ok S1 => load S1 rest

end InputSites

/-- The attributes of a `RawLink`, `structs.py:77-91`, that `_add_link_between_sites` reads. -/
structure RawAttr where
  status : StatusType := .candidate
  isWireless : Bool := true
  confidence : Option ℚ := none
  deriving DecidableEq, Repr

namespace Topology

/-- `Topology(sites=...)`, `topology.py:50-51`. -/
def ofSites : Topology → List Site → Except Err Topology
  | t, [] => .ok t
  | t, s :: rest => match t.addSite s with
    | (_, some e) => .error e
    | (t1, none) => ofSites t1 rest

/-- `_add_link_between_sites`, `data_io/utils.py:98-137`. -/
def addBetween (t : Topology) (tx rx : Site) (raw : Option RawAttr) : Except Err Topology :=
  match t.getLinkBySiteIds tx.id rx.id with
  | .error e => .error e
  | .ok none =>
    if tx.siteType = .cn then .ok t
    else
      match mkLink (some tx) (some rx) none none ((raw.map (·.status)).getD .candidate)
          ((raw.map (·.isWireless)).getD true) with
      | .error e => .error e
      | .ok l =>
        match t.addLink { l with confidence := raw.bind (·.confidence) } with
        | (_, some e) => .error e
        | (t1, none) => .ok t1
  | .ok (some l) =>
    if raw.any (fun r => l.status ≠ r.status) then .error .data else .ok t

/-- Both directions, `data_io/utils.py:263-264`. -/
def addBoth (t : Topology) (a b : Site) (raw : Option RawAttr) : Except Err Topology :=
  match t.addBetween a b raw with
  | .error e => .error e
  | .ok t1 => t1.addBetween b a raw

/-- The loop over the name pairs of a link file, `data_io/utils.py:248-266`. -/
def addPairs (S : InputSites) : Topology → List (String × String) → Except Err Topology
  | t, [] => .ok t
  | t, (n, m) :: rest =>
    match S.getByName n, S.getByName m with
    | some a, some b =>
      match t.addBoth a.site b.site none with
      | .error e => .error e
      | .ok t1 => addPairs S t1 rest
    | _, _ => .error .data

/-- `extract_topology_from_csv_files`, `data_io/utils.py:231-267`, for given sites and pairs. -/
def fromCsv (S : InputSites) (pairs : List (String × String)) : Except Err Topology :=
  match ofSites {} (S.list.map (·.site)) with
  | .error e => .error e
  | .ok t => t.addPairs S pairs

end Topology

/-- A link of a KML file, `structs.py:77-91`: `ends` are the two site names if both are given, `near` is what
`_find_nearest_sites_to_loc` (`data_io/utils.py:61-95`, not modelled) returns for the two ends. -/
structure RawLink where
  attr : RawAttr := {}
  ends : Option (String × String) := none
  near : Except Err (List Site × List Site) := .ok ([], [])

/-- `_add_link_between_sites` for all pairs, `data_io/utils.py:206-208`. -/
def Topology.addProduct (raw : RawAttr) : Topology → List (Site × Site) → Except Err Topology
  | t, [] => .ok t
  | t, (a, b) :: rest => match t.addBoth a b (some raw) with
    | .error e => .error e
    | .ok t1 => addProduct raw t1 rest

/-- The pairs of sites a link of a KML file stands for, `data_io/utils.py:168-208`. -/
def RawLink.pairs (S : InputSites) (r : RawLink) : Except Err (List (Site × Site)) :=
  match r.ends with
  | some (n, m) => match S.getByName n, S.getByName m with
    | some a, some b => .ok [(a.site, b.site)]
    | _, _ => .error .data
  | none => match r.near with
    | .error e => .error e
    | .ok (A, B) => .ok (A.product B)

/-- `map_input_sites_links_from_kml`, `data_io/utils.py:140-208`. -/
def Topology.addRaws (S : InputSites) : Topology → List RawLink → Except Err Topology
  | t, [] => .ok t
  | t, r :: rest =>
    if ¬ r.attr.isWireless then addRaws S t rest
    else match r.pairs S with
      | .error e => .error e
      | .ok ps => match t.addProduct r.attr ps with
        | .error e => .error e
        | .ok t1 => addRaws S t1 rest

/-- `extract_topology_from_kml_file`, `data_io/utils.py:211-228`, for given sites and links, without the demand
sites of the file. -/
def Topology.fromKml (S : InputSites) (raws : List RawLink) : Except Err Topology :=
  match ofSites {} (S.list.map (·.site)) with
  | .error e => .error e
  | .ok t => t.addRaws S raws

/-- The three ways to write a link file, `csv_library.py:240-260`: one column, split at `-->`; two columns
`site1`, `site2`; two columns for transmitter and receiver. -/
inductive LinkRows
  | arrow (rows : List (List String))
  | pair (rows : List (String × String))
  | directed (rows : List (String × String))

/-- `_add_link`, `csv_library.py:221-233`; `strip` is `str.strip`. -/
def addRow (strip : String → String) (L : List (String × String)) (n m : String) :
    Except Err (List (String × String)) :=
  if L.contains (strip n, strip m) then .error .data else .ok (L ++ [(strip n, strip m)])

/-- `_add_link` for a list of pairs. -/
def addRows (strip : String → String) : List (String × String) → List (String × String) →
    Except Err (List (String × String))
  | L, [] => .ok L
  | L, p :: rest => match addRow strip L p.1 p.2 with
    | .error e => .error e
    | .ok L1 => addRows strip L1 rest

/-- The loop over a column with arrows, `csv_library.py:240-248`, for the cells split at the arrows. -/
def arrowRows (strip : String → String) : List (String × String) → List (List String) →
    Except Err (List (String × String))
  | L, [] => .ok L
  | L, [n, m] :: rest => match addRow strip L n m with
    | .error e => .error e
    | .ok L1 => arrowRows strip L1 rest
  | _, _ :: _ => .error .data

/-- The loops of `load_topology_link_csv`, `csv_library.py:240-260`. -/
def loadRows (strip : String → String) : LinkRows → Except Err (List (String × String))
  | .arrow rows => arrowRows strip [] rows
  | .pair rows => addRows strip [] (rows.flatMap fun r => [(r.1, r.2), (r.2, r.1)])
  | .directed rows => addRows strip [] rows

end Verif
