import Verif.Model.TopologyFile
import Verif.Props.Csv3
import Verif.Props.Csv4
import Verif.Props.Kml4
import Verif.Props.InputLinks

/-!
# The candidate topology file
-/

namespace Verif
namespace Csv

/-- A row of `sites.csv` stands for this device only: the one it names, or, without a column for devices, the only one
configured for its type of site. -/
def RowDevice (L : Kml.Loader) (x : Row) (d : Device) : Prop :=
  (x.typ = .cn ↔ d.deviceType = .cn) ∧
  (∀ k, x.sku = some k → L.device k = some d) ∧
  (x.sku = none → ∀ d', d' ∈ L.devices ∧ (x.typ = .cn ↔ d'.deviceType = .cn) ↔ d' = d) ∧
  L.devices.Nodup

/-- The altitude that a row says, if it is a number. -/
def rowAlt (x : Row) : Option ℚ :=
  match x.alt with
  | some (.num q) => some q
  | _ => none

theorem rowAlt_eq (x : Row) : x.alt.bind Cell.value = rowAlt x := by
  unfold rowAlt
  cases h : x.alt with
  | none => rfl
  | some c => cases c <;> rfl

/-- The site that a row says, with this device. -/
def rowSite (L : Kml.Loader) (x : Row) (d : Device) : Site :=
  { id := L.hash x.typ x.lat x.lon (rowAlt x) d.sku
    siteType := x.typ, status := .candidate, lat := x.lat, lon := x.lon, alt := rowAlt x, device := d
    building := none
    subscribers := if x.typ = .cn then (if (x.subs.map fun q => q.floor.toNat).getD 0 = 0 then 1
      else (x.subs.map fun q => q.floor.toNat).getD 0) else 0 }

/-- The row is a site called `n`. -/
def Called (rows : List Row) (n : String) (x : Row) : Prop := x ∈ rows ∧ x.name = some n

theorem construct_one {L : Kml.Loader} {x : Row} {d : Device} (h : RowDevice L x d) (hb : x.building = none) :
    construct L (x.alt.bind Cell.value) x = .ok [⟨rowSite L x d, .unknown, x.name.getD ""⟩] := by
  obtain ⟨ty, hs, hn, nd⟩ := h
  have fits : x.typ = .cn ∧ d.deviceType = .cn ∨ x.typ ≠ .cn ∧ d.deviceType = .dn := by
    revert ty
    cases x.typ <;> cases d.deviceType <;> simp
  have site : ∀ sku, L.site { typ := x.typ, status := .candidate, sku := sku, name := x.name, lat := x.lat, lon := x.lon
                              alt := x.alt.bind Cell.value, loc := .unknown
                              subs := x.subs.map fun q => q.floor.toNat } d =
      .ok ⟨rowSite L x d, .unknown, x.name.getD ""⟩ := by
    intro sku
    unfold Kml.Loader.site
    dsimp only
    rw [if_neg (fun h => absurd h.1 (by simp)), if_neg (fun h => h.2 rfl), if_neg (not_not.2 fits), rowAlt_eq]
    rfl
  unfold construct
  dsimp only
  cases hk : x.sku with
  | some k =>
    dsimp only
    rw [hs k hk]
    dsimp only
    rw [if_neg (by simp [hb]), site]
  | none =>
    dsimp only
    have e : (L.devices.filter fun d => decide (d.deviceType = if x.typ = .cn then .cn else .dn)) = [d] := by
      have mem : ∀ d', d' ∈ (L.devices.filter fun d => decide (d.deviceType = if x.typ = .cn then .cn else .dn)) ↔
          d' = d := by
        intro d'
        rw [List.mem_filter, decide_eq_true_iff, ← hn hk d']
        apply and_congr_right
        intro _
        cases x.typ <;> cases d'.deviceType <;> simp
      have nd' := nd.filter (fun d => decide (d.deviceType = if x.typ = .cn then .cn else .dn))
      exact List.perm_singleton.1 ((List.perm_ext_iff_of_nodup nd' (by simp)).2 (by simpa using mem))
    rw [e, List.mapM_cons, if_neg (by simp [hb]), site]
    rfl

theorem construct_status {L : Kml.Loader} {alt : Option ℚ} {x : Row} {ss : List NamedSite}
    (h : construct L alt x = .ok ss) : ∀ s ∈ ss, s.site.status.inactive = false := by
  have one : ∀ r d s, Kml.Loader.site L r d = .ok s → s.site.status = r.status := by
    intro r d s h
    unfold Kml.Loader.site at h
    split at h
    · cases h
    · split at h
      · cases h
      · split at h
        · cases h
        · cases h; rfl
  have two : ∀ (c : Prop) [Decidable c] r d s, (if c then .error .topology else Kml.Loader.site L r d) = .ok s →
      s.site.status = r.status := by
    intro c _ r d s h
    split at h
    · cases h
    · exact one r d s h
  unfold construct at h
  dsimp only at h
  intro s hs
  split at h
  · split at h
    · cases h
    · split at h
      · cases h
      · rename_i hz
        cases h
        rw [List.mem_singleton] at hs
        subst hs
        rw [two _ _ _ _ hz]
        rfl
  · rw [mapM_iff] at h
    obtain ⟨d, -, hd⟩ := forall₂_mem_right h hs
    rw [two _ _ _ _ hd]
    rfl

end Csv
end Verif

namespace Verif
open Csv

/-- **C169.** A candidate topology given as an archive with `sites.csv` and `links.csv`, where the rows have different
names, are without building and stand for one device each and different ids. It is loaded exactly if every name in the
link list is a name of a row, else a DataException is raised. The sites are those of the rows; the links are, for each
pair of the list, those in both directions that do not start at a CN. There is nothing else. -/
theorem C169_archive_partial (L : Kml.Loader) (lib : Lib) (ogr : String → String) (F : TopologyFile) (ns : List String)
    (kml : ¬ ".kml".toList <:+ F.path.toList) (kmz : ¬ ".kmz".toList <:+ F.path.toList)
    (zip : F.names = some ns) (m1 : "sites.csv" ∈ ns) (m2 : "links.csv" ∈ ns)
    (rows : List Row) (hrows : loadSites lib F.sites false = .ok rows)
    (pairs : List (String × String)) (hpairs : loadLinks lib F.links = .ok pairs)
    (dev : Row → Device) (hdev : ∀ x ∈ rows, RowDevice L x (dev x)) (hb : ∀ x ∈ rows, x.building = none)
    (named : ∀ x ∈ rows, ∃ n, n ≠ "" ∧ x.name = some n) (names : (rows.map (·.name)).Nodup)
    (ids : (rows.map fun x => (rowSite L x (dev x)).id).Nodup) :
    (∀ e, F.load L lib ogr = .error e ↔
      e = .data ∧ ∃ p ∈ pairs, (¬ ∃ x, Called rows p.1 x) ∨ ¬ ∃ x, Called rows p.2 x) ∧
    ∀ t, F.load L lib ogr = .ok t →
      (∀ i s, t.sites.get? i = some s ↔ s.id = i ∧ ∃ x ∈ rows, s = rowSite L x (dev x)) ∧
      t.demandSites = [] ∧ t.sectors = [] ∧
      ∀ k l, t.links.get? k = some l ↔
        l = { tx := k.tx, rx := k.rx, isWireless := true, status := .candidate } ∧
        ∃ n m x y, ((n, m) ∈ pairs ∨ (m, n) ∈ pairs) ∧ Called rows n x ∧ Called rows m y ∧
          (rowSite L x (dev x)).id = k.tx ∧ (rowSite L y (dev y)).id = k.rx ∧ x.typ ≠ .cn := by
  set f : Row → NamedSite := fun x => ⟨rowSite L x (dev x), .unknown, x.name.getD ""⟩ with hf
  have hname : ∀ x ∈ rows, x.name = some (f x).name := by
    intro x hx
    obtain ⟨n, h1, h2⟩ := named x hx
    simp only [hf, NamedSite.name, h2, Option.getD_some, if_neg h1]
  have ndn : ((rows.map f).map (·.name)).Nodup := by
    rw [List.map_map]
    have e : rows.map (·.name) = (rows.map ((·.name) ∘ f)).map some := by
      rw [List.map_map]
      exact List.map_congr_left fun x hx => hname x hx
    rw [e] at names
    exact names.of_map some
  have inj : ∀ a ∈ rows.map f, ∀ b ∈ rows.map f, a.name = b.name → a = b :=
    fun a ha b hb h => List.inj_on_of_nodup_map ndn ha hb h
  have cm : rows.mapM (fun r => construct L (r.alt.bind Cell.value) r) = .ok (rows.map fun x => [f x]) := by
    rw [mapM_iff, List.forall₂_map_right_iff]
    exact List.forall₂_same.2 fun x hx => construct_one (hdev x hx) (hb x hx)
  have fl : (rows.map fun x => [f x]).flatten = rows.map f := by
    generalize rows = R
    induction R with
    | nil => rfl
    | cons a R ih => rw [List.map_cons, List.flatten_cons, ih]; rfl
  have noShared : ∀ x ∈ rows.map f, ¬ Shared L.fold (rows.map f) x := by
    rintro x hx ⟨y, hy, e, ne⟩
    exact ne (by rw [inj y hy x hx e])
  have noClash : ¬ Clash L.fold (rows.map f) := by
    rintro ⟨x, hx, y, hy, e, -, ne⟩
    rw [inj y hy x hx e] at ne
    simp at ne
  have C29 := InputSites.C29_names_partial L.fold (rows.map f)
  obtain ⟨S, hS⟩ : ∃ S, ({} : InputSites).load L.fold (rows.map f) = .ok S := by
    cases h : ({} : InputSites).load L.fold (rows.map f) with
    | error e => exact absurd ((C29.1 e).1 h).2 noClash
    | ok S => exact ⟨S, rfl⟩
  obtain ⟨-, g1, -, -, -, g2⟩ := C29.2 S hS
  obtain ⟨g3, -, g4⟩ := g2 ⟨fun x _ y hy sh => absurd sh (noShared y hy), fun x hx _ _ sh => absurd sh (noShared x hx)⟩
  have kf : keepFirst (·.key L.fold) (rows.map f) = rows.map f := by
    apply Kml.keepFirst_id
    refine List.Nodup.map_on (fun a ha b hb h => inj a ha b hb ?_) ndn.of_map
    simp only [NamedSite.key, SiteKey.mk.injEq] at h
    exact h.2.2.2.2.2.1
  have hl : S.list = rows.map f := by
    rw [kf] at g3
    have : List.Forall₂ Eq (rows.map f) S.list := by
      refine (List.forall₂_iff_get.2 ⟨(List.forall₂_iff_get.1 g3).1, fun i h1 h2 => ?_⟩)
      exact (((List.forall₂_iff_get.1 g3).2 i h1 h2).2 (noShared _ (List.get_mem _ _))).symm
    exact (List.forall₂_eq_eq_eq ▸ this : rows.map f = S.list).symm
  have look : ∀ n y, S.getByName n = some y ↔ ∃ x, Called rows n x ∧ y = f x := by
    intro n y
    constructor
    · intro h
      obtain ⟨h1, h2⟩ := g1 n y h
      rw [hl, List.mem_map] at h1
      obtain ⟨x, hx, rfl⟩ := h1
      exact ⟨x, ⟨hx, by rw [hname x hx, h2]⟩, rfl⟩
    · rintro ⟨x, ⟨hx, hn⟩, rfl⟩
      rw [hname x hx] at hn
      cases hn
      exact g4 (f x) (by rw [hl]; exact List.mem_map_of_mem hx)
  have lookNone : ∀ n, S.getByName n = none ↔ ¬ ∃ x, Called rows n x := by
    intro n
    constructor
    · rintro h ⟨x, hx⟩
      rw [(look n (f x)).2 ⟨x, hx, rfl⟩] at h
      cases h
    · intro h
      cases hy : S.getByName n with
      | none => rfl
      | some y =>
        obtain ⟨x, hx, -⟩ := (look n y).1 hy
        exact absurd ⟨x, hx⟩ h
  have idl : (S.list.map (·.site.id)).Nodup := by
    rw [hl, List.map_map]
    exact ids
  have hload : F.load L lib ogr = Topology.fromCsv S pairs := by
    unfold TopologyFile.load endsIn
    rw [if_neg (by simp only [Bool.or_eq_true, List.isSuffixOf_iff_suffix]; exact fun h => h.elim kml kmz), zip]
    dsimp only
    rw [if_pos (by simp [m1, m2])]
    unfold fromTables
    rw [hrows]
    dsimp only
    rw [cm]
    dsimp only
    rw [fl, hS]
    dsimp only
    cases h : Topology.ofSites {} (S.list.map (·.site)) with
    | error e =>
      dsimp only
      unfold Topology.fromCsv
      rw [h]
    | ok t =>
      dsimp only
      rw [hpairs]
  obtain ⟨r1, r2⟩ := Topology.C30_link_list L.fold (rows.map f) S pairs hS (by
    intro x hx
    obtain ⟨r, -, rfl⟩ := List.mem_map.1 hx
    rfl)
  rw [hload]
  constructor
  · intro e
    rw [r1 e]
    simp only [lookNone]
    constructor
    · rintro (⟨h, -⟩ | ⟨-, h⟩)
      · exact absurd idl h
      · exact h
    · intro h; exact .inr ⟨idl, h⟩
  · intro t ht
    obtain ⟨s1, s2, s3, -, s4⟩ := r2 t ht
    refine ⟨fun i s => ?_, s2, s3, fun k l => ?_⟩
    · rw [s1 i s, hl]
      simp only [List.mem_map]
      constructor
      · rintro ⟨h, y, ⟨x, hx, rfl⟩, rfl⟩; exact ⟨h, x, hx, rfl⟩
      · rintro ⟨h, x, hx, rfl⟩; exact ⟨h, f x, ⟨x, hx, rfl⟩, rfl⟩
    · rw [s4 k l]
      apply and_congr_right
      intro _
      constructor
      · rintro ⟨n, m, a, b, h, ha, hb, h1, h2, h3⟩
        obtain ⟨x, hx, rfl⟩ := (look n a).1 ha
        obtain ⟨y, hy, rfl⟩ := (look m b).1 hb
        exact ⟨n, m, x, y, h, hx, hy, h1, h2, h3⟩
      · rintro ⟨n, m, x, y, h, hx, hy, h1, h2, h3⟩
        exact ⟨n, m, f x, f y, h, (look n _).2 ⟨x, hx, rfl⟩, (look m _).2 ⟨y, hy, rfl⟩, h1, h2, h3⟩

/-- **C169, rejected files.** A KML or KMZ file that cannot be read, another file that is no archive, and an archive
without `sites.csv` or without `links.csv` are rejected, whatever else they contain. -/
theorem C169_rejected (L : Kml.Loader) (lib : Lib) (ogr : String → String) (F : TopologyFile) :
    (".kml".toList <:+ F.path.toList ∨ ".kmz".toList <:+ F.path.toList →
      F.doc = none → ∃ e, F.load L lib ogr = .error e) ∧
    (¬ (".kml".toList <:+ F.path.toList ∨ ".kmz".toList <:+ F.path.toList) →
      (F.names = none → ∃ e, F.load L lib ogr = .error e) ∧
      ∀ ns, F.names = some ns → "sites.csv" ∉ ns ∨ "links.csv" ∉ ns → F.load L lib ogr = .error .data) := by
  have key : (endsIn ".kml" F.path || endsIn ".kmz" F.path) = true ↔
      (".kml".toList <:+ F.path.toList ∨ ".kmz".toList <:+ F.path.toList) := by
    unfold endsIn
    rw [Bool.or_eq_true, List.isSuffixOf_iff_suffix, List.isSuffixOf_iff_suffix]
  constructor
  · intro h hd
    unfold TopologyFile.load
    rw [if_pos (key.2 h), hd]
    exact ⟨_, rfl⟩
  · intro h
    refine ⟨fun hn => ?_, fun ns hn miss => ?_⟩
    · unfold TopologyFile.load
      rw [if_neg (fun c => h (key.1 c)), hn]
      exact ⟨_, rfl⟩
    · unfold TopologyFile.load
      rw [if_neg (fun c => h (key.1 c)), hn]
      dsimp only
      rw [if_neg]
      simp only [Bool.and_eq_true, List.contains_iff_mem, not_and_or]
      exact miss

/-- **C169 violated.** If a row of `sites.csv` without column for the device can be two devices, its site is called
after both of them, and a link list that uses the name of the row is rejected. -/
theorem C169_devices_violation (L : Kml.Loader) (lib : Lib) (ogr : String → String) (F : TopologyFile)
    (kml : ¬ ".kml".toList <:+ F.path.toList) (kmz : ¬ ".kmz".toList <:+ F.path.toList)
    (rows : List Row) (hrows : loadSites lib F.sites false = .ok rows)
    (pairs : List (String × String)) (hpairs : loadLinks lib F.links = .ok pairs)
    (xs : List (List NamedSite)) (hxs : rows.mapM (fun r => construct L (r.alt.bind Cell.value) r) = .ok xs)
    (clear : ClearNames L.fold xs.flatten)
    (x : Row) (n : String) (hn : n ≠ "") (hx : Called rows n x) (hsku : x.sku = none) (hb : x.building = none)
    (d1 d2 : Device) (h1 : d1 ∈ L.devices) (h2 : d2 ∈ L.devices) (ty1 : x.typ = .cn ↔ d1.deviceType = .cn)
    (ty2 : x.typ = .cn ↔ d2.deviceType = .cn) (ne : L.fold d1.sku ≠ L.fold d2.sku)
    (p : String × String) (hp : p ∈ pairs) (use : p.1 = n ∨ p.2 = n) : ∃ e, F.load L lib ogr = .error e := by
  have both : ∀ d ∈ L.devices, (x.typ = .cn ↔ d.deviceType = .cn) →
      ∃ y ∈ xs.flatten, y.name = n ∧ y.site.device = d := by
    intro d hd ty
    obtain ⟨ss, g1, g2, g3⟩ := C143_devices_partial L (x.alt.bind Cell.value) x hsku hb
    have : d ∈ ss.map (·.site.device) := by
      rw [g2, List.mem_filter]
      exact ⟨hd, decide_eq_true ty⟩
    obtain ⟨y, hy, rfl⟩ := List.mem_map.1 this
    obtain ⟨ss', m', e'⟩ := Kml.forall₂_mem_left ((mapM_iff _ _ _).1 hxs) hx.1
    have e' : construct L (x.alt.bind Cell.value) x = .ok ss' := e'
    rw [g1] at e'
    cases e'
    refine ⟨y, List.mem_flatten.2 ⟨ss, m', hy⟩, ?_, rfl⟩
    have := (g3 y hy).2.2.2.2.1
    rw [hx.2, Option.getD_some] at this
    unfold NamedSite.name
    rw [if_neg (by rw [this]; exact hn), this]
  have shared : ∀ z ∈ xs.flatten, z.name = n → Shared L.fold xs.flatten z := by
    intro z _ hz
    obtain ⟨a, ha, na, da⟩ := both d1 h1 ty1
    obtain ⟨b, hb, nb, db⟩ := both d2 h2 ty2
    by_cases h : L.fold d1.sku = L.fold z.site.device.sku
    · exact ⟨b, hb, nb.trans hz.symm, by rw [db, ← h]; exact ne.symm⟩
    · exact ⟨a, ha, na.trans hz.symm, by rw [da]; exact h⟩
  unfold TopologyFile.load endsIn
  rw [if_neg (by simp only [Bool.or_eq_true, List.isSuffixOf_iff_suffix]; exact fun h => h.elim kml kmz)]
  cases F.names with
  | none => exact ⟨_, rfl⟩
  | some ns =>
    dsimp only
    split
    swap
    · exact ⟨_, rfl⟩
    unfold fromTables
    rw [hrows]
    dsimp only
    rw [hxs]
    dsimp only
    cases hS : ({} : InputSites).load L.fold xs.flatten with
    | error e => exact ⟨_, rfl⟩
    | ok S =>
      dsimp only
      obtain ⟨-, g1, -, -, -, g2⟩ := (InputSites.C29_names_partial L.fold xs.flatten).2 S hS
      have none' : S.getByName n = none := by
        cases hy : S.getByName n with
        | none => rfl
        | some y =>
          obtain ⟨m, e⟩ := g1 n y hy
          obtain ⟨z, hz, c1, c2⟩ := forall₂_mem_right (g2 clear).1 m
          have hz := (keepFirst_sub _ xs.flatten).subset hz
          by_cases sh : Shared L.fold xs.flatten z
          · have long : ∀ (u : NamedSite) (v : String), v ≠ "" → { u with given := v }.name = v := by
              intro u v h
              unfold NamedSite.name
              exact if_neg h
            rw [c1 sh, long] at e
            swap
            · intro h0
              have := congrArg String.length h0
              simp at this
            obtain ⟨a, ha, na, -⟩ := both d1 h1 ty1
            exact absurd (na.trans e.symm) (clear.given a ha z hz sh)
          · rw [c2 sh] at e
            exact absurd (shared z hz e) sh
      split
      · exact ⟨_, rfl⟩
      · rw [hpairs]
        dsimp only
        have miss : ∃ p ∈ pairs, S.getByName p.1 = none ∨ S.getByName p.2 = none :=
          ⟨p, hp, use.imp (fun h => by rw [h]; exact none') fun h => by rw [h]; exact none'⟩
        have st : ∀ z ∈ xs.flatten, z.site.status.inactive = false := by
          intro z hz
          obtain ⟨ss, hss, hz⟩ := List.mem_flatten.1 hz
          obtain ⟨r, -, hr⟩ := forall₂_mem_right ((mapM_iff _ _ _).1 hxs) hss
          exact construct_status hr z hz
        by_cases nd : (S.list.map (·.site.id)).Nodup
        · exact ⟨.data, ((Topology.C30_link_list L.fold xs.flatten S pairs hS st).1 .data).2 (.inr ⟨nd, rfl, miss⟩)⟩
        · exact ⟨.topology, ((Topology.C30_link_list L.fold xs.flatten S pairs hS st).1 .topology).2 (.inl ⟨nd, rfl⟩)⟩

/-- **C169 violated.** The kind of a file is told by the end of its name in small letters only: a KML file called
`.KML` is not read. -/
theorem C169_suffix_violation (L : Kml.Loader) (lib : Lib) (ogr : String → String) (d : Kml.Doc) (t : Topology)
    (ok : ∃ r, Kml.load L ogr d = .ok r ∧ r.2.1 = t) :
    ({ path := "candidates.kml", doc := some d } : TopologyFile).load L lib ogr = .ok t ∧
    ({ path := "candidates.KML", doc := some d } : TopologyFile).load L lib ogr = .error .valueError ∧
    ({ path := "candidates.KMZ", doc := some d, names := some ["doc.kml"] } : TopologyFile).load L lib ogr = .error .data := by
  obtain ⟨r, h, rfl⟩ := ok
  unfold TopologyFile.load
  refine ⟨?_, by dsimp only; rw [if_neg (by decide +kernel)], ?_⟩
  · dsimp only
    rw [if_pos (by decide +kernel)]
    rw [h]
    rfl
  · dsimp only
    rw [if_neg (by decide +kernel)]
    exact if_neg (by decide +kernel)

/-- An archive for the examples. -/
def fileDemo : TopologyFile :=
  { path := "candidates.zip", names := some ["sites.csv", "links.csv"]
    sites := ⟨["Name", "Lat", "Lon", "Type"], [["p", "10", "20", "pop"], ["d", "20", "10", "DN"], ["c", "10", "10", "CN"]]⟩
    links := ⟨["Sites"], [["p-->d"], ["c-->d"]]⟩ }

/-- A loader for the examples with one device for each type of site. -/
def fileLoader : Kml.Loader :=
  { devices := [{ sku := "dev" }, { sku := "cli", deviceType := .cn }], fold := id
    hash := fun ty lat _ _ sku => if sku = "more" then (if lat = 20 then "E" else "Q") else if lat = 20 then "D"
      else if ty = .cn then "C" else "P"
    near := fun _ _ => .ok [] }

/-- C169: the rows and links of the archive. -/
example : loadSites demoLib fileDemo.sites false =
      .ok [⟨.pop, none, some "p", 10, 20, none, none, none, none⟩, ⟨.dn, none, some "d", 20, 10, none, none, none, none⟩,
        ⟨.cn, none, some "c", 10, 10, none, none, none, none⟩] ∧
    loadLinks demoLib fileDemo.links = .ok [("p", "d"), ("c", "d")] := by
  decide +kernel

/-- C169: the archive is loaded, with three links. -/
example : (fileDemo.load fileLoader demoLib id).toOption.map (fun t => (t.sites.map (·.1), t.links.map (·.1))) =
    some (["P", "D", "C"], [⟨"P", "D"⟩, ⟨"D", "P"⟩, ⟨"D", "C"⟩]) := by
  decide +kernel

/-- C169: the same archive is rejected if there is another device for DNs. -/
example : fileDemo.load { fileLoader with devices := { sku := "more" } :: fileLoader.devices } demoLib id = .error .data := by
  decide +kernel

/-- C169: each row stands for one device. -/
example : RowDevice fileLoader ⟨.dn, none, some "d", 20, 10, none, none, none, none⟩ { sku := "dev" } := by
  refine ⟨by decide, by simp, fun _ d' => ?_, by decide⟩
  simp only [fileLoader, List.mem_cons, List.not_mem_nil, or_false]
  constructor
  · rintro ⟨rfl | rfl, h⟩
    · rfl
    · exact absurd (h.2 rfl) (by decide)
  · rintro rfl
    exact ⟨.inl rfl, by decide⟩

end Verif
