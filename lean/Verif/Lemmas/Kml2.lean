import Verif.Props.Kml2

/-! # Lemmas about reading a written KML file -/

namespace Verif
namespace Kml
open Topology Spec

theorem mapM_opt {α β : Type} (f : α → Option β) (L : List α) (M : List β)
    (h : List.Forall₂ (fun a b => f a = some b) L M) : L.mapM f = some M := by
  induction h with
  | nil => rfl
  | cons hab _ ih => simp [List.mapM_cons, hab, ih]

theorem mapM_opt_map {α β : Type} (f : α → Option β) (g : α → β) (L : List α) (h : ∀ a ∈ L, f a = some (g a)) :
    L.mapM f = some (L.map g) := by
  induction L with
  | nil => rfl
  | cons a L ih =>
    simp [List.mapM_cons, h a (by simp), ih fun x hx => h x (by simp [hx])]

/-! ## Plain texts -/

theorem Plain.append {a b : String} (ha : Plain a) (hb : Plain b) : Plain (a ++ b) := by
  intro c hc
  rw [String.toList_append, List.mem_append] at hc
  exact hc.elim (ha c) (hb c)

theorem plain_geoHash (lat lon : ℚ) : Plain ((geoHash lat lon).getD "") := by
  have seed : ∀ i, geoSeed i ≠ '&' ∧ geoSeed i ≠ '<' := by
    intro i
    unfold geoSeed
    by_cases h : i < 32
    · interval_cases i <;> decide
    · have : "0123456789abcdefghijklmnopqrstuv".toList.length = 32 := by decide
      rw [List.getD_eq_getElem?_getD, List.getElem?_eq_none (by omega)]
      decide
  unfold geoHash
  split
  · split
    · intro c hc
      rw [Option.getD_some, String.toList_ofList] at hc
      obtain ⟨i, -, rfl⟩ := List.mem_map.1 hc
      exact seed i
    · intro c hc; simp at hc
  · intro c hc; simp at hc

theorem plain_lit {s : String} (h : s.toList.all fun c => c != '&' && c != '<') : Plain s := by
  intro c hc
  have := List.all_eq_true.1 h c hc
  simpa using this

theorem plain_linkHash (t : Topology) (l : Link) : Plain (t.linkHash l) := by
  have e : ∀ i, Plain (t.endHash i) := by
    intro i
    unfold endHash
    split
    · rename_i x _
      refine ((plain_geoHash _ _).append (plain_lit (by decide))).append ?_
      cases x.siteType <;> exact plain_lit (by decide)
    · exact plain_lit (by decide)
  unfold linkHash
  dsimp only
  split
  · exact ((e _).append (plain_lit (by decide))).append (e _)
  · exact ((e _).append (plain_lit (by decide))).append (e _)

/-! ## The placemarks as the parser sees them -/

theorem decode_orNA (x : Option ℚ) : (orNA x).decode = some (orNA x) := by
  cases x with
  | none => decide
  | some q => rfl

theorem decode_escape (s : String) : (Val.text (escape s)).decode = some (.text s) := by
  change (readText (escape s)).map Val.text = _
  rw [readText_escape]
  rfl

theorem decode_int (n : Nat) : (Val.int n).decode = some (.int n) := rfl

theorem decode_channel (c : Int) : (channelVal c).decode = some (channelVal c) := by
  unfold channelVal
  split
  · rfl
  · decide

/-- A site as the parser sees it. -/
def seenSite (K : Info) (s : Site) : Mark :=
  { siteMark K s with
    name := K.name s.id
    data := [("Site Type", .text s.siteType.str), ("Site Geohash", .text s.hash),
      ("Altitude", orNA (s.alt.map K.round)), ("Status", .text s.status.str),
      ("Polarity", .text s.polarity.str), ("Location Type", .text (K.loc s.id).str),
      ("Device SKU", .text s.device.sku), ("Number of Subscribers", .int s.subscribers)] }

theorem decode_site (K : Info) (s : Site) : (siteMark K s).decode = some (seenSite K s) := by
  have e : (siteMark K s).data.mapM (fun d => d.2.decode.map fun v => (d.1, v)) = some (seenSite K s).data := by
    refine mapM_opt _ _ _ ?_
    unfold siteMark seenSite
    dsimp only
    refine .cons ?_ (.cons ?_ (.cons ?_ (.cons ?_ (.cons ?_ (.cons ?_ (.cons ?_ (.cons ?_ .nil)))))))
    all_goals simp only [decode_escape, decode_orNA, decode_int, Option.map_some]
  have n : readText (siteMark K s).name = some (K.name s.id) := readText_escape _
  unfold Mark.decode
  rw [n, e]
  rfl

/-- A link as the parser sees it. -/
def seenLink (t : Topology) (K : Info) (l : Link) (m : Mark) (c : Int) : Mark :=
  { m with
    data := [("Link Type", .text (t.linkType l).str),
      ("Tx Site Name", .text (K.name l.tx)), ("Rx Site Name", .text (K.name l.rx)),
      ("Status", .text l.status.str), ("Confidence Level", orNA (l.confidence.map K.round)),
      ("Channel", channelVal c)] }

theorem decode_link {t : Topology} {K : Info} {l : Link} {m : Mark} (h : linkMark t K l = .ok m) :
    ∃ c, m.decode = some (seenLink t K l m c) := by
  unfold linkMark at h
  cases ha : t.sites.get? l.tx with
  | none => rw [ha] at h; cases h
  | some a =>
    cases hb : t.sites.get? l.rx with
    | none => rw [ha, hb] at h; cases h
    | some b =>
      rw [ha, hb] at h
      dsimp only at h
      split at h
      · cases h
      cases hc : t.linkChannelE l with
      | error e => rw [hc] at h; cases h
      | ok c =>
        rw [hc] at h
        dsimp only at h
        cases hr : t.getLinkBySiteIds l.rx l.tx with
        | error e => rw [hr] at h; cases h
        | ok r =>
          rw [hr] at h
          rw [Except.ok.injEq] at h
          refine ⟨c, ?_⟩
          have e : m.data.mapM (fun d => d.2.decode.map fun v => (d.1, v)) = some (seenLink t K l m c).data := by
            refine mapM_opt _ _ _ ?_
            rw [← h]
            unfold seenLink
            dsimp only
            refine .cons ?_ (.cons ?_ (.cons ?_ (.cons ?_ (.cons ?_ (.cons ?_ .nil)))))
            all_goals simp only [decode_escape, decode_orNA, decode_channel, Option.map_some]
          have n : readText m.name = some m.name := by
            rw [← h]
            exact readText_plain _ (plain_linkHash t l)
          unfold Mark.decode
          rw [n, e]
          rfl

theorem decode_demand {vs : List ℚ} {d : DemandSite} {m : Mark} (h : demandMark vs d = .ok m) :
    m.decode = some m := by
  unfold demandMark at h
  split at h
  · cases h
  · rw [Except.ok.injEq] at h
    have e : m.data.mapM (fun d => d.2.decode.map fun v => (d.1, v)) = some m.data := by
      refine mapM_opt _ _ _ ?_
      rw [← h]
      dsimp only
      refine .cons ?_ (.cons ?_ (.cons ?_ .nil))
      · cases d.demand with
        | none => decide
        | some q => rfl
      · decide
      · decide
    have n : readText m.name = some m.name := by
      rw [← h]
      exact readText_plain _ (plain_geoHash _ _)
    unfold Mark.decode
    rw [n, e]

/-! ## Reading a folder -/

/-- A site as it should be read. -/
def rawOf (K : Info) (s : Site) : RawSite :=
  { typ := s.siteType, status := s.status, sku := nonEmpty s.device.sku, name := nonEmpty (K.name s.id)
    lat := s.lat, lon := s.lon, alt := s.alt, loc := K.loc s.id, subs := some s.subscribers }

/-- The link is read as it should be. -/
structure SeenLink (t : Topology) (K : Info) (l : Link) (k : KmlLink) : Prop where
  typ : k.typ = t.linkType l
  status : k.status = l.status
  conf : k.conf = none
  tx : k.tx = K.name l.tx
  rx : k.rx = K.name l.rx

theorem readSite_seen {ogr : String → String} (ho : ∀ n ∈ dataNames, ogr n = launder n) (K : Info) (s : Site) :
    readSite ogr s.siteType s.status (seenSite K s) = some (rawOf K s) := by
  have o : ∀ n, n ∈ dataNames → ogr n = launder n := ho
  have fs : ∀ names, field ogr (seenSite K s) names =
      (match ([("name", Val.text (K.name s.id)), ("altitudemode", .text (altMode s.alt)),
        ("site_type", .text s.siteType.str), ("site_geohash", .text s.hash),
        ("altitude", orNA (s.alt.map K.round)), ("status", .text s.status.str),
        ("polarity", .text s.polarity.str), ("location_type", .text (K.loc s.id).str),
        ("device_sku", .text s.device.sku), ("number_of_subscribers", .int s.subscribers)] : List (String × Val)).find?
          fun f => names.contains f.1 with
        | some f => f.2
        | none => .text "") := by
    intro names
    unfold field seenSite siteMark
    simp only [List.map_cons, List.map_nil]
    rw [o "Site Type" (by decide), o "Site Geohash" (by decide), o "Altitude" (by decide), o "Status" (by decide),
      o "Polarity" (by decide), o "Location Type" (by decide), o "Device SKU" (by decide),
      o "Number of Subscribers" (by decide)]
    have l1 : launder "Site Type" = "site_type" := by decide
    have l2 : launder "Site Geohash" = "site_geohash" := by decide
    have l3 : launder "Altitude" = "altitude" := by decide
    have l4 : launder "Status" = "status" := by decide
    have l5 : launder "Polarity" = "polarity" := by decide
    have l6 : launder "Location Type" = "location_type" := by decide
    have l7 : launder "Device SKU" = "device_sku" := by decide
    have l8 : launder "Number of Subscribers" = "number_of_subscribers" := by decide
    rw [l1, l2, l3, l4, l5, l6, l7, l8]
    rfl
  have f1 : field ogr (seenSite K s) modeNames = .text (altMode s.alt) := by rw [fs]; rfl
  have f2 : field ogr (seenSite K s) locNames = .text (K.loc s.id).str := by rw [fs]; rfl
  have f3 : field ogr (seenSite K s) skuNames = .text s.device.sku := by rw [fs]; rfl
  have f4 : field ogr (seenSite K s) nameNames = .text (K.name s.id) := by rw [fs]; rfl
  have f5 : field ogr (seenSite K s) buildingNames = .text "" := by rw [fs]; rfl
  have f6 : field ogr (seenSite K s) subsNames = .int s.subscribers := by rw [fs]; rfl
  have c : (seenSite K s).coords = [(s.lon, s.lat, s.alt)] := rfl
  unfold readSite
  rw [c]
  dsimp only
  rw [f1, f2, f3, f4, f5, f6]
  unfold rawOf
  have al : altHeight (Val.text (altMode s.alt)).str (s.alt.getD 0) = (s.alt, none) := by
    cases s.alt with
    | none => unfold altMode altHeight Val.str; rw [if_neg (by decide), if_neg (by decide)]
    | some q => unfold altMode altHeight Val.str; rw [if_pos rfl]; rfl
  have lo : readLoc (Val.text (K.loc s.id).str).str = K.loc s.id := by
    cases K.loc s.id <;> decide
  rw [al, lo]
  simp [Val.str, Val.decimal]

theorem readLink_seen {ogr : String → String} (ho : ∀ n ∈ dataNames, ogr n = launder n) {t : Topology} {K : Info}
    {l : Link} {m : Mark} (h : linkMark t K l = .ok m) (c : Int) :
    ∃ k, readLink ogr l.status (seenLink t K l m c) = some k ∧ SeenLink t K l k := by
  obtain ⟨a, b, -, -, hc, -⟩ := (linkMark_shows h).coords
  have fs : ∀ names, field ogr (seenLink t K l m c) names =
      (match ([("name", Val.text m.name), ("altitudemode", .text m.mode),
        ("link_type", .text (t.linkType l).str), ("tx_site_name", .text (K.name l.tx)),
        ("rx_site_name", .text (K.name l.rx)), ("status", .text l.status.str),
        ("confidence_level", orNA (l.confidence.map K.round)), ("channel", channelVal c)] : List (String × Val)).find?
          fun f => names.contains f.1 with
        | some f => f.2
        | none => .text "") := by
    intro names
    unfold field seenLink
    simp only [List.map_cons, List.map_nil]
    rw [ho "Link Type" (by decide), ho "Tx Site Name" (by decide), ho "Rx Site Name" (by decide),
      ho "Status" (by decide), ho "Confidence Level" (by decide), ho "Channel" (by decide)]
    have l1 : launder "Link Type" = "link_type" := by decide
    have l2 : launder "Tx Site Name" = "tx_site_name" := by decide
    have l3 : launder "Rx Site Name" = "rx_site_name" := by decide
    have l4 : launder "Status" = "status" := by decide
    have l5 : launder "Confidence Level" = "confidence_level" := by decide
    have l6 : launder "Channel" = "channel" := by decide
    rw [l1, l2, l3, l4, l5, l6]
    rfl
  have f1 : field ogr (seenLink t K l m c) linkTypeNames = .text (t.linkType l).str := by rw [fs]; rfl
  have f2 : field ogr (seenLink t K l m c) txNames = .text (K.name l.tx) := by rw [fs]; rfl
  have f3 : field ogr (seenLink t K l m c) rxNames = .text (K.name l.rx) := by rw [fs]; rfl
  have f4 : field ogr (seenLink t K l m c) confNames = orNA (l.confidence.map K.round) := by rw [fs]; rfl
  have hc' : (seenLink t K l m c).coords = [(a.lon, a.lat, a.alt), (b.lon, b.lat, b.alt)] := hc
  unfold readLink
  rw [hc']
  dsimp only
  rw [f1, f2, f3, f4]
  refine ⟨_, rfl, ?_, rfl, ?_, rfl, rfl⟩
  · dsimp only
    cases t.linkType l <;> decide
  · dsimp only
    cases l.confidence.map K.round <;> rfl

/-! ## Layers -/

theorem readLayer_status (ogr : String → String) (r : Read) (st : StatusType) (ms : List Mark) :
    readLayer ogr r ⟨st.str, ms⟩ = some { r with status := st } := by
  unfold readLayer
  have e : (allStatus.find? fun s => within s.str st.str) = some st := by cases st <;> decide +kernel
  dsimp only
  rw [e]

theorem readLayer_sites (ogr : String → String) (r : Read) (ty : SiteType) (ms : List Mark) :
    readLayer ogr r ⟨ty.str ++ " Sites", ms⟩ =
      (ms.mapM (readSite ogr ty r.status)).map fun xs => { r with sites := r.sites ++ xs } := by
  unfold readLayer
  have e1 : (allStatus.find? fun s => within s.str (ty.str ++ " Sites")) = none := by cases ty <;> decide +kernel
  have e2 : ([SiteType.cn, .dn, .pop].find? fun s => within s.str (ty.str ++ " Sites")) = some ty := by
    cases ty <;> decide +kernel
  dsimp only
  rw [e1]
  dsimp only
  rw [e2]

theorem readLayer_links (ogr : String → String) (r : Read) (ty : LinkType) (ms : List Mark) :
    readLayer ogr r ⟨ty.str ++ " Links", ms⟩ =
      (ms.mapM (readLink ogr r.status)).map fun xs => { r with links := r.links ++ xs } := by
  unfold readLayer
  have e1 : (allStatus.find? fun s => within s.str (ty.str ++ " Links")) = none := by cases ty <;> decide +kernel
  have e2 : ([SiteType.cn, .dn, .pop].find? fun s => within s.str (ty.str ++ " Links")) = none := by
    cases ty <;> decide +kernel
  have e3 : ([LinkType.wirelessBackhaul, .wirelessAccess, .ethernet].find? fun s =>
      within s.str (ty.str ++ " Links")) = some ty := by
    cases ty <;> decide +kernel
  dsimp only
  rw [e1]
  dsimp only
  rw [e2]
  dsimp only
  rw [e3]

theorem readLayer_demand (ogr : String → String) (r : Read) (ms : List Mark) :
    readLayer ogr r ⟨"Demand Sites", ms⟩ = (ms.mapM readDemand).map fun xs => { r with demand := r.demand ++ xs } := by
  unfold readLayer
  have e1 : (allStatus.find? fun s => within s.str "Demand Sites") = none := by decide +kernel
  have e2 : ([SiteType.cn, .dn, .pop].find? fun s => within s.str "Demand Sites") = none := by decide +kernel
  have e3 : ([LinkType.wirelessBackhaul, .wirelessAccess, .ethernet].find? fun s =>
      within s.str "Demand Sites") = none := by decide +kernel
  dsimp only
  rw [e1]
  dsimp only
  rw [e2]
  dsimp only
  rw [e3]
  dsimp only
  rw [if_pos (by decide +kernel)]

theorem readLayer_other (ogr : String → String) (r : Read) (ms : List Mark) (n : String)
    (h : n = "Demand" ∨ n = "Demand Connections") : readLayer ogr r ⟨n, ms⟩ = some r := by
  unfold readLayer
  have e1 : (allStatus.find? fun s => within s.str n) = none := by rcases h with rfl | rfl <;> decide +kernel
  have e2 : ([SiteType.cn, .dn, .pop].find? fun s => within s.str n) = none := by rcases h with rfl | rfl <;> decide +kernel
  have e3 : ([LinkType.wirelessBackhaul, .wirelessAccess, .ethernet].find? fun s =>
      within s.str n) = none := by rcases h with rfl | rfl <;> decide +kernel
  dsimp only
  rw [e1]
  dsimp only
  rw [e2]
  dsimp only
  rw [e3]
  dsimp only
  rw [if_neg (by rcases h with rfl | rfl <;> decide +kernel)]

/-- Reading the folders adds these sites, links and demand sites. -/
def Adds (ogr : String → String) (fs : List Top) (S : List RawSite) (ks : List KmlLink) (D : List (ℚ × ℚ)) : Prop :=
  ∃ ls, fs.mapM Top.layers = some ls ∧ ∀ r : Read, ∃ st, ls.flatten.foldlM (readLayer ogr) r =
    some { status := st, sites := r.sites ++ S, links := r.links ++ ks, demand := r.demand ++ D }

theorem Adds.nil (ogr : String → String) : Adds ogr [] [] [] [] :=
  ⟨[], rfl, fun r => ⟨r.status, by simp⟩⟩

theorem Adds.append {ogr : String → String} {fs fs' : List Top} {S S' : List RawSite} {ks ks' : List KmlLink}
    {D D' : List (ℚ × ℚ)} (h : Adds ogr fs S ks D) (h' : Adds ogr fs' S' ks' D') :
    Adds ogr (fs ++ fs') (S ++ S') (ks ++ ks') (D ++ D') := by
  obtain ⟨ls, h1, h2⟩ := h
  obtain ⟨ls', h1', h2'⟩ := h'
  refine ⟨ls ++ ls', by simp [List.mapM_append, h1, h1'], fun r => ?_⟩
  obtain ⟨st, h2⟩ := h2 r
  obtain ⟨st', h2'⟩ := h2' { status := st, sites := r.sites ++ S, links := r.links ++ ks, demand := r.demand ++ D }
  refine ⟨st', ?_⟩
  rw [List.flatten_append, List.foldlM_append, h2]
  simpa using h2'

theorem readText_name {n : String} (h : n.toList.all fun c => c != '&' && c != '<') : readText n = some n :=
  readText_plain _ (plain_lit h)

theorem siteSub_layer (K : Info) (st : StatusType) (g : SiteType × List Site) :
    (siteSub K st g).layer = some ⟨g.1.str ++ " Sites", g.2.map (seenSite K)⟩ := by
  unfold Sub.layer
  have n : readText (siteSub K st g).name = some (g.1.str ++ " Sites") := by
    refine readText_name ?_
    unfold siteSub
    dsimp only
    cases g.1 <;> decide
  have e : (siteSub K st g).marks.mapM Mark.decode = some (g.2.map (seenSite K)) := by
    refine mapM_opt _ _ _ ?_
    unfold siteSub
    dsimp only
    induction g.2 with
    | nil => exact .nil
    | cons x xs ih => exact .cons (decode_site K x) ih
  rw [n, e]

theorem sites_fold {ogr : String → String} (ho : ∀ n ∈ dataNames, ogr n = launder n) (K : Info) (st : StatusType)
    (gs : List (SiteType × List Site)) (hk : ∀ g ∈ gs, ∀ x ∈ g.2, x.siteType = g.1 ∧ x.status = st) (r : Read)
    (hr : r.status = st) :
    (gs.map fun g => (⟨g.1.str ++ " Sites", g.2.map (seenSite K)⟩ : Layer)).foldlM (readLayer ogr) r =
      some { r with sites := r.sites ++ (gs.flatMap (·.2)).map (rawOf K) } := by
  induction gs generalizing r with
  | nil => simp
  | cons g gs ih =>
    have e : (g.2.map (seenSite K)).mapM (readSite ogr g.1 r.status) = some (g.2.map (rawOf K)) := by
      refine mapM_opt _ _ _ ?_
      have hg := hk g (by simp)
      generalize g.2 = xs at hg
      induction xs with
      | nil => exact .nil
      | cons x xs ih =>
        refine .cons ?_ (ih fun y hy => hg y (by simp [hy]))
        obtain ⟨h1, h2⟩ := hg x (by simp)
        rw [← h1, hr, ← h2]
        exact readSite_seen ho K x
    rw [List.map_cons, List.foldlM_cons, readLayer_sites, e]
    have := ih (fun g' hg' => hk g' (by simp [hg'])) { r with sites := r.sites ++ g.2.map (rawOf K) } hr
    simpa using this

theorem links_fold {ogr : String → String} (ho : ∀ n ∈ dataNames, ogr n = launder n) (t : Topology) (K : Info)
    (st : StatusType) (gs : List (LinkType × List Link)) (subs : List Sub)
    (hs : List.Forall₂ (fun g s => linkSub t K st g = .ok s) gs subs) (hk : ∀ g ∈ gs, ∀ l ∈ g.2, l.status = st) :
    ∃ ls ks, subs.mapM Sub.layer = some ls ∧
      List.Forall₂ (SeenLink t K) (gs.flatMap fun g => orderLinks t K g.2) ks ∧
      ∀ r : Read, r.status = st → ls.foldlM (readLayer ogr) r = some { r with links := r.links ++ ks } := by
  induction hs with
  | nil => exact ⟨[], [], rfl, .nil, fun r _ => by simp⟩
  | @cons g s gs subs hgs _ ih =>
    obtain ⟨ls, ks, h1, h2, h3⟩ := ih fun g' hg' => hk g' (by simp [hg'])
    obtain ⟨hn, hm⟩ := linkSub_ok hgs
    have hl : ∀ l ∈ orderLinks t K g.2, l.status = st := fun l hl =>
      hk g (by simp) l ((orderLinks_perm t K g.2).mem_iff.1 hl)
    have one : ∃ ms ks', s.marks.mapM Mark.decode = some ms ∧ ms.mapM (readLink ogr st) = some ks' ∧
        List.Forall₂ (SeenLink t K) (orderLinks t K g.2) ks' := by
      generalize orderLinks t K g.2 = xs at hm hl
      generalize s.marks = marks at hm
      induction hm with
      | nil => exact ⟨[], [], rfl, rfl, .nil⟩
      | @cons l m xs marks hlm _ ih =>
        obtain ⟨ms, ks', i1, i2, i3⟩ := ih fun y hy => hl y (by simp [hy])
        obtain ⟨c, hc⟩ := decode_link hlm
        obtain ⟨k, hk1, hk2⟩ := readLink_seen ho hlm c
        rw [hl l (by simp)] at hk1
        exact ⟨seenLink t K l m c :: ms, k :: ks', by simp [List.mapM_cons, hc, i1], by simp [List.mapM_cons, hk1, i2], .cons hk2 i3⟩
    obtain ⟨ms, ks', o1, o2, o3⟩ := one
    have n : readText s.name = some (g.1.str ++ " Links") := by
      rw [hn]
      refine readText_name ?_
      cases g.1 <;> decide
    refine ⟨⟨g.1.str ++ " Links", ms⟩ :: ls, ks' ++ ks, ?_, ?_, fun r hr => ?_⟩
    · have : s.layer = some ⟨g.1.str ++ " Links", ms⟩ := by unfold Sub.layer; rw [n, o1]
      simp [List.mapM_cons, this, h1]
    · rw [List.flatMap_cons]
      exact List.rel_append o3 h2
    · rw [List.foldlM_cons, readLayer_links, hr, o2]
      have := h3 { r with links := r.links ++ ks' } hr
      simpa [hr] using this

/-- Reading the folder of a status. -/
theorem adds_status {ogr : String → String} (ho : ∀ n ∈ dataNames, ogr n = launder n) {t : Topology} {K : Info}
    {st : StatusType} {fs : List Top} (h : statusTop t K st = .ok fs) :
    ∃ xs ks, xs.Perm (linksOf t st) ∧ List.Forall₂ (SeenLink t K) xs ks ∧
      Adds ogr fs ((sitesOf t K st).map (rawOf K)) ks [] := by
  rcases statusTop_ok h with ⟨rfl, h1, h2⟩ | ⟨f, ls, rfl, -, hn, -, hsub, hl⟩
  · refine ⟨[], [], by rw [h2], .nil, ?_⟩
    rw [h1]
    exact Adds.nil ogr
  · have hks : ∀ g ∈ groupOn (·.siteType) (sitesOf t K st), ∀ x ∈ g.2, x.siteType = g.1 ∧ x.status = st := by
      intro g hg x hx
      refine ⟨(groupOn_key _ _ g hg).2 x hx, ?_⟩
      have := (sitesOf_perm t K st).mem_iff.1 (groupOn_mem _ _ hg hx)
      simpa using (List.mem_filter.1 this).2
    have hkl : ∀ g ∈ groupOn t.linkType (linksOf t st), ∀ l ∈ g.2, l.status = st := by
      intro g hg x hx
      have := (linksOf_perm t st).mem_iff.1 (groupOn_mem _ _ hg hx)
      simpa using (List.mem_filter.1 this).2
    obtain ⟨ls', ks, h1, h2, h3⟩ := links_fold ho t K st _ _ hl hkl
    refine ⟨_, ks, ?_, h2, ?_⟩
    · have p : ∀ gs : List (LinkType × List Link),
          (gs.flatMap fun g => orderLinks t K g.2).Perm (gs.flatMap (·.2)) := by
        intro gs
        induction gs with
        | nil => exact List.Perm.refl _
        | cons a gs ih =>
          rw [List.flatMap_cons, List.flatMap_cons]
          exact (orderLinks_perm t K _).append ih
      refine (p _).trans ?_
      rw [groupOn_flat]
    · set gs := groupOn (·.siteType) (sitesOf t K st) with hgs
      refine ⟨[⟨st.str, []⟩ :: ((gs.map fun g => (⟨g.1.str ++ " Sites", g.2.map (seenSite K)⟩ : Layer)) ++ ls')], ?_,
        fun r => ⟨st, ?_⟩⟩
      · have n : readText f.name = some st.str := by
          rw [hn]
          refine readText_name ?_
          cases st <;> decide
        have e : f.subs.mapM Sub.layer =
            some ((gs.map fun g => (⟨g.1.str ++ " Sites", g.2.map (seenSite K)⟩ : Layer)) ++ ls') := by
          rw [hsub, List.mapM_append, h1, List.mapM_map]
          have : gs.mapM (Sub.layer ∘ siteSub K st) =
              some (gs.map fun g => (⟨g.1.str ++ " Sites", g.2.map (seenSite K)⟩ : Layer)) :=
            mapM_opt_map _ _ _ fun g _ => siteSub_layer K st g
          rw [this]
          rfl
        have : f.layers = some (⟨st.str, []⟩ ::
            ((gs.map fun g => (⟨g.1.str ++ " Sites", g.2.map (seenSite K)⟩ : Layer)) ++ ls')) := by
          unfold Top.layers
          rw [n, e]
        simp [List.mapM_cons, this]
      · rw [List.flatten_cons, List.flatten_nil, List.append_nil, List.foldlM_cons, readLayer_status]
        have s1 := sites_fold ho K st gs hks { r with status := st } rfl
        have s2 := h3 { r with status := st, sites := r.sites ++ (gs.flatMap (·.2)).map (rawOf K) } rfl
        have fl : gs.flatMap (·.2) = sitesOf t K st := groupOn_flat _ _
        rw [fl] at s1 s2
        simp only [Option.bind_eq_bind, Option.bind_some, List.foldlM_append, s1, s2, List.append_nil]

theorem connMarks_decode {t : Topology} (inv : Inv t) (hp : ∀ s ∈ t.sites.vals, Plain s.id)
    (d : DemandSite) (hd : Plain d.id) : (connMarks t d).mapM Mark.decode = some (connMarks t d) := by
  have all : ∀ m ∈ connMarks t d, m.decode = some m := by
    intro m hm
    obtain ⟨i, -, hx⟩ := List.mem_filterMap.1 hm
    cases hg : t.sites.get? i with
    | none => rw [hg] at hx; cases hx
    | some x =>
      rw [hg] at hx
      dsimp only at hx
      split at hx
      · rw [Option.some.injEq] at hx
        have hi : x ∈ t.sites.vals := List.mem_map.2 ⟨_, (Dict.mem_iff_get? inv.nd_sites _ _).2 hg, rfl⟩
        have n : readText m.name = some m.name := by
          rw [← hx]
          exact readText_plain _ ((((plain_lit (by decide)).append (hp x hi)).append (plain_lit (by decide))).append hd)
        have e : m.data.mapM (fun d => d.2.decode.map fun v => (d.1, v)) = some m.data := by
          rw [← hx]; rfl
        unfold Mark.decode
        rw [n, e]
      · cases hx
  have := mapM_opt_map Mark.decode id _ all
  simpa using this

theorem adds_demand (ogr : String → String) {t : Topology} (inv : Inv t) (hp : ∀ s ∈ t.sites.vals, Plain s.id)
    (hd : ∀ d ∈ t.demandSites.vals, Plain d.id) {f : Top} (h : demandTop t = .ok f) :
    Adds ogr [f] [] [] (t.demandSites.vals.map fun d => (d.lat, d.lon)) := by
  obtain ⟨ms, hm, rfl⟩ := demandTop_parts h
  have e1 : ms.mapM Mark.decode = some ms := by
    have := mapM_opt_map Mark.decode id ms fun m hmm => by
      obtain ⟨d, -, hdm⟩ := forall₂_mem_right hm hmm
      exact decode_demand hdm
    simpa using this
  have e2 : ms.mapM readDemand = some (t.demandSites.vals.map fun d => (d.lat, d.lon)) := by
    refine mapM_opt _ _ _ ?_
    clear e1 h
    generalize t.demandSites.vals = ds at hm
    induction hm with
    | nil => exact .nil
    | @cons d m ds ms hdm _ ih =>
      refine .cons ?_ ?_
      · unfold demandMark at hdm
        split at hdm
        · cases hdm
        · rw [Except.ok.injEq] at hdm
          rw [← hdm]
          rfl
      · exact ih
  have e3 : (t.demandSites.vals.flatMap (connMarks t)).mapM Mark.decode =
      some (t.demandSites.vals.flatMap (connMarks t)) := by
    clear e1 e2 h hm
    generalize t.demandSites.vals = ds at hd
    induction ds with
    | nil => rfl
    | cons d ds ih =>
      rw [List.flatMap_cons, List.mapM_append, connMarks_decode inv hp d (hd d (by simp)),
        ih fun x hx => hd x (by simp [hx])]
      rfl
  refine ⟨[[⟨"Demand", []⟩, ⟨"Demand Sites", ms⟩, ⟨"Demand Connections", t.demandSites.vals.flatMap (connMarks t)⟩]], ?_,
    fun r => ⟨r.status, ?_⟩⟩
  · have n1 : readText "Demand" = some "Demand" := by decide
    have n2 : readText "Demand Sites" = some "Demand Sites" := by decide
    have n3 : readText "Demand Connections" = some "Demand Connections" := by decide
    simp [List.mapM_cons, Top.layers, Sub.layer, n1, n2, n3, e1, e3]
  · simp only [List.flatten_cons, List.flatten_nil, List.append_nil, List.foldlM_cons, List.foldlM_nil]
    rw [readLayer_other _ _ _ _ (.inl rfl)]
    simp only [Option.bind_eq_bind, Option.bind_some]
    rw [readLayer_demand, e2]
    simp only [Option.bind_some, Option.map_some]
    rw [readLayer_other _ _ _ _ (.inr rfl)]
    simp

end Kml
end Verif
