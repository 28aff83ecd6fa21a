import Verif.Props.InputLinks
import Mathlib.Data.List.ProdSigma

/-! # Link files and links of KML files (C30, C104) -/

namespace Verif

/-- A cell with an arrow between two names. -/
def twoNames : List String → Option (String × String)
  | [n, m] => some (n, m)
  | _ => none

/-- The pairs a link file lists as they stand, if it is well formed. -/
def LinkRows.cells : LinkRows → Option (List (String × String))
  | .arrow rows => rows.mapM twoNames
  | .pair rows => some (rows.flatMap fun r => [(r.1, r.2), (r.2, r.1)])
  | .directed rows => some rows

/-- The same with the names stripped. -/
def LinkRows.listed (strip : String → String) (rows : LinkRows) : Option (List (String × String)) :=
  rows.cells.map fun L => L.map fun r => (strip r.1, strip r.2)

theorem addRow_spec (strip : String → String) (L : List (String × String)) (n m : String) :
    addRow strip L n m = if (strip n, strip m) ∈ L then .error .data else .ok (L ++ [(strip n, strip m)]) := by
  unfold addRow
  by_cases c : (strip n, strip m) ∈ L <;> simp [c]

theorem addRows_spec (strip : String → String) (ps A : List (String × String)) (hA : A.Nodup) :
    addRows strip A ps = if (A ++ ps.map fun r => (strip r.1, strip r.2)).Nodup
      then .ok (A ++ ps.map fun r => (strip r.1, strip r.2)) else .error .data := by
  induction ps generalizing A with
  | nil => simp [addRows, hA]
  | cons p rest ih =>
    have e : A ++ (p :: rest).map (fun r => (strip r.1, strip r.2)) =
        (A ++ [(strip p.1, strip p.2)]) ++ rest.map fun r => (strip r.1, strip r.2) := by simp
    rw [addRows, addRow_spec, e]
    by_cases c : (strip p.1, strip p.2) ∈ A
    · rw [if_pos c, if_neg]
      intro h
      have h := h.sublist (List.sublist_append_left _ _)
      rw [List.nodup_append] at h
      exact h.2.2 _ c _ (by simp) rfl
    · rw [if_neg c]
      refine ih _ ?_
      rw [List.nodup_append]
      refine ⟨hA, by simp, ?_⟩
      intro a ha b hb
      simp only [List.mem_singleton] at hb
      subst hb
      rintro rfl
      exact c ha

theorem arrowRows_spec (strip : String → String) (rows : List (List String)) (A : List (String × String)) :
    (rows.mapM twoNames = none ∧ arrowRows strip A rows = .error .data) ∨
    ∃ ps, rows.mapM twoNames = some ps ∧ arrowRows strip A rows = addRows strip A ps := by
  induction rows generalizing A with
  | nil => right; exact ⟨[], rfl, rfl⟩
  | cons r rest ih =>
    rw [List.mapM_cons]
    rcases r with _ | ⟨n, _ | ⟨m, _ | ⟨o, r⟩⟩⟩
    · left; exact ⟨rfl, rfl⟩
    · left; exact ⟨rfl, rfl⟩
    · simp only [twoNames, Option.pure_def, Option.bind_eq_bind, Option.bind_some, arrowRows]
      rcases ih A with ⟨h, -⟩ | ⟨ps, h, -⟩
      · left
        refine ⟨by rw [h]; rfl, ?_⟩
        rw [addRow_spec]
        by_cases c : (strip n, strip m) ∈ A
        · rw [if_pos c]
        · rw [if_neg c]
          rcases ih (A ++ [(strip n, strip m)]) with ⟨-, e⟩ | ⟨ps, h', -⟩
          · exact e
          · rw [h] at h'; simp at h'
      · right
        refine ⟨(n, m) :: ps, by rw [h]; rfl, ?_⟩
        rw [addRows]
        cases addRow strip A n m with
        | error e => rfl
        | ok L1 =>
          rcases ih L1 with ⟨h', -⟩ | ⟨ps', h', e⟩
          · rw [h] at h'; simp at h'
          · rw [h] at h'
            simp only [Option.some.injEq] at h'
            subst h'
            exact e
    · left; exact ⟨rfl, rfl⟩

/-- C30. A link file is read as the list of its pairs, names stripped, if no pair occurs twice; otherwise, or if a
row does not consist of two names, a DataException is raised. With columns for two sites each row counts in both
directions. -/
theorem C30_link_file (strip : String → String) (rows : LinkRows) :
    (∀ L, loadRows strip rows = .ok L ↔ rows.listed strip = some L ∧ L.Nodup) ∧
    ∀ e, loadRows strip rows = .error e ↔ e = .data ∧ ∀ L, rows.listed strip = some L → ¬ L.Nodup := by
  -- it suffices to know the value
  suffices h : (∃ L, loadRows strip rows = .ok L ∧ rows.listed strip = some L ∧ L.Nodup) ∨
      (loadRows strip rows = .error .data ∧ ∀ L, rows.listed strip = some L → ¬ L.Nodup) by
    rcases h with ⟨L, e, hl, nd⟩ | ⟨e, hn⟩
    · refine ⟨fun L' => ?_, fun x => ?_⟩
      · rw [e, hl]
        simp only [Except.ok.injEq, Option.some.injEq]
        constructor
        · rintro rfl; exact ⟨rfl, nd⟩
        · exact fun h => h.1
      · rw [e, hl]
        simp [nd]
    · refine ⟨fun L' => ?_, fun x => ?_⟩
      · rw [e]
        constructor
        · intro h; simp at h
        · rintro ⟨h1, h2⟩; exact absurd h2 (hn L' h1)
      · rw [e]
        simp only [Except.error.injEq]
        exact ⟨fun h => ⟨h.symm, hn⟩, fun h => h.1.symm⟩
  have fin : ∀ ps, addRows strip [] ps = if (ps.map fun r => (strip r.1, strip r.2)).Nodup
      then .ok (ps.map fun r => (strip r.1, strip r.2)) else .error .data := by
    intro ps
    have := addRows_spec strip ps [] List.nodup_nil
    simpa using this
  have done : ∀ ps, loadRows strip rows = addRows strip [] ps →
      rows.listed strip = some (ps.map fun r => (strip r.1, strip r.2)) →
      (∃ L, loadRows strip rows = .ok L ∧ rows.listed strip = some L ∧ L.Nodup) ∨
      (loadRows strip rows = .error .data ∧ ∀ L, rows.listed strip = some L → ¬ L.Nodup) := by
    intro ps h1 h2
    rw [h1, h2, fin]
    split
    · rename_i c; left; exact ⟨_, rfl, rfl, c⟩
    · rename_i c
      right
      refine ⟨rfl, ?_⟩
      intro L hL
      simp only [Option.some.injEq] at hL
      subst hL
      exact c
  cases rows with
  | arrow rows =>
    rcases arrowRows_spec strip rows [] with ⟨h1, h2⟩ | ⟨ps, h1, h2⟩
    · right
      refine ⟨h2, fun L hL => ?_⟩
      simp [LinkRows.listed, LinkRows.cells, h1] at hL
    · exact done ps h2 (by simp [LinkRows.listed, LinkRows.cells, h1])
  | pair rows => exact done _ rfl rfl
  | directed rows => exact done _ rfl rfl

/-- A pair of sites in both orders is refused where each row counts in both directions, and accepted elsewhere. -/
example : loadRows id (.pair [("a", "b"), ("b", "a")]) = .error .data ∧
    loadRows id (.directed [("a", "b"), ("b", "a")]) = .ok [("a", "b"), ("b", "a")] ∧
    loadRows id (.arrow [["a", "b"], ["c"]]) = .error .data := by decide +kernel

namespace Topology

/-- The raw link asks for the link `k`: one of its pairs of sites, in either order, from a site that is not a CN. -/
def Wants (S : InputSites) (r : RawLink) (k : LinkId) : Prop :=
  r.attr.isWireless = true ∧ ∃ ps, r.pairs S = .ok ps ∧ ∃ a b : Site, ((a, b) ∈ ps ∨ (b, a) ∈ ps) ∧
    a.id = k.tx ∧ b.id = k.rx ∧ a.siteType ≠ .cn

/-- The requests of one raw link. -/
def rawReqs (S : InputSites) (r : RawLink) : List Req :=
  if r.attr.isWireless then
    match r.pairs S with
    | .ok ps => ps.flatMap fun p => [⟨p.1, p.2, some r.attr⟩, ⟨p.2, p.1, some r.attr⟩]
    | .error _ => []
  else []

theorem addProduct_eq (raw : RawAttr) (ps : List (Site × Site)) (t : Topology) :
    t.addProduct raw ps = t.addList (ps.flatMap fun p => [⟨p.1, p.2, some raw⟩, ⟨p.2, p.1, some raw⟩]) := by
  induction ps generalizing t with
  | nil => rfl
  | cons p r ih =>
    obtain ⟨a, b⟩ := p
    rw [List.flatMap_cons, addList_append, ← addBoth_eq]
    simp only [addProduct]
    cases t.addBoth a b (some raw) with
    | error e => rfl
    | ok t1 => exact ih t1

/-- The raw link names known sites, or sites were found near its ends. -/
def Found (S : InputSites) (r : RawLink) : Prop := r.attr.isWireless = true → ∃ ps, r.pairs S = .ok ps

theorem addRaws_eq (S : InputSites) (raws : List RawLink) (t : Topology) (h : ∀ r ∈ raws, Found S r) :
    t.addRaws S raws = t.addList (raws.flatMap (rawReqs S)) := by
  induction raws generalizing t with
  | nil => rfl
  | cons r rest ih =>
    have hr := h r (List.mem_cons_self ..)
    have ih := fun t => ih t fun p hp => h p (List.mem_cons_of_mem _ hp)
    rw [List.flatMap_cons, addList_append]
    by_cases c : r.attr.isWireless = true
    · obtain ⟨ps, hps⟩ := hr c
      simp only [addRaws, rawReqs, c, hps, not_true_eq_false, if_true, if_false]
      rw [addProduct_eq]
      cases t.addList _ with
      | error e => rfl
      | ok t1 => exact ih t1
    · simp only [addRaws, rawReqs, c, not_false_eq_true, if_true, if_false]
      exact ih t

theorem addRaws_found (S : InputSites) (raws : List RawLink) (t t' : Topology) (h : t.addRaws S raws = .ok t') :
    ∀ r ∈ raws, Found S r := by
  induction raws generalizing t with
  | nil => simp
  | cons r rest ih =>
    simp only [addRaws] at h
    by_cases c : r.attr.isWireless = true
    · simp only [c, not_true_eq_false, if_false] at h
      cases hp : r.pairs S with
      | error e => rw [hp] at h; simp at h
      | ok ps =>
        rw [hp] at h
        dsimp only at h
        cases h1 : t.addProduct r.attr ps with
        | error e => rw [h1] at h; simp at h
        | ok t1 =>
          rw [h1] at h
          intro q hq
          rcases List.mem_cons.1 hq with rfl | hq
          · exact fun _ => ⟨ps, hp⟩
          · exact ih t1 h q hq
    · simp only [c, not_false_eq_true, if_true] at h
      intro q hq
      rcases List.mem_cons.1 hq with rfl | hq
      · exact fun d => absurd d c
      · exact ih t h q hq

theorem mem_rawReqs {S : InputSites} {r : RawLink} {q : Req} : q ∈ rawReqs S r ↔
    r.attr.isWireless = true ∧ ∃ ps, r.pairs S = .ok ps ∧ ((q.tx, q.rx) ∈ ps ∨ (q.rx, q.tx) ∈ ps) ∧
      q.raw = some r.attr := by
  unfold rawReqs
  by_cases c : r.attr.isWireless = true
  · simp only [c, if_true, true_and]
    cases hp : r.pairs S with
    | error e => simp
    | ok ps =>
      simp only [List.mem_flatMap, List.mem_cons, List.not_mem_nil, or_false, Except.ok.injEq, exists_eq_left']
      obtain ⟨u, v, w⟩ := q
      constructor
      · rintro ⟨⟨a, b⟩, hab, h | h⟩
        · simp only [Req.mk.injEq] at h
          obtain ⟨rfl, rfl, rfl⟩ := h
          exact ⟨Or.inl hab, rfl⟩
        · simp only [Req.mk.injEq] at h
          obtain ⟨rfl, rfl, rfl⟩ := h
          exact ⟨Or.inr hab, rfl⟩
      · rintro ⟨h | h, rfl⟩
        · exact ⟨_, h, Or.inl rfl⟩
        · exact ⟨_, h, Or.inr rfl⟩
  · simp [c]

/-- The first request belongs to the first raw link that asks for the link. -/
theorem firstReq_raws (S : InputSites) (raws : List RawLink) (k : LinkId) :
    (firstReq (raws.flatMap (rawReqs S)) k = none ∧ ∀ r ∈ raws, ¬ Wants S r k) ∨
    ∃ q pre r post, firstReq (raws.flatMap (rawReqs S)) k = some q ∧ raws = pre ++ r :: post ∧ Wants S r k ∧
      (∀ p ∈ pre, ¬ Wants S p k) ∧ q.raw = some r.attr ∧ q.key = k := by
  have wants : ∀ r : RawLink, Wants S r k ↔ ∃ q, firstReq (rawReqs S r) k = some q := by
    intro r
    constructor
    · rintro ⟨hw, ps, hp, a, b, hm, h1, h2, hc⟩
      have hq : (⟨a, b, some r.attr⟩ : Req) ∈ rawReqs S r := mem_rawReqs.2 ⟨hw, ps, hp, hm, rfl⟩
      cases hf : firstReq (rawReqs S r) k with
      | some q => exact ⟨q, rfl⟩
      | none =>
        have := List.find?_eq_none.1 hf _ hq
        simp only [Req.key, h1, h2, decide_eq_true_eq] at this
        exact absurd (by simpa using this) hc
    · rintro ⟨q, hq⟩
      obtain ⟨hm, rfl, hc⟩ := firstReq_some hq
      obtain ⟨hw, ps, hp, h, -⟩ := mem_rawReqs.1 hm
      exact ⟨hw, ps, hp, q.tx, q.rx, h, rfl, rfl, hc⟩
  induction raws with
  | nil => left; simp [firstReq]
  | cons r rest ih =>
    have e : firstReq ((r :: rest).flatMap (rawReqs S)) k =
        (firstReq (rawReqs S r) k).or (firstReq (rest.flatMap (rawReqs S)) k) := by
      unfold firstReq
      rw [List.flatMap_cons, List.find?_append]
    by_cases c : Wants S r k
    · right
      obtain ⟨q, hq⟩ := (wants r).1 c
      obtain ⟨hm, hk, -⟩ := firstReq_some hq
      exact ⟨q, [], r, rest, by rw [e, hq]; rfl, rfl, c, by simp, (mem_rawReqs.1 hm).2.choose_spec.2.2, hk⟩
    · have hn : firstReq (rawReqs S r) k = none := by
        cases hf : firstReq (rawReqs S r) k with
        | none => rfl
        | some q => exact absurd ((wants r).2 ⟨q, hf⟩) c
      rw [e, hn, Option.none_or]
      rcases ih with ⟨h1, h2⟩ | ⟨q, pre, r', post, h1, h2, h3, h4, h5, h6⟩
      · left
        refine ⟨h1, fun p hp => ?_⟩
        rcases List.mem_cons.1 hp with rfl | hp
        · exact c
        · exact h2 p hp
      · right
        refine ⟨q, r :: pre, r', post, h1, by rw [h2]; rfl, h3, ?_, h5, h6⟩
        intro p hp
        rcases List.mem_cons.1 hp with rfl | hp
        · exact c
        · exact h4 p hp

/-- C104. Links of a KML file that are not Ethernet links: the file is read if each names known sites, or has sites
near its ends, if links for the same sites have the same status, and if that status suits the sites; otherwise an
exception is raised. The result has exactly the links asked for, between the two sites in both directions but not
out of a CN, each with the attributes of the first link of the file that asks for it. Ethernet links of the file
are ignored. -/
theorem C104_kml_links (fold : String → String) (xs : List NamedSite) (S : InputSites) (raws : List RawLink)
    (hS : ({} : InputSites).load fold xs = .ok S) (nd : (S.list.map (·.site.id)).Nodup)
    (near : ∀ r ∈ raws, ∀ A B, r.near = .ok (A, B) → ∀ s ∈ A ++ B, ∃ y ∈ S.list, y.site = s) :
    ((∃ t, fromKml S raws = .ok t) ↔
      (∀ r ∈ raws, Found S r) ∧
      (∀ k, ∀ r ∈ raws, ∀ p ∈ raws, Wants S r k → Wants S p k → r.attr.status = p.attr.status) ∧
      ∀ k, ∀ r ∈ raws, Wants S r k → ∀ a ∈ S.list, ∀ b ∈ S.list, a.site.id = k.tx → b.site.id = k.rx →
        linkCompat a.site.status b.site.status r.attr.status = true) ∧
    ∀ t, fromKml S raws = .ok t →
      (∀ i s, t.sites.get? i = some s ↔ s.id = i ∧ ∃ y ∈ S.list, y.site = s) ∧
      ∀ k l, t.links.get? k = some l ↔ ∃ pre r post, raws = pre ++ r :: post ∧ Wants S r k ∧
        (∀ p ∈ pre, ¬ Wants S p k) ∧
        l = { tx := k.tx, rx := k.rx, isWireless := true, status := r.attr.status, confidence := r.attr.confidence } := by
  obtain ⟨snd, -⟩ := loaded hS
  have hids : S.list.map (·.site.id) = (S.list.map (·.site)).map (·.id) := by simp [List.map_map, Function.comp_def]
  rw [hids] at nd
  have e : ofSites {} (S.list.map (·.site)) = .ok (bare (S.list.map (·.site))) := by
    rcases ofSites_cases (S.list.map (·.site)) with ⟨-, e⟩ | ⟨n, -⟩
    · exact e
    · exact absurd nd n
  unfold fromKml
  rw [e]
  dsimp only
  set t0 := bare (S.list.map (·.site)) with ht0
  have ndk : t0.sites.NodupKeys := by simpa [ht0, bare, Dict.NodupKeys, Dict.keys, Function.comp_def] using nd
  have sites : ∀ i s, t0.sites.get? i = some s ↔ s.id = i ∧ ∃ y ∈ S.list, y.site = s := by
    intro i s
    rw [← Dict.mem_iff_get? ndk]
    simp only [ht0, bare, List.map_map, List.mem_map, Function.comp_def, Prod.mk.injEq]
    constructor
    · rintro ⟨y, hy, h1, rfl⟩; exact ⟨h1, y, hy, rfl⟩
    · rintro ⟨h1, y, hy, rfl⟩; exact ⟨y, hy, h1, rfl⟩
  -- the sites of a pair are loaded ones
  have inl : ∀ r ∈ raws, ∀ ps, r.pairs S = .ok ps → ∀ a b, (a, b) ∈ ps →
      (∃ y ∈ S.list, y.site = a) ∧ ∃ y ∈ S.list, y.site = b := by
    intro r hr ps hp a b hab
    unfold RawLink.pairs at hp
    cases he : r.ends with
    | some nm =>
      obtain ⟨n, m⟩ := nm
      rw [he] at hp
      dsimp only at hp
      cases h1 : S.getByName n with
      | none => rw [h1] at hp; simp at hp
      | some u =>
        cases h2 : S.getByName m with
        | none => rw [h1, h2] at hp; simp at hp
        | some v =>
          rw [h1, h2] at hp
          simp only [Except.ok.injEq] at hp
          subst hp
          simp only [List.mem_singleton, Prod.mk.injEq] at hab
          exact ⟨⟨u, (snd n u h1).1, hab.1.symm⟩, ⟨v, (snd m v h2).1, hab.2.symm⟩⟩
    | none =>
      rw [he] at hp
      dsimp only at hp
      cases hn : r.near with
      | error x => rw [hn] at hp; simp at hp
      | ok AB =>
        obtain ⟨A, B⟩ := AB
        rw [hn] at hp
        simp only [Except.ok.injEq] at hp
        subst hp
        have := List.pair_mem_product.1 hab
        exact ⟨near r hr A B hn a (List.mem_append_left _ this.1), near r hr A B hn b (List.mem_append_right _ this.2)⟩
  set Q := raws.flatMap (rawReqs S) with hQ
  have memQ : ∀ q ∈ Q, ∃ r ∈ raws, q ∈ rawReqs S r := fun q hq => by simpa [hQ] using hq
  have hs : ∀ q ∈ Q, t0.sites.get? q.tx.id = some q.tx ∧ t0.sites.get? q.rx.id = some q.rx := by
    intro q hq
    obtain ⟨r, hr, hq⟩ := memQ q hq
    obtain ⟨-, ps, hp, hm, -⟩ := mem_rawReqs.1 hq
    rcases hm with hm | hm
    · obtain ⟨h1, h2⟩ := inl r hr ps hp _ _ hm
      exact ⟨(sites _ _).2 ⟨rfl, h1⟩, (sites _ _).2 ⟨rfl, h2⟩⟩
    · obtain ⟨h1, h2⟩ := inl r hr ps hp _ _ hm
      exact ⟨(sites _ _).2 ⟨rfl, h2⟩, (sites _ _).2 ⟨rfl, h1⟩⟩
  have out : ∀ k, outcome t0 Q k = (firstReq Q k).map fun q => requestedLink q.tx q.rx q.raw := by
    intro k; simp [outcome, ht0, bare]
  have noLink : ∀ k, t0.links.get? k = none := by intro k; simp [ht0, bare]
  -- a request that asks for `k`
  have wants_of : ∀ q ∈ Q, q.tx.siteType ≠ .cn → ∃ r ∈ raws, Wants S r q.key ∧ q.raw = some r.attr := by
    intro q hq hc
    obtain ⟨r, hr, hq⟩ := memQ q hq
    obtain ⟨hw, ps, hp, hm, hraw⟩ := mem_rawReqs.1 hq
    exact ⟨r, hr, ⟨hw, ps, hp, q.tx, q.rx, hm, rfl, rfl, hc⟩, hraw⟩
  have wants_first : ∀ k, ∀ r ∈ raws, Wants S r k → ∃ q, firstReq Q k = some q := by
    intro k r hr hw
    rcases firstReq_raws S raws k with ⟨-, h⟩ | ⟨q, pre, r', post, h, -⟩
    · exact absurd hw (h r hr)
    · exact ⟨q, h⟩
  have meets : Meets t0 Q ↔
      (∀ k, ∀ r ∈ raws, ∀ p ∈ raws, Wants S r k → Wants S p k → r.attr.status = p.attr.status) ∧
      ∀ k, ∀ r ∈ raws, Wants S r k → ∀ a ∈ S.list, ∀ b ∈ S.list, a.site.id = k.tx → b.site.id = k.rx →
        linkCompat a.site.status b.site.status r.attr.status = true := by
    constructor
    · intro m
      have stat : ∀ k, ∀ r ∈ raws, Wants S r k → ∀ q, firstReq Q k = some q → q.status = r.attr.status := by
        intro k r hr hw q hq
        obtain ⟨w1, ps, hp, a, b, hm, h1, h2, hc⟩ := hw
        have hreq : (⟨a, b, some r.attr⟩ : Req) ∈ Q := by
          rw [hQ, List.mem_flatMap]
          exact ⟨r, hr, mem_rawReqs.2 ⟨w1, ps, hp, hm, rfl⟩⟩
        have hk : (⟨a, b, some r.attr⟩ : Req).key = k := by simp [Req.key, h1, h2]
        have := m.2 _ hreq r.attr rfl (requestedLink q.tx q.rx q.raw) (by rw [hk, out, hq]; rfl)
        rw [requested_status] at this
        exact this
      refine ⟨?_, ?_⟩
      · intro k r hr p hp wr wp
        obtain ⟨q, hq⟩ := wants_first k r hr wr
        exact (stat k r hr wr q hq).symm.trans (stat k p hp wp q hq)
      · intro k r hr wr a ha b hb e1 e2
        obtain ⟨q, hq⟩ := wants_first k r hr wr
        have := m.1 k q (noLink k) hq
        rw [stat k r hr wr q hq] at this
        obtain ⟨hm, rfl, -⟩ := firstReq_some hq
        obtain ⟨s1, s2⟩ := hs q hm
        have f1 := (sites a.site.id a.site).2 ⟨rfl, a, ha, rfl⟩
        have f2 := (sites b.site.id b.site).2 ⟨rfl, b, hb, rfl⟩
        have g1 : a.site.id = q.tx.id := e1
        have g2 : b.site.id = q.rx.id := e2
        rw [g1, s1] at f1
        rw [g2, s2] at f2
        simp only [Option.some.injEq] at f1 f2
        rw [← f1, ← f2]
        exact this
    · rintro ⟨h1, h2⟩
      constructor
      · intro k q _ hq
        obtain ⟨hm, rfl, hc⟩ := firstReq_some hq
        obtain ⟨r, hr, hw, hraw⟩ := wants_of q hm hc
        obtain ⟨s1, s2⟩ := hs q hm
        obtain ⟨-, a, ha, ea⟩ := (sites _ _).1 s1
        obtain ⟨-, b, hb, eb⟩ := (sites _ _).1 s2
        have := h2 q.key r hr hw a ha b hb (by rw [ea]; rfl) (by rw [eb]; rfl)
        rw [ea, eb] at this
        simpa [Req.status, hraw] using this
      · intro q hq r0 h0 l hl
        rw [out] at hl
        obtain ⟨p, hp, rfl⟩ := Option.map_eq_some_iff.1 hl
        obtain ⟨hm, hk, hc⟩ := firstReq_some hp
        have hqc : q.tx.siteType ≠ .cn := by
          have u1 := (hs p hm).1
          have u2 := (hs q hq).1
          have : p.tx.id = q.tx.id := congrArg LinkId.tx hk
          rw [this, u2] at u1
          simp only [Option.some.injEq] at u1
          rw [u1]
          exact hc
        obtain ⟨r, hr, hw, hraw⟩ := wants_of q hq hqc
        obtain ⟨r', hr', hw', hraw'⟩ := wants_of p hm hc
        rw [hk] at hw'
        rw [requested_status]
        rw [h0] at hraw
        simp only [Option.some.injEq] at hraw
        subst hraw
        have := h1 q.key r' hr' r hr hw' hw
        simpa [Req.status, hraw'] using this
  have spec := addList_spec Q hs
  refine ⟨⟨?_, ?_⟩, ?_⟩
  · rintro ⟨t, ht⟩
    have found := addRaws_found S raws t0 t ht
    rw [addRaws_eq S raws t0 found] at ht
    refine ⟨found, meets.1 ?_⟩
    rcases spec with ⟨t', -, m, -⟩ | ⟨-, e | e⟩
    · exact m
    · rw [e] at ht; simp at ht
    · rw [e] at ht; simp at ht
  · rintro ⟨found, m⟩
    rw [addRaws_eq S raws t0 found]
    rcases spec with ⟨t', e, -⟩ | ⟨nm, -⟩
    · exact ⟨t', e⟩
    · exact absurd (meets.2 m) nm
  · intro t ht
    have found := addRaws_found S raws t0 t ht
    rw [addRaws_eq S raws t0 found] at ht
    rcases spec with ⟨t', e, m, -, s1, -, -, hl⟩ | ⟨-, e | e⟩
    · rw [e] at ht
      simp only [Except.ok.injEq] at ht
      subst ht
      refine ⟨by rw [s1]; exact sites, fun k l => ?_⟩
      rw [hl, out]
      constructor
      · intro h
        obtain ⟨q, hq, rfl⟩ := Option.map_eq_some_iff.1 h
        rcases firstReq_raws S raws k with ⟨n, -⟩ | ⟨q', pre, r, post, h1, h2, h3, h4, h5, h6⟩
        · rw [hq] at n; simp at n
        · rw [hq] at h1
          simp only [Option.some.injEq] at h1
          subst h1
          refine ⟨pre, r, post, h2, h3, h4, ?_⟩
          rw [h5]
          subst h6
          simp [requestedLink, Req.key, h3.1]
      · rintro ⟨pre, r, post, h2, h3, h4, rfl⟩
        rcases firstReq_raws S raws k with ⟨-, n⟩ | ⟨q', pre', r', post', h1, h2', h3', h4', h5', h6'⟩
        · exact absurd h3 (n r (by rw [h2]; simp))
        · have : r' = r := by
            rw [h2] at h2'
            rcases List.append_eq_append_iff.1 h2' with ⟨c, e1, e2⟩ | ⟨c, e1, e2⟩
            · cases c with
              | nil => simp at e2; exact e2.1.symm
              | cons x c =>
                simp only [List.cons_append, List.cons.injEq] at e2
                exact absurd h3 (h4' r (by rw [e1, ← e2.1]; simp))
            · cases c with
              | nil => simp at e2; exact e2.1
              | cons x c =>
                simp only [List.cons_append, List.cons.injEq] at e2
                exact absurd h3' (h4 r' (by rw [e1, ← e2.1]; simp))
          subst this
          rw [h1]
          simp only [Option.map_some, Option.some.injEq]
          rw [h5']
          subst h6'
          simp [requestedLink, Req.key, h3.1]
    · rw [e] at ht; simp at ht
    · rw [e] at ht; simp at ht

/-- A POP, a DN and a CN. -/
def threeSites : List NamedSite :=
  [{ site := { id := "p", siteType := .pop, status := .candidate }, given := "P" },
   { site := { id := "d", siteType := .dn, status := .candidate }, given := "D" },
   { site := { id := "c", siteType := .cn, status := .candidate }, given := "C" }]

/-- Two pairs yield three links, none of them out of the CN. -/
example : ∃ S, ({} : InputSites).load id threeSites = .ok S ∧
    ((∀ x ∈ threeSites, x.site.status.inactive = false) ∧
    (fromCsv S [("P", "D"), ("C", "D"), ("D", "P")]).map (fun t => t.links.map (·.1)) =
      .ok [⟨"p", "d"⟩, ⟨"d", "p"⟩, ⟨"d", "c"⟩] ∧
    fromCsv S [("P", "D"), ("X", "D")] = .error .data) := by
  have h : ∃ S ∈ (({} : InputSites).load id threeSites).toOption,
      ((∀ x ∈ threeSites, x.site.status.inactive = false) ∧
      (fromCsv S [("P", "D"), ("C", "D"), ("D", "P")]).map (fun t => t.links.map (·.1)) =
        .ok [⟨"p", "d"⟩, ⟨"d", "p"⟩, ⟨"d", "c"⟩] ∧
      fromCsv S [("P", "D"), ("X", "D")] = .error .data) := by decide +kernel
  obtain ⟨S, hS, h⟩ := h
  exact ⟨S, InputSites.ok_of_toOption hS, h⟩

/-- Links by name and by place, the second of the three is an Ethernet link and ignored, the third adds one
direction less as it comes from a CN; another status for the first pair is refused. -/
example : ∃ S, ({} : InputSites).load id threeSites = .ok S ∧ ((S.list.map (·.site.id)).Nodup ∧
    (fromKml S [⟨⟨.candidate, true, some 1⟩, some ("P", "D"), .ok ([], [])⟩,
        ⟨⟨.existing, false, none⟩, some ("P", "C"), .ok ([], [])⟩,
        ⟨⟨.candidate, true, some (1 / 2)⟩, none, .ok ((S.list.map (·.site)).drop 2, (S.list.map (·.site)).take 2)⟩]).map
      (fun t => t.links.map fun x => (x.1, x.2.confidence)) =
      .ok [(⟨"p", "d"⟩, some 1), (⟨"d", "p"⟩, some 1), (⟨"p", "c"⟩, some (1 / 2)), (⟨"d", "c"⟩, some (1 / 2))] ∧
    fromKml S [⟨⟨.candidate, true, some 1⟩, some ("P", "D"), .ok ([], [])⟩,
        ⟨⟨.unavailable, true, some 1⟩, some ("D", "P"), .ok ([], [])⟩] = .error .data) := by
  have h : ∃ S ∈ (({} : InputSites).load id threeSites).toOption, ((S.list.map (·.site.id)).Nodup ∧
    (fromKml S [⟨⟨.candidate, true, some 1⟩, some ("P", "D"), .ok ([], [])⟩,
        ⟨⟨.existing, false, none⟩, some ("P", "C"), .ok ([], [])⟩,
        ⟨⟨.candidate, true, some (1 / 2)⟩, none, .ok ((S.list.map (·.site)).drop 2, (S.list.map (·.site)).take 2)⟩]).map
      (fun t => t.links.map fun x => (x.1, x.2.confidence)) =
      .ok [(⟨"p", "d"⟩, some 1), (⟨"d", "p"⟩, some 1), (⟨"p", "c"⟩, some (1 / 2)), (⟨"d", "c"⟩, some (1 / 2))] ∧
    fromKml S [⟨⟨.candidate, true, some 1⟩, some ("P", "D"), .ok ([], [])⟩,
        ⟨⟨.unavailable, true, some 1⟩, some ("D", "P"), .ok ([], [])⟩] = .error .data) := by decide +kernel
  obtain ⟨S, hS, h⟩ := h
  exact ⟨S, InputSites.ok_of_toOption hS, h⟩

/-- Two rows for one site under different names are both loaded, and the topology cannot be built: the error case
of `C30_link_list` is reached. -/
theorem C30_same_place_twice : ∃ (xs : List NamedSite) (S : InputSites),
    ({} : InputSites).load id xs = .ok S ∧ fromCsv S [] = .error .topology := by
  have h : ∃ S ∈ (({} : InputSites).load id [InputSites.namedDn "i" "a" "A" 1, InputSites.namedDn "i" "b" "A" 1]).toOption,
      fromCsv S [] = .error .topology := by decide +kernel
  obtain ⟨S, hS, h⟩ := h
  exact ⟨_, S, InputSites.ok_of_toOption hS, h⟩

end Topology
end Verif
