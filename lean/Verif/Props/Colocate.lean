import Verif.Model.Demand
import Verif.Spec.Demand
import Verif.Props.Counter
import Mathlib.Logic.Relation

/-! # Demand and co-located sites (C59) -/

namespace Verif
namespace Topology

open Spec

/-- `x` is in the set kept for `s`. -/
def Maps (m : Dict SiteId (List SiteId)) (s x : SiteId) : Prop := x ∈ (m.get? s).getD []

/-- What the loop over a growing list leaves behind. -/
theorem connectLoop_spec (m : Dict SiteId (List SiteId)) (out todo : List SiteId) :
    (∀ s ∈ todo, s ∈ out) → (∀ s ∈ out, s ∉ todo → ∀ x, Maps m s x → x ∈ out) →
    ∃ extra, connectLoop m out todo = out ++ extra ∧ extra.Nodup ∧ (∀ x ∈ extra, x ∉ out) ∧
      (∀ s ∈ out ++ extra, ∀ x, Maps m s x → x ∈ out ++ extra) ∧
      ∀ x ∈ extra, ∃ s ∈ todo, Relation.ReflTransGen (Maps m) s x := by
  induction out, todo using connectLoop.induct m with
  | case1 out =>
    intro _ h2
    refine ⟨[], ?_, List.nodup_nil, fun _ h => (by cases h), ?_, fun _ h => (by cases h)⟩
    · rw [connectLoop, List.append_nil]
    · intro s hs x hx
      rw [List.append_nil] at hs ⊢
      exact h2 s hs (by simp) x hx
  | case2 out s rest new ih =>
    intro h1 h2
    have hnew : ∀ x, x ∈ new ↔ Maps m s x ∧ x ∉ out := by
      intro x
      show x ∈ (((m.get? s).getD []).filter (fun x => x ∉ out)).dedup ↔ _
      rw [List.mem_dedup, List.mem_filter, decide_eq_true_eq]
      exact Iff.rfl
    have hnd : new.Nodup := List.nodup_dedup _
    obtain ⟨extra, e1, e2, e3, e4, e5⟩ := ih
      (by
        intro x hx
        rw [List.mem_append] at hx ⊢
        rcases hx with hx | hx
        · exact Or.inl (h1 x (List.mem_cons_of_mem _ hx))
        · exact Or.inr hx)
      (by
        intro y hy hny x hx
        rw [List.mem_append] at hy hny ⊢
        rw [not_or] at hny
        rcases hy with hy | hy
        · by_cases c : y = s
          · subst c
            by_cases d : x ∈ out
            · exact Or.inl d
            · exact Or.inr ((hnew x).2 ⟨hx, d⟩)
          · exact Or.inl (h2 y hy (by rw [List.mem_cons, not_or]; exact ⟨c, hny.1⟩) x hx)
        · exact absurd hy hny.2)
    refine ⟨new ++ extra, ?_, ?_, ?_, ?_, ?_⟩
    · rw [connectLoop]
      rw [← List.append_assoc]
      exact e1
    · rw [List.nodup_append]
      refine ⟨hnd, e2, ?_⟩
      rintro a ha b hb rfl
      exact e3 a hb (List.mem_append_right _ ha)
    · intro x hx
      rw [List.mem_append] at hx
      rcases hx with hx | hx
      · exact ((hnew x).1 hx).2
      · exact fun c => e3 x hx (List.mem_append_left _ c)
    · rw [← List.append_assoc]
      exact e4
    · intro x hx
      rw [List.mem_append] at hx
      rcases hx with hx | hx
      · exact ⟨s, List.mem_cons_self, Relation.ReflTransGen.single ((hnew x).1 hx).1⟩
      · obtain ⟨y, hy, hyx⟩ := e5 x hx
        rw [List.mem_append] at hy
        rcases hy with hy | hy
        · exact ⟨y, List.mem_cons_of_mem _ hy, hyx⟩
        · exact ⟨s, List.mem_cons_self, Relation.ReflTransGen.head ((hnew y).1 hy).1 hyx⟩

theorem demand_get_map (d : Dict DemandId DemandSite) (f : DemandSite → DemandSite) (id : DemandId) :
    Dict.get? (d.map (fun p => (p.1, f p.2))) id = (d.get? id).map f := by
  induction d with
  | nil => rfl
  | cons p d ih =>
    obtain ⟨k, v⟩ := p
    show Dict.get? ((k, f v) :: d.map (fun p => (p.1, f p.2))) id = _
    rw [Dict.get?_cons, Dict.get?_cons]
    by_cases c : k = id
    · rw [if_pos c, if_pos c]; rfl
    · rw [if_neg c, if_neg c]; exact ih

/-- C59 for any map of co-located sites: the sites connected to a demand point
afterwards are the earlier ones followed by exactly the further sites reachable
through the map, each once. -/
theorem C59_closure (t : Topology) (m : Dict SiteId (List SiteId)) (id : DemandId) (d : DemandSite)
    (h : t.demandSites.get? id = some d) :
    ∃ extra, (t.connectDemand m).demandSites.get? id = some { d with connected := d.connected ++ extra } ∧
      extra.Nodup ∧ ∀ x, x ∈ extra ↔ x ∉ d.connected ∧
        ∃ s ∈ d.connected, Relation.ReflTransGen (fun a b => b ∈ (m.get? a).getD []) s x := by
  obtain ⟨extra, e1, e2, e3, e4, e5⟩ := connectLoop_spec m d.connected d.connected (fun _ h => h)
    (fun s h c => absurd h c)
  refine ⟨extra, ?_, e2, ?_⟩
  · unfold connectDemand
    dsimp only
    rw [demand_get_map _ (fun d => { d with connected := connectLoop m d.connected d.connected }), h]
    rw [← e1]
    rfl
  · intro x
    constructor
    · intro hx
      exact ⟨e3 x hx, e5 x hx⟩
    · rintro ⟨hn, s, hs, hsx⟩
      have : x ∈ d.connected ++ extra := by
        induction hsx with
        | refl => exact List.mem_append_left _ hs
        | tail _ hbc ih =>
          rename_i b c _
          by_cases hb : b ∈ d.connected ++ extra
          · exact e4 b hb c hbc
          · exfalso
            apply hb
            by_cases c' : b ∈ d.connected
            · exact List.mem_append_left _ c'
            · exact ih c'
      rcases List.mem_append.1 this with c | c
      · exact absurd c hn
      · exact c

theorem addPair_fold (L : List (SiteId × SiteId)) : ∀ m : Dict SiteId (List SiteId), ∀ c x,
    Maps (L.foldl addPair m) c x ↔ Maps m c x ∨ (c, x) ∈ L := by
  induction L with
  | nil => intro m c x; simp
  | cons p L ih =>
    intro m c x
    rw [List.foldl_cons, ih]
    have : Maps (addPair m p) c x ↔ Maps m c x ∨ (c, x) = p := by
      obtain ⟨a, b⟩ := p
      unfold Maps addPair
      dsimp only
      rw [Dict.get?_set]
      by_cases e : a = c
      · subst e
        rw [if_pos rfl, Option.getD_some, List.mem_insert_iff, Prod.mk.injEq]
        constructor
        · rintro (h | h)
          · exact Or.inr ⟨rfl, h⟩
          · exact Or.inl h
        · rintro (h | ⟨_, h⟩)
          · exact Or.inr h
          · exact Or.inl h
      · rw [if_neg e, Prod.mk.injEq]
        constructor
        · exact Or.inl
        · rintro (h | ⟨h, _⟩)
          · exact h
          · exact absurd h.symm e
    rw [this, List.mem_cons, or_assoc]

theorem mem_cnsOf {t : Topology} {ids : List SiteId} {s : SiteId} :
    s ∈ t.cnsOf ids ↔ s ∈ ids ∧ ∃ x, t.sites.get? s = some x ∧ x.siteType = .cn := by
  unfold cnsOf
  rw [List.mem_filter]
  cases h : t.sites.get? s with
  | none => simp
  | some x => simp

theorem mem_dnsOf {t : Topology} {ids : List SiteId} {s : SiteId} :
    s ∈ t.dnsOf ids ↔ s ∈ ids ∧ ∃ x, t.sites.get? s = some x ∧ (x.siteType = .dn ∨ x.siteType = .pop) := by
  unfold dnsOf
  rw [List.mem_filter]
  cases h : t.sites.get? s with
  | none => simp
  | some x => simp

theorem mem_hybridPairs {t : Topology} (nd : t.sites.NodupKeys) (c s : SiteId) :
    (c, s) ∈ t.hybridPairs ↔ ∃ x y, t.sites.get? c = some x ∧ t.sites.get? s = some y ∧
      x.siteType = .cn ∧ (y.siteType = .dn ∨ y.siteType = .pop) ∧ SameSpot x y := by
  obtain ⟨h1, h2, h3, _⟩ := group_fold (fun p : SiteId × Site => p.2.point) Prod.fst t.sites []
    Dict.nodupKeys_nil
  change t.colocated.NodupKeys at h1
  change ∀ k, (t.colocated.get? k).getD [] = _ at h2
  change ∀ p ∈ t.sites, p.2.point ∈ t.colocated.keys at h3
  have mem : ∀ k s, s ∈ (t.colocated.get? k).getD [] ↔ ∃ x, t.sites.get? s = some x ∧ x.point = k := by
    intro k s
    rw [h2 k, Dict.get?_nil, Option.getD_none, List.nil_append, List.mem_map]
    constructor
    · rintro ⟨⟨i, x⟩, hm, rfl⟩
      rw [List.mem_filter, decide_eq_true_eq] at hm
      exact ⟨x, (Dict.mem_iff_get? nd _ _).1 hm.1, hm.2⟩
    · rintro ⟨x, hx, e⟩
      exact ⟨(s, x), List.mem_filter.2 ⟨Dict.mem_of_get? _ hx, decide_eq_true e⟩, rfl⟩
  have spot : ∀ x y : Site, SameSpot x y ↔ x.point = y.point := by
    intro x y
    unfold SameSpot Site.point
    rw [Prod.mk.injEq, Prod.mk.injEq]
  unfold hybridPairs
  rw [List.mem_flatMap]
  constructor
  · rintro ⟨ids, hids, hp⟩
    rw [List.mem_filter] at hids
    obtain ⟨⟨k, v⟩, hm, rfl⟩ := List.mem_map.1 hids.1
    have hk := (Dict.mem_iff_get? h1 _ _).1 hm
    have hp' := List.mem_product.1 hp
    dsimp only at hp'
    rw [mem_cnsOf, mem_dnsOf] at hp'
    obtain ⟨⟨c1, x, hx, hxt⟩, c2, y, hy, hyt⟩ := hp'
    have m1 := mem k c
    have m2 := mem k s
    rw [hk, Option.getD_some] at m1 m2
    obtain ⟨x', hx', ex⟩ := m1.1 c1
    obtain ⟨y', hy', ey⟩ := m2.1 c2
    rw [hx] at hx'
    rw [hy] at hy'
    cases hx'
    cases hy'
    exact ⟨x, y, hx, hy, hxt, hyt, (spot x y).2 (ex.trans ey.symm)⟩
  · rintro ⟨x, y, hx, hy, hxt, hyt, hs⟩
    rw [spot] at hs
    obtain ⟨v, hv⟩ := (Dict.mem_keys_iff _ _).1 (h3 (c, x) (Dict.mem_of_get? _ hx))
    have hc := (mem x.point c).2 ⟨x, hx, rfl⟩
    have hd := (mem x.point s).2 ⟨y, hy, hs.symm⟩
    rw [hv, Option.getD_some] at hc hd
    have hne : c ≠ s := by
      rintro rfl
      rw [hx] at hy
      cases hy
      rw [hxt] at hyt
      rcases hyt with e | e <;> cases e
    refine ⟨v, List.mem_filter.2 ⟨List.mem_map.2 ⟨_, Dict.mem_of_get? _ hv, rfl⟩, ?_⟩, ?_⟩
    · apply decide_eq_true
      cases v with
      | nil => cases hc
      | cons a v =>
        cases v with
        | nil =>
          rw [List.mem_singleton] at hc hd
          exact absurd (hc.trans hd.symm) hne
        | cons b v => simp
    · exact List.mem_product.2 ⟨mem_cnsOf.2 ⟨hc, x, hx, hxt⟩, mem_dnsOf.2 ⟨hd, y, hy, hyt⟩⟩

theorem onBuildings_fold (p : SiteType → Bool) (L : List (SiteId × Site)) :
    ∀ d : Dict Int (List SiteId), ∀ b s,
    s ∈ ((L.foldl (buildStep p) d).get? b).getD [] ↔ s ∈ (d.get? b).getD [] ∨
      ∃ x, (s, x) ∈ L ∧ x.building = some b ∧ 0 ≤ b ∧ p x.siteType = true := by
  induction L with
  | nil => intro d b s; simp
  | cons e L ih =>
    intro d b s
    obtain ⟨i, y⟩ := e
    rw [List.foldl_cons, ih]
    have key : s ∈ (Dict.get? (buildStep p d (i, y)) b).getD [] ↔ s ∈ (d.get? b).getD [] ∨
          (s = i ∧ y.building = some b ∧ 0 ≤ b ∧ p y.siteType = true) := by
      unfold buildStep
      dsimp only
      cases hb : y.building with
      | none => simp
      | some b' =>
        dsimp only
        by_cases c : (decide (b' > -1) && p y.siteType) = true
        · rw [if_pos c, Dict.get?_set]
          rw [Bool.and_eq_true, decide_eq_true_eq] at c
          by_cases e : b' = b
          · subst e
            rw [if_pos rfl, Option.getD_some, List.mem_insert_iff]
            constructor
            · rintro (h | h)
              · exact Or.inr ⟨h, rfl, by omega, c.2⟩
              · exact Or.inl h
            · rintro (h | ⟨h, _⟩)
              · exact Or.inr h
              · exact Or.inl h
          · rw [if_neg e]
            constructor
            · exact Or.inl
            · rintro (h | ⟨_, h, _⟩)
              · exact h
              · exact absurd (Option.some.inj h) e
        · rw [if_neg c]
          constructor
          · exact Or.inl
          · rintro (h | ⟨_, h, h2, h3⟩)
            · exact h
            · exfalso
              apply c
              rw [Bool.and_eq_true, decide_eq_true_eq]
              cases h
              exact ⟨by omega, h3⟩
    rw [propext key, or_assoc]
    constructor
    · rintro (h | ⟨rfl, h⟩ | ⟨x, hx, h⟩)
      · exact Or.inl h
      · exact Or.inr ⟨y, List.mem_cons_self, h⟩
      · exact Or.inr ⟨x, List.mem_cons_of_mem _ hx, h⟩
    · rintro (h | ⟨x, hx, h⟩)
      · exact Or.inl h
      · rcases List.mem_cons.1 hx with e | e
        · cases e
          exact Or.inr (Or.inl ⟨rfl, h⟩)
        · exact Or.inr (Or.inr ⟨x, e, h⟩)

theorem mem_onBuildings {t : Topology} (nd : t.sites.NodupKeys) (p : SiteType → Bool) (b : Int) (s : SiteId) :
    s ∈ ((t.onBuildings p).get? b).getD [] ↔
      ∃ x, t.sites.get? s = some x ∧ x.building = some b ∧ 0 ≤ b ∧ p x.siteType = true := by
  have := onBuildings_fold p t.sites [] b s
  unfold onBuildings
  rw [this, Dict.get?_nil, Option.getD_none]
  constructor
  · rintro (h | ⟨x, hx, h⟩)
    · cases h
    · exact ⟨x, (Dict.mem_iff_get? nd _ _).1 hx, h⟩
  · rintro ⟨x, hx, h⟩
    exact Or.inr ⟨x, Dict.mem_of_get? _ hx, h⟩

theorem mem_rooftopPairs {t : Topology} (nd : t.sites.NodupKeys) (c s : SiteId) :
    (c, s) ∈ t.rooftopPairs ↔ ∃ x y, t.sites.get? c = some x ∧ t.sites.get? s = some y ∧
      x.siteType = .cn ∧ (y.siteType = .dn ∨ y.siteType = .pop) ∧ SameRoof x y := by
  unfold rooftopPairs
  dsimp only
  rw [List.mem_flatMap]
  constructor
  · rintro ⟨b, _, hp⟩
    have hp' := List.mem_product.1 hp
    rw [mem_onBuildings nd, mem_onBuildings nd] at hp'
    obtain ⟨⟨x, hx, hxb, hb, hxt⟩, y, hy, hyb, _, hyt⟩ := hp'
    refine ⟨x, y, hx, hy, by simpa using hxt, by simpa using hyt, b, hb, hxb, hyb⟩
  · rintro ⟨x, y, hx, hy, hxt, hyt, b, hb, hxb, hyb⟩
    have h1 := (mem_onBuildings nd (· == .cn) b c).2 ⟨x, hx, hxb, hb, by simpa using hxt⟩
    have h2 := (mem_onBuildings nd (fun x => x == .dn || x == .pop) b s).2
      ⟨y, hy, hyb, hb, by simpa using hyt⟩
    have key : ∀ (d : Dict Int (List SiteId)) (z : SiteId), z ∈ (d.get? b).getD [] → ∃ v, d.get? b = some v := by
      intro d z h
      cases hd : d.get? b with
      | none => rw [hd] at h; cases h
      | some v => exact ⟨v, rfl⟩
    refine ⟨b, List.mem_filter.2 ⟨(Dict.mem_keys_iff _ _).2 (key _ _ h1), (Dict.has_iff _ _).2 (key _ _ h2)⟩, ?_⟩
    exact List.mem_product.2 ⟨h1, h2⟩

/-- The map handed to `connect_demand_to_colocated_sites`. -/
theorem colocated_map {t : Topology} (nd : t.sites.NodupKeys) (c s : SiteId) :
    Maps ((t.hybridPairs ++ t.rooftopPairs).foldl addPair []) c s ↔ WiredTo t c s := by
  rw [addPair_fold, List.mem_append, mem_hybridPairs nd, mem_rooftopPairs nd]
  unfold Maps WiredTo
  rw [Dict.get?_nil, Option.getD_none]
  constructor
  · rintro (h | ⟨x, y, h1, h2, h3, h4, h5⟩ | ⟨x, y, h1, h2, h3, h4, h5⟩)
    · cases h
    · exact ⟨x, y, h1, h2, h3, h4, Or.inl h5⟩
    · exact ⟨x, y, h1, h2, h3, h4, Or.inr h5⟩
  · rintro ⟨x, y, h1, h2, h3, h4, h5 | h5⟩
    · exact Or.inr (Or.inl ⟨x, y, h1, h2, h3, h4, h5⟩)
    · exact Or.inr (Or.inr ⟨x, y, h1, h2, h3, h4, h5⟩)

theorem reach_wired {t : Topology} {s x : SiteId} (h : Relation.ReflTransGen (WiredTo t) s x) :
    x = s ∨ WiredTo t s x := by
  induction h with
  | refl => exact Or.inl rfl
  | tail _ hbc ih =>
    rename_i b c _
    rcases ih with e | e
    · rw [e] at hbc; exact Or.inr hbc
    · exfalso
      obtain ⟨_, y, _, hy, _, hyt, _⟩ := e
      obtain ⟨y', _, hy', _, hyt', _⟩ := hbc
      rw [hy] at hy'
      cases hy'
      rw [hyt'] at hyt
      rcases hyt with e | e <;> cases e

theorem connectColocated_get {t : Topology} (nd : t.sites.NodupKeys) {id : DemandId} {d : DemandSite}
    (h : t.demandSites.get? id = some d) :
    ∃ extra, t.connectColocated.demandSites.get? id =
        some { d with connected := d.connected ++ extra } ∧ extra.Nodup ∧
      ∀ s, s ∈ extra ↔ s ∉ d.connected ∧ ∃ c ∈ d.connected, WiredTo t c s := by
  obtain ⟨extra, h1, h2, h3⟩ := C59_closure t _ id d h
  refine ⟨extra, h1, h2, ?_⟩
  intro s
  rw [h3]
  have e : (fun a b => b ∈ (Dict.get? ((t.hybridPairs ++ t.rooftopPairs).foldl addPair []) a).getD []) =
      WiredTo t := by
    funext a b
    exact propext (colocated_map nd a b)
  rw [e]
  constructor
  · rintro ⟨hn, c, hc, hr⟩
    rcases reach_wired hr with e | e
    · rw [e] at hn; exact absurd hc hn
    · exact ⟨hn, c, hc, e⟩
  · rintro ⟨hn, c, hc, hr⟩
    exact ⟨hn, c, hc, Relation.ReflTransGen.single hr⟩

/-- C59: afterwards each demand point is connected to the sites it was connected
to, followed by exactly the DNs and POPs at the spot or on the roof of a connected
CN that were not connected yet, each once. -/
theorem C59_connected_exactly (ops : List Op) (id : DemandId) (d : DemandSite)
    (h : (run {} ops).demandSites.get? id = some d) :
    ∃ extra, (run {} ops).connectColocated.demandSites.get? id =
        some { d with connected := d.connected ++ extra } ∧ extra.Nodup ∧
      ∀ s, s ∈ extra ↔ s ∉ d.connected ∧ ∃ c ∈ d.connected, WiredTo (run {} ops) c s :=
  connectColocated_get (Inv.empty.run ops).nd_sites h

theorem colocated_congr (t t' : Topology) (h : t.sites = t'.sites) :
    (t.hybridPairs ++ t.rooftopPairs) = (t'.hybridPairs ++ t'.rooftopPairs) := by
  unfold hybridPairs rooftopPairs cnsOf dnsOf onBuildings colocated
  rw [h]

theorem connectLoop_closed (m : Dict SiteId (List SiteId)) (out : List SiteId)
    (h : ∀ s ∈ out, ∀ x, Maps m s x → x ∈ out) : ∀ todo, (∀ s ∈ todo, s ∈ out) →
    connectLoop m out todo = out := by
  intro todo
  induction todo with
  | nil => intro _; rw [connectLoop]
  | cons s todo ih =>
    intro hs
    have : (((m.get? s).getD []).filter (fun x => x ∉ out)).dedup = [] := by
      rw [List.filter_eq_nil_iff.2]
      · rfl
      · intro x hx
        rw [decide_eq_true_eq, not_not]
        exact h s (hs s List.mem_cons_self) x hx
    rw [connectLoop]
    rw [this, List.append_nil, List.append_nil]
    exact ih (fun x hx => hs x (List.mem_cons_of_mem _ hx))

/-- C59: doing it again changes nothing. -/
theorem C59_idempotent (t : Topology) : t.connectColocated.connectColocated = t.connectColocated := by
  have e := colocated_congr t.connectColocated t rfl
  have e2 : t.connectColocated.connectColocated = t.connectColocated.connectDemand
      ((t.connectColocated.hybridPairs ++ t.connectColocated.rooftopPairs).foldl addPair []) := rfl
  rw [e2, e]
  unfold connectColocated
  generalize (t.hybridPairs ++ t.rooftopPairs).foldl addPair [] = m
  unfold connectDemand
  dsimp only
  congr 1
  rw [List.map_map]
  apply List.map_congr_left
  intro p _
  simp only [Function.comp]
  obtain ⟨extra, e1, _, _, e4, _⟩ := connectLoop_spec m p.2.connected p.2.connected (fun _ h => h)
    (fun s h c => absurd h c)
  rw [e1, connectLoop_closed m _ e4 _ (fun _ h => h)]

/-- A CN with a DN at its spot and a POP on its roof, demand at the CN. -/
def wiredDemo : List Op := [
  .addSite { id := "C", siteType := .cn, status := .candidate, lon := 1, lat := 2, building := some 4 } false,
  .addSite { id := "D", siteType := .dn, status := .candidate, lon := 1, lat := 2 } false,
  .addSite { id := "P", siteType := .pop, status := .candidate, lon := 1, lat := 3, building := some 4 } false,
  .addSite { id := "Q", siteType := .dn, status := .candidate, lon := 1, lat := 4, building := some (-1) } false,
  .addDemandSite { id := "d", connected := ["C", "P"] }]

example : (run {} wiredDemo).demandSites.get? "d" = some { id := "d", connected := ["C", "P"] } ∧
    WiredTo (run {} wiredDemo) "C" "D" ∧ WiredTo (run {} wiredDemo) "C" "P" :=
  ⟨rfl, ⟨_, _, rfl, rfl, rfl, Or.inl rfl, Or.inl ⟨rfl, rfl, rfl⟩⟩,
    ⟨_, _, rfl, rfl, rfl, Or.inr rfl, Or.inr ⟨4, by decide, rfl, rfl⟩⟩⟩

end Topology
end Verif
