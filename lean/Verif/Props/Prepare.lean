import Verif.Model.Prepare
import Verif.Spec.Prepare
import Verif.Props.Angles
import Verif.Props.SameNode

/-! # C76, C77: status validation and re-orientation of sectors -/

namespace Verif
namespace Topology
open Spec

theorem sitesAll_iff (t : Topology) (l : Link) (p : StatusType → Bool) (P : StatusType → Prop)
    (h : ∀ s, p s = true ↔ P s) : t.sitesAll l p = true ↔ EndSites t l P := by
  unfold sitesAll siteStatus EndSites
  cases t.sites.get? l.tx with
  | none => simp
  | some x =>
    cases t.sites.get? l.rx with
    | none => simp
    | some y => simp [h]

theorem sectorsAll_iff (t : Topology) (l : Link) (p : StatusType → Bool) (P : StatusType → Prop)
    (h : ∀ s, p s = true ↔ P s) : t.sectorsAll l p = true ↔ EndSectors t l P := by
  unfold sectorsAll EndSectors
  cases l.sectors with
  | none => simp
  | some q =>
    obtain ⟨a, b⟩ := q
    simp only [Option.some.injEq, Prod.mk.injEq, Bool.and_eq_true]
    cases ha : t.sectors.get? a with
    | none =>
      simp only [Option.any_none, Bool.false_eq_true, false_and, false_iff]
      rintro ⟨a', b', x, y, ⟨rfl, rfl⟩, h1, _⟩
      rw [ha] at h1; cases h1
    | some x =>
      cases hb : t.sectors.get? b with
      | none =>
        simp only [Option.any_none, Bool.false_eq_true, and_false, false_iff]
        rintro ⟨a', b', x, y, ⟨rfl, rfl⟩, _, h1, _⟩
        rw [hb] at h1; cases h1
      | some y =>
        simp only [Option.any_some, h]
        constructor
        · rintro ⟨h1, h2⟩
          exact ⟨a, b, x, y, ⟨rfl, rfl⟩, ha, hb, h1, h2⟩
        · rintro ⟨a', b', x', y', ⟨rfl, rfl⟩, h1, h2, h3, h4⟩
          rw [ha] at h1; rw [hb] at h2
          cases h1; cases h2
          exact ⟨h3, h4⟩

theorem statusOk_iff (t : Topology) (l : Link) : t.statusOk l = true ↔
    (t.links.get? ⟨l.rx, l.tx⟩ = none → t.notAccess l = false) ∧
    (∀ r, t.links.get? ⟨l.rx, l.tx⟩ = some r → l.status = r.status ∧ StatusesAgree t l) := by
  unfold statusOk
  cases hr : t.links.get? ⟨l.rx, l.tx⟩ with
  | none => simp
  | some r =>
    simp only [Bool.and_eq_true, beq_iff_eq, reduceCtorEq, false_implies, true_and,
      Option.some.injEq, forall_eq']
    apply and_congr_right
    intro _
    have e1 : ∀ s : StatusType, (s == .existing) = true ↔ s = .existing := by intro s; cases s <;> decide
    have e2 : ∀ s : StatusType, s.active = true ↔ (s = .proposed ∨ s = .existing) := by
      intro s; cases s <;> decide
    have e3 : ∀ s : StatusType, (!s.inactive) = true ↔ (s ≠ .unavailable ∧ s ≠ .unreachable) := by
      intro s; cases s <;> decide
    cases hs : l.status with
    | existing =>
      simp only [Bool.and_eq_true]
      rw [sitesAll_iff t l _ _ e1, sectorsAll_iff t l _ _ e1]
      constructor
      · intro h
        exact ⟨fun _ => h, fun c => (by rw [hs] at c; cases c), fun c => (by rw [hs] at c; cases c)⟩
      · intro h; exact h.existing hs
    | proposed =>
      simp only [Bool.and_eq_true]
      rw [sitesAll_iff t l _ _ e2, sectorsAll_iff t l _ _ e2]
      constructor
      · intro h
        exact ⟨fun c => (by rw [hs] at c; cases c), fun _ => h, fun c => (by rw [hs] at c; cases c)⟩
      · intro h; exact h.proposed hs
    | candidate =>
      simp only [Bool.and_eq_true]
      have e4 : t.sectorsAllOrNone l (fun s => !s.inactive) = true ↔
          (l.sectors = none ∨ EndSectors t l (fun s => s ≠ .unavailable ∧ s ≠ .unreachable)) := by
        unfold sectorsAllOrNone
        cases hl : l.sectors with
        | none => simp
        | some q =>
          dsimp only
          rw [sectorsAll_iff t l _ _ e3]
          simp
      rw [sitesAll_iff t l _ _ e3, e4]
      constructor
      · intro h
        exact ⟨fun c => (by rw [hs] at c; cases c), fun c => (by rw [hs] at c; cases c), fun _ => h⟩
      · intro h; exact h.candidate hs
    | unavailable =>
      simp only [true_iff]
      exact ⟨fun c => (by rw [hs] at c; cases c), fun c => (by rw [hs] at c; cases c),
        fun c => (by rw [hs] at c; cases c)⟩
    | unreachable =>
      simp only [true_iff]
      exact ⟨fun c => (by rw [hs] at c; cases c), fun c => (by rw [hs] at c; cases c),
        fun c => (by rw [hs] at c; cases c)⟩

/-- C76 for a topology whose links are all wireless links between distribution
sites: it is accepted iff every link has a reverse link of equal status and the
statuses of its sites and sectors agree with its own.
Missing: links to CNs and wired links, where it is false
(`C76_access_violation`, `C76_wired_violation`). -/
theorem C76_accepted_iff_partial (ops : List Op)
    (backhaul : ∀ id l, (run {} ops).links.get? id = some l → l.isWireless = true ∧
      ∀ s, (run {} ops).sites.get? l.rx = some s → s.siteType ≠ .cn) :
    (run {} ops).validateStatus = none ↔
      ∀ id l, (run {} ops).links.get? id = some l →
        (∃ r, (run {} ops).links.get? ⟨l.rx, l.tx⟩ = some r ∧ l.status = r.status) ∧
        StatusesAgree (run {} ops) l := by
  have inv := Inv.empty.run ops
  generalize run {} ops = t at *
  have hv : t.validateStatus = none ↔ ∀ l ∈ t.links.vals, t.statusOk l = true := by
    unfold validateStatus
    rw [← List.all_eq_true]
    by_cases c : t.links.vals.all t.statusOk = true
    · rw [if_pos c]; simp only [c]
    · rw [if_neg c]; simp only [c, reduceCtorEq]
  rw [hv]
  constructor
  · intro h id l hl
    have hm : l ∈ t.links.vals := List.mem_map.2 ⟨(id, l), Dict.mem_of_get? _ hl, rfl⟩
    obtain ⟨h1, h2⟩ := (statusOk_iff t l).1 (h l hm)
    cases hr : t.links.get? ⟨l.rx, l.tx⟩ with
    | some r =>
      obtain ⟨a, b⟩ := h2 r hr
      exact ⟨⟨r, rfl, a⟩, b⟩
    | none =>
      exfalso
      have := h1 hr
      obtain ⟨w, c⟩ := backhaul id l hl
      unfold notAccess at this
      rw [w, Bool.not_eq_false', Bool.true_and, beq_iff_eq, Option.map_eq_some_iff] at this
      obtain ⟨s, hs, hc⟩ := this
      exact c s hs hc
  · intro h l hm
    obtain ⟨⟨k, v⟩, hm', rfl⟩ := List.mem_map.1 hm
    obtain ⟨⟨r, hr, e⟩, a⟩ := h k v ((Dict.mem_iff_get? inv.nd_links _ _).1 hm')
    rw [statusOk_iff]
    refine ⟨fun c => (by rw [hr] at c; cases c), ?_⟩
    intro r' hr'
    rw [hr] at hr'
    cases hr'
    exact ⟨e, a⟩

/-- C76, the part that holds for every topology: whatever is accepted has
reverse links of equal status and agreeing statuses wherever a link is not a
wireless link to a CN. Missing: the access links. -/
theorem C76_accepted_links_partial (ops : List Op) (h : (run {} ops).validateStatus = none)
    (id : LinkId) (l : Link) (hl : (run {} ops).links.get? id = some l)
    (hna : l.isWireless = false ∨ ∀ s, (run {} ops).sites.get? l.rx = some s → s.siteType ≠ .cn) :
    (∃ r, (run {} ops).links.get? ⟨l.rx, l.tx⟩ = some r ∧ l.status = r.status) ∧
      StatusesAgree (run {} ops) l := by
  have inv := Inv.empty.run ops
  generalize run {} ops = t at *
  have hall : t.links.vals.all t.statusOk = true := by
    unfold validateStatus at h
    by_cases c : t.links.vals.all t.statusOk = true
    · exact c
    · rw [if_neg c] at h; cases h
  rw [List.all_eq_true] at hall
  have hm : l ∈ t.links.vals := List.mem_map.2 ⟨(id, l), Dict.mem_of_get? _ hl, rfl⟩
  obtain ⟨h1, h2⟩ := (statusOk_iff t l).1 (hall l hm)
  cases hr : t.links.get? ⟨l.rx, l.tx⟩ with
  | some r =>
    obtain ⟨a, b⟩ := h2 r hr
    exact ⟨⟨r, rfl, a⟩, b⟩
  | none =>
    exfalso
    have := h1 hr
    unfold notAccess at this
    rw [Bool.not_eq_false', Bool.and_eq_true, beq_iff_eq, Option.map_eq_some_iff] at this
    obtain ⟨w, s, hs, hc⟩ := this
    rcases hna with e | e
    · rw [e] at w; cases w
    · exact e s hs hc

/-- Two DNs linked both ways over proposed sectors. -/
def statusDemo : List Op := [
  .addSite { id := "A", siteType := .pop, status := .existing } false,
  .addSite { id := "B", siteType := .dn, status := .proposed } false,
  .addSector { site := "A", node := 0, pos := 0, status := .existing },
  .addSector { site := "B", node := 0, pos := 0, status := .proposed },
  .addLink { tx := "A", rx := "B", status := .proposed, sectors := some (⟨"A", 0, 0, .dn⟩, ⟨"B", 0, 0, .dn⟩) },
  .addLink { tx := "B", rx := "A", status := .proposed, sectors := some (⟨"B", 0, 0, .dn⟩, ⟨"A", 0, 0, .dn⟩) }]

example : (run {} statusDemo).validateStatus = none ∧
    (∀ p ∈ (run {} statusDemo).links, p.2.isWireless = true ∧
      ∀ s ∈ (run {} statusDemo).sites, s.2.siteType ≠ .cn) := by decide +kernel

/-- C76 fails for access links: nothing is checked for a proposed link to a CN,
here over sectors that are not part of the plan. -/
theorem C76_access_violation :
    let t := run {} (statusDemo ++ [
      .addSite { id := "C", siteType := .cn, status := .proposed } false,
      .addSector { site := "C", node := 0, pos := 0, typ := .cn, status := .candidate },
      .addLink { tx := "B", rx := "C", status := .proposed, sectors := some (⟨"B", 0, 0, .dn⟩, ⟨"C", 0, 0, .cn⟩) }])
    t.validateStatus = none ∧
    (t.links.get? ⟨"B", "C"⟩).map (·.status) = some .proposed ∧
    (t.sectors.get? ⟨"C", 0, 0, .cn⟩).map (·.status) = some .candidate := by
  decide +kernel

/-- C76 fails for wired links: a proposed wired link between two active sites,
present in both directions, is refused because it has no sectors. -/
theorem C76_wired_violation :
    let t := run {} (statusDemo ++ [
      .addSite { id := "C", siteType := .dn, status := .proposed } false,
      .addLink { tx := "B", rx := "C", status := .proposed, isWireless := false },
      .addLink { tx := "C", rx := "B", status := .proposed, isWireless := false }])
    t.validateStatus = some .topology := by
  decide +kernel

/-! ## Re-orientation -/

/-- Sector `id`, if present, is still there with the same azimuth, and still
EXISTING if it was. -/
def Kept (d d' : Dict SectorId Sector) (id : SectorId) : Prop :=
  ∀ x, d.get? id = some x → ∃ x', d'.get? id = some x' ∧ x'.azimuth = x.azimuth ∧
    (x.status = .existing → x'.status = .existing)

theorem Kept.refl (d : Dict SectorId Sector) (id : SectorId) : Kept d d id :=
  fun x h => ⟨x, h, rfl, fun e => e⟩

theorem Kept.trans {d1 d2 d3 : Dict SectorId Sector} {id : SectorId} (h : Kept d1 d2 id)
    (h' : Kept d2 d3 id) : Kept d1 d3 id := by
  intro x hx
  obtain ⟨y, hy, a, b⟩ := h x hx
  obtain ⟨z, hz, c, e⟩ := h' y hy
  exact ⟨z, hz, c.trans a, fun q => e (b q)⟩

theorem Kept.setSectorStatus (t : Topology) (k : SectorId) (st : StatusType) (id : SectorId) :
    Kept t.sectors (t.setSectorStatus k st).1.sectors id := by
  unfold Topology.setSectorStatus
  split
  · exact Kept.refl _ _
  · rename_i s hs
    split
    · rename_i hm
      split
      · exact Kept.refl _ _
      · split
        · intro x hx
          dsimp only
          rw [Dict.get?_modify]
          by_cases c : k = id
          · subst c
            rw [hs] at hx
            cases hx
            rw [if_pos rfl, hs]
            refine ⟨_, rfl, rfl, ?_⟩
            intro e
            rw [e] at hm
            cases hm
          · rw [if_neg c]
            exact ⟨x, hx, rfl, fun e => e⟩
        · exact Kept.refl _ _
    · exact Kept.refl _ _

theorem Kept.setChannel (t : Topology) (k : SectorId) (c : Int) (id : SectorId) :
    Kept t.sectors (t.setChannel k c).sectors id := by
  intro x hx
  unfold Topology.setChannel
  dsimp only
  rw [Dict.get?_modify]
  by_cases e : k = id
  · rw [if_pos e, hx]; exact ⟨_, rfl, rfl, fun e => e⟩
  · rw [if_neg e]; exact ⟨x, hx, rfl, fun e => e⟩

theorem Kept.markAssigned (t : Topology) (chan : Option (Dict LinkId Int)) (l : Link)
    (a b : SectorId) (id : SectorId) : Kept t.sectors (t.markAssigned chan l a b).1.sectors id := by
  unfold Topology.markAssigned
  split
  · exact Kept.refl _ _
  · split
    · split
      · exact Kept.refl _ _
      · rename_i m c _
        have h1 := (Kept.setChannel t a c id).trans (Kept.setChannel (t.setChannel a c) b c id)
        have h2 := h1.trans (Kept.setSectorStatus ((t.setChannel a c).setChannel b c) a .proposed id)
        generalize ((t.setChannel a c).setChannel b c).setSectorStatus a .proposed = o at *
        obtain ⟨t1, e⟩ := o
        cases e with
        | some e => exact h2
        | none => exact h2.trans (Kept.setSectorStatus t1 b .proposed id)
    · exact Kept.refl _ _

theorem Kept.assignLink (t : Topology) (g : Geometry) (force : Bool)
    (chan : Option (Dict LinkId Int)) (l : Link) (id : SectorId) :
    Kept t.sectors (t.assignLink g force chan l).1.sectors id := by
  unfold Topology.assignLink
  split
  · split
    · exact Kept.refl _ _
    · split
      · exact Kept.markAssigned ((t.setLinkSectors _ _).setLinkSectors _ _) chan l _ _ id
      · split <;> exact Kept.refl _ _
  · exact Kept.refl _ _

theorem Kept.assignLoop (g : Geometry) (force : Bool) (chan : Option (Dict LinkId Int))
    (id : SectorId) : ∀ (ks : List LinkId) (t : Topology),
    Kept t.sectors (t.assignLoop g force chan ks).1.sectors id := by
  intro ks
  induction ks with
  | nil => intro t; exact Kept.refl _ _
  | cons k ks ih =>
    intro t
    unfold Topology.assignLoop
    cases hk : t.links.get? k with
    | none => exact Kept.refl _ _
    | some l =>
      dsimp only
      have h1 := Kept.assignLink t g force chan l id
      generalize t.assignLink g force chan l = o at *
      obtain ⟨t1, e⟩ := o
      cases e with
      | some e => exact h1
      | none => exact h1.trans (ih t1)

theorem Kept.setProposedIn (N : List (SiteId × Nat)) (id : SectorId) :
    ∀ (ks : List SectorId) (t : Topology), Kept t.sectors (t.setProposedIn N ks).1.sectors id := by
  intro ks
  induction ks with
  | nil => intro t; exact Kept.refl _ _
  | cons k ks ih =>
    intro t
    unfold Topology.setProposedIn
    cases hk : t.sectors.get? k with
    | none => exact Kept.refl _ _
    | some l =>
      dsimp only
      split
      · have h1 := Kept.setSectorStatus t k .proposed id
        generalize t.setSectorStatus k .proposed = o at *
        obtain ⟨t1, e⟩ := o
        cases e with
        | some e => exact h1
        | none => exact h1.trans (ih t1)
      · exact ih t

theorem Kept.removeSectors (id : SectorId) : ∀ (ks : List SectorId) (t t' : Topology), t.Inv →
    id ∉ ks → foldOut removeSector t ks = (t', none) → t'.Inv ∧ Kept t.sectors t'.sectors id := by
  intro ks
  induction ks with
  | nil =>
    intro t t' inv _ h
    unfold foldOut at h
    cases h
    exact ⟨inv, Kept.refl _ _⟩
  | cons k ks ih =>
    intro t t' inv hn h
    unfold foldOut at h
    rw [List.mem_cons, not_or] at hn
    cases hk : t.sectors.get? k with
    | none =>
      have : t.removeSector k = (t, some .topology) := by
        unfold Topology.removeSector; rw [hk]
      rw [this] at h
      cases h
    | some x =>
      obtain ⟨t1, h1, inv1, _, _, hs, _⟩ := removeSector_spec inv k x hk
      rw [h1] at h
      obtain ⟨inv2, h2⟩ := ih t1 t' inv1 hn.2 h
      refine ⟨inv2, Kept.trans ?_ h2⟩
      intro y hy
      rw [hs, Dict.get?_del, if_neg (Ne.symm hn.1)]
      exact ⟨y, hy, rfl, fun e => e⟩

theorem Kept.addSectors (id : SectorId) : ∀ (xs : List Sector) (t t' : Topology),
    foldOut addSector t xs = (t', none) → Kept t.sectors t'.sectors id := by
  intro xs
  induction xs with
  | nil =>
    intro t t' h
    unfold foldOut at h
    cases h
    exact Kept.refl _ _
  | cons x xs ih =>
    intro t t' h
    unfold foldOut at h
    unfold Topology.addSector at h
    by_cases c : t.sectors.has x.id = true
    · rw [if_pos c] at h; cases h
    · rw [if_neg c] at h
      by_cases c2 : t.sites.has x.site = true
      · rw [if_pos c2] at h
        dsimp only at h
        have h2 := ih _ t' h
        refine Kept.trans ?_ h2
        intro y hy
        dsimp only
        rw [Dict.get?_set]
        have : ¬ x.id = id := by
          intro e
          apply c
          rw [e, Dict.has_iff]
          exact ⟨y, hy⟩
        rw [if_neg this]
        exact ⟨y, hy, rfl, fun e => e⟩
      · rw [if_neg c2] at h; cases h

theorem Kept.clear (id : SectorId) : ∀ (ks : List LinkId) (t t' : Topology),
    foldOut clearInactiveCn t ks = (t', none) → Kept t.sectors t'.sectors id := by
  intro ks
  induction ks with
  | nil =>
    intro t t' h
    unfold foldOut at h
    cases h
    exact Kept.refl _ _
  | cons k ks ih =>
    intro t t' h
    unfold foldOut at h
    have : (t.clearInactiveCn k).1.sectors = t.sectors := by
      unfold Topology.clearInactiveCn
      split
      · rfl
      · split
        · rfl
        · split
          · split <;> rfl
          · rfl
    generalize t.clearInactiveCn k = o at *
    obtain ⟨t1, e⟩ := o
    cases e with
    | some e => cases h
    | none =>
      dsimp only at this h
      have h2 := ih t1 t' h
      rw [this] at h2
      exact h2

/-- C77 for sites that the search leaves alone: their sectors keep azimuth and,
if EXISTING, status. Missing: sites with a new orientation, where it is false
(`C77_existing_violation`). -/
theorem C77_untouched_site_partial (ops : List Op) (g : Geometry) (best : SiteId → List (List ℚ))
    (t' : Topology) (ok : (run {} ops).readjust g best = (t', none)) (id : SectorId) (x : Sector)
    (hx : (run {} ops).sectors.get? id = some x) (hbest : best id.site = []) :
    ∃ x', t'.sectors.get? id = some x' ∧ x'.azimuth = x.azimuth ∧
      (x.status = .existing → x'.status = .existing) := by
  have inv := Inv.empty.run ops
  generalize run {} ops = t at *
  unfold readjust at ok
  cases hc : t.channelMap t.links with
  | error e => rw [hc] at ok; cases ok
  | ok chan =>
    rw [hc] at ok
    dsimp only at ok
    split at ok
    · have hni : id ∉ (t.sites.vals.filter (fun s => !(best s.id).isEmpty)).flatMap
          (fun s => (t.sectors.vals.filter (fun x => x.site = s.id)).map Sector.id) := by
        intro hm
        obtain ⟨s, hs, hm⟩ := List.mem_flatMap.1 hm
        obtain ⟨y, hy, e⟩ := List.mem_map.1 hm
        have h1 := (List.mem_filter.1 hy).2
        rw [decide_eq_true_eq] at h1
        have h2 := (List.mem_filter.1 hs).2
        have h3 : id.site = s.id := by rw [← e, ← h1]; rfl
        rw [← h3, hbest] at h2
        cases h2
      unfold Out.andThen at ok
      generalize ho1 : foldOut removeSector t _ = o1 at ok
      obtain ⟨t1, e1⟩ := o1
      cases e1 with
      | some e => cases ok
      | none =>
      dsimp only at ok
      obtain ⟨inv1, k1⟩ := Kept.removeSectors id _ t t1 inv hni ho1
      generalize ho2 : foldOut addSector t1 _ = o2 at ok
      obtain ⟨t2, e2⟩ := o2
      cases e2 with
      | some e => cases ok
      | none =>
      dsimp only at ok
      have k2 := Kept.addSectors id _ t1 t2 ho2
      generalize ho3 : foldOut clearInactiveCn t2 _ = o3 at ok
      obtain ⟨t3, e3⟩ := o3
      cases e3 with
      | some e => cases ok
      | none =>
      dsimp only at ok
      have k3 := Kept.clear id _ t2 t3 ho3
      have k4 := Kept.assignLoop g false (some chan) id t3.links.keys t3
      change Kept _ (t3.addSectorsToLinks g false (some chan)).1.sectors id at k4
      generalize t3.addSectorsToLinks g false (some chan) = o4 at *
      obtain ⟨t4, e4⟩ := o4
      cases e4 with
      | some e => cases ok
      | none =>
      dsimp only at ok k4
      have k5 := Kept.setProposedIn ((t4.sectors.vals.filter (fun x => x.status == .proposed)).map
        (fun x => (x.site, x.node))) id t4.sectors.keys t4
      change Kept _ t4.setSameNode.1.sectors id at k5
      rw [ok] at k5
      exact ((((k1.trans k2).trans k3).trans k4).trans k5) x hx
    · cases ok

/-- An existing link between two existing sites, over existing sectors. -/
def existingDemo : List Op := [
  .addSite { id := "A", siteType := .pop, status := .existing } false,
  .addSite { id := "B", siteType := .dn, status := .existing } false,
  .addSite { id := "C", siteType := .dn, status := .existing } false,
  .addSector { site := "A", node := 0, pos := 0, azimuth := 80, status := .existing, channel := 0 },
  .addSector { site := "B", node := 0, pos := 0, azimuth := 260, status := .existing, channel := 0 },
  .addSector { site := "C", node := 0, pos := 0, azimuth := 30, status := .existing, channel := 0 },
  .addLink { tx := "A", rx := "B", status := .existing, sectors := some (⟨"A", 0, 0, .dn⟩, ⟨"B", 0, 0, .dn⟩) },
  .addLink { tx := "B", rx := "A", status := .existing, sectors := some (⟨"B", 0, 0, .dn⟩, ⟨"A", 0, 0, .dn⟩) }]

/-- Best orientation: towards the other end; `C` has no active link. -/
def existingBest : SiteId → List (List ℚ) := fun s =>
  if s = "A" then [[90]] else if s = "B" then [[270]] else []

example : ((run {} existingDemo).readjust (demoGeometry 90 270) existingBest).2 = none ∧
    ((run {} existingDemo).sectors.get? ⟨"C", 0, 0, .dn⟩).isSome ∧ existingBest "C" = [] := by
  decide +kernel

/-- C77 fails: the sectors of existing, unchanged equipment are turned and lose
their EXISTING status, so the resulting plan, valid before, is refused by the
status validation. -/
theorem C77_existing_violation :
    let t := run {} existingDemo
    let o := t.readjust (demoGeometry 90 270) existingBest
    t.validateStatus = none ∧ o.2 = none ∧
    (t.sectors.get? ⟨"A", 0, 0, .dn⟩).map (fun s => (s.azimuth, s.status)) = some (80, .existing) ∧
    (o.1.sectors.get? ⟨"A", 0, 0, .dn⟩).map (fun s => (s.azimuth, s.status)) = some (90, .proposed) ∧
    o.1.validateStatus = some .topology := by
  decide +kernel

/-! ## Channel and status of assigned sectors -/

theorem setSectorStatus_get {t t' : Topology} {k : SectorId} {st : StatusType}
    (ok : t.setSectorStatus k st = (t', none)) (id : SectorId) :
    t'.sectors.get? id = if id = k then (t.sectors.get? id).map (fun x => { x with status := st })
      else t.sectors.get? id := by
  unfold Topology.setSectorStatus at ok
  split at ok
  · cases ok
  · split at ok
    · split at ok
      · cases ok
      · split at ok
        · cases ok
          dsimp only
          rw [Dict.get?_modify]
          by_cases c : k = id
          · rw [if_pos c, if_pos c.symm]
          · rw [if_neg c, if_neg (Ne.symm c)]
        · cases ok
    · cases ok

theorem setChannel_get (t : Topology) (k : SectorId) (c : Int) (id : SectorId) :
    (t.setChannel k c).sectors.get? id =
      if id = k then (t.sectors.get? id).map (fun x => { x with channel := c })
      else t.sectors.get? id := by
  unfold setChannel
  dsimp only
  rw [Dict.get?_modify]
  by_cases c : k = id
  · rw [if_pos c, if_pos c.symm]
  · rw [if_neg c, if_neg (Ne.symm c)]

theorem markAssigned_get {t t' : Topology} {chan : Option (Dict LinkId Int)} {l : Link}
    {a b : SectorId} (ok : t.markAssigned chan l a b = (t', none)) :
    (t'.sectors = t.sectors ∧ (chan = none ∨ l.status.active = false)) ∨
    ∃ m c, chan = some m ∧ l.status.active = true ∧ m.get? l.id = some c ∧
      ∀ id, t'.sectors.get? id =
        if id = a ∨ id = b then
          (t.sectors.get? id).map (fun x => { x with channel := c, status := .proposed })
        else t.sectors.get? id := by
  unfold markAssigned at ok
  cases chan with
  | none => cases ok; exact Or.inl ⟨rfl, Or.inl rfl⟩
  | some m =>
    dsimp only at ok
    by_cases ha : l.status.active = true
    · rw [if_pos ha] at ok
      cases hm : m.get? l.id with
      | none => rw [hm] at ok; cases ok
      | some c =>
        rw [hm] at ok
        dsimp only at ok
        generalize ho : ((t.setChannel a c).setChannel b c).setSectorStatus a .proposed = o at ok
        obtain ⟨t1, e⟩ := o
        cases e with
        | some e => cases ok
        | none =>
          dsimp only at ok
          refine Or.inr ⟨m, c, rfl, ha, hm, ?_⟩
          intro id
          rw [setSectorStatus_get ok, setSectorStatus_get ho, setChannel_get, setChannel_get]
          by_cases ca : id = a <;> by_cases cb : id = b <;>
            simp only [ca, cb, if_true, if_false, true_or, or_true, or_self, Option.map_map] <;>
            (first | rfl | (split_ifs <;> first | rfl | (simp only [Option.map_map]; rfl) | simp_all))
    · rw [if_neg ha] at ok
      cases ok
      exact Or.inl ⟨rfl, Or.inr (by simpa using ha)⟩

/-- The sector was written for the active link `l0`, which had no sectors. -/
def WrittenFor (t0 : Topology) (g : Geometry) (force : Bool) (chan : Option (Dict LinkId Int))
    (id : SectorId) (x : Sector) : Prop :=
  ∃ lid l0 m a b, t0.links.get? lid = some l0 ∧ l0.status.active = true ∧ l0.isWireless = true ∧
    l0.sectors = none ∧ chan = some m ∧ m.get? lid = some x.channel ∧ x.status = .proposed ∧
    t0.target g force l0 = some (a, b) ∧ (id = a ∨ id = b)

/-- What the loop has done to the sectors. -/
structure Marks (t0 : Topology) (g : Geometry) (force : Bool) (chan : Option (Dict LinkId Int))
    (t : Topology) : Prop where
  changed : ∀ id x0 x, t0.sectors.get? id = some x0 → t.sectors.get? id = some x →
    x = x0 ∨ WrittenFor t0 g force chan id x
  kept : ∀ id x, t0.sectors.get? id = some x → ∃ x', t.sectors.get? id = some x'
  done : ∀ lid l l0 m a b, t0.links.get? lid = some l0 → t.links.get? lid = some l →
    l0.sectors = none → l.sectors = some (a, b) → l0.isWireless = true → l0.status.active = true →
    chan = some m → ∀ id x, (id = a ∨ id = b) → t.sectors.get? id = some x → x.status = .proposed

theorem unassigned_orig {t0 t : Topology} {g : Geometry} {force : Bool}
    (sim : Sim t0 g force t) {id : LinkId} {l : Link} (h : t.links.get? id = some l)
    (hw : l.isWireless = true) (hs : l.sectors = none) : t0.links.get? id = some l := by
  obtain ⟨l0, h0, p, hl⟩ := sim.orig h
  rcases sim.link id with e | e
  · rw [← e]; exact h
  · have e2 := e l0 h0
    rw [h] at e2
    have e3 := Option.some.inj e2
    have hw0 : l0.isWireless = true := by rw [hl] at hw; exact hw
    have ht : t0.target g force l0 = none := by
      have := congrArg Link.sectors e3
      rw [hs] at this
      exact this.symm
    have e4 : l0.sectors = none := by
      unfold target at ht
      rw [if_pos hw0] at ht
      cases hh : l0.sectors with
      | none => rfl
      | some _ => rw [hh] at ht; cases ht
    rw [h0, e3, ht, ← e4]

theorem marks_step {t0 t t1 : Topology} {g : Geometry} {force : Bool}
    {chan : Option (Dict LinkId Int)} (inv : t0.Inv)
    (sym : ∀ a b l r, t0.links.get? ⟨a, b⟩ = some l → t0.links.get? ⟨b, a⟩ = some r →
      l.isWireless = true → r.status.active = l.status.active)
    (sim : Sim t0 g force t) (mk : Marks t0 g force chan t) {id : LinkId} {l : Link}
    (h : t.links.get? id = some l) (ok : t.assignLink g force chan l = (t1, none)) :
    Marks t0 g force chan t1 := by
  unfold assignLink at ok
  by_cases hw : l.isWireless = true
  · rw [if_pos hw] at ok
    by_cases hs : l.sectors.isSome = true
    · rw [if_pos hs, Prod.mk.injEq] at ok
      rw [← ok.1]; exact mk
    · rw [if_neg hs] at ok
      have hs0 : l.sectors = none := by
        cases hh : l.sectors with
        | none => rfl
        | some _ => rw [hh] at hs; exact absurd rfl hs
      have h0 := unassigned_orig sim h hw hs0
      have hid : l.id = id := (inv.link_id _ _ h0).symm
      have hbest := bestSectors_congr t t0 sim.geo sim.sites g force l
      have htgt : t0.target g force l = match t0.bestSectors g force l with
          | (some a, some b) => some (a, b)
          | _ => none := by
        unfold target; rw [if_pos hw, hs0]; rfl
      rw [← hbest] at htgt
      generalize hbo : t.bestSectors g force l = bo at ok htgt
      obtain ⟨x, y⟩ := bo
      have failDone : (x = none ∨ y = none) → Marks t0 g force chan t1 := by
        intro hxy
        have hm : (if l.status.active then ((t, some Err.optimizer) : Out)
            else (t.setLinkSectors l.id none, none)) = (t1, none) := by
          rcases hxy with rfl | rfl
          · exact ok
          · cases x <;> exact ok
        by_cases ha : l.status.active = true
        · rw [if_pos ha, Prod.mk.injEq] at hm; cases hm.2
        · rw [if_neg ha, Prod.mk.injEq] at hm
          rw [← hm.1]
          refine ⟨mk.changed, mk.kept, ?_⟩
          intro lid l' l0 m a b e0 e1
          rw [setLinkSectors_get?] at e1
          by_cases c : l.id = lid
          · rw [if_pos c, Option.map_eq_some_iff] at e1
            obtain ⟨w, _, e⟩ := e1
            intro _ e2
            rw [← e] at e2
            cases e2
          · rw [if_neg c] at e1
            exact mk.done lid l' l0 m a b e0 e1
      cases x with
      | none => exact failDone (Or.inl rfl)
      | some a =>
        cases y with
        | none => exact failDone (Or.inr rfl)
        | some b =>
          dsimp only at ok htgt
          have mg := markAssigned_geo ((t.setLinkSectors l.id (some (a, b))).setLinkSectors
            ⟨l.rx, l.tx⟩ (some (b, a))) chan l a b
          rw [ok] at mg
          dsimp only at mg
          obtain ⟨_, mg2, _⟩ := mg
          have hlinks : ∀ id' l', t1.links.get? id' = some l' →
              (id' = l.id ∧ l'.sectors = some (a, b)) ∨
              (id' = ⟨l.rx, l.tx⟩ ∧ l'.sectors = some (b, a)) ∨ t.links.get? id' = some l' := by
            intro id' l' e
            rw [mg2, setLinkSectors_get?, setLinkSectors_get?] at e
            by_cases c : (⟨l.rx, l.tx⟩ : LinkId) = id'
            · rw [if_pos c, Option.map_eq_some_iff] at e
              obtain ⟨w, _, e⟩ := e
              rw [← e]
              exact Or.inr (Or.inl ⟨c.symm, rfl⟩)
            · rw [if_neg c] at e
              by_cases c2 : l.id = id'
              · rw [if_pos c2, Option.map_eq_some_iff] at e
                obtain ⟨w, _, e⟩ := e
                rw [← e]
                exact Or.inl ⟨c2.symm, rfl⟩
              · rw [if_neg c2] at e
                exact Or.inr (Or.inr e)
          have act : ∀ id' l0, (id' = l.id ∨ id' = ⟨l.rx, l.tx⟩) → t0.links.get? id' = some l0 →
              l0.status.active = true → l.status.active = true := by
            intro id' l0 hc e ha
            have h0' : t0.links.get? ⟨l.tx, l.rx⟩ = some l := by
              have : (⟨l.tx, l.rx⟩ : LinkId) = l.id := rfl
              rw [this, hid]; exact h0
            rcases hc with rfl | rfl
            · rw [hid, h0] at e; cases e; exact ha
            · rw [← sym l.tx l.rx l l0 h0' e hw]; exact ha
          rcases markAssigned_get ok with ⟨hsec, hno⟩ | ⟨m, c, hch, ha, hm, hsec⟩
          · have hsec' : t1.sectors = t.sectors := hsec
            refine ⟨?_, ?_, ?_⟩
            · rw [hsec']; exact mk.changed
            · rw [hsec']; exact mk.kept
            · intro lid l' l0 m a' b' e0 e1 e2 e3 e4 e5 e6
              rcases hlinks lid l' e1 with ⟨q, _⟩ | ⟨q, _⟩ | q
              · rcases hno with hno | hno
                · rw [hno] at e6; cases e6
                · rw [act lid l0 (Or.inl q) e0 e5] at hno; cases hno
              · rcases hno with hno | hno
                · rw [hno] at e6; cases e6
                · rw [act lid l0 (Or.inr q) e0 e5] at hno; cases hno
              · rw [hsec']
                exact mk.done lid l' l0 m a' b' e0 q e2 e3 e4 e5 e6
          · have hsec' : ∀ id, t1.sectors.get? id =
                if id = a ∨ id = b then
                  (t.sectors.get? id).map (fun x => { x with channel := c, status := .proposed })
                else t.sectors.get? id := hsec
            have hwr : ∀ sid x, (sid = a ∨ sid = b) → t1.sectors.get? sid = some x →
                WrittenFor t0 g force chan sid x ∧ x.status = .proposed := by
              intro sid x e e1
              rw [hsec', if_pos e, Option.map_eq_some_iff] at e1
              obtain ⟨w, _, e1⟩ := e1
              rw [← e1]
              refine ⟨⟨id, l, m, a, b, h0, ha, hw, hs0, hch, ?_, rfl, htgt, e⟩, rfl⟩
              rw [← hid]; exact hm
            refine ⟨?_, ?_, ?_⟩
            · intro sid x0 x e0 e1
              by_cases e : sid = a ∨ sid = b
              · exact Or.inr (hwr sid x e e1).1
              · rw [hsec', if_neg e] at e1
                exact mk.changed sid x0 x e0 e1
            · intro sid x e0
              obtain ⟨x', e1⟩ := mk.kept sid x e0
              rw [hsec']
              by_cases e : sid = a ∨ sid = b
              · rw [if_pos e, e1]; exact ⟨_, rfl⟩
              · rw [if_neg e, e1]; exact ⟨_, rfl⟩
            · intro lid l' l0 m' a' b' e0 e1 e2 e3 e4 e5 e6 sid x e7 e8
              by_cases e : sid = a ∨ sid = b
              · exact (hwr sid x e e8).2
              · rcases hlinks lid l' e1 with ⟨_, q⟩ | ⟨_, q⟩ | q
                · rw [e3] at q; cases q; exact absurd e7 e
                · rw [e3] at q; cases q; exact absurd e7.symm e
                · rw [hsec', if_neg e] at e8
                  exact mk.done lid l' l0 m' a' b' e0 q e2 e3 e4 e5 e6 sid x e7 e8
  · rw [if_neg hw, Prod.mk.injEq] at ok
    rw [← ok.1]; exact mk

theorem marks_loop {t0 : Topology} {g : Geometry} {force : Bool}
    {chan : Option (Dict LinkId Int)} (inv : t0.Inv) (rec : t0.Reciprocal g)
    (sym : ∀ a b l r, t0.links.get? ⟨a, b⟩ = some l → t0.links.get? ⟨b, a⟩ = some r →
      l.isWireless = true → r.status.active = l.status.active) :
    ∀ (ks : List LinkId) (t t1 : Topology), Sim t0 g force t → Marks t0 g force chan t →
      t.assignLoop g force chan ks = (t1, none) → Marks t0 g force chan t1 := by
  intro ks
  induction ks with
  | nil =>
    intro t t1 sim mk ok
    unfold assignLoop at ok
    rw [Prod.mk.injEq] at ok
    obtain ⟨rfl, _⟩ := ok
    exact mk
  | cons k ks ih =>
    intro t t1 sim mk ok
    unfold assignLoop at ok
    cases hk : t.links.get? k with
    | none => rw [hk] at ok; cases ok
    | some l =>
      rw [hk] at ok
      dsimp only at ok
      generalize ho : t.assignLink g force chan l = o at ok
      obtain ⟨t2, e⟩ := o
      cases e with
      | some e => cases ok
      | none =>
        dsimp only at ok
        exact ih t2 t1 (assignLink_step inv rec sim hk ho).1 (marks_step inv sym sim mk hk ho) ok

/-- C78: when sectors are assigned after an optimization, a sector changes only
if an active link has been put on it; it then is PROPOSED and has the channel of
such a link. And both sectors of every active link given sectors are PROPOSED.
Missing: links whose two directions are not mirror images of each other
(`Reciprocal`, different activity), where the first direction visited decides. -/
theorem C78_written_for_active_links_partial (ops : List Op) (g : Geometry) (force : Bool)
    (chan : Dict LinkId Int) (t' : Topology) (rec : (run {} ops).Reciprocal g)
    (sym : ∀ a b l r, (run {} ops).links.get? ⟨a, b⟩ = some l →
      (run {} ops).links.get? ⟨b, a⟩ = some r →
      l.isWireless = true → r.status.active = l.status.active)
    (ok : (run {} ops).addSectorsToLinks g force (some chan) = (t', none)) :
    (∀ id x, (run {} ops).sectors.get? id = some x → ∃ x', t'.sectors.get? id = some x' ∧
      (x' = x ∨ ∃ lid l a b, t'.links.get? lid = some l ∧ l.status.active = true ∧
        l.sectors = some (a, b) ∧ (id = a ∨ id = b) ∧
        x' = { x with channel := x'.channel, status := .proposed } ∧
        chan.get? lid = some x'.channel)) ∧
    (∀ lid l l' a b, (run {} ops).links.get? lid = some l → l.isWireless = true →
      l.status.active = true → l.sectors = none → t'.links.get? lid = some l' →
      l'.sectors = some (a, b) → ∀ id x, (id = a ∨ id = b) → t'.sectors.get? id = some x →
      x.status = .proposed) := by
  have inv := Inv.empty.run ops
  generalize run {} ops = t at *
  obtain ⟨sim, spec⟩ := addSectors_spec inv rec ok
  have mk : Marks t g force (some chan) t' := by
    refine marks_loop inv rec sym t.links.keys t t' ⟨rfl, rfl, rfl, fun _ => Or.inl rfl⟩ ?_ ok
    refine ⟨?_, fun id x h => ⟨x, h⟩, ?_⟩
    · intro id x0 x h h'
      rw [h] at h'
      exact Or.inl (Option.some.inj h').symm
    · intro lid l l0 m a b h0 h1 h2 h3
      rw [h0] at h1
      cases h1
      rw [h2] at h3
      cases h3
  constructor
  · intro id x hx
    obtain ⟨x', hx'⟩ := mk.kept id x hx
    refine ⟨x', hx', ?_⟩
    rcases mk.changed id x x' hx hx' with e | ⟨lid, l0, m, a, b, h0, ha, hw, hs, hm, hc, hp, ht, hab⟩
    · exact Or.inl e
    · cases hm
      refine Or.inr ⟨lid, _, a, b, (spec lid l0 h0).1, ha, ht, hab, ?_, hc⟩
      have := congrArg (Option.map geoS) hx'
      rw [← geo_get?, sim.geo, geo_get?, hx] at this
      have e := Option.some.inj this
      rw [← hp]
      cases x
      cases x'
      unfold geoS at e
      simp only [Sector.mk.injEq] at e ⊢
      exact ⟨e.1.symm, e.2.1.symm, e.2.2.1.symm, e.2.2.2.1.symm, e.2.2.2.2.1.symm, trivial, trivial⟩
  · intro lid l l' a b h0 hw ha hs h1 h2
    exact mk.done lid l' l chan a b h0 h1 hs h2 hw ha rfl

/-- Channels of the demo topology's active links. -/
def demoChannels : Dict LinkId Int := [(⟨"A", "B"⟩, 2), (⟨"B", "A"⟩, 2)]

/-- `Reciprocal` for this topology is shown in `Verif.Props.Angles`. -/
example : ((run {} sectorDemo).addSectorsToLinks (demoGeometry 112 292) true (some demoChannels)).2 = none ∧
    (∀ p ∈ (run {} sectorDemo).links, ∀ q ∈ (run {} sectorDemo).links,
      q.1 = ⟨p.1.rx, p.1.tx⟩ → q.2.status.active = p.2.status.active) ∧
    ((((run {} sectorDemo).addSectorsToLinks (demoGeometry 112 292) true
      (some demoChannels)).1.sectors.vals.map (fun x => (x.id, x.status, x.channel))) =
    [(⟨"A", 0, 0, .dn⟩, .proposed, 2), (⟨"A", 0, 1, .dn⟩, .candidate, -1),
     (⟨"B", 0, 0, .dn⟩, .proposed, 2), (⟨"C", 0, 0, .cn⟩, .candidate, -1)]) := by decide +kernel

end Topology
end Verif
