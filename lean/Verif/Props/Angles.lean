import Verif.Model.Angles
import Verif.Spec.Angles
import Verif.Lemmas.Topology
import Mathlib.Tactic.Linarith
import Mathlib.Tactic.NormNum
import Mathlib.Tactic.Ring

/-! # C56, C57: angle differences and sector assignment -/

namespace Verif
open Spec

/-- C56: `angle_delta(a, b)` differs from `a - b` by whole turns, for all angles. -/
theorem C56_congruent (a b : ℚ) : ∃ k : ℤ, angleDelta a b = a - b + 360 * k := by
  unfold angleDelta
  dsimp only
  split
  · exact ⟨-1, by push_cast; ring⟩
  · split
    · exact ⟨1, by push_cast; ring⟩
    · exact ⟨0, by push_cast; ring⟩

/-- C56: the size of the difference does not depend on the order of the arguments. -/
theorem C56_symmetric (a b : ℚ) : |angleDelta a b| = |angleDelta b a| := by
  unfold angleDelta
  dsimp only
  by_cases h1 : a - b > 180
  · rw [if_pos h1, if_neg (by linarith), if_pos (by linarith), ← abs_neg]; congr 1; ring
  · by_cases h2 : a - b ≤ -180
    · rw [if_neg h1, if_pos h2]
      by_cases h3 : b - a > 180
      · rw [if_pos h3, ← abs_neg]; congr 1; ring
      · rw [if_neg h3, if_neg (by linarith)]
        have : a - b = -180 := by linarith
        rw [this, show b - a = 180 by linarith]; norm_num
    · rw [if_neg h1, if_neg h2, if_neg (by linarith)]
      by_cases h3 : b - a ≤ -180
      · rw [if_pos h3, show a - b = 180 by linarith, show b - a = -180 by linarith]; norm_num
      · rw [if_neg h3, ← abs_neg]; congr 1; ring

/-- C56 for angles less than one and a half turns apart (in particular for any
two angles in `[0, 360)` or in `(-270, 270]`): the result is in `(-180, 180]`.
Missing: angles further apart, where it is false (`C56_range_violation`). -/
theorem C56_range_partial (a b : ℚ) (h1 : -540 < a - b) (h2 : a - b ≤ 540) :
    -180 < angleDelta a b ∧ angleDelta a b ≤ 180 := by
  unfold angleDelta
  dsimp only
  split
  · constructor <;> linarith
  · split
    · constructor <;> linarith
    · constructor <;> linarith

/-- C56 for angles less than one and a half turns apart: no other way round is
shorter. Missing: angles further apart, where it is false. -/
theorem C56_shortest_partial (a b : ℚ) (h1 : -540 < a - b) (h2 : a - b ≤ 540) (k : ℤ) :
    |angleDelta a b| ≤ |a - b + 360 * k| := by
  obtain ⟨m, hm⟩ := C56_congruent a b
  obtain ⟨l, u⟩ := C56_range_partial a b h1 h2
  have e : a - b + 360 * (k : ℚ) = angleDelta a b + 360 * ((k - m : ℤ) : ℚ) := by
    rw [hm]; push_cast; ring
  rw [e]
  generalize k - m = n at *
  generalize angleDelta a b = d at *
  rcases lt_trichotomy n 0 with hn | hn | hn
  · have : (n : ℚ) ≤ -1 := by exact_mod_cast Int.le_sub_one_of_lt hn
    have h := neg_le_abs (d + 360 * (n : ℚ))
    exact abs_le.2 ⟨by linarith, by linarith⟩
  · subst hn; simp
  · have : (1 : ℚ) ≤ n := by exact_mod_cast hn
    have h := le_abs_self (d + 360 * (n : ℚ))
    exact abs_le.2 ⟨by linarith, by linarith⟩

example : (-540 : ℚ) < 350 - 20 ∧ (350 : ℚ) - 20 ≤ 540 ∧ angleDelta 350 20 = -30 ∧
    angleDelta 20 350 = 30 ∧ angleDelta 270 90 = 180 ∧ angleDelta 90 270 = 180 := by
  decide +kernel

/-- C56 fails for angles two turns apart: the result is a full turn instead of 0. -/
theorem C56_range_violation : angleDelta 720 0 = 360 ∧ ¬ (angleDelta 720 0 ≤ 180) := by
  decide +kernel

/-! ## The closest sector -/

theorem mod360_range (x : ℚ) : 0 ≤ mod360 x ∧ mod360 x < 360 := by
  unfold mod360
  have h1 := Int.floor_le (x / 360)
  have h2 := Int.lt_floor_add_one (x / 360)
  constructor
  · linarith
  · linarith

theorem rxAzimuth_range (x : ℚ) : 0 ≤ rxAzimuth x ∧ rxAzimuth x < 360 := mod360_range _

theorem mod360_unique (x y : ℚ) (k : ℤ) (h : x = y + 360 * k) (h0 : 0 ≤ y) (h1 : y < 360) :
    mod360 x = y := by
  have : ⌊x / 360⌋ = k := by
    rw [Int.floor_eq_iff]
    constructor <;> linarith
  unfold mod360
  rw [this]; linarith

theorem rxAzimuth_rxAzimuth (x : ℚ) (h0 : 0 ≤ x) (h1 : x < 360) : rxAzimuth (rxAzimuth x) = x := by
  unfold rxAzimuth
  apply mod360_unique _ _ (1 - ⌊(x + 180) / 360⌋) _ h0 h1
  unfold mod360
  push_cast
  ring

theorem rxAzimuth_ne (x : ℚ) : rxAzimuth x ≠ x := by
  unfold rxAzimuth mod360
  intro h
  have h2 : (180 : ℚ) = 360 * (⌊(x + 180) / 360⌋ : ℤ) := by linarith
  generalize ⌊(x + 180) / 360⌋ = n at h2
  have : (180 : ℤ) = 360 * n := by exact_mod_cast h2
  omega

theorem closestLoop_spec (b : ℚ) : ∀ (L : List (SectorId × ℚ)) (r : ℚ) (best : Option SectorId),
    (∃ s az, closestLoop b r best L = some s ∧ (s, az) ∈ L ∧ |angleDelta az b| < r ∧
      ∀ p ∈ L, |angleDelta az b| ≤ |angleDelta p.2 b|) ∨
    (closestLoop b r best L = best ∧ ∀ p ∈ L, r ≤ |angleDelta p.2 b|) := by
  intro L
  induction L with
  | nil => intro r best; right; simp [closestLoop]
  | cons q L ih =>
    obtain ⟨s, az⟩ := q
    intro r best
    unfold closestLoop
    dsimp only
    by_cases h : |angleDelta az b| < r
    · rw [if_pos h]
      left
      rcases ih |angleDelta az b| (some s) with ⟨s', az', e, hm, hlt, hall⟩ | ⟨e, hall⟩
      · refine ⟨s', az', e, List.mem_cons_of_mem _ hm, lt_trans hlt h, ?_⟩
        intro p hp
        rcases List.mem_cons.1 hp with rfl | hp
        · exact le_of_lt hlt
        · exact hall p hp
      · refine ⟨s, az, e, List.mem_cons_self, h, ?_⟩
        intro p hp
        rcases List.mem_cons.1 hp with rfl | hp
        · exact le_refl _
        · exact hall p hp
    · rw [if_neg h]
      rcases ih r best with ⟨s', az', e, hm, hlt, hall⟩ | ⟨e, hall⟩
      · left
        refine ⟨s', az', e, List.mem_cons_of_mem _ hm, hlt, ?_⟩
        intro p hp
        rcases List.mem_cons.1 hp with rfl | hp
        · exact le_of_lt (lt_of_lt_of_le hlt (not_lt.1 h))
        · exact hall p hp
      · right
        refine ⟨e, ?_⟩
        intro p hp
        rcases List.mem_cons.1 hp with rfl | hp
        · exact not_lt.1 h
        · exact hall p hp

namespace Topology

theorem mem_sectorAz {t : Topology} (inv : t.Inv) (site : SiteId) (p : SectorId × ℚ) :
    p ∈ t.sectorAz site ↔
      ∃ s, t.sectors.get? p.1 = some s ∧ s.site = site ∧ s.azimuth = p.2 := by
  unfold sectorAz Dict.vals
  simp only [List.mem_map, List.mem_filter, decide_eq_true_eq]
  constructor
  · rintro ⟨s, ⟨⟨q, hq, rfl⟩, hs⟩, rfl⟩
    have := (Dict.mem_iff_get? inv.nd_sectors q.1 q.2).1 hq
    have hid := inv.sector_id _ _ this
    exact ⟨q.2, by rw [hid]; exact this, hs, rfl⟩
  · rintro ⟨s, hs, h1, h2⟩
    refine ⟨s, ⟨⟨(p.1, s), (Dict.mem_iff_get? inv.nd_sectors _ _).2 hs, rfl⟩, h1⟩, ?_⟩
    rw [inv.sector_id _ _ hs, h2]

/-- Every azimuth and bearing is given in `[0, 360)`. -/
def AzimuthsNormal (t : Topology) : Prop :=
  ∀ id s, t.sectors.get? id = some s → 0 ≤ s.azimuth ∧ s.azimuth < 360

theorem within_iff (a b r : ℚ) (ha : 0 ≤ a ∧ a < 360) (hb : 0 ≤ b ∧ b < 360) :
    Within a b r ↔ |angleDelta a b| < r := by
  constructor
  · rintro ⟨k, hk⟩
    exact lt_of_le_of_lt (C56_shortest_partial a b (by linarith [ha.1, hb.2]) (by linarith [ha.2, hb.1]) k) hk
  · intro h
    obtain ⟨k, hk⟩ := C56_congruent a b
    exact ⟨k, by rw [← hk]; exact h⟩

theorem noFarther_of (b x y : ℚ) (hb : 0 ≤ b ∧ b < 360) (hy : 0 ≤ y ∧ y < 360)
    (h : |angleDelta x b| ≤ |angleDelta y b|) : NoFarther b x y := by
  intro k
  obtain ⟨m, hm⟩ := C56_congruent x b
  refine ⟨m, ?_⟩
  rw [← hm]
  exact le_trans h (C56_shortest_partial y b (by linarith [hy.1, hb.2]) (by linarith [hy.2, hb.1]) k)

theorem closest_some {t : Topology} (inv : t.Inv) (az : t.AzimuthsNormal) (site : SiteId)
    (b r : ℚ) (hb : 0 ≤ b ∧ b < 360) (sid : SectorId)
    (h : closestLoop b r none (t.sectorAz site) = some sid) : ClosestSector t site b r sid := by
  rcases closestLoop_spec b (t.sectorAz site) r none with ⟨s, a, e, hm, hlt, hall⟩ | ⟨e, _⟩
  · rw [h] at e
    cases e
    obtain ⟨s, hs, hsite, haz⟩ := (mem_sectorAz inv site _).1 hm
    dsimp only at hs haz
    subst haz
    refine ⟨s, hs, hsite, (within_iff _ _ _ (az _ _ hs) hb).2 hlt, ?_⟩
    intro sid' s' hs' hsite'
    apply noFarther_of _ _ _ hb (az _ _ hs')
    exact hall (sid', s'.azimuth) ((mem_sectorAz inv site _).2 ⟨s', hs', hsite', rfl⟩)
  · rw [h] at e; cases e

theorem closest_none {t : Topology} (inv : t.Inv) (az : t.AzimuthsNormal) (site : SiteId)
    (b r : ℚ) (hb : 0 ≤ b ∧ b < 360)
    (h : closestLoop b r none (t.sectorAz site) = none) : NoSectorWithin t site b r := by
  rcases closestLoop_spec b (t.sectorAz site) r none with ⟨s, a, e, _⟩ | ⟨_, hall⟩
  · rw [h] at e; cases e
  · intro sid s hs hsite hw
    have := (within_iff _ _ _ (az _ _ hs) hb).1 hw
    have h2 := hall (sid, s.azimuth) ((mem_sectorAz inv site _).2 ⟨s, hs, hsite, rfl⟩)
    exact absurd this (not_lt.2 h2)

/-! ## The assignment loop -/

/-- A sector without the attributes that the loop may write. -/
def geoS (s : Sector) : Sector := { s with status := .candidate, channel := -1 }

/-- All sectors without the attributes that the loop may write. -/
def geo (d : Dict SectorId Sector) : Dict SectorId Sector := d.map (fun p => (p.1, geoS p.2))

theorem geo_get? (d : Dict SectorId Sector) (id : SectorId) :
    (geo d).get? id = (d.get? id).map geoS := by
  induction d with
  | nil => rfl
  | cons p d ih =>
    obtain ⟨k, v⟩ := p
    show Dict.get? ((k, geoS v) :: geo d) id = _
    rw [Dict.get?_cons, Dict.get?_cons, ih]
    by_cases c : k = id
    · rw [if_pos c, if_pos c]; rfl
    · rw [if_neg c, if_neg c]

theorem geo_modify (d : Dict SectorId Sector) (id : SectorId) (f : Sector → Sector)
    (hf : ∀ s, geoS (f s) = geoS s) : geo (d.modify id f) = geo d := by
  unfold geo Dict.modify
  rw [List.map_map]
  apply List.map_congr_left
  intro p _
  dsimp only [Function.comp]
  by_cases c : p.1 = id
  · rw [if_pos c]; simp only [hf]
  · rw [if_neg c]

theorem sectorAz_geo (t t' : Topology) (h : geo t.sectors = geo t'.sectors) (s : SiteId) :
    t.sectorAz s = t'.sectorAz s := by
  have key : ∀ t : Topology, t.sectorAz s =
      (((geo t.sectors).map Prod.snd).filter (fun x => x.site = s)).map (fun x => (x.id, x.azimuth)) := by
    intro t
    unfold sectorAz Dict.vals geo
    rw [List.map_map]
    induction t.sectors with
    | nil => rfl
    | cons p d ih =>
      simp only [List.map_cons, List.filter_cons, Function.comp]
      have e1 : (geoS p.2).site = p.2.site := rfl
      rw [e1]
      by_cases c : p.2.site = s
      · simp only [c, decide_true, if_true, List.map_cons]
        rw [ih]
        rfl
      · simp only [c, decide_false, Bool.false_eq_true, if_false]
        exact ih
  rw [key t, key t', h]

theorem setSectorStatus_geo (t : Topology) (id : SectorId) (st : StatusType) :
    geo (t.setSectorStatus id st).1.sectors = geo t.sectors ∧
    (t.setSectorStatus id st).1.links = t.links ∧ (t.setSectorStatus id st).1.sites = t.sites := by
  unfold setSectorStatus
  split
  · exact ⟨rfl, rfl, rfl⟩
  · split
    · split
      · exact ⟨rfl, rfl, rfl⟩
      · split
        · refine ⟨?_, rfl, rfl⟩
          dsimp only
          apply geo_modify
          intro s
          rfl
        · exact ⟨rfl, rfl, rfl⟩
    · exact ⟨rfl, rfl, rfl⟩

theorem markAssigned_geo (t : Topology) (chan : Option (Dict LinkId Int)) (l : Link)
    (a b : SectorId) :
    geo (t.markAssigned chan l a b).1.sectors = geo t.sectors ∧
    (t.markAssigned chan l a b).1.links = t.links ∧ (t.markAssigned chan l a b).1.sites = t.sites := by
  unfold markAssigned
  split
  · exact ⟨rfl, rfl, rfl⟩
  · split
    · split
      · exact ⟨rfl, rfl, rfl⟩
      · rename_i m c _
        have h0 : geo ((t.setChannel a c).setChannel b c).sectors = geo t.sectors := by
          unfold setChannel
          dsimp only
          rw [geo_modify _ _ _ (by intro s; rfl), geo_modify _ _ _ (by intro s; rfl)]
        have h1 := setSectorStatus_geo ((t.setChannel a c).setChannel b c) a .proposed
        have e1 : ((t.setChannel a c).setChannel b c).links = t.links := rfl
        have e2 : ((t.setChannel a c).setChannel b c).sites = t.sites := rfl
        rw [h0, e1, e2] at h1
        generalize ((t.setChannel a c).setChannel b c).setSectorStatus a .proposed = o at *
        obtain ⟨t1, e⟩ := o
        cases e with
        | some e => exact h1
        | none =>
          have h2 := setSectorStatus_geo t1 b .proposed
          dsimp only at h1 ⊢
          rw [h1.1, h1.2.1, h1.2.2] at h2
          exact h2
    · exact ⟨rfl, rfl, rfl⟩

theorem bestSectors_congr (t t' : Topology) (h : geo t.sectors = geo t'.sectors)
    (hs : t.sites = t'.sites) (g : Geometry) (force : Bool) (l : Link) :
    t.bestSectors g force l = t'.bestSectors g force l := by
  unfold bestSectors scanTo fullScan
  rw [sectorAz_geo t t' h, sectorAz_geo t t' h, hs]

theorem validate_congr (t t' : Topology) (h : geo t.sectors = geo t'.sectors)
    (hs : t.sites = t'.sites) (g : Geometry) (force : Bool) (l : Link) :
    t.validateLinkSectors g force l = t'.validateLinkSectors g force l := by
  have key : ∀ id, (t.sectors.get? id).map geoS = (t'.sectors.get? id).map geoS := by
    intro id; rw [← geo_get?, ← geo_get?, h]
  unfold validateLinkSectors fullScan
  rw [hs]
  split
  · rfl
  · rename_i a b _
    have ka := key a
    have kb := key b
    generalize t.sectors.get? a = xa at *
    generalize t.sectors.get? b = xb at *
    generalize t'.sectors.get? a = ya at *
    generalize t'.sectors.get? b = yb at *
    cases xa <;> cases ya <;> simp only [Option.map_none, Option.map_some, reduceCtorEq] at ka
    · rfl
    · cases xb <;> cases yb <;> simp only [Option.map_none, Option.map_some, reduceCtorEq] at kb
      · rfl
      · rename_i sa sa' sb sb'
        have ea : sa.azimuth = sa'.azimuth := by
          have := congrArg Sector.azimuth (Option.some.inj ka); exact this
        have eb : sb.azimuth = sb'.azimuth := by
          have := congrArg Sector.azimuth (Option.some.inj kb); exact this
        simp only [ea, eb]

/-- What the loop is meant to leave in a link. -/
def target (t : Topology) (g : Geometry) (force : Bool) (l : Link) : Option (SectorId × SectorId) :=
  if l.isWireless then
    match l.sectors with
    | some p => some p
    | none =>
      match t.bestSectors g force l with
      | (some a, some b) => some (a, b)
      | _ => none
  else l.sectors

/-- Both directions of a wireless link agree: same kind, sectors swapped,
opposite bearings in `[0, 360)`; no link is transmitted by a CN (`link.py:90-93`);
sectors of a link are on its ends (`link.py:161-175`). -/
structure Reciprocal (t : Topology) (g : Geometry) : Prop where
  bearing : ∀ id, 0 ≤ g.bearing id ∧ g.bearing id < 360
  reverse : ∀ a b l r, t.links.get? ⟨a, b⟩ = some l → t.links.get? ⟨b, a⟩ = some r →
    l.isWireless = true → r.isWireless = true ∧ r.sectors = l.sectors.map Prod.swap ∧
      g.bearing ⟨b, a⟩ = rxAzimuth (g.bearing ⟨a, b⟩)
  noCn : ∀ id l s, t.links.get? id = some l → t.sites.get? l.tx = some s → s.siteType ≠ .cn
  onEnds : ∀ id l a b, t.links.get? id = some l → l.sectors = some (a, b) →
    a.site = l.tx ∧ b.site = l.rx

theorem scanTo_of_tx {t : Topology} {g : Geometry} (rec : t.Reciprocal g) (force : Bool)
    {id : LinkId} {l : Link} (h : t.links.get? id = some l) : t.scanTo g force l.tx = g.scan l.tx := by
  unfold scanTo fullScan
  rw [if_neg]
  intro c
  rw [Bool.and_eq_true, beq_iff_eq, Option.map_eq_some_iff] at c
  obtain ⟨_, s, hs, hc⟩ := c
  exact rec.noCn id l s h hs hc

theorem bestSectors_swap {t : Topology} {g : Geometry} (inv : t.Inv) (rec : t.Reciprocal g)
    (force : Bool) {id : LinkId} {l r : Link} (h : t.links.get? id = some l)
    (hr : t.links.get? ⟨l.rx, l.tx⟩ = some r) (hw : l.isWireless = true) :
    t.bestSectors g force r = ((t.bestSectors g force l).2, (t.bestSectors g force l).1) := by
  have e1 := inv.link_id _ _ h
  have e2 := inv.link_id _ _ hr
  rw [LinkId.mk.injEq] at e2
  subst e1
  obtain ⟨_, _, hb⟩ := rec.reverse l.tx l.rx l r h hr hw
  have s1 := scanTo_of_tx rec force h
  have s2 := scanTo_of_tx rec force hr
  unfold bestSectors
  have i1 : l.id = ⟨l.tx, l.rx⟩ := rfl
  have i2 : r.id = ⟨l.rx, l.tx⟩ := by unfold Link.id; rw [← e2.1, ← e2.2]
  rw [i1, i2, ← e2.1, ← e2.2] at *
  rw [hb, s1, rxAzimuth_rxAzimuth _ (rec.bearing _).1 (rec.bearing _).2]
  rw [s2]

theorem target_swap {t : Topology} {g : Geometry} (inv : t.Inv) (rec : t.Reciprocal g)
    (force : Bool) {id : LinkId} {l r : Link} (h : t.links.get? id = some l)
    (hr : t.links.get? ⟨l.rx, l.tx⟩ = some r) (hw : l.isWireless = true) :
    t.target g force r = (t.target g force l).map Prod.swap := by
  have hb := bestSectors_swap inv rec force h hr hw
  have e1 := inv.link_id _ _ h
  subst e1
  obtain ⟨h1, h2, _⟩ := rec.reverse l.tx l.rx l r h hr hw
  unfold target
  rw [if_pos hw, if_pos h1, h2, hb]
  generalize t.bestSectors g force l = o
  obtain ⟨x, y⟩ := o
  cases l.sectors with
  | some p => rfl
  | none => cases x <;> cases y <;> rfl

/-- The link under `id` has its final sectors. -/
def DoneAt (t0 : Topology) (g : Geometry) (force : Bool) (t : Topology) (id : LinkId) : Prop :=
  ∀ l0, t0.links.get? id = some l0 →
    t.links.get? id = some { l0 with sectors := t0.target g force l0 }

/-- State of the loop relative to its start. -/
structure Sim (t0 : Topology) (g : Geometry) (force : Bool) (t : Topology) : Prop where
  sites : t.sites = t0.sites
  geo : geo t.sectors = geo t0.sectors
  keys : t.links.keys = t0.links.keys
  link : ∀ id, t.links.get? id = t0.links.get? id ∨ DoneAt t0 g force t id

theorem doneAt_of_sectors {t0 t : Topology} {g : Geometry} {force : Bool}
    (sim : Sim t0 g force t) {id : LinkId} {l0 l : Link} (h0 : t0.links.get? id = some l0)
    (h : t.links.get? id = some l) (hw : l.isWireless = true) (hs : l.sectors.isSome) :
    l = { l0 with sectors := t0.target g force l0 } := by
  rcases sim.link id with e | e
  · rw [h, h0] at e
    have e' := Option.some.inj e
    rw [e'] at hs hw ⊢
    unfold target
    rw [if_pos hw]
    cases hl : l0.sectors with
    | none => rw [hl] at hs; cases hs
    | some p => simp only [← hl]
  · have := e l0 h0
    rw [h] at this
    exact Option.some.inj this

theorem setLinkSectors_get? (t : Topology) (id id' : LinkId) (p : Option (SectorId × SectorId)) :
    (t.setLinkSectors id p).links.get? id' =
      if id = id' then (t.links.get? id').map (fun l => { l with sectors := p })
      else t.links.get? id' := by
  unfold setLinkSectors
  dsimp only
  rw [Dict.get?_modify]

theorem Sim.get {t0 t : Topology} {g : Geometry} {force : Bool} (sim : Sim t0 g force t)
    {id : LinkId} {l0 : Link} (h0 : t0.links.get? id = some l0) :
    ∃ p, t.links.get? id = some { l0 with sectors := p } := by
  rcases sim.link id with e | e
  · exact ⟨l0.sectors, by rw [e, h0]⟩
  · exact ⟨_, e l0 h0⟩

theorem Sim.orig {t0 t : Topology} {g : Geometry} {force : Bool} (sim : Sim t0 g force t)
    {id : LinkId} {l : Link} (h : t.links.get? id = some l) :
    ∃ l0, t0.links.get? id = some l0 ∧ ∃ p, l = { l0 with sectors := p } := by
  have : id ∈ t.links.keys := (Dict.mem_keys_iff _ _).2 ⟨l, h⟩
  rw [sim.keys] at this
  obtain ⟨l0, h0⟩ := (Dict.mem_keys_iff _ _).1 this
  obtain ⟨p, hp⟩ := sim.get h0
  rw [h] at hp
  exact ⟨l0, h0, p, Option.some.inj hp⟩

/-- What is known about a link once it has been visited. -/
def Checked (t0 : Topology) (g : Geometry) (force : Bool) (id : LinkId) : Prop :=
  ∀ l0, t0.links.get? id = some l0 → l0.isWireless = true →
    (l0.sectors.isSome → t0.validateLinkSectors g force l0 = none) ∧
    (l0.status.active = true → (t0.target g force l0).isSome)

theorem assignLink_step {t0 t t1 : Topology} {g : Geometry} {force : Bool}
    {chan : Option (Dict LinkId Int)} (inv : t0.Inv) (rec : t0.Reciprocal g)
    (sim : Sim t0 g force t) {id : LinkId} {l : Link} (h : t.links.get? id = some l)
    (ok : t.assignLink g force chan l = (t1, none)) :
    Sim t0 g force t1 ∧ DoneAt t0 g force t1 id ∧
    (∀ id', DoneAt t0 g force t id' → DoneAt t0 g force t1 id') ∧ Checked t0 g force id := by
  obtain ⟨l0, h0, p, hl⟩ := sim.orig h
  have hid := inv.link_id _ _ h0
  have hwl : l.isWireless = l0.isWireless := by rw [hl]
  unfold assignLink at ok
  by_cases hw : l.isWireless = true
  · rw [if_pos hw] at ok
    by_cases hs : l.sectors.isSome = true
    · rw [if_pos hs, Prod.mk.injEq] at ok
      obtain ⟨rfl, hv⟩ := ok
      have hd := doneAt_of_sectors sim h0 h hw hs
      refine ⟨sim, ?_, fun _ x => x, ?_⟩
      · intro l0' h0'
        rw [h0] at h0'
        cases h0'
        rw [h, hd]
      · intro l0' h0' hw'
        rw [h0] at h0'
        cases h0'
        constructor
        · intro hs0
          have : t0.target g force l0 = l0.sectors := by
            unfold target
            rw [if_pos hw']
            cases hh : l0.sectors with
            | none => rw [hh] at hs0; cases hs0
            | some _ => rfl
          rw [this] at hd
          have hd' : l = l0 := hd
          rw [hd', validate_congr t t0 sim.geo sim.sites] at hv
          exact hv
        · intro _
          rw [hd] at hs
          exact hs
    · rw [if_neg hs] at ok
      have hs0 : l.sectors = none := by
        cases hh : l.sectors with
        | none => rfl
        | some _ => rw [hh] at hs; exact absurd rfl hs
      have hw0 : l0.isWireless = true := by rw [← hwl]; exact hw
      have hll : l = l0 := by
        rcases sim.link id with e | e
        · rw [h, h0] at e; exact Option.some.inj e
        · have e2 := e l0 h0
          rw [h] at e2
          have e3 := Option.some.inj e2
          have : t0.target g force l0 = none := by
            have := congrArg Link.sectors e3
            rw [hs0] at this
            exact this.symm
          have e4 : l0.sectors = none := by
            unfold target at this
            rw [if_pos hw0] at this
            cases hh : l0.sectors with
            | none => rfl
            | some _ => rw [hh] at this; cases this
          rw [e3, this, ← e4]
      subst hll
      have hbest := bestSectors_congr t t0 sim.geo sim.sites g force l
      have htgt : t0.target g force l = match t0.bestSectors g force l with
          | (some a, some b) => some (a, b)
          | _ => none := by
        unfold target; rw [if_pos hw, hs0]
      rw [← hbest] at htgt
      generalize hbo : t.bestSectors g force l = bo at ok htgt
      obtain ⟨x, y⟩ := bo
      have fail : (x = none ∨ y = none) → t0.target g force l = none ∧
          l.status.active = false ∧ t1 = t.setLinkSectors l.id none := by
        intro hxy
        have hmatch : (if l.status.active then ((t, some Err.optimizer) : Out)
            else (t.setLinkSectors l.id none, none)) = (t1, none) ∧ t0.target g force l = none := by
          rcases hxy with rfl | rfl
          · exact ⟨ok, htgt⟩
          · cases x <;> exact ⟨ok, htgt⟩
        obtain ⟨hm, ht⟩ := hmatch
        by_cases ha : l.status.active = true
        · rw [if_pos ha, Prod.mk.injEq] at hm; cases hm.2
        · rw [if_neg ha, Prod.mk.injEq] at hm
          exact ⟨ht, by simpa using ha, hm.1.symm⟩
      have failDone : (x = none ∨ y = none) → Sim t0 g force t1 ∧ DoneAt t0 g force t1 id ∧
          (∀ id', DoneAt t0 g force t id' → DoneAt t0 g force t1 id') ∧ Checked t0 g force id := by
        intro hxy
        obtain ⟨ht, ha, rfl⟩ := fail hxy
        have hlid : l.id = id := hid.symm
        rw [hlid]
        have hlinks : ∀ id', (t.setLinkSectors id none).links.get? id' = t.links.get? id' := by
          intro id'
          rw [setLinkSectors_get?]
          by_cases c : id = id'
          · subst c
            rw [if_pos rfl, h]
            simp only [Option.map_some, ← hs0]
          · rw [if_neg c]
        refine ⟨⟨sim.sites, sim.geo, ?_, ?_⟩, ?_, ?_, ?_⟩
        · rw [← sim.keys]
          unfold setLinkSectors
          dsimp only
          rw [Dict.keys_modify]
        · intro id'
          unfold DoneAt
          rw [hlinks]
          exact sim.link id'
        · intro l' hl'
          rw [hlinks, h, ]
          rw [h0] at hl'
          cases hl'
          rw [ht, ← hs0]
        · intro id' hd l' hl'
          rw [hlinks]
          exact hd l' hl'
        · intro l' hl' _
          rw [h0] at hl'
          cases hl'
          exact ⟨fun c => (by rw [hs0] at c; cases c), fun c => (by rw [ha] at c; cases c)⟩
      cases x with
      | none => exact failDone (Or.inl rfl)
      | some a =>
        cases y with
        | none => exact failDone (Or.inr rfl)
        | some b =>
          dsimp only at ok htgt
          have hlid : l.id = id := hid.symm
          rw [hlid] at ok
          have hne : id ≠ ⟨l.rx, l.tx⟩ := by
            intro c
            have htr : l.tx = l.rx := by rw [hid, LinkId.mk.injEq] at c; exact c.1
            have h0' : t0.links.get? ⟨l.tx, l.rx⟩ = some l := by rw [← hid]; exact h0
            have h0'' : t0.links.get? ⟨l.rx, l.tx⟩ = some l := by rw [← c]; exact h0
            have := (rec.reverse _ _ _ _ h0' h0'' hw).2.2
            rw [htr] at this
            exact rxAzimuth_ne _ this.symm
          have mg := markAssigned_geo ((t.setLinkSectors id (some (a, b))).setLinkSectors
            ⟨l.rx, l.tx⟩ (some (b, a))) chan l a b
          rw [ok] at mg
          dsimp only at mg
          obtain ⟨mg1, mg2, mg3⟩ := mg
          have hlinks : ∀ id', t1.links.get? id' =
              if (⟨l.rx, l.tx⟩ : LinkId) = id' then
                (t.links.get? id').map (fun l => { l with sectors := some (b, a) })
              else if id = id' then (t.links.get? id').map (fun l => { l with sectors := some (a, b) })
              else t.links.get? id' := by
            intro id'
            rw [mg2, setLinkSectors_get?, setLinkSectors_get?]
            by_cases c : (⟨l.rx, l.tx⟩ : LinkId) = id'
            · rw [if_pos c, if_pos c, if_neg (by rw [← c]; exact hne)]
            · rw [if_neg c, if_neg c]
          have hdone : DoneAt t0 g force t1 id := by
            intro l' hl'
            rw [h0] at hl'
            cases hl'
            rw [hlinks, if_neg hne.symm, if_pos rfl, h, htgt]
            rfl
          have hdoneR : DoneAt t0 g force t1 ⟨l.rx, l.tx⟩ := by
            intro r hr
            obtain ⟨q, hq⟩ := sim.get hr
            rw [hlinks, if_pos rfl, hq, target_swap inv rec force h0 hr hw, htgt]
            rfl
          refine ⟨⟨?_, ?_, ?_, ?_⟩, hdone, ?_, ?_⟩
          · rw [mg3]; exact sim.sites
          · rw [mg1]; exact sim.geo
          · rw [mg2, ← sim.keys]
            unfold setLinkSectors
            dsimp only
            rw [Dict.keys_modify, Dict.keys_modify]
          · intro id'
            by_cases c1 : (⟨l.rx, l.tx⟩ : LinkId) = id'
            · right; rw [← c1]; exact hdoneR
            · by_cases c2 : id = id'
              · right; rw [← c2]; exact hdone
              · unfold DoneAt
                rw [hlinks, if_neg c1, if_neg c2]
                exact sim.link id'
          · intro id' hd
            by_cases c1 : (⟨l.rx, l.tx⟩ : LinkId) = id'
            · rw [← c1]; exact hdoneR
            · by_cases c2 : id = id'
              · rw [← c2]; exact hdone
              · unfold DoneAt
                rw [hlinks, if_neg c1, if_neg c2]
                exact hd
          · intro l' hl' _
            rw [h0] at hl'
            cases hl'
            exact ⟨fun c => (by rw [hs0] at c; cases c), fun _ => (by rw [htgt]; rfl)⟩
  · rw [if_neg hw, Prod.mk.injEq] at ok
    obtain ⟨rfl, _⟩ := ok
    refine ⟨sim, ?_, fun _ x => x, ?_⟩
    · intro l' hl'
      rw [h0] at hl'
      cases hl'
      have ht : t0.target g force l0 = l0.sectors := by
        unfold target; rw [if_neg (by rw [← hwl]; exact hw)]
      rcases sim.link id with e | e
      · rw [e, h0, ht]
      · exact e l0 h0
    · intro l' hl' hw'
      rw [h0] at hl'
      cases hl'
      exact absurd (hwl ▸ hw') hw

theorem assignLoop_spec {t0 : Topology} {g : Geometry} {force : Bool}
    {chan : Option (Dict LinkId Int)} (inv : t0.Inv) (rec : t0.Reciprocal g) :
    ∀ (ks : List LinkId) (t t1 : Topology), Sim t0 g force t →
      t.assignLoop g force chan ks = (t1, none) →
      Sim t0 g force t1 ∧ (∀ id, DoneAt t0 g force t id → DoneAt t0 g force t1 id) ∧
      ∀ id ∈ ks, DoneAt t0 g force t1 id ∧ Checked t0 g force id := by
  intro ks
  induction ks with
  | nil =>
    intro t t1 sim ok
    unfold assignLoop at ok
    rw [Prod.mk.injEq] at ok
    obtain ⟨rfl, _⟩ := ok
    exact ⟨sim, fun _ x => x, fun id h => by cases h⟩
  | cons k ks ih =>
    intro t t1 sim ok
    unfold assignLoop at ok
    cases hk : t.links.get? k with
    | none => rw [hk] at ok; cases ok
    | some l =>
      rw [hk] at ok
      dsimp only at ok
      generalize ho : t.assignLink g force chan l = o at ok
      obtain ⟨t2, e⟩ := o
      cases e with
      | some e => cases ok
      | none =>
        dsimp only at ok
        obtain ⟨sim2, d2, m2, c2⟩ := assignLink_step inv rec sim hk ho
        obtain ⟨sim3, m3, d3⟩ := ih t2 t1 sim2 ok
        refine ⟨sim3, fun id h => m3 id (m2 id h), ?_⟩
        intro id hid
        rcases List.mem_cons.1 hid with e | e
        · rw [e]; exact ⟨m3 k d2, c2⟩
        · exact d3 id e

theorem addSectors_spec {t0 t1 : Topology} {g : Geometry} {force : Bool}
    {chan : Option (Dict LinkId Int)} (inv : t0.Inv) (rec : t0.Reciprocal g)
    (ok : t0.addSectorsToLinks g force chan = (t1, none)) :
    Sim t0 g force t1 ∧ ∀ id l0, t0.links.get? id = some l0 →
      t1.links.get? id = some { l0 with sectors := t0.target g force l0 } ∧
      Checked t0 g force id := by
  obtain ⟨s, _, d⟩ := assignLoop_spec inv rec t0.links.keys t0 t1
    ⟨rfl, rfl, rfl, fun _ => Or.inl rfl⟩ ok
  refine ⟨s, ?_⟩
  intro id l0 h0
  obtain ⟨d1, d2⟩ := d id ((Dict.mem_keys_iff _ _).2 ⟨l0, h0⟩)
  exact ⟨d1 l0 h0, d2⟩

/-! ## Statements -/

theorem within_shift (x b r : ℚ) : Within x (rxAzimuth b) r ↔ Within x (b + 180) r := by
  unfold Within rxAzimuth mod360
  generalize ⌊(b + 180) / 360⌋ = n
  constructor
  · rintro ⟨k, h⟩
    refine ⟨k + n, ?_⟩
    rw [show x - (b + 180) + 360 * ((k + n : ℤ) : ℚ) = x - (b + 180 - 360 * (n : ℚ)) + 360 * (k : ℚ) by
      push_cast; ring]
    exact h
  · rintro ⟨k, h⟩
    refine ⟨k - n, ?_⟩
    rw [show x - (b + 180 - 360 * (n : ℚ)) + 360 * ((k - n : ℤ) : ℚ) = x - (b + 180) + 360 * (k : ℚ) by
      push_cast; ring]
    exact h

theorem noFarther_shift (b x y : ℚ) (h : NoFarther (rxAzimuth b) x y) : NoFarther (b + 180) x y := by
  intro k
  unfold rxAzimuth mod360 NoFarther at h
  generalize ⌊(b + 180) / 360⌋ = n at h
  obtain ⟨k', hk⟩ := h (k - n)
  refine ⟨k' + n, ?_⟩
  rw [show x - (b + 180) + 360 * ((k' + n : ℤ) : ℚ) = x - (b + 180 - 360 * (n : ℚ)) + 360 * (k' : ℚ) by
      push_cast; ring,
    show y - (b + 180) + 360 * (k : ℚ) = y - (b + 180 - 360 * (n : ℚ)) + 360 * ((k - n : ℤ) : ℚ) by
      push_cast; ring]
  exact hk

theorem closest_shift {t : Topology} {site : SiteId} {b r : ℚ} {sid : SectorId}
    (h : ClosestSector t site (rxAzimuth b) r sid) : ClosestSector t site (b + 180) r sid := by
  obtain ⟨s, h1, h2, h3, h4⟩ := h
  exact ⟨s, h1, h2, (within_shift _ _ _).1 h3, fun i s' a c => noFarther_shift _ _ _ (h4 i s' a c)⟩

theorem noSector_shift {t : Topology} {site : SiteId} {b r : ℚ}
    (h : NoSectorWithin t site (rxAzimuth b) r) : NoSectorWithin t site (b + 180) r :=
  fun i s a c d => h i s a c ((within_shift _ _ _).2 d)

theorem fullScan_iff (t : Topology) (force : Bool) (s : SiteId) :
    t.fullScan force s = true ↔
      (force = true ∧ ∃ x, t.sites.get? s = some x ∧ x.siteType = .cn) := by
  unfold fullScan
  rw [Bool.and_eq_true, beq_iff_eq, Option.map_eq_some_iff]

theorem rxRange_eq {t : Topology} {g : Geometry} {force : Bool} {s : SiteId} {r : ℚ}
    (h : RxRange t (g.scan s) force s r) : t.scanTo g force s = r := by
  unfold scanTo
  rcases h with ⟨h, rfl⟩ | ⟨h, rfl⟩
  · rw [if_pos ((fullScan_iff _ _ _).2 h)]
  · rw [if_neg (fun c => h ((fullScan_iff _ _ _).1 c))]

theorem abs_angleDelta_le (a b : ℚ) (ha : 0 ≤ a ∧ a < 360) (hb : 0 ≤ b ∧ b < 360) :
    |angleDelta a b| ≤ 180 := by
  obtain ⟨l, u⟩ := C56_range_partial a b (by linarith [ha.1, hb.2]) (by linarith [ha.2, hb.1])
  exact abs_le.2 ⟨by linarith, u⟩

/-- `validate_link_sectors` passes exactly on links whose two sectors point at
the other end within half their scan range. -/
theorem validate_iff {t : Topology} {g : Geometry} (inv : t.Inv) (az : t.AzimuthsNormal)
    (force : Bool) (l : Link) (hb : 0 ≤ g.bearing l.id ∧ g.bearing l.id < 360)
    (a b : SectorId) (hs : l.sectors = some (a, b)) (ha : a.site = l.tx) (hbs : b.site = l.rx)
    (r : ℚ) (hr : RxRange t (g.scan l.rx) force l.rx r) :
    t.validateLinkSectors g force l = none ↔
      SectorWithin t l.tx (g.bearing l.id) (g.scan l.tx / 2 + 1 / 100) a ∧
      SectorWithin t l.rx (g.bearing l.id + 180) (r / 2 + 1 / 100) b := by
  have hrx := rxAzimuth_range (g.bearing l.id)
  unfold validateLinkSectors
  rw [hs]
  dsimp only
  unfold SectorWithin
  cases ea : t.sectors.get? a with
  | none => simp
  | some sa =>
    cases eb : t.sectors.get? b with
    | none => simp
    | some sb =>
      have na := az _ _ ea
      have nb := az _ _ eb
      have ia : sa.site = l.tx := by rw [← ha, ← inv.sector_id _ _ ea]; rfl
      have ib : sb.site = l.rx := by rw [← hbs, ← inv.sector_id _ _ eb]; rfl
      simp only [Option.some.injEq, exists_eq_left', ia, ib, true_and]
      rw [← within_shift, within_iff _ _ _ na hb, within_iff _ _ _ nb hrx, C56_symmetric sa.azimuth,
        C56_symmetric sb.azimuth]
      unfold angleTol
      have hfull := fullScan_iff t force l.rx
      rw [hbs]
      by_cases h1 : |angleDelta (g.bearing l.id) sa.azimuth| < g.scan l.tx / 2 + 1 / 100
      · rw [if_pos h1]
        rcases hr with ⟨hr, rfl⟩ | ⟨hr, rfl⟩
        · rw [if_pos (hfull.2 hr)]
          have := abs_angleDelta_le _ _ hrx nb
          simp only [h1, true_and, true_iff]
          linarith
        · rw [if_neg (fun c => hr (hfull.1 c))]
          by_cases h2 : |angleDelta (rxAzimuth (g.bearing l.id)) sb.azimuth| < g.scan l.rx / 2 + 1 / 100
          · rw [if_pos h2]; simp only [h1, h2, and_self]
          · rw [if_neg h2]; simp only [h1, h2, and_false, reduceCtorEq]
      · rw [if_neg h1]
        simp only [h1, false_and, reduceCtorEq]

theorem target_unassigned {t : Topology} {g : Geometry} (inv : t.Inv) (az : t.AzimuthsNormal)
    (rec : t.Reciprocal g) (force : Bool) {id : LinkId} {l : Link} (h : t.links.get? id = some l)
    (hw : l.isWireless = true) (hs : l.sectors = none) (r : ℚ)
    (hr : RxRange t (g.scan l.rx) force l.rx r) :
    (∀ a b, t.target g force l = some (a, b) →
        ClosestSector t l.tx (g.bearing id) (g.scan l.tx / 2 + 1 / 100) a ∧
        ClosestSector t l.rx (g.bearing id + 180) (r / 2 + 1 / 100) b) ∧
      (t.target g force l = none →
        NoSectorWithin t l.tx (g.bearing id) (g.scan l.tx / 2 + 1 / 100) ∨
        NoSectorWithin t l.rx (g.bearing id + 180) (r / 2 + 1 / 100)) := by
  have hid : l.id = id := (inv.link_id _ _ h).symm
  have hb := rec.bearing id
  have hrx := rxAzimuth_range (g.bearing id)
  unfold target
  rw [if_pos hw, hs]
  dsimp only
  unfold bestSectors
  rw [rxRange_eq hr, hid]
  unfold angleTol
  generalize ho1 : closestLoop (g.bearing id) (g.scan l.tx / 2 + 1 / 100) none (t.sectorAz l.tx) = o1
  generalize ho2 : closestLoop (rxAzimuth (g.bearing id)) (r / 2 + 1 / 100) none (t.sectorAz l.rx) = o2
  cases o1 with
  | none => exact ⟨fun a b c => (by cases c), fun _ => Or.inl (closest_none inv az _ _ _ hb ho1)⟩
  | some a' =>
    cases o2 with
    | none =>
      exact ⟨fun a b c => (by cases c), fun _ => Or.inr (noSector_shift (closest_none inv az _ _ _ hrx ho2))⟩
    | some b' =>
      refine ⟨?_, fun c => (by cases c)⟩
      intro a b c
      simp only [Option.some.injEq, Prod.mk.injEq] at c
      obtain ⟨rfl, rfl⟩ := c
      exact ⟨closest_some inv az _ _ _ hb _ ho1, closest_shift (closest_some inv az _ _ _ hrx _ ho2)⟩

/-- C57 for the state of any history whose two directions of a link have exactly
opposite bearings (`Reciprocal`): when the call succeeds, wired links are
untouched; sectors that were assigned before stay and point within half the
scan range (plus 0.01) at the other end; a link without sectors gets at each end
the closest sector of that site within range, or, if it is not active and one
end has no such sector, none. Nothing else of the link changes.
Missing: bearings that are not exactly opposite, as on the ellipsoid; then it is
false (`C57_bearing_violation`). -/
theorem C57_closest_within_range_partial (ops : List Op) (g : Geometry) (force : Bool)
    (chan : Option (Dict LinkId Int)) (t' : Topology)
    (rec : (run {} ops).Reciprocal g) (az : (run {} ops).AzimuthsNormal)
    (ok : (run {} ops).addSectorsToLinks g force chan = (t', none)) :
    let t := run {} ops
    ∀ id l, t.links.get? id = some l → ∃ secs, t'.links.get? id = some { l with sectors := secs } ∧
      (l.isWireless = false → secs = l.sectors) ∧
      (l.isWireless = true → ∀ r, RxRange t (g.scan l.rx) force l.rx r →
        (∀ a b, l.sectors = some (a, b) → secs = some (a, b) ∧
          SectorWithin t l.tx (g.bearing id) (g.scan l.tx / 2 + 1 / 100) a ∧
          SectorWithin t l.rx (g.bearing id + 180) (r / 2 + 1 / 100) b) ∧
        (l.sectors = none → ∀ a b, secs = some (a, b) →
          ClosestSector t l.tx (g.bearing id) (g.scan l.tx / 2 + 1 / 100) a ∧
          ClosestSector t l.rx (g.bearing id + 180) (r / 2 + 1 / 100) b) ∧
        (secs = none → l.status.active = false ∧
          (NoSectorWithin t l.tx (g.bearing id) (g.scan l.tx / 2 + 1 / 100) ∨
           NoSectorWithin t l.rx (g.bearing id + 180) (r / 2 + 1 / 100)))) := by
  have inv := Inv.empty.run ops
  generalize run {} ops = t at *
  intro t id l h
  obtain ⟨_, spec⟩ := addSectors_spec inv rec ok
  obtain ⟨h1, h2⟩ := spec id l h
  have hid : l.id = id := (inv.link_id _ _ h).symm
  refine ⟨_, h1, ?_, ?_⟩
  · intro hw
    unfold target
    rw [hw]; rfl
  · intro hw r hr
    obtain ⟨c1, c2⟩ := h2 l h hw
    have hpre : ∀ a b, l.sectors = some (a, b) → t.target g force l = some (a, b) := by
      intro a b hs
      unfold target
      rw [if_pos hw, hs]
    refine ⟨?_, ?_, ?_⟩
    · intro a b hs
      refine ⟨hpre a b hs, ?_⟩
      obtain ⟨e1, e2⟩ := rec.onEnds id l a b h hs
      have := (validate_iff inv az force l (rec.bearing _) a b hs e1 e2 r hr).1 (c1 (by rw [hs]; rfl))
      rw [hid] at this
      exact this
    · intro hs a b e
      exact (target_unassigned inv az rec force h hw hs r hr).1 a b e
    · intro e
      have hs : l.sectors = none := by
        cases hh : l.sectors with
        | none => rfl
        | some p => rw [hpre p.1 p.2 hh] at e; cases e
      refine ⟨?_, (target_unassigned inv az rec force h hw hs r hr).2 e⟩
      cases ha : l.status.active with
      | false => rfl
      | true => have := c2 ha; rw [e] at this; cases this

theorem closest_site {t : Topology} (inv : t.Inv) {site : SiteId} {b r : ℚ} {sid : SectorId}
    (h : ClosestSector t site b r sid) : SectorWithin t site b r sid ∧ sid.site = site := by
  obtain ⟨s, h1, h2, h3, _⟩ := h
  refine ⟨⟨s, h1, h2, h3⟩, ?_⟩
  rw [← inv.sector_id _ _ h1]
  exact h2

/-- Every wireless link is either already assigned to sectors that reach, or
inactive, or within reach of a sector at both ends. -/
def Assignable (t : Topology) (g : Geometry) (force : Bool) : Prop :=
  ∀ id l, t.links.get? id = some l → l.isWireless = true →
    ∀ r, RxRange t (g.scan l.rx) force l.rx r →
      (∀ a b, l.sectors = some (a, b) →
        SectorWithin t l.tx (g.bearing id) (g.scan l.tx / 2 + 1 / 100) a ∧
        SectorWithin t l.rx (g.bearing id + 180) (r / 2 + 1 / 100) b) ∧
      (l.sectors = none → l.status.active = true →
        (∃ a, SectorWithin t l.tx (g.bearing id) (g.scan l.tx / 2 + 1 / 100) a) ∧
        (∃ b, SectorWithin t l.rx (g.bearing id + 180) (r / 2 + 1 / 100) b))

theorem rxRange_exists (t : Topology) (scan : ℚ) (force : Bool) (s : SiteId) :
    ∃ r, RxRange t scan force s r := by
  by_cases h : force = true ∧ ∃ x, t.sites.get? s = some x ∧ x.siteType = .cn
  · exact ⟨360, Or.inl ⟨h, rfl⟩⟩
  · exact ⟨scan, Or.inr ⟨h, rfl⟩⟩

theorem assignLink_ok {t0 t : Topology} {g : Geometry} {force : Bool} (inv : t0.Inv)
    (az : t0.AzimuthsNormal) (rec : t0.Reciprocal g) (asg : t0.Assignable g force)
    (sim : Sim t0 g force t) {id : LinkId} {l : Link} (h : t.links.get? id = some l) :
    (t.assignLink g force none l).2 = none := by
  obtain ⟨l0, h0, p, hl⟩ := sim.orig h
  have hid := inv.link_id _ _ h0
  have hwl : l.isWireless = l0.isWireless := by rw [hl]
  obtain ⟨r, hr⟩ := rxRange_exists t0 (g.scan l0.rx) force l0.rx
  unfold assignLink
  by_cases hw : l.isWireless = true
  · have hw0 : l0.isWireless = true := by rw [← hwl]; exact hw
    obtain ⟨as1, as2⟩ := asg id l0 h0 hw0 r hr
    rw [if_pos hw]
    by_cases hs : l.sectors.isSome = true
    · rw [if_pos hs]
      dsimp only
      rw [validate_congr t t0 sim.geo sim.sites]
      have hd := doneAt_of_sectors sim h0 h hw hs
      have hlid : l.id = id := by rw [hd]; exact hid.symm
      have htx : l.tx = l0.tx := by rw [hd]
      have hrx : l.rx = l0.rx := by rw [hd]
      have hsec : l.sectors = t0.target g force l0 := by rw [hd]
      cases h0s : l0.sectors with
      | some q =>
        obtain ⟨a, b⟩ := q
        have ht : t0.target g force l0 = some (a, b) := by
          unfold target; rw [if_pos hw0, h0s]
        obtain ⟨e1, e2⟩ := rec.onEnds id l0 a b h0 h0s
        refine (validate_iff inv az force l (rec.bearing _) a b (hsec.trans ht) (by rw [htx]; exact e1)
          (by rw [hrx]; exact e2) r (by rw [hrx]; exact hr)).2 ?_
        rw [hlid, htx, hrx]
        exact as1 a b h0s
      | none =>
        cases ht : t0.target g force l0 with
        | none => rw [hsec, ht] at hs; cases hs
        | some q =>
          obtain ⟨a, b⟩ := q
          obtain ⟨ca, cb⟩ := (target_unassigned inv az rec force h0 hw0 h0s r hr).1 a b ht
          obtain ⟨ca1, ca2⟩ := closest_site inv ca
          obtain ⟨cb1, cb2⟩ := closest_site inv cb
          refine (validate_iff inv az force l (rec.bearing _) a b (hsec.trans ht) (by rw [htx]; exact ca2)
            (by rw [hrx]; exact cb2) r (by rw [hrx]; exact hr)).2 ?_
          rw [hlid, htx, hrx]
          exact ⟨ca1, cb1⟩
    · rw [if_neg hs]
      have hs0 : l.sectors = none := by
        cases hh : l.sectors with
        | none => rfl
        | some _ => rw [hh] at hs; exact absurd rfl hs
      have hll : l0.sectors = none ∧ l = l0 := by
        rcases sim.link id with e | e
        · rw [h, h0] at e
          have := Option.some.inj e
          exact ⟨by rw [← this]; exact hs0, this⟩
        · have e2 := e l0 h0
          rw [h] at e2
          have e3 := Option.some.inj e2
          have : t0.target g force l0 = none := by
            have := congrArg Link.sectors e3
            rw [hs0] at this
            exact this.symm
          have e4 : l0.sectors = none := by
            unfold target at this
            rw [if_pos hw0] at this
            cases hh : l0.sectors with
            | none => rfl
            | some _ => rw [hh] at this; cases this
          refine ⟨e4, ?_⟩
          rw [e3, this, ← e4]
      obtain ⟨h0s, hll⟩ := hll
      subst hll
      rw [bestSectors_congr t t0 sim.geo sim.sites g force l]
      have ht : t0.target g force l = match t0.bestSectors g force l with
          | (some a, some b) => some (a, b)
          | _ => none := by
        unfold target; rw [if_pos hw, hs0]
      have hun := (target_unassigned inv az rec force h0 hw hs0 r hr).2
      generalize t0.bestSectors g force l = bo at ht
      have bad : t0.target g force l = none → l.status.active = false := by
        intro e
        cases ha : l.status.active with
        | false => rfl
        | true =>
          obtain ⟨⟨a, sa, q1, q2, q3⟩, ⟨b, sb, q4, q5, q6⟩⟩ := as2 hs0 ha
          rcases hun e with c | c
          · exact absurd q3 (c a sa q1 q2)
          · exact absurd q6 (c b sb q4 q5)
      obtain ⟨x, y⟩ := bo
      cases x with
      | none => dsimp only at ht ⊢; rw [bad ht]; rfl
      | some a =>
        cases y with
        | none => dsimp only at ht ⊢; rw [bad ht]; rfl
        | some b => rfl
  · rw [if_neg hw]

theorem assignLoop_ok {t0 : Topology} {g : Geometry} {force : Bool} (inv : t0.Inv)
    (az : t0.AzimuthsNormal) (rec : t0.Reciprocal g) (asg : t0.Assignable g force) :
    ∀ (ks : List LinkId) (t : Topology), Sim t0 g force t → (∀ k ∈ ks, k ∈ t0.links.keys) →
      (t.assignLoop g force none ks).2 = none := by
  intro ks
  induction ks with
  | nil => intro t _ _; rfl
  | cons k ks ih =>
    intro t sim hk
    obtain ⟨l0, h0⟩ := (Dict.mem_keys_iff _ _).1 (hk k List.mem_cons_self)
    obtain ⟨p, hp⟩ := sim.get h0
    unfold assignLoop
    rw [hp]
    dsimp only
    have hok := assignLink_ok inv az rec asg sim hp
    generalize ho : t.assignLink g force none _ = o at hok
    obtain ⟨t2, e⟩ := o
    dsimp only at hok
    subst hok
    dsimp only
    obtain ⟨sim2, _⟩ := assignLink_step inv rec sim hp ho
    exact ih t2 sim2 (fun k' h' => hk k' (List.mem_cons_of_mem _ h'))

/-- C57: the call (without a channel map) is refused exactly when an assigned
link does not reach its sectors or an active link has no sector within range.
Missing: see `C57_closest_within_range_partial`. -/
theorem C57_refused_iff_partial (ops : List Op) (g : Geometry) (force : Bool)
    (rec : (run {} ops).Reciprocal g) (az : (run {} ops).AzimuthsNormal) :
    ((run {} ops).addSectorsToLinks g force none).2 = none ↔ (run {} ops).Assignable g force := by
  have inv := Inv.empty.run ops
  have main := C57_closest_within_range_partial ops g force none
  generalize run {} ops = t at *
  constructor
  · intro h id l hl hw r hr
    generalize ho : t.addSectorsToLinks g force none = o at h
    obtain ⟨t', e⟩ := o
    dsimp only at h
    subst h
    obtain ⟨secs, _, _, k⟩ := main t' rec az ho id l hl
    obtain ⟨k1, k2, k3⟩ := k hw r hr
    refine ⟨fun a b hs => (k1 a b hs).2, ?_⟩
    intro hs ha
    cases secs with
    | none => rw [(k3 rfl).1] at ha; cases ha
    | some q =>
      obtain ⟨a, b⟩ := q
      obtain ⟨c1, c2⟩ := k2 hs a b rfl
      exact ⟨⟨a, (closest_site inv c1).1⟩, ⟨b, (closest_site inv c2).1⟩⟩
  · intro asg
    exact assignLoop_ok inv az rec asg _ t ⟨rfl, rfl, rfl, fun _ => Or.inl rfl⟩ (fun _ h => h)

/-- Two DNs with two sectors each and a CN; the DNs are linked both ways, the CN
is linked from the first DN, and a second link leads where no sector points. -/
def sectorDemo : List Op := [
  .addSite { id := "A", siteType := .dn, status := .proposed } false,
  .addSite { id := "B", siteType := .dn, status := .proposed } false,
  .addSite { id := "C", siteType := .cn, status := .candidate } false,
  .addSector { site := "A", node := 0, pos := 0, azimuth := 80 },
  .addSector { site := "A", node := 0, pos := 1, azimuth := 145 },
  .addSector { site := "B", node := 0, pos := 0, azimuth := 300 },
  .addSector { site := "C", node := 0, pos := 0, typ := .cn, azimuth := 10 },
  .addLink { tx := "A", rx := "B", status := .proposed },
  .addLink { tx := "B", rx := "A", status := .proposed },
  .addLink { tx := "A", rx := "C" },
  .addLink { tx := "B", rx := "C" }]

/-- Scan range 65 degrees everywhere; `A -> B` at 110 degrees. -/
def demoGeometry (ab ba : ℚ) : Geometry where
  scan := fun _ => 65
  bearing := fun id =>
    if id = ⟨"A", "B"⟩ then ab else if id = ⟨"B", "A"⟩ then ba
    else if id = ⟨"A", "C"⟩ then 150 else 20

example : ((run {} sectorDemo).addSectorsToLinks (demoGeometry 112 292) true none).2 = none ∧
    (((run {} sectorDemo).addSectorsToLinks (demoGeometry 112 292) true none).1.links.vals.map
      (fun l => (l.id, l.sectors))) =
    [(⟨"A", "B"⟩, some (⟨"A", 0, 0, .dn⟩, ⟨"B", 0, 0, .dn⟩)),
     (⟨"B", "A"⟩, some (⟨"B", 0, 0, .dn⟩, ⟨"A", 0, 0, .dn⟩)),
     (⟨"A", "C"⟩, some (⟨"A", 0, 1, .dn⟩, ⟨"C", 0, 0, .cn⟩)),
     (⟨"B", "C"⟩, none)] := by decide +kernel

example : (run {} sectorDemo).AzimuthsNormal := by
  intro id s h
  have : s ∈ (run {} sectorDemo).sectors.vals :=
    List.mem_map.2 ⟨_, Dict.mem_of_get? _ h, rfl⟩
  have all : ∀ s ∈ (run {} sectorDemo).sectors.vals, 0 ≤ s.azimuth ∧ s.azimuth < 360 := by
    decide +kernel
  exact all s this

example : (run {} sectorDemo).Reciprocal (demoGeometry 112 292) where
  bearing := by
    intro id
    unfold demoGeometry
    dsimp only
    split
    · norm_num
    · split
      · norm_num
      · split <;> norm_num
  reverse := by
    intro a b l r hl hr
    have h1 := Dict.mem_of_get? _ hl
    have h2 := Dict.mem_of_get? _ hr
    have all : ∀ p ∈ (run {} sectorDemo).links, ∀ q ∈ (run {} sectorDemo).links,
        q.1 = ⟨p.1.rx, p.1.tx⟩ → p.2.isWireless = true → q.2.isWireless = true ∧
          q.2.sectors = p.2.sectors.map Prod.swap ∧
          (demoGeometry 112 292).bearing q.1 = rxAzimuth ((demoGeometry 112 292).bearing p.1) := by
      decide +kernel
    exact all _ h1 _ h2 rfl
  noCn := by
    intro id l s hl hs
    have all : ∀ p ∈ (run {} sectorDemo).links, ∀ s ∈ (run {} sectorDemo).sites,
        s.1 = p.2.tx → s.2.siteType ≠ .cn := by decide +kernel
    exact all _ (Dict.mem_of_get? _ hl) _ (Dict.mem_of_get? _ hs) rfl
  onEnds := by
    intro id l a b hl hs
    have all : ∀ p ∈ (run {} sectorDemo).links, p.2.sectors = none := by decide +kernel
    have := all _ (Dict.mem_of_get? _ hl)
    rw [this] at hs
    cases hs

/-- C57 fails when the two bearings of a link are a few hundredths of a degree
from being opposite (as for an east-west link of about a kilometre): the forward
link, out of range when visited, is given the sectors of its reverse link
afterwards and ends up further off its transmitting sector than the tolerance
allows; no error is raised. -/
theorem C57_bearing_violation :
    let t := run {} sectorDemo
    let g := demoGeometry (80 - 65 / 2 - 3 / 200) (80 - 65 / 2 + 180 + 1 / 200)
    let o := t.addSectorsToLinks { g with scan := fun s => if s = "A" then 65 else 360 } true none
    let t2 : Topology := { t with links := t.links.modify ⟨"A", "B"⟩ (fun l => { l with status := .candidate }) }
    let o2 := t2.addSectorsToLinks { g with scan := fun s => if s = "A" then 65 else 360 } true none
    o.2 = some .optimizer ∧ o2.2 = none ∧
    (o2.1.links.get? ⟨"A", "B"⟩).bind (·.sectors) = some (⟨"A", 0, 0, .dn⟩, ⟨"B", 0, 0, .dn⟩) ∧
    (∀ k : ℤ, ¬ |(80 : ℚ) - (80 - 65 / 2 - 3 / 200) + 360 * k| < 65 / 2 + 1 / 100) := by
  refine ⟨by decide +kernel, by decide +kernel, by decide +kernel, ?_⟩
  intro k h
  have := C56_shortest_partial 80 (80 - 65 / 2 - 3 / 200) (by norm_num) (by norm_num) k
  have e : |angleDelta 80 (80 - 65 / 2 - 3 / 200)| = 65 / 2 + 3 / 200 := by decide +kernel
  rw [e] at this
  linarith

end Topology
end Verif
