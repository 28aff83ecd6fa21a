import Verif.Props.Tables3
import Verif.Props.Capex

/-! # C136: the tables can be made if the statistics can; C133: the costs in the table -/

namespace Verif
open Spec Topology Finset

/-- **C136.** If the statistics of the report can be computed and wired links have no sectors, the tables can be made,
whatever links and sectors violate limits. The table of links has a row for each link if one is in use and is empty
otherwise; the table of sites has a row for each site; the table of sectors has a row for each sector in use. -/
theorem C136_tables (ops : List Op) (I : MetricsInput) (m : Metrics) (hm : metrics (run {} ops) I = .ok m)
    (hw : ∀ l, LinkUsed (run {} ops) l → l.isWireless = false → l.sectors = none)
    (lim : AngleLimits) (angle : SiteId → SiteId → SiteId → ℚ × ℚ)
    (symm : ∀ i j k, angle i j k = angle i k j) (D N : List Triple)
    (ok : (run {} ops).findAngleViolations lim true angle = .ok (D, N)) (over : Dict SectorId (List SectorId))
    (c : SiteCosts) (flow : LinkId → ℚ) :
    ∃ T, (run {} ops).tables c flow D N over = .ok T ∧
      ((∃ l, LinkUsed (run {} ops) l) → T.links.map (·.id) = (run {} ops).links.keys) ∧
      ((¬ ∃ l, LinkUsed (run {} ops) l) → T.links = []) ∧
      T.sites.map (·.id) = (run {} ops).sites.keys ∧
      (T.sectors.map (·.id)).Nodup ∧
      ∀ s, s ∈ T.sectors.map (·.id) ↔ ∃ x, (run {} ops).sectors.get? s = some x ∧ InNetwork x.status := by
  classical
  obtain ⟨_, _, ⟨p, x, hp, _, hpu⟩, hg⟩ := (C119_raises_exactly_partial ops I).1 ⟨m, hm⟩
  have hsc : ∀ l, LinkUsed (run {} ops) l → l.isWireless = true ∧ ∃ a b x y, l.sectors = some (a, b) ∧
      (run {} ops).sectors.get? a = some x ∧ (run {} ops).sectors.get? b = some y ∧ x.channel = y.channel := by
    intro l hl
    obtain ⟨a, b, e, g⟩ := hg l hl.1 hl.2
    have hwl : l.isWireless = true := by
      cases hi : l.isWireless
      · have := hw l hl hi
        rw [e] at this
        cases this
      · rfl
    obtain ⟨x, y, hx, hy, hxy⟩ := g.channel hwl
    exact ⟨hwl, a, b, x, y, e, hx, hy, hxy⟩
  have sok : ∀ l, LinkUsed (run {} ops) l → SameChannel (run {} ops) l := by
    intro l hl a b e
    obtain ⟨_, a', b', x, y, e', h⟩ := hsc l hl
    rw [e] at e'
    cases e'
    exact ⟨x, y, h⟩
  have kok : ∀ l, LinkUsed (run {} ops) l → l.isWireless = true → KnownEnds (run {} ops) l := by
    intro l hl _
    obtain ⟨_, a, b, x, y, e, hx, hy, _⟩ := hsc l hl
    exact ⟨a, b, x, y, e, hx, hy⟩
  obtain ⟨srows, s1, s2, _⟩ := C133_sites ops c flow
  have L := C135_raises_exactly ops lim angle symm D N ok over
  have R := C135_rows ops lim angle symm D N ok over
  have S := C134_raises_exactly ops over
  have SR := C134_rows ops over
  have inv := Inv.empty.run ops
  generalize run {} ops = t at *
  have cnt : (t.linkCount activeFilter .wirelessBackhaul + t.linkCount activeFilter .wirelessAccess +
      t.linkCount activeFilter .ethernet > 0) ↔ ∃ l, LinkUsed t l := by
    have one : ∀ ty, 0 < t.linkCount activeFilter ty ↔ ∃ l, LinkUsed t l ∧ t.linkType l = ty := by
      intro ty
      unfold linkCount
      rw [List.length_pos_iff_exists_mem]
      simp only [List.mem_dedup, List.mem_map, List.mem_filter, Bool.and_eq_true, decide_eq_true_eq]
      constructor
      · rintro ⟨_, l, ⟨h1, h2, h3⟩, _⟩
        exact ⟨l, ⟨(mem_vals_iff inv).1 h1, (active_iff _).1 h2⟩, h3⟩
      · rintro ⟨l, ⟨h1, h2⟩, h3⟩
        exact ⟨_, l, ⟨(mem_vals_iff inv).2 h1, (active_iff _).2 h2, h3⟩, rfl⟩
    constructor
    · intro h
      have : 0 < t.linkCount activeFilter .wirelessBackhaul ∨ 0 < t.linkCount activeFilter .wirelessAccess ∨
        0 < t.linkCount activeFilter .ethernet := by omega
      rw [one, one, one] at this
      rcases this with ⟨l, h, _⟩ | ⟨l, h, _⟩ | ⟨l, h, _⟩ <;> exact ⟨l, h⟩
    · rintro ⟨l, h⟩
      have := (one (t.linkType l)).2 ⟨l, h, rfl⟩
      generalize t.linkType l = ty at this
      cases ty <;> omega
  have hact : t.activeSites > 0 := by
    have : 0 < t.siteCount activeFilter x.siteType := by
      unfold siteCount
      rw [List.count_pos_iff, List.mem_map]
      exact ⟨x, List.mem_filter.2 ⟨List.mem_map.2 ⟨_, Dict.mem_of_get? _ hp, rfl⟩, (active_iff _).2 hpu⟩, rfl⟩
    unfold activeSites
    simp only [List.map_cons, List.map_nil, List.sum_cons, List.sum_nil]
    generalize x.siteType = ty at this
    cases ty <;> omega
  have scnt : (t.sectorCount activeFilter .dn + t.sectorCount activeFilter .cn > 0) ↔
      ∃ s x, t.sectors.get? s = some x ∧ InNetwork x.status := by
    have one : ∀ ty, 0 < t.sectorCount activeFilter ty ↔
        ∃ s x, t.sectors.get? s = some x ∧ InNetwork x.status ∧ x.typ = ty := by
      intro ty
      unfold sectorCount
      rw [List.count_pos_iff, List.mem_map]
      constructor
      · rintro ⟨y, hy, rfl⟩
        obtain ⟨h1, h2⟩ := List.mem_filter.1 hy
        obtain ⟨⟨i, y⟩, hi, rfl⟩ := List.mem_map.1 h1
        exact ⟨i, y, (Dict.mem_iff_get? inv.nd_sectors _ _).1 hi, (active_iff _).1 h2, rfl⟩
      · rintro ⟨s, y, h1, h2, rfl⟩
        exact ⟨y, List.mem_filter.2 ⟨List.mem_map.2 ⟨_, Dict.mem_of_get? _ h1, rfl⟩, (active_iff _).2 h2⟩, rfl⟩
    constructor
    · intro h
      have : 0 < t.sectorCount activeFilter .dn ∨ 0 < t.sectorCount activeFilter .cn := by omega
      rw [one, one] at this
      rcases this with ⟨s, x, h1, h2, _⟩ | ⟨s, x, h1, h2, _⟩ <;> exact ⟨s, x, h1, h2⟩
    · rintro ⟨s, y, h1, h2⟩
      have := (one y.typ).2 ⟨s, y, h1, h2, rfl⟩
      generalize y.typ = ty at this
      cases ty <;> omega
  have lt : ∃ lrows, (if t.linkCount activeFilter .wirelessBackhaul + t.linkCount activeFilter .wirelessAccess +
      t.linkCount activeFilter .ethernet > 0 then t.linkTable D N over else .ok []) = .ok lrows ∧
      ((∃ l, LinkUsed t l) → lrows.map (·.id) = t.links.keys) ∧ ((¬ ∃ l, LinkUsed t l) → lrows = []) := by
    by_cases hc : ∃ l, LinkUsed t l
    · rw [if_pos (cnt.2 hc)]
      obtain ⟨l, hl⟩ := id hc
      obtain ⟨rows, h⟩ := L.2 ⟨⟨l, hl.1⟩, sok⟩
      exact ⟨rows, h, fun _ => (R rows h).1, fun hn => absurd hc hn⟩
    · rw [if_neg (fun h => hc (cnt.1 h))]
      exact ⟨[], rfl, fun h => absurd h hc, fun _ => rfl⟩
  have st : ∃ crows, (if t.sectorCount activeFilter .dn + t.sectorCount activeFilter .cn > 0 then t.sectorTable over
      else .ok []) = .ok crows ∧ (crows.map (·.id)).Nodup ∧
      ∀ s, s ∈ crows.map (·.id) ↔ ∃ x, t.sectors.get? s = some x ∧ InNetwork x.status := by
    by_cases hc : ∃ s x, t.sectors.get? s = some x ∧ InNetwork x.status
    · rw [if_pos (scnt.2 hc)]
      obtain ⟨rows, h⟩ := S.2 ⟨kok, hc⟩
      exact ⟨rows, h, (SR rows h).1, (SR rows h).2.1⟩
    · rw [if_neg (fun h => hc (scnt.1 h))]
      refine ⟨[], rfl, by simp, fun s => ?_⟩
      simp only [List.map_nil, List.not_mem_nil, false_iff]
      rintro ⟨x, h⟩
      exact hc ⟨s, x, h⟩
  obtain ⟨lrows, l1, l2, l3⟩ := lt
  obtain ⟨crows, c1, c2, c3⟩ := st
  refine ⟨⟨lrows, srows, crows⟩, ?_, l2, l3, s2, c2, c3⟩
  unfold tables
  rw [l1]
  dsimp only
  rw [if_pos hact, s1]
  dsimp only
  rw [c1]

/-- **C133.** The total cost of the plan is that of the rows of sites in use plus, for each row, its number of nodes in
use at the price of a node of the device at the site; if the sectors of each node share a status. -/
theorem C133_cost_partial (ops : List Op) (c : SiteCosts) (flow : LinkId → ℚ) (hu : NodesUniform (run {} ops))
    (rows : List SiteRow) (h : (run {} ops).siteTable c flow = .ok rows) :
    ((run {} ops).computeCapex c).1 =
      (rows.map fun r => (if (siteAt (run {} ops) r.id).status.active then r.capex else 0) +
        r.nodes * (siteAt (run {} ops) r.id).device.nodeCapex).sum := by
  rw [(C14_capex_partial _ c hu).2]
  have inv := Inv.empty.run ops
  generalize run {} ops = t at *
  classical
  obtain ⟨rows', h1, h2⟩ := site_table inv c flow t.linkHash (fun _ _ _ _ => Iff.rfl)
  rw [h] at h1
  cases h1
  have cap : ∀ s, ((t.sites.get? s).map (fun s => s.device.nodeCapex)).getD 0 = (siteAt t s).device.nodeCapex := by
    intro s
    unfold siteAt
    cases t.sites.get? s <;> rfl
  let U : Finset (SiteId × ℕ) :=
    ((t.sectors.vals.filter fun x => x.status.active).map fun x => (x.site, x.node)).toFinset
  have memU : ∀ n, n ∈ U ↔ ∃ x, UsedSector t n.1 x ∧ x.node = n.2 := by
    rintro ⟨s, n⟩
    rw [← mem_usedSectors inv (·.node) s n]
    unfold usedSectors
    simp only [U, List.mem_toFinset]
  have hU : U = nodesWith t .proposed ∪ nodesWith t .existing := by
    ext n
    unfold nodesWith
    simp only [U, Finset.mem_union, List.mem_toFinset, List.mem_map, List.mem_filter, decide_eq_true_eq]
    constructor
    · rintro ⟨x, ⟨a1, a2⟩, a3⟩
      rcases (active_iff _).1 a2 with a2 | a2
      · exact Or.inl ⟨x, ⟨a1, a2⟩, a3⟩
      · exact Or.inr ⟨x, ⟨a1, a2⟩, a3⟩
    · rintro (⟨x, ⟨a1, a2⟩, a3⟩ | ⟨x, ⟨a1, a2⟩, a3⟩)
      · exact ⟨x, ⟨a1, by rw [a2]; rfl⟩, a3⟩
      · exact ⟨x, ⟨a1, by rw [a2]; rfl⟩, a3⟩
  have hdis : Disjoint (nodesWith t .proposed) (nodesWith t .existing) := by
    rw [Finset.disjoint_left]
    intro n a b
    unfold nodesWith at a b
    simp only [List.mem_toFinset, List.mem_map, List.mem_filter, decide_eq_true_eq] at a b
    obtain ⟨x, ⟨a1, a2⟩, a3⟩ := a
    obtain ⟨y, ⟨b1, b2⟩, b3⟩ := b
    have := hu x a1 y b1 (by rw [← b3] at a3; exact congrArg Prod.fst a3) (by
      rw [← b3] at a3; exact congrArg Prod.snd a3)
    rw [a2, b2] at this
    cases this
  have row : rows.map (fun r => (if (siteAt t r.id).status.active then r.capex else 0) +
        r.nodes * (siteAt t r.id).device.nodeCapex) =
      t.sites.map (fun e => (if (siteAt t e.1).status.active then c.of (siteAt t e.1).siteType else 0) +
        ∑ n ∈ U.filter (fun n => n.1 = e.1), (siteAt t n.1).device.nodeCapex) := by
    have key : List.Forall₂ (fun e r => RowOf t c flow t.linkHash e r ∧ e ∈ t.sites) t.sites rows := by
      have : ∀ (L : List (SiteId × Site)) (M : List SiteRow), List.Forall₂ (RowOf t c flow t.linkHash) L M →
          (∀ e ∈ L, e ∈ t.sites) →
          List.Forall₂ (fun e r => RowOf t c flow t.linkHash e r ∧ e ∈ t.sites) L M := by
        intro L M hf
        induction hf with
        | nil => intro _; exact .nil
        | cons h1 _ ih => intro hm; exact .cons ⟨h1, hm _ (by simp)⟩ (ih fun e he => hm e (by simp [he]))
      exact this _ _ h2 (fun _ he => he)
    apply forall₂_map_eq key
    rintro ⟨i, x⟩ r ⟨ho, hm⟩
    have hg := (Dict.mem_iff_get? inv.nd_sites _ _).1 hm
    have hs : siteAt t i = x := by unfold siteAt; rw [hg]; rfl
    have hid : r.id = i := ho.id
    obtain ⟨N, n1, n2⟩ := ho.nodes
    have hc : r.capex = c.of x.siteType := ho.capex
    dsimp only at n1
    rw [hid]
    dsimp only
    rw [hs, hc, n2]
    congr 1
    have : ∀ n ∈ U.filter (fun n => n.1 = i), (siteAt t n.1).device.nodeCapex = x.device.nodeCapex := by
      intro n hn
      rw [(Finset.mem_filter.1 hn).2, hs]
    rw [Finset.sum_congr rfl this, Finset.sum_const, nsmul_eq_mul]
    congr 2
    refine Finset.card_bij (fun n _ => (i, n)) ?_ ?_ ?_
    · intro n hn
      rw [Finset.mem_filter, memU]
      exact ⟨(n1 n).1 hn, rfl⟩
    · intro a _ b _ hab
      exact congrArg Prod.snd hab
    · rintro ⟨s, n⟩ hn
      obtain ⟨a1, a2⟩ := Finset.mem_filter.1 hn
      dsimp only at a2
      subst a2
      exact ⟨n, (n1 n).2 ((memU _).1 a1), rfl⟩
  rw [row]
  have split : ∀ (f g : SiteId × Site → ℚ) (L : List (SiteId × Site)),
      (L.map fun e => f e + g e).sum = (L.map f).sum + (L.map g).sum := by
    intro f g L
    induction L with
    | nil => simp
    | cons e L ih => simp only [List.map_cons, List.sum_cons, ih]; ring
  rw [split]
  have nodes : (t.sites.map fun e => ∑ n ∈ U.filter (fun n => n.1 = e.1), (siteAt t n.1).device.nodeCapex).sum =
      ∑ n ∈ U, (siteAt t n.1).device.nodeCapex := by
    have : (t.sites.map fun e => ∑ n ∈ U.filter (fun n => n.1 = e.1), (siteAt t n.1).device.nodeCapex) =
        t.sites.keys.map fun s => ∑ n ∈ U.filter (fun n => n.1 = s), (siteAt t n.1).device.nodeCapex := by
      unfold Dict.keys
      rw [List.map_map]
      rfl
    rw [this, ← List.sum_toFinset _ inv.nd_sites]
    apply Finset.sum_fiberwise_of_maps_to
    intro n hn
    obtain ⟨x, ⟨a1, a2, _⟩, _⟩ := (memU n).1 hn
    rw [List.mem_toFinset, Dict.mem_keys_iff, ← a2]
    exact inv.sector_site _ _ a1
  rw [nodes, hU, Finset.sum_union hdis]
  unfold costOf
  simp only [cap]
  have sites : (t.sites.map fun e => if (siteAt t e.1).status.active then c.of (siteAt t e.1).siteType else 0).sum =
      ((t.sites.vals.filter (fun s => s.status = .proposed)).map (fun s => c.of s.siteType)).sum +
      ((t.sites.vals.filter (fun s => s.status = .existing)).map (fun s => c.of s.siteType)).sum := by
    have e : (t.sites.map fun e => if (siteAt t e.1).status.active then c.of (siteAt t e.1).siteType else 0) =
        t.sites.vals.map fun x => if x.status.active then c.of x.siteType else 0 := by
      unfold Dict.vals
      rw [List.map_map]
      apply List.map_congr_left
      rintro ⟨i, x⟩ hm
      have hg := (Dict.mem_iff_get? inv.nd_sites _ _).1 hm
      have hs : siteAt t i = x := by unfold siteAt; rw [hg]; rfl
      dsimp only [Function.comp_apply]
      rw [hs]
    rw [e]
    generalize t.sites.vals = L
    induction L with
    | nil => simp
    | cons x L ih =>
      rw [List.map_cons, List.sum_cons, ih, List.filter_cons, List.filter_cons]
      cases hx : x.status <;> simp [StatusType.active] <;> ring
  rw [sites]
  ring

/-- All tables of the small network; the statistics can be computed for it. -/
example : (metrics (run {} tableDemo) ⟨1, none, ⟨⟨[], [], []⟩, [], [], []⟩, [], fun _ => 0⟩).toOption.isSome = true ∧
    (((run {} tableDemo).tables ⟨5, 3, 1⟩ (fun _ => 0) [] [] []).toOption.map fun T =>
      (T.links, T.sites.map (·.id), T.sectors.map (·.id))) =
    some ([⟨⟨"P", "A"⟩, .sectors ⟨"P", 0, 0, .dn⟩ ⟨"A", 0, 0, .dn⟩, some 1, false, false, false⟩,
      ⟨⟨"A", "P"⟩, .sectors ⟨"A", 0, 0, .dn⟩ ⟨"P", 0, 0, .dn⟩, some 1, false, false, false⟩,
      ⟨⟨"A", "B"⟩, .sectors ⟨"A", 0, 1, .dn⟩ ⟨"B", 0, 0, .dn⟩, none, false, false, false⟩],
      ["P", "A", "B"], [⟨"P", 0, 0, .dn⟩, ⟨"A", 0, 0, .dn⟩, ⟨"A", 0, 1, .dn⟩]) := by
  decide +kernel

end Verif
