import Verif.Props.Tables

/-! # C134: the table of sectors -/

namespace Verif
open Spec Topology Finset

/-- Link `l` is a wireless link in use, to a CN or not, from or to sector `s`. -/
def Spec.UsedAt (t : Topology) (cn : Bool) (s : SectorId) (l : Link) : Prop :=
  UsedOf t cn l ∧ ∃ a b, l.sectors = some (a, b) ∧ (a = s ∨ b = s)

/-- The type of links to CNs and of the others. -/
def typeOf (cn : Bool) : LinkType := if cn then .wirelessAccess else .wirelessBackhaul

theorem usedOf_iff {t : Topology} (inv : t.Inv) (cn : Bool) (l : Link) :
    UsedOf t cn l ↔ l ∈ t.links.vals ∧ (l.status.active && t.linkType l == typeOf cn) = true := by
  have := activeOf_iff inv cn l
  unfold activeOf at this
  rw [List.mem_filter] at this
  rw [← this]
  cases cn <;> rfl

theorem usedOf_some {t : Topology} (inv : t.Inv) {l : Link} (h : LinkUsed t l) (hw : l.isWireless = true) :
    ∃ cn, UsedOf t cn l := by
  obtain ⟨x, hx⟩ := inv.link_rx _ _ h.1
  exact ⟨decide (x.siteType = .cn), h.1, h.2, hw, x, hx, by simp⟩

theorem sectorSets_ok {t : Topology} (inv : t.Inv) (cn : Bool)
    (h : ∀ l, UsedOf t cn l → KnownEnds t l) :
    ∃ d, t.sectorSets (typeOf cn) = .ok d ∧ (∀ k, (∃ xs, d.get? k = some xs) ↔ ∃ x, t.sectors.get? k = some x) ∧
      SetsOf d (fun s g => ∃ l ∈ t.links.vals, UsedAt t cn s l ∧ t.linkHash l = g) := by
  let g : Link → List (SectorId × String) := fun l =>
    if l.status.active && t.linkType l == typeOf cn then
      match l.sectors with
      | none => []
      | some (a, b) => [(a, t.linkHash l), (b, t.linkHash l)]
    else []
  have hg : ∀ l ∈ t.links.vals, t.sectorAdds (typeOf cn) l = .ok (g l) := by
    intro l hl
    unfold sectorAdds
    dsimp only [g]
    split
    · rename_i hc
      obtain ⟨a, b, x, y, e, _⟩ := h l ((usedOf_iff inv cn l).2 ⟨hl, hc⟩)
      rw [e]
    · rfl
  have mem : ∀ s h, (s, h) ∈ (t.links.vals.map g).flatten ↔
      ∃ l ∈ t.links.vals, UsedAt t cn s l ∧ t.linkHash l = h := by
    intro s h
    rw [← List.flatMap_def, List.mem_flatMap]
    apply exists_congr
    intro l
    apply and_congr_right
    intro hl
    unfold UsedAt
    rw [usedOf_iff inv cn l]
    dsimp only [g]
    split
    · rename_i hc
      cases e : l.sectors with
      | none => simp
      | some p =>
        obtain ⟨a, b⟩ := p
        simp only [List.mem_cons, Prod.mk.injEq, List.not_mem_nil, or_false, hl, hc, and_self, Option.some.injEq,
          true_and]
        constructor
        · rintro (⟨rfl, rfl⟩ | ⟨rfl, rfl⟩)
          · exact ⟨⟨_, _, ⟨rfl, rfl⟩, Or.inl rfl⟩, rfl⟩
          · exact ⟨⟨_, _, ⟨rfl, rfl⟩, Or.inr rfl⟩, rfl⟩
        · rintro ⟨⟨_, _, ⟨rfl, rfl⟩, h | h⟩, rfl⟩
          · exact Or.inl ⟨h.symm, rfl⟩
          · exact Or.inr ⟨h.symm, rfl⟩
    · rename_i hc
      simp [hc]
  unfold sectorSets
  rw [mapM_rows _ g _ hg]
  dsimp only
  obtain ⟨d, h1, h2, h3⟩ := sets_on inv (t.links.vals.map g).flatten (by
    rintro ⟨s, g'⟩ hp
    obtain ⟨l, _, ⟨hu, a, b, e, hs⟩, _⟩ := (mem s g').1 hp
    obtain ⟨a', b', x, y, e', hx, hy⟩ := h l hu
    rw [e] at e'
    cases e'
    rcases hs with rfl | rfl
    · exact ⟨x, hx⟩
    · exact ⟨y, hy⟩)
  refine ⟨d, h1, h2, fun s xs hs => ?_⟩
  obtain ⟨k1, k2⟩ := h3 s xs hs
  exact ⟨k1, fun g' => (k2 g').trans (mem s g')⟩

theorem sectorSets_known {t : Topology} (inv : t.Inv) (cn : Bool) {d : Dict SectorId (List String)}
    (h : t.sectorSets (typeOf cn) = .ok d) : ∀ l, UsedOf t cn l → KnownEnds t l := by
  intro l hu
  obtain ⟨hl, hc⟩ := (usedOf_iff inv cn l).1 hu
  unfold sectorSets at h
  cases hm : t.links.vals.mapM (t.sectorAdds (typeOf cn)) with
  | error e => rw [hm] at h; cases h
  | ok adds =>
    rw [hm] at h
    dsimp only at h
    have key : ∀ (L : List Link) (ys : List (List (SectorId × String))), L.mapM (t.sectorAdds (typeOf cn)) = .ok ys →
        ∀ l ∈ L, ∃ y ∈ ys, t.sectorAdds (typeOf cn) l = .ok y := by
      intro L
      induction L with
      | nil => intro ys _ l hl; cases hl
      | cons b L ih =>
        intro ys hy l hl
        rw [List.mapM_cons] at hy
        cases hb : t.sectorAdds (typeOf cn) b with
        | error e => rw [hb] at hy; cases hy
        | ok y =>
          rw [hb] at hy
          cases hL : L.mapM (t.sectorAdds (typeOf cn)) with
          | error e => rw [hL] at hy; cases hy
          | ok zs =>
            rw [hL] at hy
            have hy : y :: zs = ys := by cases hy; rfl
            subst hy
            rcases List.mem_cons.1 hl with rfl | hl
            · exact ⟨y, by simp, hb⟩
            · obtain ⟨z, h1, h2⟩ := ih zs hL l hl
              exact ⟨z, by simp [h1], h2⟩
    obtain ⟨y, hy, he⟩ := key _ _ hm l hl
    unfold sectorAdds at he
    rw [if_pos hc] at he
    cases hs : l.sectors with
    | none => rw [hs] at he; cases he
    | some p =>
      obtain ⟨a, b⟩ := p
      rw [hs] at he
      have he : [(a, t.linkHash l), (b, t.linkHash l)] = y := by cases he; rfl
      have kn := addAll_known _ _ _ h
      obtain ⟨x, hx⟩ := (noneOn_known inv a).1 (kn (a, t.linkHash l) (List.mem_flatten.2 ⟨y, hy, by rw [← he]; simp⟩))
      obtain ⟨z, hz⟩ := (noneOn_known inv b).1 (kn (b, t.linkHash l) (List.mem_flatten.2 ⟨y, hy, by rw [← he]; simp⟩))
      exact ⟨a, b, x, z, hs, hx, hz⟩

/-- What the row of a sector says. -/
structure SectorRowOf {β : Type} [DecidableEq β] (t : Topology) (over : Dict SectorId (List SectorId)) (key : Link → β)
    (e : SectorId × Sector) (r : SectorRow) : Prop where
  id : r.id = e.1
  channel : r.channel = channelLabel e.2.channel
  over : r.overLimit = over.has e.1
  count : ∀ cn : Bool, ∃ P : Finset β, (∀ p, p ∈ P ↔ ∃ l, UsedAt t cn e.1 l ∧ key l = p) ∧
    (if cn then r.access else r.backhaul) = P.card

theorem sector_table {t : Topology} (inv : t.Inv) (over : Dict SectorId (List SectorId)) {β : Type} [DecidableEq β]
    (key : Link → β)
    (hkey : ∀ l ∈ t.links.vals, ∀ l' ∈ t.links.vals, t.linkHash l = t.linkHash l' ↔ key l = key l')
    (h : ∀ l, LinkUsed t l → l.isWireless = true → KnownEnds t l)
    (hs : (t.sectors.filter fun e => e.2.status.active) ≠ []) :
    ∃ rows, t.sectorTable over = .ok rows ∧
      List.Forall₂ (SectorRowOf t over key) (t.sectors.filter fun e => e.2.status.active) rows := by
  classical
  obtain ⟨bh, b1, b2, b3⟩ := sectorSets_ok inv false (fun l hu => h l ⟨hu.1, hu.2.1⟩ hu.2.2.1)
  obtain ⟨ac, a1, a2, a3⟩ := sectorSets_ok inv true (fun l hu => h l ⟨hu.1, hu.2.1⟩ hu.2.2.1)
  have e1 : t.sectorSets .wirelessBackhaul = .ok bh := b1
  have e2 : t.sectorSets .wirelessAccess = .ok ac := a1
  unfold sectorTable
  rw [e1, e2]
  dsimp only
  obtain ⟨rows, r1, r2⟩ := mapM_exists (sectorRow bh ac over) (SectorRowOf t over key)
    (t.sectors.filter fun e => e.2.status.active) (by
      rintro ⟨i, x⟩ hm
      have hg := (Dict.mem_iff_get? inv.nd_sectors _ _).1 (List.mem_filter.1 hm).1
      obtain ⟨xs, x1, x2, x3⟩ := sizeAt_card b3 ((b2 i).2 ⟨x, hg⟩)
      obtain ⟨ys, y1, y2, y3⟩ := sizeAt_card a3 ((a2 i).2 ⟨x, hg⟩)
      unfold sectorRow
      dsimp only
      rw [x1, y1]
      refine ⟨_, rfl, rfl, rfl, rfl, fun cn => ?_⟩
      cases cn
      · refine ⟨_, fun p => ?_, hash_card key hkey (fun l => UsedAt t false i l) x2 x3⟩
        simp only [List.mem_toFinset, List.mem_map, List.mem_filter, decide_eq_true_eq]
        constructor
        · rintro ⟨l, ⟨_, h1⟩, h4⟩; exact ⟨l, h1, h4⟩
        · rintro ⟨l, h1, h4⟩; exact ⟨l, ⟨(mem_vals_iff inv).2 h1.1.1, h1⟩, h4⟩
      · refine ⟨_, fun p => ?_, hash_card key hkey (fun l => UsedAt t true i l) y2 y3⟩
        simp only [List.mem_toFinset, List.mem_map, List.mem_filter, decide_eq_true_eq]
        constructor
        · rintro ⟨l, ⟨_, h1⟩, h4⟩; exact ⟨l, h1, h4⟩
        · rintro ⟨l, h1, h4⟩; exact ⟨l, ⟨(mem_vals_iff inv).2 h1.1.1, h1⟩, h4⟩)
  rw [r1]
  refine ⟨rows, ?_, r2⟩
  cases rows with
  | nil => exact absurd (List.forall₂_nil_right_iff.1 r2) hs
  | cons r rows => rfl

theorem sectorTable_needs {t : Topology} (inv : t.Inv) (over : Dict SectorId (List SectorId)) {rows : List SectorRow}
    (h : t.sectorTable over = .ok rows) :
    (∀ l, LinkUsed t l → l.isWireless = true → KnownEnds t l) ∧ (t.sectors.filter fun e => e.2.status.active) ≠ [] := by
  unfold sectorTable at h
  cases e1 : t.sectorSets .wirelessBackhaul with
  | error e => rw [e1] at h; cases h
  | ok bh =>
    cases e2 : t.sectorSets .wirelessAccess with
    | error e => rw [e1, e2] at h; cases h
    | ok ac =>
      rw [e1, e2] at h
      dsimp only at h
      refine ⟨fun l hu hw => ?_, fun hn => ?_⟩
      · obtain ⟨cn, hu⟩ := usedOf_some inv hu hw
        cases cn
        · exact sectorSets_known inv false e1 l hu
        · exact sectorSets_known inv true e2 l hu
      · rw [hn] at h
        cases h

theorem filter_ne {t : Topology} (inv : t.Inv) :
    (t.sectors.filter fun e => e.2.status.active) ≠ [] ↔ ∃ s x, t.sectors.get? s = some x ∧ InNetwork x.status := by
  rw [Ne, List.filter_eq_nil_iff]
  push Not
  constructor
  · rintro ⟨⟨i, x⟩, h1, h2⟩
    exact ⟨i, x, (Dict.mem_iff_get? inv.nd_sectors _ _).1 h1, (active_iff _).1 h2⟩
  · rintro ⟨i, x, h1, h2⟩
    exact ⟨(i, x), (Dict.mem_iff_get? inv.nd_sectors _ _).2 h1, (active_iff _).2 h2⟩

/-- **C134.** The table of sectors can be made exactly if each wireless link in use joins two sectors of the network, and
a sector is in use. -/
theorem C134_raises_exactly (ops : List Op) (over : Dict SectorId (List SectorId)) :
    (∃ rows, (run {} ops).sectorTable over = .ok rows) ↔
      (∀ l, LinkUsed (run {} ops) l → l.isWireless = true → KnownEnds (run {} ops) l) ∧
      ∃ s x, (run {} ops).sectors.get? s = some x ∧ InNetwork x.status := by
  have inv := Inv.empty.run ops
  generalize run {} ops = t at *
  rw [← filter_ne inv]
  constructor
  · rintro ⟨rows, h⟩; exact sectorTable_needs inv over h
  · rintro ⟨h1, h2⟩
    obtain ⟨rows, h, _⟩ := sector_table inv over t.linkHash (fun _ _ _ _ => Iff.rfl) h1 h2
    exact ⟨rows, h⟩

theorem sector_rows {t : Topology} (inv : t.Inv) {over : Dict SectorId (List SectorId)} {β : Type} [DecidableEq β]
    (key : Link → β)
    (hkey : ∀ l ∈ t.links.vals, ∀ l' ∈ t.links.vals, t.linkHash l = t.linkHash l' ↔ key l = key l')
    {rows : List SectorRow} (h : t.sectorTable over = .ok rows) :
    List.Forall₂ (SectorRowOf t over key) (t.sectors.filter fun e => e.2.status.active) rows := by
  obtain ⟨h1, h2⟩ := sectorTable_needs inv over h
  obtain ⟨rows', h3, h4⟩ := sector_table inv over key hkey h1 h2
  rw [h] at h3
  cases h3
  exact h4

/-- **C134.** The table of sectors has exactly one row for each sector in use; it gives the channel of the sector if one
is assigned. -/
theorem C134_rows (ops : List Op) (over : Dict SectorId (List SectorId)) (rows : List SectorRow)
    (h : (run {} ops).sectorTable over = .ok rows) :
    (rows.map (·.id)).Nodup ∧
    (∀ s, s ∈ rows.map (·.id) ↔ ∃ x, (run {} ops).sectors.get? s = some x ∧ InNetwork x.status) ∧
    ∀ r ∈ rows, ∃ x, (run {} ops).sectors.get? r.id = some x ∧ ∀ ch, r.channel = some ch ↔ x.channel = ch ∧ 0 ≤ ch := by
  have inv := Inv.empty.run ops
  generalize run {} ops = t at *
  have hf := sector_rows inv t.linkHash (fun _ _ _ _ => Iff.rfl) h
  have e : rows.map (·.id) = (t.sectors.filter fun e => e.2.status.active).map Prod.fst :=
    forall₂_map_eq hf (fun _ _ h => h.id)
  refine ⟨?_, fun s => ?_, fun r hr => ?_⟩
  · rw [e]
    exact inv.nd_sectors.sublist (List.filter_sublist.map _)
  · rw [e, List.mem_map]
    constructor
    · rintro ⟨⟨i, x⟩, hm, rfl⟩
      obtain ⟨h1, h2⟩ := List.mem_filter.1 hm
      exact ⟨x, (Dict.mem_iff_get? inv.nd_sectors _ _).1 h1, (active_iff _).1 h2⟩
    · rintro ⟨x, h1, h2⟩
      exact ⟨(s, x), List.mem_filter.2 ⟨(Dict.mem_iff_get? inv.nd_sectors _ _).2 h1, (active_iff _).2 h2⟩, rfl⟩
  · obtain ⟨⟨i, x⟩, h1, h2⟩ := forall₂_mem_right hf hr
    have e := h2.id
    dsimp only at e
    subst e
    refine ⟨x, (Dict.mem_iff_get? inv.nd_sectors _ _).1 (List.mem_filter.1 h1).1, fun ch => ?_⟩
    rw [h2.channel]
    unfold channelLabel
    dsimp only
    split
    · rw [Option.some.injEq]
      constructor
      · rintro rfl; exact ⟨rfl, by omega⟩
      · exact fun h => h.1
    · constructor
      · intro h; cases h
      · rintro ⟨rfl, h⟩; omega

/-- **C134.** The numbers of links are those of the pairs of ends (grid cell and type of site) of the wireless links in
use from or to the sector: access links lead to a CN, backhaul links do not. A link and its reverse count once. -/
theorem C134_links (ops : List Op) (over : Dict SectorId (List SectorId)) (hv : ValidCoords (run {} ops))
    (rows : List SectorRow) (h : (run {} ops).sectorTable over = .ok rows) (r : SectorRow) (hr : r ∈ rows) :
    ∃ B A : Finset (Sym2 (ℤ × ℤ × SiteType)),
      (∀ p, p ∈ B ↔ ∃ l, UsedAt (run {} ops) false r.id l ∧
        s(cellOf (siteAt (run {} ops) l.tx), cellOf (siteAt (run {} ops) l.rx)) = p) ∧
      (∀ p, p ∈ A ↔ ∃ l, UsedAt (run {} ops) true r.id l ∧
        s(cellOf (siteAt (run {} ops) l.tx), cellOf (siteAt (run {} ops) l.rx)) = p) ∧
      r.backhaul = B.card ∧ r.access = A.card := by
  have inv := Inv.empty.run ops
  generalize run {} ops = t at *
  have hf := sector_rows inv _ (cells_key inv hv) h
  obtain ⟨⟨i, x⟩, h1, h2⟩ := forall₂_mem_right hf hr
  have e := h2.id
  dsimp only at e
  subst e
  obtain ⟨B, b1, b2⟩ := h2.count false
  obtain ⟨A, a1, a2⟩ := h2.count true
  exact ⟨B, A, b1, a1, b2, a2⟩

/-- **C134, `_partial`.** With at most one site of a type in each grid cell these are pairs of sites. Missing: sites
closer than a cell, as in C61. -/
theorem C134_links_partial (ops : List Op) (over : Dict SectorId (List SectorId)) (hv : ValidCoords (run {} ops))
    (hd : CellsDistinct (run {} ops))
    (rows : List SectorRow) (h : (run {} ops).sectorTable over = .ok rows) (r : SectorRow) (hr : r ∈ rows) :
    ∃ B A : Finset (Sym2 SiteId), (∀ p, p ∈ B ↔ ∃ l, UsedAt (run {} ops) false r.id l ∧ s(l.tx, l.rx) = p) ∧
      (∀ p, p ∈ A ↔ ∃ l, UsedAt (run {} ops) true r.id l ∧ s(l.tx, l.rx) = p) ∧
      r.backhaul = B.card ∧ r.access = A.card := by
  have inv := Inv.empty.run ops
  generalize run {} ops = t at *
  have hf := sector_rows inv _ (sites_key inv hv hd) h
  obtain ⟨⟨i, x⟩, h1, h2⟩ := forall₂_mem_right hf hr
  have e := h2.id
  dsimp only at e
  subst e
  obtain ⟨B, b1, b2⟩ := h2.count false
  obtain ⟨A, a1, a2⟩ := h2.count true
  exact ⟨B, A, b1, a1, b2, a2⟩

/-- **C134.** A sector is marked exactly if it is a DN sector with more links in use than allowed, to DNs or
altogether. -/
theorem C134_limit (ops : List Op) (dn tot : Nat) (ends : SectorsOnEnds (run {} ops))
    (over : Dict SectorId (List SectorId)) (ho : (run {} ops).sectorLimitViolations dn tot = .ok over)
    (rows : List SectorRow) (h : (run {} ops).sectorTable over = .ok rows) (r : SectorRow) (hr : r ∈ rows) :
    r.overLimit = true ↔ (∃ x, (run {} ops).sectors.get? r.id = some x ∧ x.typ = .dn) ∧
      (dn < activeLinksTo (run {} ops) r.id .dn ∨
        tot < activeLinksTo (run {} ops) r.id .dn + activeLinksTo (run {} ops) r.id .cn) := by
  have c75 := C75_reported_iff ops dn tot ends over ho
  have inv := Inv.empty.run ops
  generalize run {} ops = t at *
  have hf := sector_rows inv t.linkHash (fun _ _ _ _ => Iff.rfl) h
  obtain ⟨⟨i, x⟩, h1, h2⟩ := forall₂_mem_right hf hr
  have e := h2.id
  dsimp only at e
  subst e
  obtain ⟨h3, h4⟩ := List.mem_filter.1 h1
  have hg := (Dict.mem_iff_get? inv.nd_sectors _ _).1 h3
  rw [h2.over, Dict.has_iff, ← Dict.mem_keys_iff, show r.id ∈ over.keys ↔ _ from c75 r.id]
  apply and_congr_left
  intro _
  constructor
  · rintro ⟨y, y1, y2, _⟩; exact ⟨y, y1, y2⟩
  · rintro ⟨y, y1, y2⟩
    rw [hg] at y1
    cases y1
    exact ⟨x, hg, y2, h4⟩

example : ((run {} tableDemo).sectorTable []).toOption =
    some [⟨⟨"P", 0, 0, .dn⟩, some 1, 1, 0, false⟩, ⟨⟨"A", 0, 0, .dn⟩, some 1, 1, 0, false⟩,
      ⟨⟨"A", 0, 1, .dn⟩, none, 0, 0, false⟩] := by
  decide +kernel

end Verif
