import Verif.Props.Tables2

/-! # C135: the table of links; C136: the tables can be made if the statistics can -/

namespace Verif
open Spec Topology Finset

/-- What the table needs of link `l`: its sectors are known and on one channel. -/
def Spec.SameChannel (t : Topology) (l : Link) : Prop :=
  ∀ a b, l.sectors = some (a, b) → ∃ x y, t.sectors.get? a = some x ∧ t.sectors.get? b = some y ∧ x.channel = y.channel

theorem linkChannelE_ok {t : Topology} (l : Link) :
    (∃ c, t.linkChannelE l = .ok c) ↔ (l.status.active = true → SameChannel t l) := by
  unfold linkChannelE SameChannel
  split
  · rename_i ha
    cases hs : l.sectors with
    | none => simp
    | some p =>
      obtain ⟨a, b⟩ := p
      dsimp only
      simp only [ha, forall_const, Option.some.injEq, Prod.mk.injEq, and_imp]
      cases hx : t.sectors.get? a with
      | none =>
        constructor
        · rintro ⟨c, h⟩; cases h
        · intro h
          obtain ⟨x, y, h1, _⟩ := h a b rfl rfl
          rw [hx] at h1; cases h1
      | some x =>
        cases hy : t.sectors.get? b with
        | none =>
          constructor
          · rintro ⟨c, h⟩; cases h
          · intro h
            obtain ⟨x, y, _, h1, _⟩ := h a b rfl rfl
            rw [hy] at h1; cases h1
        | some y =>
          dsimp only
          split
          · rename_i e
            exact ⟨fun _ a' b' ha' hb' => ⟨x, y, by rw [← ha', hx], by rw [← hb', hy], e⟩, fun _ => ⟨_, rfl⟩⟩
          · rename_i e
            constructor
            · rintro ⟨c, h⟩; cases h
            · intro h
              obtain ⟨x', y', h1, h2, h3⟩ := h a b rfl rfl
              rw [hx] at h1; rw [hy] at h2
              cases h1; cases h2
              exact absurd h3 e
  · rename_i ha
    exact ⟨fun _ h => absurd h ha, fun _ => ⟨_, rfl⟩⟩

theorem linkChannelE_val {t : Topology} {l : Link} {c : Int} (h : t.linkChannelE l = .ok c) (ch : Int) :
    channelLabel c = some ch ↔ InNetwork l.status ∧
      ∃ a b x, l.sectors = some (a, b) ∧ t.sectors.get? a = some x ∧ x.channel = ch ∧ 0 ≤ ch := by
  have lab : ∀ c : Int, channelLabel c = some ch ↔ c = ch ∧ 0 ≤ ch := by
    intro c
    unfold channelLabel
    split
    · rw [Option.some.injEq]
      constructor
      · rintro rfl; exact ⟨rfl, by omega⟩
      · exact fun h => h.1
    · constructor
      · intro h; cases h
      · rintro ⟨rfl, h⟩; omega
  rw [lab, ← active_iff]
  unfold linkChannelE at h
  split at h
  · rename_i ha
    cases hs : l.sectors with
    | none =>
      rw [hs] at h
      have h : (-1 : Int) = c := by cases h; rfl
      subst h
      constructor
      · rintro ⟨rfl, h⟩; omega
      · rintro ⟨_, a, b, x, h, _⟩; cases h
    | some p =>
      obtain ⟨a, b⟩ := p
      rw [hs] at h
      dsimp only at h
      cases hx : t.sectors.get? a with
      | none => rw [hx] at h; cases h
      | some x =>
        cases hy : t.sectors.get? b with
        | none => rw [hx, hy] at h; cases h
        | some y =>
          rw [hx, hy] at h
          dsimp only at h
          split at h
          · have h : x.channel = c := by cases h; rfl
            subst h
            constructor
            · rintro ⟨rfl, h⟩; exact ⟨ha, a, b, x, rfl, hx, rfl, h⟩
            · rintro ⟨_, a', b', x', e, hx', h1, h2⟩
              cases e
              rw [hx] at hx'
              cases hx'
              exact ⟨h1, h2⟩
          · cases h
  · rename_i ha
    have h : (-1 : Int) = c := by cases h; rfl
    subst h
    constructor
    · rintro ⟨rfl, h⟩; omega
    · rintro ⟨h, _⟩; exact absurd h ha

theorem violatingLinkIds_ok {t : Topology} (ts : List Triple)
    (h : ∀ p ∈ ts, t.sites.has p.i = true ∧ t.sites.has p.j = true ∧ t.sites.has p.k = true) :
    ∃ r, t.violatingLinkIds ts = .ok r := by
  induction ts with
  | nil => exact ⟨_, rfl⟩
  | cons p ts ih =>
    obtain ⟨r, hr⟩ := ih (fun q hq => h q (List.mem_cons_of_mem _ hq))
    obtain ⟨h1, h2, h3⟩ := h p (by simp)
    unfold violatingLinkIds getLinkBySiteIds
    simp only [h1, h2, h3, Bool.and_self, if_true, hr]
    exact ⟨_, rfl⟩

/-- The links of the report are those of the two lists. -/
theorem angles_known (ops : List Op) (lim : AngleLimits) (angle : SiteId → SiteId → SiteId → ℚ × ℚ)
    (symm : ∀ i j k, angle i j k = angle i k j) (D N : List Triple)
    (ok : (run {} ops).findAngleViolations lim true angle = .ok (D, N)) :
    ∃ diff near, (run {} ops).violatingLinkIds D = .ok diff ∧ (run {} ops).violatingLinkIds N = .ok near := by
  have c55 := (C55_exact ops lim true angle symm D N ok).2.2
  have inv := Inv.empty.run ops
  generalize run {} ops = t at *
  have known : ∀ i j l, LinkInScope t true i j l → t.sites.has i = true ∧ t.sites.has j = true := by
    intro i j l h
    have e := inv.link_id _ _ h.1
    obtain ⟨x, hx⟩ := inv.link_tx _ _ h.1
    obtain ⟨y, hy⟩ := inv.link_rx _ _ h.1
    cases e
    exact ⟨(Dict.has_iff _ _).2 ⟨x, hx⟩, (Dict.has_iff _ _).2 ⟨y, hy⟩⟩
  obtain ⟨diff, hd⟩ := violatingLinkIds_ok (t := t) D (by
    intro p hp
    obtain ⟨_, l1, l2, h1, h2, _⟩ := (c55 p.i p.j p.k).1.1 hp
    exact ⟨(known _ _ _ h1).1, (known _ _ _ h1).2, (known _ _ _ h2).2⟩)
  obtain ⟨near, hn⟩ := violatingLinkIds_ok (t := t) N (by
    intro p hp
    obtain ⟨_, l1, l2, h1, h2, _⟩ := (c55 p.i p.j p.k).2.1 hp
    exact ⟨(known _ _ _ h1).1, (known _ _ _ h1).2, (known _ _ _ h2).2⟩)
  exact ⟨diff, near, hd, hn⟩

theorem linkTable_ok {t : Topology} {D N : List Triple} {diff near : List LinkId} (over : Dict SectorId (List SectorId))
    (hd : t.violatingLinkIds D = .ok diff) (hn : t.violatingLinkIds N = .ok near) (rows : List LinkRow) :
    t.linkTable D N over = .ok rows ↔ rows ≠ [] ∧ t.links.mapM (t.linkRow diff near over) = .ok rows := by
  unfold linkTable
  rw [hd, hn]
  dsimp only
  cases h : t.links.mapM (t.linkRow diff near over) with
  | error e => simp
  | ok rs =>
    cases rs with
    | nil =>
      constructor
      · intro h; cases h
      · rintro ⟨h1, h2⟩; cases h2; exact absurd rfl h1
    | cons r rs =>
      constructor
      · intro h; cases h; exact ⟨by simp, rfl⟩
      · rintro ⟨_, h⟩; exact h

theorem mapM_forall₂ {α β : Type} (f : α → Except Err β) (L : List α) : ∀ ys : List β, L.mapM f = .ok ys →
    List.Forall₂ (fun a y => f a = .ok y) L ys := by
  induction L with
  | nil => intro ys h; cases h; exact .nil
  | cons b L ih =>
    intro ys h
    rw [List.mapM_cons] at h
    cases hb : f b with
    | error e => rw [hb] at h; cases h
    | ok y =>
      rw [hb] at h
      cases hL : L.mapM f with
      | error e => rw [hL] at h; cases h
      | ok zs =>
        rw [hL] at h
        have h : y :: zs = ys := by cases h; rfl
        subst h
        exact .cons hb (ih zs hL)

/-- **C135.** For the links found to violate the limits of angles, the table of links can be made exactly if there is a
link and the sectors of each link in use that has sectors are known and on one channel. -/
theorem C135_raises_exactly (ops : List Op) (lim : AngleLimits) (angle : SiteId → SiteId → SiteId → ℚ × ℚ)
    (symm : ∀ i j k, angle i j k = angle i k j) (D N : List Triple)
    (ok : (run {} ops).findAngleViolations lim true angle = .ok (D, N)) (over : Dict SectorId (List SectorId)) :
    (∃ rows, (run {} ops).linkTable D N over = .ok rows) ↔
      (∃ l, (run {} ops).links.get? ⟨l.tx, l.rx⟩ = some l) ∧
      ∀ l, LinkUsed (run {} ops) l → SameChannel (run {} ops) l := by
  obtain ⟨diff, near, hd, hn⟩ := angles_known ops lim angle symm D N ok
  have inv := Inv.empty.run ops
  generalize run {} ops = t at *
  constructor
  · rintro ⟨rows, h⟩
    obtain ⟨h1, h2⟩ := (linkTable_ok over hd hn rows).1 h
    have hf := mapM_forall₂ _ _ _ h2
    constructor
    · obtain ⟨r, hr⟩ := List.exists_mem_of_ne_nil _ h1
      obtain ⟨e, he, _⟩ := forall₂_mem_right hf hr
      exact ⟨e.2, (mem_vals_iff inv).1 (List.mem_map.2 ⟨e, he, rfl⟩)⟩
    · rintro l ⟨hl, hu⟩
      obtain ⟨y, hy⟩ := mapM_known _ _ _ h2 (⟨l.tx, l.rx⟩, l) (Dict.mem_of_get? _ hl)
      unfold linkRow at hy
      dsimp only at hy
      cases hc : t.linkChannelE l with
      | error e => rw [hc] at hy; cases hy
      | ok c => exact (linkChannelE_ok l).1 ⟨c, hc⟩ ((active_iff _).2 hu)
  · rintro ⟨⟨l, hl⟩, h⟩
    obtain ⟨rows, h1, h2⟩ := mapM_exists (t.linkRow diff near over) (fun _ _ => True) t.links (by
      rintro ⟨i, x⟩ hm
      have hg := (Dict.mem_iff_get? inv.nd_links _ _).1 hm
      have e := inv.link_id _ _ hg
      obtain ⟨c, hc⟩ := (linkChannelE_ok x).2 (fun ha => h x ⟨e ▸ hg, (active_iff _).1 ha⟩)
      unfold linkRow
      dsimp only
      rw [hc]
      exact ⟨_, rfl, trivial⟩)
    refine ⟨rows, (linkTable_ok over hd hn rows).2 ⟨?_, h1⟩⟩
    rintro rfl
    have := List.forall₂_nil_right_iff.1 h2
    rw [this] at hl
    cases hl

theorem link_rows {t : Topology} (inv : t.Inv) {D N : List Triple} {diff near : List LinkId}
    {over : Dict SectorId (List SectorId)} (hd : t.violatingLinkIds D = .ok diff) (hn : t.violatingLinkIds N = .ok near)
    {rows : List LinkRow} (h : t.linkTable D N over = .ok rows) :
    rows.map (·.id) = t.links.keys ∧ ∀ r ∈ rows, ∃ l, t.links.get? r.id = some l ∧ r.id = ⟨l.tx, l.rx⟩ ∧
      t.linkRow diff near over (r.id, l) = .ok r := by
  have hf := mapM_forall₂ _ _ _ ((linkTable_ok over hd hn rows).1 h).2
  have idp : ∀ e r, t.linkRow diff near over e = .ok r → r.id = e.1 := by
    intro e r h
    unfold linkRow at h
    split at h
    · cases h
    · cases h; rfl
  refine ⟨forall₂_map_eq hf idp, fun r hr => ?_⟩
  obtain ⟨⟨i, l⟩, h1, h2⟩ := forall₂_mem_right hf hr
  have e := idp _ _ h2
  dsimp only at e
  subst e
  have hg := (Dict.mem_iff_get? inv.nd_links _ _).1 h1
  exact ⟨l, hg, inv.link_id _ _ hg, h2⟩

/-- **C135.** The table of links has one row for each link, in the order of the topology. It tells wired links from links
with sectors, which it gives, and from links without; the channel is given if the link is in use and has one. -/
theorem C135_rows (ops : List Op) (lim : AngleLimits) (angle : SiteId → SiteId → SiteId → ℚ × ℚ)
    (symm : ∀ i j k, angle i j k = angle i k j) (D N : List Triple)
    (ok : (run {} ops).findAngleViolations lim true angle = .ok (D, N)) (over : Dict SectorId (List SectorId))
    (rows : List LinkRow) (h : (run {} ops).linkTable D N over = .ok rows) :
    rows.map (·.id) = (run {} ops).links.keys ∧
    ∀ r ∈ rows, ∃ l, (run {} ops).links.get? r.id = some l ∧
      (r.ends = .wired ↔ l.isWireless = false) ∧
      (∀ a b, r.ends = .sectors a b ↔ l.isWireless = true ∧ l.sectors = some (a, b)) ∧
      (r.ends = .unknown ↔ l.isWireless = true ∧ l.sectors = none) ∧
      ∀ ch, r.channel = some ch ↔ InNetwork l.status ∧
        ∃ a b x, l.sectors = some (a, b) ∧ (run {} ops).sectors.get? a = some x ∧ x.channel = ch ∧ 0 ≤ ch := by
  obtain ⟨diff, near, hd, hn⟩ := angles_known ops lim angle symm D N ok
  have inv := Inv.empty.run ops
  generalize run {} ops = t at *
  obtain ⟨h1, h2⟩ := link_rows inv hd hn h
  refine ⟨h1, fun r hr => ?_⟩
  obtain ⟨l, hg, e, hrow⟩ := h2 r hr
  refine ⟨l, hg, ?_⟩
  unfold linkRow at hrow
  dsimp only at hrow
  cases hc : t.linkChannelE l with
  | error e => rw [hc] at hrow; cases hrow
  | ok c =>
    rw [hc] at hrow
    dsimp only at hrow
    have he : r.ends = t.endsOf l := by rw [Except.ok.injEq] at hrow; rw [← hrow]
    have hch : r.channel = channelLabel c := by rw [Except.ok.injEq] at hrow; rw [← hrow]
    have hw : t.linkType l = .ethernet ↔ l.isWireless = false := by
      have := ethernet_iff (t := t) l
      cases hw : l.isWireless
      · rw [hw] at this; simpa using this
      · rw [hw] at this; simpa using this
    rw [he, hch]
    unfold endsOf
    refine ⟨?_, fun a b => ?_, ?_, linkChannelE_val hc⟩
    · split
      · rename_i c; simpa using hw.1 c
      · rename_i c
        rw [hw] at c
        cases l.sectors <;> simp [c]
    · split
      · rename_i c; simp [hw.1 c]
      · rename_i c
        rw [hw] at c
        cases hs : l.sectors <;> simp [c, Prod.ext_iff]
    · split
      · rename_i c; simp [hw.1 c]
      · rename_i c
        rw [hw] at c
        cases hs : l.sectors <;> simp [c]

theorem clash_symm {t : Topology} {l1 l2 : Link} (h : SectorsClash t true l1 l2) : SectorsClash t true l2 l1 := by
  obtain ⟨h1, h2⟩ := h
  refine ⟨fun e => h1 e.symm, fun _ => ?_⟩
  obtain ⟨p1, p2, s1, s2, a, b, c, d, e⟩ := h2 rfl
  exact ⟨p2, p1, s2, s1, b, a, d, c, e.symm⟩

/-- **C135.** A link is marked as violating the angle between sectors exactly if it or its reverse is one of two links in
use from a site that leave different sectors of one channel at too small an angle; likewise for the near-far rule. -/
theorem C135_angles (ops : List Op) (lim : AngleLimits) (angle : SiteId → SiteId → SiteId → ℚ × ℚ)
    (symm : ∀ i j k, angle i j k = angle i k j) (D N : List Triple)
    (ok : (run {} ops).findAngleViolations lim true angle = .ok (D, N)) (over : Dict SectorId (List SectorId))
    (rows : List LinkRow) (h : (run {} ops).linkTable D N over = .ok rows) (r : LinkRow) (hr : r ∈ rows) :
    (r.diffSector = true ↔ ∃ i j k, DiffSectorPair (run {} ops) lim angle i j k ∧ (r.id = ⟨i, j⟩ ∨ r.id = ⟨j, i⟩)) ∧
    (r.nearFar = true ↔ ∃ i j k, NearFarPair (run {} ops) lim angle i j k ∧ (r.id = ⟨i, j⟩ ∨ r.id = ⟨j, i⟩)) := by
  obtain ⟨diff, near, hd, hn⟩ := angles_known ops lim angle symm D N ok
  have c55 := (C55_exact ops lim true angle symm D N ok).2.2
  have m1 := C55_link_ids ops D diff hd
  have m2 := C55_link_ids ops N near hn
  have inv := Inv.empty.run ops
  generalize run {} ops = t at *
  obtain ⟨_, h2⟩ := link_rows inv hd hn h
  obtain ⟨l, hg, e, hrow⟩ := h2 r hr
  have lid : Link.id l = r.id := e.symm
  have f1 : r.diffSector = true ↔ r.id ∈ diff := by
    unfold linkRow at hrow
    dsimp only at hrow
    split at hrow
    · cases hrow
    · have : r.diffSector = diff.contains l.id := by rw [Except.ok.injEq] at hrow; rw [← hrow]
      rw [this, List.contains_iff_mem, lid]
  have f2 : r.nearFar = true ↔ r.id ∈ near := by
    unfold linkRow at hrow
    dsimp only at hrow
    split at hrow
    · cases hrow
    · have : r.nearFar = near.contains r.id := by rw [Except.ok.injEq] at hrow; rw [← hrow]
      rw [this, List.contains_iff_mem]
  constructor
  · rw [f1, m1]
    constructor
    · rintro ⟨_, p, hp, hid⟩
      obtain ⟨hlt, l1, l2, a1, a2, a3, a4⟩ := (c55 p.i p.j p.k).1.1 hp
      have P1 : DiffSectorPair t lim angle p.i p.j p.k := ⟨ne_of_lt hlt, l1, l2, a1, a2, a3, a4⟩
      have P2 : DiffSectorPair t lim angle p.i p.k p.j :=
        ⟨(ne_of_lt hlt).symm, l2, l1, a2, a1, clash_symm a3, by rw [symm]; exact a4⟩
      rcases hid with hid | hid | hid | hid
      · exact ⟨_, _, _, P1, Or.inl hid⟩
      · exact ⟨_, _, _, P2, Or.inl hid⟩
      · exact ⟨_, _, _, P1, Or.inr hid⟩
      · exact ⟨_, _, _, P2, Or.inr hid⟩
    · rintro ⟨i, j, k, ⟨hne, l1, l2, a1, a2, a3, a4⟩, hid⟩
      refine ⟨⟨l, hg⟩, ?_⟩
      rcases lt_or_gt_of_ne hne with hlt | hlt
      · refine ⟨⟨i, j, k⟩, (c55 i j k).1.2 ⟨hlt, l1, l2, a1, a2, a3, a4⟩, ?_⟩
        rcases hid with hid | hid
        · exact Or.inl hid
        · exact Or.inr (Or.inr (Or.inl hid))
      · refine ⟨⟨i, k, j⟩, (c55 i k j).1.2 ⟨hlt, l2, l1, a2, a1, clash_symm a3, by rw [symm]; exact a4⟩, ?_⟩
        rcases hid with hid | hid
        · exact Or.inr (Or.inl hid)
        · exact Or.inr (Or.inr (Or.inr hid))
  · rw [f2, m2]
    constructor
    · rintro ⟨_, p, hp, hid⟩
      obtain ⟨hlt, l1, l2, a1, a2, a3, a4⟩ := (c55 p.i p.j p.k).2.1 hp
      have P1 : NearFarPair t lim angle p.i p.j p.k := ⟨ne_of_lt hlt, l1, l2, a1, a2, a3, a4⟩
      have P2 : NearFarPair t lim angle p.i p.k p.j :=
        ⟨(ne_of_lt hlt).symm, l2, l1, a2, a1, clash_symm a3, by rw [symm]; exact a4⟩
      rcases hid with hid | hid | hid | hid
      · exact ⟨_, _, _, P1, Or.inl hid⟩
      · exact ⟨_, _, _, P2, Or.inl hid⟩
      · exact ⟨_, _, _, P1, Or.inr hid⟩
      · exact ⟨_, _, _, P2, Or.inr hid⟩
    · rintro ⟨i, j, k, ⟨hne, l1, l2, a1, a2, a3, a4⟩, hid⟩
      refine ⟨⟨l, hg⟩, ?_⟩
      rcases lt_or_gt_of_ne hne with hlt | hlt
      · refine ⟨⟨i, j, k⟩, (c55 i j k).2.2 ⟨hlt, l1, l2, a1, a2, a3, a4⟩, ?_⟩
        rcases hid with hid | hid
        · exact Or.inl hid
        · exact Or.inr (Or.inr (Or.inl hid))
      · refine ⟨⟨i, k, j⟩, (c55 i k j).2.2 ⟨hlt, l2, l1, a2, a1, clash_symm a3, by rw [symm]; exact a4⟩, ?_⟩
        rcases hid with hid | hid
        · exact Or.inr (Or.inl hid)
        · exact Or.inr (Or.inr (Or.inr hid))

/-- **C135, the part that holds.** A link is marked as violating the limit of links per sector exactly if the sector it
starts from is a DN sector in use with more links in use than allowed. Missing: that only links in use are marked
(`C135_limit_violation`). -/
theorem C135_limit_partial (ops : List Op) (lim : AngleLimits) (angle : SiteId → SiteId → SiteId → ℚ × ℚ)
    (symm : ∀ i j k, angle i j k = angle i k j) (D N : List Triple)
    (ok : (run {} ops).findAngleViolations lim true angle = .ok (D, N)) (dn tot : Nat)
    (ends : SectorsOnEnds (run {} ops)) (over : Dict SectorId (List SectorId))
    (ho : (run {} ops).sectorLimitViolations dn tot = .ok over)
    (rows : List LinkRow) (h : (run {} ops).linkTable D N over = .ok rows) (r : LinkRow) (hr : r ∈ rows) :
    r.overLimit = true ↔ ∃ l a b x, (run {} ops).links.get? r.id = some l ∧ l.sectors = some (a, b) ∧
      (run {} ops).sectors.get? a = some x ∧ x.typ = .dn ∧ InNetwork x.status ∧
      (dn < activeLinksTo (run {} ops) a .dn ∨
        tot < activeLinksTo (run {} ops) a .dn + activeLinksTo (run {} ops) a .cn) := by
  obtain ⟨diff, near, hd, hn⟩ := angles_known ops lim angle symm D N ok
  have c75 := C75_reported_iff ops dn tot ends over ho
  have inv := Inv.empty.run ops
  generalize run {} ops = t at *
  obtain ⟨_, h2⟩ := link_rows inv hd hn h
  obtain ⟨l, hg, e, hrow⟩ := h2 r hr
  have f : r.overLimit = true ↔ ∃ a b, l.sectors = some (a, b) ∧ a ∈ over.keys := by
    unfold linkRow at hrow
    dsimp only at hrow
    split at hrow
    · cases hrow
    · have : r.overLimit = (match l.sectors with | none => false | some (a, _) => over.has a) := by
        rw [Except.ok.injEq] at hrow; rw [← hrow]; rfl
      rw [this]
      cases l.sectors with
      | none => simp
      | some p =>
        obtain ⟨a, b⟩ := p
        dsimp only
        rw [Dict.has_iff, ← Dict.mem_keys_iff]
        constructor
        · intro h; exact ⟨a, b, rfl, h⟩
        · rintro ⟨a', b', e, h⟩; cases e; exact h
  rw [f]
  constructor
  · rintro ⟨a, b, h1, h2⟩
    obtain ⟨⟨x, x1, x2, x3⟩, h4⟩ := (c75 a).1 h2
    exact ⟨l, a, b, x, hg, h1, x1, x2, (active_iff _).1 x3, h4⟩
  · rintro ⟨l', a, b, x, h1, h2, x1, x2, x3, h4⟩
    rw [hg] at h1
    cases h1
    exact ⟨a, b, h2, (c75 a).2 ⟨⟨x, x1, x2, (active_iff _).2 x3⟩, h4⟩⟩

/-- **C135 is violated.** A link that is not in use is marked as violating the limit of its sector. -/
theorem C135_limit_violation :
    let t := run {} limitDemo
    ∃ D N over rows r, t.findAngleViolations ⟨0, 0, 0⟩ true (fun _ _ _ => (90, 1)) = .ok (D, N) ∧
      t.sectorLimitViolations 1 5 = .ok over ∧ t.linkTable D N over = .ok rows ∧ r ∈ rows ∧
      r.id = ⟨"A", "D"⟩ ∧ r.overLimit = true ∧
      (t.links.get? ⟨"A", "D"⟩).map (·.status) = some .candidate := by
  refine ⟨[], [], [(⟨"A", 0, 0, .dn⟩, [⟨"B", 0, 0, .dn⟩, ⟨"C", 0, 0, .dn⟩, ⟨"D", 0, 0, .dn⟩])], _,
    ⟨⟨"A", "D"⟩, .sectors ⟨"A", 0, 0, .dn⟩ ⟨"D", 0, 0, .dn⟩, none, false, false, true⟩, ?_, ?_, rfl, ?_, rfl, rfl, ?_⟩ <;>
  decide +kernel

end Verif
