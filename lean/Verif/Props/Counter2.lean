import Verif.Props.Counter
import Verif.Props.PopCapacity

/-! # C68, C69, C70: active and total counts, backup DNs, channels -/

namespace Verif
open Topology Spec

/-! ## C68 -/

theorem filter_filter_sublist {α : Type} (L : List α) (p q : α → Bool)
    (h : ∀ a, p a = true → q a = true) : (L.filter p).Sublist (L.filter q) := by
  have : L.filter p = (L.filter q).filter p := by
    rw [List.filter_filter]
    apply List.filter_congr
    intro a _
    cases hp : p a
    · rfl
    · simp [h a hp]
  rw [this]; exact List.filter_sublist

theorem dedup_length_mono {α : Type} [DecidableEq α] {a b : List α} (h : a ⊆ b) :
    a.dedup.length ≤ b.dedup.length := by
  rw [← List.card_toFinset, ← List.card_toFinset]
  exact Finset.card_le_card (fun x hx => by
    rw [List.mem_toFinset] at hx ⊢; exact h hx)

/-- **C68, `_partial`.** Full statement (false of the code for sites): active
counts are at most the total counts. Proved for links, nodes and sectors of
every topology, and for sites when no two active sites of the type share a
location; missing: see `C68_colocated_violation`. -/
theorem C68_active_le_total_partial (t : Topology) :
    (∀ ty, t.linkCount activeFilter ty ≤ t.linkCount anyFilter ty) ∧
    (∀ ty, t.nodeCount activeFilter ty ≤ t.nodeCount anyFilter ty) ∧
    (∀ ty, t.sectorCount activeFilter ty ≤ t.sectorCount anyFilter ty) := by
  refine ⟨fun ty => ?_, fun ty => ?_, fun ty => ?_⟩
  · apply dedup_length_mono
    exact (List.Sublist.map _ (filter_filter_sublist _ _ _ (by simp [anyFilter]))).subset
  · apply dedup_length_mono
    exact (List.Sublist.map _ (filter_filter_sublist _ _ _ (by
      simp only [anyFilter, Bool.and_true, Bool.and_eq_true]; exact fun a h => h.1))).subset
  · exact (List.Sublist.map _ (filter_filter_sublist _ _ _ (by simp [anyFilter]))).count_le _

/-- **C68 (sites), `_partial`.** -/
theorem C68_active_sites_partial (ops : List Op) (ty : SiteType)
    (hd : ∀ i j x y, (run {} ops).sites.get? i = some x → (run {} ops).sites.get? j = some y →
      x.siteType = ty → y.siteType = ty → x.status.active = true → y.status.active = true →
      (x.lon, x.lat, x.alt) = (y.lon, y.lat, y.alt) → i = j) :
    ((run {} ops).siteCount activeFilter ty : Int) ≤ (run {} ops).totalSitesOf ty := by
  rw [C61_total_sites]
  have inv := Inv.empty.run ops
  generalize run {} ops = t at *
  have hvn : t.sites.vals.Nodup := Dict.nodup_vals_of_inj inv.nd_sites (fun s => s.id)
    (fun k v h => (inv.site_id k v h).symm)
  have e : t.siteCount activeFilter ty = ((t.sites.vals.filter (fun s => s.siteType = ty ∧
      s.status.active = true)).map (fun s => (s.lon, s.lat, s.alt))).length := by
    rw [siteCount_eq, List.length_map]
    unfold Dict.vals
    rw [List.filter_map, List.length_map]
    congr 1
    apply List.filter_congr
    rintro ⟨i, s⟩ _
    simp [activeFilter]
  have hnd : ((t.sites.vals.filter (fun s => s.siteType = ty ∧
      s.status.active = true)).map (fun s => (s.lon, s.lat, s.alt))).Nodup := by
    refine List.Nodup.map_on ?_ (hvn.filter _)
    intro x hx y hy hxy
    simp only [List.mem_filter, decide_eq_true_eq, Dict.vals, List.mem_map, Prod.exists,
      exists_eq_right] at hx hy
    obtain ⟨⟨i, hi⟩, hx1, hx2⟩ := hx
    obtain ⟨⟨j, hj⟩, hy1, hy2⟩ := hy
    have hi := (Dict.mem_iff_get? inv.nd_sites _ _).1 hi
    have hj := (Dict.mem_iff_get? inv.nd_sites _ _).1 hj
    have := hd i j x y hi hj hx1 hy1 hx2 hy2 hxy
    subst this
    rw [hi] at hj; simpa using hj
  rw [e, ← List.toFinset_card_of_nodup hnd]
  have : ((t.sites.vals.filter (fun s => s.siteType = ty ∧
      s.status.active = true)).map (fun s => (s.lon, s.lat, s.alt))).toFinset ⊆
      locations t (fun s => s.siteType = ty) := by
    intro a ha
    unfold locations
    rw [List.mem_toFinset] at ha ⊢
    refine (List.Sublist.map _ (filter_filter_sublist _ _ _ ?_)).subset ha
    intro s hs; simp only [decide_eq_true_eq] at hs ⊢; exact hs.1
  exact_mod_cast Finset.card_le_card this

/-- Two existing DNs with different devices at one location. -/
def colocatedDns : List Op := [
  .addSite { id := "d", siteType := .dn, status := .existing, lat := 2, lon := 2, alt := some 5,
             device := { sku := "A" } } false,
  .addSite { id := "e", siteType := .dn, status := .existing, lat := 2, lon := 2, alt := some 5,
             device := { sku := "B" } } false]

/-- **C68 violation.** Two active sites, one site in total. -/
theorem C68_colocated_violation :
    (run {} colocatedDns).activeSites = 2 ∧ (run {} colocatedDns).totalSites = 1 := by
  decide +kernel

/-! ## C69 -/

/-- `a` reaches `c` by a link whose transmitting sector is PROPOSED or EXISTING. -/
def Spec.ServedBy (t : Topology) (a c : SiteId) : Prop :=
  ∃ l k k' x, t.links.get? ⟨a, c⟩ = some l ∧ l.sectors = some (k, k') ∧
    t.sectors.get? k = some x ∧ (x.status = .proposed ∨ x.status = .existing)

/-- `c` is a CN in operation. -/
def Spec.ActiveCn (t : Topology) (c : SiteId) : Prop :=
  ∃ x, t.sites.get? c = some x ∧ x.siteType = .cn ∧ (x.status = .proposed ∨ x.status = .existing)

/-- The condition of the loop body. -/
def backupLink (t : Topology) (l : Link) : Bool :=
  match t.sites.get? l.rx, l.sectors.bind (fun q => t.sectors.get? q.1) with
  | some rx, some tx => decide (rx.siteType = .cn ∧ rx.status.active ∧ tx.status.active)
  | _, _ => false

theorem cnsFromActive_eq (t : Topology) :
    t.cnsFromActive = (t.links.vals.filter (backupLink t)).foldl
      (fun (d : Dict SiteId Nat) l => d.set l.rx ((d.get? l.rx).getD 0 + 1)) [] := by
  unfold cnsFromActive
  generalize ([] : Dict SiteId Nat) = d
  induction t.links.vals generalizing d with
  | nil => rfl
  | cons l L ih =>
    simp only [List.foldl_cons]
    rw [List.filter_cons]
    unfold backupLink at *
    cases h1 : t.sites.get? l.rx with
    | none => simp only [h1]; exact ih d
    | some rx =>
      cases h2 : l.sectors.bind (fun q => t.sectors.get? q.1) with
      | none => simp only [h1, h2]; exact ih d
      | some tx =>
        simp only [h1, h2]
        by_cases c : (rx.siteType = .cn ∧ rx.status.active ∧ tx.status.active)
        · rw [if_pos c, if_pos (by simpa using c), List.foldl_cons]; exact ih _
        · rw [if_neg c, if_neg (by simpa using c)]; exact ih d

theorem count_fold {κ α : Type} [DecidableEq κ] (key : α → κ) (L : List α) :
    ∀ d : Dict κ Nat, d.NodupKeys →
    let d' := L.foldl (fun d p => d.set (key p) ((d.get? (key p)).getD 0 + 1)) d
    d'.NodupKeys ∧ (∀ k, (d'.get? k).getD 0 = (d.get? k).getD 0 +
      (L.filter (fun p => key p = k)).length) := by
  induction L with
  | nil => intro d hd; simp [hd]
  | cons p L ih =>
    intro d hd
    simp only [List.foldl_cons]
    obtain ⟨h1, h2⟩ := ih (d.set (key p) ((d.get? (key p)).getD 0 + 1)) (hd.set _ _)
    refine ⟨h1, ?_⟩
    intro k
    rw [h2 k, Dict.get?_set]
    by_cases c : key p = k
    · subst c; simp; omega
    · simp [c]

theorem two_of_length {α : Type} {L : List α} (hn : L.Nodup) :
    L.length > 1 ↔ ∃ a ∈ L, ∃ b ∈ L, a ≠ b := by
  match L, hn with
  | [], _ => simp
  | [x], _ => simp
  | x :: y :: L, hn =>
    refine ⟨fun _ => ⟨x, by simp, y, by simp, ?_⟩, fun _ => by simp⟩
    rintro rfl
    simp at hn

/-- **C69, `_partial`.** Full statement (false of the code): the number of active
CNs with usable links from active sectors of two different sites. Proved: the
same without regard to the status of the links; missing: see
`C69_unavailable_violation`. -/
theorem C69_backup_count_partial (ops : List Op) :
    ∃ S : Finset SiteId, (∀ c, c ∈ S ↔ ActiveCn (run {} ops) c ∧
      ∃ a b, a ≠ b ∧ ServedBy (run {} ops) a c ∧ ServedBy (run {} ops) b c) ∧
    (run {} ops).backupCns = S.card := by
  have inv := Inv.empty.run ops
  generalize run {} ops = t at *
  have hlv : t.links.vals.Nodup :=
    Dict.nodup_vals_of_inj inv.nd_links (fun l => ⟨l.tx, l.rx⟩) inv.link_id
  obtain ⟨h1, h2⟩ := count_fold (fun l : Link => l.rx) (t.links.vals.filter (backupLink t)) []
    Dict.nodupKeys_nil
  rw [← cnsFromActive_eq] at h1
  rw [← cnsFromActive_eq] at h2
  simp only [Dict.get?_nil, Option.getD_none, zero_add] at h2
  have hact : ∀ s : StatusType, s.active = true ↔ s = .proposed ∨ s = .existing := by
    intro s; cases s <;> simp [StatusType.active]
  have hlink : ∀ l, l ∈ t.links.vals ↔ t.links.get? ⟨l.tx, l.rx⟩ = some l := by
    intro l
    simp only [Dict.vals, List.mem_map, Prod.exists, exists_eq_right]
    constructor
    · rintro ⟨i, hi⟩
      have hg := (Dict.mem_iff_get? inv.nd_links _ _).1 hi
      exact (inv.link_id _ _ hg) ▸ hg
    · intro hg; exact ⟨_, (Dict.mem_iff_get? inv.nd_links _ _).2 hg⟩
  have hb : ∀ l ∈ t.links.vals, backupLink t l = true ↔ ActiveCn t l.rx ∧ ServedBy t l.tx l.rx := by
    intro l hl
    have hg := (hlink l).1 hl
    obtain ⟨rx, hrx⟩ := inv.link_rx _ _ hg
    unfold backupLink ActiveCn ServedBy
    simp only [hrx]
    cases hs : l.sectors with
    | none =>
      simp only [Option.bind_none, Bool.false_eq_true, false_iff]
      rintro ⟨_, l', k, k', x, hl', hk, _⟩
      rw [hg] at hl'; simp at hl'; subst hl'; simp [hs] at hk
    | some q =>
      obtain ⟨k, k'⟩ := q
      simp only [Option.bind_some]
      cases hx : t.sectors.get? k with
      | none =>
        simp only [Bool.false_eq_true, false_iff]
        rintro ⟨_, l', k2, k2', x, hl', hk, hx2, _⟩
        rw [hg] at hl'; simp at hl'; subst hl'; rw [hs] at hk; simp at hk
        rw [← hk.1, hx] at hx2; simp at hx2
      | some x =>
        simp only [decide_eq_true_eq, hact]
        constructor
        · rintro ⟨a, b, c⟩; exact ⟨⟨rx, rfl, a, b⟩, l, k, k', x, hg, hs, hx, c⟩
        · rintro ⟨⟨rx', e, a, b⟩, l', k2, k2', x', hl', hk, hx2, c⟩
          rw [hg] at hl'; simp at hl'; subst hl'; rw [hs] at hk; simp at hk
          rw [← hk.1, hx] at hx2; simp at hx2; subst hx2
          simp at e; subst e
          exact ⟨a, b, c⟩
  refine ⟨(t.cnsFromActive.keys.filter (fun c => (t.cnsFromActive.get? c).getD 0 > 1)).toFinset, ?_, ?_⟩
  · intro c
    have hk : c ∈ (t.cnsFromActive.keys.filter (fun c => (t.cnsFromActive.get? c).getD 0 > 1)).toFinset ↔
        (t.cnsFromActive.get? c).getD 0 > 1 := by
      simp only [List.mem_toFinset, List.mem_filter, decide_eq_true_eq]
      constructor
      · exact fun h => h.2
      · intro h
        refine ⟨?_, h⟩
        rw [Dict.mem_keys_iff]
        cases hc : t.cnsFromActive.get? c with
        | none => rw [hc] at h; simp at h
        | some v => exact ⟨v, rfl⟩
    rw [hk, h2 c, two_of_length ((hlv.filter _).filter _)]
    simp only [List.mem_filter, decide_eq_true_eq]
    constructor
    · rintro ⟨l, ⟨⟨hl, hbl⟩, rfl⟩, l', ⟨⟨hl', hbl'⟩, e⟩, hne⟩
      obtain ⟨p1, p2⟩ := (hb l hl).1 hbl
      obtain ⟨p3, p4⟩ := (hb l' hl').1 hbl'
      refine ⟨p1, l.tx, l'.tx, ?_, p2, e ▸ p4⟩
      intro he
      have g1 := (hlink l).1 hl
      have g2 := (hlink l').1 hl'
      rw [e, ← he, g1] at g2
      exact hne (by simpa using g2)
    · rintro ⟨p1, a, b, hab, p2, p3⟩
      have mk : ∀ a, ServedBy t a c → ∃ l, l ∈ t.links.vals ∧ l.tx = a ∧ l.rx = c := by
        rintro a ⟨l, _, _, _, hg, _⟩
        have e := inv.link_id _ _ hg
        simp only [LinkId.mk.injEq] at e
        refine ⟨l, (hlink l).2 ?_, e.1.symm, e.2.symm⟩
        rw [← e.1, ← e.2]; exact hg
      obtain ⟨l, hl, rfl, rfl⟩ := mk a p2
      obtain ⟨l', hl', rfl, e'⟩ := mk b p3
      refine ⟨l, ⟨⟨hl, (hb l hl).2 ⟨p1, p2⟩⟩, rfl⟩, l', ⟨⟨hl', (hb l' hl').2 ⟨e' ▸ p1, e' ▸ p3⟩⟩, e'⟩, ?_⟩
      rintro rfl; exact hab rfl
  · rw [List.toFinset_card_of_nodup (h1.filter _)]
    unfold backupCns
    have hv : t.cnsFromActive.vals = t.cnsFromActive.keys.map (fun k => (t.cnsFromActive.get? k).getD 0) := by
      unfold Dict.vals Dict.keys
      rw [List.map_map]
      apply List.map_congr_left
      rintro ⟨k, v⟩ hp
      simp [(Dict.mem_iff_get? h1 k v).1 hp]
    rw [hv, List.filter_map, List.length_map]
    rfl

/-- An existing CN with an existing serving DN; the link from a second DN is UNAVAILABLE. -/
def backupOps (st : StatusType) : List Op := [
  .addSite { id := "d", siteType := .dn, status := .existing } false,
  .addSite { id := "e", siteType := .dn, status := .existing } false,
  .addSite { id := "c", siteType := .cn, status := .existing, device := { deviceType := .cn } } false,
  .addSector { site := "d", node := 0, pos := 0, status := .existing },
  .addSector { site := "e", node := 0, pos := 0, status := .existing },
  .addSector { site := "c", node := 0, pos := 0, typ := .cn, status := .existing },
  .addLink { tx := "d", rx := "c", status := .existing,
             sectors := some (⟨"d", 0, 0, .dn⟩, ⟨"c", 0, 0, .cn⟩) },
  .addLink { tx := "e", rx := "c", status := st,
             sectors := some (⟨"e", 0, 0, .dn⟩, ⟨"c", 0, 0, .cn⟩) }]

/-- **C69 violation.** The UNAVAILABLE link counts as a backup. -/
theorem C69_unavailable_violation :
    (run {} (backupOps .unavailable)).backupCns = 1 ∧
    ((run {} (backupOps .unavailable)).links.vals.filter (fun l => l.status ≠ .unavailable)).length = 1 := by
  decide +kernel

example : (run {} (backupOps .candidate)).backupCns = 1 ∧
    (run {} ((backupOps .candidate).take 7)).backupCns = 0 := by decide +kernel

/-! ## C70 -/

theorem sortedIds_iff (l l' : Link) :
    l.sortedIds = l'.sortedIds ↔ s(l.tx, l.rx) = s(l'.tx, l'.rx) := by
  unfold Link.sortedIds
  rw [Sym2.eq_iff]
  split <;> split <;> simp only [Prod.mk.injEq]
  · rename_i h1 h2
    constructor
    · exact fun h => Or.inl h
    · rintro (h | ⟨e1, e2⟩)
      · exact h
      · rw [e1, e2] at h1; exact absurd h1 (not_lt_of_gt h2)
  · rename_i h1 h2
    constructor
    · exact fun h => Or.inr h
    · rintro (⟨e1, e2⟩ | h)
      · rw [e1, e2] at h1; exact absurd h1 h2
      · exact h
  · rename_i h1 h2
    constructor
    · rintro ⟨e1, e2⟩; exact Or.inr ⟨e2, e1⟩
    · rintro (⟨e1, e2⟩ | ⟨e1, e2⟩)
      · rw [e1, e2] at h1; exact absurd h2 h1
      · exact ⟨e2, e1⟩
  · rename_i h1 h2
    constructor
    · rintro ⟨e1, e2⟩; exact Or.inl ⟨e2, e1⟩
    · rintro (⟨e1, e2⟩ | ⟨e1, e2⟩)
      · exact ⟨e2, e1⟩
      · rw [e1, e2] at h1
        have e := le_antisymm (not_lt.1 h1) (not_lt.1 h2)
        exact ⟨by rw [e2, e], by rw [e1, e]⟩

/-- The wireless links accepted by the filter. -/
def chLinks (t : Topology) (f : Filter) : List Link :=
  t.links.vals.filter (fun l => f l.status && l.isWireless)

theorem linkChannels_spec (t : Topology) (f : Filter) (L : List Link) :
    ∀ d0 d : Dict (SiteId × SiteId) Int, d0.NodupKeys →
    L.foldlM (fun d l => if f l.status && l.isWireless then
      (t.linkChannel l).map (d.set l.sortedIds) else some d) d0 = some d →
    d.NodupKeys ∧ (∀ k, k ∈ d.keys ↔ k ∈ d0.keys ∨
      ∃ l ∈ L.filter (fun l => f l.status && l.isWireless), l.sortedIds = k) ∧
    (∀ k v, d.get? k = some v → d0.get? k = some v ∨
      ∃ l ∈ L.filter (fun l => f l.status && l.isWireless), l.sortedIds = k ∧ t.linkChannel l = some v) := by
  induction L with
  | nil =>
    intro d0 d hd h
    simp only [List.foldlM_nil, pure, Option.some.injEq] at h
    subst h; simp [hd]
  | cons l L ih =>
    intro d0 d hd h
    rw [List.foldlM_cons] at h
    by_cases c : (f l.status && l.isWireless) = true
    · rw [if_pos c] at h
      cases hc : t.linkChannel l with
      | none => rw [hc] at h; simp at h
      | some v =>
        rw [hc] at h
        obtain ⟨h1, h2, h3⟩ := ih (d0.set l.sortedIds v) d (hd.set _ _) h
        refine ⟨h1, ?_, ?_⟩
        · intro k
          rw [h2 k, Dict.mem_keys_iff, Dict.mem_keys_iff, List.filter_cons, if_pos c]
          simp only [Dict.get?_set, List.mem_cons, exists_eq_or_imp]
          by_cases ck : l.sortedIds = k
          · simp [ck]
          · simp [ck]
        · intro k v' hk
          rw [List.filter_cons, if_pos c]
          rcases h3 k v' hk with h | ⟨l', hl', r⟩
          · rw [Dict.get?_set] at h
            split at h
            · rename_i e
              right; exact ⟨l, by simp, e, by rw [hc]; exact h⟩
            · left; exact h
          · right; exact ⟨l', by simp only [List.mem_cons]; right; exact hl', r⟩
    · rw [if_neg c] at h
      obtain ⟨h1, h2, h3⟩ := ih d0 d hd h
      rw [List.filter_cons, if_neg c]
      exact ⟨h1, h2, h3⟩

/-- The two directions of a hop use one channel. -/
def Spec.OneChannel (t : Topology) (f : Filter) : Prop :=
  ∀ l ∈ t.links.vals, ∀ l' ∈ t.links.vals, f l.status → l.isWireless → f l'.status →
    l'.isWireless → s(l.tx, l.rx) = s(l'.tx, l'.rx) → t.linkChannel l = t.linkChannel l'

/-- Unordered pairs of sites joined by an accepted wireless link satisfying `P`. -/
def Spec.hops (t : Topology) (f : Filter) (P : Link → Bool) : Finset (Sym2 SiteId) :=
  ((t.links.vals.filter (fun l => f l.status && l.isWireless && P l)).map
    (fun l => s(l.tx, l.rx))).toFinset

theorem toSym_inj {a b : SiteId × SiteId} (ha : a.1 ≤ a.2) (hb : b.1 ≤ b.2) :
    s(a.1, a.2) = s(b.1, b.2) ↔ a = b := by
  rw [Sym2.eq_iff]
  constructor
  · rintro (⟨h1, h2⟩ | ⟨h1, h2⟩)
    · exact Prod.ext h1 h2
    · rw [h1, h2] at ha
      have := le_antisymm ha hb
      exact Prod.ext (by rw [h1, this]) (by rw [h2, this])
  · rintro rfl; exact Or.inl ⟨rfl, rfl⟩

theorem sortedIds_le (l : Link) : l.sortedIds.1 ≤ l.sortedIds.2 := by
  unfold Link.sortedIds
  split
  · rename_i h; exact le_of_lt h
  · rename_i h; exact not_lt.1 h

theorem sortedIds_sym (l : Link) : s(l.sortedIds.1, l.sortedIds.2) = s(l.tx, l.rx) := by
  unfold Link.sortedIds
  split
  · rfl
  · exact Sym2.eq_swap

theorem keys_card (t : Topology) (f : Filter) (P : Link → Bool) (K : List (SiteId × SiteId))
    (hn : K.Nodup) (hK : ∀ k, k ∈ K ↔ ∃ l ∈ t.links.vals, (f l.status && l.isWireless && P l) = true ∧
      l.sortedIds = k) : K.length = (hops t f P).card := by
  rw [← List.toFinset_card_of_nodup hn]
  apply Finset.card_bij (fun k _ => s(k.1, k.2))
  · intro k hk
    rw [List.mem_toFinset] at hk
    obtain ⟨l, hl, hp, rfl⟩ := (hK k).1 hk
    unfold hops
    rw [List.mem_toFinset, sortedIds_sym]
    exact List.mem_map.2 ⟨l, List.mem_filter.2 ⟨hl, hp⟩, rfl⟩
  · intro a ha b hb e
    rw [List.mem_toFinset] at ha hb
    obtain ⟨l, _, _, rfl⟩ := (hK a).1 ha
    obtain ⟨l', _, _, rfl⟩ := (hK b).1 hb
    exact (toSym_inj (sortedIds_le l) (sortedIds_le l')).1 e
  · intro x hx
    unfold hops at hx
    rw [List.mem_toFinset] at hx
    obtain ⟨l, hl, rfl⟩ := List.mem_map.1 hx
    obtain ⟨hl, hp⟩ := List.mem_filter.1 hl
    exact ⟨l.sortedIds, by rw [List.mem_toFinset]; exact (hK _).2 ⟨l, hl, hp, rfl⟩, sortedIds_sym l⟩

/-- **C70.** When the counter returns, its entry for channel `ch` is the number
of pairs of sites joined by an accepted wireless link on channel `ch`. -/
theorem C70_channel_count (t : Topology) (f : StatusType → Bool) (ch : Int) (n : Nat)
    (h1 : OneChannel t f) (hr : t.channelCount f ch = some n) :
    n = (hops t f (fun l => t.linkChannel l = some ch)).card := by
  unfold channelCount at hr
  simp only [Option.map_eq_some_iff] at hr
  obtain ⟨d, hd, rfl⟩ := hr
  obtain ⟨g1, g2, g3⟩ := linkChannels_spec t f t.links.vals [] d Dict.nodupKeys_nil hd
  simp only [Dict.get?_nil, reduceCtorEq, false_or, Dict.keys, List.map_nil, List.not_mem_nil] at g2 g3
  rw [← keys_card t f _ ((d.filter (fun p => p.2 = ch)).map Prod.fst)
    (g1.sublist (List.Sublist.map _ List.filter_sublist))]
  · rw [List.length_map]
    unfold Dict.vals
    rw [List.count_eq_countP, List.countP_map, List.countP_eq_length_filter]
    congr 1
  · intro k
    simp only [List.mem_map, List.mem_filter, decide_eq_true_eq, Prod.exists, exists_and_right,
      exists_eq_right]
    constructor
    · intro hv
      obtain ⟨l, hl, e1, e2⟩ := g3 k ch ((Dict.mem_iff_get? g1 _ _).1 hv)
      obtain ⟨hl, hp⟩ := List.mem_filter.1 hl
      exact ⟨l, hl, by simp [hp, e2], e1⟩
    · rintro ⟨l, hl, hp, rfl⟩
      simp only [Bool.and_eq_true, decide_eq_true_eq] at hp
      obtain ⟨⟨p1, p2⟩, p3⟩ := hp
      have hk : l.sortedIds ∈ d.keys := by
        unfold Dict.keys
        exact (g2 _).2 ⟨l, List.mem_filter.2 ⟨hl, by simp [p1, p2]⟩, rfl⟩
      obtain ⟨v, hv⟩ := (Dict.mem_keys_iff _ _).1 hk
      obtain ⟨l', hl', e1, e2⟩ := g3 _ v hv
      obtain ⟨hl', hp'⟩ := List.mem_filter.1 hl'
      simp only [Bool.and_eq_true] at hp'
      have := h1 l hl l' hl' p1 p2 hp'.1 hp'.2 ((sortedIds_iff l l').1 e1.symm)
      rw [p3, e2] at this
      simp at this; subst this
      exact (Dict.mem_iff_get? g1 _ _).2 hv

/-- **C70 (sum).** Over all channels the counts add up to the number of pairs of
sites joined by an accepted wireless link. -/
theorem C70_channels_add_up (t : Topology) (f : StatusType → Bool)
    (hr : (t.channelCount f 0).isSome = true) :
    ∃ C : Finset Int, (∀ ch, ch ∉ C → t.channelCount f ch = some 0) ∧
      ∑ ch ∈ C, (t.channelCount f ch).getD 0 = (hops t f (fun _ => true)).card := by
  unfold channelCount at *
  simp only [Option.isSome_map] at hr
  obtain ⟨d, hd⟩ := Option.isSome_iff_exists.1 hr
  obtain ⟨g1, g2, g3⟩ := linkChannels_spec t f t.links.vals [] d Dict.nodupKeys_nil hd
  simp only [Dict.keys, List.map_nil, List.not_mem_nil, false_or] at g2
  simp only [hd, Option.map_some, Option.getD_some]
  refine ⟨d.vals.toFinset, ?_, ?_⟩
  · intro ch hch
    rw [List.mem_toFinset] at hch
    rw [List.count_eq_zero_of_not_mem hch]
  · have e := List.sum_toFinset_count_eq_length d.vals
    rw [← keys_card t f _ d.keys g1, ← show d.vals.length = d.keys.length by simp [Dict.vals, Dict.keys]]
    · convert e using 2
    · intro k
      unfold Dict.keys
      rw [g2 k]
      simp only [List.mem_filter, Bool.and_true, and_assoc]

/-- Both directions of a hop on channel 2, one hop on channel 0. -/
example :
    let sec := fun (s : String) (c : Int) =>
      Op.addSector { site := s, node := 0, pos := 0, status := .proposed, channel := c }
    let t := run {} [
      .addSite { id := "p", siteType := .pop, status := .proposed } false,
      .addSite { id := "d", siteType := .dn, status := .proposed } false,
      sec "p" 2, sec "d" 2,
      .addLink { tx := "p", rx := "d", status := .proposed,
                 sectors := some (⟨"p", 0, 0, .dn⟩, ⟨"d", 0, 0, .dn⟩) },
      .addLink { tx := "d", rx := "p", status := .proposed,
                 sectors := some (⟨"d", 0, 0, .dn⟩, ⟨"p", 0, 0, .dn⟩) }]
    t.channelCount activeFilter 2 = some 1 ∧ t.channelCount activeFilter 0 = some 0 ∧
    OneChannel t activeFilter := by
  refine ⟨by decide +kernel, by decide +kernel, ?_⟩
  unfold OneChannel
  have : ∀ l ∈ (run {} [
      .addSite { id := "p", siteType := .pop, status := .proposed } false,
      .addSite { id := "d", siteType := .dn, status := .proposed } false,
      .addSector { site := "p", node := 0, pos := 0, status := .proposed, channel := 2 },
      .addSector { site := "d", node := 0, pos := 0, status := .proposed, channel := 2 },
      .addLink { tx := "p", rx := "d", status := .proposed,
                 sectors := some (⟨"p", 0, 0, .dn⟩, ⟨"d", 0, 0, .dn⟩) },
      .addLink { tx := "d", rx := "p", status := .proposed,
                 sectors := some (⟨"d", 0, 0, .dn⟩, ⟨"p", 0, 0, .dn⟩) }]).links.vals,
      (run {} [
      .addSite { id := "p", siteType := .pop, status := .proposed } false,
      .addSite { id := "d", siteType := .dn, status := .proposed } false,
      .addSector { site := "p", node := 0, pos := 0, status := .proposed, channel := 2 },
      .addSector { site := "d", node := 0, pos := 0, status := .proposed, channel := 2 },
      .addLink { tx := "p", rx := "d", status := .proposed,
                 sectors := some (⟨"p", 0, 0, .dn⟩, ⟨"d", 0, 0, .dn⟩) },
      .addLink { tx := "d", rx := "p", status := .proposed,
                 sectors := some (⟨"d", 0, 0, .dn⟩, ⟨"p", 0, 0, .dn⟩) }]).linkChannel l = some 2 := by
    decide +kernel
  intro l hl l' hl' _ _ _ _ _
  exact (this l hl).trans (this l' hl').symm

end Verif
