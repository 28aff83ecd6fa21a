import Verif.Props.Hops
import Verif.Props.Status

/-! # C10: marking of unreachable components -/

namespace Verif
open Topology Spec

/-- `n` hops respect the limit; `None` and 0 mean "no limit". -/
def Spec.WithinLimit (limit : Option Nat) (n : Nat) : Prop :=
  ∀ m, limit = some m → m ≠ 0 → n ≤ m

/-- Site `i` is a CANDIDATE that no path of usable links and sites (CANDIDATE,
PROPOSED or EXISTING) joins to a POP within the hop limit. -/
def Spec.Unserved (t : Topology) (limit : Option Nat) (i : SiteId) : Prop :=
  ∃ s, t.sites.get? i = some s ∧ s.status = .candidate ∧
    ¬ ∃ n, HopPath t (fun st => st = .candidate ∨ st = .proposed ∨ st = .existing) i n ∧
      WithinLimit limit n

theorem reachable_eq : StatusType.reachable =
    fun st => decide (st = .candidate ∨ st = .proposed ∨ st = .existing) := by
  funext st; cases st <;> rfl

/-- What must hold of a link for `link.status_type = UNREACHABLE` to be accepted. -/
def linkOk (t : Topology) (l : Link) : Prop :=
  l.status ≠ .existing ∧ l.status ≠ .unavailable ∧
    t.siteStatus l.tx ≠ some .unavailable ∧ t.siteStatus l.rx ≠ some .unavailable

theorem ite_comp {α : Type} (g : α → α) (hg : ∀ x, g (g x) = g x) (p q r : Prop)
    [Decidable p] [Decidable q] [Decidable r] (h : r ↔ q ∨ p) (x : α) :
    (if p then g (if q then g x else x) else (if q then g x else x)) = if r then g x else x := by
  by_cases hp : p <;> by_cases hq : q <;> simp [hp, hq, h, hg]

theorem setLinkStatus_ok {t t' : Topology} {id : LinkId} {st : StatusType}
    (h : t.setLinkStatus id st = (t', none)) :
    t' = { t with links := t.links.modify id (fun l => { l with status := st }) } := by
  unfold setLinkStatus at h
  repeat' split at h
  all_goals first | (simp only [Prod.mk.injEq, and_true] at h; exact h.symm) | simp at h

theorem siteStatus_some {t : Topology} {i : SiteId} (h : ∃ x, t.sites.get? i = some x) :
    ∃ a, t.siteStatus i = some a := by
  obtain ⟨x, hx⟩ := h; exact ⟨x.status, by simp [siteStatus, hx]⟩

theorem setLinkStatus_succeeds {t : Topology} (h : Inv t) {id : LinkId} {l : Link}
    (hl : t.links.get? id = some l) (ho : linkOk t l) :
    (t.setLinkStatus id .unreachable).2 = none := by
  obtain ⟨a, ha⟩ := siteStatus_some (h.link_tx _ _ hl)
  obtain ⟨b, hb⟩ := siteStatus_some (h.link_rx _ _ hl)
  obtain ⟨o1, o2, o3, o4⟩ := ho
  rw [ha] at o3; rw [hb] at o4
  unfold setLinkStatus
  simp only [hl, ha, hb]
  have hm : statusMutable l.status .unreachable = true := by
    revert o1 o2; cases l.status <;> decide
  have hc : linkCompat a b .unreachable = true := by
    revert o3 o4; cases a <;> cases b <;> decide
  simp [hm, hc]

theorem markLinks_spec (mk : SiteId → LinkId) (os : List SiteId) : ∀ {t : Topology}, Inv t →
    (∀ o ∈ os, ∃ l, t.links.get? (mk o) = some l) →
    (∀ t', markLinks t mk os = (t', none) → Inv t' ∧ t' = { t with links := t'.links } ∧
      ∀ i, t'.links.get? i = (t.links.get? i).map (fun l =>
        if ∃ o ∈ os, i = mk o then { l with status := .unreachable } else l)) ∧
    ((∀ o ∈ os, ∀ l, t.links.get? (mk o) = some l → linkOk t l) →
      (markLinks t mk os).2 = none) := by
  induction os with
  | nil =>
    intro t h _
    refine ⟨?_, fun _ => rfl⟩
    intro t' he
    simp only [markLinks, Prod.mk.injEq, and_true] at he
    subst he
    exact ⟨h, rfl, fun i => by simp⟩
  | cons o rest ih =>
    intro t h hex
    obtain ⟨l, hl⟩ := hex o (by simp)
    have hid := h.link_id _ _ hl
    have hid' : l.id = mk o := hid.symm
    have hg : t.getLinkBySiteIds (mk o).tx (mk o).rx = .ok (some l) := by
      unfold getLinkBySiteIds
      rw [if_pos]
      · show Except.ok (t.links.get? (mk o)) = _
        rw [hl]
      · simp only [Bool.and_eq_true, Dict.has_iff]
        have h1 := h.link_tx _ _ hl; have h2 := h.link_rx _ _ hl
        rw [hid]; exact ⟨h1, h2⟩
    unfold markLinks
    simp only [hg, hid']
    rcases hs : t.setLinkStatus (mk o) .unreachable with ⟨t1, e⟩
    have hinv : Inv t1 := by have := h.assign (.link (mk o) .unreachable); simpa [assign, hs] using this
    cases e with
    | some e =>
      refine ⟨by simp, fun ho => ?_⟩
      have := setLinkStatus_succeeds h hl (ho o (by simp) l hl)
      rw [hs] at this; simp at this
    | none =>
      have e1 := setLinkStatus_ok hs
      have hget : ∀ i, t1.links.get? i =
          (t.links.get? i).map (fun l => if i = mk o then { l with status := .unreachable } else l) := by
        intro i
        rw [e1]; simp only [Dict.get?_modify]
        by_cases c : mk o = i
        · subst c; simp
        · simp [c, Ne.symm c]
      have hss : ∀ i, t1.siteStatus i = t.siteStatus i := by intro i; rw [e1]; rfl
      have hrest := ih hinv (by
        intro o' ho'
        obtain ⟨l', hl'⟩ := hex o' (by simp [ho'])
        exact ⟨_, by rw [hget, hl']; rfl⟩)
      refine ⟨?_, ?_⟩
      · intro t' ht'
        obtain ⟨k1, k2, k3⟩ := hrest.1 t' ht'
        refine ⟨k1, by rw [k2, e1], fun i => ?_⟩
        rw [k3, hget]
        cases t.links.get? i with
        | none => rfl
        | some x =>
          simp only [Option.map_some, List.mem_cons, exists_eq_or_imp]
          by_cases c1 : i = mk o <;> by_cases c2 : ∃ o ∈ rest, i = mk o <;> simp [c1, c2]
      · intro ho
        refine hrest.2 ?_
        intro o' ho' l' hl'
        rw [hget] at hl'
        cases hx : t.links.get? (mk o') with
        | none => simp [hx] at hl'
        | some x =>
          simp only [hx, Option.map_some, Option.some.injEq] at hl'
          obtain ⟨p1, p2, p3, p4⟩ := ho o' (by simp [ho']) x hx
          subst hl'
          unfold linkOk
          simp only [hss]
          split
          · exact ⟨by simp, by simp, p3, p4⟩
          · exact ⟨p1, p2, p3, p4⟩

open Classical in
/-- One site: what `markSite` does when the site is to be marked. -/
theorem markSite_marked {t : Topology} (h : Inv t) (hc : Dict SiteId Nat) (limit : Option Nat)
    (id : SiteId) (s : Site) (hs : t.sites.get? id = some s) (hst : s.status = .candidate)
    (hf : tooFar hc limit id = true) :
    (∀ t', t.markSite hc limit id = (t', none) →
      Inv t' ∧ t' = { t with sites := t'.sites, links := t'.links } ∧
      t'.sites = t.sites.modify id (fun s => { s with status := .unreachable }) ∧
      ∀ i, t'.links.get? i = (t.links.get? i).map (fun l =>
        if i.tx = id ∨ i.rx = id then { l with status := .unreachable } else l)) ∧
    ((∀ i l, t.links.get? i = some l → i.tx = id ∨ i.rx = id → linkOk t l) →
      (t.markSite hc limit id).2 = none) := by
  unfold markSite
  simp only [hs, hf, hst, beq_self_eq_true, Bool.and_self, if_true]
  have hset : t.setSiteStatus id .unreachable =
      ({ t with sites := t.sites.modify id (fun s => { s with status := .unreachable }) }, none) := by
    unfold setSiteStatus
    simp [hs, hst, statusMutable, StatusType.immutable]
  rw [hset]
  simp only
  set t1 : Topology := { t with sites := t.sites.modify id (fun s => { s with status := .unreachable }) }
    with ht1
  have h1 : Inv t1 := h.modSite _ _ (fun _ => rfl)
  have hs1 : t1.sites.get? id = some { s with status := .unreachable } := by
    simp [ht1, Dict.get?_modify, hs]
  have hss1 : ∀ i, t1.siteStatus i = if i = id then some .unreachable else t.siteStatus i := by
    intro i
    simp only [siteStatus, ht1, Dict.get?_modify]
    by_cases c : id = i
    · subst c; simp [hs]
    · simp [c, Ne.symm c]
  obtain ⟨succ, hsucc, hsucc_nd, hsucc_m⟩ := successors_spec h1 id _ hs1
  have hmem1 : ∀ b, b ∈ succ.map (·.id) ↔ HasLink t id b := by
    intro b
    rw [List.mem_map]
    constructor
    · rintro ⟨x, hx, rfl⟩; exact ((hsucc_m x).1 hx).2
    · rintro ⟨l, hl⟩
      obtain ⟨x, hx⟩ := h1.link_rx _ _ (show t1.links.get? ⟨id, b⟩ = some l from hl)
      have e : l.rx = b := (congrArg LinkId.rx (h.link_id _ _ hl)).symm
      rw [e] at hx
      have ex := h1.site_id _ _ hx
      exact ⟨x, (hsucc_m x).2 ⟨by rw [ex]; exact hx, by rw [ex]; exact ⟨l, hl⟩⟩, ex⟩
  have m1 := markLinks_spec (fun o => (⟨id, o⟩ : LinkId)) (succ.map (·.id)) h1
    (fun o ho => (hmem1 o).1 ho)
  rw [hsucc]
  try simp only
  rcases hm : t1.markLinks (fun o => ⟨id, o⟩) (succ.map (·.id)) with ⟨t2, e⟩
  rw [hm] at m1
  simp only [hm]
  -- links that are fine before are fine at `t1`
  have okt1 : ∀ l, linkOk t l → linkOk t1 l := by
    rintro l ⟨a, b, c, d⟩
    refine ⟨a, b, ?_, ?_⟩ <;> rw [hss1] <;> split <;> simp_all
  cases e with
  | some e =>
    refine ⟨by simp, fun hok => ?_⟩
    have := m1.2 (fun o ho l hl => okt1 l (hok ⟨id, o⟩ l hl (Or.inl rfl)))
    simp at this
  | none =>
    obtain ⟨h2, e2, g2⟩ := m1.1 t2 rfl
    try simp only
    have hsites2 : t2.sites = t1.sites := by rw [e2]
    have hs2 : t2.sites.get? id = some { s with status := .unreachable } := by rw [hsites2]; exact hs1
    obtain ⟨pred, hpred, hpred_nd, hpred_m⟩ := predecessors_spec h2 id _ hs2
    have hl2 : ∀ a b, HasLink t2 a b ↔ HasLink t a b := by
      intro a b
      unfold HasLink; rw [g2]
      show (∃ l, Option.map _ (t.links.get? ⟨a, b⟩) = some l) ↔ _
      cases t.links.get? ⟨a, b⟩ <;> simp
    have hmem2 : ∀ b, b ∈ pred.map (·.id) ↔ HasLink t b id := by
      intro b
      rw [List.mem_map]
      constructor
      · rintro ⟨x, hx, rfl⟩; exact (hl2 _ _).1 ((hpred_m x).1 hx).2
      · intro hb
        obtain ⟨l, hl⟩ := (hl2 _ _).2 hb
        obtain ⟨x, hx⟩ := h2.link_tx _ _ hl
        have e : l.tx = b := (congrArg LinkId.tx (h2.link_id _ _ hl)).symm
        rw [e] at hx
        have ex := h2.site_id _ _ hx
        exact ⟨x, (hpred_m x).2 ⟨by rw [ex]; exact hx, by rw [ex]; exact ⟨l, hl⟩⟩, ex⟩
    have m2 := markLinks_spec (fun o => (⟨o, id⟩ : LinkId)) (pred.map (·.id)) h2
      (fun o ho => (hl2 _ _).2 ((hmem2 o).1 ho))
    rw [hpred]
    try simp only
    refine ⟨?_, ?_⟩
    · intro t' ht'
      obtain ⟨h3, e3, g3⟩ := m2.1 t' ht'
      have es : t'.sites = t1.sites := by rw [e3]; exact hsites2
      refine ⟨h3, by rw [e3, e2], es, fun i => ?_⟩
      rw [g3, g2]
      show Option.map _ (Option.map _ (t.links.get? i)) = _
      cases hx : t.links.get? i with
      | none => rfl
      | some x =>
        simp only [Option.map_some]
        congr 1
        have c1 : (∃ o ∈ succ.map (·.id), i = ⟨id, o⟩) ↔ i.tx = id := by
          constructor
          · rintro ⟨o, _, rfl⟩; rfl
          · intro e
            refine ⟨i.rx, (hmem1 _).2 ⟨x, ?_⟩, ?_⟩
            · rw [← e]; exact hx
            · rw [← e]
        have c2 : (∃ o ∈ pred.map (·.id), i = ⟨o, id⟩) ↔ i.rx = id := by
          constructor
          · rintro ⟨o, _, rfl⟩; rfl
          · intro e
            refine ⟨i.tx, (hmem2 _).2 ⟨x, ?_⟩, ?_⟩
            · rw [← e]; exact hx
            · rw [← e]
        simp only [c1, c2]
        by_cases d1 : i.tx = id <;> by_cases d2 : i.rx = id <;> simp [d1, d2]
    · intro hok
      refine m2.2 ?_
      intro o ho l hl
      rw [g2] at hl
      cases hx : t.links.get? ⟨o, id⟩ with
      | none => simp [ht1, hx] at hl
      | some x =>
        have : t1.links.get? ⟨o, id⟩ = some x := hx
        simp only [this, Option.map_some, Option.some.injEq] at hl
        obtain ⟨p1, p2, p3, p4⟩ := okt1 _ (hok _ x hx (Or.inr rfl))
        have hss2 : ∀ i, t2.siteStatus i = t1.siteStatus i := by intro i; rw [e2]; rfl
        subst hl
        unfold linkOk
        simp only [hss2]
        split
        · exact ⟨by simp, by simp, p3, p4⟩
        · exact ⟨p1, p2, p3, p4⟩

open Classical in
/-- Loop invariant over the processed sites `P`. -/
structure MarkInv (t0 : Topology) (limit : Option Nat) (P : List SiteId) (t : Topology) : Prop where
  inv : Inv t
  rest : t = { t0 with sites := t.sites, links := t.links }
  keys : t.sites.keys = t0.sites.keys
  sites : ∀ i, t.sites.get? i = (t0.sites.get? i).map (fun s =>
    if i ∈ P ∧ Unserved t0 limit i then { s with status := .unreachable } else s)
  links : ∀ i, t.links.get? i = (t0.links.get? i).map (fun l =>
    if (i.tx ∈ P ∧ Unserved t0 limit i.tx) ∨ (i.rx ∈ P ∧ Unserved t0 limit i.rx) then
      { l with status := .unreachable } else l)

open Classical in
theorem markSites_spec (t0 : Topology) (limit : Option Nat) (hc : Dict SiteId Nat)
    (hu : ∀ i s, t0.sites.get? i = some s → s.status = .candidate →
      (tooFar hc limit i = true ↔ Unserved t0 limit i))
    (ids : List SiteId) : ∀ (P : List SiteId) (t : Topology), MarkInv t0 limit P t →
    (∀ i ∈ ids, i ∉ P) → ids.Nodup → (∀ i ∈ ids, i ∈ t0.sites.keys) →
    (∀ t', t.markSites hc limit ids = (t', none) → MarkInv t0 limit (P ++ ids) t') ∧
    ((∀ i l, t0.links.get? i = some l → Unserved t0 limit i.tx ∨ Unserved t0 limit i.rx →
      linkOk t0 l) → (t.markSites hc limit ids).2 = none) := by
  induction ids with
  | nil =>
    intro P t hm _ _ _
    refine ⟨?_, fun _ => rfl⟩
    intro t' he
    simp only [markSites, Prod.mk.injEq, and_true] at he
    subst he; simpa using hm
  | cons id rest ih =>
    intro P t hm hP hnd hk
    obtain ⟨s, hs⟩ := (Dict.mem_keys_iff _ _).1 (hk id (by simp))
    have hidP : id ∉ P := hP id (by simp)
    have hst : t.sites.get? id = some s := by rw [hm.sites, hs]; simp [hidP]
    rw [List.nodup_cons] at hnd
    have hP' : ∀ i ∈ rest, i ∉ P ++ [id] := by
      intro i hi c
      rw [List.mem_append, List.mem_singleton] at c
      rcases c with c | rfl
      · exact hP i (by simp [hi]) c
      · exact hnd.1 hi
    have hk' : ∀ i ∈ rest, i ∈ t0.sites.keys := fun i hi => hk i (by simp [hi])
    have happ : P ++ id :: rest = (P ++ [id]) ++ rest := by simp
    rw [happ]
    unfold markSites
    by_cases hU : Unserved t0 limit id
    · -- the site is marked
      have hcand : s.status = .candidate := by
        obtain ⟨s', h1, h2, _⟩ := hU; rw [hs] at h1; cases h1; exact h2
      have hfar := (hu id s hs hcand).2 hU
      have spec := markSite_marked hm.inv hc limit id s hst hcand hfar
      rcases he : t.markSite hc limit id with ⟨t1, e⟩
      rw [he] at spec
      cases e with
      | some e =>
        refine ⟨by simp, fun hok => ?_⟩
        have := spec.2 (by
          intro i l hl hi
          rw [hm.links] at hl
          cases hx : t0.links.get? i with
          | none => simp [hx] at hl
          | some x =>
            simp only [hx, Option.map_some, Option.some.injEq] at hl
            have hU' : Unserved t0 limit i.tx ∨ Unserved t0 limit i.rx := by
              rcases hi with e | e
              · exact Or.inl (e ▸ hU)
              · exact Or.inr (e ▸ hU)
            obtain ⟨p1, p2, p3, p4⟩ := hok i x hx hU'
            have hssu : ∀ j, t0.siteStatus j ≠ some .unavailable →
                t.siteStatus j ≠ some .unavailable := by
              intro j hj
              unfold siteStatus at hj ⊢
              rw [hm.sites]
              cases hy : t0.sites.get? j with
              | none => simp
              | some y =>
                simp only [hy, Option.map_some] at hj ⊢
                split
                · simp
                · exact hj
            have e1 : l.tx = x.tx := by rw [← hl]; split <;> rfl
            have e2 : l.rx = x.rx := by rw [← hl]; split <;> rfl
            refine ⟨?_, ?_, e1 ▸ hssu _ p3, e2 ▸ hssu _ p4⟩
            · rw [← hl]; split
              · simp
              · exact p1
            · rw [← hl]; split
              · simp
              · exact p2)
        simp at this
      | none =>
        obtain ⟨i1, r1, s1, l1⟩ := spec.1 t1 rfl
        refine ih (P ++ [id]) t1 ⟨i1, ?_, ?_, ?_, ?_⟩ hP' hnd.2 hk'
        · rw [r1, hm.rest]
        · rw [s1, Dict.keys_modify]; exact hm.keys
        · intro i
          rw [s1, Dict.get?_modify, hm.sites]
          by_cases c : id = i
          · subst c; simp [hs, hidP, hU]
          · have c' : i ≠ id := Ne.symm c
            simp [c, c']
        · intro i
          rw [l1, hm.links]
          cases t0.links.get? i with
          | none => rfl
          | some x =>
            simp only [Option.map_some, List.mem_append, List.mem_singleton]
            refine congrArg some (ite_comp (fun l : Link => { l with status := .unreachable })
              (fun _ => rfl) _ _ _ ?_ x)
            by_cases c1 : i.tx = id <;> by_cases c2 : i.rx = id <;> simp [c1, c2, hU]
    · -- nothing happens
      have hno : t.markSite hc limit id = (t, none) := by
        unfold markSite
        simp only [hst]
        rw [if_neg]
        intro hcond
        simp only [Bool.and_eq_true, beq_iff_eq] at hcond
        exact hU ((hu id s hs hcond.2).1 hcond.1)
      rw [hno]
      refine ih (P ++ [id]) t ⟨hm.inv, hm.rest, hm.keys, ?_, ?_⟩ hP' hnd.2 hk'
      · intro i
        rw [hm.sites]
        congr 1; funext x
        by_cases c : i = id
        · subst c; simp [hU]
        · simp [c]
      · intro i
        rw [hm.links]
        congr 1; funext x
        have a1 : (i.tx ∈ P ++ [id] ∧ Unserved t0 limit i.tx) ↔ (i.tx ∈ P ∧ Unserved t0 limit i.tx) := by
          rw [List.mem_append, List.mem_singleton]
          constructor
          · rintro ⟨a | a, b⟩
            · exact ⟨a, b⟩
            · exact absurd (a ▸ b) hU
          · rintro ⟨a, b⟩; exact ⟨Or.inl a, b⟩
        have a2 : (i.rx ∈ P ++ [id] ∧ Unserved t0 limit i.rx) ↔ (i.rx ∈ P ∧ Unserved t0 limit i.rx) := by
          rw [List.mem_append, List.mem_singleton]
          constructor
          · rintro ⟨a | a, b⟩
            · exact ⟨a, b⟩
            · exact absurd (a ▸ b) hU
          · rintro ⟨a, b⟩; exact ⟨Or.inl a, b⟩
        simp only [a1, a2]

theorem setSectorStatus_ok {t t' : Topology} {id : SectorId} {st : StatusType}
    (h : t.setSectorStatus id st = (t', none)) :
    t' = { t with sectors := t.sectors.modify id (fun s => { s with status := st }) } := by
  unfold setSectorStatus at h
  repeat' split at h
  all_goals first | (simp only [Prod.mk.injEq, and_true] at h; exact h.symm) | simp at h

theorem markSectors_spec (ids : List SectorId) : ∀ {t : Topology}, Inv t → ids.Nodup →
    (∀ i ∈ ids, ∃ x, t.sectors.get? i = some x) →
    (∀ t', t.markSectors ids = (t', none) → t' = { t with sectors := t'.sectors } ∧
      ∀ i, t'.sectors.get? i = (t.sectors.get? i).map (fun x =>
        if i ∈ ids ∧ t.siteStatus x.site = some .unreachable then
          { x with status := .unreachable } else x)) ∧
    ((∀ i ∈ ids, ∀ x, t.sectors.get? i = some x → t.siteStatus x.site = some .unreachable →
      x.status ≠ .existing ∧ x.status ≠ .unavailable) → (t.markSectors ids).2 = none) := by
  induction ids with
  | nil =>
    intro t _ _ _
    refine ⟨?_, fun _ => rfl⟩
    intro t' he
    simp only [markSectors, Prod.mk.injEq, and_true] at he
    subst he; exact ⟨rfl, fun i => by simp⟩
  | cons id rest ih =>
    intro t h hnd hex
    rw [List.nodup_cons] at hnd
    obtain ⟨x, hx⟩ := hex id (by simp)
    unfold markSectors
    simp only [hx]
    by_cases c : t.siteStatus x.site = some .unreachable
    · rw [if_pos c]
      rcases hs : t.setSectorStatus id .unreachable with ⟨t1, e⟩
      cases e with
      | some e =>
        refine ⟨by simp, fun hok => ?_⟩
        obtain ⟨o1, o2⟩ := hok id (by simp) x hx c
        have := (C64_sector_setter t id .unreachable x .unreachable hx c).1.2
          ⟨o1, o2, by simp, by simp, by simp [SectorRule]⟩
        rw [hs] at this; simp at this
      | none =>
        have e1 := setSectorStatus_ok hs
        have h1 : Inv t1 := by
          have := h.assign (.sector id .unreachable); simpa [assign, hs] using this
        have hget : ∀ i, t1.sectors.get? i = (t.sectors.get? i).map (fun x =>
            if i = id then { x with status := .unreachable } else x) := by
          intro i; rw [e1]; simp only [Dict.get?_modify]
          by_cases d : id = i
          · subst d; simp
          · simp [d, Ne.symm d]
        have hss : ∀ i, t1.siteStatus i = t.siteStatus i := by intro i; rw [e1]; rfl
        have hrest := ih h1 hnd.2 (by
          intro i hi
          obtain ⟨y, hy⟩ := hex i (by simp [hi])
          exact ⟨_, by rw [hget, hy]; rfl⟩)
        refine ⟨?_, ?_⟩
        · intro t' ht'
          obtain ⟨k1, k2⟩ := hrest.1 t' ht'
          refine ⟨by rw [k1, e1], fun i => ?_⟩
          rw [k2, hget]
          cases hy : t.sectors.get? i with
          | none => rfl
          | some y =>
            simp only [Option.map_some, hss, List.mem_cons]
            congr 1
            by_cases d : i = id
            · subst d
              rw [hx] at hy; cases hy
              simp [c, hnd.1]
            · simp [d]
        · intro hok
          refine hrest.2 ?_
          intro i hi y hy hyu
          have hne : i ≠ id := fun e => hnd.1 (e ▸ hi)
          rw [hget] at hy
          cases hz : t.sectors.get? i with
          | none => simp [hz] at hy
          | some z =>
            simp only [hz, Option.map_some, hne, if_false, Option.some.injEq] at hy
            subst hy
            rw [hss] at hyu
            exact hok i (by simp [hi]) z hz hyu
    · rw [if_neg c]
      have hrest := ih h hnd.2 (fun i hi => hex i (by simp [hi]))
      refine ⟨?_, ?_⟩
      · intro t' ht'
        obtain ⟨k1, k2⟩ := hrest.1 t' ht'
        refine ⟨k1, fun i => ?_⟩
        rw [k2]
        cases hy : t.sectors.get? i with
        | none => rfl
        | some y =>
          simp only [Option.map_some, List.mem_cons]
          congr 1
          by_cases d : i = id
          · subst d
            rw [hx] at hy; cases hy
            simp [c]
          · simp [d]
      · intro hok
        exact hrest.2 fun i hi => hok i (by simp [hi])

theorem tooFar_iff {t : Topology} (h : Inv t) {hc : Dict SiteId Nat}
    (hh : t.hopsFromPops StatusType.reachable = some hc) (limit : Option Nat) (i : SiteId) (s : Site)
    (hs : t.sites.get? i = some s) (hcand : s.status = .candidate) :
    tooFar hc limit i = true ↔ Unserved t limit i := by
  obtain ⟨r, hr, hspec⟩ := hops_spec h StatusType.reachable
  rw [hh] at hr; cases hr
  have hU : Unserved t limit i ↔ ¬ ∃ n, HopPath t StatusType.reachable i n ∧ WithinLimit limit n := by
    unfold Unserved
    rw [reachable_eq]
    constructor
    · rintro ⟨_, _, _, h3⟩; exact h3
    · intro h3; exact ⟨s, hs, hcand, h3⟩
  rw [hU]
  unfold tooFar
  cases e : hc.get? i with
  | none =>
    simp only [true_iff]
    rintro ⟨n, hn, _⟩
    classical
    have hex : ∃ m, HopPath t StatusType.reachable i m := ⟨n, hn⟩
    have := (hspec i (Nat.find hex)).2 ⟨Nat.find_spec hex, fun m' hm' => Nat.find_min' hex hm'⟩
    rw [e] at this; simp at this
  | some n =>
    obtain ⟨h1, h2⟩ := (hspec i n).1 e
    cases limit with
    | none =>
      simp only [Bool.false_eq_true, false_iff, not_not]
      exact ⟨n, h1, by intro m hm; simp at hm⟩
    | some m =>
      simp only [Bool.and_eq_true, bne_iff_ne, ne_eq, decide_eq_true_eq, gt_iff_lt]
      constructor
      · rintro ⟨hm, hlt⟩ ⟨k, hk, hw⟩
        have := hw m rfl hm; have := h2 k hk; omega
      · intro hno
        by_contra hcon
        refine hno ⟨n, h1, ?_⟩
        intro m' hm' hne
        cases hm'
        by_contra hlt
        exact hcon ⟨hne, by omega⟩

open Classical in
theorem mark_exact {t : Topology} (h : Inv t) (limit : Option Nat) (t' : Topology)
    (he : t.markUnreachable limit = some (t', none)) :
    (∀ i, t'.sites.get? i = (t.sites.get? i).map (fun s =>
      if Unserved t limit i then { s with status := .unreachable } else s)) ∧
    (∀ i, t'.links.get? i = (t.links.get? i).map (fun l =>
      if Unserved t limit l.tx ∨ Unserved t limit l.rx then
        { l with status := .unreachable } else l)) ∧
    (∀ i, t'.sectors.get? i = (t.sectors.get? i).map (fun x =>
      if ∃ s, t'.sites.get? x.site = some s ∧ s.status = .unreachable then
        { x with status := .unreachable } else x)) ∧
    t'.demandSites = t.demandSites ∧ t'.sites.keys = t.sites.keys := by
  obtain ⟨hc, hh, _⟩ := hops_spec h StatusType.reachable
  unfold markUnreachable at he
  simp only [hh, Option.map_some, Option.some.injEq] at he
  have hm0 : MarkInv t limit [] t := ⟨h, rfl, rfl, fun i => by simp, fun i => by simp⟩
  have spec := markSites_spec t limit hc (fun i s hs hcd => tooFar_iff h hh limit i s hs hcd)
    t.sites.keys [] t hm0 (by simp) h.nd_sites (fun i hi => hi)
  rcases hm : t.markSites hc limit t.sites.keys with ⟨t1, e⟩
  rw [hm] at he spec
  cases e with
  | some e => simp at he
  | none =>
    simp only at he
    have m1 := spec.1 t1 rfl
    have m2 := (markSectors_spec t1.sectors.keys m1.inv m1.inv.nd_sectors
      (fun i hi => (Dict.mem_keys_iff _ _).1 hi)).1 t' he
    have hsec : t1.sectors = t.sectors := by rw [m1.rest]
    refine ⟨?_, ?_, ?_, ?_, ?_⟩
    · intro i
      rw [m2.1]; show t1.sites.get? i = _
      rw [m1.sites]
      cases hx : t.sites.get? i with
      | none => rfl
      | some x =>
        have : i ∈ t.sites.keys := (Dict.mem_keys_iff _ _).2 ⟨x, hx⟩
        simp [this]
    · intro i
      rw [m2.1]; show t1.links.get? i = _
      rw [m1.links]
      cases hx : t.links.get? i with
      | none => rfl
      | some x =>
        have e := h.link_id _ _ hx
        have k1 : i.tx ∈ t.sites.keys := by
          rw [e]; exact (Dict.mem_keys_iff _ _).2 (h.link_tx _ _ hx)
        have k2 : i.rx ∈ t.sites.keys := by
          rw [e]; exact (Dict.mem_keys_iff _ _).2 (h.link_rx _ _ hx)
        have e1 : i.tx = x.tx := by rw [e]
        have e2 : i.rx = x.rx := by rw [e]
        rw [e1] at k1; rw [e2] at k2
        simp only [Option.map_some, List.nil_append, k1, k2, true_and, e1, e2]
    · intro i
      rw [m2.2, hsec]
      cases hx : t.sectors.get? i with
      | none => rfl
      | some x =>
        have : i ∈ t.sectors.keys := (Dict.mem_keys_iff _ _).2 ⟨x, hx⟩
        simp only [Option.map_some, this, true_and]
        have hst : t1.siteStatus x.site = some .unreachable ↔
            ∃ s, t'.sites.get? x.site = some s ∧ s.status = .unreachable := by
          rw [m2.1]; show _ ↔ ∃ s, t1.sites.get? x.site = some s ∧ _
          unfold siteStatus
          cases t1.sites.get? x.site <;> simp
        by_cases c : ∃ s, t'.sites.get? x.site = some s ∧ s.status = .unreachable
        · rw [if_pos (hst.2 c), if_pos c]
        · rw [if_neg (mt hst.1 c), if_neg c]
    · rw [m2.1]; show t1.demandSites = _; rw [m1.rest]
    · rw [m2.1]; exact m1.keys

open Classical in
/-- **C10.** Whenever `mark_unreachable_components` returns, it has made
UNREACHABLE exactly the CANDIDATE sites that no usable path joins to a POP within
the limit, all links touching such a site, and all sectors on an UNREACHABLE
site; every other attribute of every object is as before. -/
theorem C10_mark_exact (ops : List Op) (limit : Option Nat) (t' : Topology)
    (he : (run {} ops).markUnreachable limit = some (t', none)) :
    (∀ i, t'.sites.get? i = ((run {} ops).sites.get? i).map (fun s =>
      if Unserved (run {} ops) limit i then { s with status := .unreachable } else s)) ∧
    (∀ i, t'.links.get? i = ((run {} ops).links.get? i).map (fun l =>
      if Unserved (run {} ops) limit l.tx ∨ Unserved (run {} ops) limit l.rx then
        { l with status := .unreachable } else l)) ∧
    (∀ i, t'.sectors.get? i = ((run {} ops).sectors.get? i).map (fun x =>
      if ∃ s, t'.sites.get? x.site = some s ∧ s.status = .unreachable then
        { x with status := .unreachable } else x)) ∧
    t'.demandSites = (run {} ops).demandSites := by
  obtain ⟨a, b, c, d, _⟩ := mark_exact (Inv.empty.run ops) limit t' he
  exact ⟨a, b, c, d⟩

/-- **C10 (returns).** It returns, without an exception, if no link touching a
site to be marked is EXISTING or UNAVAILABLE or ends at an UNAVAILABLE site, and
no sector on a site that is or becomes UNREACHABLE is EXISTING or UNAVAILABLE. -/
theorem C10_returns (ops : List Op) (limit : Option Nat)
    (hl : ∀ i l, (run {} ops).links.get? i = some l →
      Unserved (run {} ops) limit l.tx ∨ Unserved (run {} ops) limit l.rx →
      l.status ≠ .existing ∧ l.status ≠ .unavailable ∧
      ∀ s, (run {} ops).sites.get? l.tx = some s ∨ (run {} ops).sites.get? l.rx = some s →
        s.status ≠ .unavailable)
    (hx : ∀ i x s, (run {} ops).sectors.get? i = some x → (run {} ops).sites.get? x.site = some s →
      s.status = .unreachable ∨ Unserved (run {} ops) limit x.site →
      x.status ≠ .existing ∧ x.status ≠ .unavailable) :
    ∃ t', (run {} ops).markUnreachable limit = some (t', none) := by
  have h := Inv.empty.run ops
  generalize run {} ops = t at *
  obtain ⟨hc, hh, _⟩ := hops_spec h StatusType.reachable
  unfold markUnreachable
  simp only [hh, Option.map_some, Option.some.injEq]
  have hm0 : MarkInv t limit [] t := ⟨h, rfl, rfl, fun i => by simp, fun i => by simp⟩
  have spec := markSites_spec t limit hc (fun i s hs hcd => tooFar_iff h hh limit i s hs hcd)
    t.sites.keys [] t hm0 (by simp) h.nd_sites (fun i hi => hi)
  have hok := spec.2 (by
    intro i l hil hU
    have e := h.link_id _ _ hil
    rw [e] at hU
    obtain ⟨a, b, c⟩ := hl i l hil hU
    refine ⟨a, b, ?_, ?_⟩
    · intro hc'
      unfold siteStatus at hc'
      cases hy : t.sites.get? l.tx with
      | none => simp [hy] at hc'
      | some y => simp [hy] at hc'; exact c y (Or.inl hy) hc'
    · intro hc'
      unfold siteStatus at hc'
      cases hy : t.sites.get? l.rx with
      | none => simp [hy] at hc'
      | some y => simp [hy] at hc'; exact c y (Or.inr hy) hc')
  rcases hm : t.markSites hc limit t.sites.keys with ⟨t1, e⟩
  rw [hm] at hok spec
  simp only at hok
  subst hok
  have m1 := spec.1 t1 rfl
  have m2 := (markSectors_spec t1.sectors.keys m1.inv m1.inv.nd_sectors
    (fun i hi => (Dict.mem_keys_iff _ _).1 hi)).2 (by
      intro i _ x hix hu
      have hsec : t1.sectors = t.sectors := by rw [m1.rest]
      rw [hsec] at hix
      obtain ⟨s, hs⟩ := h.sector_site _ _ hix
      refine hx i x s hix hs ?_
      unfold siteStatus at hu
      rw [m1.sites, hs] at hu
      simp only [Option.map_some, Option.some.injEq] at hu
      by_cases c : Unserved t limit x.site
      · exact Or.inr c
      · left; simpa [c] using hu)
  refine ⟨(t1.markSectors t1.sectors.keys).1, ?_⟩
  simp only
  rw [← m2]

/-- A network with an isolated CANDIDATE DN `x` carrying a sector, linked both
ways to a CN-less CANDIDATE DN `y`. -/
def islandOps : List Op := demoOps ++
  [.addSite { id := "x", siteType := .dn, status := .candidate } false,
   .addSite { id := "y", siteType := .dn, status := .candidate } false,
   .addSector { site := "x", node := 0, pos := 0 },
   .addLink { tx := "x", rx := "y" }, .addLink { tx := "y", rx := "x" }]

/-- `C10` applies non-trivially: the island is marked, the rest is not; with a
hop limit of 1 the CN at distance 2 is marked as well. -/
example :
    ((run {} islandOps).markUnreachable none).map (fun o =>
      (o.1.sites.vals.map (fun s => (s.id, s.status)), o.2)) =
      some ([("p", .existing), ("d", .candidate), ("c", .candidate), ("x", .unreachable),
        ("y", .unreachable)], none) ∧
    ((run {} islandOps).markUnreachable (some 1)).map (fun o => o.1.siteStatus "c") =
      some (some .unreachable) ∧
    ((run {} islandOps).markUnreachable (some 0)).map (fun o => o.1.siteStatus "c") =
      some (some .candidate) := by decide +kernel

/-- The exception path exists: an UNAVAILABLE link at an isolated CANDIDATE site
makes the call raise with the site already marked. -/
theorem C10_raise_witness : ∃ ops t', (run {} ops).markUnreachable none = some (t', some .topology) ∧
    (run {} ops).siteStatus "x" = some .candidate ∧ t'.siteStatus "x" = some .unreachable := by
  let ops : List Op :=
    [.addSite { id := "x", siteType := .dn, status := .candidate } false,
     .addSite { id := "y", siteType := .dn, status := .candidate } false,
     .addLink { tx := "x", rx := "y", status := .unavailable }]
  refine ⟨ops, (((run {} ops).markUnreachable none).get (by decide +kernel)).1, ?_, ?_, ?_⟩ <;>
    decide +kernel

end Verif
