import Verif.Model.Ignore
import Verif.Props.Solution

/-! # C62, C65: reachability under ignored links and sites -/

namespace Verif
open Topology Spec

theorem Dict.ext_keys {κ ν : Type} [DecidableEq κ] {d d' : Dict κ ν} (hn : d.NodupKeys)
    (hk : d'.keys = d.keys) (hg : ∀ i, d'.get? i = d.get? i) : d' = d := by
  induction d generalizing d' with
  | nil => simpa [Dict.keys] using hk
  | cons p d ih =>
    obtain ⟨k, v⟩ := p
    cases d' with
    | nil => simp [Dict.keys] at hk
    | cons q d' =>
      obtain ⟨k', v'⟩ := q
      simp only [Dict.keys, List.map_cons, List.cons.injEq] at hk
      obtain ⟨rfl, hk⟩ := hk
      have h0 := hg k'
      simp only [Dict.get?_cons, if_true, Option.some.injEq] at h0
      subst h0
      simp only [Dict.NodupKeys, Dict.keys, List.map_cons, List.nodup_cons] at hn
      congr 1
      refine ih hn.2 hk fun i => ?_
      by_cases c : k' = i
      · subst c
        rw [(Dict.get?_eq_none_iff d k').2 hn.1, (Dict.get?_eq_none_iff d' k').2 (by
          rw [Dict.keys, hk]; exact hn.1)]
      · have := hg i
        simpa [c] using this

theorem getLink_ok {t : Topology} {a b : SiteId} {o : Option Link}
    (h : t.getLinkBySiteIds a b = .ok o) : t.links.get? ⟨a, b⟩ = o := by
  unfold getLinkBySiteIds at h
  split at h
  · simpa using h
  · simp at h

/-- Effect of the first loop when it does not raise. -/
theorem hideLinks_ok (L : List LinkId) (t : Topology) (sv : Dict LinkId StatusType) {t1 : Topology}
    {sv1 : Dict LinkId StatusType} (hn : L.Nodup) (h : t.hideLinks sv L = (t1, sv1, none)) :
    t1 = { t with links := t1.links } ∧ t1.links.keys = t.links.keys ∧
    (∀ i, t1.links.get? i = (t.links.get? i).map (fun l =>
      if i ∈ L then { l with status := .unreachable } else l)) ∧
    (∀ i, sv1.get? i = if i ∈ L ∧ (t.links.get? i).isSome then (t.links.get? i).map (·.status)
      else sv.get? i) := by
  induction L generalizing t sv with
  | nil =>
    simp only [hideLinks, Prod.mk.injEq, and_true] at h
    obtain ⟨rfl, rfl⟩ := h
    exact ⟨rfl, rfl, fun i => by simp, fun i => by simp⟩
  | cons id L ih =>
    rw [List.nodup_cons] at hn
    unfold hideLinks at h
    split at h
    · simp at h
    · rename_i hl
      have hl := getLink_ok hl
      obtain ⟨h1, h2, h3, h4⟩ := ih t sv hn.2 h
      refine ⟨h1, h2, fun i => ?_, fun i => ?_⟩
      · rw [h3]
        by_cases c : i = id
        · subst c; rw [hl]; rfl
        · simp [c]
      · rw [h4]
        by_cases c : i = id
        · subst c; simp [hl]
        · simp [c]
    · rename_i l hl
      have hl := getLink_ok hl
      rcases hs : t.setLinkStatus id .unreachable with ⟨t', e⟩
      rw [hs] at h
      cases e with
      | some e => simp at h
      | none =>
        simp only at h
        have e := setLinkStatus_ok hs
        obtain ⟨h1, h2, h3, h4⟩ := ih t' _ hn.2 h
        have hg : ∀ i, t'.links.get? i = (t.links.get? i).map (fun l =>
            if i = id then { l with status := .unreachable } else l) := by
          intro i; rw [e]; dsimp only
          exact entryUpd_modify t.links id _ _ (fun v _ => rfl) i
        refine ⟨by rw [h1, e], by rw [h2, e]; simp only [Dict.keys_modify], fun i => ?_, fun i => ?_⟩
        · rw [h3, hg]
          cases t.links.get? i with
          | none => rfl
          | some x =>
            by_cases c : i = id
            · subst c; simp [hn.1]
            · by_cases c' : i ∈ L <;> simp [c, c']
        · rw [h4, hg, Dict.get?_set]
          by_cases c : i = id
          · subst c; simp [hl, hn.1]
          · cases t.links.get? i <;> by_cases c' : i ∈ L <;> simp [c, c', Ne.symm c]

theorem hideSites_ok (S : List SiteId) (t : Topology) (sv : Dict SiteId StatusType) {t1 : Topology}
    {sv1 : Dict SiteId StatusType} (hn : S.Nodup) (h : t.hideSites sv S = (t1, sv1, none)) :
    t1 = { t with sites := t1.sites } ∧ t1.sites.keys = t.sites.keys ∧
    (∀ i, t1.sites.get? i = (t.sites.get? i).map (fun s =>
      if i ∈ S then { s with status := .unreachable } else s)) ∧
    (∀ i, sv1.get? i = if i ∈ S ∧ (t.sites.get? i).isSome then (t.sites.get? i).map (·.status)
      else sv.get? i) := by
  induction S generalizing t sv with
  | nil =>
    simp only [hideSites, Prod.mk.injEq, and_true] at h
    obtain ⟨rfl, rfl⟩ := h
    exact ⟨rfl, rfl, fun i => by simp, fun i => by simp⟩
  | cons id L ih =>
    rw [List.nodup_cons] at hn
    unfold hideSites at h
    split at h
    · rename_i hl
      obtain ⟨h1, h2, h3, h4⟩ := ih t sv hn.2 h
      refine ⟨h1, h2, fun i => ?_, fun i => ?_⟩
      · rw [h3]
        by_cases c : i = id
        · subst c; rw [hl]; rfl
        · simp [c]
      · rw [h4]
        by_cases c : i = id
        · subst c; simp [hl]
        · simp [c]
    · rename_i l hl
      rcases hs : t.setSiteStatus id .unreachable with ⟨t', e⟩
      rw [hs] at h
      cases e with
      | some e => simp at h
      | none =>
        simp only at h
        have e := setSiteStatus_ok hs
        obtain ⟨h1, h2, h3, h4⟩ := ih t' _ hn.2 h
        have hg : ∀ i, t'.sites.get? i = (t.sites.get? i).map (fun l =>
            if i = id then { l with status := .unreachable } else l) := by
          intro i; rw [e]; dsimp only
          exact entryUpd_modify t.sites id _ _ (fun v _ => rfl) i
        refine ⟨by rw [h1, e], by rw [h2, e]; simp only [Dict.keys_modify], fun i => ?_, fun i => ?_⟩
        · rw [h3, hg]
          cases t.sites.get? i with
          | none => rfl
          | some x =>
            by_cases c : i = id
            · subst c; simp [hn.1]
            · by_cases c' : i ∈ L <;> simp [c, c']
        · rw [h4, hg, Dict.get?_set]
          by_cases c : i = id
          · subst c; simp [hl, hn.1]
          · cases t.sites.get? i <;> by_cases c' : i ∈ L <;> simp [c, c', Ne.symm c]

theorem restoreLinks_ok (L : List LinkId) (t : Topology) (sv : Dict LinkId StatusType) {t1 : Topology}
    (h : t.restoreLinks sv L = (t1, none)) :
    t1 = { t with links := t1.links } ∧ t1.links.keys = t.links.keys ∧
    (∀ i, t1.links.get? i = (t.links.get? i).map (fun l =>
      if i ∈ L then { l with status := (sv.get? i).getD l.status } else l)) := by
  induction L generalizing t with
  | nil =>
    simp only [restoreLinks, Prod.mk.injEq, and_true] at h
    subst h
    exact ⟨rfl, rfl, fun i => by simp⟩
  | cons id L ih =>
    unfold restoreLinks at h
    split at h
    · simp at h
    · simp at h
    · split at h
      · simp at h
      rename_i st hst
      rcases hs : t.setLinkStatus id st with ⟨t', e⟩
      rw [hs] at h
      cases e with
      | some e => simp at h
      | none =>
        simp only at h
        have e := setLinkStatus_ok hs
        obtain ⟨h1, h2, h3⟩ := ih t' h
        have hg : ∀ i, t'.links.get? i = (t.links.get? i).map (fun l =>
            if i = id then { l with status := st } else l) := by
          intro i; rw [e]; dsimp only
          exact entryUpd_modify t.links id _ _ (fun v _ => rfl) i
        refine ⟨by rw [h1, e], by rw [h2, e]; simp only [Dict.keys_modify], fun i => ?_⟩
        rw [h3, hg]
        cases t.links.get? i with
        | none => rfl
        | some x =>
          by_cases c : i = id
          · subst c; by_cases c' : i ∈ L <;> simp [c', hst]
          · by_cases c' : i ∈ L <;> simp [c, c']

theorem restoreSites_ok (L : List SiteId) (t : Topology) (sv : Dict SiteId StatusType) {t1 : Topology}
    (h : t.restoreSites sv L = (t1, none)) :
    t1 = { t with sites := t1.sites } ∧ t1.sites.keys = t.sites.keys ∧
    (∀ i, t1.sites.get? i = (t.sites.get? i).map (fun l =>
      if i ∈ L then { l with status := (sv.get? i).getD l.status } else l)) := by
  induction L generalizing t with
  | nil =>
    simp only [restoreSites, Prod.mk.injEq, and_true] at h
    subst h
    exact ⟨rfl, rfl, fun i => by simp⟩
  | cons id L ih =>
    unfold restoreSites at h
    split at h
    · simp at h
    · split at h
      · simp at h
      rename_i st hst
      rcases hs : t.setSiteStatus id st with ⟨t', e⟩
      rw [hs] at h
      cases e with
      | some e => simp at h
      | none =>
        simp only at h
        have e := setSiteStatus_ok hs
        obtain ⟨h1, h2, h3⟩ := ih t' h
        have hg : ∀ i, t'.sites.get? i = (t.sites.get? i).map (fun l =>
            if i = id then { l with status := st } else l) := by
          intro i; rw [e]; dsimp only
          exact entryUpd_modify t.sites id _ _ (fun v _ => rfl) i
        refine ⟨by rw [h1, e], by rw [h2, e]; simp only [Dict.keys_modify], fun i => ?_⟩
        rw [h3, hg]
        cases t.sites.get? i with
        | none => rfl
        | some x =>
          by_cases c : i = id
          · subst c; by_cases c' : i ∈ L <;> simp [c', hst]
          · by_cases c' : i ∈ L <;> simp [c, c']

theorem hideLinks_inv (L : List LinkId) (t : Topology) (sv : Dict LinkId StatusType)
    (h : Topology.Inv t) : Topology.Inv (t.hideLinks sv L).1 := by
  induction L generalizing t sv with
  | nil => exact h
  | cons id L ih =>
    unfold hideLinks
    split
    · exact h
    · exact ih _ _ h
    · have h1 : Topology.Inv (t.setLinkStatus id .unreachable).1 := h.assign (.link id .unreachable)
      rcases hs : t.setLinkStatus id .unreachable with ⟨t', e⟩
      rw [hs] at h1
      cases e with
      | some e => exact h1
      | none => exact ih _ _ h1

theorem hideSites_inv (L : List SiteId) (t : Topology) (sv : Dict SiteId StatusType)
    (h : Topology.Inv t) : Topology.Inv (t.hideSites sv L).1 := by
  induction L generalizing t sv with
  | nil => exact h
  | cons id L ih =>
    unfold hideSites
    split
    · exact ih _ _ h
    · have h1 : Topology.Inv (t.setSiteStatus id .unreachable).1 := h.assign (.site id .unreachable)
      rcases hs : t.setSiteStatus id .unreachable with ⟨t', e⟩
      rw [hs] at h1
      cases e with
      | some e => exact h1
      | none => exact ih _ _ h1

/-- What a successful call did. -/
theorem reachableIgnoring_ok {t : Topology} (h : Topology.Inv t) {f : Filter} {L : List LinkId}
    {S : List SiteId} (hL : L.Nodup) (hS : S.Nodup) {t' : Topology} {r : List DemandId}
    (he : t.reachableIgnoring f L S = some (t', .ok r)) :
    t' = t ∧ ∃ (t2 : Topology) (reach : List DemandId), t2.reachableDemand f = some reach ∧ Topology.Inv t2 ∧
      t2 = { t with links := t2.links, sites := t2.sites } ∧
      t2.links.keys = t.links.keys ∧ t2.sites.keys = t.sites.keys ∧
      (∀ i, t2.links.get? i = (t.links.get? i).map (fun l =>
        if i ∈ L then { l with status := .unreachable } else l)) ∧
      (∀ i, t2.sites.get? i = (t.sites.get? i).map (fun s =>
        if i ∈ S then { s with status := .unreachable } else s)) ∧
      r = (t.demandSites.vals.filter (fun d => decide (d.id ∈ reach))).flatMap demandCopies := by
  unfold reachableIgnoring at he
  rcases h1 : t.hideLinks [] L with ⟨t1, lsv, e1⟩
  rw [h1] at he
  cases e1 with
  | some e => simp at he
  | none =>
  simp only at he
  rcases h2 : t1.hideSites [] S with ⟨t2, ssv, e2⟩
  rw [h2] at he
  cases e2 with
  | some e => simp at he
  | none =>
  simp only [Option.map_eq_some_iff] at he
  obtain ⟨reach, hr, he⟩ := he
  rcases h3 : t2.restoreLinks lsv L with ⟨t3, e3⟩
  rw [h3] at he
  cases e3 with
  | some e => simp at he
  | none =>
  simp only at he
  rcases h4 : t3.restoreSites ssv S with ⟨t4, e4⟩
  rw [h4] at he
  cases e4 with
  | some e => simp at he
  | none =>
  simp only [Prod.mk.injEq, Except.ok.injEq] at he
  obtain ⟨rfl, rfl⟩ := he
  obtain ⟨a1, a2, a3, a4⟩ := hideLinks_ok L t [] hL h1
  obtain ⟨b1, b2, b3, b4⟩ := hideSites_ok S t1 [] hS h2
  obtain ⟨c1, c2, c3⟩ := restoreLinks_ok L t2 lsv h3
  obtain ⟨d1, d2, d3⟩ := restoreSites_ok S t3 ssv h4
  have es1 : t1.sites = t.sites := by rw [a1]
  have el2 : t2.links = t1.links := by rw [b1]
  have es3 : t3.sites = t2.sites := by rw [c1]
  have el4 : t4.links = t3.links := by rw [d1]
  have eL : t4.links = t.links := by
    refine Dict.ext_keys h.nd_links (by rw [el4, c2, el2, a2]) fun i => ?_
    rw [el4, c3, el2, a3, a4]
    cases hx : t.links.get? i with
    | none => rfl
    | some x => by_cases c : i ∈ L <;> simp [c]
  have eS : t4.sites = t.sites := by
    refine Dict.ext_keys h.nd_sites (by rw [d2, es3, b2, es1]) fun i => ?_
    rw [d3, es3, b3, b4, es1]
    cases hx : t.sites.get? i with
    | none => rfl
    | some x => by_cases c : i ∈ S <;> simp [c]
  have e4 : t4 = t := by rw [d1, eS, c1, b1, a1, ← el4, eL]
  have k1 := hideLinks_inv L t [] h
  rw [h1] at k1
  have k2 := hideSites_inv S t1 [] k1
  rw [h2] at k2
  refine ⟨e4, t2, reach, hr, k2, by rw [b1, a1], by rw [el2, a2], by rw [b2, es1], ?_, ?_, by rw [e4]⟩
  · intro i; rw [el2]; exact a3 i
  · intro i; rw [b3, es1]

/-- **C62, `_partial`.** Full statement (false of the code): the call leaves every
status as it was, whatever the ignore sets. Proved: whenever the call returns
normally the topology is exactly the one it was given. Missing: the calls that
raise, see the violations below; `C62_returns` says when it returns. -/
theorem C62_restored_partial (ops : List Op) (f : StatusType → Bool) (L : List LinkId)
    (S : List SiteId) (hL : L.Nodup) (hS : S.Nodup) (t' : Topology) (r : List DemandId)
    (he : (run {} ops).reachableIgnoring f L S = some (t', .ok r)) : t' = run {} ops :=
  (reachableIgnoring_ok (Inv.empty.run ops) hL hS he).1

/-- A link that can be hidden and restored: it is present with a changeable
status; neither end is UNAVAILABLE; it is already UNREACHABLE, or its ends are
not ignored, not UNREACHABLE, and (for a PROPOSED link) not CANDIDATE. -/
def Spec.LinkHideable (t : Topology) (S : List SiteId) (i : LinkId) : Prop :=
  ∃ l x y, t.links.get? i = some l ∧ t.sites.get? i.tx = some x ∧ t.sites.get? i.rx = some y ∧
    l.status ≠ .existing ∧ l.status ≠ .unavailable ∧
    x.status ≠ .unavailable ∧ y.status ≠ .unavailable ∧
    (l.status = .unreachable ∨
      (i.tx ∉ S ∧ i.rx ∉ S ∧ x.status ≠ .unreachable ∧ y.status ≠ .unreachable ∧
        (l.status = .proposed → x.status ≠ .candidate ∧ y.status ≠ .candidate)))

/-- A site that can be hidden and restored: present with a changeable status. -/
def Spec.SiteHideable (t : Topology) (i : SiteId) : Prop :=
  ∃ x, t.sites.get? i = some x ∧ x.status ≠ .existing ∧ x.status ≠ .unavailable

theorem setLinkStatus_succ {t : Topology} {id : LinkId} {l : Link} {x y : Site} {st : StatusType}
    (hl : t.links.get? id = some l) (hm : statusMutable l.status st = true)
    (hx : t.sites.get? l.tx = some x) (hy : t.sites.get? l.rx = some y)
    (hc : linkCompat x.status y.status st = true) :
    t.setLinkStatus id st =
      ({ t with links := t.links.modify id (fun l => { l with status := st }) }, none) := by
  simp [setLinkStatus, hl, hm, siteStatus, hx, hy, hc]

theorem setSiteStatus_succ {t : Topology} {id : SiteId} {x : Site} {st : StatusType}
    (hx : t.sites.get? id = some x) (hm : statusMutable x.status st = true) :
    t.setSiteStatus id st =
      ({ t with sites := t.sites.modify id (fun l => { l with status := st }) }, none) := by
  simp [setSiteStatus, hx, hm]

theorem getLink_succ {t : Topology} {id : LinkId} {x y : Site} {l : Link}
    (hl : t.links.get? id = some l)
    (hx : t.sites.get? id.tx = some x) (hy : t.sites.get? id.rx = some y) :
    t.getLinkBySiteIds id.tx id.rx = .ok (some l) := by
  simp [getLinkBySiteIds, Dict.has, hx, hy, hl]

theorem hideLinks_succ (L : List LinkId) (t : Topology) (sv : Dict LinkId StatusType) (hn : L.Nodup)
    (h : ∀ i ∈ L, ∃ l x y, t.links.get? i = some l ∧ l.tx = i.tx ∧ l.rx = i.rx ∧
      t.sites.get? i.tx = some x ∧ t.sites.get? i.rx = some y ∧
      statusMutable l.status .unreachable = true ∧
      linkCompat x.status y.status .unreachable = true) :
    ∃ t1 sv1, t.hideLinks sv L = (t1, sv1, none) := by
  induction L generalizing t sv with
  | nil => exact ⟨t, sv, rfl⟩
  | cons id L ih =>
    rw [List.nodup_cons] at hn
    obtain ⟨l, x, y, hl, e1, e2, hx, hy, hm, hc⟩ := h id (by simp)
    unfold hideLinks
    rw [getLink_succ hl hx hy, setLinkStatus_succ hl hm (e1 ▸ hx) (e2 ▸ hy) hc]
    refine ih _ _ hn.2 fun i hi => ?_
    obtain ⟨l', x', y', hl', r⟩ := h i (by simp [hi])
    refine ⟨l', x', y', ?_, r⟩
    have : id ≠ i := fun e => hn.1 (e ▸ hi)
    simp [Dict.get?_modify, this, hl']

theorem hideSites_succ (S : List SiteId) (t : Topology) (sv : Dict SiteId StatusType) (hn : S.Nodup)
    (h : ∀ i ∈ S, ∃ x, t.sites.get? i = some x ∧ statusMutable x.status .unreachable = true) :
    ∃ t1 sv1, t.hideSites sv S = (t1, sv1, none) := by
  induction S generalizing t sv with
  | nil => exact ⟨t, sv, rfl⟩
  | cons id L ih =>
    rw [List.nodup_cons] at hn
    obtain ⟨x, hx, hm⟩ := h id (by simp)
    unfold hideSites
    simp only [hx, setSiteStatus_succ hx hm]
    refine ih _ _ hn.2 fun i hi => ?_
    obtain ⟨x', hx', r⟩ := h i (by simp [hi])
    refine ⟨x', ?_, r⟩
    have : id ≠ i := fun e => hn.1 (e ▸ hi)
    simp [Dict.get?_modify, this, hx']

theorem restoreLinks_succ (L : List LinkId) (t : Topology) (sv : Dict LinkId StatusType) (hn : L.Nodup)
    (h : ∀ i ∈ L, ∃ l x y st, t.links.get? i = some l ∧ l.tx = i.tx ∧ l.rx = i.rx ∧
      t.sites.get? i.tx = some x ∧ t.sites.get? i.rx = some y ∧ sv.get? i = some st ∧
      statusMutable l.status st = true ∧ linkCompat x.status y.status st = true) :
    ∃ t1, t.restoreLinks sv L = (t1, none) := by
  induction L generalizing t with
  | nil => exact ⟨t, rfl⟩
  | cons id L ih =>
    rw [List.nodup_cons] at hn
    obtain ⟨l, x, y, st, hl, e1, e2, hx, hy, hs, hm, hc⟩ := h id (by simp)
    unfold restoreLinks
    simp only [getLink_succ hl hx hy, hs, setLinkStatus_succ hl hm (e1 ▸ hx) (e2 ▸ hy) hc]
    refine ih _ hn.2 fun i hi => ?_
    obtain ⟨l', x', y', st', hl', r⟩ := h i (by simp [hi])
    refine ⟨l', x', y', st', ?_, r⟩
    have : id ≠ i := fun e => hn.1 (e ▸ hi)
    simp [Dict.get?_modify, this, hl']

theorem restoreSites_succ (S : List SiteId) (t : Topology) (sv : Dict SiteId StatusType) (hn : S.Nodup)
    (h : ∀ i ∈ S, ∃ x st, t.sites.get? i = some x ∧ sv.get? i = some st ∧
      statusMutable x.status st = true) :
    ∃ t1, t.restoreSites sv S = (t1, none) := by
  induction S generalizing t with
  | nil => exact ⟨t, rfl⟩
  | cons id L ih =>
    rw [List.nodup_cons] at hn
    obtain ⟨x, st, hx, hs, hm⟩ := h id (by simp)
    unfold restoreSites
    simp only [hx, hs, setSiteStatus_succ hx hm]
    refine ih _ hn.2 fun i hi => ?_
    obtain ⟨x', st', hx', r⟩ := h i (by simp [hi])
    refine ⟨x', st', ?_, r⟩
    have : id ≠ i := fun e => hn.1 (e ▸ hi)
    simp [Dict.get?_modify, this, hx']

theorem compat_unreachable {a b : StatusType} (ha : a ≠ .unavailable) (hb : b ≠ .unavailable) :
    linkCompat a b .unreachable = true := by
  revert ha hb; cases a <;> cases b <;> decide

theorem mutable_iff (a b : StatusType) : statusMutable a b = true ↔
    (a ≠ .existing ∧ a ≠ .unavailable) ∧ (b ≠ .existing ∧ b ≠ .unavailable) := by
  cases a <;> cases b <;> simp [statusMutable, StatusType.immutable]

/-- **C62 (returns).** If every ignored link and site is hideable the call
returns, hence (`C62_restored_partial`) changes nothing. -/
theorem C62_returns (ops : List Op) (f : StatusType → Bool) (L : List LinkId) (S : List SiteId)
    (hL : L.Nodup) (hS : S.Nodup) (hl : ∀ i ∈ L, LinkHideable (run {} ops) S i)
    (hs : ∀ i ∈ S, SiteHideable (run {} ops) i) :
    ∃ r, (run {} ops).reachableIgnoring f L S = some (run {} ops, .ok r) := by
  have h := Inv.empty.run ops
  generalize run {} ops = t at *
  have hends : ∀ i l, t.links.get? i = some l → l.tx = i.tx ∧ l.rx = i.rx := by
    intro i l hh; have := h.link_id _ _ hh; subst this; exact ⟨rfl, rfl⟩
  obtain ⟨t1, lsv, h1⟩ := hideLinks_succ L t [] hL (by
    intro i hi
    obtain ⟨l, x, y, c1, c2, c3, c4, c5, c6, c7, c8⟩ := hl i hi
    refine ⟨l, x, y, c1, (hends _ _ c1).1, (hends _ _ c1).2, c2, c3, ?_, ?_⟩
    · rw [mutable_iff]; exact ⟨⟨c4, c5⟩, by simp⟩
    · exact compat_unreachable c6 c7)
  obtain ⟨a1, a2, a3, a4⟩ := hideLinks_ok L t [] hL h1
  have es1 : t1.sites = t.sites := by rw [a1]
  obtain ⟨t2, ssv, h2⟩ := hideSites_succ S t1 [] hS (by
    intro i hi
    obtain ⟨x, c1, c2, c3⟩ := hs i hi
    exact ⟨x, by rw [es1, c1], by rw [mutable_iff]; exact ⟨⟨c2, c3⟩, by simp⟩⟩)
  obtain ⟨b1, b2, b3, b4⟩ := hideSites_ok S t1 [] hS h2
  have el2 : t2.links = t1.links := by rw [b1]
  obtain ⟨t3, h3⟩ := restoreLinks_succ L t2 lsv hL (by
    intro i hi
    obtain ⟨l, x, y, c1, c2, c3, c4, c5, c6, c7, c8⟩ := hl i hi
    obtain ⟨n1, n2⟩ := hends _ _ c1
    refine ⟨{ l with status := .unreachable },
      if i.tx ∈ S then { x with status := .unreachable } else x,
      if i.rx ∈ S then { y with status := .unreachable } else y, l.status, ?_, n1, n2, ?_, ?_, ?_, ?_, ?_⟩
    · rw [el2, a3, c1]; simp [hi]
    · rw [b3, es1, c2]; rfl
    · rw [b3, es1, c3]; rfl
    · rw [a4, c1]; simp [hi]
    · rw [mutable_iff]; exact ⟨by simp, c4, c5⟩
    · rcases c8 with c8 | ⟨d1, d2, d3, d4, d5⟩
      · rw [c8]; refine compat_unreachable ?_ ?_ <;> split <;> simp [c6, c7]
      · rw [linkCompat_iff]
        rw [if_neg d1, if_neg d2]
        refine ⟨fun e => absurd e c4, ?_, ?_, ?_⟩
        · rintro (e | e); exacts [absurd e c6, absurd e c7]
        · rintro (e | e); exacts [absurd e d3, absurd e d4]
        · intro e
          refine ⟨fun e' => ?_, c4⟩
          rcases e with e | e
          · exact (d5 e').1 e
          · exact (d5 e').2 e)
  obtain ⟨c1, c2, c3⟩ := restoreLinks_ok L t2 lsv h3
  have es3 : t3.sites = t2.sites := by rw [c1]
  obtain ⟨t4, h4⟩ := restoreSites_succ S t3 ssv hS (by
    intro i hi
    obtain ⟨x, d1, d2, d3⟩ := hs i hi
    refine ⟨{ x with status := .unreachable }, x.status, ?_, ?_, ?_⟩
    · rw [es3, b3, es1, d1]; simp [hi]
    · rw [b4, es1, d1]; simp [hi]
    · rw [mutable_iff]; exact ⟨by simp, d2, d3⟩)
  have hinv2 : Topology.Inv t2 := by
    have k1 := hideLinks_inv L t [] h
    rw [h1] at k1
    have k2 := hideSites_inv S t1 [] k1
    rw [h2] at k2
    exact k2
  obtain ⟨hc, hh, _⟩ := hops_spec hinv2 f
  have hsome : ∃ r, t.reachableIgnoring f L S = some (t4, .ok r) := by
    unfold reachableIgnoring
    simp only [h1, h2, reachableDemand, hh, Option.map_some, h3, h4, Option.some.injEq,
      Prod.mk.injEq, true_and, Except.ok.injEq, exists_eq']
  obtain ⟨r, hr⟩ := hsome
  refine ⟨r, ?_⟩
  rw [hr, (reachableIgnoring_ok h hL hS hr).1]

/-- Hiding `d -> c` and `c` on separate calls returns; the demo is unchanged. -/
example : demo.reachableIgnoring StatusType.reachable [⟨"d", "c"⟩] [] = some (demo, .ok []) ∧
    demo.reachableIgnoring StatusType.reachable [] ["c"] = some (demo, .ok []) := by decide +kernel

/-- **C62 violation 1.** An ignored EXISTING link (for example one of capacity 0)
makes the call raise; here another link was already marked and stays UNREACHABLE. -/
def fixedLinkOps : List Op :=
  [.addSite { id := "p", siteType := .pop, status := .existing } false,
   .addSite { id := "q", siteType := .dn, status := .existing } false,
   .addSite { id := "r", siteType := .dn, status := .candidate } false,
   .addLink { tx := "p", rx := "r" },
   .addLink { tx := "p", rx := "q", status := .existing }]

theorem C62_fixed_link_violation :
    ∃ t', (run {} fixedLinkOps).reachableIgnoring StatusType.reachable
        [⟨"p", "r"⟩, ⟨"p", "q"⟩] [] = some (t', .error .topology) ∧
      (t'.links.get? ⟨"p", "r"⟩).map (·.status) = some .unreachable ∧
      ((run {} fixedLinkOps).links.get? ⟨"p", "r"⟩).map (·.status) = some .candidate :=
  ⟨(run {} (fixedLinkOps ++ [.assign (.link ⟨"p", "r"⟩ .unreachable)])), by decide +kernel⟩

/-- **C62 violation 2.** All statuses are CANDIDATE, but an ignored link ends at
an ignored site: the link is restored first, while that site is still
UNREACHABLE, so the restoring assignment raises and both stay UNREACHABLE. -/
def candidateOps : List Op :=
  [.addSite { id := "p", siteType := .pop, status := .candidate } false,
   .addSite { id := "d", siteType := .dn, status := .candidate } false,
   .addLink { tx := "p", rx := "d" }]

theorem C62_ignored_end_violation :
    ∃ t', (run {} candidateOps).reachableIgnoring StatusType.reachable [⟨"p", "d"⟩] ["d"] =
        some (t', .error .topology) ∧
      (t'.links.get? ⟨"p", "d"⟩).map (·.status) = some .unreachable ∧
      t'.siteStatus "d" = some .unreachable :=
  ⟨(run {} (candidateOps ++ [.assign (.link ⟨"p", "d"⟩ .unreachable),
    .assign (.site "d" .unreachable)])), by decide +kernel⟩

/-! ## C65 -/

/-- A path of accepted links and sites from a POP that uses no link of `L` and
no site of `S`. -/
inductive Spec.PathAvoiding (t : Topology) (f : StatusType → Bool) (L : List LinkId)
    (S : List SiteId) : SiteId → Prop
  | pop {s : SiteId} {x : Site} : t.sites.get? s = some x → x.siteType = .pop →
      f x.status = true → s ∉ S → PathAvoiding t f L S s
  | hop {a b : SiteId} {l : Link} {y : Site} : PathAvoiding t f L S a →
      t.links.get? ⟨a, b⟩ = some l → f l.status = true → (⟨a, b⟩ : LinkId) ∉ L →
      t.sites.get? b = some y → f y.status = true → b ∉ S → PathAvoiding t f L S b

theorem hopPath_hidden {t t2 : Topology} {f : StatusType → Bool} {L : List LinkId} {S : List SiteId}
    (hf : f .unreachable = false)
    (hl : ∀ i, t2.links.get? i = (t.links.get? i).map (fun l =>
        if i ∈ L then { l with status := .unreachable } else l))
    (hs : ∀ i, t2.sites.get? i = (t.sites.get? i).map (fun s =>
        if i ∈ S then { s with status := .unreachable } else s)) (i : SiteId) :
    (∃ n, HopPath t2 f i n) ↔ PathAvoiding t f L S i := by
  have site : ∀ j y, t2.sites.get? j = some y → f y.status = true →
      j ∉ S ∧ t.sites.get? j = some y := by
    intro j y hy hfy
    rw [hs] at hy
    cases hx : t.sites.get? j with
    | none => simp [hx] at hy
    | some x =>
      simp only [hx, Option.map_some, Option.some.injEq] at hy
      split at hy
      · rw [← hy] at hfy; simp [hf] at hfy
      · rename_i hn; exact ⟨hn, by rw [hy]⟩
  constructor
  · rintro ⟨n, hn⟩
    induction hn with
    | pop h1 h2 h3 =>
      obtain ⟨k1, k2⟩ := site _ _ h1 h3
      exact .pop k2 h2 h3 k1
    | hop _ h2 h3 h4 h5 ih =>
      obtain ⟨k1, k2⟩ := site _ _ h4 h5
      rename_i a b _ l _ _
      rw [hl] at h2
      cases hx : t.links.get? ⟨a, b⟩ with
      | none => simp [hx] at h2
      | some x =>
        simp only [hx, Option.map_some, Option.some.injEq] at h2
        split at h2
        · rw [← h2] at h3; simp [hf] at h3
        · rename_i hn
          subst h2
          exact .hop ih hx h3 hn k2 h5 k1
  · intro h
    induction h with
    | pop h1 h2 h3 h4 => exact ⟨0, .pop (by rw [hs, h1]; simp [h4]) h2 h3⟩
    | hop _ h2 h3 h4 h5 h6 h7 ih =>
      obtain ⟨n, hn⟩ := ih
      exact ⟨n + 1, .hop hn (by rw [hl, h2]; simp only [Option.map_some, if_neg h4]) h3
        (by rw [hs, h5]; simp only [Option.map_some, if_neg h7]) h6⟩

/-- **C65.** With a filter that rejects UNREACHABLE, the call returns exactly the
copies of the demand sites joined to a POP by accepted links and sites outside
the ignore sets. -/
theorem C65_ignored_excluded (ops : List Op) (f : StatusType → Bool) (hf : f .unreachable = false)
    (L : List LinkId) (S : List SiteId) (hL : L.Nodup) (hS : S.Nodup) (t' : Topology)
    (r : List DemandId) (he : (run {} ops).reachableIgnoring f L S = some (t', .ok r)) (n : DemandId) :
    n ∈ r ↔ ∃ d ∈ (run {} ops).demandSites.vals,
      (∃ s ∈ d.connected, PathAvoiding (run {} ops) f L S s) ∧
      ∃ k < d.numSites, n = if k = 0 then d.id else d.id ++ "_" ++ toString k := by
  have h := Inv.empty.run ops
  generalize run {} ops = t at *
  obtain ⟨_, t2, reach, hr, hinv, h1, h2, h3, h4, h5, rfl⟩ := reachableIgnoring_ok h hL hS he
  classical
  obtain ⟨hc, hh, hspec⟩ := hops_spec hinv f
  simp only [reachableDemand, hh, Option.map_some, Option.some.injEq] at hr
  have hconn : ∀ s, hc.has s = true ↔ PathAvoiding t f L S s := by
    intro s
    rw [← hopPath_hidden hf h4 h5, Dict.has_iff]
    constructor
    · rintro ⟨n, e⟩; exact ⟨n, ((hspec s n).1 e).1⟩
    · rintro ⟨n, hn⟩
      have hex : ∃ m, HopPath t2 f s m := ⟨n, hn⟩
      exact ⟨_, (hspec s (Nat.find hex)).2 ⟨Nat.find_spec hex, fun m' hm' => Nat.find_min' hex hm'⟩⟩
  have ed : t2.demandSites = t.demandSites := by rw [h1]
  have hreach : ∀ d ∈ t.demandSites.vals, d.id ∈ reach ↔
      ∃ s ∈ d.connected, PathAvoiding t f L S s := by
    intro d hd
    rw [← hr, ed]
    simp only [List.mem_map, List.mem_filter, List.any_eq_true, hconn]
    constructor
    · rintro ⟨d', ⟨hd', hc'⟩, e⟩
      have : d' = d := by
        simp only [Dict.vals, List.mem_map, Prod.exists, exists_eq_right] at hd hd'
        obtain ⟨i, hi⟩ := hd
        obtain ⟨j, hj⟩ := hd'
        have hi := (Dict.mem_iff_get? h.nd_demand _ _).1 hi
        have hj := (Dict.mem_iff_get? h.nd_demand _ _).1 hj
        have e1 := h.demand_id _ _ hi
        have e2 := h.demand_id _ _ hj
        rw [← e1] at hi; rw [← e2, e] at hj
        rw [hi] at hj; exact (Option.some.inj hj).symm
      subst this
      exact hc'
    · intro hc'
      exact ⟨d, ⟨hd, hc'⟩, rfl⟩
  simp only [List.mem_flatMap, List.mem_filter, decide_eq_true_eq, demandCopies, List.mem_map,
    List.mem_range]
  constructor
  · rintro ⟨d, ⟨hd, hm⟩, k, hk, e⟩
    exact ⟨d, hd, (hreach d hd).1 hm, k, hk, e.symm⟩
  · rintro ⟨d, hd, hm, k, hk, e⟩
    exact ⟨d, ⟨hd, (hreach d hd).2 hm⟩, k, hk, e.symm⟩

/-- Two copies of a demand site behind `c`: found, and lost when `d -> c` is ignored. -/
example :
    let t := run {} (demoOps ++ [.addDemandSite { id := "x", connected := ["c"], numSites := 2 }])
    (t.reachableIgnoring StatusType.reachable [⟨"d", "p"⟩] []).map Prod.snd = some (.ok ["x", "x_1"]) ∧
    (t.reachableIgnoring StatusType.reachable [⟨"d", "c"⟩] []).map Prod.snd = some (.ok []) := by
  decide +kernel

end Verif
