import Verif.Spec.InputSites
import Verif.Lemmas.Topology
import Mathlib.Data.List.Nodup
import Mathlib.Tactic.Common

/-! # Adding links between sites -/

namespace Verif
namespace Topology

/-- A request for a link. -/
structure Req where
  tx : Site
  rx : Site
  raw : Option RawAttr

/-- Its key. -/
def Req.key (q : Req) : LinkId := ⟨q.tx.id, q.rx.id⟩

/-- Requests carried out in order. -/
def addList : Topology → List Req → Except Err Topology
  | t, [] => .ok t
  | t, q :: rest => match t.addBetween q.tx q.rx q.raw with
    | .error e => .error e
    | .ok t1 => addList t1 rest

theorem addList_append (t : Topology) (L M : List Req) :
    t.addList (L ++ M) = match t.addList L with
      | .error e => .error e
      | .ok t1 => t1.addList M := by
  induction L generalizing t with
  | nil => rfl
  | cons q r ih =>
    simp only [List.cons_append, addList]
    cases t.addBetween q.tx q.rx q.raw with
    | error e => rfl
    | ok t1 => exact ih t1

theorem addBoth_eq (t : Topology) (a b : Site) (raw : Option RawAttr) :
    t.addBoth a b raw = t.addList [⟨a, b, raw⟩, ⟨b, a, raw⟩] := by
  simp only [addBoth, addList]
  cases t.addBetween a b raw with
  | error e => rfl
  | ok t1 => cases h : t1.addBetween b a raw <;> simp [h]

/-- The status a request asks for. -/
def Req.status (q : Req) : StatusType := (q.raw.map (·.status)).getD .candidate

/-- One request. -/
theorem addBetween_spec (t : Topology) (q : Req) (h1 : t.sites.has q.tx.id = true) (h2 : t.sites.has q.rx.id = true) :
    (∃ l, t.links.get? q.key = some l ∧
      ((q.raw.any (fun r => l.status ≠ r.status) = true ∧ t.addBetween q.tx q.rx q.raw = .error .data) ∨
       (q.raw.any (fun r => l.status ≠ r.status) = false ∧ t.addBetween q.tx q.rx q.raw = .ok t))) ∨
    (t.links.get? q.key = none ∧ q.tx.siteType = .cn ∧ t.addBetween q.tx q.rx q.raw = .ok t) ∨
    (t.links.get? q.key = none ∧ q.tx.siteType ≠ .cn ∧ linkCompat q.tx.status q.rx.status q.status = false ∧
      t.addBetween q.tx q.rx q.raw = .error .topology) ∨
    (t.links.get? q.key = none ∧ q.tx.siteType ≠ .cn ∧ linkCompat q.tx.status q.rx.status q.status = true ∧
      ∃ t', t.addBetween q.tx q.rx q.raw = .ok t' ∧ t.addLink (requestedLink q.tx q.rx q.raw) = (t', none) ∧
        t'.sites = t.sites ∧ t'.demandSites = t.demandSites ∧ t'.sectors = t.sectors ∧
        t'.links = t.links.set q.key (requestedLink q.tx q.rx q.raw)) := by
  unfold addBetween getLinkBySiteIds
  simp only [h1, h2, Bool.and_self, if_true]
  show (∃ l, t.links.get? ⟨q.tx.id, q.rx.id⟩ = some l ∧ _) ∨ _
  simp only [Req.key]
  rcases hl : t.links.get? ⟨q.tx.id, q.rx.id⟩ with _ | l
  · right
    simp only [true_and]
    by_cases c : q.tx.siteType = .cn
    · left
      simp [c]
    · right
      rcases hc : linkCompat q.tx.status q.rx.status q.status with _ | _
      · left
        refine ⟨c, rfl, ?_⟩
        unfold Req.status at hc
        simp [c, mkLink, hc]
      · right
        unfold Req.status at hc
        have e : mkLink (some q.tx) (some q.rx) none none ((q.raw.map (·.status)).getD .candidate)
            ((q.raw.map (·.isWireless)).getD true) = .ok
            { tx := q.tx.id, rx := q.rx.id, sectors := none, isWireless := (q.raw.map (·.isWireless)).getD true,
              status := (q.raw.map (·.status)).getD .candidate } := by
          simp [mkLink, c, hc]
        have e2 : Link.mk q.tx.id q.rx.id none ((q.raw.map (·.isWireless)).getD true)
            ((q.raw.map (·.status)).getD .candidate) 0 0 (q.raw.bind (·.confidence)) false =
            requestedLink q.tx q.rx q.raw := by
          unfold requestedLink
          cases q.raw <;> rfl
        have i1 : (requestedLink q.tx q.rx q.raw).tx = q.tx.id := by unfold requestedLink; cases q.raw <;> rfl
        have i2 : (requestedLink q.tx q.rx q.raw).rx = q.rx.id := by unfold requestedLink; cases q.raw <;> rfl
        refine ⟨c, rfl, (t.addLink (requestedLink q.tx q.rx q.raw)).1, ?_, ?_, ?_⟩
        · simp only [c, if_false, e]
          rw [e2]
          simp [addLink, i1, i2, h1, h2]
        · simp [addLink, i1, i2, h1, h2]
        · simp [addLink, i1, i2, h1, h2, Link.id]
  · left
    refine ⟨l, rfl, ?_⟩
    by_cases hr : q.raw.any (fun r => l.status ≠ r.status) = true
    · left; exact ⟨hr, by simp only [hr, if_true]⟩
    · right; exact ⟨by simpa using hr, by simp only [hr]; rfl⟩

/-- The request that decides about a link: the first one for it. -/
def firstReq (L : List Req) (k : LinkId) : Option Req :=
  L.find? fun q => q.key = k ∧ q.tx.siteType ≠ .cn

/-- The links after the requests. -/
def outcome (t : Topology) (L : List Req) (k : LinkId) : Option Link :=
  (t.links.get? k).or ((firstReq L k).map fun q => requestedLink q.tx q.rx q.raw)

/-- All requests can be met together: the first one for a link suits its sites, the others ask for the same
status. -/
def Meets (t : Topology) (L : List Req) : Prop :=
  (∀ k q, t.links.get? k = none → firstReq L k = some q → linkCompat q.tx.status q.rx.status q.status = true) ∧
  (∀ q ∈ L, ∀ r, q.raw = some r → ∀ l, outcome t L q.key = some l → l.status = r.status)

theorem requested_status (q : Req) : (requestedLink q.tx q.rx q.raw).status = q.status := by
  unfold requestedLink Req.status
  cases q.raw <;> rfl

theorem firstReq_cons (q : Req) (L : List Req) (k : LinkId) :
    firstReq (q :: L) k = if q.key = k ∧ q.tx.siteType ≠ .cn then some q else firstReq L k := by
  unfold firstReq
  rw [List.find?_cons]
  by_cases c : q.key = k ∧ q.tx.siteType ≠ .cn
  · simp [c]
  · simp only [c, decide_false, if_false]

/-- A topology reached by adding links only. -/
def AddedFrom (t t' : Topology) : Prop := ∃ ops : List Op, t' = run t ops ∧ ∀ o ∈ ops, ∃ l, o = .addLink l

theorem AddedFrom.refl (t : Topology) : AddedFrom t t := ⟨[], rfl, by simp⟩

theorem AddedFrom.step {t t1 t' : Topology} {l : Link} (h : t.addLink l = (t1, none)) (h' : AddedFrom t1 t') :
    AddedFrom t t' := by
  obtain ⟨ops, e, ho⟩ := h'
  refine ⟨.addLink l :: ops, ?_, ?_⟩
  · rw [e]
    show run t1 ops = run (t.addLink l).1 ops
    rw [h]
  · intro o h
    rcases List.mem_cons.1 h with rfl | h
    · exact ⟨l, rfl⟩
    · exact ho o h

/-- What all requests do. -/
def Carried (t : Topology) (L : List Req) : Prop :=
  (∃ t', t.addList L = .ok t' ∧ Meets t L ∧ AddedFrom t t' ∧ t'.sites = t.sites ∧
      t'.demandSites = t.demandSites ∧ t'.sectors = t.sectors ∧ ∀ k, t'.links.get? k = outcome t L k) ∨
    (¬ Meets t L ∧ (t.addList L = .error .data ∨ t.addList L = .error .topology))

theorem firstReq_some {L : List Req} {k : LinkId} {q : Req} (h : firstReq L k = some q) :
    q ∈ L ∧ q.key = k ∧ q.tx.siteType ≠ .cn := by
  unfold firstReq at h
  have := List.find?_some h
  simp only [decide_eq_true_eq] at this
  exact ⟨List.mem_of_find?_eq_some h, this⟩

/-- All requests. -/
theorem addList_spec (L : List Req) {t : Topology}
    (hs : ∀ q ∈ L, t.sites.get? q.tx.id = some q.tx ∧ t.sites.get? q.rx.id = some q.rx) : Carried t L := by
  induction L generalizing t with
  | nil =>
    left
    refine ⟨t, rfl, ⟨?_, ?_⟩, AddedFrom.refl t, rfl, rfl, rfl, ?_⟩ <;> simp [firstReq, outcome]
  | cons q r ih =>
    have hq := hs q (List.mem_cons_self ..)
    have hr : ∀ p ∈ r, t.sites.get? p.tx.id = some p.tx ∧ t.sites.get? p.rx.id = some p.rx :=
      fun p hp => hs p (List.mem_cons_of_mem _ hp)
    -- a request that is met
    have go : ∀ t1, t.addBetween q.tx q.rx q.raw = .ok t1 → (∀ t', AddedFrom t1 t' → AddedFrom t t') →
        t1.sites = t.sites → t1.demandSites = t.demandSites → t1.sectors = t.sectors →
        (∀ k, outcome t (q :: r) k = outcome t1 r k) →
        (Meets t (q :: r) ↔ Meets t1 r) → Carried t (q :: r) := by
      intro t1 e ha s1 s2 s3 ho hm
      unfold Carried
      simp only [addList, e]
      rcases ih (t := t1) (by rw [s1]; exact hr) with ⟨t', e', m, a, u1, u2, u3, ul⟩ | ⟨m, e'⟩
      · left
        exact ⟨t', e', hm.2 m, ha t' a, u1.trans s1, u2.trans s2, u3.trans s3, fun k => (ul k).trans (ho k).symm⟩
      · right
        exact ⟨fun h => m (hm.1 h), e'⟩
    rcases addBetween_spec t q ((Dict.has_iff _ _).2 ⟨_, hq.1⟩) ((Dict.has_iff _ _).2 ⟨_, hq.2⟩) with
      ⟨l, hl, ⟨bad, e⟩ | ⟨good, e⟩⟩ | ⟨hn, cn, e⟩ | ⟨hn, ncn, bad, e⟩ | ⟨hn, ncn, ok, t1, e, ea, s1, s2, s3, hl⟩
    · right
      refine ⟨fun m => ?_, Or.inl (by simp [addList, e])⟩
      obtain ⟨r0, hr0, ne⟩ : ∃ r0, q.raw = some r0 ∧ l.status ≠ r0.status := by
        cases hq : q.raw with
        | none => rw [hq] at bad; simp at bad
        | some r0 => rw [hq] at bad; exact ⟨r0, rfl, by simpa using bad⟩
      exact ne (m.2 q (List.mem_cons_self ..) r0 hr0 l (by simp [outcome, hl]))
    · have same : ∀ k, outcome t (q :: r) k = outcome t r k := by
        intro k
        unfold outcome
        rw [firstReq_cons]
        split
        · rename_i c
          rw [← c.1, hl]
          rfl
        · rfl
      refine go t e (fun _ h => h) rfl rfl rfl same ⟨fun m => ⟨?_, ?_⟩, fun m => ⟨?_, ?_⟩⟩
      · intro k p hk hp
        refine m.1 k p hk ?_
        rw [firstReq_cons, if_neg]
        · exact hp
        · rintro ⟨rfl, -⟩
          rw [hl] at hk
          simp at hk
      · intro p hp r0 h0 l' hl'
        exact m.2 p (List.mem_cons_of_mem _ hp) r0 h0 l' (by rw [same]; exact hl')
      · intro k p hk hp
        refine m.1 k p hk ?_
        rw [firstReq_cons, if_neg] at hp
        · exact hp
        · rintro ⟨rfl, -⟩
          rw [hl] at hk
          simp at hk
      · intro p hp r0 h0 l' hl'
        rw [same] at hl'
        rcases List.mem_cons.1 hp with rfl | hp
        · unfold outcome at hl'
          rw [hl] at hl'
          simp only [Option.some_or, Option.some.injEq] at hl'
          subst hl'
          rw [h0] at good
          simpa using good
        · exact m.2 p hp r0 h0 l' hl'
    · have none_first : firstReq r q.key = none := by
        cases hf : firstReq r q.key with
        | none => rfl
        | some p =>
          obtain ⟨hp, hk, hc⟩ := firstReq_some hf
          have h1 := (hr p hp).1
          have : p.tx.id = q.tx.id := congrArg LinkId.tx hk
          rw [this, hq.1] at h1
          simp only [Option.some.injEq] at h1
          rw [← h1] at hc
          exact absurd cn hc
      have hfq : ∀ k, firstReq (q :: r) k = firstReq r k := by
        intro k
        rw [firstReq_cons, if_neg]
        rintro ⟨-, h⟩
        exact h cn
      have same : ∀ k, outcome t (q :: r) k = outcome t r k := by
        intro k
        unfold outcome
        rw [hfq]
      refine go t e (fun _ h => h) rfl rfl rfl same ⟨fun m => ⟨?_, ?_⟩, fun m => ⟨?_, ?_⟩⟩
      · intro k p hk hp
        exact m.1 k p hk (by rw [hfq]; exact hp)
      · intro p hp r0 h0 l' hl'
        exact m.2 p (List.mem_cons_of_mem _ hp) r0 h0 l' (by rw [same]; exact hl')
      · intro k p hk hp
        rw [hfq] at hp
        exact m.1 k p hk hp
      · intro p hp r0 h0 l' hl'
        rw [same] at hl'
        rcases List.mem_cons.1 hp with rfl | hp
        · unfold outcome at hl'
          rw [hn, none_first] at hl'
          simp at hl'
        · exact m.2 p hp r0 h0 l' hl'
    · right
      refine ⟨fun m => ?_, Or.inr (by simp [addList, e])⟩
      have := m.1 q.key q hn (by rw [firstReq_cons, if_pos ⟨rfl, ncn⟩])
      rw [bad] at this
      exact absurd this (by simp)
    · have same : ∀ k, outcome t (q :: r) k = outcome t1 r k := by
        intro k
        unfold outcome
        rw [firstReq_cons, hl, Dict.get?_set]
        by_cases c : q.key = k
        · subst c
          simp [hn, ncn]
        · simp [c]
      have st : (requestedLink q.tx q.rx q.raw).status = q.status := requested_status q
      refine go t1 e (fun t' h => h.step ea) s1 s2 s3 same ⟨fun m => ⟨?_, ?_⟩, fun m => ⟨?_, ?_⟩⟩
      · intro k p hk hp
        rw [hl, Dict.get?_set] at hk
        split at hk
        · simp at hk
        · rename_i c
          refine m.1 k p hk ?_
          rw [firstReq_cons, if_neg (fun h => c h.1)]
          exact hp
      · intro p hp r0 h0 l' hl'
        exact m.2 p (List.mem_cons_of_mem _ hp) r0 h0 l' (by rw [same]; exact hl')
      · intro k p hk hp
        rw [firstReq_cons] at hp
        split at hp
        · simp only [Option.some.injEq] at hp
          subst hp
          exact ok
        · rename_i c
          refine m.1 k p ?_ hp
          rw [hl, Dict.get?_set, if_neg (fun h => c ⟨h, ncn⟩)]
          exact hk
      · intro p hp r0 h0 l' hl'
        rw [same] at hl'
        rcases List.mem_cons.1 hp with rfl | hp
        · unfold outcome at hl'
          rw [hl, Dict.get?_set_self] at hl'
          simp only [Option.some_or, Option.some.injEq] at hl'
          subst hl'
          rw [st]
          simp [Req.status, h0]
        · exact m.2 p hp r0 h0 l' hl'

end Topology
end Verif
