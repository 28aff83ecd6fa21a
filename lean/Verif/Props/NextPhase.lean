import Verif.Props.Interf4
import Verif.Props.Apply2
import Verif.Props.Prepare

/-! # C98: the topology left by one phase is accepted by the next -/

namespace Verif
namespace Topology
open Spec

theorem fixed_get {α : Type} {R : α → α → Prop} {o o' : Option α} (h : Option.Rel R o o') {v : α}
    (hv : o = some v) : ∃ w, o' = some w ∧ R v w := by
  subst hv
  cases h with
  | some r => exact ⟨_, rfl, r⟩

theorem fixed_get' {α : Type} {R : α → α → Prop} {o o' : Option α} (h : Option.Rel R o o') {w : α}
    (hw : o' = some w) : ∃ v, o = some v ∧ R v w := by
  subst hw
  cases h with
  | some r => exact ⟨_, rfl, r⟩

/-- What is connected after the clean-up was connected before. -/
theorem connected_before {t t' : Topology} (h : t.Inv) (he : t.removeDisconnected = some (t', none))
    {i : SiteId} (hc : ConnectedActive t' i) : ConnectedActive t i := by
  obtain ⟨_, k2, k3, _, _, k6⟩ := removeDisconnected_spec h he
  have site : ∀ j x', t'.sites.get? j = some x' → (x'.status = .proposed ∨ x'.status = .existing) →
      t.sites.get? j = some x' := by
    intro j x' hx' ha
    cases hx : t.sites.get? j with
    | none => rw [k6 j hx] at hx'; cases hx'
    | some x =>
      obtain ⟨w, hw, c1, c2⟩ := k2 j x hx
      rw [hx'] at hw; cases hw
      by_cases c : (x.status = .proposed ∨ x.status = .candidate) ∧ ¬ ConnectedActive t j ∧
          ∃ k y, t.sectors.get? k = some y ∧ y.site = j
      · rw [c1 c.1 c.2.1 c.2.2] at ha
        simp at ha
      · rw [c2 c]
  obtain ⟨n, hn⟩ := hc
  refine ⟨n, ?_⟩
  induction hn with
  | pop h1 h2 h3 => exact .pop (site _ _ h1 (by simpa using h3)) h2 h3
  | @hop a b n l y hp hl hf hy hy' ih =>
    have hl0 := k3 ⟨a, b⟩
    rw [hl] at hl0
    cases hx : t.links.get? ⟨a, b⟩ with
    | none => rw [hx] at hl0; cases hl0
    | some l0 =>
      rw [hx, Option.map_some] at hl0
      injection hl0 with hl0
      have : l = l0 := by
        split at hl0
        · rw [hl0] at hf; simp at hf
        · exact hl0
      subst this
      exact .hop ih hx hf (site _ _ hy (by simpa using hy')) hy'

/-- Applying decisions that treat both directions of a link alike, and that select the
ends and sectors of selected links, to an accepted topology leaves an accepted one. -/
theorem applied_valid {t t' : Topology} {sol : Solution} (inv : t.Inv)
    (hv : t.validateStatus = none) (hu : updateWithSolution sol t = some (t', none))
    (hends : ∀ l ∈ t.links.vals, ∀ a b, l.sectors = some (a, b) →
      (∃ d, t.sectors.get? a = some d ∧ d.site = l.tx) ∧ ∃ d, t.sectors.get? b = some d ∧ d.site = l.rx)
    (hsel : ∀ l ∈ t.links.vals, (∃ r, t.links.get? ⟨l.rx, l.tx⟩ = some r) →
      (l.status = .candidate ∨ l.status = .proposed) → sol.link l.id = 1 →
      ∃ a b, l.sectors = some (a, b) ∧ sol.sector a = 1 ∧ sol.sector b = 1)
    (hsym : ∀ l ∈ t.links.vals, ∀ r, t.links.get? ⟨l.rx, l.tx⟩ = some r →
      (l.status = .candidate ∨ l.status = .proposed) → l.status = r.status →
      (sol.link l.id = 1 ↔ sol.link r.id = 1))
    (hconn : ∀ k d s, t'.sectors.get? k = some d → t'.sites.get? d.site = some s →
      s.status = .existing → d.status = .proposed ∨ d.status = .candidate →
      ConnectedActive t' d.site) :
    t'.validateStatus = none := by
  have hfix := C11_fixed_untouched sol t t' none hu
  unfold updateWithSolution at hu
  rcases h1 : applySolution sol t with ⟨t1, e⟩
  rw [h1] at hu
  cases e with
  | some e => simp at hu
  | none =>
  dsimp only at hu
  have inv1 : t1.Inv := by
    have := inv_applySolution sol inv
    rw [h1] at this; exact this
  have inv' : t'.Inv := inv_removeDisconnected inv1 hu
  obtain ⟨a1, a2, a3, _⟩ := C12_proposed_iff_decided sol t t1 h1
  obtain ⟨_, k2, k3, k4, _, k6⟩ := removeDisconnected_spec inv1 hu
  have hv0 : ∀ l ∈ t.links.vals, t.statusOk l = true := by
    unfold validateStatus at hv
    split at hv
    · rename_i h; exact List.all_eq_true.1 h
    · cases hv
  -- the link behind a link of the result
  have back : ∀ i l', t'.links.get? i = some l' → ∃ l, t.links.get? i = some l ∧
      l' = (if afterDecision l.status (sol.link i) = .proposed ∧
        (t'.siteStatus l.tx = some .candidate ∨ t'.siteStatus l.rx = some .candidate) then
        { l with status := .candidate } else { l with status := afterDecision l.status (sol.link i) }) := by
    intro i l' hl'
    rw [k3, a3] at hl'
    cases hl : t.links.get? i with
    | none => rw [hl] at hl'; cases hl'
    | some l =>
      rw [hl] at hl'
      simp only [Option.map_some, Option.some.injEq] at hl'
      exact ⟨l, rfl, by rw [← hl']⟩
  -- sites of the result
  have site' : ∀ j s, t.sites.get? j = some s → ∃ s1 s', t1.sites.get? j = some s1 ∧
      t'.sites.get? j = some s' ∧ s'.siteType = s.siteType ∧
      (s'.status ≠ .candidate → (s1.status = .proposed ∨ s1.status = .candidate) →
        (∃ k y, t1.sectors.get? k = some y ∧ y.site = j) → ConnectedActive t1 j) := by
    intro j s hs
    have hs1 := a1 j
    rw [hs, Option.map_some] at hs1
    obtain ⟨s', hs', c1, c2⟩ := k2 j _ hs1
    refine ⟨_, s', hs1, hs', ?_, ?_⟩
    · by_cases c : (afterDecision s.status (sol.site j) = .proposed ∨
          afterDecision s.status (sol.site j) = .candidate) ∧ ¬ ConnectedActive t1 j ∧
          ∃ k y, t1.sectors.get? k = some y ∧ y.site = j
      · rw [c1 c.1 c.2.1 c.2.2]
      · rw [c2 c]
    · intro hne ho hsec
      by_contra hc
      rw [c1 ho hc hsec] at hne
      exact hne rfl
  have typ : ∀ j, (t'.sites.get? j).map (·.siteType) = (t.sites.get? j).map (·.siteType) := by
    intro j
    cases hs : t.sites.get? j with
    | none =>
      have hs1 := a1 j
      rw [hs] at hs1
      rw [k6 j hs1]
    | some s =>
      obtain ⟨_, s', _, h2, h3, _⟩ := site' j s hs
      rw [h2, Option.map_some, Option.map_some, h3]
  -- a selected sector of a site in use stays in use
  have sectorKept : ∀ k d j s', t.sectors.get? k = some d → d.site = j → sol.sector k = 1 →
      d.status ≠ .unavailable ∧ d.status ≠ .unreachable → t'.sites.get? j = some s' →
      (s'.status = .proposed ∨ s'.status = .existing) →
      ∃ d', t'.sectors.get? k = some d' ∧ (d'.status = .proposed ∨ d'.status = .existing) := by
    intro k d j s' hd hj h1 hin hs' ha
    obtain ⟨d', hd', keep⟩ := fixed_get (hfix.2.1 k) hd
    refine ⟨d', hd', ?_⟩
    by_cases hex : d.status = .existing
    · exact .inr (keep.1.1 hex)
    have ho : d.status = .candidate ∨ d.status = .proposed := by
      cases h : d.status <;> simp [h] at hex hin ⊢
    have hd1 := a2 k
    rw [hd, Option.map_some] at hd1
    have hst : afterDecision d.status (sol.sector k) = .proposed := by
      unfold afterDecision; rw [if_pos ho, if_pos h1]
    rw [hst] at hd1
    obtain ⟨w, hw, esite, _, hkeep⟩ := k4 k _ hd1
    rw [hd'] at hw; cases hw
    have hc : ConnectedActive t1 j := by
      obtain ⟨s, hs⟩ := inv.sector_site k d hd
      rw [hj] at hs
      obtain ⟨s1, s'', h2, h3, _, h5⟩ := site' j s hs
      rw [hs'] at h3; cases h3
      by_cases hse : s'.status = .existing
      · apply connected_before inv1 hu
        have e : d'.site = j := esite.trans hj
        rw [← e]
        refine hconn k d' s' hd' (by rw [e]; exact hs') hse ?_
        have k1 := keep.1
        have k2 := keep.2.1
        have k3 := keep.2.2
        rcases ho with ho | ho <;> rw [ho] at k1 k2 k3 <;> revert k1 k2 k3 <;>
          cases d'.status <;> simp
      · have hp : s'.status = .proposed := by
          rcases ha with ha | ha
          · exact ha
          · exact absurd ha hse
        refine h5 (by rw [hp]; simp) ?_ ⟨k, _, hd1, hj⟩
        obtain ⟨w1, hw1, keep1⟩ := fixed_get' ((fixed_removeDisconnected hu).1 j) hs'
        rw [h2] at hw1; cases hw1
        obtain ⟨q1, q2, q3⟩ := keep1
        rw [hp] at q1 q2 q3
        revert q1 q2 q3
        cases s1.status <;> simp
    left
    rw [hkeep (by dsimp only; rw [hj]; exact hc)]
  have ok : t'.links.vals.all t'.statusOk = true := by
    rw [List.all_eq_true]
    intro l' hl'
    obtain ⟨⟨i, w⟩, hi, rfl⟩ := List.mem_map.1 hl'
    have hi := (Dict.mem_iff_get? inv'.nd_links _ _).1 hi
    dsimp only at hi ⊢
    have eid := inv'.link_id _ _ hi
    obtain ⟨l, hl, hw⟩ := back i w hi
    have hm : l ∈ t.links.vals := List.mem_map.2 ⟨(i, l), Dict.mem_of_get? _ hl, rfl⟩
    have hid : i = l.id := inv.link_id _ _ hl
    have etx : w.tx = l.tx := by rw [hw]; split <;> rfl
    have erx : w.rx = l.rx := by rw [hw]; split <;> rfl
    have esec : w.sectors = l.sectors := by rw [hw]; split <;> rfl
    have ewl : w.isWireless = l.isWireless := by rw [hw]; split <;> rfl
    have hok := (statusOk_iff t l).1 (hv0 l hm)
    rw [statusOk_iff]
    constructor
    · intro hn
      rw [etx, erx] at hn
      have hn0 : t.links.get? ⟨l.rx, l.tx⟩ = none := by
        have := hfix.2.2 ⟨l.rx, l.tx⟩
        rw [hn] at this
        cases h : t.links.get? ⟨l.rx, l.tx⟩ with
        | none => rfl
        | some r => rw [h] at this; cases this
      have := hok.1 hn0
      unfold notAccess at this ⊢
      rw [erx, ewl, typ]
      exact this
    · intro r' hr'
      rw [etx, erx] at hr'
      obtain ⟨r, hr, hrw⟩ := back _ r' hr'
      obtain ⟨heq, agree⟩ := hok.2 r hr
      have rtx : r.tx = l.rx := (congrArg LinkId.tx (inv.link_id _ _ hr)).symm
      have rrx : r.rx = l.tx := (congrArg LinkId.rx (inv.link_id _ _ hr)).symm
      have hrid : (⟨l.rx, l.tx⟩ : LinkId) = r.id := inv.link_id _ _ hr
      have hs := hsym l hm r hr
      have hdec : afterDecision l.status (sol.link i) = afterDecision r.status (sol.link ⟨l.rx, l.tx⟩) := by
        rw [hid, hrid, ← heq]
        unfold afterDecision
        split
        · rename_i ho
          simp only [hs ho heq]
        · rfl
      constructor
      · rw [hw, hrw, rtx, rrx, ← hdec]
        by_cases c : t'.siteStatus l.tx = some .candidate <;>
          by_cases c' : t'.siteStatus l.rx = some .candidate <;>
          by_cases c2 : afterDecision l.status (sol.link i) = .proposed <;> simp [c, c', c2]
      · have siteFix : ∀ j s, t.sites.get? j = some s → ∃ s', t'.sites.get? j = some s' ∧
            KeepsFixed s.status s'.status := fun j s h => fixed_get (hfix.1 j) h
        have secFix : ∀ j s, t.sectors.get? j = some s → ∃ s', t'.sectors.get? j = some s' ∧
            KeepsFixed s.status s'.status := fun j s h => fixed_get (hfix.2.1 j) h
        have linkFix : KeepsFixed l.status w.status := by
          obtain ⟨v, hv, hk⟩ := fixed_get (hfix.2.2 i) hl
          rw [hi] at hv; cases hv
          exact hk
        have notIn : ∀ {a b : StatusType}, KeepsFixed a b → (a ≠ .unavailable ∧ a ≠ .unreachable) →
            b ≠ .unavailable ∧ b ≠ .unreachable := fun k h =>
          ⟨fun c => h.1 (k.2.1.2 c), fun c => h.2 (k.2.2.2 c)⟩
        -- the input constrains the objects around an open link
        have around : l.status = .candidate ∨ l.status = .proposed →
            EndSites t l (fun s => s ≠ .unavailable ∧ s ≠ .unreachable) ∧
            (l.sectors = none ∨ EndSectors t l (fun s => s ≠ .unavailable ∧ s ≠ .unreachable)) := by
          rintro (h | h)
          · exact agree.candidate h
          · obtain ⟨⟨x, y, b1, b2, b3, b4⟩, a, b, u, v, g0, g1, g2, g3, g4⟩ := agree.proposed h
            refine ⟨⟨x, y, b1, b2, ?_, ?_⟩, .inr ⟨a, b, u, v, g0, g1, g2, ?_, ?_⟩⟩
            · rcases b3 with h | h <;> rw [h] <;> simp
            · rcases b4 with h | h <;> rw [h] <;> simp
            · rcases g3 with h | h <;> rw [h] <;> simp
            · rcases g4 with h | h <;> rw [h] <;> simp
        refine ⟨?_, ?_, ?_⟩
        · intro he
          obtain ⟨⟨x, y, b1, b2, b3, b4⟩, a, b, u, v, g0, g1, g2, g3, g4⟩ :=
            agree.existing (linkFix.1.2 he)
          obtain ⟨x', hx', kx⟩ := siteFix _ _ b1
          obtain ⟨y', hy', ky⟩ := siteFix _ _ b2
          obtain ⟨u', hu', ku⟩ := secFix _ _ g1
          obtain ⟨v', hv', kv⟩ := secFix _ _ g2
          exact ⟨⟨x', y', by rw [etx]; exact hx', by rw [erx]; exact hy', kx.1.1 b3, ky.1.1 b4⟩,
            a, b, u', v', by rw [esec]; exact g0, hu', hv', ku.1.1 g3, kv.1.1 g4⟩
        · intro he
          have hopen : l.status = .candidate ∨ l.status = .proposed := by
            obtain ⟨q1, q2, q3⟩ := linkFix
            rw [he] at q1 q2 q3
            revert q1 q2 q3
            cases l.status <;> simp
          obtain ⟨⟨x, y, b1, b2, b3, b4⟩, hsec⟩ := around hopen
          have hnc : ¬ (t'.siteStatus l.tx = some .candidate ∨ t'.siteStatus l.rx = some .candidate) ∧
              afterDecision l.status (sol.link i) = .proposed := by
            rw [hw] at he
            split at he
            · cases he
            · rename_i h
              exact ⟨fun c => h ⟨he, c⟩, he⟩
          have hsel1 : sol.link l.id = 1 := by
            have := hnc.2
            unfold afterDecision at this
            rw [if_pos hopen, hid] at this
            by_contra hne
            rw [if_neg hne] at this
            cases this
          obtain ⟨x', hx', kx⟩ := siteFix _ _ b1
          obtain ⟨y', hy', ky⟩ := siteFix _ _ b2
          have act : ∀ {s : StatusType}, s ≠ .candidate → s ≠ .unavailable ∧ s ≠ .unreachable →
              s = .proposed ∨ s = .existing := by
            intro s; cases s <;> simp
          have hax : x'.status = .proposed ∨ x'.status = .existing := by
            refine act (fun c => hnc.1 (.inl ?_)) (notIn kx b3)
            unfold siteStatus; rw [hx', Option.map_some, c]
          have hay : y'.status = .proposed ∨ y'.status = .existing := by
            refine act (fun c => hnc.1 (.inr ?_)) (notIn ky b4)
            unfold siteStatus; rw [hy', Option.map_some, c]
          obtain ⟨a, b, g0, ga, gb⟩ := hsel l hm ⟨r, hr⟩ hopen hsel1
          obtain ⟨⟨d, hd, ed⟩, f, hf, ef⟩ := hends l hm a b g0
          rcases hsec with hsec | ⟨a', b', u, v, g0', g1, g2, g3, g4⟩
          · rw [g0] at hsec; cases hsec
          · rw [g0] at g0'
            injection g0' with g0'
            injection g0' with ea eb
            subst ea; subst eb
            rw [hd] at g1; cases g1
            rw [hf] at g2; cases g2
            obtain ⟨d', hd', sd⟩ := sectorKept a d l.tx x' hd ed ga g3 hx' hax
            obtain ⟨f', hf', sf⟩ := sectorKept b f l.rx y' hf ef gb g4 hy' hay
            exact ⟨⟨x', y', by rw [etx]; exact hx', by rw [erx]; exact hy', hax, hay⟩,
              a, b, d', f', by rw [esec]; exact g0, hd', hf', sd, sf⟩
        · intro he
          have hopen : l.status = .candidate ∨ l.status = .proposed := by
            obtain ⟨q1, q2, q3⟩ := linkFix
            rw [he] at q1 q2 q3
            revert q1 q2 q3
            cases l.status <;> simp
          obtain ⟨⟨x, y, b1, b2, b3, b4⟩, hsec⟩ := around hopen
          obtain ⟨x', hx', kx⟩ := siteFix _ _ b1
          obtain ⟨y', hy', ky⟩ := siteFix _ _ b2
          refine ⟨⟨x', y', by rw [etx]; exact hx', by rw [erx]; exact hy', notIn kx b3, notIn ky b4⟩, ?_⟩
          rcases hsec with hsec | ⟨a, b, u, v, g0, g1, g2, g3, g4⟩
          · left; rw [esec]; exact hsec
          · right
            obtain ⟨u', hu', ku⟩ := secFix _ _ g1
            obtain ⟨v', hv', kv⟩ := secFix _ _ g2
            exact ⟨a, b, u', v', by rw [esec]; exact g0, hu', hv', notIn ku g3, notIn kv g4⟩
  unfold validateStatus
  rw [if_pos ok]

/-- The two directions of a link agree on being radio links, on having sectors and on
whether they can carry anything. -/
def Mirrored (t : Topology) : Prop :=
  ∀ l ∈ t.links.vals, ∀ r, t.links.get? ⟨l.rx, l.tx⟩ = some r →
    l.isWireless = r.isWireless ∧ (0 < l.capacity ↔ 0 < r.capacity) ∧
    l.sectors.isSome = r.sectors.isSome

/-- Links running both ways that are not installed yet are radio links. -/
def OpenAreRadio (t : Topology) : Prop :=
  ∀ l ∈ t.links.vals, (∃ r, t.links.get? ⟨l.rx, l.tx⟩ = some r) →
    (l.status = .candidate ∨ l.status = .proposed) → l.isWireless = true

/-- The sectors of a link are sectors at its two ends. -/
def SectorsAtEnds (t : Topology) : Prop :=
  ∀ l ∈ t.links.vals, ∀ a b, l.sectors = some (a, b) →
    (∃ d, t.sectors.get? a = some d ∧ d.site = l.tx) ∧ ∃ d, t.sectors.get? b = some d ∧ d.site = l.rx

/-- Installed sites to which sectors could be added are connected to a POP in use. -/
def OldSitesConnected (t : Topology) : Prop :=
  ∀ k d s, t.sectors.get? k = some d → t.sites.get? d.site = some s → s.status = .existing →
    d.status = .proposed ∨ d.status = .candidate → ConnectedActive t d.site

/-- **C98, cost phase, `_partial`.** Full statement (false of the code): the topology obtained
by applying the plan of a phase passes the status validation with which the next phase
starts, if the topology the phase started from passed it. Proved for the phases that
plan with `SiteOptimization` when links that may be built are radio links, the two directions of a
link agree on sectors and on having capacity, and EXISTING sites with sectors still open
are connected in the result; missing: the other topologies, see the violations below. -/
theorem C98_cost_partial (ops : List Op) (p : OptParams) (adv : Arc → Bool) (x : Vars)
    (flow : Arc → ℚ) (common : Option ℚ) (sol : Solution) (cost : ℚ) (t' : Topology)
    (hv : (run {} ops).validateStatus = none)
    (feas : (Plan.mk (run {} ops) p).SiteFeasible adv x)
    (h : (Plan.mk (run {} ops) p).extract x flow common = .ok (some (sol, cost)))
    (hu : updateWithSolution sol (run {} ops) = some (t', none))
    (mirr : Mirrored (run {} ops)) (radio : OpenAreRadio (run {} ops))
    (ends : SectorsAtEnds (run {} ops)) (conn : OldSitesConnected t') :
    t'.validateStatus = none := by
  have inv : Topology.Inv (run {} ops) := Inv.empty.run ops
  refine applied_valid inv hv hu ends ?_ ?_ conn
  · intro l hl hr ho hs
    obtain ⟨a, b, h1, h2, h3, _⟩ :=
      (((C45_consistent ops p adv x flow common sol cost feas h).1 l hl hs).2.2.2.2 (radio l hl hr ho)).1
    exact ⟨a, b, h1, h2, h3⟩
  · intro l hl r hr ho heq
    obtain ⟨hsol, -⟩ := Plan.extract_ok h
    subst hsol
    have hrid : (⟨l.rx, l.tx⟩ : LinkId) = r.id := inv.link_id _ _ hr
    have rtx : r.tx = l.rx := (congrArg LinkId.tx hrid).symm
    have rrx : r.rx = l.tx := (congrArg LinkId.rx hrid).symm
    have hrm : r ∈ (run {} ops).links.vals := List.mem_map.2 ⟨_, Dict.mem_of_get? _ hr, rfl⟩
    have hl' : (run {} ops).links.get? ⟨r.rx, r.tx⟩ = some l := by
      rw [rtx, rrx]
      exact Plan.linkOf_arcOf (P := ⟨run {} ops, p⟩) inv hl
    obtain ⟨m1, m2, m3⟩ := mirr l hl r hr
    have key : ∀ (l r : Link), l ∈ (run {} ops).links.vals → r ∈ (run {} ops).links.vals →
        r.tx = l.rx → r.rx = l.tx → l.isWireless = true → r.isWireless = true →
        (0 < l.capacity → 0 < r.capacity) → (l.sectors.isSome = true → r.sectors.isSome = true) →
        l.status = r.status →
        (Plan.extracted ⟨run {} ops, p⟩ x flow).link l.id = 1 →
        (Plan.extracted ⟨run {} ops, p⟩ x flow).link r.id = 1 := by
      intro l r hl hrm rtx rrx wl wr hcap hsec heq hs
      set P : Plan := ⟨run {} ops, p⟩ with hP
      have invP : P.t.Inv := inv
      obtain ⟨h1, -⟩ := Plan.extracted_link hs
      obtain ⟨g1, g2, g3, g4, g5, g6⟩ := Plan.linkSel_site h1
      obtain ⟨a, b, d, d', hls, -⟩ := Plan.wireless_sectors invP hl wl h1
      have hrs := hsec (by rw [hls]; rfl)
      obtain ⟨⟨a', b'⟩, hrs⟩ := Option.isSome_iff_exists.1 hrs
      obtain ⟨⟨q, hq, eq1⟩, q', hq', eq2⟩ := ends r hrm a' b' hrs
      have el : P.linkOf (.site l.tx, .site l.rx) = some l := Plan.linkOf_arcOf invP hl
      have er : P.linkOf (.site r.tx, .site r.rx) = some r := Plan.linkOf_arcOf invP hrm
      have cl : P.cap (.site l.tx, .site l.rx) = l.capacity := Plan.cap_arcOf invP hl
      have cr : P.cap (.site r.tx, .site r.rx) = r.capacity := Plan.cap_arcOf invP hrm
      have s1 : P.txSector (.site r.tx, .site r.rx) = some a' := by
        unfold Plan.txSector; rw [er, Option.bind_some, hrs]; rfl
      have s2 : P.rxSector (.site r.tx, .site r.rx) = some b' := by
        unfold Plan.rxSector; rw [er, Option.bind_some, hrs]; rfl
      have hq0 : P.t.sectors.get? a' = some q := hq
      have hq1 : P.t.sectors.get? b' = some q' := hq'
      have d1 : P.sectorDec x flow r.tx a' = 1 := by
        unfold Plan.sectorDec
        rw [hq0, Option.any_some, eq1, beq_self_eq_true, if_pos rfl, rtx]; exact g5
      have d2 : P.sectorDec x flow r.rx b' = 1 := by
        unfold Plan.sectorDec
        rw [hq1, Option.any_some, eq2, beq_self_eq_true, if_pos rfl, rrx]; exact g4
      have ina : P.inactiveArc (.site r.tx, .site r.rx) = false := by
        unfold Plan.inactiveArc at g1 ⊢
        rw [el, Option.any_some, Bool.or_eq_false_iff] at g1
        rw [er, Option.any_some, ← heq, g1.1, hrs]
        simp
      have pol : P.polOk x flow r.tx r.rx = true := by
        unfold Plan.polOk Plan.inputActive Plan.isWired at g3 ⊢
        rw [el] at g3
        rw [er]
        simp only [Option.any_some, wl, wr, ← heq, rtx, rrx, Bool.or_eq_true, Bool.not_eq_true',
          bne_iff_ne, ne_eq] at g3 ⊢
        rcases g3 with ((g | g) | g) | g
        · exact .inl (.inl (.inl g))
        · rw [el, Option.any_some, wl] at g; cases g
        · rw [Bool.and_comm] at g; exact .inl (.inr g)
        · exact .inr (fun c => g c.symm)
      have sel : P.linkSel x flow (.site r.tx, .site r.rx) = true := by
        unfold Plan.linkSel Plan.linkCand
        simp only
        rw [ina, cr, pol, rtx, rrx, g4, g5, ← rtx, ← rrx, s1, s2, Option.any_some, Option.any_some,
          d1, d2]
        rw [cl] at g2
        simp [hcap g2]
      change (if P.linkSel x flow (.site r.tx, .site r.rx) &&
        P.arcs.contains (.site r.tx, .site r.rx) then (1 : Int) else 0) = 1
      have hm : ((Loc.site r.tx, Loc.site r.rx) : Arc) ∈ P.arcs := Plan.arcOf_mem hrm
      rw [sel, List.contains_eq_mem, decide_eq_true hm]
      rfl
    have wl := radio l hl ⟨r, hr⟩ ho
    have wr := radio r hrm ⟨l, hl'⟩ (heq ▸ ho)
    exact ⟨key l r hl hrm rtx rrx wl wr m2.1 (by rw [m3]; exact id) heq,
      key r l hrm hl rrx.symm rtx.symm wr wl m2.2 (by rw [m3]; exact id) heq.symm⟩

/-- **C98, interference phase, `_partial`.** The same for the interference phase. -/
theorem C98_interference_partial (ops : List Op) (p : OptParams) (I : Interf) (x : IVars)
    (flow : Arc → ℚ) (common : Option ℚ) (sol : Solution) (cost : ℚ) (t' : Topology)
    (hv : (run {} ops).validateStatus = none)
    (feas : (Plan.mk (run {} ops) p).InterfFeasible I x)
    (known : SectorsKnown ⟨run {} ops, p⟩) (send : SendersDist ⟨run {} ops, p⟩)
    (hn : 0 < I.channels)
    (hf : ∀ e ∈ (Plan.mk (run {} ops) p).arcs, 0 ≤ flow e ∧ flow e ≤ x.flow e)
    (h : (Plan.mk (run {} ops) p).iExtract I.channels x flow common = .ok (some (sol, cost)))
    (hu : updateWithSolution sol (run {} ops) = some (t', none))
    (mirr : Mirrored (run {} ops)) (radio : OpenAreRadio (run {} ops))
    (conn : OldSitesConnected t') :
    t'.validateStatus = none := by
  have inv : Topology.Inv (run {} ops) := Inv.empty.run ops
  have cons := C95_consistent_partial ops p I x flow common sol cost feas known send hn hf h
  refine applied_valid inv hv hu known.ends ?_ ?_ conn
  · intro l hl hr ho hs
    obtain ⟨_, _, _, _, ⟨a, b, h1, h2, h3, _⟩, _⟩ := cons.1 l hl (radio l hl hr ho) hs
    exact ⟨a, b, h1, h2, h3⟩
  · intro l hl r hr ho heq
    have hrid : (⟨l.rx, l.tx⟩ : LinkId) = r.id := inv.link_id _ _ hr
    have rtx : r.tx = l.rx := (congrArg LinkId.tx hrid).symm
    have rrx : r.rx = l.tx := (congrArg LinkId.rx hrid).symm
    have hrm : r ∈ (run {} ops).links.vals := List.mem_map.2 ⟨_, Dict.mem_of_get? _ hr, rfl⟩
    have hl' : (run {} ops).links.get? ⟨r.rx, r.tx⟩ = some l := by
      rw [rtx, rrx]
      exact Plan.linkOf_arcOf (P := ⟨run {} ops, p⟩) inv hl
    obtain ⟨m1, m2, m3⟩ := mirr l hl r hr
    have wl := radio l hl ⟨r, hr⟩ ho
    have wr := radio r hrm ⟨l, hl'⟩ (heq ▸ ho)
    constructor
    · intro hs
      obtain ⟨_, hc, _, _, ⟨a, b, h1, _⟩, _, hrev⟩ := cons.1 l hl wl hs
      exact hrev r hrm ⟨wr, m2.1 hc, by rw [← m3, h1]; rfl⟩ rtx rrx
    · intro hs
      obtain ⟨_, hc, _, _, ⟨a, b, h1, _⟩, _, hrev⟩ := cons.1 r hrm wr hs
      exact hrev l hl ⟨wl, m2.2 hc, by rw [m3, h1]; rfl⟩ rrx.symm rtx.symm

instance (t : Topology) : Decidable (Mirrored t) :=
  decidable_of_iff (∀ l ∈ t.links.vals, ∀ r ∈ t.links.get? ⟨l.rx, l.tx⟩,
    l.isWireless = r.isWireless ∧ (0 < l.capacity ↔ 0 < r.capacity) ∧
    l.sectors.isSome = r.sectors.isSome) Iff.rfl

/-- The hypotheses of the cost phase hold of the demo; its links P-D and D-C become PROPOSED. -/
example :
    let P : Plan := ⟨run {} planDemo2, planDemoParams⟩
    P.t.validateStatus = none ∧ P.SiteFeasible (fun _ => false) planDemoVars ∧ Mirrored P.t ∧
    OpenAreRadio P.t ∧ SectorsAtEnds P.t ∧
    ∃ sol t', P.extract planDemoVars planDemoVars.flow none = .ok (some (sol, 78)) ∧
      updateWithSolution sol P.t = some (t', none) ∧ OldSitesConnected t' ∧
      (t'.links.get? ⟨"P", "D"⟩).map (·.status) = some .proposed := by
  refine ⟨by decide +kernel, planDemo2_feasible, by decide +kernel, ?_, ?_,
    Plan.extracted ⟨run {} planDemo2, planDemoParams⟩ planDemoVars planDemoVars.flow,
    (updateWithSolution (Plan.extracted ⟨run {} planDemo2, planDemoParams⟩ planDemoVars planDemoVars.flow)
      (run {} planDemo2)).getD ({}, none) |>.1, ?_, by decide +kernel, ?_, by decide +kernel⟩
  · have h : ∀ l ∈ (run {} planDemo2).links.vals, l.isWireless = true := by decide +kernel
    intro l hl _ _
    exact h l hl
  · have h : ∀ l ∈ (run {} planDemo2).links.vals, ∀ q ∈ l.sectors,
        (∃ d ∈ (run {} planDemo2).sectors.get? q.1, d.site = l.tx) ∧
        ∃ d ∈ (run {} planDemo2).sectors.get? q.2, d.site = l.rx := by
      decide +kernel
    intro l hl a b hab
    exact h l hl (a, b) hab
  · unfold Plan.extract
    rw [if_neg (by decide +kernel), if_neg (by decide +kernel), if_neg (by decide +kernel)]
    show Except.ok (some (_, _)) = Except.ok (some (_, _))
    congr 3
    decide +kernel
  · have h : ∀ e ∈ ((updateWithSolution (Plan.extracted ⟨run {} planDemo2, planDemoParams⟩ planDemoVars
        planDemoVars.flow) (run {} planDemo2)).getD ({}, none)).1.sectors,
        (((updateWithSolution (Plan.extracted ⟨run {} planDemo2, planDemoParams⟩ planDemoVars
        planDemoVars.flow) (run {} planDemo2)).getD ({}, none)).1.sites.get? e.2.site).map (·.status)
          = some .existing → e.2.status ≠ .candidate ∧ e.2.status ≠ .proposed := by
      decide +kernel
    intro k d s hk hs he hd
    have := h _ (Dict.mem_of_get? _ hk) (by rw [hs, Option.map_some, he])
    rcases hd with hd | hd
    · exact absurd hd this.2
    · exact absurd hd this.1

/-- The hypotheses of the interference phase hold of its demo. -/
example : ∃ (sol : Solution) (cost : ℚ) (t' : Topology),
    (run {} interfDemo).validateStatus = none ∧
    (Plan.mk (run {} interfDemo) interfDemoParams).InterfFeasible interfDemoIn interfDemoVars ∧
    SectorsKnown ⟨run {} interfDemo, interfDemoParams⟩ ∧
    SendersDist ⟨run {} interfDemo, interfDemoParams⟩ ∧
    (∀ e ∈ (Plan.mk (run {} interfDemo) interfDemoParams).arcs,
      0 ≤ interfDemoVars.flow e ∧ interfDemoVars.flow e ≤ interfDemoVars.flow e) ∧
    (Plan.mk (run {} interfDemo) interfDemoParams).iExtract interfDemoIn.channels
      interfDemoVars interfDemoVars.flow none = .ok (some (sol, cost)) ∧
    updateWithSolution sol (run {} interfDemo) = some (t', none) ∧
    Mirrored (run {} interfDemo) ∧ OpenAreRadio (run {} interfDemo) ∧ OldSitesConnected t' ∧
    (t'.links.get? ⟨"P", "D"⟩).map (·.status) = some .proposed ∧
    (t'.links.get? ⟨"F", "C"⟩).map (·.status) = some .candidate := by
  obtain ⟨cost, h, -⟩ := Plan.iExtract_of (P := ⟨run {} interfDemo, interfDemoParams⟩)
    (n := interfDemoIn.channels) (x := interfDemoVars) (flow := interfDemoVars.flow)
    (common := none) (by decide +kernel)
  refine ⟨_, cost, (updateWithSolution (Plan.iExtracted ⟨run {} interfDemo, interfDemoParams⟩
    interfDemoIn.channels interfDemoVars interfDemoVars.flow) (run {} interfDemo)).getD ({}, none) |>.1,
    by decide +kernel, interfDemo_feasible, interfDemo_known, by unfold SendersDist; decide +kernel,
    by decide +kernel, h, by decide +kernel, by decide +kernel, ?_, ?_, by decide +kernel,
    by decide +kernel⟩
  · have h : ∀ l ∈ (run {} interfDemo).links.vals, l.isWireless = true := by decide +kernel
    exact fun l hl _ _ => h l hl
  · intro k d s hk hs he _
    have h : ∀ e ∈ ((updateWithSolution (Plan.iExtracted ⟨run {} interfDemo, interfDemoParams⟩
        interfDemoIn.channels interfDemoVars interfDemoVars.flow) (run {} interfDemo)).getD ({}, none)).1.sites,
        e.2.status = .existing → e.2.siteType = .pop := by
      decide +kernel
    exact ⟨0, .pop hs (h _ (Dict.mem_of_get? _ hs) he) (by simpa using Or.inr he)⟩

/-- The result of applying the plan read off the demo assignment. -/
def nextResult (ops : List Op) (x : Vars) : Topology :=
  ((updateWithSolution (Plan.extracted ⟨run {} ops, planDemoParams⟩ x x.flow) (run {} ops)).getD
    ({}, none)).1

/-- The cost of that plan. -/
def nextCost (ops : List Op) (x : Vars) : ℚ :=
  let P : Plan := ⟨run {} ops, planDemoParams⟩
  let sol := P.extracted x x.flow
  P.extractCost (fun s => (sol.site s : ℚ)) (fun k => (sol.sector k : ℚ))

/-- The demo network with a planned fibre between the POP and a new DN. -/
def fibreDemo : List Op :=
  let f : Site := { id := "F", siteType := .dn, status := .candidate, lat := 3 }
  let l : Link := { tx := "P", rx := "F", isWireless := false, capacity := 4 }
  let r : Link := { tx := "F", rx := "P", isWireless := false, capacity := 4 }
  let m : Link := { tx := "F", rx := "C", capacity := 2,
                    sectors := some (⟨"F", 0, 0, .dn⟩, ⟨"C", 0, 0, .cn⟩) }
  let d : Sector := { site := "F", node := 0, pos := 0 }
  planDemo2 ++ [.addSite f false, .addSector d, .addLink l, .addLink r, .addLink m]

/-- Half of the traffic takes the fibre. -/
def fibreVars : Vars where
  site s := if s = "E" then 0 else 1
  sector _ _ := 1
  flow e := if e = (.site "D", .site "P") ∨ e = (.site "F", .site "P") then 0 else
    if e = (.site "P", .site "D") ∨ e = (.site "P", .site "F") ∨ e = (.site "D", .site "C") ∨
      e = (.site "F", .site "C") then 1/2 else 1
  tdm e _ := if e = (.site "P", .site "D") then 1/8 else
    if e = (.site "D", .site "C") ∨ e = (.site "F", .site "C") then 1/4 else 0
  odd s := if s = "P" then 1 else 0
  shortage _ := 1/2

/-- A planned fibre makes the next phase fail: the cost phase selects it, it becomes
PROPOSED without sectors, and the validation run by the next phase rejects PROPOSED links
without active sectors. -/
theorem C98_wired_violation :
    ∃ (ops : List Op) (x : Vars) (sol : Solution) (cost : ℚ) (t' : Topology),
      (Plan.mk (run {} ops) planDemoParams).setupErr = none ∧
      (run {} ops).validateStatus = none ∧ Mirrored (run {} ops) ∧
      (Plan.mk (run {} ops) planDemoParams).SiteFeasible (fun _ => false) x ∧
      (Plan.mk (run {} ops) planDemoParams).extract x x.flow none = .ok (some (sol, cost)) ∧
      updateWithSolution sol (run {} ops) = some (t', none) ∧
      (t'.links.get? ⟨"P", "F"⟩).map (·.status) = some .proposed ∧
      t'.validateStatus = some .topology := by
  refine ⟨fibreDemo, fibreVars, Plan.extracted ⟨run {} fibreDemo, planDemoParams⟩ fibreVars fibreVars.flow,
    nextCost fibreDemo fibreVars, nextResult fibreDemo fibreVars, by decide +kernel, by decide +kernel, by decide +kernel,
    Plan.Check.sound (by decide +kernel), ?_, by decide +kernel, by decide +kernel, by decide +kernel⟩
  unfold Plan.extract
  rw [if_neg (by decide +kernel), if_neg (by decide +kernel), if_neg (by decide +kernel)]
  rfl

/-- The demo network with no capacity from the DN back to the POP. -/
def oneWayDemo : List Op := planDemo2.map fun o => match o with
  | .addLink l => .addLink (if l.tx = "D" ∧ l.rx = "P" then { l with capacity := 0 } else l)
  | o => o

/-- A link with capacity in one direction only makes the next phase fail: that direction
alone becomes PROPOSED. -/
theorem C98_one_way_violation :
    ∃ (ops : List Op) (x : Vars) (sol : Solution) (cost : ℚ) (t' : Topology),
      (Plan.mk (run {} ops) planDemoParams).setupErr = none ∧
      (run {} ops).validateStatus = none ∧ OpenAreRadio (run {} ops) ∧
      (Plan.mk (run {} ops) planDemoParams).SiteFeasible (fun _ => false) x ∧
      (Plan.mk (run {} ops) planDemoParams).extract x x.flow none = .ok (some (sol, cost)) ∧
      updateWithSolution sol (run {} ops) = some (t', none) ∧
      t'.validateStatus = some .topology := by
  refine ⟨oneWayDemo, planDemoVars, Plan.extracted ⟨run {} oneWayDemo, planDemoParams⟩ planDemoVars
    planDemoVars.flow, nextCost oneWayDemo planDemoVars, nextResult oneWayDemo planDemoVars, by decide +kernel, by decide +kernel, ?_,
    Plan.Check.sound (by decide +kernel), ?_, by decide +kernel, by decide +kernel⟩
  · have h : ∀ l ∈ (run {} oneWayDemo).links.vals, l.isWireless = true := by decide +kernel
    exact fun l hl _ _ => h l hl
  · unfold Plan.extract
    rw [if_neg (by decide +kernel), if_neg (by decide +kernel), if_neg (by decide +kernel)]
    rfl

/-- The demo network and two installed DNs, with a possible link between them, that nothing joins
to the POP. -/
def islandDemo : List Op :=
  let f : Site := { id := "F", siteType := .dn, status := .existing, lat := 3 }
  let g : Site := { id := "G", siteType := .dn, status := .existing, lat := 4 }
  let d : Sector := { site := "F", node := 0, pos := 0 }
  let e : Sector := { site := "G", node := 0, pos := 0 }
  let l : Link := { tx := "F", rx := "G", capacity := 4,
                    sectors := some (⟨"F", 0, 0, .dn⟩, ⟨"G", 0, 0, .dn⟩) }
  let r : Link := { tx := "G", rx := "F", capacity := 4,
                    sectors := some (⟨"G", 0, 0, .dn⟩, ⟨"F", 0, 0, .dn⟩) }
  planDemo2 ++ [.addSite f false, .addSite g false, .addSector d, .addSector e, .addLink l, .addLink r]

def islandVars : Vars := { planDemoVars with
  flow := fun e => if e.1 = .site "F" ∨ e.1 = .site "G" then 0 else planDemoVars.flow e
  odd := fun s => if s = "P" ∨ s = "F" then 1 else 0 }

/-- Installed sites that are not connected to a POP make the next phase fail: the link between them
becomes PROPOSED, its sectors are withdrawn because the sites are not connected, the link is not
because the sites are EXISTING. -/
theorem C98_island_violation :
    ∃ (ops : List Op) (x : Vars) (sol : Solution) (cost : ℚ) (t' : Topology),
      (Plan.mk (run {} ops) planDemoParams).setupErr = none ∧
      (run {} ops).validateStatus = none ∧ Mirrored (run {} ops) ∧ OpenAreRadio (run {} ops) ∧
      (Plan.mk (run {} ops) planDemoParams).SiteFeasible (fun _ => false) x ∧
      (Plan.mk (run {} ops) planDemoParams).extract x x.flow none = .ok (some (sol, cost)) ∧
      updateWithSolution sol (run {} ops) = some (t', none) ∧
      (t'.links.get? ⟨"F", "G"⟩).map (·.status) = some .proposed ∧
      (t'.sectors.get? ⟨"F", 0, 0, .dn⟩).map (·.status) = some .candidate ∧
      t'.validateStatus = some .topology := by
  refine ⟨islandDemo, islandVars, Plan.extracted ⟨run {} islandDemo, planDemoParams⟩ islandVars
    islandVars.flow, nextCost islandDemo islandVars, nextResult islandDemo islandVars, by decide +kernel, by decide +kernel,
    by decide +kernel, ?_, Plan.Check.sound (by decide +kernel), ?_, by decide +kernel, by decide +kernel,
    by decide +kernel, by decide +kernel⟩
  · have h : ∀ l ∈ (run {} islandDemo).links.vals, l.isWireless = true := by decide +kernel
    exact fun l hl _ _ => h l hl
  · unfold Plan.extract
    rw [if_neg (by decide +kernel), if_neg (by decide +kernel), if_neg (by decide +kernel)]
    rfl

end Topology
end Verif
