import Verif.Props.Redundancy2
import Verif.Props.Interf

/-! # Co-located sites after the redundancy phase -/

namespace Verif
namespace Plan

open Topology Spec

variable {P : Plan} {r : RedParams} {restr : Option (List (SiteId × SiteId))} {x : RVars}

theorem pair_le_sum {α : Type} [DecidableEq α] (L : List α) (f : α → ℚ) (hf : ∀ a ∈ L, 0 ≤ f a) {a b : α}
    (ha : a ∈ L) (hb : b ∈ L) (hab : a ≠ b) (h1 : f a = 1) (h2 : f b = 1) : 2 ≤ (L.map f).sum := by
  have hb' : b ∈ L.erase a := (List.mem_erase_of_ne (Ne.symm hab)).2 hb
  have hp := (List.perm_cons_erase ha).trans ((List.perm_cons_erase hb').cons a)
  rw [(hp.map f).sum_eq, List.map_cons, List.map_cons, List.sum_cons, List.sum_cons, h1, h2]
  have : 0 ≤ (((L.erase a).erase b).map f).sum := by
    apply List.sum_nonneg
    intro y hy
    obtain ⟨c, hc, rfl⟩ := List.mem_map.1 hy
    exact hf c (List.mem_of_mem_erase (List.mem_of_mem_erase hc))
  linarith

end Plan

namespace Spec

/-- PROPOSED or EXISTING. -/
def InUse (t : Topology) (s : SiteId) : Prop :=
  ∃ y, t.sites.get? s = some y ∧ (y.status = .proposed ∨ y.status = .existing)

/-- No two sites in use are at the same coordinates. -/
def OnePerLocation (t : Topology) : Prop :=
  ∀ a b y z, t.sites.get? a = some y → t.sites.get? b = some z → SameSpot y z →
    (y.status = .proposed ∨ y.status = .existing) → (z.status = .proposed ∨ z.status = .existing) → a = b

/-- Links in use join sites in use. -/
def LinksOnSitesInUse (t : Topology) : Prop :=
  ∀ l ∈ t.links.vals, l.status = .proposed ∨ l.status = .existing → InUse t l.tx ∧ InUse t l.rx

end Spec

open Plan Topology Spec

/-- **C100, `_partial`.** Full statement (false of the code): if no two sites in use are at the same
location before the redundancy phase, then none are after it. Proved when no EXISTING CN shares its
location with another site; missing: such CNs, see `C100_existing_cn_violation`. -/
theorem C100_one_per_location_partial (ops : List Op) (p : OptParams) (r : RedParams)
    (restr : Option (List (SiteId × SiteId))) (x : RVars) (t' : Topology)
    (ok : (Plan.mk (run {} ops) p).redErr restr = none)
    (feas : (Plan.mk (run {} ops) p).RedFeasible r restr x)
    (hu : updateWithSolution ((Plan.mk (run {} ops) p).redSolution restr x) (run {} ops) = some (t', none))
    (hcap : 0 < p.popCapacity) (hlinks : LinksOnSitesInUse (run {} ops))
    (hone : OnePerLocation (run {} ops))
    (hcn : ∀ a b y z, (run {} ops).sites.get? a = some y → (run {} ops).sites.get? b = some z →
      SameSpot y z → y.siteType = .cn → y.status = .existing → a = b) :
    OnePerLocation t' := by
  have inv : Topology.Inv (run {} ops) := Inv.empty.run ops
  set P : Plan := ⟨run {} ops, p⟩ with hP
  have invP : P.t.Inv := inv
  have hreds : ∀ s ∈ P.redDns, P.redSite restr (.site s) = true := by
    unfold redErr at ok
    cases hset : P.setupErr with
    | some e => rw [hset] at ok; cases ok
    | none =>
      rw [hset] at ok
      dsimp only at ok
      split at ok
      · rename_i h; exact fun s hs => List.all_eq_true.1 h s hs
      · cases ok
  -- sites kept active are in use
  have kept : ∀ s y, P.t.sites.get? s = some y → P.keptActive s = true →
      y.status = .proposed ∨ y.status = .existing := by
    intro s y hy hk
    unfold keptActive at hk
    rw [Bool.or_eq_true] at hk
    rcases hk with hk | hk
    · exact (isActive_of hy).1 hk
    · rw [List.any_eq_true] at hk
      obtain ⟨l, hl, hk⟩ := hk
      rw [Bool.and_eq_true, Bool.or_eq_true, beq_iff_eq, beq_iff_eq] at hk
      have hst : l.status = .proposed ∨ l.status = .existing := by
        have := hk.1
        revert this
        cases l.status <;> simp [StatusType.active]
      obtain ⟨⟨u, hu1, hu2⟩, v, hv1, hv2⟩ := hlinks l hl hst
      rcases hk.2 with e | e
      · rw [e] at hu1
        have : P.t.sites.get? s = some u := hu1
        rw [hy] at this; cases this; exact hu2
      · rw [e] at hv1
        have : P.t.sites.get? s = some v := hv1
        rw [hy] at this; cases this; exact hv2
  -- selected DNs and POPs have a variable, which is 1
  have sel : ∀ s y, P.t.sites.get? s = some y → y.siteType ≠ .cn → P.redDec restr x s = 1 →
      P.redSite restr (.site s) = true ∧ x.site s = 1 := by
    intro s y hy hd h1
    rw [redDec_dist ((isDist_iff' hy).2 hd)] at h1
    have hr : P.redSite restr (.site s) = true := by
      by_contra hr
      unfold redDist at h1
      rw [if_neg hr] at h1
      split at h1
      · rename_i hk
        have hact := kept s y hy hk
        cases hty : y.siteType with
        | cn => exact hd hty
        | pop => exact hr (redSite_pop invP hcap hy hty)
        | dn =>
          refine hr (hreds s (redDns_iff.2 ⟨keys_of hy, (isActive_of hy).2 hact, ?_⟩))
          unfold siteType?; dsimp only; rw [hy, Option.map_some, hty]
      · cases h1
    refine ⟨hr, ?_⟩
    unfold redDist at h1
    rw [if_pos hr] at h1
    exact bin_one (feas.site s (keys_of hy) hr) h1
  have selDist : ∀ a b y z, P.t.sites.get? a = some y → P.t.sites.get? b = some z → SameSpot y z →
      y.siteType ≠ .cn → z.siteType ≠ .cn → P.redDec restr x a = 1 → P.redDec restr x b = 1 → a = b := by
    intro a b y z hy hz hs hdy hdz h1 h2
    by_contra hab
    obtain ⟨r1, x1⟩ := sel a y hy hdy h1
    obtain ⟨r2, x2⟩ := sel b z hz hdz h2
    obtain ⟨locs, g1, g2, g3, g4⟩ := group_of invP.nd_sites hy
    have hp : z.point = y.point := by
      unfold Site.point; rw [hs.1, hs.2.1, hs.2.2]
    have hsum := feas.colocated locs g2
    have := pair_le_sum (locs.filter fun s => P.isDist (.site s) && P.redSite restr (.site s)) x.site (by
      intro c hc
      obtain ⟨c1, c2⟩ := List.mem_filter.1 hc
      obtain ⟨w, hw, _⟩ := (g4 c).1 c1
      rw [Bool.and_eq_true] at c2
      rcases feas.site c (keys_of hw) c2.2 with h | h <;> rw [h] <;> norm_num)
      (List.mem_filter.2 ⟨(g4 a).2 ⟨y, hy, rfl⟩, by rw [(isDist_iff' hy).2 hdy, r1]; rfl⟩)
      (List.mem_filter.2 ⟨(g4 b).2 ⟨z, hz, hp⟩, by rw [(isDist_iff' hz).2 hdz, r2]; rfl⟩) hab x1 x2
    linarith
  -- a selected CN was in use, and no DN or POP beside it is selected
  have selCn : ∀ a b y z, P.t.sites.get? a = some y → P.t.sites.get? b = some z → SameSpot y z →
      y.siteType = .cn → P.redDec restr x a = 1 →
      (y.status = .proposed ∨ y.status = .existing) ∧ (z.siteType ≠ .cn → P.redDec restr x b ≠ 1) := by
    intro a b y z hy hz hs hc h1
    have hd : ¬ P.isDist (.site a) = true := fun h => (isDist_iff' hy).1 h hc
    unfold redDec at h1
    rw [if_neg hd] at h1
    split at h1
    · cases h1
    rename_i hk
    have hk : P.keptActive a = true := by simpa using hk
    refine ⟨kept a y hy hk, fun hdz h2 => ?_⟩
    obtain ⟨locs, g1, g2, g3, g4⟩ := group_of invP.nd_sites hy
    have hp : z.point = y.point := by
      unfold Site.point; rw [hs.1, hs.2.1, hs.2.2]
    have hg : P.group a = locs := by
      unfold group; rw [hy]; dsimp only; rw [g1]; rfl
    have ma : a ∈ locs := (g4 a).2 ⟨y, hy, rfl⟩
    have mb : b ∈ locs := (g4 b).2 ⟨z, hz, hp⟩
    have hne : a ≠ b := by
      rintro rfl
      rw [hy] at hz; cases hz; exact hdz hc
    obtain ⟨r2, x2⟩ := sel b z hz hdz h2
    rw [redDec_dist ((isDist_iff' hz).2 hdz)] at h2
    split at h1
    · rename_i hlen
      rw [hg] at hlen
      match locs, hlen, ma, mb with
      | [c], _, m1, m2 =>
        rw [List.mem_singleton] at m1 m2
        exact hne (m1.trans m2.symm)
    · split at h1
      · cases h1
      · rename_i hany
        apply hany
        rw [hg, List.any_eq_true]
        refine ⟨b, mb, ?_⟩
        rw [(isDist_iff' hz).2 hdz, r2, h2]
        simp
  -- what is in use afterwards
  unfold updateWithSolution at hu
  rcases h1 : applySolution (P.redSolution restr x) (run {} ops) with ⟨t1, e⟩
  rw [h1] at hu
  cases e with
  | some e => simp at hu
  | none =>
  dsimp only at hu
  have inv1 : t1.Inv := by
    have := inv_applySolution (P.redSolution restr x) inv
    rw [h1] at this; exact this
  obtain ⟨a1, -, -, -⟩ := C12_proposed_iff_decided _ _ _ h1
  obtain ⟨-, k2, -, -, -, k6⟩ := removeDisconnected_spec inv1 hu
  have back : ∀ s y', t'.sites.get? s = some y' → (y'.status = .proposed ∨ y'.status = .existing) →
      ∃ y, P.t.sites.get? s = some y ∧ SameSpot y y' ∧ (y.status = .existing ∨ P.redDec restr x s = 1) := by
    intro s y' hy' hst
    cases hy1 : t1.sites.get? s with
    | none => rw [k6 s hy1] at hy'; cases hy'
    | some y1 =>
    have hy11 := hy1
    rw [a1 s, Option.map_eq_some_iff] at hy1
    obtain ⟨y, hy, rfl⟩ := hy1
    obtain ⟨w, hw, c1, c2⟩ := k2 s _ hy11
    rw [hy'] at hw; cases hw
    have hyP : P.t.sites.get? s = some y := hy
    refine ⟨y, hyP, ?_⟩
    have fin : ∀ st, afterDecision y.status ((P.redSolution restr x).site s) = st →
        (st = .proposed ∨ st = .existing) → (y.status = .existing ∨ P.redDec restr x s = 1) := by
      intro st hst' h
      subst hst'
      rw [redSolution_site hyP] at h
      rcases redDec_cases (P := P) (restr := restr) (x := x) s with h0 | h0
      · rw [h0] at h
        left
        revert h
        cases y.status <;> simp [afterDecision]
      · exact .inr h0
    by_cases hc : (afterDecision y.status ((P.redSolution restr x).site s) = .proposed ∨
        afterDecision y.status ((P.redSolution restr x).site s) = .candidate) ∧ ¬ ConnectedActive t1 s ∧
        (∃ k x, t1.sectors.get? k = some x ∧ x.site = s)
    · have := c1 hc.1 hc.2.1 hc.2.2
      rw [this] at hst
      rcases hst with h | h <;> cases h
    · have := c2 hc
      rw [this] at hst ⊢
      exact ⟨⟨rfl, rfl, rfl⟩, fin _ rfl hst⟩
  intro a b y' z' hy' hz' hs' hya hza
  obtain ⟨y, hy, sy, oy⟩ := back a y' hy' hya
  obtain ⟨z, hz, sz, oz⟩ := back b z' hz' hza
  have hs : SameSpot y z :=
    ⟨sy.1.trans (hs'.1.trans sz.1.symm), sy.2.1.trans (hs'.2.1.trans sz.2.1.symm),
      sy.2.2.trans (hs'.2.2.trans sz.2.2.symm)⟩
  have hs2 : SameSpot z y := ⟨hs.1.symm, hs.2.1.symm, hs.2.2.symm⟩
  have dec : ∀ s y, P.t.sites.get? s = some y → y.siteType ≠ .cn →
      (y.status = .existing ∨ P.redDec restr x s = 1) → P.redDec restr x s = 1 :=
    fun s y hy hd h => h.elim (fun h => red_keeps feas hy hd (.inr h)) id
  have act : ∀ s y, P.t.sites.get? s = some y → y.siteType = .cn →
      (y.status = .existing ∨ P.redDec restr x s = 1) → (y.status = .proposed ∨ y.status = .existing) :=
    fun s y hy hc h => h.elim .inr fun h => (selCn s s y y hy hy ⟨rfl, rfl, rfl⟩ hc h).1
  by_cases cy : y.siteType = .cn
  · by_cases cz : z.siteType = .cn
    · exact hone a b y z hy hz hs (act a y hy cy oy) (act b z hz cz oz)
    · rcases oy with oy | oy
      · exact hcn a b y z hy hz hs cy oy
      · exact absurd (dec b z hz cz oz) ((selCn a b y z hy hz hs cy oy).2 cz)
  · by_cases cz : z.siteType = .cn
    · rcases oz with oz | oz
      · exact (hcn b a z y hz hy hs2 cz oz).symm
      · exact absurd (dec a y hy cy oy) ((selCn b a z y hz hy hs2 cz oz).2 cy)
    · exact selDist a b y z hy hz hs cy cz (dec a y hy cy oy) (dec b z hz cz oz)

/-- The demo network with an EXISTING CN where `E` is. -/
def redCnDemo (st : StatusType) : List Op :=
  let c : Site := { id := "F", siteType := .cn, status := st, lat := 3 }
  redDemo ++ [.addSite c false]

def redCnResult (st : StatusType) : Topology :=
  ((updateWithSolution (Plan.redSolution ⟨run {} (redCnDemo st), redDemoParams⟩ none redDemoVars)
    (run {} (redCnDemo st))).getD ({}, none)).1

instance (t : Topology) : Decidable (OnePerLocation t) :=
  decidable_of_iff (∀ a ∈ t.sites.keys, ∀ b ∈ t.sites.keys, ∀ y ∈ t.sites.get? a, ∀ z ∈ t.sites.get? b,
      (y.lon = z.lon ∧ y.lat = z.lat ∧ y.alt = z.alt) → (y.status = .proposed ∨ y.status = .existing) →
      (z.status = .proposed ∨ z.status = .existing) → a = b)
    ⟨fun h a b y z hy hz => h a ((Dict.mem_keys_iff _ _).2 ⟨y, hy⟩) b ((Dict.mem_keys_iff _ _).2 ⟨z, hz⟩) y hy z hz,
      fun h a _ b _ y hy z hz => h a b y z hy hz⟩

instance (t : Topology) (s : SiteId) : Decidable (InUse t s) :=
  decidable_of_iff (∃ y ∈ t.sites.get? s, y.status = .proposed ∨ y.status = .existing) Iff.rfl

instance (t : Topology) : Decidable (LinksOnSitesInUse t) := by
  unfold LinksOnSitesInUse; infer_instance

/-- An EXISTING CN stays in use although the redundancy phase builds a DN at its location. -/
theorem C100_existing_cn_violation :
    ∃ (ops : List Op) (p : OptParams) (r : RedParams) (x : RVars) (t' : Topology),
      (Plan.mk (run {} ops) p).redErr none = none ∧
      (Plan.mk (run {} ops) p).RedFeasible r none x ∧
      updateWithSolution ((Plan.mk (run {} ops) p).redSolution none x) (run {} ops) = some (t', none) ∧
      0 < p.popCapacity ∧ LinksOnSitesInUse (run {} ops) ∧
      OnePerLocation (run {} ops) ∧ ¬ OnePerLocation t' :=
  ⟨redCnDemo .existing, redDemoParams, RedParams.of .medium 2, redDemoVars, redCnResult .existing,
    by decide +kernel, RedCheck.sound (by decide +kernel), by decide +kernel, by decide +kernel,
    by decide +kernel, by decide +kernel, by decide +kernel⟩

/-- The hypotheses of C99 and C100 hold of the demo with a PROPOSED CN where `E` is: the CN gives
way to the DN. -/
example :
    let P : Plan := ⟨run {} (redCnDemo .proposed), redDemoParams⟩
    P.redErr none = none ∧ P.RedFeasible (RedParams.of .medium 2) none redDemoVars ∧
    updateWithSolution (P.redSolution none redDemoVars) P.t = some (redCnResult .proposed, none) ∧
    0 < P.p.popCapacity ∧ LinksOnSitesInUse P.t ∧ OnePerLocation P.t ∧
    (∀ a ∈ P.t.sites.vals, a.siteType = .cn → a.status ≠ .existing) ∧
    P.t.siteStatus "F" = some .proposed ∧ (redCnResult .proposed).siteStatus "F" = some .candidate ∧
    (redCnResult .proposed).siteStatus "E" = some .proposed :=
  ⟨by decide +kernel, RedCheck.sound (by decide +kernel), by decide +kernel, by decide +kernel,
    by decide +kernel, by decide +kernel, by decide +kernel, by decide +kernel, by decide +kernel,
    by decide +kernel⟩

/-- The demo network with an installed DN `Z` that has no links. -/
def isolatedDemo : List Op :=
  let z : Site := { id := "Z", siteType := .dn, status := .existing, lat := 9 }
  redDemo ++ [.addSite z false]

/-- **C102, violation.** The redundancy phase cannot start on a network with an installed DN that has no
usable link to another DN or POP: whatever the link pool, `RedundantNetwork` raises although the
rest of the network could be protected. -/
theorem C102_isolated_dn_violation :
    ∃ (ops : List Op) (p : OptParams), (Plan.mk (run {} ops) p).setupErr = none ∧
      ∀ restr, (Plan.mk (run {} ops) p).redErr restr = some .optimizer := by
  refine ⟨isolatedDemo, redDemoParams, by decide +kernel, fun restr => ?_⟩
  have hset : (Plan.mk (run {} isolatedDemo) redDemoParams).setupErr = none := by decide +kernel
  have hz : "Z" ∈ (Plan.mk (run {} isolatedDemo) redDemoParams).redDns := by decide +kernel
  have hno : ∀ e ∈ (Plan.mk (run {} isolatedDemo) redDemoParams).arcs,
      e.1 ≠ .site "Z" ∧ e.2 ≠ .site "Z" := by decide +kernel
  unfold redErr
  rw [hset]
  dsimp only
  rw [if_neg]
  intro h
  obtain ⟨e, he, h⟩ := redSite_iff.1 (List.all_eq_true.1 h "Z" hz)
  have := hno e (mem_redArcs.1 he).1
  rcases h with h | h
  · exact this.1 h
  · exact this.2 h

end Verif
