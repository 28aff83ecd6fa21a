import Verif.Props.MaxFlow
import Verif.Spec.Redundancy

/-!
# C111: which inputs the setup of the optimization accepts
-/

namespace Verif
open Topology

namespace Spec

/-- The values of the demand points can be used: a demand of at least 0, at least one site each, an oversubscription that
can be divided by, and connections only to sites of the topology. -/
def DemandOk (t : Topology) (oversubscription : ℚ) : Prop :=
  ∀ id d, t.demandSites.get? id = some d → (∃ q, d.demand = some q ∧ 0 ≤ q) ∧ 1 ≤ d.numSites ∧ oversubscription ≠ 0 ∧
    ∀ s ∈ d.connected, ∃ x, t.sites.get? s = some x

/-- No link goes from a site to itself. -/
def NoLoopLink (t : Topology) : Prop := ∀ k l, t.links.get? k = some l → l.tx ≠ l.rx

/-- Some POP can send: to a site, or directly to a demand point; in the latter case links to demand points are as wide as
the widest link of the topology, or as a POP if there are no links. -/
def PopSends (t : Topology) (popCapacity : ℚ) : Prop :=
  ∃ s, IsPop t s ∧ ((∃ k l, t.links.get? k = some l ∧ l.tx = s ∧ 0 < l.capacity) ∨
    ((∃ id d, t.demandSites.get? id = some d ∧ s ∈ d.connected) ∧
      ((∃ k l, t.links.get? k = some l ∧ 0 < l.capacity) ∨ ((∀ k, t.links.get? k = none) ∧ 0 < popCapacity))))

/-- Some site that a demand point is connected to can receive, or is a POP with capacity. -/
def DemandReceives (t : Topology) (popCapacity : ℚ) : Prop :=
  ∃ id d s, t.demandSites.get? id = some d ∧ s ∈ d.connected ∧
    ((∃ k l, t.links.get? k = some l ∧ l.rx = s ∧ 0 < l.capacity) ∨ (IsPop t s ∧ 0 < popCapacity))

end Spec
open Spec

theorem sum_pos_of {α : Type} {L : List α} {f : α → ℚ} (h : ∀ a ∈ L, 0 ≤ f a) :
    0 < (L.map f).sum ↔ ∃ a ∈ L, 0 < f a := by
  induction L with
  | nil => simp
  | cons a L ih =>
    have ha := h a (by simp)
    have hL := fun b hb => h b (List.mem_cons_of_mem a hb)
    have h0 : 0 ≤ (L.map f).sum := by
      apply List.sum_nonneg
      intro y hy
      obtain ⟨b, hb, rfl⟩ := List.mem_map.1 hy
      exact hL b hb
    rw [List.map_cons, List.sum_cons]
    constructor
    · intro hs
      by_cases c : 0 < f a
      · exact ⟨a, by simp, c⟩
      · have : 0 < (L.map f).sum := by linarith
        obtain ⟨b, hb, hb0⟩ := (ih hL).1 this
        exact ⟨b, by simp [hb], hb0⟩
    · rintro ⟨b, hb, hb0⟩
      rcases List.mem_cons.1 hb with rfl | hb
      · linarith
      · have := (ih hL).2 ⟨b, hb, hb0⟩
        linarith

namespace Plan
variable {P : Plan}

theorem link_vals (inv : P.t.Inv) {l : Link} : l ∈ P.t.links.vals ↔ ∃ k, P.t.links.get? k = some l := by
  unfold Dict.vals
  rw [List.mem_map]
  constructor
  · rintro ⟨e, he, rfl⟩; exact ⟨e.1, (Dict.mem_iff_get? inv.nd_links _ _).1 he⟩
  · rintro ⟨k, hk⟩; exact ⟨(k, l), (Dict.mem_iff_get? inv.nd_links _ _).2 hk, rfl⟩

theorem maxLinkCap_nonneg (inv : P.t.Inv) (hc : ∀ k l, P.t.links.get? k = some l → 0 ≤ l.capacity)
    (hp : 0 ≤ P.p.popCapacity) : 0 ≤ P.maxLinkCap := by
  unfold maxLinkCap
  split_ifs with c
  · exact hp
  · have hne : P.t.links.vals.map (·.capacity) ≠ [] := by
      unfold Dict.vals; simpa using c
    obtain ⟨l, hl, e⟩ := List.mem_map.1 (listMax_mem hne)
    rw [← e]
    obtain ⟨k, hk⟩ := (link_vals inv).1 hl
    exact hc k l hk

theorem maxLinkCap_pos (inv : P.t.Inv) : 0 < P.maxLinkCap ↔
    (∃ k l, P.t.links.get? k = some l ∧ 0 < l.capacity) ∨ ((∀ k, P.t.links.get? k = none) ∧ 0 < P.p.popCapacity) := by
  unfold maxLinkCap
  split_ifs with c
  · rw [c]
    constructor
    · intro h; exact Or.inr ⟨fun _ => rfl, h⟩
    · rintro (⟨k, l, h, -⟩ | ⟨-, h⟩)
      · cases h
      · exact h
  · have hne : P.t.links.vals.map (·.capacity) ≠ [] := by
      unfold Dict.vals; simpa using c
    constructor
    · intro h
      obtain ⟨l, hl, e⟩ := List.mem_map.1 (listMax_mem hne)
      obtain ⟨k, hk⟩ := (link_vals inv).1 hl
      exact Or.inl ⟨k, l, hk, by rw [e]; exact h⟩
    · rintro (⟨k, l, h, h0⟩ | ⟨h, -⟩)
      · exact lt_of_lt_of_le h0 (le_listMax (List.mem_map.2 ⟨l, (link_vals inv).2 ⟨k, h⟩, rfl⟩))
      · exfalso
        obtain ⟨e, he⟩ := List.exists_mem_of_ne_nil _ c
        have := (Dict.mem_iff_get? inv.nd_links e.1 e.2).1 he
        rw [h] at this; cases this

theorem cap_nonneg (inv : P.t.Inv) (hc : ∀ k l, P.t.links.get? k = some l → 0 ≤ l.capacity)
    (hp : 0 ≤ P.p.popCapacity) {e : Arc} (he : e ∈ P.arcs) : 0 ≤ P.cap e := by
  rcases mem_arcs.1 he with ⟨s, x, -, -, rfl⟩ | ⟨id, d, k, s, -, -, -, rfl⟩ | ⟨l, hl, rfl⟩
  · rw [cap_source he]; exact hp
  · rw [cap_demand he]; exact maxLinkCap_nonneg inv hc hp
  · rw [show P.cap (.site l.tx, .site l.rx) = l.capacity from cap_arcOf inv hl]
    obtain ⟨k, hk⟩ := (link_vals inv).1 hl
    exact hc k l hk

theorem sends_iff (inv : P.t.Inv) (hc : ∀ k l, P.t.links.get? k = some l → 0 ≤ l.capacity)
    (hp : 0 ≤ P.p.popCapacity) (hn : ∀ id d, P.t.demandSites.get? id = some d → 1 ≤ d.numSites) (s : SiteId) :
    0 < ((P.outgoing (.site s)).map P.cap).sum ↔ (∃ k l, P.t.links.get? k = some l ∧ l.tx = s ∧ 0 < l.capacity) ∨
    ((∃ id d, P.t.demandSites.get? id = some d ∧ s ∈ d.connected) ∧
      ((∃ k l, P.t.links.get? k = some l ∧ 0 < l.capacity) ∨ ((∀ k, P.t.links.get? k = none) ∧ 0 < P.p.popCapacity))) := by
  rw [sum_pos_of (f := P.cap) (L := P.outgoing (.site s))
    (fun e he => cap_nonneg inv hc hp (List.mem_filter.1 he).1), ← maxLinkCap_pos inv]
  unfold outgoing
  constructor
  · rintro ⟨e, he, h0⟩
    obtain ⟨ha, h1⟩ := List.mem_filter.1 he
    simp only [decide_eq_true_eq] at h1
    rcases mem_arcs.1 ha with ⟨s', x, -, -, rfl⟩ | ⟨id, d, k, s', hd, -, hs, rfl⟩ | ⟨l, hl, rfl⟩
    · cases h1
    · injection h1 with h1; subst h1
      rw [cap_demand ha] at h0
      exact Or.inr ⟨⟨id, d, (Dict.mem_iff_get? inv.nd_demand _ _).1 hd, hs⟩, h0⟩
    · injection h1 with h1
      rw [show P.cap (.site l.tx, .site l.rx) = l.capacity from cap_arcOf inv hl] at h0
      obtain ⟨k, hk⟩ := (link_vals inv).1 hl
      exact Or.inl ⟨k, l, hk, h1, h0⟩
  · rintro (⟨k, l, hk, rfl, h0⟩ | ⟨⟨id, d, hd, hs⟩, h0⟩)
    · have hl := (link_vals inv).2 ⟨k, hk⟩
      refine ⟨(.site l.tx, .site l.rx), List.mem_filter.2 ⟨arcOf_mem hl, by simp⟩, ?_⟩
      rw [show P.cap (.site l.tx, .site l.rx) = l.capacity from cap_arcOf inv hl]
      exact h0
    · have ha : (Loc.site s, Loc.demand id 0) ∈ P.arcs := mem_arcs.2 (Or.inr (Or.inl
        ⟨id, d, 0, s, (Dict.mem_iff_get? inv.nd_demand _ _).2 hd, hn id d hd, hs, rfl⟩))
      exact ⟨_, List.mem_filter.2 ⟨ha, by simp⟩, by rw [cap_demand ha]; exact h0⟩

theorem receives_iff (inv : P.t.Inv) (hc : ∀ k l, P.t.links.get? k = some l → 0 ≤ l.capacity)
    (hp : 0 ≤ P.p.popCapacity) (s : SiteId) :
    0 < ((P.incoming (.site s)).map P.cap).sum ↔
    (∃ k l, P.t.links.get? k = some l ∧ l.rx = s ∧ 0 < l.capacity) ∨ (IsPop P.t s ∧ 0 < P.p.popCapacity) := by
  rw [sum_pos_of (f := P.cap) (L := P.incoming (.site s))
    (fun e he => cap_nonneg inv hc hp (List.mem_filter.1 he).1)]
  unfold incoming
  constructor
  · rintro ⟨e, he, h0⟩
    obtain ⟨ha, h1⟩ := List.mem_filter.1 he
    simp only [decide_eq_true_eq] at h1
    rcases mem_arcs.1 ha with ⟨s', x, hx, hxt, rfl⟩ | ⟨id, d, k, s', hd, -, hs, rfl⟩ | ⟨l, hl, rfl⟩
    · injection h1 with h1; subst h1
      rw [cap_source ha] at h0
      exact Or.inr ⟨⟨x, (Dict.mem_iff_get? inv.nd_sites _ _).1 hx, hxt⟩, h0⟩
    · cases h1
    · injection h1 with h1
      rw [show P.cap (.site l.tx, .site l.rx) = l.capacity from cap_arcOf inv hl] at h0
      obtain ⟨k, hk⟩ := (link_vals inv).1 hl
      exact Or.inl ⟨k, l, hk, h1, h0⟩
  · rintro (⟨k, l, hk, rfl, h0⟩ | ⟨⟨x, hx, hxt⟩, h0⟩)
    · have hl := (link_vals inv).2 ⟨k, hk⟩
      refine ⟨(.site l.tx, .site l.rx), List.mem_filter.2 ⟨arcOf_mem hl, by simp⟩, ?_⟩
      rw [show P.cap (.site l.tx, .site l.rx) = l.capacity from cap_arcOf inv hl]
      exact h0
    · have ha : (Loc.source, Loc.site s) ∈ P.arcs := mem_arcs.2 (Or.inl
        ⟨s, x, (Dict.mem_iff_get? inv.nd_sites _ _).2 hx, hxt, rfl⟩)
      exact ⟨_, List.mem_filter.2 ⟨ha, by simp⟩, by rw [cap_source ha]; exact h0⟩

theorem dem_vals (inv : P.t.Inv) {d : DemandSite} :
    d ∈ P.t.demandSites.vals ↔ ∃ k, P.t.demandSites.get? k = some d := by
  unfold Dict.vals
  rw [List.mem_map]
  constructor
  · rintro ⟨e, he, rfl⟩; exact ⟨e.1, (Dict.mem_iff_get? inv.nd_demand _ _).1 he⟩
  · rintro ⟨k, hk⟩; exact ⟨(k, d), (Dict.mem_iff_get? inv.nd_demand _ _).2 hk, rfl⟩

theorem demandErr_none {d : DemandSite} : P.demandErr d = none ↔
    (∃ q, d.demand = some q ∧ 0 ≤ q) ∧ 1 ≤ d.numSites ∧ P.p.oversubscription ≠ 0 := by
  unfold demandErr
  rcases d.demand with _ | q
  · simp
  · dsimp only
    split_ifs with c1 c2 c3
    · simp [c1]
    · simp only [reduceCtorEq, false_iff]
      rintro ⟨-, h, -⟩; omega
    · simp [c3]
    · simp only [Option.some.injEq, exists_eq_left', true_iff]
      exact ⟨not_lt.1 c1, by omega, c3⟩

/-- The checks before the two about capacities. -/
theorem ends_iff (inv : P.t.Inv) (hn : ∀ id d, P.t.demandSites.get? id = some d → 1 ≤ d.numSites) :
    (P.arcs.any (fun e => !(P.locations.contains e.1 && P.locations.contains e.2)) = false) ↔
    ∀ id d, P.t.demandSites.get? id = some d → ∀ s ∈ d.connected, ∃ x, P.t.sites.get? s = some x := by
  have hsite : ∀ s, Loc.site s ∈ P.locations ↔ ∃ x, P.t.sites.get? s = some x := by
    intro s
    rw [mem_locations]
    constructor
    · rintro (h | ⟨s', h, e⟩ | h)
      · cases h
      · injection e with e; subst e; exact (Dict.mem_keys_iff _ _).1 h
      · obtain ⟨_, _, _, _, _, h⟩ := mem_demands.1 h; cases h
    · intro h; exact Or.inr (Or.inl ⟨s, (Dict.mem_keys_iff _ _).2 h, rfl⟩)
  rw [List.any_eq_false]
  constructor
  · intro h id d hd s hs
    have ha : (Loc.site s, Loc.demand id 0) ∈ P.arcs := mem_arcs.2 (Or.inr (Or.inl
        ⟨id, d, 0, s, (Dict.mem_iff_get? inv.nd_demand _ _).2 hd, hn id d hd, hs, rfl⟩))
    have := h _ ha
    simp only [Bool.not_eq_true', Bool.not_eq_false, Bool.and_eq_true, List.contains_iff_mem] at this
    exact (hsite s).1 this.1
  · intro h e he
    simp only [Bool.not_eq_true', Bool.not_eq_false, Bool.and_eq_true, List.contains_iff_mem]
    rcases mem_arcs.1 he with ⟨s', x, hx, hxt, rfl⟩ | ⟨id, d, k, s', hd, hk, hs, rfl⟩ | ⟨l, hl, rfl⟩
    · exact ⟨mem_locations.2 (Or.inl rfl), (hsite _).2 ⟨x, (Dict.mem_iff_get? inv.nd_sites _ _).1 hx⟩⟩
    · exact ⟨(hsite _).2 (h id d ((Dict.mem_iff_get? inv.nd_demand _ _).1 hd) _ hs),
        mem_locations.2 (Or.inr (Or.inr (mem_demands.2 ⟨id, d, k, hd, hk, rfl⟩)))⟩
    · obtain ⟨k, hk⟩ := (link_vals inv).1 hl
      exact ⟨(hsite _).2 (inv.link_tx _ _ hk), (hsite _).2 (inv.link_rx _ _ hk)⟩

theorem setup_iff (inv : P.t.Inv) (hc : ∀ k l, P.t.links.get? k = some l → 0 ≤ l.capacity) (hp : 0 ≤ P.p.popCapacity) :
    (P.setupErr = none ↔ P.t.validateStatus = none ∧ DemandOk P.t P.p.oversubscription ∧ NoLoopLink P.t ∧
      PopSends P.t P.p.popCapacity ∧ DemandReceives P.t P.p.popCapacity) ∧
    (P.t.validateStatus = none → DemandOk P.t P.p.oversubscription → NoLoopLink P.t →
      ¬ (PopSends P.t P.p.popCapacity ∧ DemandReceives P.t P.p.popCapacity) → P.setupErr = some .optimizer) := by
  classical
  have hdem : P.t.demandSites.vals.findSome? P.demandErr = none ↔ ∀ id d, P.t.demandSites.get? id = some d →
      (∃ q, d.demand = some q ∧ 0 ≤ q) ∧ 1 ≤ d.numSites ∧ P.p.oversubscription ≠ 0 := by
    rw [List.findSome?_eq_none_iff]
    constructor
    · intro h id d hd; exact demandErr_none.1 (h d ((dem_vals inv).2 ⟨id, hd⟩))
    · intro h d hd
      obtain ⟨id, hd⟩ := (dem_vals inv).1 hd
      exact demandErr_none.2 (h id d hd)
  have hself : P.t.links.vals.any (fun l => l.tx == l.rx) = false ↔ NoLoopLink P.t := by
    rw [List.any_eq_false]
    constructor
    · intro h k l hk e; exact h l ((link_vals inv).2 ⟨k, hk⟩) (by simpa using e)
    · intro h l hl e
      obtain ⟨k, hk⟩ := (link_vals inv).1 hl
      exact h k l hk (by simpa using e)
  have hpop : ∀ hn : (∀ id d, P.t.demandSites.get? id = some d → 1 ≤ d.numSites),
      (P.t.popIds (fun _ => true)).any (fun s => ((P.outgoing (.site s)).map P.cap).sum > 0) = true ↔
      PopSends P.t P.p.popCapacity := by
    intro hn
    rw [List.any_eq_true]
    unfold PopSends
    refine exists_congr fun s => ?_
    rw [decide_eq_true_eq, gt_iff_lt, sends_iff inv hc hp hn]
    refine and_congr ?_ Iff.rfl
    unfold popIds IsPop
    simp only [List.mem_map, List.mem_filter, Bool.true_and, beq_iff_eq]
    constructor
    · rintro ⟨e, ⟨he, ht⟩, rfl⟩; exact ⟨e.2, (Dict.mem_iff_get? inv.nd_sites _ _).1 he, ht⟩
    · rintro ⟨x, hx, ht⟩; exact ⟨(s, x), ⟨(Dict.mem_iff_get? inv.nd_sites _ _).2 hx, ht⟩, rfl⟩
  have hrec : P.t.demandSites.vals.any (fun d => d.connected.any
        (fun s => ((P.incoming (.site s)).map P.cap).sum > 0)) = true ↔ DemandReceives P.t P.p.popCapacity := by
    unfold DemandReceives
    simp only [List.any_eq_true, decide_eq_true_eq, gt_iff_lt, receives_iff inv hc hp, dem_vals inv]
    constructor
    · rintro ⟨d, ⟨id, hd⟩, s, hs, h⟩; exact ⟨id, d, s, hd, hs, h⟩
    · rintro ⟨id, d, s, hd, hs, h⟩; exact ⟨d, ⟨id, hd⟩, s, hs, h⟩
  have key : P.t.validateStatus = none → DemandOk P.t P.p.oversubscription → NoLoopLink P.t →
      P.setupErr = if PopSends P.t P.p.popCapacity ∧ DemandReceives P.t P.p.popCapacity then none else some .optimizer := by
    intro h1 h2 h3
    have hn : ∀ id d, P.t.demandSites.get? id = some d → 1 ≤ d.numSites := fun id d hd => (h2 id d hd).2.1
    unfold setupErr
    rw [h1, hdem.2 (fun id d hd => ⟨(h2 id d hd).1, (h2 id d hd).2.1, (h2 id d hd).2.2.1⟩), hself.2 h3,
      (ends_iff inv hn).2 (fun id d hd => (h2 id d hd).2.2.2)]
    simp only [Option.isSome_none, Bool.false_eq_true, if_false]
    have e1 := hpop hn
    by_cases c1 : PopSends P.t P.p.popCapacity
    · by_cases c2 : DemandReceives P.t P.p.popCapacity
      · rw [hrec.2 c2, e1.2 c1]; simp [c1, c2]
      · rw [Bool.eq_false_iff.2 (fun h => c2 (hrec.1 h)), e1.2 c1]; simp [c1, c2]
    · rw [Bool.eq_false_iff.2 (fun h => c1 (e1.1 h))]; simp [c1]
  refine ⟨⟨fun h => ?_, fun ⟨h1, h2, h3, h4, h5⟩ => by rw [key h1 h2 h3, if_pos ⟨h4, h5⟩]⟩,
    fun h1 h2 h3 h => by rw [key h1 h2 h3, if_neg h]⟩
  have h1 := (ready h).valid
  have h2 : DemandOk P.t P.p.oversubscription := by
    unfold setupErr at h
    rw [h1] at h
    simp only [Option.isSome_none, Bool.false_eq_true, if_false] at h
    rcases hf : P.t.demandSites.vals.findSome? P.demandErr with _ | e
    · have hd := hdem.1 hf
      rw [hf] at h
      dsimp only at h
      split_ifs at h with c1 c2
      have := (ends_iff inv (fun id d hi => (hd id d hi).2.1)).1 (by simpa using c2)
      exact fun id d hi => ⟨(hd id d hi).1, (hd id d hi).2.1, (hd id d hi).2.2, this id d hi⟩
    · rw [hf] at h; simp at h
  have h3 : NoLoopLink P.t := fun k l hk => (ready h).noLoop l ((link_vals inv).2 ⟨k, hk⟩)
  by_contra c
  rw [key h1 h2 h3, if_neg (fun g => c ⟨h1, h2, h3, g.1, g.2⟩)] at h
  cases h

end Plan

/-- C111: with capacities of at least 0, an optimization problem is set up exactly if the statuses are valid (C76), the
demand points are usable, no link goes from a site to itself, some POP can send and some site with demand can receive. If
only one of the last two is missing, `OptimizerException` is raised. -/
theorem C111_setup (ops : List Op) (p : OptParams) (hp : 0 ≤ p.popCapacity)
    (hc : ∀ k l, (run {} ops).links.get? k = some l → 0 ≤ l.capacity) :
    ((Plan.mk (run {} ops) p).setupErr = none ↔ (run {} ops).validateStatus = none ∧
      DemandOk (run {} ops) p.oversubscription ∧ NoLoopLink (run {} ops) ∧
      PopSends (run {} ops) p.popCapacity ∧ DemandReceives (run {} ops) p.popCapacity) ∧
    ((run {} ops).validateStatus = none → DemandOk (run {} ops) p.oversubscription → NoLoopLink (run {} ops) →
      ¬ (PopSends (run {} ops) p.popCapacity ∧ DemandReceives (run {} ops) p.popCapacity) →
      (Plan.mk (run {} ops) p).setupErr = some .optimizer) :=
  Plan.setup_iff (P := ⟨run {} ops, p⟩) (Inv.empty.run ops) hc hp

/-- The hypotheses of C111: a POP with a link to a CN with demand is accepted; without the link, or with the link the
other way, it is not. -/
example :
    let site (i : SiteId) (ty : SiteType) : Op := .addSite { id := i, siteType := ty, status := .candidate } false
    let link (a b : SiteId) : Op := .addLink { tx := a, rx := b, capacity := 2 }
    let d : Op := .addDemandSite { id := "d", connected := ["C"], demand := some 1 }
    let err (ops : List Op) := (Plan.mk (run {} ops) { popCapacity := 1, costs := ⟨0, 0, 0⟩ }).setupErr
    let ops := [site "P" .pop, site "C" .cn, d, link "P" "C"]
    err ops = none ∧ (∀ e ∈ (run {} ops).links, 0 ≤ e.2.capacity) ∧
    err [site "P" .pop, site "C" .cn, d] = some .optimizer ∧
    err [site "P" .pop, site "C" .cn, site "D" .dn, d, link "D" "C"] = some .optimizer ∧
    err [site "P" .pop, site "D" .dn, site "C" .cn, d, link "P" "D", link "D" "P"] = some .optimizer := by
  decide +kernel

end Verif
