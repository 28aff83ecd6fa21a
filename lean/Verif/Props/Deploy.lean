import Verif.Model.Angles
import Verif.Spec.Deploy
import Verif.Lemmas.Topology
import Verif.Props.PopCapacity

/-! # C55, C75: deployment rule violations -/

namespace Verif
namespace Topology
open Spec

/-! ## Pairs -/

theorem mem_combos {α : Type} {L : List α} {p : α × α} (h : p ∈ combos L) : p.1 ∈ L ∧ p.2 ∈ L := by
  induction L with
  | nil => cases h
  | cons x xs ih =>
    unfold combos at h
    rcases List.mem_append.1 h with h | h
    · obtain ⟨y, hy, rfl⟩ := List.mem_map.1 h
      exact ⟨List.mem_cons_self, List.mem_cons_of_mem _ hy⟩
    · exact ⟨List.mem_cons_of_mem _ (ih h).1, List.mem_cons_of_mem _ (ih h).2⟩

theorem combos_ne {α : Type} {L : List α} (hn : L.Nodup) {p : α × α} (h : p ∈ combos L) :
    p.1 ≠ p.2 := by
  induction L with
  | nil => cases h
  | cons x xs ih =>
    rw [List.nodup_cons] at hn
    unfold combos at h
    rcases List.mem_append.1 h with h | h
    · obtain ⟨y, hy, rfl⟩ := List.mem_map.1 h
      dsimp only
      intro c
      exact hn.1 (c ▸ hy)
    · exact ih hn.2 h

theorem combos_asymm {α : Type} {L : List α} (hn : L.Nodup) {a b : α} (h : (a, b) ∈ combos L) :
    (b, a) ∉ combos L := by
  induction L with
  | nil => cases h
  | cons x xs ih =>
    rw [List.nodup_cons] at hn
    unfold combos at h ⊢
    intro h2
    rcases List.mem_append.1 h with h1 | h1
    · obtain ⟨y, hy, e⟩ := List.mem_map.1 h1
      cases e
      rcases List.mem_append.1 h2 with h2 | h2
      · obtain ⟨z, hz, e⟩ := List.mem_map.1 h2
        cases e
        exact hn.1 hz
      · have := (mem_combos h2).2
        exact hn.1 this
    · rcases List.mem_append.1 h2 with h2 | h2
      · obtain ⟨z, hz, e⟩ := List.mem_map.1 h2
        cases e
        have := (mem_combos h1).2
        exact hn.1 this
      · exact ih hn.2 h1 h2

theorem combos_nodup {α : Type} {L : List α} (hn : L.Nodup) : (combos L).Nodup := by
  induction L with
  | nil => exact List.nodup_nil
  | cons x xs ih =>
    rw [List.nodup_cons] at hn
    unfold combos
    rw [List.nodup_append]
    refine ⟨hn.2.map (fun a b h => (Prod.mk.inj h).2), ih hn.2, ?_⟩
    intro p hp q hq e
    obtain ⟨y, _, rfl⟩ := List.mem_map.1 hp
    rw [← e] at hq
    exact hn.1 (mem_combos hq).1

theorem combos_total {α : Type} {L : List α} {a b : α} (ha : a ∈ L) (hb : b ∈ L) (hne : a ≠ b) :
    (a, b) ∈ combos L ∨ (b, a) ∈ combos L := by
  induction L with
  | nil => cases ha
  | cons x xs ih =>
    unfold combos
    rcases List.mem_cons.1 ha with rfl | ha'
    · rcases List.mem_cons.1 hb with rfl | hb'
      · exact absurd rfl hne
      · exact Or.inl (List.mem_append_left _ (List.mem_map.2 ⟨b, hb', rfl⟩))
    · rcases List.mem_cons.1 hb with rfl | hb'
      · exact Or.inr (List.mem_append_left _ (List.mem_map.2 ⟨a, ha', rfl⟩))
      · exact (ih ha' hb').imp (List.mem_append_right _) (List.mem_append_right _)

/-! ## C55 -/

theorem mem_link_vals {t : Topology} (inv : t.Inv) (l : Link) :
    l ∈ t.links.vals ↔ t.links.get? ⟨l.tx, l.rx⟩ = some l := by
  unfold Dict.vals
  rw [List.mem_map]
  constructor
  · rintro ⟨⟨k, v⟩, hm, rfl⟩
    have := (Dict.mem_iff_get? inv.nd_links k v).1 hm
    rw [← inv.link_id _ _ this]
    exact this
  · intro h
    exact ⟨_, (Dict.mem_iff_get? inv.nd_links _ _).2 h, rfl⟩

theorem mem_adjacency {t : Topology} (inv : t.Inv) (active : Bool) (s : SiteId) (l : Link) :
    l ∈ t.adjacency active s ↔ l.tx = s ∧ LinkInScope t active s l.rx l := by
  unfold adjacency LinkInScope
  rw [List.mem_filter, mem_link_vals inv]
  simp only [Bool.and_eq_true, beq_iff_eq, Bool.or_eq_true, Bool.not_eq_true']
  constructor
  · rintro ⟨h1, ⟨h2, h3⟩, rfl⟩
    refine ⟨rfl, h1, h2, fun c => ?_⟩
    rcases h3 with h3 | h3
    · rw [c] at h3; cases h3
    · exact h3
  · rintro ⟨rfl, h1, h2, h3⟩
    refine ⟨h1, ⟨h2, ?_⟩, rfl⟩
    cases active with
    | false => exact Or.inl rfl
    | true => exact Or.inr (h3 rfl)

theorem adjacency_nodup {t : Topology} (inv : t.Inv) (active : Bool) (s : SiteId) :
    (t.adjacency active s).Nodup :=
  (Dict.nodup_vals_of_inj inv.nd_links Link.id inv.link_id).filter _

/-- All pairs visited by the double loop. -/
def angPairs (t : Topology) (active : Bool) : List (Link × Link) :=
  t.sites.keys.flatMap (fun s => combos (t.adjacency active s))

/-- The triple recorded for a pair. -/
def triple (p : Link × Link) : Triple := ⟨p.1.tx, min p.1.rx p.2.rx, max p.1.rx p.2.rx⟩

theorem angPairs_nodup {t : Topology} (inv : t.Inv) (active : Bool) : (t.angPairs active).Nodup := by
  unfold angPairs
  rw [List.nodup_flatMap]
  refine ⟨fun s _ => combos_nodup (adjacency_nodup inv active s), ?_⟩
  have hn : t.sites.keys.Nodup := inv.nd_sites
  refine List.Pairwise.imp ?_ hn
  intro a b hab p hp hq
  have h1 := ((mem_adjacency inv active a _).1 (mem_combos hp).1).1
  have h2 := ((mem_adjacency inv active b _).1 (mem_combos hq).1).1
  exact hab (h1.symm.trans h2)

theorem mem_angPairs {t : Topology} {active : Bool} {p : Link × Link} :
    p ∈ t.angPairs active ↔ ∃ s, s ∈ t.sites.keys ∧ p ∈ combos (t.adjacency active s) := by
  unfold angPairs
  rw [List.mem_flatMap]

theorem link_ext {t : Topology} {a b : SiteId} {active : Bool} {l l' : Link}
    (h : LinkInScope t active a b l) (h' : LinkInScope t active a b l') : l = l' := by
  have := h.1.symm.trans h'.1
  exact Option.some.inj this

theorem triple_inj {t : Topology} (inv : t.Inv) (active : Bool) {p q : Link × Link}
    (hp : p ∈ t.angPairs active) (hq : q ∈ t.angPairs active) (h : triple p = triple q) : p = q := by
  obtain ⟨s, _, hp⟩ := mem_angPairs.1 hp
  obtain ⟨s', _, hq⟩ := mem_angPairs.1 hq
  obtain ⟨p1, p2⟩ := p
  obtain ⟨q1, q2⟩ := q
  obtain ⟨a1, b1⟩ := (mem_adjacency inv active s _).1 (mem_combos hp).1
  obtain ⟨a2, b2⟩ := (mem_adjacency inv active s _).1 (mem_combos hp).2
  obtain ⟨a3, b3⟩ := (mem_adjacency inv active s' _).1 (mem_combos hq).1
  obtain ⟨a4, b4⟩ := (mem_adjacency inv active s' _).1 (mem_combos hq).2
  unfold triple at h
  dsimp only at *
  rw [Triple.mk.injEq] at h
  obtain ⟨e1, e2, e3⟩ := h
  have hss : s = s' := by rw [← a1, ← a3]; exact e1
  subst hss
  have hcases : (p1.rx = q1.rx ∧ p2.rx = q2.rx) ∨ (p1.rx = q2.rx ∧ p2.rx = q1.rx) := by
    rcases le_total p1.rx p2.rx with c | c <;> rcases le_total q1.rx q2.rx with d | d
    · rw [min_eq_left c, min_eq_left d] at e2
      rw [max_eq_right c, max_eq_right d] at e3
      exact Or.inl ⟨e2, e3⟩
    · rw [min_eq_left c, min_eq_right d] at e2
      rw [max_eq_right c, max_eq_left d] at e3
      exact Or.inr ⟨e2, e3⟩
    · rw [min_eq_right c, min_eq_left d] at e2
      rw [max_eq_left c, max_eq_right d] at e3
      exact Or.inr ⟨e3, e2⟩
    · rw [min_eq_right c, min_eq_right d] at e2
      rw [max_eq_left c, max_eq_left d] at e3
      exact Or.inl ⟨e3, e2⟩
  rcases hcases with ⟨c, d⟩ | ⟨c, d⟩
  · rw [c] at b1
    rw [d] at b2
    rw [link_ext b1 b3, link_ext b2 b4]
  · rw [c] at b1
    rw [d] at b2
    have f1 := link_ext b1 b4
    have f2 := link_ext b2 b3
    rw [f1, f2] at hp
    exact absurd hq (combos_asymm (adjacency_nodup inv active s) hp)

/-- Whether `clashing` answers yes. -/
def clashB (t : Topology) (active : Bool) (p : Link × Link) : Bool :=
  match t.clashing active p.1 p.2 with
  | .ok c => c
  | .error _ => false

/-- Pair recorded in the first list. -/
def inDiff (t : Topology) (lim : AngleLimits) (active : Bool)
    (angle : SiteId → SiteId → SiteId → ℚ × ℚ) (p : Link × Link) : Bool :=
  t.clashB active p && decide ((angle p.1.tx p.1.rx p.2.rx).1 ≤ lim.diffSector)

/-- Pair recorded in the second list. -/
def inNear (t : Topology) (lim : AngleLimits) (active : Bool)
    (angle : SiteId → SiteId → SiteId → ℚ × ℚ) (p : Link × Link) : Bool :=
  t.clashB active p && (!decide ((angle p.1.tx p.1.rx p.2.rx).1 ≤ lim.diffSector) &&
    decide ((angle p.1.tx p.1.rx p.2.rx).1 ≤ lim.nearFar ∧
      (angle p.1.tx p.1.rx p.2.rx).2 ≥ lim.ratio))

/-- The fold collects the triples of the offending pairs in order. -/
theorem angle_fold {t : Topology} {lim : AngleLimits} {active : Bool}
    {angle : SiteId → SiteId → SiteId → ℚ × ℚ} :
    ∀ (P : List (Link × Link)) (acc r : List Triple × List Triple),
      P.foldlM (t.angleStep lim active angle) acc = .ok r →
      (∀ p ∈ P, ∃ c, t.clashing active p.1 p.2 = .ok c) ∧
      r = (acc.1 ++ (P.filter (t.inDiff lim active angle)).map triple,
        acc.2 ++ (P.filter (t.inNear lim active angle)).map triple) := by
  intro P
  induction P with
  | nil =>
    intro acc r h
    rw [List.foldlM_nil] at h
    cases h
    exact ⟨fun p hp => (by cases hp), by simp⟩
  | cons p P ih =>
    intro acc r h
    rw [List.foldlM_cons] at h
    cases hc : t.clashing active p.1 p.2 with
    | error e =>
      unfold angleStep at h
      rw [hc] at h
      cases h
    | ok c =>
      have hcb : t.clashB active p = c := by unfold clashB; rw [hc]
      have hstep : t.angleStep lim active angle acc p = .ok
          (acc.1 ++ (if t.inDiff lim active angle p then [triple p] else []),
           acc.2 ++ (if t.inNear lim active angle p then [triple p] else [])) := by
        unfold angleStep inDiff inNear triple
        rw [hc, hcb]
        cases c with
        | false => simp
        | true =>
          by_cases c1 : (angle p.1.tx p.1.rx p.2.rx).1 ≤ lim.diffSector
          · simp [c1]
          · by_cases c2 : (angle p.1.tx p.1.rx p.2.rx).1 ≤ lim.nearFar ∧
              (angle p.1.tx p.1.rx p.2.rx).2 ≥ lim.ratio
            · simp [c1, c2]
            · simp only [c1, c2, if_false, if_true, decide_false, Bool.and_false, Bool.false_eq_true,
                List.append_nil, Bool.not_false, Bool.true_and]
      rw [hstep] at h
      obtain ⟨h1, h2⟩ := ih _ r h
      refine ⟨?_, ?_⟩
      · intro q hq
        rcases List.mem_cons.1 hq with rfl | hq
        · exact ⟨c, hc⟩
        · exact h1 q hq
      · rw [h2, List.filter_cons, List.filter_cons]
        by_cases c1 : t.inDiff lim active angle p = true <;>
          by_cases c2 : t.inNear lim active angle p = true <;> simp [c1, c2]

theorem clashing_iff {t : Topology} {active : Bool} {l1 l2 : Link} {c : Bool}
    (h : t.clashing active l1 l2 = .ok c) : c = true ↔ SectorsClash t active l1 l2 := by
  unfold clashing at h
  unfold SectorsClash
  by_cases e : l1.sectors.map Prod.fst = l2.sectors.map Prod.fst
  · rw [if_pos e] at h
    cases h
    simp [e]
  · rw [if_neg e] at h
    cases active with
    | false =>
      cases h
      simp [e]
    | true =>
      simp only [if_true] at h
      cases h1 : l1.sectors with
      | none => rw [h1] at h; cases h
      | some p1 =>
        cases h2 : l2.sectors with
        | none =>
          rw [h1, h2] at h
          simp only [Option.bind_some, Option.bind_none] at h
          split at h <;> simp_all
        | some p2 =>
          rw [h1, h2] at h
          simp only [Option.bind_some] at h
          cases g1 : t.sectors.get? p1.1 with
          | none => rw [g1] at h; cases h
          | some s1 =>
            cases g2 : t.sectors.get? p2.1 with
            | none => rw [g1, g2] at h; cases h
            | some s2 =>
              rw [g1, g2] at h
              simp only [Except.ok.injEq] at h
              rw [← h, decide_eq_true_eq]
              rw [h1, h2] at e
              constructor
              · intro hc
                exact ⟨e, fun _ => ⟨p1, p2, s1, s2, rfl, rfl, g1, g2, hc⟩⟩
              · rintro ⟨_, hx⟩
                obtain ⟨q1, q2, u1, u2, a1, a2, a3, a4, a5⟩ := hx rfl
                cases a1; cases a2
                rw [g1] at a3; rw [g2] at a4
                cases a3; cases a4
                exact a5

theorem clash_symm {t : Topology} {active : Bool} {l1 l2 : Link} (h : SectorsClash t active l1 l2) :
    SectorsClash t active l2 l1 :=
  ⟨fun c => h.1 c.symm, fun a => by
    obtain ⟨p1, p2, s1, s2, a1, a2, a3, a4, a5⟩ := h.2 a
    exact ⟨p2, p1, s2, s1, a2, a1, a4, a3, a5.symm⟩⟩

/-- Membership in a list of triples collected from the pairs, for a symmetric test. -/
theorem mem_triples {t : Topology} (inv : t.Inv) (active : Bool) (f : Link × Link → Bool)
    (Q : SiteId → SiteId → SiteId → Link → Link → Prop)
    (hf : ∀ p ∈ t.angPairs active, f p = true ↔ Q p.1.tx p.1.rx p.2.rx p.1 p.2)
    (hQ : ∀ i j k l1 l2, Q i j k l1 l2 → Q i k j l2 l1) (i j k : SiteId) :
    (⟨i, j, k⟩ : Triple) ∈ ((t.angPairs active).filter f).map triple ↔
      j < k ∧ ∃ l1 l2, LinkInScope t active i j l1 ∧ LinkInScope t active i k l2 ∧ Q i j k l1 l2 := by
  rw [List.mem_map]
  constructor
  · rintro ⟨p, hp, he⟩
    obtain ⟨hp, hfp⟩ := List.mem_filter.1 hp
    have hq := (hf p hp).1 hfp
    obtain ⟨s, _, hc⟩ := mem_angPairs.1 hp
    obtain ⟨a1, b1⟩ := (mem_adjacency inv active s _).1 (mem_combos hc).1
    obtain ⟨a2, b2⟩ := (mem_adjacency inv active s _).1 (mem_combos hc).2
    have hne : p.1.rx ≠ p.2.rx := by
      intro e
      apply combos_ne (adjacency_nodup inv active s) hc
      rw [← e] at b2
      exact link_ext b1 b2
    unfold triple at he
    rw [Triple.mk.injEq] at he
    obtain ⟨e1, e2, e3⟩ := he
    have hs : s = i := by rw [← a1]; exact e1
    subst hs
    rw [a1] at hq
    rcases lt_or_gt_of_ne hne with c | c
    · rw [min_eq_left (le_of_lt c)] at e2
      rw [max_eq_right (le_of_lt c)] at e3
      subst e2; subst e3
      exact ⟨c, p.1, p.2, b1, b2, hq⟩
    · rw [min_eq_right (le_of_lt c)] at e2
      rw [max_eq_left (le_of_lt c)] at e3
      subst e2; subst e3
      exact ⟨c, p.2, p.1, b2, b1, hQ _ _ _ _ _ hq⟩
  · rintro ⟨hlt, l1, l2, h1, h2, hq⟩
    have i1 := inv.link_id _ _ h1.1
    have i2 := inv.link_id _ _ h2.1
    rw [LinkId.mk.injEq] at i1 i2
    have m1 : l1 ∈ t.adjacency active i := (mem_adjacency inv active i l1).2 ⟨i1.1.symm, by rw [← i1.2]; exact h1⟩
    have m2 : l2 ∈ t.adjacency active i := (mem_adjacency inv active i l2).2 ⟨i2.1.symm, by rw [← i2.2]; exact h2⟩
    have hne : l1 ≠ l2 := by
      intro e
      rw [← e, ← i1.2] at i2
      exact absurd i2.2.symm (ne_of_lt hlt)
    have hsite : i ∈ t.sites.keys := by
      obtain ⟨x, hx⟩ := inv.link_tx _ _ h1.1
      rw [← i1.1] at hx
      exact (Dict.mem_keys_iff _ _).2 ⟨x, hx⟩
    rcases combos_total m1 m2 hne with hc | hc
    · have hp : (l1, l2) ∈ t.angPairs active := mem_angPairs.2 ⟨i, hsite, hc⟩
      refine ⟨(l1, l2), List.mem_filter.2 ⟨hp, (hf _ hp).2 ?_⟩, ?_⟩
      · dsimp only
        rw [← i1.1, ← i1.2, ← i2.2]
        exact hq
      · unfold triple
        dsimp only
        rw [← i1.1, ← i1.2, ← i2.2, min_eq_left (le_of_lt hlt), max_eq_right (le_of_lt hlt)]
    · have hp : (l2, l1) ∈ t.angPairs active := mem_angPairs.2 ⟨i, hsite, hc⟩
      refine ⟨(l2, l1), List.mem_filter.2 ⟨hp, (hf _ hp).2 ?_⟩, ?_⟩
      · dsimp only
        rw [← i2.1, ← i1.2, ← i2.2]
        exact hQ _ _ _ _ _ hq
      · unfold triple
        dsimp only
        rw [← i2.1, ← i1.2, ← i2.2, min_eq_right (le_of_lt hlt), max_eq_left (le_of_lt hlt)]

/-- C55: for any history and any limits, the two lists name each offending pair
of links out of a site exactly once (smaller receiver first): the first list the
pairs leaving different sectors at no more than the angle limit, the second
those above it that break the near-far rule. -/
theorem C55_exact (ops : List Op) (lim : AngleLimits) (active : Bool)
    (angle : SiteId → SiteId → SiteId → ℚ × ℚ) (symm : ∀ i j k, angle i j k = angle i k j)
    (D N : List Triple)
    (ok : (run {} ops).findAngleViolations lim active angle = .ok (D, N)) :
    let t := run {} ops
    D.Nodup ∧ N.Nodup ∧
    ∀ i j k,
      (⟨i, j, k⟩ ∈ D ↔ j < k ∧ ∃ l1 l2, LinkInScope t active i j l1 ∧ LinkInScope t active i k l2 ∧
        SectorsClash t active l1 l2 ∧ (angle i j k).1 ≤ lim.diffSector) ∧
      (⟨i, j, k⟩ ∈ N ↔ j < k ∧ ∃ l1 l2, LinkInScope t active i j l1 ∧ LinkInScope t active i k l2 ∧
        SectorsClash t active l1 l2 ∧ lim.diffSector < (angle i j k).1 ∧
        (angle i j k).1 ≤ lim.nearFar ∧ lim.ratio ≤ (angle i j k).2) := by
  have inv := Inv.empty.run ops
  generalize run {} ops = t at *
  intro t
  obtain ⟨hok, hr⟩ := angle_fold _ _ _ ok
  rw [Prod.mk.injEq] at hr
  obtain ⟨hD, hN⟩ := hr
  have nod : ∀ f : Link × Link → Bool, (((t.angPairs active).filter f).map triple).Nodup := by
    intro f
    refine List.Nodup.map_on ?_ ((angPairs_nodup inv active).filter _)
    intro p hp q hq e
    exact triple_inj inv active (List.mem_filter.1 hp).1 (List.mem_filter.1 hq).1 e
  have hclash : ∀ p ∈ t.angPairs active, t.clashB active p = true ↔ SectorsClash t active p.1 p.2 := by
    intro p hp
    obtain ⟨c, hc⟩ := hok p hp
    have : t.clashB active p = c := by unfold clashB; rw [hc]
    rw [this]
    exact clashing_iff hc
  rw [List.nil_append] at hD hN
  refine ⟨by rw [hD]; exact nod _, by rw [hN]; exact nod _, ?_⟩
  intro i j k
  constructor
  · rw [hD]
    refine mem_triples inv active _
      (fun i j k l1 l2 => SectorsClash t active l1 l2 ∧ (angle i j k).1 ≤ lim.diffSector) ?_ ?_ i j k
    · intro p hp
      unfold inDiff
      rw [Bool.and_eq_true, decide_eq_true_eq, hclash p hp]
    · rintro i j k l1 l2 ⟨h1, h2⟩
      exact ⟨clash_symm h1, by rw [← symm]; exact h2⟩
  · rw [hN]
    refine mem_triples inv active _
      (fun i j k l1 l2 => SectorsClash t active l1 l2 ∧ lim.diffSector < (angle i j k).1 ∧
        (angle i j k).1 ≤ lim.nearFar ∧ lim.ratio ≤ (angle i j k).2) ?_ ?_ i j k
    · intro p hp
      unfold inNear
      rw [Bool.and_eq_true, Bool.and_eq_true, decide_eq_true_eq, hclash p hp, Bool.not_eq_true',
        decide_eq_false_iff_not, not_le]
    · rintro i j k l1 l2 ⟨h1, h2⟩
      exact ⟨clash_symm h1, by rw [← symm]; exact h2⟩

/-- C55: with sectors on every link in scope (and for any links at all when
inactive parts are included) the search does not raise. -/
theorem C55_total (ops : List Op) (lim : AngleLimits) (active : Bool)
    (angle : SiteId → SiteId → SiteId → ℚ × ℚ)
    (h : active = true → ∀ i j l, LinkInScope (run {} ops) true i j l →
      ∃ a b s, l.sectors = some (a, b) ∧ (run {} ops).sectors.get? a = some s) :
    ∃ r, (run {} ops).findAngleViolations lim active angle = .ok r := by
  have inv := Inv.empty.run ops
  generalize run {} ops = t at *
  have key : ∀ p ∈ t.angPairs active, ∃ c, t.clashing active p.1 p.2 = .ok c := by
    intro p hp
    obtain ⟨s, _, hc⟩ := mem_angPairs.1 hp
    obtain ⟨_, b1⟩ := (mem_adjacency inv active s _).1 (mem_combos hc).1
    obtain ⟨_, b2⟩ := (mem_adjacency inv active s _).1 (mem_combos hc).2
    unfold clashing
    by_cases e : p.1.sectors.map Prod.fst = p.2.sectors.map Prod.fst
    · rw [if_pos e]; exact ⟨_, rfl⟩
    · rw [if_neg e]
      cases active with
      | false => exact ⟨_, rfl⟩
      | true =>
        obtain ⟨x1, y1, s1, f1, g1⟩ := h rfl _ _ _ b1
        obtain ⟨x2, y2, s2, f2, g2⟩ := h rfl _ _ _ b2
        rw [f1, f2]
        simp only [if_true, Option.bind_some, g1, g2]
        exact ⟨_, rfl⟩
  have fold : ∀ (P : List (Link × Link)) acc, (∀ p ∈ P, ∃ c, t.clashing active p.1 p.2 = .ok c) →
      ∃ r, P.foldlM (t.angleStep lim active angle) acc = .ok r := by
    intro P
    induction P with
    | nil => intro acc _; exact ⟨acc, rfl⟩
    | cons p P ih =>
      intro acc hp
      obtain ⟨c, hc⟩ := hp p List.mem_cons_self
      have : ∃ a, t.angleStep lim active angle acc p = .ok a := by
        unfold angleStep
        rw [hc]
        dsimp only
        split
        · split
          · exact ⟨_, rfl⟩
          · split <;> exact ⟨_, rfl⟩
        · exact ⟨_, rfl⟩
      obtain ⟨a, ha⟩ := this
      rw [List.foldlM_cons, ha]
      exact ih a (fun q hq => hp q (List.mem_cons_of_mem _ hq))
  exact fold _ _ key

/-- C55: `get_violating_link_ids` returns exactly the existing links, in both
directions, of the listed triples. -/
theorem C55_link_ids (ops : List Op) (ts : List Triple) (r : List LinkId)
    (ok : (run {} ops).violatingLinkIds ts = .ok r) (id : LinkId) :
    id ∈ r ↔ (∃ l, (run {} ops).links.get? id = some l) ∧ ∃ p ∈ ts,
      id = ⟨p.i, p.j⟩ ∨ id = ⟨p.i, p.k⟩ ∨ id = ⟨p.j, p.i⟩ ∨ id = ⟨p.k, p.i⟩ := by
  have inv := Inv.empty.run ops
  generalize run {} ops = t at *
  have get : ∀ a b o, t.getLinkBySiteIds a b = .ok o → o = t.links.get? ⟨a, b⟩ := by
    intro a b o h
    unfold getLinkBySiteIds at h
    split at h
    · cases h; rfl
    · cases h
  have one : ∀ a b x, x ∈ ([t.links.get? ⟨a, b⟩].filterMap _root_.id).map Link.id ↔
      x = ⟨a, b⟩ ∧ ∃ l, t.links.get? x = some l := by
    intro a b x
    cases e : t.links.get? ⟨a, b⟩ with
    | none =>
      simp only [List.filterMap_cons, id_eq, List.filterMap_nil, List.map_nil, List.not_mem_nil, false_iff]
      rintro ⟨rfl, l, hl⟩
      rw [e] at hl; cases hl
    | some l =>
      have := inv.link_id _ _ e
      simp only [List.filterMap_cons, id_eq, List.filterMap_nil, List.map_cons, List.map_nil,
        List.mem_singleton]
      unfold Link.id
      rw [← this]
      constructor
      · rintro rfl; exact ⟨rfl, l, e⟩
      · rintro ⟨rfl, _⟩; rfl
  induction ts generalizing r with
  | nil =>
    unfold violatingLinkIds at ok
    cases ok
    simp
  | cons p ts ih =>
    unfold violatingLinkIds at ok
    cases ha : t.getLinkBySiteIds p.i p.j with
    | error e => rw [ha] at ok; cases ok
    | ok a =>
    cases hb : t.getLinkBySiteIds p.i p.k with
    | error e => rw [ha, hb] at ok; cases ok
    | ok b =>
    cases hc : t.getLinkBySiteIds p.j p.i with
    | error e => rw [ha, hb, hc] at ok; cases ok
    | ok c =>
    cases hd : t.getLinkBySiteIds p.k p.i with
    | error e => rw [ha, hb, hc, hd] at ok; cases ok
    | ok d =>
    cases hr : t.violatingLinkIds ts with
    | error e => rw [ha, hb, hc, hd, hr] at ok; cases ok
    | ok r' =>
      rw [ha, hb, hc, hd, hr] at ok
      have hok : ([a, b, c, d].filterMap _root_.id).map Link.id ++ r' = r := by
        injection ok
      have split4 : ([a, b, c, d].filterMap _root_.id).map Link.id =
          ([a].filterMap _root_.id).map Link.id ++ (([b].filterMap _root_.id).map Link.id ++
          (([c].filterMap _root_.id).map Link.id ++ ([d].filterMap _root_.id).map Link.id)) := by
        rw [← List.map_append, ← List.map_append, ← List.map_append, ← List.filterMap_append,
          ← List.filterMap_append, ← List.filterMap_append]
        rfl
      have ih' := ih r' hr
      rw [← hok, List.mem_append, propext ih', split4, List.mem_append, List.mem_append, List.mem_append,
        get _ _ _ ha, get _ _ _ hb, get _ _ _ hc, get _ _ _ hd, one, one, one, one]
      constructor
      · rintro ((⟨h1, h2⟩ | ⟨h1, h2⟩ | ⟨h1, h2⟩ | ⟨h1, h2⟩) | ⟨h1, q, hq, h2⟩)
        · exact ⟨h2, p, List.mem_cons_self, Or.inl h1⟩
        · exact ⟨h2, p, List.mem_cons_self, Or.inr (Or.inl h1)⟩
        · exact ⟨h2, p, List.mem_cons_self, Or.inr (Or.inr (Or.inl h1))⟩
        · exact ⟨h2, p, List.mem_cons_self, Or.inr (Or.inr (Or.inr h1))⟩
        · exact ⟨h1, q, List.mem_cons_of_mem _ hq, h2⟩
      · rintro ⟨h2, q, hq, h1⟩
        rcases List.mem_cons.1 hq with rfl | hq
        · left
          rcases h1 with h1 | h1 | h1 | h1
          · exact Or.inl ⟨h1, h2⟩
          · exact Or.inr (Or.inl ⟨h1, h2⟩)
          · exact Or.inr (Or.inr (Or.inl ⟨h1, h2⟩))
          · exact Or.inr (Or.inr (Or.inr ⟨h1, h2⟩))
        · exact Or.inr ⟨h2, q, hq, h1⟩

/-- Three links leaving `A` over two sectors. -/
def angleDemo : List Op := [
  .addSite { id := "A", siteType := .dn, status := .proposed } false,
  .addSite { id := "B", siteType := .dn, status := .proposed } false,
  .addSite { id := "C", siteType := .dn, status := .proposed } false,
  .addSite { id := "D", siteType := .dn, status := .proposed } false,
  .addSector { site := "A", node := 0, pos := 0, status := .proposed, channel := 2 },
  .addSector { site := "A", node := 0, pos := 1, status := .proposed, channel := 2 },
  .addLink { tx := "A", rx := "C", status := .proposed, sectors := some (⟨"A", 0, 0, .dn⟩, ⟨"C", 0, 0, .dn⟩) },
  .addLink { tx := "A", rx := "B", status := .proposed, sectors := some (⟨"A", 0, 1, .dn⟩, ⟨"B", 0, 0, .dn⟩) },
  .addLink { tx := "A", rx := "D", status := .proposed, sectors := some (⟨"A", 0, 0, .dn⟩, ⟨"D", 0, 0, .dn⟩) },
  .addLink { tx := "B", rx := "A", status := .proposed }]

example : (match (run {} angleDemo).findAngleViolations ⟨20, 45, 3⟩ true
      (fun i j k => if i = "A" ∧ (j = "D" ∨ k = "D") then (40, 3) else (20, 1)) with
    | .ok r => r | .error _ => ([], [])) = ([⟨"A", "B", "C"⟩], [⟨"A", "B", "D"⟩]) ∧
    (match (run {} angleDemo).violatingLinkIds [⟨"A", "B", "C"⟩] with
    | .ok r => r | .error _ => []) = [⟨"A", "B"⟩, ⟨"A", "C"⟩, ⟨"B", "A"⟩] := by
  decide +kernel

end Topology
end Verif
