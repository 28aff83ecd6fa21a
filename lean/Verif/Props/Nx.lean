import Verif.Lemmas.Nx2

/-!
# Failure reports (C35, C36)
-/

namespace Verif

open Spec Topology Relation

variable {t : Topology} {cost : Link → Option Nat}

/-- The filter used for the reports. -/
abbrev inUse : Filter := StatusType.active

theorem survives_admits {F G} {s : SiteId} (h : Survives t F G s) : t.admits inUse s = true := by
  cases h with
  | pop h1 _ h3 _ => exact admits_iff'.2 ⟨_, h1, (active_iff _).2 h3⟩
  | hop _ _ _ _ _ h5 h6 _ => exact admits_iff'.2 ⟨_, h5, (active_iff _).2 h6⟩

/-- Walks from the supersource that avoid a link are surviving connections. -/
theorem joined_without (inv : t.Inv) {a b : SiteId} {v : GNode}
    (h : Joined ((t.buildDigraph inUse cost).without (.site a) (.site b)) .super v) :
    (∀ s, v = .site s → Survives t [] [(a, b)] s) ∧ (∀ d, v = .demand d → Served t [] [(a, b)] d) := by
  induction h with
  | refl => exact ⟨fun s h => by simp at h, fun d h => by simp at h⟩
  | @tail u w _ he ih =>
    obtain ⟨he, hn1, hn2⟩ := he
    cases u with
    | super =>
      obtain ⟨s, y, rfl, h1, h2, h3⟩ := (build_edge_super inv).1 he
      refine ⟨fun s' hs => ?_, fun d h => by simp at h⟩
      simp only [GNode.site.injEq] at hs
      subst hs
      exact Survives.pop h1 h2 ((active_iff _).1 h3) (by simp)
    | demand d => exact absurd he build_no_out
    | site x =>
      cases w with
      | super => exact absurd he build_no_in
      | site y =>
        refine ⟨fun s' hs => ?_, fun d h => by simp at h⟩
        simp only [GNode.site.injEq] at hs
        subst hs
        obtain ⟨l, h1, h2, h3, h4⟩ := (build_edge_site inv).1 he
        obtain ⟨z, h5, h6⟩ := admits_iff'.1 h4
        refine Survives.hop (ih.1 x rfl) h1 ((active_iff _).1 h2) ?_ ?_ h5 ((active_iff _).1 h6) (by simp)
        · intro c
          simp only [List.mem_singleton, Prod.mk.injEq] at c
          exact hn1 (by rw [c.1, c.2])
        · intro c
          simp only [List.mem_singleton, Prod.mk.injEq] at c
          exact hn2 (by rw [c.1, c.2])
      | demand d =>
        refine ⟨fun s' hs => by simp at hs, fun d' hd => ?_⟩
        simp only [GNode.demand.injEq] at hd
        subst hd
        obtain ⟨dm, h1, h2, h3⟩ := (build_edge_demand inv).1 he
        exact ⟨dm, h1, x, h2, ih.1 x rfl⟩

theorem joined_of_survives_link (inv : t.Inv) {a b s : SiteId} (h : Survives t [] [(a, b)] s) :
    Joined ((t.buildDigraph inUse cost).without (.site a) (.site b)) .super (.site s) := by
  induction h with
  | pop h1 h2 h3 _ =>
    refine ReflTransGen.single ⟨(build_edge_super inv).2 ⟨_, _, rfl, h1, h2, (active_iff _).2 h3⟩, ?_, ?_⟩ <;>
      simp
  | @hop x y l z hx h1 h2 h3 h4 h5 h6 _ ih =>
    refine ReflTransGen.tail ih ⟨(build_edge_site inv).2 ⟨l, h1, (active_iff _).2 h2, survives_admits hx,
      admits_iff'.2 ⟨z, h5, (active_iff _).2 h6⟩⟩, ?_, ?_⟩
    · intro c
      simp only [Prod.mk.injEq, GNode.site.injEq] at c
      exact h3 (by rw [c.1, c.2]; simp)
    · intro c
      simp only [Prod.mk.injEq, GNode.site.injEq] at c
      exact h4 (by rw [c.1, c.2]; simp)

theorem joined_link_iff (inv : t.Inv) {a b : SiteId} {d : DemandId} :
    Joined ((t.buildDigraph inUse cost).without (.site a) (.site b)) .super (.demand d) ↔
      Served t [] [(a, b)] d := by
  constructor
  · intro h
    exact (joined_without inv h).2 d rfl
  · rintro ⟨dm, h1, s, h2, h3⟩
    refine ReflTransGen.tail (joined_of_survives_link inv h3)
      ⟨(build_edge_demand inv).2 ⟨dm, h1, h2, survives_admits h3⟩, ?_, ?_⟩ <;> simp

theorem joined_isolated (inv : t.Inv) {x : SiteId} {v : GNode}
    (h : Joined (fun e => (t.buildDigraph inUse cost).edge e ∧ e.1 ≠ .site x) .super v) :
    (∀ s, v = .site s → s ≠ x → Survives t [x] [] s) ∧ (∀ d, v = .demand d → Served t [x] [] d) := by
  induction h with
  | refl => exact ⟨fun s h => by simp at h, fun d h => by simp at h⟩
  | @tail u w _ he ih =>
    obtain ⟨he, hn⟩ := he
    cases u with
    | super =>
      obtain ⟨s, y, rfl, h1, h2, h3⟩ := (build_edge_super inv).1 he
      refine ⟨fun s' hs hne => ?_, fun d h => by simp at h⟩
      simp only [GNode.site.injEq] at hs
      subst hs
      exact Survives.pop h1 h2 ((active_iff _).1 h3) (by simpa using hne)
    | demand d => exact absurd he build_no_out
    | site u =>
      have hux : u ≠ x := by
        intro c; subst c; exact hn rfl
      cases w with
      | super => exact absurd he build_no_in
      | site y =>
        refine ⟨fun s' hs hne => ?_, fun d h => by simp at h⟩
        simp only [GNode.site.injEq] at hs
        subst hs
        obtain ⟨l, h1, h2, h3, h4⟩ := (build_edge_site inv).1 he
        obtain ⟨z, h5, h6⟩ := admits_iff'.1 h4
        exact Survives.hop (ih.1 u rfl hux) h1 ((active_iff _).1 h2) (by simp) (by simp) h5
          ((active_iff _).1 h6) (by simpa using hne)
      | demand d =>
        refine ⟨fun s' hs => by simp at hs, fun d' hd => ?_⟩
        simp only [GNode.demand.injEq] at hd
        subst hd
        obtain ⟨dm, h1, h2, h3⟩ := (build_edge_demand inv).1 he
        exact ⟨dm, h1, u, h2, ih.1 u rfl hux⟩

theorem survives_not_mem {F G} {s : SiteId} (h : Survives t F G s) : s ∉ F := by
  cases h with
  | pop _ _ _ h => exact h
  | hop _ _ _ _ _ _ _ h => exact h

theorem joined_of_survives_site (inv : t.Inv) {F : List SiteId} {s : SiteId} (h : Survives t F [] s)
    (ok : GEdge → Prop) (hok : ∀ e, (∀ y ∈ F, e.1 ≠ .site y) → ok e) :
    Joined (fun e => (t.buildDigraph inUse cost).edge e ∧ ok e) .super (.site s) := by
  induction h with
  | pop h1 h2 h3 _ =>
    exact ReflTransGen.single ⟨(build_edge_super inv).2 ⟨_, _, rfl, h1, h2, (active_iff _).2 h3⟩,
      hok _ (by simp)⟩
  | @hop x y l z hx h1 h2 h3 h4 h5 h6 _ ih =>
    refine ReflTransGen.tail ih ⟨(build_edge_site inv).2 ⟨l, h1, (active_iff _).2 h2, survives_admits hx,
      admits_iff'.2 ⟨z, h5, (active_iff _).2 h6⟩⟩, hok _ ?_⟩
    intro y hy c
    simp only [GNode.site.injEq] at c
    exact survives_not_mem hx (c ▸ hy)

theorem joined_site_iff (inv : t.Inv) {x : SiteId} {d : DemandId} :
    Joined (fun e => (t.buildDigraph inUse cost).edge e ∧ e.1 ≠ .site x) .super (.demand d) ↔
      Served t [x] [] d := by
  constructor
  · intro h
    exact (joined_isolated inv h).2 d rfl
  · rintro ⟨dm, h1, s, h2, h3⟩
    refine ReflTransGen.tail (joined_of_survives_site inv h3 _ fun e he => he x (by simp))
      ⟨(build_edge_demand inv).2 ⟨dm, h1, h2, survives_admits h3⟩, ?_⟩
    have := survives_not_mem h3
    simpa using this

theorem joined_all_iff (inv : t.Inv) {d : DemandId} :
    Joined (t.buildDigraph inUse cost).edge .super (.demand d) ↔ Served t [] [] d := by
  constructor
  · intro h
    have key : ∀ v, Joined (t.buildDigraph inUse cost).edge .super v →
        (∀ s, v = .site s → Survives t [] [] s) ∧ (∀ d, v = .demand d → Served t [] [] d) := by
      intro v h
      induction h with
      | refl => exact ⟨fun s h => by simp at h, fun d h => by simp at h⟩
      | @tail u w _ he ih =>
        cases u with
        | super =>
          obtain ⟨s, y, rfl, h1, h2, h3⟩ := (build_edge_super inv).1 he
          refine ⟨fun s' hs => ?_, fun d h => by simp at h⟩
          simp only [GNode.site.injEq] at hs
          subst hs
          exact Survives.pop h1 h2 ((active_iff _).1 h3) (by simp)
        | demand d => exact absurd he build_no_out
        | site u =>
          cases w with
          | super => exact absurd he build_no_in
          | site y =>
            refine ⟨fun s' hs => ?_, fun d h => by simp at h⟩
            simp only [GNode.site.injEq] at hs
            subst hs
            obtain ⟨l, h1, h2, h3, h4⟩ := (build_edge_site inv).1 he
            obtain ⟨z, h5, h6⟩ := admits_iff'.1 h4
            exact Survives.hop (ih.1 u rfl) h1 ((active_iff _).1 h2) (by simp) (by simp) h5
              ((active_iff _).1 h6) (by simp)
          | demand d =>
            refine ⟨fun s' hs => by simp at hs, fun d' hd => ?_⟩
            simp only [GNode.demand.injEq] at hd
            subst hd
            obtain ⟨dm, h1, h2, h3⟩ := (build_edge_demand inv).1 he
            exact ⟨dm, h1, u, h2, ih.1 u rfl⟩
    exact (key _ h).2 d rfl
  · rintro ⟨dm, h1, s, h2, h3⟩
    have := joined_of_survives_site (cost := cost) inv h3 (fun _ => True) (fun _ _ => trivial)
    have e : (fun e => (t.buildDigraph inUse cost).edge e ∧ True) = (t.buildDigraph inUse cost).edge := by
      funext e; simp
    rw [e] at this
    exact ReflTransGen.tail this ((build_edge_demand inv).2 ⟨dm, h1, h2, survives_admits h3⟩)

/-- The demands connected in the graph are those with service. -/
theorem fed_iff (inv : t.Inv) {v : GNode} :
    (t.buildDigraph inUse cost).Fed (t.buildDigraph inUse cost).edge v ↔
      ∃ d, v = .demand d ∧ Served t [] [] d := by
  constructor
  · rintro ⟨h1, h2, h3⟩
    cases v with
    | super => exact absurd rfl h2
    | demand d => exact ⟨d, rfl, (joined_all_iff inv).1 h3⟩
    | site s =>
      exfalso
      have hh : (t.buildDigraph inUse cost).nodes.has (.site s) = true := by
        rw [Dict.has_iff]; exact ⟨_, (Dict.mem_iff_get? build_nodup.1 _ _).1 h1⟩
      have : ∃ y, t.sites.get? s = some y := by
        rcases ReflTransGen.cases_tail h3 with h | ⟨u, _, he⟩
        · simp at h
        · cases u with
          | super =>
            obtain ⟨s', y, e, h1, _⟩ := (build_edge_super inv).1 he
            simp only [GNode.site.injEq] at e
            exact ⟨y, e ▸ h1⟩
          | demand d => exact absurd he build_no_out
          | site u =>
            obtain ⟨l, _, _, _, h4⟩ := (build_edge_site inv).1 he
            obtain ⟨y, hy, _⟩ := admits_iff'.1 h4
            exact ⟨y, hy⟩
      obtain ⟨y, hy⟩ := this
      have := (build_kind hh inv).2.1 s y rfl hy
      have e1 := (Dict.mem_iff_get? (build_nodup (cost := cost)).1 _ _).1 this
      have e2 := (Dict.mem_iff_get? (build_nodup (cost := cost)).1 _ _).1 h1
      rw [e1] at e2
      simp at e2
  · rintro ⟨d, rfl, h⟩
    obtain ⟨dm, h1, s, h2, h3⟩ := h
    have hj := (joined_all_iff (cost := cost) inv).2 ⟨dm, h1, s, h2, h3⟩
    refine ⟨?_, by simp, hj⟩
    refine (build_kind ?_ inv).2.2 d dm rfl h1
    rw [build_has]
    exact ⟨_, mem_digraph.2 (Or.inr (Or.inr ⟨(d, dm), Dict.mem_of_get? _ h1, s, h2, survives_admits h3, rfl⟩)),
      Or.inr rfl⟩

theorem build_super (h : ∃ s y, t.sites.get? s = some y ∧ y.siteType = .pop ∧ InNetwork y.status) :
    (t.buildDigraph inUse cost).nodes.has .super = true := by
  obtain ⟨s, y, h1, h2, h3⟩ := h
  rw [build_has]
  exact ⟨_, mem_digraph.2 (Or.inl ⟨(s, y), Dict.mem_of_get? _ h1, h2, (active_iff _).2 h3, rfl⟩), Or.inl rfl⟩

end Verif
