import Verif.Lemmas.Topology
import Verif.Spec.Pipeline
import Verif.Props.Angles
import Verif.Props.Solution
import Verif.Model.PopProposal
import Verif.Model.Prepare

/-! # The planning phases as histories of API calls -/

namespace Verif
namespace Topology

/-- The topology at the start, whether sectors may be removed, whether sites and link statuses
stay as they are, and whether POPs may be added. -/
structure Base extends Topology where
  cut : Bool
  still : Bool
  grow : Prop

instance : Coe Base Topology := ⟨Base.toTopology⟩

/-- The calls the planning phases make. -/
def Gentle (b : Base) : Op → Prop
  | .addSite s _ => b.still = false ∧ s.status = .candidate ∧ b.grow ∧ ∃ j d, b.sites.get? j = some d ∧ Spec.PopOnDn s d
  | .addLink l => b.still = false ∧ l.status = .candidate ∧ (b.sites.get? l.tx = none ∨ b.sites.get? l.rx = none)
  | .addDemandSite d => b.still = false ∧ ∃ d0, b.demandSites.get? d.id = some d0 ∧ d = { d0 with connected := d.connected }
  | .removeSite _ => False
  | .removeSector _ => b.cut = true
  | .removeDemandSite _ => False
  | .removeLink _ => False
  | .write (.link ..) => False
  | .write (.site ..) => b.still = false
  | .assign (.site ..) => b.still = false
  | .assign (.link ..) => b.still = false
  | _ => True

/-- `t'` comes from `t` by such calls. -/
def Via (b : Base) (t t' : Topology) : Prop := ∃ ops, (∀ o ∈ ops, Gentle b o) ∧ t' = run t ops

theorem Via.refl (b : Base) (t : Topology) : Via b t t := ⟨[], by simp, rfl⟩

theorem Via.trans {b : Base} {t u v : Topology} (h : Via b t u) (g : Via b u v) : Via b t v := by
  obtain ⟨o1, a1, rfl⟩ := h
  obtain ⟨o2, a2, rfl⟩ := g
  refine ⟨o1 ++ o2, fun o ho => (List.mem_append.1 ho).elim (a1 o) (a2 o), ?_⟩
  simp [run, List.foldl_append]

theorem Via.step {b : Base} {t : Topology} (o : Op) (h : Gentle b o) : Via b t (t.step o).1 :=
  ⟨[o], by simpa using h, rfl⟩

theorem Via.inv {b : Base} {t t' : Topology} (h : Via b t t') (inv : Inv t) : Inv t' := by
  obtain ⟨ops, _, rfl⟩ := h
  exact inv.run ops

theorem Via.built {b : Base} {t t' : Topology} (h : Via b t t') (ops : List Op) (ht : t = run {} ops) :
    ∃ ops', t' = run {} ops' := by
  obtain ⟨o2, _, rfl⟩ := h
  exact ⟨ops ++ o2, by simp [run, List.foldl_append, ht]⟩

theorem demand_refl (o : Option DemandSite) :
    Option.Rel (fun d d' : DemandSite => d' = { d with connected := d'.connected }) o o := by
  cases o
  · exact .none
  · exact .some rfl

theorem Extends.refl (g : Prop) (b : Topology) : Extends g b b :=
  ⟨fun _ s h => ⟨s, h, rfl, fixedKept_refl _⟩, fun _ l h => ⟨l, h, rfl, fixedKept_refl _⟩,
    fun _ => demand_refl _, fun _ _ h g => by simp_all, fun _ _ h g => by simp_all⟩

/-- Changes of the values under the keys. -/
theorem Extends.change {g : Prop} {b t t' : Topology} (k : Extends g b t)
    (hs : ∀ i, Option.Rel (fun s s' : Site =>
      s' = { s with status := s'.status, polarity := s'.polarity, breakdowns := s'.breakdowns } ∧
      Spec.FixedKept s.status s'.status) (t.sites.get? i) (t'.sites.get? i))
    (hl : ∀ i, Option.Rel (fun l l' : Link =>
      l' = { l with status := l'.status, sectors := l'.sectors } ∧
      Spec.FixedKept l.status l'.status) (t.links.get? i) (t'.links.get? i))
    (hd : ∀ i, Option.Rel (fun d d' : DemandSite => d' = { d with connected := d'.connected })
      (t.demandSites.get? i) (t'.demandSites.get? i)) : Extends g b t' := by
  refine ⟨?_, ?_, ?_, ?_, ?_⟩
  · intro i s h
    obtain ⟨s1, h1, e1, f1⟩ := k.site i s h
    have := hs i
    rw [h1] at this
    generalize hx : t'.sites.get? i = x at this
    cases this with
    | some q =>
      rename_i s2
      refine ⟨s2, rfl, ?_, fixedKept_trans f1 q.2⟩
      rw [q.1, e1]
  · intro i l h
    obtain ⟨l1, h1, e1, f1⟩ := k.link i l h
    have := hl i
    rw [h1] at this
    generalize hx : t'.links.get? i = x at this
    cases this with
    | some q =>
      rename_i l2
      refine ⟨l2, rfl, ?_, fixedKept_trans f1 q.2⟩
      rw [q.1, e1]
  · intro i
    refine rel_trans (R := fun d d' : DemandSite => d' = { d with connected := d'.connected }) ?_
      (k.demand i) (hd i)
    rintro a b c e1 e2
    rw [e2, e1]
  · intro i s' h hb
    have := hs i
    rw [h] at this
    generalize hx : t.sites.get? i = x at this
    cases this with
    | some q =>
      obtain ⟨a0, a1, a2, a3⟩ := k.newSite i _ hx hb
      refine ⟨a0, ?_, ?_, ?_⟩
      · obtain ⟨j, d, hj, hp⟩ := a1
        refine ⟨j, d, hj, ?_⟩
        rw [q.1]
        exact hp
      · exact fun e => a2 (q.2.1.2 e)
      · exact fun e => a3 (q.2.2.2 e)
  · intro i l' h hb
    have := hl i
    rw [h] at this
    generalize hx : t.links.get? i = x at this
    cases this with
    | some q =>
      obtain ⟨a1, a2, a3⟩ := k.newLink i _ hx hb
      refine ⟨?_, ?_, ?_⟩
      · rw [q.1]; exact a1
      · exact fun e => a2 (q.2.1.2 e)
      · exact fun e => a3 (q.2.2.2 e)

theorem Extends.same {g : Prop} {b t t' : Topology} (k : Extends g b t) (hs : t'.sites = t.sites)
    (hl : t'.links = t.links) (hd : t'.demandSites = t.demandSites) : Extends g b t' :=
  k.change (fun i => by rw [hs]; exact optRel_refl (fun _ => ⟨rfl, fixedKept_refl _⟩) _)
    (fun i => by rw [hl]; exact optRel_refl (fun _ => ⟨rfl, fixedKept_refl _⟩) _)
    (fun i => by rw [hd]; exact demand_refl _)

/-- Links are only stripped of their sectors. -/
theorem clearLoop_links (sel : SectorId × SectorId → SectorId) (sid : SectorId) (ids : List LinkId) :
    ∀ t : Topology, ∀ i, Option.Rel (fun l l' : Link =>
      l' = { l with status := l'.status, sectors := l'.sectors } ∧
      Spec.FixedKept l.status l'.status) (t.links.get? i) ((t.clearLoop sel sid ids).1.links.get? i) := by
  induction ids with
  | nil => intro t i; exact optRel_refl (fun _ => ⟨rfl, fixedKept_refl _⟩) _
  | cons id rest ih =>
    intro t i
    unfold clearLoop
    split
    · exact optRel_refl (fun _ => ⟨rfl, fixedKept_refl _⟩) _
    · rename_i l hl
      refine rel_trans (R := fun l l' : Link =>
        l' = { l with status := l'.status, sectors := l'.sectors } ∧
        Spec.FixedKept l.status l'.status) ?_ ?_ (ih _ i)
      · rintro a b c ⟨e1, f1⟩ ⟨e2, f2⟩
        exact ⟨by rw [e2, e1], fixedKept_trans f1 f2⟩
      · split
        · simp only [clearLinkSectors, Dict.get?_modify]
          split
          · cases t.links.get? i
            · exact .none
            · exact .some ⟨rfl, fixedKept_refl _⟩
          · exact optRel_refl (fun _ => ⟨rfl, fixedKept_refl _⟩) _
        · exact optRel_refl (fun _ => ⟨rfl, fixedKept_refl _⟩) _

theorem Extends.step {b : Base} {t : Topology} (ib : Inv (b : Topology)) (it : Inv t) (k : Extends b.grow b t) (o : Op) (h : Gentle b o) :
    Extends b.grow b (t.step o).1 := by
  cases o with
  | addSite s d =>
    simp only [Topology.step, Topology.addSite]
    split
    · exact k
    split
    · exact k
    rename_i hh
    have hn : t.sites.get? s.id = none := by
      rw [← Dict.has_eq_false_iff]; simpa using hh
    refine ⟨?_, k.link, k.demand, ?_, ?_⟩
    · intro i x hx
      obtain ⟨s', h', r⟩ := k.site i x hx
      refine ⟨s', ?_, r⟩
      dsimp only
      rw [Dict.get?_set, if_neg ?_, h']
      rintro rfl
      rw [hn] at h'; cases h'
    · intro i x hx hb
      dsimp only at hx
      rw [Dict.get?_set] at hx
      split at hx
      · cases hx
        exact ⟨h.2.2.1, h.2.2.2, by rw [h.2.1]; decide, by rw [h.2.1]; decide⟩
      · exact k.newSite i x hx hb
    · exact k.newLink
  | removeSite s => exact h.elim
  | addDemandSite d =>
    simp only [Topology.step, Topology.addDemandSite]
    refine ⟨k.site, k.link, ?_, k.newSite, k.newLink⟩
    intro i
    dsimp only
    rw [Dict.get?_set]
    split
    · rename_i e
      subst e
      obtain ⟨_, d0, h0, e⟩ := h
      rw [h0]
      exact .some e
    · exact k.demand i
  | removeDemandSite d => exact h.elim
  | addSector s =>
    simp only [Topology.step, Topology.addSector]
    split
    · exact k
    split
    · exact k.same rfl rfl rfl
    · exact k
  | removeSector s =>
    have hkeep : Extends b.grow b (t.removeSector s).1 := by
      rcases hx : t.sectors.get? s with _ | sec
      · have : t.removeSector s = (t, some .topology) := by unfold Topology.removeSector; rw [hx]
        rw [this]; exact k
      · unfold Topology.removeSector
        rw [hx]
        dsimp only
        split
        · obtain ⟨i1, s1, _, d1, _⟩ := clearLoop_spec Prod.fst s ((t.conn.get? sec.site).getD []).vals it
          have l1 := clearLoop_links Prod.fst s ((t.conn.get? sec.site).getD []).vals t
          generalize t.clearLoop Prod.fst s ((t.conn.get? sec.site).getD []).vals = o at *
          obtain ⟨t1, e1⟩ := o
          have k1 : Extends b.grow b t1 := k.change
            (fun i => by rw [show t1.sites = t.sites from s1]; exact optRel_refl (fun _ => ⟨rfl, fixedKept_refl _⟩) _)
            l1 (fun i => by rw [show t1.demandSites = t.demandSites from d1]; exact demand_refl _)
          cases e1 with
          | some e => exact k1
          | none =>
            dsimp only
            obtain ⟨i2, s2, _, d2, _⟩ := clearLoop_spec Prod.snd s ((t1.connRev.get? sec.site).getD []).vals i1
            have l2 := clearLoop_links Prod.snd s ((t1.connRev.get? sec.site).getD []).vals t1
            generalize t1.clearLoop Prod.snd s ((t1.connRev.get? sec.site).getD []).vals = o at *
            obtain ⟨t2, e2⟩ := o
            have k2 : Extends b.grow b t2 := k1.change
              (fun i => by rw [show t2.sites = t1.sites from s2]; exact optRel_refl (fun _ => ⟨rfl, fixedKept_refl _⟩) _)
              l2 (fun i => by rw [show t2.demandSites = t1.demandSites from d2]; exact demand_refl _)
            cases e2 with
            | some e => exact k2
            | none =>
              dsimp only
              split
              · exact k2.same rfl rfl rfl
              · exact k2
        · exact k
    exact hkeep
  | addLink l =>
    simp only [Topology.step, Topology.addLink]
    split
    · refine ⟨k.site, ?_, k.demand, k.newSite, ?_⟩
      · intro i x hx
        obtain ⟨l', h', r⟩ := k.link i x hx
        refine ⟨l', ?_, r⟩
        dsimp only
        rw [Dict.get?_set, if_neg ?_, h']
        intro e
        have hid := ib.link_id _ _ hx
        rw [← e] at hid
        have h1 : l.tx = x.tx := congrArg LinkId.tx hid
        have h2 : l.rx = x.rx := congrArg LinkId.rx hid
        obtain ⟨_, a1⟩ := ib.link_tx _ _ hx
        obtain ⟨_, a2⟩ := ib.link_rx _ _ hx
        rcases h.2.2 with q | q
        · rw [h1, a1] at q; cases q
        · rw [h2, a2] at q; cases q
      · intro i x hx hb
        dsimp only at hx
        rw [Dict.get?_set] at hx
        split at hx
        · cases hx
          exact ⟨h.2.2, by rw [h.2.1]; decide, by rw [h.2.1]; decide⟩
        · exact k.newLink i x hx hb
    · exact k
  | removeLink l => exact h.elim
  | assign a =>
    obtain ⟨h1, _, h3, h4⟩ := assign_step t a
    refine k.change ?_ ?_ ?_
    · intro i
      have := h1 i
      simp only [Topology.step]
      generalize t.sites.get? i = x at *
      generalize (t.assign a).1.sites.get? i = y at *
      cases this with
      | none => exact .none
      | some q => exact .some ⟨by rw [q.1], q.2⟩
    · intro i
      have := h3 i
      simp only [Topology.step]
      generalize t.links.get? i = x at *
      generalize (t.assign a).1.links.get? i = y at *
      cases this with
      | none => exact .none
      | some q => exact .some ⟨by rw [q.1], q.2⟩
    · intro i
      simp only [Topology.step]
      rw [h4]
      exact demand_refl _
  | write w =>
    cases w with
    | link => exact h.elim
    | site i p c =>
      simp only [Topology.step, Topology.write]
      split
      · refine k.change ?_ (fun i => optRel_refl (fun _ => ⟨rfl, fixedKept_refl _⟩) _) (fun _ => demand_refl _)
        intro j
        dsimp only
        rw [Dict.get?_modify]
        split
        · cases t.sites.get? j
          · exact .none
          · exact .some ⟨rfl, fixedKept_refl _⟩
        · exact optRel_refl (fun _ => ⟨rfl, fixedKept_refl _⟩) _
      · exact k
    | sector i a c =>
      simp only [Topology.step, Topology.write]
      split
      · exact k.same rfl rfl rfl
      · exact k
    | linkSectors i secs =>
      have aux : ∀ f : Link → Link, (∀ l, ∃ s, f l = { l with sectors := s }) →
          Extends b.grow b { t with links := t.links.modify i f } := by
        intro f hf
        refine k.change (fun i => optRel_refl (fun _ => ⟨rfl, fixedKept_refl _⟩) _) ?_ (fun _ => demand_refl _)
        intro j
        dsimp only
        rw [Dict.get?_modify]
        split
        · cases t.links.get? j with
          | none => exact .none
          | some l =>
            refine .some ?_
            obtain ⟨s, e⟩ := hf l
            rw [e]
            exact ⟨rfl, fixedKept_refl _⟩
        · exact optRel_refl (fun _ => ⟨rfl, fixedKept_refl _⟩) _
      simp only [Topology.step, Topology.write]
      split
      · exact k
      · split
        · split
          · exact aux _ (fun l => ⟨_, rfl⟩)
          · exact k
        · exact aux _ (fun l => ⟨_, rfl⟩)
  | sort =>
    refine k.change ?_ ?_ ?_
    · intro i
      simp only [Topology.step]
      rw [(get?_sort it).1]
      exact optRel_refl (fun _ => ⟨rfl, fixedKept_refl _⟩) _
    · intro i
      simp only [Topology.step]
      rw [(get?_sort it).2.2.1]
      exact optRel_refl (fun _ => ⟨rfl, fixedKept_refl _⟩) _
    · intro i
      simp only [Topology.step]
      rw [(get?_sort it).2.2.2]
      cases t.demandSites.get? i
      · exact .none
      · exact .some rfl

theorem Via.extends_ {b : Base} {t t' : Topology} (h : Via b t t') (ib : Inv (b : Topology)) (it : Inv t) (k : Extends b.grow b t) :
    Extends b.grow b t' := by
  obtain ⟨ops, hg, rfl⟩ := h
  induction ops generalizing t with
  | nil => exact k
  | cons o rest ih =>
    exact ih (t := (t.step o).1) (it.step o) (k.step ib it o (hg o (List.mem_cons_self ..)))
      (fun o ho => hg o (List.mem_cons_of_mem _ ho))

theorem step_sectors {b : Base} {t : Topology} (hb : b.cut = false) (it : Inv t) (o : Op) (h : Gentle b o) :
    ∀ i x, t.sectors.get? i = some x → ∃ x', (t.step o).1.sectors.get? i = some x' ∧ x'.site = x.site := by
  have same : ∀ t' : Topology, t'.sectors = t.sectors → ∀ i x, t.sectors.get? i = some x →
      ∃ x', t'.sectors.get? i = some x' ∧ x'.site = x.site := by
    intro t' e i x hx
    rw [e]
    exact ⟨x, hx, rfl⟩
  cases o with
  | addSite s d =>
    refine same _ ?_
    simp only [Topology.step, Topology.addSite]
    split
    · rfl
    split <;> rfl
  | removeSite s => exact h.elim
  | addDemandSite d => exact same _ rfl
  | removeDemandSite d => exact h.elim
  | addSector s =>
    intro i x hx
    simp only [Topology.step, Topology.addSector]
    split
    · exact ⟨x, hx, rfl⟩
    rename_i hh
    split
    · refine ⟨x, ?_, rfl⟩
      dsimp only
      rw [Dict.get?_set, if_neg ?_, hx]
      rintro rfl
      exact hh ((Dict.has_iff _ _).2 ⟨x, hx⟩)
    · exact ⟨x, hx, rfl⟩
  | removeSector s => rw [Gentle, hb] at h; cases h
  | addLink l =>
    refine same _ ?_
    simp only [Topology.step, Topology.addLink]
    split <;> rfl
  | removeLink l => exact h.elim
  | assign a =>
    intro i x hx
    have := (assign_step t a).2.1 i
    simp only [Topology.step]
    rw [hx] at this
    generalize (t.assign a).1.sectors.get? i = y at *
    cases this with
    | some q => exact ⟨_, rfl, by rw [q.1]⟩
  | write w =>
    cases w with
    | link => exact h.elim
    | site i p c =>
      refine same _ ?_
      simp only [Topology.step, Topology.write]
      split <;> rfl
    | sector i a c =>
      intro j x hx
      simp only [Topology.step, Topology.write]
      split
      · dsimp only
        rw [Dict.get?_modify, hx]
        split
        · exact ⟨_, rfl, rfl⟩
        · exact ⟨_, rfl, rfl⟩
      · exact ⟨x, hx, rfl⟩
    | linkSectors i secs =>
      refine same _ ?_
      simp only [Topology.step, Topology.write]
      split
      · rfl
      · split
        · split <;> rfl
        · rfl
  | sort =>
    intro i x hx
    simp only [Topology.step]
    rw [(get?_sort it).2.1]
    exact ⟨x, hx, rfl⟩

/-- Sectors are not lost unless they may be removed. -/
theorem Via.sectors {b : Base} {t t' : Topology} (hb : b.cut = false) (it : Inv t) (h : Via b t t') :
    ∀ i x, t.sectors.get? i = some x → ∃ x', t'.sectors.get? i = some x' ∧ x'.site = x.site := by
  obtain ⟨ops, hg, rfl⟩ := h
  induction ops generalizing t with
  | nil => intro i x hx; exact ⟨x, hx, rfl⟩
  | cons o rest ih =>
    intro i x hx
    obtain ⟨x1, h1, e1⟩ := step_sectors hb it o (hg o (List.mem_cons_self ..)) i x hx
    obtain ⟨x2, h2, e2⟩ := ih (t := (t.step o).1) (it.step o) (fun o ho => hg o (List.mem_cons_of_mem _ ho)) i x1 h1
    exact ⟨x2, h2, e2.trans e1⟩

/-! ## Loops -/

theorem via_foldOut {b : Base} {α : Type} {f : Topology → α → Out} (inv : Topology → Prop)
    (keep : ∀ t t', Via b t t' → inv t → inv t')
    (h : ∀ t a, inv t → Via b t (f t a).1) (L : List α) : ∀ t, inv t → Via b t (foldOut f t L).1 := by
  induction L with
  | nil => intro t _; exact Via.refl b t
  | cons a rest ih =>
    intro t it
    have ha := h t a it
    unfold foldOut
    generalize f t a = o at *
    obtain ⟨t1, e⟩ := o
    cases e with
    | some e => exact ha
    | none => exact ha.trans (ih t1 (keep _ _ ha it))

theorem via_andThen {b : Base} {t : Topology} {o : Out} {k : Topology → Out} (h : Via b t o.1)
    (hk : ∀ t1, o = (t1, none) → Via b t1 (k t1).1) : Via b t (Out.andThen o k).1 := by
  obtain ⟨t1, e⟩ := o
  cases e with
  | some e => exact h
  | none => exact h.trans (hk t1 rfl)

theorem Dict.modify_congr' {κ ν : Type} [DecidableEq κ] (d : Dict κ ν) (k : κ) (f g : ν → ν)
    (h : ∀ v, (k, v) ∈ d → f v = g v) : d.modify k f = d.modify k g := by
  unfold Dict.modify
  refine List.map_congr_left fun p hp => ?_
  split
  · rename_i e
    rw [h p.2 (by rw [← e]; exact hp)]
  · rfl

theorem Dict.modify_none {κ ν : Type} [DecidableEq κ] (d : Dict κ ν) (k : κ) (f : ν → ν)
    (h : d.get? k = none) : d.modify k f = d := by
  unfold Dict.modify
  conv_rhs => rw [← List.map_id d]
  refine List.map_congr_left fun p hp => ?_
  rw [if_neg]
  · rfl
  · rintro rfl
    have := (Dict.get?_eq_none_iff d p.1).1 h
    exact this (List.mem_map_of_mem hp)

theorem via_setSiteStatus (b : Base) [hb : Fact (b.still = false)] (t : Topology) (i : SiteId) (st : StatusType) :
    Via b t (t.setSiteStatus i st).1 := Via.step (.assign (.site i st)) hb.out
theorem via_setSectorStatus (b : Base) (t : Topology) (i : SectorId) (st : StatusType) :
    Via b t (t.setSectorStatus i st).1 := Via.step (.assign (.sector i st)) trivial
theorem via_setLinkStatus (b : Base) [hb : Fact (b.still = false)] (t : Topology) (i : LinkId) (st : StatusType) :
    Via b t (t.setLinkStatus i st).1 := Via.step (.assign (.link i st)) hb.out

theorem via_polarity {b : Base} [hb : Fact (b.still = false)] {t : Topology} (it : Inv t) (i : SiteId) (p : PolarityType) :
    Via b t { t with sites := t.sites.modify i (fun s => { s with polarity := p }) } := by
  cases h : t.sites.get? i with
  | none => rw [Dict.modify_none _ _ _ h]; exact Via.refl b t
  | some x =>
    have := Via.step (b := b) (t := t) (.write (.site i p x.breakdowns)) hb.out
    simp only [Topology.step, Topology.write, (Dict.has_iff t.sites i).2 ⟨x, h⟩, if_true] at this
    rw [Dict.modify_congr' _ _ _ (fun s => { s with polarity := p, breakdowns := x.breakdowns })]
    · exact this
    · intro v hv
      have := ((Dict.mem_iff_get? it.nd_sites _ _).1 hv).symm.trans h
      cases this
      rfl

theorem via_channel {b : Base} {t : Topology} (it : Inv t) (i : SectorId) (c : Int) :
    Via b t { t with sectors := t.sectors.modify i (fun s => { s with channel := c }) } := by
  cases h : t.sectors.get? i with
  | none => rw [Dict.modify_none _ _ _ h]; exact Via.refl b t
  | some x =>
    have := Via.step (b := b) (t := t) (.write (.sector i x.azimuth c)) trivial
    simp only [Topology.step, Topology.write, (Dict.has_iff t.sectors i).2 ⟨x, h⟩, if_true] at this
    rw [Dict.modify_congr' _ _ _ (fun s => { s with azimuth := x.azimuth, channel := c })]
    · exact this
    · intro v hv
      have := ((Dict.mem_iff_get? it.nd_sectors _ _).1 hv).symm.trans h
      cases this
      rfl

theorem via_updateSite {b : Base} [hb : Fact (b.still = false)] (sol : Solution) (t : Topology) (i : SiteId) (it : Inv t) :
    Via b t (updateSite sol t i).1 := by
  unfold updateSite
  split
  · exact Via.refl b t
  · rename_i s hs
    have h0 : Via b t (if s.status.open? then t.setSiteStatus i (decided (sol.site i)) else (t, none)).1 := by
      split
      · exact via_setSiteStatus ..
      · exact Via.refl b t
    dsimp only
    generalize (if s.status.open? then t.setSiteStatus i (decided (sol.site i)) else (t, none)) = o at *
    obtain ⟨t1, e⟩ := o
    cases e with
    | some e => exact h0
    | none =>
      dsimp only
      split
      · exact h0
      · exact h0.trans (via_polarity (h0.inv it) _ _)

theorem via_updateSector {b : Base} [hb : Fact (b.still = false)] (sol : Solution) (t : Topology) (i : SectorId) (it : Inv t) :
    Via b t (updateSector sol t i).1 := by
  unfold updateSector
  split
  · exact Via.refl b t
  · rename_i s hs
    have h0 : Via b t (if s.status.open? then t.setSectorStatus i (decided (sol.sector i)) else (t, none)).1 := by
      split
      · exact via_setSectorStatus ..
      · exact Via.refl b t
    dsimp only
    generalize (if s.status.open? then t.setSectorStatus i (decided (sol.sector i)) else (t, none)) = o at *
    obtain ⟨t1, e⟩ := o
    cases e with
    | some e => exact h0
    | none => exact h0.trans (via_channel (h0.inv it) _ _)

theorem via_updateLink {b : Base} [hb : Fact (b.still = false)] (sol : Solution) (t : Topology) (i : LinkId) :
    Via b t (updateLink sol t i).1 := by
  unfold updateLink
  split
  · exact Via.refl b t
  · split
    · exact via_setLinkStatus ..
    · exact Via.refl b t

theorem via_withdrawSite {b : Base} [hb : Fact (b.still = false)] (t : Topology) (i : SiteId) : Via b t (t.withdrawSite i).1 := by
  unfold withdrawSite
  split
  · exact Via.refl b t
  · split
    · exact via_setSiteStatus ..
    · exact Via.refl b t

theorem via_withdrawSector {b : Base} [hb : Fact (b.still = false)] (hc : Dict SiteId Nat) (t : Topology) (i : SectorId) :
    Via b t (withdrawSector hc t i).1 := by
  unfold withdrawSector
  split
  · exact Via.refl b t
  · rename_i x _
    split
    · exact Via.refl b t
    · have h0 := via_withdrawSite (b := b) t x.site
      generalize t.withdrawSite x.site = o at *
      obtain ⟨t1, e⟩ := o
      cases e with
      | some e => exact h0
      | none =>
        dsimp only
        split
        · exact h0.trans (via_setSectorStatus ..)
        · exact h0

theorem via_withdrawLink {b : Base} [hb : Fact (b.still = false)] (t : Topology) (i : LinkId) : Via b t (withdrawLink t i).1 := by
  unfold withdrawLink
  split
  · exact Via.refl b t
  · split
    · exact via_setLinkStatus ..
    · exact Via.refl b t

theorem via_apply {b : Base} [hb : Fact (b.still = false)] {t : Topology} (sol : Solution) (it : Inv t) : Via b t (applySolution sol t).1 := by
  unfold applySolution
  refine via_andThen (via_foldOut Inv (fun _ _ h i => h.inv i) (fun t a i => via_updateSite sol t a i) _ _ it) ?_
  intro t1 h1
  have v1 := via_foldOut (b := b) (f := updateSite sol) Inv (fun _ _ h i => h.inv i)
    (fun t a i => via_updateSite sol t a i) t.sites.keys _ it
  rw [h1] at v1
  have i1 : Inv t1 := v1.inv it
  refine via_andThen (via_foldOut Inv (fun _ _ h i => h.inv i) (fun t a i => via_updateSector sol t a i) _ _ i1) ?_
  intro t2 h2
  exact via_foldOut (fun _ => True) (fun _ _ _ i => i) (fun t a _ => via_updateLink sol t a) _ _ trivial

theorem via_update {b : Base} [hb : Fact (b.still = false)] {t t' : Topology} {e : Option Err} (sol : Solution) (it : Inv t)
    (h : updateWithSolution sol t = some (t', e)) : Via b t t' := by
  have h1 := via_apply (b := b) sol it
  unfold updateWithSolution at h
  generalize applySolution sol t = o at *
  obtain ⟨t1, e1⟩ := o
  cases e1 with
  | some e1 => cases h; exact h1
  | none =>
    dsimp only at h
    unfold removeDisconnected at h
    cases hh : t1.hopsFromPops StatusType.active with
    | none => rw [hh] at h; cases h
    | some hc =>
      rw [hh] at h
      simp only [Option.map_some, Option.some.injEq] at h
      have h2 : Via b t1 (Out.andThen (foldOut (withdrawSector hc) t1 t1.sectors.keys) fun t1 =>
          foldOut withdrawLink t1 t1.links.keys).1 := by
        refine via_andThen (via_foldOut (fun _ => True) (fun _ _ _ i => i)
          (fun t a _ => via_withdrawSector hc t a) _ _ trivial) ?_
        intro t2 _
        exact via_foldOut (fun _ => True) (fun _ _ _ i => i) (fun t a _ => via_withdrawLink t a) _ _ trivial
      rw [h] at h2
      exact h1.trans h2

theorem via_markLinks {b : Base} [hb : Fact (b.still = false)] (mk : SiteId → LinkId) (L : List SiteId) :
    ∀ t : Topology, Via b t (t.markLinks mk L).1 := by
  induction L with
  | nil => intro t; exact Via.refl b t
  | cons o rest ih =>
    intro t
    unfold markLinks
    split
    · exact Via.refl b t
    · exact Via.refl b t
    · rename_i l _
      have h0 := via_setLinkStatus b t l.id .unreachable
      generalize t.setLinkStatus l.id .unreachable = o at *
      obtain ⟨t1, e⟩ := o
      cases e with
      | some e => exact h0
      | none => exact h0.trans (ih t1)

theorem via_markSite {b : Base} [hb : Fact (b.still = false)] (hc : Dict SiteId Nat) (lim : Option Nat) (i : SiteId) (t : Topology) :
    Via b t (t.markSite hc lim i).1 := by
  unfold markSite
  split
  · exact Via.refl b t
  · split
    · have h0 := via_setSiteStatus b t i .unreachable
      generalize t.setSiteStatus i .unreachable = o at *
      obtain ⟨t1, e⟩ := o
      cases e with
      | some e => exact h0
      | none =>
        dsimp only
        split
        · exact h0
        · rename_i succ _
          have h1 := via_markLinks (b := b) (fun o => (⟨i, o⟩ : LinkId)) (succ.map (·.id)) t1
          generalize t1.markLinks (fun o => (⟨i, o⟩ : LinkId)) (succ.map (·.id)) = o at *
          obtain ⟨t2, e⟩ := o
          cases e with
          | some e => exact h0.trans h1
          | none =>
            dsimp only
            split
            · exact h0.trans h1
            · exact (h0.trans h1).trans (via_markLinks ..)
    · exact Via.refl b t

theorem via_markSites {b : Base} [hb : Fact (b.still = false)] (hc : Dict SiteId Nat) (lim : Option Nat) (L : List SiteId) :
    ∀ t : Topology, Via b t (t.markSites hc lim L).1 := by
  induction L with
  | nil => intro t; exact Via.refl b t
  | cons i rest ih =>
    intro t
    unfold markSites
    have h0 := via_markSite (b := b) hc lim i t
    generalize t.markSite hc lim i = o at *
    obtain ⟨t1, e⟩ := o
    cases e with
    | some e => exact h0
    | none => exact h0.trans (ih t1)

theorem via_markSectors {b : Base} [hb : Fact (b.still = false)] (L : List SectorId) :
    ∀ t : Topology, Via b t (t.markSectors L).1 := by
  induction L with
  | nil => intro t; exact Via.refl b t
  | cons i rest ih =>
    intro t
    unfold markSectors
    split
    · exact Via.refl b t
    · split
      · have h0 := via_setSectorStatus b t i .unreachable
        generalize t.setSectorStatus i .unreachable = o at *
        obtain ⟨t1, e⟩ := o
        cases e with
        | some e => exact h0
        | none => exact h0.trans (ih t1)
      · exact ih t

theorem via_mark {b : Base} [hb : Fact (b.still = false)] {t t' : Topology} {e : Option Err} (lim : Option Nat)
    (h : t.markUnreachable lim = some (t', e)) : Via b t t' := by
  unfold markUnreachable at h
  cases hh : t.hopsFromPops StatusType.reachable with
  | none => rw [hh] at h; cases h
  | some hc =>
    rw [hh] at h
    simp only [Option.map_some, Option.some.injEq] at h
    have h0 := via_markSites (b := b) hc lim t.sites.keys t
    generalize t.markSites hc lim t.sites.keys = o at *
    obtain ⟨t1, e1⟩ := o
    cases e1 with
    | some e1 => cases h; exact h0
    | none =>
      have h1 := via_markSectors (b := b) t1.sectors.keys t1
      dsimp only at h
      rw [h] at h1
      exact h0.trans h1

end Topology
end Verif
