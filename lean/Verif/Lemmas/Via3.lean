import Verif.Lemmas.Via2
import Verif.Model.Pipeline
import Verif.Props.Pipeline

/-! # Steps that leave the sites and the link statuses alone, and the phases of a run -/

namespace Verif
namespace Topology

/-- Sites are the same, links differ at most in their sectors. -/
structure Still (t t' : Topology) : Prop where
  site : ∀ i, t'.sites.get? i = t.sites.get? i
  link : ∀ i, Option.Rel (fun l l' : Link => l' = { l with sectors := l'.sectors }) (t.links.get? i) (t'.links.get? i)

theorem link_refl (o : Option Link) : Option.Rel (fun l l' : Link => l' = { l with sectors := l'.sectors }) o o := by
  cases o
  · exact .none
  · exact .some rfl

theorem Still.refl (t : Topology) : Still t t := ⟨fun _ => rfl, fun _ => link_refl _⟩

theorem Still.trans {t u v : Topology} (h : Still t u) (g : Still u v) : Still t v :=
  ⟨fun i => (g.site i).trans (h.site i), fun i => rel_trans (R := fun l l' : Link => l' = { l with sectors := l'.sectors })
    (fun {a b c} e1 e2 => by rw [e2, e1]) (h.link i) (g.link i)⟩

theorem Still.same {t t' : Topology} (hs : t'.sites = t.sites) (hl : t'.links = t.links) : Still t t' :=
  ⟨fun i => by rw [hs], fun i => by rw [hl]; exact link_refl _⟩

theorem clearLoop_still (sel : SectorId × SectorId → SectorId) (sid : SectorId) (ids : List LinkId) :
    ∀ t : Topology, Still t (t.clearLoop sel sid ids).1 := by
  induction ids with
  | nil => exact fun t => Still.refl t
  | cons id rest ih =>
    intro t
    unfold clearLoop
    split
    · exact Still.refl t
    · rename_i l hl
      refine Still.trans ?_ (ih _)
      split
      · refine ⟨fun _ => rfl, fun i => ?_⟩
        simp only [clearLinkSectors, Dict.get?_modify]
        split
        · cases t.links.get? i
          · exact .none
          · exact .some rfl
        · exact link_refl _
      · exact Still.refl t

theorem step_still {b : Base} {t : Topology} (hb : b.still = true) (it : Inv t) (o : Op) (h : Gentle b o) :
    Still t (t.step o).1 := by
  have no : ∀ {q : Prop}, b.still = false → q := fun c => by rw [hb] at c; cases c
  cases o with
  | addSite s d => exact no h.1
  | removeSite s => exact h.elim
  | addDemandSite d => exact no h.1
  | removeDemandSite d => exact h.elim
  | addSector s =>
    simp only [Topology.step, Topology.addSector]
    split
    · exact Still.refl t
    split
    · exact Still.same rfl rfl
    · exact Still.refl t
  | removeSector s =>
    simp only [Topology.step]
    unfold Topology.removeSector
    split
    · exact Still.refl t
    · rename_i sec hx
      split
      · have l1 := clearLoop_still Prod.fst s ((t.conn.get? sec.site).getD []).vals t
        generalize t.clearLoop Prod.fst s ((t.conn.get? sec.site).getD []).vals = o at *
        obtain ⟨t1, e1⟩ := o
        cases e1 with
        | some e => exact l1
        | none =>
          dsimp only
          have l2 := clearLoop_still Prod.snd s ((t1.connRev.get? sec.site).getD []).vals t1
          generalize t1.clearLoop Prod.snd s ((t1.connRev.get? sec.site).getD []).vals = o at *
          obtain ⟨t2, e2⟩ := o
          cases e2 with
          | some e => exact l1.trans l2
          | none =>
            dsimp only
            refine l1.trans (l2.trans ?_)
            split
            · exact Still.same rfl rfl
            · exact Still.refl _
      · exact Still.refl t
  | addLink l => exact no h.1
  | removeLink l => exact h.elim
  | assign a =>
    cases a with
    | site => exact no h
    | link => exact no h
    | sector i st =>
      simp only [Topology.step, Topology.assign]
      unfold setSectorStatus
      split
      · exact Still.refl t
      split
      · split
        · exact Still.refl t
        · split
          · exact Still.same rfl rfl
          · exact Still.refl t
      · exact Still.refl t
  | write w =>
    cases w with
    | link => exact h.elim
    | site => exact no h
    | sector i a c =>
      simp only [Topology.step, Topology.write]
      split
      · exact Still.same rfl rfl
      · exact Still.refl t
    | linkSectors i secs =>
      have aux : ∀ f : Link → Link, (∀ l, ∃ s, f l = { l with sectors := s }) →
          Still t { t with links := t.links.modify i f } := by
        intro f hf
        refine ⟨fun _ => rfl, fun j => ?_⟩
        dsimp only
        rw [Dict.get?_modify]
        split
        · cases t.links.get? j with
          | none => exact .none
          | some l =>
            refine .some ?_
            obtain ⟨s, e⟩ := hf l
            rw [e]
        · exact link_refl _
      simp only [Topology.step, Topology.write]
      split
      · exact Still.refl t
      · split
        · split
          · exact aux _ (fun l => ⟨_, rfl⟩)
          · exact Still.refl t
        · exact aux _ (fun l => ⟨_, rfl⟩)
  | sort =>
    refine ⟨fun i => ?_, fun i => ?_⟩
    · simp only [Topology.step]
      exact (get?_sort it).1 i
    · simp only [Topology.step]
      rw [(get?_sort it).2.2.1]
      exact link_refl _

theorem Via.still_ {b : Base} {t t' : Topology} (hb : b.still = true) (it : Inv t) (h : Via b t t') : Still t t' := by
  obtain ⟨ops, hg, rfl⟩ := h
  induction ops generalizing t with
  | nil => exact Still.refl t
  | cons o rest ih =>
    exact (step_still hb it o (hg o (List.mem_cons_self ..))).trans
      (ih (t := (t.step o).1) (it.step o) (fun o ho => hg o (List.mem_cons_of_mem _ ho)))

theorem readjust_still {t : Topology} (it : Inv t) (g : Geometry) (best : SiteId → List (List ℚ)) :
    Still t (t.readjust g best).1 :=
  Via.still_ (b := ⟨t, true, true, False⟩) rfl it (via_readjust rfl it g best)

/-- The states of a run that succeeds. -/
structure Phases (O : Outside) (p : RunParams) (t0 t1 t2 t3 t4 t5 t6 : Topology) : Prop where
  pops : popStep O p t0.sort = some (t1, none)
  mark : t1.markUnreachable p.maxHops = some (t2, none)
  cost : costStep O { p.toOptParams with ignorePolarities := false } t2 = some (t3, none)
  second : secondStep O { p with ignorePolarities := false } t3 = some (t4, none)
  interf : interferenceStep O { p.toOptParams with ignorePolarities := false } t4 = some (t5, none)
  adjust : t5.readjust (O.geo t5) (O.best t5) = (t6, none)

theorem Phase.next_none {r : Phase} {k : Topology → Option Phase} {t : Topology} (h : r.next k = some (t, none)) :
    r = (r.1, none) ∧ k r.1 = some (t, none) := by
  obtain ⟨a, e⟩ := r
  cases e with
  | some e => simp [Phase.next] at h
  | none => exact ⟨rfl, h⟩

theorem phases {O : Outside} {p : RunParams} {t0 t' : Topology} (h : optimize O p t0 = some (t', none)) :
    ∃ t1 t2 t3 t4 t5, Phases O p t0 t1 t2 t3 t4 t5 t' := by
  unfold optimize at h
  dsimp only at h
  rw [Option.bind_eq_some_iff] at h
  obtain ⟨r1, h1, h⟩ := h
  obtain ⟨e1, h⟩ := Phase.next_none h
  rw [e1] at h1
  rw [Option.bind_eq_some_iff] at h
  obtain ⟨r2, h2, h⟩ := h
  obtain ⟨e2, h⟩ := Phase.next_none h
  rw [e2, Option.map_eq_some_iff] at h2
  obtain ⟨⟨a, e⟩, ha, hb⟩ := h2
  have : a = r2.1 ∧ e = none := by
    simp only [Out.phase, Prod.mk.injEq, Option.map_eq_none_iff] at hb
    exact hb
  obtain ⟨rfl, rfl⟩ := this
  rw [Option.bind_eq_some_iff] at h
  obtain ⟨r3, h3, h⟩ := h
  obtain ⟨e3, h⟩ := Phase.next_none h
  rw [e3] at h3
  rw [Option.bind_eq_some_iff] at h
  obtain ⟨r4, h4, h⟩ := h
  obtain ⟨e4, h⟩ := Phase.next_none h
  rw [e4] at h4
  rw [Option.bind_eq_some_iff] at h
  obtain ⟨r5, h5, h⟩ := h
  obtain ⟨e5, h⟩ := Phase.next_none h
  rw [e5] at h5
  refine ⟨_, _, _, _, _, h1, ha, h3, h4, h5, ?_⟩
  simp only [Out.phase, Option.some.injEq, Prod.mk.injEq, Option.map_eq_none_iff] at h
  exact Prod.ext h.1 h.2

/-- Up to the readjustment of the sectors. -/
theorem Phases.via {O : Outside} {p : RunParams} {t0 t1 t2 t3 t4 t5 t6 : Topology} (i0 : Inv t0)
    (h : Phases O p t0 t1 t2 t3 t4 t5 t6) :
    let b : Base := ⟨t0, false, false, p.extraPops ≠ 0⟩
    Via b t0 t1 ∧ Via b t0 t2 ∧ Via b t0 t3 ∧ Via b t0 t4 ∧ Via b t0 t5 := by
  intro b
  have hbt : Fact (b.still = false) := ⟨rfl⟩
  have v0 : Via b t0 t0.sort := Via.step .sort trivial
  have i1 := v0.inv i0
  have v1 := v0.trans (via_popStep id i0 i1 (v0.extends_ i0 i0 (Extends.refl _ _)) h.pops)
  have v2 := v1.trans (via_mark (b := b) _ h.mark)
  have v3 := v2.trans (via_costStep (v2.inv i0) h.cost)
  have v4 := v3.trans (via_secondStep (v3.inv i0) h.second)
  have v5 := v4.trans (via_interferenceStep (v4.inv i0) h.interf)
  exact ⟨v1, v2, v3, v4, v5⟩

/-- The interference step, if it succeeds, applies a plan. -/
theorem interf_applied {O : Outside} {p : OptParams} {t t' : Topology} (h : interferenceStep O p t = some (t', none)) :
    ∃ sol, updateWithSolution sol t = some (t', none) := by
  have aux : ∀ sol, (updateWithSolution sol t).map Out.phase = some (t', none) → ∃ sol, updateWithSolution sol t = some (t', none) := by
    intro sol q
    rw [Option.map_eq_some_iff] at q
    obtain ⟨⟨a, e⟩, ha, hb⟩ := q
    have : a = t' ∧ e = none := by
      simp only [Out.phase, Prod.mk.injEq, Option.map_eq_none_iff] at hb
      exact hb
    obtain ⟨rfl, rfl⟩ := this
    exact ⟨sol, ha⟩
  unfold interferenceStep at h
  split at h
  · simp at h
  · dsimp only at h
    split at h
    · simp at h
    · split at h
      · simp at h
      · split at h
        · simp at h
        · split at h
          · simp at h
          · simp at h
          · exact aux _ h

theorem update_split {sol : Solution} {t t' : Topology} (h : updateWithSolution sol t = some (t', none)) :
    applySolution sol t = ((applySolution sol t).1, none) ∧ (applySolution sol t).1.removeDisconnected = some (t', none) := by
  unfold updateWithSolution at h
  generalize applySolution sol t = o at *
  obtain ⟨a, _ | e⟩ := o
  · exact ⟨rfl, h⟩
  · simp at h

end Topology
end Verif
