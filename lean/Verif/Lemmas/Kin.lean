import Verif.Lemmas.Via3
import Verif.Props.Phases
import Verif.Props.Mark
import Verif.Props.Pipeline2

/-! # The phases of a run without extra POPs only decide -/

namespace Verif
open Spec
namespace Topology

/-- Sites up to status and polarity, links up to the status, sectors up to their attributes. -/
structure Kin (t t' : Topology) : Prop where
  site : ∀ i, Option.Rel (fun s s' : Site => s' = { s with status := s'.status, polarity := s'.polarity })
    (t.sites.get? i) (t'.sites.get? i)
  link : ∀ i, Option.Rel (fun l l' : Link => l' = { l with status := l'.status }) (t.links.get? i) (t'.links.get? i)
  sector : ∀ k, (∃ x, t'.sectors.get? k = some x) ↔ ∃ x, t.sectors.get? k = some x

theorem Kin.trans {t u v : Topology} (h : Kin t u) (g : Kin u v) : Kin t v :=
  ⟨fun i => rel_trans (R := fun s s' : Site => s' = { s with status := s'.status, polarity := s'.polarity })
      (fun {a b c} e1 e2 => by rw [e2, e1]) (h.site i) (g.site i),
    fun i => rel_trans (R := fun l l' : Link => l' = { l with status := l'.status })
      (fun {a b c} e1 e2 => by rw [e2, e1]) (h.link i) (g.link i),
    fun k => (g.sector k).trans (h.sector k)⟩

theorem kin_map_site (f : Site → Site) (hf : ∀ s, f s = { s with status := (f s).status, polarity := (f s).polarity })
    (o : Option Site) : Option.Rel (fun s s' : Site => s' = { s with status := s'.status, polarity := s'.polarity })
      o (o.map f) := by
  cases o
  · exact .none
  · exact .some (hf _)

theorem kin_map_link (f : Link → Link) (hf : ∀ l, f l = { l with status := (f l).status })
    (o : Option Link) : Option.Rel (fun l l' : Link => l' = { l with status := l'.status }) o (o.map f) := by
  cases o
  · exact .none
  · exact .some (hf _)

theorem kin_site_refl (o : Option Site) :
    Option.Rel (fun s s' : Site => s' = { s with status := s'.status, polarity := s'.polarity }) o o := by
  cases o
  · exact .none
  · exact .some rfl

theorem kin_link_refl (o : Option Link) : Option.Rel (fun l l' : Link => l' = { l with status := l'.status }) o o := by
  cases o
  · exact .none
  · exact .some rfl

theorem kin_sort {t : Topology} (i : Inv t) : Kin t t.sort := by
  obtain ⟨h1, h2, h3, -⟩ := get?_sort i
  refine ⟨fun i => ?_, fun i => ?_, fun k => by rw [h2]⟩
  · rw [h1]; exact kin_site_refl _
  · rw [h3]; exact kin_link_refl _

theorem Kin.refl (t : Topology) : Kin t t :=
  ⟨fun _ => kin_site_refl _, fun _ => kin_link_refl _, fun _ => Iff.rfl⟩

theorem kin_mark {t t' : Topology} (i : Inv t) {limit : Option Nat} (h : t.markUnreachable limit = some (t', none)) :
    Kin t t' := by
  classical
  obtain ⟨h1, h2, h3, -⟩ := mark_exact i limit t' h
  refine ⟨fun i => ?_, fun i => ?_, fun k => ?_⟩
  · rw [h1]; exact kin_map_site _ (fun s => by split <;> rfl) _
  · rw [h2]; exact kin_map_link _ (fun s => by split <;> rfl) _
  · rw [h3]; simp

theorem kin_update {t t' : Topology} (i : Inv t) {sol : Solution} (h : updateWithSolution sol t = some (t', none)) :
    Kin t t' := by
  obtain ⟨ha, hd⟩ := update_split h
  have ia : Inv (applySolution sol t).1 := Via.inv (b := ⟨t, false, false, False⟩)
    (via_apply (hb := ⟨rfl⟩) sol i) i
  obtain ⟨h1, h2, h3, -⟩ := C12_proposed_iff_decided sol t _ ha
  obtain ⟨-, k2, k3, k4, k5, k6⟩ := removeDisconnected_spec ia hd
  have a : Kin t (applySolution sol t).1 := by
    refine ⟨fun i => ?_, fun i => ?_, fun k => ?_⟩
    · rw [h1]; exact kin_map_site _ (fun _ => rfl) _
    · rw [h3]; exact kin_map_link _ (fun _ => rfl) _
    · rw [h2]; simp
  refine a.trans ⟨fun i => ?_, fun i => ?_, fun k => ?_⟩
  · cases hs : (applySolution sol t).1.sites.get? i with
    | none => rw [k6 i hs]; exact .none
    | some s =>
      obtain ⟨s', hs', c1, c2⟩ := k2 i s hs
      rw [hs']
      refine .some ?_
      by_cases c : (s.status = .proposed ∨ s.status = .candidate) ∧ ¬ ConnectedActive (applySolution sol t).1 i ∧
          ∃ k x, (applySolution sol t).1.sectors.get? k = some x ∧ x.site = i
      · rw [c1 c.1 c.2.1 c.2.2]
      · rw [c2 c]
  · rw [k3]; exact kin_map_link _ (fun s => by split <;> rfl) _
  · constructor
    · rintro ⟨x, hx⟩
      cases hy : (applySolution sol t).1.sectors.get? k with
      | none => rw [k5 k hy] at hx; cases hx
      | some y => exact ⟨y, rfl⟩
    · rintro ⟨y, hy⟩
      obtain ⟨y', hy', -⟩ := k4 k y hy
      exact ⟨y', hy'⟩

/-- The second step, if it does not end the run, leaves the topology or applies a plan. -/
theorem second_applied {O : Outside} {p : RunParams} {t t' : Topology} (h : secondStep O p t = some (t', none)) :
    t' = t ∨ ∃ sol, updateWithSolution sol t = some (t', none) := by
  have same : some (t, (none : Option Halt)) = some (t', none) → t' = t ∨ ∃ sol, updateWithSolution sol t = some (t', none) := by
    intro q; cases q; exact .inl rfl
  unfold secondStep at h
  split at h
  · unfold coverageStep at h
    split at h
    · exact same h
    · split at h
      · simp at h
      · dsimp only at h
        split at h
        · simp at h
        · split at h
          · exact same h
          · split at h
            · exact same h
            · split at h
              · simp at h
              · exact same h
              · exact .inr ⟨_, phase_none h⟩
  · unfold redundancyStep at h
    split at h
    · exact same h
    · dsimp only at h
      split at h
      · simp at h
      · split at h
        · simp at h
        · split at h
          · exact same h
          · exact .inr ⟨_, phase_none h⟩

theorem pops_none {O : Outside} {p : RunParams} {t t' : Topology} (h0 : p.extraPops = 0)
    (h : popStep O p t = some (t', none)) : t' = t := by
  unfold popStep at h
  rw [if_pos h0] at h
  simp only [Option.some.injEq, Prod.mk.injEq] at h
  exact h.1.symm

/-- What the interference step did when it did not end the run. -/
theorem interf_found {O : Outside} {p : OptParams} {t t' : Topology} (h : interferenceStep O p t = some (t', none)) :
    ∃ I f sol cost, O.interf t = .ok I ∧ (O.interference ⟨t, p⟩ I).found = some f ∧
      (Plan.mk t p).iExtract I.channels f.vars f.flow f.common = .ok (some (sol, cost)) ∧
      updateWithSolution sol t = some (t', none) := by
  unfold interferenceStep at h
  split at h
  · simp at h
  · rename_i I hI
    dsimp only at h
    split at h
    · simp at h
    · split at h
      · simp at h
      · split at h
        · simp at h
        · rename_i f hf
          split at h
          · simp at h
          · simp at h
          · rename_i sol cost hs
            exact ⟨I, f, sol, cost, hI, hf, hs, phase_none h⟩

end Topology
end Verif
