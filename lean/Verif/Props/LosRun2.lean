import Verif.Props.LosRun

/-!
# The links of the LOS phase are complete
-/

namespace Verif
open Topology LosBuild LosRun

/-- **C165 (partial), completeness.** Under the same assumptions, with distinct ids of the new sites: any two new sites
of the topology, given or detected, that see each other are joined, unless the first is a client site, or both are POPs,
or they are beyond the limits for their devices. Together with `C165_candidate_graph_partial` the links between new sites
are exactly these. -/
theorem C165_complete_partial (conf : LosSite → LosSite → ℚ) (P : LosLimits) (order : List Nat → List Nat)
    (ho : ∀ L, (order L).Perm L) (detection dep : Bool) (D : DetectCfg) (devs : List Device) (fresh : List LosPoint)
    (ops : List Op) (place : Site → LosSite) (t : Topology)
    (hp : ByPlace conf ((losPoints fresh (run {} ops) place).map LosPoint.place))
    (hpl : ∀ x ∈ losPoints fresh (run {} ops) place, x.Placed)
    (hd : detection = true ∨ ∀ x ∈ fresh, ∃ s p, x = .given s p)
    (hid : ((fresh.flatMap (LosPoint.sites devs)).map Site.id).Nodup)
    (h : generateCandidates conf P order detection dep D devs fresh (run {} ops) place = .ok t)
    (x y : LosPoint) (hx : x ∈ fresh) (hy : y ∈ fresh) (hxy : x ≠ y)
    (a b : Site) (ha : a ∈ x.asIs devs) (hb : b ∈ y.sites devs)
    (na : (run {} ops).sites.get? a.id = none) (nb : (run {} ops).sites.get? b.id = none)
    (ta : t.sites.get? a.id ≠ none) (tb : t.sites.get? b.id ≠ none)
    (hcn : x.typ ≠ .cn) (hl : Linkable x.typ y.typ) (hpos : 0 < conf x.place y.place) (hin : InLimits P a b) :
    t.sites.get? a.id = some a ∧ t.sites.get? b.id = some b ∧
    ∃ l, t.links.get? ⟨a.id, b.id⟩ = some l ∧ l.tx = a.id ∧ l.rx = b.id ∧ l.status = .candidate
      ∧ l.isWireless = true ∧ l.confidence = some (conf x.place y.place) := by
  have inv : Inv (run {} ops) := Inv.empty.run ops
  obtain ⟨S, ch, e, K⟩ := picks (dep := dep) (detection := detection) ho hp hpl
  have K := K hd
  unfold generateCandidates at h
  split at h
  · cases h
  unfold buildCandidates at h
  rw [e] at h
  dsimp only at h
  obtain ⟨c1, -⟩ := C26_links_partial _ _ _ _ _ _ _ h
  have there : ∀ (z : LosPoint) (s : Site), z ∈ fresh → s ∈ z.sites devs → (run {} ops).sites.get? s.id = none →
      t.sites.get? s.id ≠ none → t.sites.get? s.id = some s ∧
        ∃ i j0, i ∈ S.picked ∧ Behind (losPoints fresh (run {} ops) place) ch devs i j0 z s := by
    intro z s hz hs ns ts
    obtain ⟨s', hs'⟩ := Option.ne_none_iff_exists'.1 ts
    rcases c1 _ _ hs' with h' | ⟨i, ho', e'⟩
    · rw [ns] at h'
      cases h'
    · obtain ⟨hi, j0, z', bz⟩ := (K.offers devs i s').1 ho'
      obtain ⟨j, hj⟩ := List.mem_iff_getElem?.1 hz
      have f := bz.fresh inv (by rw [e']; exact ns)
      have ej := flatMap_ids hid f hj bz.mem hs e'
      subst ej
      rw [hj] at f
      cases f
      have nd : ((z.sites devs).map Site.id).Nodup := by
        obtain ⟨A, B, hAB⟩ := List.append_of_mem hz
        rw [hAB] at hid
        simp only [List.flatMap_append, List.flatMap_cons, List.map_append] at hid
        exact (List.nodup_append.1 (List.nodup_append.1 hid).2.1).1
      have es := map_inj_of_nodup nd bz.mem hs e'
      subst es
      exact ⟨hs', i, j0, hi, bz⟩
  obtain ⟨sa, i, i0, pi, bi⟩ := there x a hx (List.mem_append_left _ ha) na ta
  obtain ⟨sb, j, j0, pj, bj⟩ := there y b hy hb nb tb
  have ei : i = i0 := by
    obtain ⟨k, hk⟩ := List.mem_iff_getElem?.1 hx
    have hlt := (List.getElem?_eq_some_iff.1 hk).1
    have b' : Behind (losPoints fresh (run {} ops) place) ch devs i0 i0 x a := ⟨bi.1, .inl ⟨rfl, ha⟩⟩
    exact (unique inv K hid b' bi na rfl).1
  subst ei
  exact ⟨sa, sb, linked K hid h bi.1 ha pi bj pj na nb (by rintro rfl; exact hxy (Option.some.inj (bi.1.symm.trans bj.1)))
    hl hcn hpos hin⟩

/-- C165: the link from the DN on the roof to the given DN. -/
example : ((generateCandidates runConf runLimits id true true ⟨true, true, true⟩ [runDn, runCn] (runFresh .candidate)
      (run {} runBase) fun _ => ⟨20, 0, none, .streetLevel, none⟩).toOption.bind fun t =>
        (t.links.get? ⟨"XD", "Q"⟩).map fun l => (l.tx, l.rx, l.status, l.isWireless, l.confidence))
    = some ("XD", "Q", .candidate, true, some (9 / 10)) := by
  decide +kernel

end Verif
