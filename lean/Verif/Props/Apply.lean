import Verif.Props.Solution

/-! # C84: applying a consistent plan never fails -/

namespace Verif

/-- The status up to the difference between CANDIDATE and PROPOSED. -/
def StatusType.kind (st : StatusType) : StatusType := if st.open? then .candidate else st

theorem StatusType.kind_decided {st : StatusType} (h : st.open? = true) (d : Int) :
    (decided d).kind = st.kind := by
  unfold decided; split <;> cases st <;> simp [StatusType.open?, StatusType.immutable] at h ⊢ <;>
    simp [StatusType.kind, StatusType.open?, StatusType.immutable]

theorem StatusType.open_kind {st st' : StatusType} (h : st.kind = st'.kind) :
    st.open? = st'.open? ∧ st.inactive = st'.inactive := by
  cases st <;> cases st' <;> simp [StatusType.kind, StatusType.open?, StatusType.immutable,
    StatusType.inactive] at h ⊢

namespace Topology
open Spec

/-- `t'` has the same objects as `t` with the same kinds of status. -/
structure SameKind (t t' : Topology) : Prop where
  sites : ∀ i, (t'.sites.get? i).map (fun s => s.status.kind) =
    (t.sites.get? i).map (fun s => s.status.kind)
  sectors : ∀ i, (t'.sectors.get? i).map (fun d => (d.site, d.status.kind)) =
    (t.sectors.get? i).map (fun d => (d.site, d.status.kind))
  links : ∀ i, (t'.links.get? i).map (fun l => (l.tx, l.rx, l.status.kind)) =
    (t.links.get? i).map (fun l => (l.tx, l.rx, l.status.kind))

theorem SameKind.refl (t : Topology) : SameKind t t := ⟨fun _ => rfl, fun _ => rfl, fun _ => rfl⟩

theorem SameKind.trans {a b c : Topology} (h1 : SameKind a b) (h2 : SameKind b c) : SameKind a c :=
  ⟨fun i => (h2.sites i).trans (h1.sites i), fun i => (h2.sectors i).trans (h1.sectors i),
    fun i => (h2.links i).trans (h1.links i)⟩

theorem map_modify {κ ν β : Type} [DecidableEq κ] (d : Dict κ ν) (k : κ) (f : ν → ν) (g : ν → β)
    (h : ∀ v, d.get? k = some v → g (f v) = g v) (i : κ) :
    ((d.modify k f).get? i).map g = (d.get? i).map g := by
  rw [Dict.get?_modify]
  by_cases c : k = i
  · subst c
    rw [if_pos rfl]
    cases hd : d.get? k with
    | none => rfl
    | some v => simp [h v hd]
  · rw [if_neg c]

/-- Objects that may change status are not attached to ruled-out sites. -/
structure Calm (t : Topology) : Prop where
  sector : ∀ k d, t.sectors.get? k = some d → d.status.open? = true →
    ∃ s, t.sites.get? d.site = some s ∧ s.status.inactive = false
  link : ∀ i l, t.links.get? i = some l → l.status.open? = true →
    (∃ s, t.sites.get? l.tx = some s ∧ s.status.inactive = false) ∧
    (∃ s, t.sites.get? l.rx = some s ∧ s.status.inactive = false)

theorem map_some_of {α β : Type} {o o' : Option α} {g : α → β} (h : o'.map g = o.map g) {v : α}
    (hv : o' = some v) : ∃ w, o = some w ∧ g w = g v := by
  subst hv
  cases o with
  | none => cases h
  | some w => exact ⟨w, rfl, by simpa using h.symm⟩

theorem Calm.site_mono {t t' : Topology} (hs : SameKind t t') {i : SiteId}
    (h : ∃ s, t.sites.get? i = some s ∧ s.status.inactive = false) :
    ∃ s, t'.sites.get? i = some s ∧ s.status.inactive = false := by
  obtain ⟨s, h1, h2⟩ := h
  obtain ⟨w, h3, h4⟩ := map_some_of (hs.sites i).symm h1
  exact ⟨w, h3, by rw [(StatusType.open_kind h4).2]; exact h2⟩

theorem Calm.mono {t t' : Topology} (hs : SameKind t t') (h : Calm t) : Calm t' := by
  constructor
  · intro k d hd ho
    obtain ⟨w, h1, h2⟩ := map_some_of (hs.sectors k) hd
    simp only [Prod.mk.injEq] at h2
    rw [← h2.1]
    exact site_mono hs (h.sector k w h1 (by rw [(StatusType.open_kind h2.2).1]; exact ho))
  · intro i l hl ho
    obtain ⟨w, h1, h2⟩ := map_some_of (hs.links i) hl
    simp only [Prod.mk.injEq] at h2
    obtain ⟨h3, h4⟩ := h.link i w h1 (by rw [(StatusType.open_kind h2.2.2).1]; exact ho)
    rw [← h2.1, ← h2.2.1]
    exact ⟨site_mono hs h3, site_mono hs h4⟩

theorem mutable_decided {st : StatusType} (h : st.open? = true) (d : Int) :
    statusMutable st (decided d) = true := by
  rw [open_iff] at h
  unfold decided
  rcases h with h | h <;> rw [h] <;> split <;> rfl

theorem foldOut_total {α : Type} {f : Topology → α → Out} (I : Topology → Prop) (L : List α)
    (hf : ∀ t, I t → ∀ a ∈ L, ∃ t', f t a = (t', none) ∧ I t') :
    ∀ t, I t → ∃ t', foldOut f t L = (t', none) ∧ I t' := by
  induction L with
  | nil => intro t h; exact ⟨t, rfl, h⟩
  | cons a L ih =>
    intro t h
    obtain ⟨t1, h1, h2⟩ := hf t h a (by simp)
    obtain ⟨t2, h3, h4⟩ := ih (fun t ht b hb => hf t ht b (by simp [hb])) t1 h2
    exact ⟨t2, by unfold foldOut; rw [h1]; exact h3, h4⟩

theorem key_same {κ ν β : Type} [DecidableEq κ] {d d' : Dict κ ν} {g : ν → β}
    (h : ∀ i, (d'.get? i).map g = (d.get? i).map g) {i : κ} (hi : i ∈ d.keys) :
    ∃ v, d'.get? i = some v := by
  obtain ⟨v, hv⟩ := (Dict.mem_keys_iff _ _).1 hi
  obtain ⟨w, hw, _⟩ := map_some_of (h i).symm hv
  exact ⟨w, hw⟩

theorem setSite_total {t : Topology} {i : SiteId} {s : Site} (hs : t.sites.get? i = some s)
    (ho : s.status.open? = true) (d : Int) :
    ∃ t', t.setSiteStatus i (decided d) = (t', none) ∧ SameKind t t' ∧
      t' = { t with sites := t.sites.modify i (fun s => { s with status := decided d }) } := by
  refine ⟨{ t with sites := t.sites.modify i (fun s => { s with status := decided d }) }, ?_,
    ⟨?_, fun _ => rfl, fun _ => rfl⟩, rfl⟩
  · unfold setSiteStatus; rw [hs]; dsimp only; rw [if_pos (mutable_decided ho d)]
  · intro j
    dsimp only
    apply map_modify
    intro v hv; rw [hs] at hv; injection hv with hv; subst hv
    exact StatusType.kind_decided ho d

theorem updateSite_total {sol : Solution} (hp : ∀ s, ¬ (sol.odd s = 1 ∧ sol.even s = 1))
    {t : Topology} {i : SiteId} {s : Site} (hs : t.sites.get? i = some s) :
    ∃ t', updateSite sol t i = (t', none) ∧ SameKind t t' := by
  have hset : ∃ t1, (if s.status.open? then t.setSiteStatus i (decided (sol.site i)) else (t, none))
      = (t1, none) ∧ SameKind t t1 := by
    split
    · rename_i ho
      obtain ⟨t1, h1, h2, _⟩ := setSite_total hs ho (sol.site i)
      exact ⟨t1, h1, h2⟩
    · exact ⟨t, rfl, SameKind.refl t⟩
  obtain ⟨t1, h1, h2⟩ := hset
  unfold updateSite
  rw [hs]
  dsimp only
  rw [h1]
  dsimp only
  rw [if_neg (hp i)]
  refine ⟨_, rfl, h2.trans ⟨?_, fun _ => rfl, fun _ => rfl⟩⟩
  intro j
  dsimp only
  apply map_modify
  intro _ _; rfl

theorem setSector_total {t : Topology} {k : SectorId} {d : Sector} (hk : t.sectors.get? k = some d)
    (ho : d.status.open? = true) {s : Site} (hs : t.sites.get? d.site = some s)
    (hi : s.status.inactive = false) (n : Int) (hc : n = 1 → s.status.active = true) :
    ∃ t', t.setSectorStatus k (decided n) = (t', none) ∧ SameKind t t' ∧ t'.sites = t.sites := by
  refine ⟨{ t with sectors := t.sectors.modify k (fun s => { s with status := decided n }) }, ?_,
    ⟨fun _ => rfl, ?_, fun _ => rfl⟩, rfl⟩
  · unfold setSectorStatus siteStatus
    rw [hk]; dsimp only; rw [if_pos (mutable_decided ho n), hs]
    have : sectorCompat s.status (decided n) = true := by
      unfold decided
      split
      · rename_i h1
        have := hc h1
        unfold sectorCompat; rw [if_pos this]; rfl
      · cases h : s.status <;> rw [h] at hi <;> simp [StatusType.inactive] at hi <;> rfl
    simp [this]
  · intro j
    dsimp only
    apply map_modify
    intro v hv; rw [hk] at hv; injection hv with hv; subst hv
    simp only [Prod.mk.injEq, true_and]
    exact StatusType.kind_decided ho n

theorem setLink_total {t : Topology} {i : LinkId} {l : Link} (hl : t.links.get? i = some l)
    (ho : l.status.open? = true) {a b : Site} (ha : t.sites.get? l.tx = some a)
    (hb : t.sites.get? l.rx = some b) (hia : a.status.inactive = false)
    (hib : b.status.inactive = false) (n : Int)
    (hc : n = 1 → a.status.active = true ∧ b.status.active = true) :
    ∃ t', t.setLinkStatus i (decided n) = (t', none) ∧ SameKind t t' ∧ t'.sites = t.sites := by
  refine ⟨{ t with links := t.links.modify i (fun s => { s with status := decided n }) }, ?_,
    ⟨fun _ => rfl, fun _ => rfl, ?_⟩, rfl⟩
  · unfold setLinkStatus siteStatus
    rw [hl]; dsimp only; rw [if_pos (mutable_decided ho n), ha, hb]
    have : linkCompat a.status b.status (decided n) = true := by
      unfold decided
      split
      · rename_i h1
        obtain ⟨h2, h3⟩ := hc h1
        cases h : a.status <;> rw [h] at h2 <;> simp [StatusType.active] at h2 <;>
          cases h' : b.status <;> rw [h'] at h3 <;> simp [StatusType.active] at h3 <;> rfl
      · cases h : a.status <;> rw [h] at hia <;> simp [StatusType.inactive] at hia <;>
          cases h' : b.status <;> rw [h'] at hib <;> simp [StatusType.inactive] at hib <;> rfl
    simp [this]
  · intro j
    dsimp only
    apply map_modify
    intro v hv; rw [hl] at hv; injection hv with hv; subst hv
    simp only [Prod.mk.injEq, true_and]
    exact StatusType.kind_decided ho n

theorem decided_one {n : Int} (h : n = 1) : (decided n).active = true := by
  unfold decided; rw [if_pos h]; rfl

/-- The three update loops do not raise. -/
theorem apply_total {sol : Solution} {t : Topology} (hcalm : Calm t)
    (hp : ∀ s, ¬ (sol.odd s = 1 ∧ sol.even s = 1))
    (hsec : ∀ k d, t.sectors.get? k = some d → sol.sector k = 1 → sol.site d.site = 1)
    (hlink : ∀ i l, t.links.get? i = some l → sol.link i = 1 →
      sol.site l.tx = 1 ∧ sol.site l.rx = 1) :
    ∃ t', applySolution sol t = (t', none) ∧ SameKind t t' := by
  obtain ⟨t1, h1, k1⟩ := foldOut_total (f := updateSite sol) (SameKind t) t.sites.keys (by
    intro t1 h a ha
    obtain ⟨s, hs⟩ := key_same h.sites ha
    obtain ⟨t2, h2, h3⟩ := updateSite_total hp hs
    exact ⟨t2, h2, h.trans h3⟩) t (SameKind.refl t)
  obtain ⟨e1, st1⟩ := foldSites_ok h1
  -- a selected site is active after the first loop, unless it is ruled out
  have act : ∀ i s, t1.sites.get? i = some s → sol.site i = 1 → s.status.inactive = false →
      s.status.active = true := by
    intro i s hs hsel hin
    rw [st1 i] at hs
    rw [Option.map_eq_some_iff] at hs
    obtain ⟨s0, _, rfl⟩ := hs
    by_cases ho : s0.status.open? = true
    · show (afterDecision s0.status (sol.site i)).active = true
      rw [afterDecision_open _ ho]; exact decided_one hsel
    · have e : (updSite sol i s0).status = s0.status :=
        afterDecision_closed _ (by simpa using ho)
      rw [e] at hin ⊢
      cases h : s0.status <;> rw [h] at hin ho <;>
        simp [StatusType.inactive, StatusType.open?, StatusType.immutable] at hin ho <;> rfl
  obtain ⟨t2, h2, k2, es2⟩ := foldOut_total (f := updateSector sol)
    (fun t2 => SameKind t t2 ∧ t2.sites = t1.sites) t1.sectors.keys (by
    rintro t2 ⟨h, es⟩ a ha
    have ha' : a ∈ t.sectors.keys := by rw [e1] at ha; exact ha
    obtain ⟨d, hd⟩ := key_same h.sectors ha'
    have hset : ∃ t3, (if d.status.open? then t2.setSectorStatus a (decided (sol.sector a))
        else (t2, none)) = (t3, none) ∧ SameKind t2 t3 ∧ t3.sites = t2.sites := by
      split
      · rename_i ho
        obtain ⟨s, hs, hi⟩ := (hcalm.mono h).sector a d hd ho
        refine setSector_total hd ho hs hi _ (fun hsel => ?_)
        obtain ⟨d0, hd0, hk⟩ := map_some_of (h.sectors a) hd
        simp only [Prod.mk.injEq] at hk
        have := hsec a d0 hd0 hsel
        rw [hk.1] at this
        rw [es] at hs
        exact act _ _ hs this hi
      · exact ⟨t2, rfl, SameKind.refl _, rfl⟩
    obtain ⟨t3, h3, h4, h5⟩ := hset
    refine ⟨{ t3 with sectors := t3.sectors.modify a (fun s => { s with channel := sol.channel a }) },
      ?_, (h.trans h4).trans ⟨fun _ => rfl, ?_, fun _ => rfl⟩, h5.trans es⟩
    · unfold updateSector; rw [hd]; dsimp only; rw [h3]
    · intro j
      dsimp only
      apply map_modify
      intro _ _; rfl)
    t1 ⟨k1, rfl⟩
  obtain ⟨e2, _⟩ := foldSectors_ok h2
  obtain ⟨t3, h3, k3, _⟩ := foldOut_total (f := updateLink sol)
    (fun t3 => SameKind t t3 ∧ t3.sites = t1.sites) t2.links.keys (by
    rintro t3 ⟨h, es⟩ a ha
    have ha' : a ∈ t.links.keys := by rw [e2, e1] at ha; exact ha
    obtain ⟨l, hl⟩ := key_same h.links ha'
    unfold updateLink
    rw [hl]
    dsimp only
    split
    · rename_i ho
      obtain ⟨⟨x, hx, hix⟩, y, hy, hiy⟩ := (hcalm.mono h).link a l hl ho
      obtain ⟨t4, h4, h5, h6⟩ := setLink_total hl ho hx hy hix hiy (sol.link a) (fun hsel => by
        obtain ⟨l0, hl0, hk⟩ := map_some_of (h.links a) hl
        simp only [Prod.mk.injEq] at hk
        obtain ⟨c1, c2⟩ := hlink a l0 hl0 hsel
        rw [hk.1] at c1; rw [hk.2.1] at c2
        rw [es] at hx hy
        exact ⟨act _ _ hx c1 hix, act _ _ hy c2 hiy⟩)
      exact ⟨t4, h4, h.trans h5, h6.trans es⟩
    · exact ⟨t3, rfl, h, es⟩) t2 ⟨k2, es2⟩
  refine ⟨t3, ?_, k3⟩
  unfold applySolution
  rw [h1]
  simp only [Out.andThen]
  rw [h2]
  exact h3

theorem decided_zero : decided 0 = .candidate := rfl

/-- The removal of disconnected parts does not raise. -/
theorem remove_total {t : Topology} (inv : t.Inv) (hcalm : Calm t) :
    ∃ t', removeDisconnected t = some (t', none) ∧ SameKind t t' := by
  obtain ⟨hc, hr, _⟩ := hops_spec inv StatusType.active
  obtain ⟨t1, h1, k1⟩ := foldOut_total (f := withdrawSector hc) (SameKind t) t.sectors.keys (by
    intro t1 h a ha
    obtain ⟨d, hd⟩ := key_same h.sectors ha
    unfold withdrawSector
    rw [hd]
    dsimp only
    split
    · exact ⟨t1, rfl, h⟩
    · obtain ⟨d0, hd0, hk⟩ := map_some_of (h.sectors a) hd
      simp only [Prod.mk.injEq] at hk
      obtain ⟨y0, hy0⟩ := inv.sector_site a d0 hd0
      obtain ⟨y, hy, hyk⟩ := map_some_of (h.sites d0.site).symm hy0
      rw [hk.1] at hy
      have hw : ∃ t2, t1.withdrawSite d.site = (t2, none) ∧ SameKind t1 t2 ∧
          t2.sectors = t1.sectors := by
        unfold withdrawSite
        rw [hy]
        dsimp only
        split
        · rename_i ho
          obtain ⟨t2, h2, h3, h4⟩ := setSite_total hy ho 0
          exact ⟨t2, h2, h3, by rw [h4]⟩
        · exact ⟨t1, rfl, SameKind.refl _, rfl⟩
      obtain ⟨t2, h2, h3, h4⟩ := hw
      rw [h2]
      dsimp only
      split
      · rename_i ho
        have hd2 : t2.sectors.get? a = some d := by rw [h4]; exact hd
        obtain ⟨s, hs, hi⟩ := (hcalm.mono (h.trans h3)).sector a d hd2 ho
        obtain ⟨t3, h5, h6, _⟩ := setSector_total hd2 ho hs hi 0 (fun h => absurd h (by decide))
        exact ⟨t3, h5, (h.trans h3).trans h6⟩
      · exact ⟨t2, rfl, h.trans h3⟩) t (SameKind.refl t)
  have hkeys : ∀ i, i ∈ t1.links.keys → i ∈ t.links.keys := by
    intro i hi
    obtain ⟨v, hv⟩ := (Dict.mem_keys_iff _ _).1 hi
    obtain ⟨w, hw, _⟩ := map_some_of (k1.links i) hv
    exact (Dict.mem_keys_iff _ _).2 ⟨w, hw⟩
  obtain ⟨t2, h2, k2⟩ := foldOut_total (f := withdrawLink) (SameKind t) t1.links.keys (by
    intro t2 h a ha
    obtain ⟨l, hl⟩ := key_same h.links (hkeys a ha)
    unfold withdrawLink
    rw [hl]
    dsimp only
    split
    · rename_i hcond
      have ho : l.status.open? = true := by
        rw [Bool.and_eq_true] at hcond; exact hcond.2
      obtain ⟨⟨x, hx, hix⟩, y, hy, hiy⟩ := (hcalm.mono h).link a l hl ho
      obtain ⟨t3, h3, h4, _⟩ := setLink_total hl ho hx hy hix hiy 0 (fun h => absurd h (by decide))
      exact ⟨t3, h3, h.trans h4⟩
    · exact ⟨t2, rfl, h⟩) t1 k1
  refine ⟨t2, ?_, k2⟩
  unfold removeDisconnected
  rw [hr]
  simp only [Option.map_some, Out.andThen]
  rw [h1]
  simp only
  rw [h2]

end Topology
end Verif

namespace Verif
namespace Topology

theorem inv_assign_if {t : Topology} (h : t.Inv) (b : Bool) (a : Assign) :
    Topology.Inv (if b then t.assign a else (t, none)).1 := by
  split
  · exact h.assign a
  · exact h

theorem inv_andThen {o : Out} {k : Topology → Out} (h : Topology.Inv o.1)
    (hk : ∀ t, Topology.Inv t → Topology.Inv (k t).1) : Topology.Inv (Out.andThen o k).1 := by
  obtain ⟨t1, e⟩ := o
  cases e with
  | some e => exact h
  | none => exact hk t1 h

theorem inv_applySolution (sol : Solution) {t : Topology} (h : t.Inv) :
    Topology.Inv (applySolution sol t).1 := by
  have hs : ∀ (t : Topology) a, t.Inv → Topology.Inv (updateSite sol t a).1 := by
    intro t a h
    unfold updateSite
    split
    · exact h
    rename_i s _
    have h0 := inv_assign_if h s.status.open? (.site a (decided (sol.site a)))
    change Topology.Inv (if s.status.open? then t.setSiteStatus a (decided (sol.site a)) else (t, none)).1 at h0
    generalize (if s.status.open? then t.setSiteStatus a (decided (sol.site a)) else (t, none)) = o at *
    obtain ⟨t1, e⟩ := o
    cases e with
    | some e => exact h0
    | none =>
      simp only
      split
      · exact h0
      · exact h0.modSite _ _ (fun _ => rfl)
  have hx : ∀ (t : Topology) a, t.Inv → Topology.Inv (updateSector sol t a).1 := by
    intro t a h
    unfold updateSector
    split
    · exact h
    rename_i s _
    have h0 := inv_assign_if h s.status.open? (.sector a (decided (sol.sector a)))
    change Topology.Inv (if s.status.open? then t.setSectorStatus a (decided (sol.sector a)) else (t, none)).1 at h0
    generalize (if s.status.open? then t.setSectorStatus a (decided (sol.sector a)) else (t, none)) = o at *
    obtain ⟨t1, e⟩ := o
    cases e with
    | some e => exact h0
    | none => exact h0.modSector _ _ (fun _ => rfl)
  have hl : ∀ (t : Topology) a, t.Inv → Topology.Inv (updateLink sol t a).1 := by
    intro t a h
    unfold updateLink
    split
    · exact h
    split
    · exact h.assign (.link a (decided (sol.link a)))
    · exact h
  unfold applySolution
  refine inv_andThen (foldOut_inv hs _ _ h) fun t1 h1 => ?_
  exact inv_andThen (foldOut_inv hx _ _ h1) fun t2 h2 => foldOut_inv hl _ _ h2

theorem inv_removeDisconnected {t : Topology} (h : t.Inv) {o : Out}
    (ho : removeDisconnected t = some o) : Topology.Inv o.1 := by
  unfold removeDisconnected at ho
  rw [Option.map_eq_some_iff] at ho
  obtain ⟨hc, _, rfl⟩ := ho
  have hsec : ∀ (t : Topology) a, t.Inv → Topology.Inv (withdrawSector hc t a).1 := by
    intro t a h
    unfold withdrawSector
    split
    · exact h
    split
    · exact h
    rename_i x _ _
    have h0 : Topology.Inv (t.withdrawSite x.site).1 := by
      unfold withdrawSite
      split
      · exact h
      split
      · exact h.assign (.site x.site .candidate)
      · exact h
    generalize t.withdrawSite x.site = o at *
    obtain ⟨t1, e⟩ := o
    cases e with
    | some e => exact h0
    | none =>
      simp only
      split
      · exact Inv.assign h0 (.sector a .candidate)
      · exact h0
  have hl : ∀ (t : Topology) a, t.Inv → Topology.Inv (withdrawLink t a).1 := by
    intro t a h
    unfold withdrawLink
    split
    · exact h
    split
    · exact h.assign (.link a .candidate)
    · exact h
  exact inv_andThen (foldOut_inv hsec _ _ h) fun t1 h1 => foldOut_inv hl _ _ h1

end Topology
end Verif
