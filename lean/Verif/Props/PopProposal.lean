import Verif.Model.PopProposal
import Verif.Props.Mark
import Verif.Props.Ilp3
import Verif.Props.Extract
import Verif.Props.Connected

/-!
# C54: how many POPs are proposed
-/

namespace Verif
open Topology Spec

/-- A POP that is neither UNAVAILABLE nor UNREACHABLE. -/
def Spec.UsablePop (t : Topology) (i : SiteId) : Prop :=
  ∃ s, t.sites.get? i = some s ∧ s.siteType = .pop ∧ s.status ≠ .unavailable ∧ s.status ≠ .unreachable

/-- Two sites with the same coordinates and altitude. -/
def Spec.AtOnePlace (t : Topology) (i j : SiteId) : Prop :=
  ∃ s r, t.sites.get? i = some s ∧ t.sites.get? j = some r ∧ s.lon = r.lon ∧ s.lat = r.lat ∧ s.alt = r.alt

/-- There is a POP, of whatever status, at the place of the site. -/
def Spec.HasPop (t : Topology) (i : SiteId) : Prop :=
  ∃ j r, AtOnePlace t i j ∧ t.sites.get? j = some r ∧ r.siteType = .pop

/-- A DN where a POP can be added: neither UNAVAILABLE nor UNREACHABLE, and there is no POP at its place. -/
def Spec.FreeDn (t : Topology) (i : SiteId) : Prop :=
  (∃ s, t.sites.get? i = some s ∧ s.siteType = .dn ∧ s.status ≠ .unavailable ∧ s.status ≠ .unreachable) ∧ ¬ HasPop t i

theorem get?_mapVal {κ ν : Type} [DecidableEq κ] (d : Dict κ ν) (f : κ → ν → ν) (k : κ) :
    Dict.get? (d.map fun e => (e.1, f e.1 e.2) : Dict κ ν) k = (d.get? k).map (f k) := by
  induction d with
  | nil => rfl
  | cons e rest ih =>
    rw [List.map_cons]
    by_cases h : e.1 = k
    · subst h
      rw [Dict.get?_cons, Dict.get?_cons]; simp
    · rw [Dict.get?_cons, Dict.get?_cons]; simp [h, ih]

theorem keys_mapVal {κ ν : Type} [DecidableEq κ] (d : Dict κ ν) (f : κ → ν → ν) :
    Dict.keys (d.map fun e => (e.1, f e.1 e.2) : Dict κ ν) = d.keys := by
  simp [Dict.keys, List.map_map, Function.comp_def]

theorem mem_dnsOnPops {t : Topology} (nd : t.sites.NodupKeys) {i : SiteId} {s : Site}
    (hs : t.sites.get? i = some s) : i ∈ t.dnsOnPops ↔ s.siteType = .dn ∧ HasPop t i := by
  obtain ⟨locs, hl, hv, -, hmem⟩ := Plan.group_of (P := ⟨t, { popCapacity := 0, costs := ⟨0, 0, 0⟩ }⟩) nd hs
  dsimp only at hl hv hmem
  unfold dnsOnPops
  rw [List.mem_filter, List.mem_flatten]
  simp only [List.mem_filter, List.any_eq_true, hs, Option.any_some, beq_iff_eq]
  constructor
  · rintro ⟨⟨L, ⟨hL, j, hj, hp⟩, hi⟩, hdn⟩
    refine ⟨hdn, ?_⟩
    obtain ⟨k, hk⟩ := List.mem_map.1 hL
    cases hr : t.sites.get? j with
    | none => rw [hr] at hp; simp at hp
    | some r =>
      rw [hr] at hp
      simp only [Option.any_some, beq_iff_eq] at hp
      obtain ⟨x, hx, g⟩ := Plan.group_mem (P := ⟨t, { popCapacity := 0, costs := ⟨0, 0, 0⟩ }⟩) nd hL hi
      dsimp only at hx g
      rw [hs] at hx; cases hx
      obtain ⟨y, hy, e⟩ := (g j).1 hj
      rw [hr] at hy; cases hy
      unfold Site.point at e
      simp only [Prod.mk.injEq] at e
      exact ⟨j, r, ⟨s, r, hs, hr, e.1.symm, e.2.1.symm, e.2.2.symm⟩, hr, hp⟩
  · rintro ⟨hdn, j, r, ⟨s', r', h1, h2, e1, e2, e3⟩, hr, hp⟩
    rw [hs] at h1; cases h1
    rw [hr] at h2; cases h2
    refine ⟨⟨locs, ⟨hv, j, (hmem j).2 ⟨r, hr, by unfold Site.point; rw [e1, e2, e3]⟩, ?_⟩, (hmem i).2 ⟨s, hs, rfl⟩⟩, hdn⟩
    rw [hr]; simpa using hp

theorem proposePops_ok : ∀ (L : List (SiteId × Site)) (a b : Topology), a.proposePops L = (b, none) →
    b.sites.keys = a.sites.keys ∧ ∀ i, b.sites.get? i = (a.sites.get? i).map fun s =>
      if ∃ e ∈ L, e.1 = i ∧ usablePop e.2 = true then { s with status := .proposed } else s := by
  intro L
  induction L with
  | nil => intro a b h; cases h; simp
  | cons e rest ih =>
    intro a b h
    unfold proposePops at h
    by_cases c : usablePop e.2 = true
    · rw [if_pos c] at h
      rcases hs : a.setSiteStatus e.1 .proposed with ⟨t1, _ | err⟩
      · rw [hs] at h
        dsimp only at h
        obtain ⟨h1, h2⟩ := ih t1 b h
        have e1 := setSiteStatus_ok hs
        constructor
        · rw [h1, e1]; simp
        · intro i
          rw [h2, e1]
          dsimp only
          rw [Dict.get?_modify]
          by_cases hi : e.1 = i
          · rw [if_pos hi, Option.map_map]
            congr 1
            funext s
            simp only [Function.comp_apply]
            rw [if_pos (⟨e, by simp, hi, c⟩ : ∃ e' ∈ e :: rest, e'.1 = i ∧ usablePop e'.2 = true)]
            split <;> rfl
          · rw [if_neg hi]
            congr 1
            funext s
            exact if_congr (by simp [hi]) rfl rfl
      · rw [hs] at h; simp at h
    · rw [if_neg c] at h
      obtain ⟨h1, h2⟩ := ih a b h
      refine ⟨h1, fun i => ?_⟩
      rw [h2]
      congr 1
      funext s
      exact if_congr (by simp [c]) rfl rfl

theorem Inv.dnsToPops {t : Topology} (h : Inv t) : Inv t.dnsToPops := by
  have g : ∀ i, t.dnsToPops.sites.get? i = (t.sites.get? i).map fun s =>
      if s.siteType = .dn ∧ i ∉ t.dnsOnPops then { s with siteType := .pop } else s :=
    fun i => get?_mapVal t.sites (fun i s => if s.siteType = .dn ∧ i ∉ t.dnsOnPops then { s with siteType := .pop } else s) i
  have ex : ∀ i, (∃ s, t.sites.get? i = some s) → ∃ s, t.dnsToPops.sites.get? i = some s := by
    rintro i ⟨s, hs⟩; rw [g, hs]; exact ⟨_, rfl⟩
  refine { h with
    nd_sites := ?_, site_id := ?_
    sector_site := fun i s hs => ex _ (h.sector_site i s hs)
    link_tx := fun i s hs => ex _ (h.link_tx i s hs)
    link_rx := fun i s hs => ex _ (h.link_rx i s hs) }
  · have := h.nd_sites
    unfold Dict.NodupKeys at this ⊢
    rw [← keys_mapVal t.sites (fun i s => if s.siteType = .dn ∧ i ∉ t.dnsOnPops then { s with siteType := .pop } else s)] at this
    exact this
  · intro i s hs
    rw [g] at hs
    cases hx : t.sites.get? i with
    | none => rw [hx] at hs; simp at hs
    | some x =>
      rw [hx] at hs
      simp only [Option.map_some, Option.some.injEq] at hs
      rw [← hs, ← h.site_id i x hx]
      split <;> rfl

/-- What becomes of a site of the input in the problem that is solved. -/
structure Becomes (t : Topology) (i : SiteId) (s s' : Site) : Prop where
  place : s'.lon = s.lon ∧ s'.lat = s.lat ∧ s'.alt = s.alt
  pop : s.siteType = .pop → s'.siteType = .pop ∧ (s.status.inactive = false → s'.status = .proposed) ∧
    (s.status.inactive = true → s'.status = s.status)
  cn : s.siteType = .cn → s'.siteType = .cn
  free : s.siteType = .dn → ¬ HasPop t i → s'.siteType = .pop ∧ s'.status = s.status
  busy : s.siteType = .dn → HasPop t i → s'.siteType = .dn ∧
    (s.status = .candidate → s'.status = .unreachable) ∧ (s.status ≠ .candidate → s'.status = s.status)

theorem popProposal_sites {t : Topology} (inv : Inv t) {p : OptParams} {P : Plan}
    (h : Plan.popProposal t p = some (.ok P)) :
    P.p.alwaysActivePops = false ∧ P.t.sites.keys = t.sites.keys ∧
    ∀ i s, t.sites.get? i = some s → ∃ s', P.t.sites.get? i = some s' ∧ Becomes t i s s' := by
  unfold Plan.popProposal at h
  rcases ha : t.accessTopology with _ | ⟨a, _ | err⟩
  · rw [ha] at h; simp at h
  swap
  · rw [ha] at h; simp at h
  rw [ha] at h
  simp only [Option.map_some, Option.some.injEq] at h
  split at h
  · cases h
  rcases hb : a.proposePops t.sites with ⟨b, _ | err⟩
  swap
  · rw [hb] at h; cases h
  rw [hb] at h
  dsimp only at h
  cases h
  dsimp only
  obtain ⟨kb, gb⟩ := proposePops_ok _ _ _ hb
  -- the access topology
  have inv0 := Inv.dnsToPops inv
  obtain ⟨j1, j2, -, -, -, j6, -⟩ := removeLinks_spec t.dnsToPops.backhaulIds inv0
  unfold accessTopology at ha
  rcases hr : t.dnsToPops.removeLinks t.dnsToPops.backhaulIds with ⟨t1, _ | err⟩
  swap
  · rw [hr] at ha; simp at ha
  rw [hr] at ha j1 j2 j6
  dsimp only at ha j1 j2 j6
  obtain ⟨m1, -, -, -, m5⟩ := mark_exact j1 none a ha
  have k0 : t.dnsToPops.sites.keys = t.sites.keys :=
    keys_mapVal t.sites (fun i s => if s.siteType = .dn ∧ i ∉ t.dnsOnPops then { s with siteType := .pop } else s)
  have g0 : ∀ i, t.dnsToPops.sites.get? i = (t.sites.get? i).map fun s =>
      if s.siteType = .dn ∧ i ∉ t.dnsOnPops then { s with siteType := .pop } else s :=
    fun i => get?_mapVal t.sites (fun i s => if s.siteType = .dn ∧ i ∉ t.dnsOnPops then { s with siteType := .pop } else s) i
  refine ⟨rfl, by rw [kb, m5, j2, k0], ?_⟩
  intro i s hs
  have hon := mem_dnsOnPops inv.nd_sites hs
  have g1 : t1.sites.get? i = some (if s.siteType = .dn ∧ i ∉ t.dnsOnPops then { s with siteType := .pop } else s) := by
    rw [j2, g0, hs]; rfl
  have huse : (∃ e ∈ t.sites, e.1 = i ∧ usablePop e.2 = true) ↔ usablePop s = true := by
    constructor
    · rintro ⟨e, he, rfl, hu⟩
      have := (Dict.mem_iff_get? inv.nd_sites _ _).1 he
      rw [hs] at this; cases this; exact hu
    · intro hu
      exact ⟨(i, s), Dict.mem_of_get? _ hs, rfl, hu⟩
  have gb' := gb i
  rw [m1, g1] at gb'
  simp only [Option.map_some, huse] at gb'
  refine ⟨_, gb', ?_⟩
  -- a POP of the access topology is not marked
  have hpop : ∀ x, t1.sites.get? i = some x → x.siteType = .pop → ¬ Unserved t1 none i := by
    rintro x hx hp ⟨y, hy, hc, hn⟩
    rw [hx] at hy; cases hy
    exact hn ⟨0, .pop hx hp (by simp [hc]), by intro m hm; cases hm⟩
  -- a DN of the access topology is marked if it is a candidate
  have hdn : ∀ x, t1.sites.get? i = some x → x.siteType = .dn → (Unserved t1 none i ↔ x.status = .candidate) := by
    intro x hx hp
    constructor
    · rintro ⟨y, hy, hc, -⟩
      rw [hx] at hy; cases hy; exact hc
    · intro hc
      refine ⟨x, hx, hc, ?_⟩
      rintro ⟨n, hn, -⟩
      cases hn with
      | pop h1 h2 _ => rw [hx] at h1; cases h1; rw [hp] at h2; cases h2
      | hop _ hl _ _ _ =>
        rw [j6 rfl] at hl
        split at hl
        · cases hl
        · rename_i hnot
          apply hnot
          unfold backhaulIds
          refine List.mem_map.2 ⟨(_, _), List.mem_filter.2 ⟨Dict.mem_of_get? _ hl, ?_⟩, rfl⟩
          have e := inv0.link_id _ _ hl
          have e2 := congrArg LinkId.rx e
          dsimp only at e2 ⊢
          rw [← e2, ← j2, hx]
          simp [hp]
  by_cases hsp : s.siteType = .dn ∧ i ∉ t.dnsOnPops
  · rw [if_pos hsp] at g1 ⊢
    have hu : usablePop s = false := by simp [usablePop, hsp.1]
    rw [if_neg (hpop _ g1 rfl)]
    simp only [hu]
    have hno : ¬ HasPop t i := fun c => hsp.2 (hon.2 ⟨hsp.1, c⟩)
    exact ⟨by simp, by simp [hsp.1], by simp [hsp.1], fun _ _ => by simp, fun _ c => absurd c hno⟩
  · rw [if_neg hsp] at g1 ⊢
    cases hty : s.siteType with
    | dn =>
      have hb : HasPop t i := by
        by_contra c
        exact hsp ⟨hty, fun d => c (hon.1 d).2⟩
      have hu : usablePop s = false := by simp [usablePop, hty]
      simp only [hu, hdn _ g1 hty]
      refine ⟨?_, by simp [hty], by simp [hty], fun _ c => absurd hb c, fun _ _ => ?_⟩
      · by_cases c : s.status = .candidate <;> simp [c]
      · by_cases c : s.status = .candidate <;> simp [c, hty]
    | pop =>
      rw [if_neg (hpop _ g1 hty)]
      refine ⟨by split <;> simp, fun _ => ?_, by simp [hty], by simp [hty], by simp [hty]⟩
      by_cases c : s.status.inactive = true <;> simp [usablePop, hty, c]
    | cn =>
      have hu : usablePop s = false := by simp [usablePop, hty]
      simp only [hu]
      refine ⟨?_, by simp [hty], fun _ => ?_, by simp [hty], by simp [hty]⟩
      · split <;> (try split) <;> simp_all
      · split <;> (try split) <;> simp_all

theorem sum_ones {L : List SiteId} {f : SiteId → ℚ} (h : ∀ a ∈ L, f a = 0 ∨ f a = 1) :
    (L.map f).sum = ((L.filter fun a => f a = 1).length : ℚ) := by
  induction L with
  | nil => simp
  | cons a L ih =>
    have := ih fun b hb => h b (List.mem_cons_of_mem _ hb)
    rw [List.map_cons, List.sum_cons, this]
    rcases h a (by simp) with e | e
    · simp [e]
    · simp [e, add_comm]

theorem length_eq_of_mem {L M : List SiteId} (hl : L.Nodup) (hm : M.Nodup) (h : ∀ a, a ∈ L ↔ a ∈ M) :
    L.length = M.length := ((List.perm_ext_iff_of_nodup hl hm).2 h).length_eq

theorem usablePop_eq (s : Site) : usablePop s = true ↔
    s.siteType = .pop ∧ s.status ≠ .unavailable ∧ s.status ≠ .unreachable := by
  unfold usablePop
  cases s.status <;> simp [StatusType.inactive]

theorem mem_usable {t : Topology} (nd : t.sites.NodupKeys) (i : SiteId) :
    i ∈ (t.sites.filter fun e => usablePop e.2).map (·.1) ↔ UsablePop t i := by
  constructor
  · intro h
    obtain ⟨e, he, rfl⟩ := List.mem_map.1 h
    obtain ⟨h1, h2⟩ := List.mem_filter.1 he
    exact ⟨e.2, (Dict.mem_iff_get? nd _ _).1 h1, (usablePop_eq _).1 h2⟩
  · rintro ⟨s, hs, h⟩
    exact List.mem_map.2 ⟨(i, s), List.mem_filter.2 ⟨Dict.mem_of_get? _ hs, (usablePop_eq s).2 h⟩, rfl⟩

theorem nodup_usable {t : Topology} (nd : t.sites.NodupKeys) :
    ((t.sites.filter fun e => usablePop e.2).map (·.1)).Nodup :=
  List.Sublist.nodup (List.Sublist.map _ List.filter_sublist) nd

/-- The usable POPs of the problem that is solved: those of the input and the DNs where a POP can be added. -/
theorem usablePop_iff {t : Topology} (inv : Inv t) {p : OptParams} {P : Plan}
    (h : Plan.popProposal t p = some (.ok P)) (i : SiteId) :
    UsablePop P.t i ↔ UsablePop t i ∨ FreeDn t i := by
  obtain ⟨-, hk, hb⟩ := popProposal_sites inv h
  constructor
  · rintro ⟨s', hs', hty, h1, h2⟩
    have : i ∈ t.sites.keys := by rw [← hk]; exact (Dict.mem_keys_iff _ _).2 ⟨_, hs'⟩
    obtain ⟨s, hs⟩ := (Dict.mem_keys_iff _ _).1 this
    obtain ⟨s2, hs2, b⟩ := hb i s hs
    rw [hs'] at hs2; cases hs2
    cases hst : s.siteType with
    | cn => rw [b.cn hst] at hty; cases hty
    | pop =>
      left
      refine ⟨s, hs, hst, ?_, ?_⟩
      · intro c; exact h1 (by rw [(b.pop hst).2.2 (by rw [c]; rfl), c])
      · intro c; exact h2 (by rw [(b.pop hst).2.2 (by rw [c]; rfl), c])
    | dn =>
      right
      by_cases c : HasPop t i
      · rw [(b.busy hst c).1] at hty; cases hty
      · rw [(b.free hst c).2] at h1 h2
        exact ⟨⟨s, hs, hst, h1, h2⟩, c⟩
  · rintro (⟨s, hs, hst, h1, h2⟩ | ⟨⟨s, hs, hst, h1, h2⟩, c⟩)
    · obtain ⟨s', hs', b⟩ := hb i s hs
      have hin : s.status.inactive = false := by
        cases hc : s.status <;> simp_all [StatusType.inactive]
      exact ⟨s', hs', (b.pop hst).1, by rw [(b.pop hst).2.1 hin]; simp, by rw [(b.pop hst).2.1 hin]; simp⟩
    · obtain ⟨s', hs', b⟩ := hb i s hs
      exact ⟨s', hs', (b.free hst c).1, by rwa [(b.free hst c).2], by rwa [(b.free hst c).2]⟩

/-- A chosen site is usable. -/
theorem chosen_usable {t : Topology} (inv : Inv t) {p : OptParams} {P : Plan} {adv : Arc → Bool} {x : Vars}
    (h : Plan.popProposal t p = some (.ok P)) (feas : P.SiteFeasible adv x) {i : SiteId} {s' : Site}
    (hs' : P.t.sites.get? i = some s') (h1 : x.site i = 1) : s'.status ≠ .unavailable ∧ s'.status ≠ .unreachable := by
  obtain ⟨ha, -, -⟩ := popProposal_sites inv h
  have hd := feas.decided i ((Dict.mem_keys_iff _ _).2 ⟨_, hs'⟩)
  have hst : P.statusOf i = some s'.status := by
    unfold Plan.statusOf siteStatus; rw [hs']; rfl
  have hact : P.isActive i = s'.status.active := by unfold Plan.isActive; rw [hst]; rfl
  have hin : P.isInactive i = s'.status.inactive := by unfold Plan.isInactive; rw [hst]; rfl
  rw [ha, hact, hin, h1] at hd
  constructor
  · intro c; simp [c, StatusType.active, StatusType.inactive] at hd
  · intro c; simp [c, StatusType.active, StatusType.inactive] at hd

theorem place_iff {t : Topology} (inv : Inv t) {p : OptParams} {P : Plan}
    (h : Plan.popProposal t p = some (.ok P)) (i j : SiteId) : SamePlace P i j ↔ AtOnePlace t i j := by
  obtain ⟨-, hk, hb⟩ := popProposal_sites inv h
  constructor
  · rintro ⟨a', b', ha', hb', e1, e2, e3⟩
    obtain ⟨a, ha⟩ := (Dict.mem_keys_iff _ _).1 (show i ∈ t.sites.keys by
      rw [← hk]; exact (Dict.mem_keys_iff _ _).2 ⟨_, ha'⟩)
    obtain ⟨b, hbb⟩ := (Dict.mem_keys_iff _ _).1 (show j ∈ t.sites.keys by
      rw [← hk]; exact (Dict.mem_keys_iff _ _).2 ⟨_, hb'⟩)
    obtain ⟨a2, ha2, ba⟩ := hb i a ha
    obtain ⟨b2, hb2, bb⟩ := hb j b hbb
    rw [ha'] at ha2; cases ha2
    rw [hb'] at hb2; cases hb2
    exact ⟨a, b, ha, hbb, by rw [← ba.place.1, ← bb.place.1, e1], by rw [← ba.place.2.1, ← bb.place.2.1, e2],
      by rw [← ba.place.2.2, ← bb.place.2.2, e3]⟩
  · rintro ⟨a, b, ha, hbb, e1, e2, e3⟩
    obtain ⟨a', ha', ba⟩ := hb i a ha
    obtain ⟨b', hb', bb⟩ := hb j b hbb
    exact ⟨a', b', ha', hb', by rw [ba.place.1, bb.place.1, e1], by rw [ba.place.2.1, bb.place.2.1, e2],
      by rw [ba.place.2.2, bb.place.2.2, e3]⟩

theorem Spec.AtOnePlace.symm {t : Topology} {i j : SiteId} (h : AtOnePlace t i j) : AtOnePlace t j i := by
  obtain ⟨a, b, ha, hb, e1, e2, e3⟩ := h
  exact ⟨b, a, hb, ha, e1.symm, e2.symm, e3.symm⟩

/-- At the place of a usable POP of the input exactly one site is chosen, a usable POP of the input. -/
theorem pop_place {t : Topology} (inv : Inv t) {p : OptParams} {P : Plan} {adv : Arc → Bool} {x : Vars}
    (h : Plan.popProposal t p = some (.ok P)) (feas : P.SiteFeasible adv x) {i : SiteId} (hi : UsablePop t i) :
    ∃ c, UsablePop t c ∧ AtOnePlace t i c ∧ x.site c = 1 ∧ ∀ d, AtOnePlace t i d → x.site d = 1 → d = c := by
  obtain ⟨halw, hk, hb⟩ := popProposal_sites inv h
  have hnd : P.t.sites.NodupKeys := by unfold Dict.NodupKeys; rw [hk]; exact inv.nd_sites
  obtain ⟨s, hs, hst, n1, n2⟩ := hi
  have hin : s.status.inactive = false := by
    cases hc : s.status <;> simp_all [StatusType.inactive]
  obtain ⟨s', hs', b⟩ := hb i s hs
  have hact : s'.status = .proposed := (b.pop hst).2.1 hin
  have hdem : Demanded P i := Or.inl ⟨s', hs', by rw [hact]; rfl⟩
  have hself : AtOnePlace t i i := ⟨s, s, hs, hs, rfl, rfl, rfl⟩
  by_cases hex : ∃ b, AtOnePlace t i b ∧ b ≠ i
  · obtain ⟨b0, hb0, hne⟩ := hex
    have key := fun b0 (hb0 : AtOnePlace t i b0) (hne : b0 ≠ i) =>
      Plan.group_constraint hnd (fun k hk => feas.bounds.site k hk) feas.colocated (Ne.symm hne) ((place_iff inv h i b0).2 hb0)
    obtain ⟨c, y, hc, hc1, hy, hrank⟩ := (key b0 hb0 hne).2 ⟨i, (place_iff inv h i i).2 hself, hdem⟩
    have hc' := (place_iff inv h i c).1 hc
    have hpop : y.siteType = .pop := by
      rcases hrank with ⟨-, hr⟩ | ⟨-, hr⟩
      · have := hr i s' ((place_iff inv h i i).2 hself) hdem hs'
        rw [(b.pop hst).1] at this
        cases hyt : y.siteType <;> rw [hyt] at this <;> simp [rank] at this
      · have := hr i s' ((place_iff inv h i i).2 hself) hdem hs'
        rw [(b.pop hst).1] at this; cases this
    obtain ⟨u1, u2⟩ := chosen_usable inv h feas hy hc1
    have hcu : UsablePop t c := by
      rcases (usablePop_iff inv h c).1 ⟨y, hy, hpop, u1, u2⟩ with g | ⟨-, g⟩
      · exact g
      · exact absurd ⟨i, s, hc'.symm, hs, hst⟩ g
    refine ⟨c, hcu, hc', hc1, ?_⟩
    intro d hd hd1
    by_contra hdc
    have hcd : AtOnePlace t d c := by
      obtain ⟨a1, b1, q1, q2, e1, e2, e3⟩ := hd
      obtain ⟨a2, b2, q3, q4, f1, f2, f3⟩ := hc'
      rw [q1] at q3; cases q3
      exact ⟨b1, b2, q2, q4, e1.symm.trans f1, e2.symm.trans f2, e3.symm.trans f3⟩
    exact (Plan.group_constraint hnd (fun k hk => feas.bounds.site k hk) feas.colocated hdc
      ((place_iff inv h d c).2 hcd)).1 ⟨hd1, hc1⟩
  · push Not at hex
    refine ⟨i, ⟨s, hs, hst, n1, n2⟩, hself, ?_, fun d hd _ => hex d hd⟩
    have hd := feas.decided i ((Dict.mem_keys_iff _ _).2 ⟨_, hs'⟩)
    have hia : P.isActive i = true := by
      unfold Plan.isActive Plan.statusOf siteStatus; rw [hs']; simp [hact, StatusType.active]
    rw [halw, hia] at hd
    simp only [Bool.false_and, Bool.false_eq_true, if_false, if_true] at hd
    apply hd
    unfold Plan.groupSize
    rw [hs']
    obtain ⟨locs, hl, -, hn, hm⟩ := Plan.group_of hnd hs'
    dsimp only
    rw [hl, Option.getD_some]
    have : ∀ a ∈ locs, a = i := by
      intro a ha
      obtain ⟨y, hy, e⟩ := (hm a).1 ha
      exact hex a ((place_iff inv h i a).1 ((Plan.samePlace_iff hs' hy).2 e))
    match locs, hn, this with
    | [], _, _ => simp
    | [_], _, _ => simp
    | a :: c :: _, hn, th =>
      have e1 := th a (by simp)
      have e2 := th c (by simp)
      rw [e1, e2] at hn
      simp at hn

theorem number {t : Topology} (inv : Inv t) {p : OptParams} {P : Plan} {adv : Arc → Bool} {x : Vars} {extra : Nat}
    (hextra : 0 < extra) (h : Plan.popProposal t p = some (.ok P)) (feas : P.SiteFeasible adv x) (hn : P.PopCount t extra x)
    (hone : ∀ i j, UsablePop t i → UsablePop t j → AtOnePlace t i j → i = j)
    {free : List SiteId} (hnd : free.Nodup) (hfree : ∀ i, i ∈ free ↔ FreeDn t i) :
    (∀ i, UsablePop t i → x.site i = 1) ∧ (free.filter fun i => x.site i = 1).length = min extra free.length := by
  obtain ⟨-, hk, hb⟩ := popProposal_sites inv h
  have hndP : P.t.sites.NodupKeys := by unfold Dict.NodupKeys; rw [hk]; exact inv.nd_sites
  have hpops : ∀ i, UsablePop t i → x.site i = 1 := by
    intro i hi
    obtain ⟨c, hc, hp, h1, -⟩ := pop_place inv h feas hi
    rw [hone i c hi hc hp]; exact h1
  refine ⟨hpops, ?_⟩
  set I := (t.sites.filter fun e => usablePop e.2).map (·.1) with hI
  have mI := mem_usable inv.nd_sites
  have dI : ∀ i, i ∈ I → i ∉ free := by
    intro i hi hf
    obtain ⟨s, hs, hst, -⟩ := (mI i).1 hi
    obtain ⟨⟨s2, hs2, hst2, -⟩, -⟩ := (hfree i).1 hf
    rw [hs] at hs2; cases hs2; rw [hst] at hst2; cases hst2
  have nI : I.Nodup := nodup_usable inv.nd_sites
  have cI : t.usablePops = I.length := by rw [hI, List.length_map]; rfl
  have cP : P.t.usablePops = I.length + free.length := by
    have e : P.t.usablePops = ((P.t.sites.filter fun e => usablePop e.2).map (·.1)).length := by
      rw [List.length_map]; rfl
    rw [e, ← List.length_append]
    refine length_eq_of_mem (nodup_usable hndP) (List.nodup_append.2 ⟨nI, hnd, ?_⟩) ?_
    · intro a ha b hb e; subst e; exact dI a ha hb
    · intro a
      rw [mem_usable hndP, usablePop_iff inv h, List.mem_append, hfree, mI]
  unfold Plan.PopCount at hn
  simp only [cI, cP] at hn
  set K := P.t.sites.keys.filter fun s => P.isPop (.site s) with hK
  have h01 : ∀ a ∈ K, x.site a = 0 ∨ x.site a = 1 := fun a ha => feas.bounds.site a (List.mem_filter.1 ha).1
  rw [sum_ones h01] at hn
  have cK : (K.filter fun a => x.site a = 1).length = I.length + (free.filter fun i => x.site i = 1).length := by
    rw [← List.length_append]
    refine length_eq_of_mem ((hndP.filter _).filter _) (List.nodup_append.2 ⟨nI, hnd.filter _, ?_⟩) ?_
    · intro a ha b hb e; subst e; exact dI a ha (List.mem_filter.1 hb).1
    · intro a
      rw [hK, List.mem_append, List.mem_filter, List.mem_filter, List.mem_filter, hfree, mI]
      simp only [decide_eq_true_eq]
      constructor
      · rintro ⟨⟨ha, hp⟩, h1⟩
        obtain ⟨s', hs'⟩ := (Dict.mem_keys_iff _ _).1 ha
        have hty : s'.siteType = .pop := by
          unfold Plan.isPop at hp
          rw [Plan.siteType?_of hs'] at hp; simpa using hp
        obtain ⟨u1, u2⟩ := chosen_usable inv h feas hs' h1
        rcases (usablePop_iff inv h a).1 ⟨s', hs', hty, u1, u2⟩ with g | g
        · exact Or.inl g
        · exact Or.inr ⟨g, h1⟩
      · intro g
        have h1 : x.site a = 1 := by
          rcases g with g | g
          · exact hpops a g
          · exact g.2
        obtain ⟨s', hs', hty, -⟩ := (usablePop_iff inv h a).2 (g.imp id And.left)
        refine ⟨⟨(Dict.mem_keys_iff _ _).2 ⟨_, hs'⟩, ?_⟩, h1⟩
        unfold Plan.isPop
        rw [Plan.siteType?_of hs']; simp [hty]
  rw [cK] at hn
  have hle : (free.filter fun i => x.site i = 1).length ≤ free.length := List.length_filter_le _ _
  by_cases hz : min (extra + I.length) (I.length + free.length) = 0
  · omega
  · have := hn hz
    have : I.length + (free.filter fun i => x.site i = 1).length = min (extra + I.length) (I.length + free.length) := by
      exact_mod_cast this
    omega

theorem chosen_dn {t : Topology} (inv : Inv t) {p : OptParams} {P : Plan} {adv : Arc → Bool} {x : Vars}
    (h : Plan.popProposal t p = some (.ok P)) (feas : P.SiteFeasible adv x) {i : SiteId} {s : Site}
    (hs : t.sites.get? i = some s) (hty : s.siteType = .dn) (h1 : x.site i = 1) :
    FreeDn t i ∨ ((s.status = .existing ∨ s.status = .proposed) ∧ HasPop t i ∧ ∀ j, AtOnePlace t i j → ¬ UsablePop t j) := by
  obtain ⟨-, -, hb⟩ := popProposal_sites inv h
  obtain ⟨s', hs', b⟩ := hb i s hs
  obtain ⟨u1, u2⟩ := chosen_usable inv h feas hs' h1
  by_cases c : HasPop t i
  · right
    obtain ⟨-, b1, b2⟩ := b.busy hty c
    have hnc : s.status ≠ .candidate := fun e => u2 (b1 e)
    rw [b2 hnc] at u1 u2
    refine ⟨by cases he : s.status <;> simp_all, c, ?_⟩
    intro j hj hu
    obtain ⟨d, ⟨y, hy, hyt, -⟩, -, -, hd⟩ := pop_place inv h feas hu
    have := hd i hj.symm h1
    subst this
    rw [hs] at hy; cases hy; rw [hty] at hyt; cases hyt
  · left
    obtain ⟨-, e⟩ := b.free hty c
    rw [e] at u1 u2
    exact ⟨⟨s, hs, hty, u1, u2⟩, c⟩

/-- C54 (partial): if the problem of the POP proposal is set up, then in every solution every POP of the input that is
not ruled out is chosen, and of the DNs where a POP can be added exactly as many as extra POPs are requested, or all if
there are fewer; of the other DNs only some in use, at the place of POPs that are all ruled out. Assumed is that no two
POPs that are not ruled out are at one place, see `C54_colocated_pops_violation`; the setup fails with EXISTING POPs,
`C54_existing_pop_violation`; there may be no solution, `C54_used_dns_violation`; and chosen DNs may be dropped after the
solution, `C54_dropped_violation`. -/
theorem C54_number_partial (ops : List Op) (p : OptParams) (P : Plan) (adv : Arc → Bool) (x : Vars) (extra : Nat)
    (hextra : 0 < extra) (hP : Plan.popProposal (run {} ops) p = some (.ok P)) (feas : P.SiteFeasible adv x)
    (hn : P.PopCount (run {} ops) extra x)
    (hone : ∀ i j, UsablePop (run {} ops) i → UsablePop (run {} ops) j → AtOnePlace (run {} ops) i j → i = j)
    (free : List SiteId) (hnd : free.Nodup) (hfree : ∀ i, i ∈ free ↔ FreeDn (run {} ops) i) :
    (∀ i, UsablePop (run {} ops) i → x.site i = 1) ∧
    (free.filter fun i => x.site i = 1).length = min extra free.length ∧
    ∀ i s, (run {} ops).sites.get? i = some s → s.siteType = .dn → x.site i = 1 → i ∉ free →
      (s.status = .existing ∨ s.status = .proposed) ∧ HasPop (run {} ops) i ∧
      ∀ j, AtOnePlace (run {} ops) i j → ¬ UsablePop (run {} ops) j := by
  have inv := Inv.empty.run ops
  obtain ⟨h1, h2⟩ := number inv hextra hP feas hn hone hnd hfree
  refine ⟨h1, h2, fun i s hs hty hx hi => ?_⟩
  rcases chosen_dn inv hP feas hs hty hx with g | g
  · exact absurd ((hfree i).2 g) hi
  · exact g

theorem siteDec_one {P : Plan} {x : Vars} {flow : Arc → ℚ} {i : SiteId} (h : P.siteDec x flow i = 1)
    (h01 : x.site i = 0 ∨ x.site i = 1) : x.site i = 1 := by
  rcases h01 with e | e
  · exfalso
    have hb : Plan.bin (x.site i) = 0 := by rw [e]; unfold Plan.bin Plan.eps; norm_num
    unfold Plan.siteDec at h
    rw [hb] at h
    simp at h
  · exact e

/-- C54 (partial): the DNs at which POPs are proposed after the solution is read off, whatever the flows are, are at most
as many as requested, if there are no DNs in use where POPs are ruled out. -/
theorem C54_proposed_partial (ops : List Op) (p : OptParams) (P : Plan) (adv : Arc → Bool) (x : Vars) (extra : Nat)
    (hextra : 0 < extra) (hP : Plan.popProposal (run {} ops) p = some (.ok P)) (feas : P.SiteFeasible adv x)
    (hn : P.PopCount (run {} ops) extra x)
    (hone : ∀ i j, UsablePop (run {} ops) i → UsablePop (run {} ops) j → AtOnePlace (run {} ops) i j → i = j)
    (huse : ∀ i s, (run {} ops).sites.get? i = some s → s.siteType = .dn → HasPop (run {} ops) i →
      s.status ≠ .existing ∧ s.status ≠ .proposed)
    (flow : Arc → ℚ) (L : List SiteId) (hL : L.Nodup)
    (hdec : ∀ i ∈ L, (∃ s, (run {} ops).sites.get? i = some s ∧ s.siteType = .dn) ∧ P.siteDec x flow i = 1) :
    L.length ≤ extra ∧ ∀ i ∈ L, FreeDn (run {} ops) i := by
  have inv := Inv.empty.run ops
  generalize run {} ops = t at *
  classical
  obtain ⟨-, hk, -⟩ := popProposal_sites inv hP
  have hx : ∀ i ∈ L, x.site i = 1 ∧ FreeDn t i := by
    intro i hi
    obtain ⟨⟨s, hs, hty⟩, hd⟩ := hdec i hi
    have h1 := siteDec_one hd (feas.bounds.site i (by rw [hk]; exact (Dict.mem_keys_iff _ _).2 ⟨_, hs⟩))
    refine ⟨h1, ?_⟩
    rcases chosen_dn inv hP feas hs hty h1 with g | ⟨g, hp, -⟩
    · exact g
    · obtain ⟨n1, n2⟩ := huse i s hs hty hp
      rcases g with g | g
      · exact absurd g n1
      · exact absurd g n2
  refine ⟨?_, fun i hi => (hx i hi).2⟩
  let free := t.sites.keys.filter fun i => decide (FreeDn t i)
  have hfree : ∀ i, i ∈ free ↔ FreeDn t i := by
    intro i
    rw [List.mem_filter, decide_eq_true_eq]
    constructor
    · exact fun h => h.2
    · intro h
      obtain ⟨⟨s, hs, -⟩, -⟩ := id h
      exact ⟨(Dict.mem_keys_iff _ _).2 ⟨_, hs⟩, h⟩
  have hnd : free.Nodup := inv.nd_sites.filter _
  obtain ⟨-, h2⟩ := number inv hextra hP feas hn hone hnd hfree
  have hsub : L ⊆ free.filter fun i => x.site i = 1 := by
    intro i hi
    rw [List.mem_filter]
    exact ⟨(hfree i).2 (hx i hi).2, by simpa using (hx i hi).1⟩
  have := (hL.subperm hsub).length_le
  omega

theorem proposePops_existing : ∀ (L : List (SiteId × Site)) (a : Topology) (e : SiteId × Site) (s : Site), e ∈ L →
    usablePop e.2 = true → a.sites.get? e.1 = some s → s.status = .existing → (a.proposePops L).2 ≠ none := by
  intro L
  induction L with
  | nil => intro a e s he; cases he
  | cons d rest ih =>
    intro a e s he hu hs hst
    unfold proposePops
    by_cases c : usablePop d.2 = true
    · rw [if_pos c]
      by_cases hde : d.1 = e.1
      · have : a.setSiteStatus d.1 .proposed = (a, some .topology) := by
          unfold setSiteStatus
          rw [hde, hs]
          simp [statusMutable, hst, StatusType.immutable]
        rw [this]; simp
      · have hne : e ∈ rest := by
          rcases List.mem_cons.1 he with rfl | h
          · exact absurd rfl hde
          · exact h
        rcases hr : a.setSiteStatus d.1 .proposed with ⟨t1, _ | err⟩
        · dsimp only
          refine ih t1 e s hne hu ?_ hst
          rw [setSiteStatus_ok hr]
          dsimp only
          rw [Dict.get?_modify, if_neg hde]; exact hs
        · simp
    · rw [if_neg c]
      rcases List.mem_cons.1 he with rfl | h
      · exact absurd hu c
      · exact ih a e s h hu hs hst

/-- C54 (violation): with an EXISTING POP in the input the problem is never set up, so that no POP is proposed; an
exception is raised. -/
theorem C54_existing_pop_violation (ops : List Op) (p : OptParams) (i : SiteId) (s : Site)
    (hs : (run {} ops).sites.get? i = some s) (hty : s.siteType = .pop) (hst : s.status = .existing) (P : Plan) :
    Plan.popProposal (run {} ops) p ≠ some (.ok P) := by
  have inv := Inv.empty.run ops
  generalize run {} ops = t at *
  intro h
  unfold Plan.popProposal at h
  rcases ha : t.accessTopology with _ | ⟨a, _ | err⟩
  · rw [ha] at h; simp at h
  swap
  · rw [ha] at h; simp at h
  rw [ha] at h
  simp only [Option.map_some, Option.some.injEq] at h
  split at h
  · cases h
  rcases hb : a.proposePops t.sites with ⟨b, _ | err⟩
  swap
  · rw [hb] at h; cases h
  have inv0 := Inv.dnsToPops inv
  obtain ⟨j1, j2, -, -, -, j6, -⟩ := removeLinks_spec t.dnsToPops.backhaulIds inv0
  unfold accessTopology at ha
  rcases hr : t.dnsToPops.removeLinks t.dnsToPops.backhaulIds with ⟨t1, _ | err⟩
  swap
  · rw [hr] at ha; simp at ha
  rw [hr] at ha j1 j2 j6
  dsimp only at ha j1 j2 j6
  obtain ⟨m1, -⟩ := mark_exact j1 none a ha
  have g0 : t.dnsToPops.sites.get? i = (t.sites.get? i).map fun s =>
      if s.siteType = .dn ∧ i ∉ t.dnsOnPops then { s with siteType := .pop } else s :=
    get?_mapVal t.sites (fun i s => if s.siteType = .dn ∧ i ∉ t.dnsOnPops then { s with siteType := .pop } else s) i
  have g1 : t1.sites.get? i = some s := by
    rw [j2, g0, hs]; simp [hty]
  have hun : ¬ Unserved t1 none i := by
    rintro ⟨y, hy, hc, -⟩
    rw [g1] at hy; cases hy
    rw [hst] at hc; cases hc
  have g2 : a.sites.get? i = some s := by rw [m1, g1]; simp [hun]
  have := proposePops_existing t.sites a (i, s) s (Dict.mem_of_get? _ hs)
    ((usablePop_eq s).2 ⟨hty, by rw [hst]; simp, by rw [hst]; simp⟩) g2 hst
  rw [hb] at this
  exact this rfl

/-- C54 (violation): if more DNs are in use, alone at their places, than extra POPs are requested, then the problem has no
solution: no POP is proposed. -/
theorem C54_used_dns_violation (ops : List Op) (p : OptParams) (P : Plan) (adv : Arc → Bool) (extra : Nat)
    (hextra : 0 < extra) (hP : Plan.popProposal (run {} ops) p = some (.ok P))
    (hone : ∀ i j, UsablePop (run {} ops) i → UsablePop (run {} ops) j → AtOnePlace (run {} ops) i j → i = j)
    (L : List SiteId) (hL : L.Nodup) (hlen : extra < L.length)
    (huse : ∀ i ∈ L, (∃ s, (run {} ops).sites.get? i = some s ∧ s.siteType = .dn ∧
      (s.status = .existing ∨ s.status = .proposed)) ∧ ∀ j, AtOnePlace (run {} ops) i j → j = i) :
    ¬ ∃ x, P.SiteFeasible adv x ∧ P.PopCount (run {} ops) extra x := by
  rintro ⟨x, feas, hn⟩
  have inv := Inv.empty.run ops
  generalize run {} ops = t at *
  classical
  obtain ⟨halw, hk, hb⟩ := popProposal_sites inv hP
  have hndP : P.t.sites.NodupKeys := by unfold Dict.NodupKeys; rw [hk]; exact inv.nd_sites
  let free := t.sites.keys.filter fun i => decide (FreeDn t i)
  have hfree : ∀ i, i ∈ free ↔ FreeDn t i := by
    intro i
    rw [List.mem_filter, decide_eq_true_eq]
    constructor
    · exact fun h => h.2
    · intro h
      obtain ⟨⟨s, hs, -⟩, -⟩ := id h
      exact ⟨(Dict.mem_keys_iff _ _).2 ⟨_, hs⟩, h⟩
  have hnd : free.Nodup := inv.nd_sites.filter _
  obtain ⟨-, h2⟩ := number inv hextra hP feas hn hone hnd hfree
  have hsub : L ⊆ free.filter fun i => x.site i = 1 := by
    intro i hi
    obtain ⟨⟨s, hs, hty, hst⟩, halone⟩ := huse i hi
    have hno : ¬ HasPop t i := by
      rintro ⟨j, r, hj, hr, hrt⟩
      have := halone j hj
      subst this
      rw [hs] at hr; cases hr; rw [hty] at hrt; cases hrt
    have hf : FreeDn t i := ⟨⟨s, hs, hty, by rcases hst with e | e <;> rw [e] <;> simp,
      by rcases hst with e | e <;> rw [e] <;> simp⟩, hno⟩
    rw [List.mem_filter]
    refine ⟨(hfree i).2 hf, ?_⟩
    simp only [decide_eq_true_eq]
    obtain ⟨s', hs', b⟩ := hb i s hs
    have e := (b.free hty hno).2
    have hd := feas.decided i ((Dict.mem_keys_iff _ _).2 ⟨_, hs'⟩)
    have hia : P.isActive i = true := by
      unfold Plan.isActive Plan.statusOf siteStatus; rw [hs']
      rcases hst with c | c <;> simp [e, c, StatusType.active]
    rw [halw, hia] at hd
    simp only [Bool.false_and, Bool.false_eq_true, if_false, if_true] at hd
    apply hd
    unfold Plan.groupSize
    rw [hs']
    obtain ⟨locs, hl, -, hn, hm⟩ := Plan.group_of hndP hs'
    dsimp only
    rw [hl, Option.getD_some]
    have : ∀ a ∈ locs, a = i := by
      intro a ha
      obtain ⟨y, hy, e⟩ := (hm a).1 ha
      exact halone a ((place_iff inv hP i a).1 ((Plan.samePlace_iff hs' hy).2 e))
    match locs, hn, this with
    | [], _, _ => simp
    | [_], _, _ => simp
    | a :: c :: _, hn, th =>
      have e1 := th a (by simp)
      have e2 := th c (by simp)
      rw [e1, e2] at hn
      simp at hn
  have := (hL.subperm hsub).length_le
  omega

instance (t : Topology) (i : SiteId) : Decidable (UsablePop t i) :=
  decidable_of_iff (∃ s ∈ t.sites.get? i, s.siteType = .pop ∧ s.status ≠ .unavailable ∧ s.status ≠ .unreachable) Iff.rfl

instance (t : Topology) (i j : SiteId) : Decidable (AtOnePlace t i j) :=
  decidable_of_iff (∃ s ∈ t.sites.get? i, ∃ r ∈ t.sites.get? j, s.lon = r.lon ∧ s.lat = r.lat ∧ s.alt = r.alt)
    ⟨fun ⟨s, h1, r, h2, h⟩ => ⟨s, r, h1, h2, h⟩, fun ⟨s, r, h1, h2, h⟩ => ⟨s, h1, r, h2, h⟩⟩

instance (t : Topology) (i : SiteId) : Decidable (HasPop t i) :=
  decidable_of_iff (∃ j ∈ t.sites.keys, AtOnePlace t i j ∧ ∃ r ∈ t.sites.get? j, r.siteType = .pop)
    ⟨fun ⟨j, _, h1, r, h2, h⟩ => ⟨j, r, h1, h2, h⟩,
      fun ⟨j, r, h1, h2, h⟩ => ⟨j, (Dict.mem_keys_iff _ _).2 ⟨r, h2⟩, h1, r, h2, h⟩⟩

instance (t : Topology) (i : SiteId) : Decidable (FreeDn t i) :=
  decidable_of_iff ((∃ s ∈ t.sites.get? i, s.siteType = .dn ∧ s.status ≠ .unavailable ∧ s.status ≠ .unreachable) ∧
    ¬ HasPop t i) Iff.rfl

theorem one_pop_of {t : Topology} (h : ∀ i ∈ t.sites.keys, ∀ j ∈ t.sites.keys, UsablePop t i → UsablePop t j →
    AtOnePlace t i j → i = j) : ∀ i j, UsablePop t i → UsablePop t j → AtOnePlace t i j → i = j := by
  intro i j hi hj
  obtain ⟨s, hs, -⟩ := id hi
  obtain ⟨r, hr, -⟩ := id hj
  exact h i ((Dict.mem_keys_iff _ _).2 ⟨_, hs⟩) j ((Dict.mem_keys_iff _ _).2 ⟨_, hr⟩) hi hj

theorem free_of {t : Topology} {L : List SiteId} (h : t.sites.keys.filter (fun i => FreeDn t i) = L) :
    ∀ i, i ∈ L ↔ FreeDn t i := by
  intro i
  rw [← h, List.mem_filter, decide_eq_true_eq]
  refine ⟨fun h => h.2, fun h => ⟨?_, h⟩⟩
  obtain ⟨⟨s, hs, -⟩, -⟩ := h
  exact (Dict.mem_keys_iff _ _).2 ⟨_, hs⟩

/-- The problem that is set up, if there is one. -/
def planOr (o : Option (Except Err Plan)) (d : Plan) : Plan :=
  match o with
  | some (.ok P) => P
  | _ => d

theorem planOr_eq {o : Option (Except Err Plan)} {d : Plan} (h : (o.any fun r => r.isOk) = true) :
    o = some (.ok (planOr o d)) := by
  rcases o with _ | _ | P
  · simp at h
  · simp [Except.isOk, Except.toBool] at h
  · rfl

/-- A POP and two DNs with statuses as given; a CN that the POP and the first DN can serve, and a CN that only the second
DN can serve; further sites. -/
def extraDemo (dn : StatusType) (more : List Op) : List Op := [
  .addSite { id := "P", siteType := .pop, status := .candidate } false,
  .addSite { id := "D", siteType := .dn, status := dn, lat := 1 } false,
  .addSite { id := "E", siteType := .dn, status := dn, lat := 2 } false,
  .addSite { id := "A", siteType := .cn, status := .candidate, lat := 3 } false,
  .addSite { id := "B", siteType := .cn, status := .candidate, lat := 4 } false,
  .addSector { site := "P", node := 0, pos := 0 },
  .addSector { site := "D", node := 0, pos := 0 },
  .addSector { site := "E", node := 0, pos := 0 },
  .addSector { site := "A", node := 0, pos := 0, typ := .cn },
  .addSector { site := "B", node := 0, pos := 0, typ := .cn },
  .addLink { tx := "P", rx := "A", capacity := 2, sectors := some (⟨"P", 0, 0, .dn⟩, ⟨"A", 0, 0, .cn⟩) },
  .addLink { tx := "D", rx := "A", capacity := 2, sectors := some (⟨"D", 0, 0, .dn⟩, ⟨"A", 0, 0, .cn⟩) },
  .addLink { tx := "E", rx := "B", capacity := 2, sectors := some (⟨"E", 0, 0, .dn⟩, ⟨"B", 0, 0, .cn⟩) },
  .addDemandSite { id := "a", connected := ["A"], demand := some 1 },
  .addDemandSite { id := "b", connected := ["B"], demand := some 1 }] ++ more

def extraParams : OptParams := { popCapacity := 10, costs := ⟨0, 0, 0⟩ }

def extraPlan (dn : StatusType) (more : List Op) : Plan :=
  planOr (Plan.popProposal (run {} (extraDemo dn more)) extraParams) ⟨{}, extraParams⟩

/-- The chosen sites are those not in the list; the flow goes to the CNs through `P` and `E`. -/
def extraVars (off : List SiteId) : Vars where
  site s := if s ∈ off then 0 else 1
  sector k _ := if k.site ∈ off then 0 else 1
  flow e := if e.1 = .site "D" ∨ e.2 = .site "D" ∨ e.2 = .site "Q" then 0 else 1
  tdm e _ := if e.1 = .site "D" then 0 else 1 / 2
  odd _ := 0
  shortage _ := 0

/-- The hypotheses of C54: one extra POP is requested, and `E` is chosen besides the POP of the input. -/
example :
    let t := run {} (extraDemo .candidate [])
    let P := extraPlan .candidate []
    Plan.popProposal t extraParams = some (.ok P) ∧ P.SiteFeasible (fun _ => false) (extraVars ["D"]) ∧
    P.PopCount t 1 (extraVars ["D"]) ∧
    (∀ i j, UsablePop t i → UsablePop t j → AtOnePlace t i j → i = j) ∧
    (∀ i, i ∈ ["D", "E"] ↔ FreeDn t i) ∧
    (∀ i ∈ ["E"], P.siteDec (extraVars ["D"]) (extraVars ["D"]).flow i = 1) := by
  refine ⟨planOr_eq (by decide +kernel), Plan.Check.sound (by decide +kernel), ?_, one_pop_of (by decide +kernel),
    free_of (by decide +kernel), by decide +kernel⟩
  unfold Plan.PopCount
  decide +kernel

/-- C54 (violation): two POPs of the input at one place; one extra POP is requested and both DNs are chosen. -/
theorem C54_colocated_pops_violation :
    ∃ (ops : List Op) (p : OptParams) (P : Plan) (x : Vars),
      Plan.popProposal (run {} ops) p = some (.ok P) ∧ P.SiteFeasible (fun _ => false) x ∧ P.PopCount (run {} ops) 1 x ∧
      FreeDn (run {} ops) "D" ∧ FreeDn (run {} ops) "E" ∧ x.site "D" = 1 ∧ x.site "E" = 1 := by
  refine ⟨extraDemo .candidate [.addSite { id := "Q", siteType := .pop, status := .candidate } false], extraParams,
    extraPlan .candidate [.addSite { id := "Q", siteType := .pop, status := .candidate } false], extraVars ["Q"],
    planOr_eq (by decide +kernel), Plan.Check.sound (by decide +kernel), ?_, by decide +kernel, by decide +kernel,
    by decide +kernel, by decide +kernel⟩
  unfold Plan.PopCount
  decide +kernel

/-- C54 (violation): two extra POPs are requested and both DNs are chosen, but the one without flow is dropped when the
solution is read off, so that one POP is proposed. -/
theorem C54_dropped_violation :
    ∃ (ops : List Op) (p : OptParams) (P : Plan) (x : Vars),
      Plan.popProposal (run {} ops) p = some (.ok P) ∧ P.SiteFeasible (fun _ => false) x ∧ P.PopCount (run {} ops) 2 x ∧
      FreeDn (run {} ops) "D" ∧ FreeDn (run {} ops) "E" ∧ P.siteDec x x.flow "D" = 0 ∧ P.siteDec x x.flow "E" = 1 := by
  refine ⟨extraDemo .candidate [], extraParams, extraPlan .candidate [], extraVars [],
    planOr_eq (by decide +kernel), Plan.Check.sound (by decide +kernel), ?_, by decide +kernel, by decide +kernel,
    by decide +kernel, by decide +kernel⟩
  unfold Plan.PopCount
  decide +kernel

/-- The hypotheses of `C54_used_dns_violation`: both DNs are PROPOSED and one extra POP is requested. -/
example :
    let t := run {} (extraDemo .proposed [])
    Plan.popProposal t extraParams = some (.ok (extraPlan .proposed [])) ∧
    (∀ i j, UsablePop t i → UsablePop t j → AtOnePlace t i j → i = j) ∧
    ∀ i ∈ ["D", "E"], (∃ s ∈ t.sites.get? i, s.siteType = .dn ∧ (s.status = .existing ∨ s.status = .proposed)) ∧
      ∀ j ∈ t.sites.keys, AtOnePlace t i j → j = i :=
  ⟨planOr_eq (by decide +kernel), one_pop_of (by decide +kernel), by decide +kernel⟩

/-- An EXISTING POP makes the phase raise an exception. -/
example : (Plan.popProposal (run {} (extraDemo .candidate
    [.addSite { id := "X", siteType := .pop, status := .existing, lat := 9 } false])) extraParams).any
    (fun r => match r with | .error .topology => true | _ => false) = true := by decide +kernel

end Verif
