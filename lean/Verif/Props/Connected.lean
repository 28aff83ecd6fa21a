import Verif.Model.Connected
import Verif.Props.MaxFlow
import Verif.Props.Ilp3

/-! # C89: the demand sites counted as connectable under polarity constraints -/

namespace Verif
open Topology Spec

namespace Spec

/-- The input already has a PROPOSED/EXISTING site at the place of `s`, and `s` cannot
be selected beside it: `s` is neither itself such a site of the highest type there, nor
an upgrade of a CN to a DN or POP. -/
def Displaced (P : Plan) (s : SiteId) : Prop :=
  ∃ a x y, SamePlace P s a ∧ P.t.sites.get? s = some x ∧ P.t.sites.get? a = some y ∧
    y.status.active = true ∧
    (∀ b z, SamePlace P s b → P.t.sites.get? b = some z → z.status.active = true →
      rank z.siteType ≤ rank y.siteType) ∧
    ¬ (x.status.active = true ∧ x.siteType = y.siteType) ∧
    ¬ (y.siteType = .cn ∧ x.siteType ≠ .cn)

/-- A site traffic may pass. -/
def OpenSite (P : Plan) (s : SiteId) : Prop :=
  ∃ x, P.t.sites.get? s = some x ∧ x.status.inactive = false ∧ ¬ Displaced P s

/-- A link traffic may use, when `odd` tells the sites of odd polarity: positive
capacity, not adversarial, not ruled out, a radio link has sectors, and a radio link
between distribution sites not yet decided by the input joins opposite polarities. -/
def OpenLink (P : Plan) (adv : Arc → Bool) (odd : SiteId → Bool) (a b : SiteId) : Prop :=
  ∃ l ∈ P.t.links.vals, l.tx = a ∧ l.rx = b ∧ 0 < l.capacity ∧ adv (arcOf l) = false ∧
    l.status.inactive = false ∧ (l.isWireless = true → l.sectors.isSome = true) ∧
    (P.p.ignorePolarities = false → l.isWireless = true → l.status.active = false →
      ∀ x y, P.t.sites.get? a = some x → P.t.sites.get? b = some y → x.siteType ≠ .cn →
        y.siteType ≠ .cn → odd a ≠ odd b)

/-- The demand location `l` can be served from a POP over open links and sites. -/
structure OpenPath (P : Plan) (adv : Arc → Bool) (odd : SiteId → Bool) (path : List SiteId)
    (l : Loc) : Prop where
  start : ∃ p x, path.head? = some p ∧ P.t.sites.get? p = some x ∧ x.siteType = .pop
  hops : path.IsChain (OpenLink P adv odd)
  sites : ∀ s ∈ path, OpenSite P s
  finish : ∃ q id d k, path.getLast? = some q ∧ P.t.demandSites.get? id = some d ∧
    k < d.numSites ∧ q ∈ d.connected ∧ l = .demand id k

end Spec

namespace Plan
variable {P : Plan} {adv : Arc → Bool} {x : Vars} {mark : Loc → ℚ}

theorem group_mem (nd : P.t.sites.NodupKeys) {locs : List SiteId} (h : locs ∈ P.t.colocated.vals)
    {s : SiteId} (hs : s ∈ locs) : ∃ x, P.t.sites.get? s = some x ∧
      ∀ a, a ∈ locs ↔ ∃ y, P.t.sites.get? a = some y ∧ y.point = x.point := by
  obtain ⟨h1, h2, h3, _⟩ := group_fold (fun p : SiteId × Site => p.2.point) Prod.fst P.t.sites []
    Dict.nodupKeys_nil
  change P.t.colocated.NodupKeys at h1
  change ∀ k, (P.t.colocated.get? k).getD [] = _ at h2
  obtain ⟨⟨k, locs'⟩, hm, rfl⟩ := List.mem_map.1 h
  have hk := (Dict.mem_iff_get? h1 _ _).1 hm
  have e := h2 k
  rw [hk] at e
  simp only [Option.getD_some, Dict.get?_nil, Option.getD_none, List.nil_append] at e
  have mem : ∀ a, a ∈ locs' ↔ ∃ y, P.t.sites.get? a = some y ∧ y.point = k := by
    intro a
    rw [e, List.mem_map]
    constructor
    · rintro ⟨⟨i, y⟩, hm, rfl⟩
      rw [List.mem_filter, decide_eq_true_eq] at hm
      exact ⟨y, (Dict.mem_iff_get? nd _ _).1 hm.1, hm.2⟩
    · rintro ⟨y, hy, hp⟩
      exact ⟨(a, y), List.mem_filter.2 ⟨Dict.mem_of_get? _ hy, decide_eq_true hp⟩, rfl⟩
  obtain ⟨x, hx, hp⟩ := (mem s).1 hs
  exact ⟨x, hx, fun a => by rw [hp]; exact mem a⟩

theorem ignoreSites_iff (nd : P.t.sites.NodupKeys) (s : SiteId) :
    s ∈ P.ignoreSites ↔ Displaced P s := by
  -- one group
  have one : ∀ (locs : List SiteId) (x : Site), (P.t.sites.get? s = some x) → s ∈ locs →
      (∀ a, a ∈ locs ↔ ∃ y, P.t.sites.get? a = some y ∧ y.point = x.point) →
      ((locs.filter P.isActive ≠ [] ∧
        (!((P.siteType? (.site s)).any fun ty =>
          (validTypes (P.maxType (locs.filter P.isActive))).contains ty) ||
        (P.siteType? (.site s) == some (P.maxType (locs.filter P.isActive)) && !P.isActive s)) = true) ↔
      Displaced P s) := by
    intro locs x hx hs hmem
    obtain ⟨_, hm2, hm3⟩ := maxType_spec (P := P) (locs.filter P.isActive) .cn
    change ∀ a ∈ locs.filter P.isActive, ∀ ty, P.siteType? (.site a) = some ty →
      rank ty ≤ rank (P.maxType (locs.filter P.isActive)) at hm2
    change P.maxType (locs.filter P.isActive) = .cn ∨ ∃ a ∈ locs.filter P.isActive,
      P.siteType? (.site a) = some (P.maxType (locs.filter P.isActive)) at hm3
    rw [siteType?_of hx]
    have hact : P.isActive s = true ↔ x.status.active = true := by
      rw [isActive_iff]
      constructor
      · rintro ⟨y, hy, h⟩; rw [hx] at hy; injection hy with hy; exact hy ▸ h
      · intro h; exact ⟨x, hx, h⟩
    have mact : ∀ a, a ∈ locs.filter P.isActive ↔ ∃ y, P.t.sites.get? a = some y ∧
        SamePlace P s a ∧ y.status.active = true := by
      intro a
      rw [List.mem_filter, hmem, isActive_iff]
      constructor
      · rintro ⟨⟨y, hy, hp⟩, z, hz, ha⟩
        exact ⟨z, hz, (samePlace_iff hx hz).2 (by rw [hy] at hz; injection hz with hz; exact hz ▸ hp), ha⟩
      · rintro ⟨y, hy, hp, ha⟩
        exact ⟨⟨y, hy, (samePlace_iff hx hy).1 hp⟩, y, hy, ha⟩
    -- the maximal type is attained, when there is an active site
    have hatt : locs.filter P.isActive ≠ [] → ∃ a ∈ locs.filter P.isActive,
        P.siteType? (.site a) = some (P.maxType (locs.filter P.isActive)) := by
      intro hne
      rcases hm3 with h | h
      · obtain ⟨a, ha⟩ := List.exists_mem_of_ne_nil _ hne
        obtain ⟨y, hy, _, _⟩ := (mact a).1 ha
        have := hm2 a ha _ (siteType?_of hy)
        refine ⟨a, ha, ?_⟩
        rw [h] at this ⊢
        rw [siteType?_of hy]
        cases hc : y.siteType <;> rw [hc] at this <;> simp [rank] at this ⊢
      · exact h
    generalize hm : P.maxType (locs.filter P.isActive) = m at *
    have hbool : ((!((some x.siteType).any fun ty => (validTypes m).contains ty) ||
        (some x.siteType == some m && !P.isActive s)) = true) ↔
        (¬ (x.status.active = true ∧ x.siteType = m) ∧ ¬ (m = .cn ∧ x.siteType ≠ .cn)) := by
      by_cases c : x.status.active = true
      · rw [hact.2 c]
        cases m <;> cases hc : x.siteType <;> simp [validTypes, c]
      · have c' : P.isActive s = false := Bool.eq_false_iff.2 (fun h => c (hact.1 h))
        rw [c']
        cases m <;> cases hc : x.siteType <;> simp [validTypes, c]
    rw [hbool]
    constructor
    · rintro ⟨hne, h1, h2⟩
      obtain ⟨a, ha, hty⟩ := hatt hne
      obtain ⟨y, hy, hp, hya⟩ := (mact a).1 ha
      rw [siteType?_of hy] at hty
      injection hty with hty
      subst hty
      exact ⟨a, x, y, hp, hx, hy, hya, fun b z h1 h2 h3 =>
        hm2 b ((mact b).2 ⟨z, h2, h1, h3⟩) _ (siteType?_of h2), h1, h2⟩
    · rintro ⟨a, x', y, hp, hx', hy, hya, hmax, h1, h2⟩
      rw [hx] at hx'; injection hx' with hx'; subst hx'
      have ha : a ∈ locs.filter P.isActive := (mact a).2 ⟨y, hy, hp, hya⟩
      have hne := List.ne_nil_of_mem ha
      obtain ⟨b, hb, hty⟩ := hatt hne
      obtain ⟨z, hz, hpb, hzb⟩ := (mact b).1 hb
      rw [siteType?_of hz] at hty
      injection hty with hty
      have e1 := hmax b z hpb hz hzb
      have e2 := hm2 a ha _ (siteType?_of hy)
      rw [hty] at e1
      have : y.siteType = m := by
        cases hc : y.siteType <;> cases m <;> rw [hc] at e1 e2 <;> simp [rank] at e1 e2 ⊢
      rw [← this]
      exact ⟨hne, h1, h2⟩
  unfold ignoreSites
  rw [List.mem_flatMap]
  constructor
  · rintro ⟨locs, hl, h⟩
    split at h
    · cases h
    · rename_i hne
      obtain ⟨hs, hb⟩ := List.mem_filter.1 h
      obtain ⟨x, hx, hmem⟩ := group_mem nd hl hs
      exact (one locs x hx hs hmem).1 ⟨hne, hb⟩
  · intro h
    obtain ⟨_, x, _, _, hx, _⟩ := id h
    obtain ⟨locs, _, hv, _, hmem⟩ := group_of nd hx
    have hs : s ∈ locs := (hmem s).2 ⟨x, hx, rfl⟩
    obtain ⟨hne, hb⟩ := (one locs x hx hs hmem).2 h
    refine ⟨locs, hv, ?_⟩
    rw [if_neg hne]
    exact List.mem_filter.2 ⟨hs, hb⟩

theorem usableSite_iff (nd : P.t.sites.NodupKeys) {s : SiteId} (hs : s ∈ P.t.sites.keys) :
    P.usableSite s = true ↔ OpenSite P s := by
  obtain ⟨x, hx⟩ := (Dict.mem_keys_iff _ _).1 hs
  unfold usableSite OpenSite isInactive statusOf siteStatus
  rw [hx]
  simp only [Option.map_some, Option.any_some, Bool.not_eq_true', Bool.or_eq_false_iff,
    List.contains_eq_mem, decide_eq_false_iff_not, ignoreSites_iff nd]
  constructor
  · rintro ⟨h1, h2⟩; exact ⟨x, rfl, h1, h2⟩
  · rintro ⟨y, hy, h1, h2⟩
    injection hy with hy
    exact ⟨hy ▸ h1, h2⟩


theorem unit_site (feas : P.ConnFeasible adv x mark) {s : SiteId} (hs : s ∈ P.t.sites.keys) :
    P.inFlow x.flow (.site s) = P.outFlow x.flow (.site s) ∧
    (P.usableSite s = false → P.outFlow x.flow (.site s) = 0) := by
  have h := feas.balance (.site s) (mem_locations.2 (Or.inr (Or.inl ⟨s, hs, rfl⟩)))
  dsimp only at h
  split at h
  · rename_i hu
    refine ⟨?_, fun h' => by rw [hu] at h'; cases h'⟩
    by_cases c : P.incoming (.site s) ≠ [] ∨ P.outgoing (.site s) ≠ []
    · exact (h c).symm
    · simp only [ne_eq, not_or, not_not] at c
      rw [inFlow_nil c.1, outFlow_nil c.2]
  · have h1 : P.inFlow x.flow (.site s) = 0 := by
      by_cases c : P.incoming (.site s) = []
      · exact inFlow_nil c
      · exact h.1 c
    have h2 : P.outFlow x.flow (.site s) = 0 := by
      by_cases c : P.outgoing (.site s) = []
      · exact outFlow_nil c
      · exact h.2 c
    exact ⟨h1.trans h2.symm, fun _ => h2⟩

theorem chain_out {f : Arc → ℚ} {l : Loc} : ∀ (path : List SiteId),
    path.IsChain (fun a b => Carries P f (.site a) (.site b)) →
    (∃ q, path.getLast? = some q ∧ Carries P f (.site q) l) →
    ∀ s ∈ path, ∃ v, Carries P f (.site s) v
  | [], _, _ => by simp
  | [a], _, ⟨q, hq, hc⟩ => by
    intro s hs
    simp only [List.mem_singleton] at hs
    simp only [List.getLast?_singleton, Option.some.injEq] at hq
    subst hs hq
    exact ⟨l, hc⟩
  | a :: b :: t, h, hl => by
    intro s hs
    rw [List.isChain_cons_cons] at h
    rcases List.mem_cons.1 hs with rfl | hs
    · exact ⟨_, h.1⟩
    · refine chain_out (l := l) (b :: t) h.2 ?_ s hs
      obtain ⟨q, hq, hc⟩ := hl
      exact ⟨q, by rwa [List.getLast?_cons_cons] at hq, hc⟩

theorem connected_path (inv : P.t.Inv) (r : P.Ready) (feas : P.ConnFeasible adv x mark)
    {l : Loc} (hl : l ∈ P.demands) (hm : mark l = 1) :
    ∃ path, OpenPath P adv (fun s => decide (x.odd s = 1)) path l := by
  have nn : ∀ e ∈ P.arcs, 0 ≤ x.flow e := fun e he => (feas.flow e he).1
  obtain ⟨id, d, k, hd, hk, rfl⟩ := mem_demands.1 hl
  have hloc := mem_locations.2 (Or.inr (Or.inr hl))
  have hin : 0 < P.inFlow x.flow (.demand id k) := by
    have h := feas.balance _ hloc
    dsimp only at h
    rw [hm] at h
    by_contra c
    push Not at c
    have : 10 * (P.demands.length : ℚ) * P.inFlow x.flow (.demand id k) ≤ 0 :=
      mul_nonpos_of_nonneg_of_nonpos (by positivity) c
    linarith
  have hreach := reach_of_net inv.nd_sites inv.nd_demand r nn (by
    intro v hv hne
    rcases mem_locations.1 hv with h | ⟨s, hs, rfl⟩ | h
    · exact absurd h hne
    · rw [(unit_site feas hs).1]; simp
    · obtain ⟨i, e, j, _, _, rfl⟩ := mem_demands.1 h
      rw [outFlow_nil outgoing_demand, sub_zero]
      apply List.sum_nonneg
      intro y hy
      obtain ⟨a, ha, rfl⟩ := List.mem_map.1 hy
      exact nn a (mem_incoming.1 ha).1) hloc
    (by rw [outFlow_nil outgoing_demand, sub_zero]; exact hin)
  obtain ⟨path, ⟨p, y, h1, h2, h3, h4⟩, hh, q, hq, hqc⟩ := path_to_demand inv.nd_sites hreach
  have key : ∀ s v, Carries P x.flow (.site s) v → OpenSite P s := by
    intro s v hc
    have hs : s ∈ P.t.sites.keys := by
      rcases mem_locations.1 (r.ends _ hc.1).1 with h | ⟨s', hs', h⟩ | h
      · cases h
      · injection h with h; exact h ▸ hs'
      · obtain ⟨_, _, _, _, _, h⟩ := mem_demands.1 h
        cases h
    rw [← usableSite_iff inv.nd_sites hs]
    by_contra c
    have hz := (unit_site feas hs).2 (Bool.eq_false_iff.2 c)
    have h1 : x.flow (Loc.site s, v) ≤ P.outFlow x.flow (.site s) := flow_le_outFlow nn hc.1
    have h2 := hc.2
    linarith
  refine ⟨path, ⟨p, y, h1, h2, h3⟩, ?_, ?_, q, id, d, k, hq, (Dict.mem_iff_get? inv.nd_demand _ _).1 hd,
    hk, ?_, rfl⟩
  · refine List.IsChain.imp ?_ hh
    intro a b hab
    rcases mem_arcs.1 hab.1 with ⟨_, _, _, _, h⟩ | ⟨_, _, _, _, _, _, _, h⟩ | ⟨l, hl, h⟩
    · cases h
    · cases h
    · injection h with ea eb
      injection ea with ea; injection eb with eb
      subst ea eb
      have hlk : P.linkOf (.site l.tx, .site l.rx) = some l := linkOf_arcOf inv hl
      have hpos := hab.2
      have hig : P.ignoreLink adv (.site l.tx, .site l.rx) = false := by
        rw [Bool.eq_false_iff]; intro h
        rw [feas.ignored _ hab.1 h] at hpos; exact lt_irrefl _ hpos
      have hin : P.inactiveArc (.site l.tx, .site l.rx) = false := by
        rw [Bool.eq_false_iff]; intro h
        rw [feas.inactive _ hab.1 h] at hpos; exact lt_irrefl _ hpos
      unfold ignoreLink at hig
      unfold inactiveArc at hin
      rw [hlk] at hig hin
      simp only [Option.any_some, Bool.or_eq_false_iff, decide_eq_false_iff_not, not_le] at hig hin
      refine ⟨l, hl, rfl, rfl, hig.1, hig.2, hin.1, ?_, ?_⟩
      · intro hw
        have := hin.2
        rw [hw] at this
        cases hsec : l.sectors with
        | none => rw [hsec] at this; simp at this
        | some _ => rfl
      · intro hpol hw hst y z hy hz hyt hzt
        have d1 : P.isDist (.site l.tx) = true := by
          unfold isDist; rw [siteType?_of hy]
          cases h : y.siteType <;> first | exact absurd h hyt | rfl
        have d2 : P.isDist (.site l.rx) = true := by
          unfold isDist; rw [siteType?_of hz]
          cases h : z.siteType <;> first | exact absurd h hzt | rfl
        have hia : P.inputActive (.site l.tx, .site l.rx) = false := by
          unfold inputActive; rw [hlk]; simpa using hst
        have hwi : P.isWired (.site l.tx, .site l.rx) = false := by
          show ((P.linkOf (.site l.tx, .site l.rx)).any fun l => !l.isWireless) = false
          rw [hlk]; simp [hw]
        have ht := feas.tdmPolarity hpol _ _ hab.1 hia hwi d1 d2
        have e1 : tdmSum 1 x (.site l.tx, .site l.rx) = x.flow (.site l.tx, .site l.rx) := by
          simp [tdmSum, feas.tdm _ hab.1]
        rw [e1] at ht
        rcases feas.odd hpol _ d1 with o1 | o1 <;> rcases feas.odd hpol _ d2 with o2 | o2 <;>
          rw [o1, o2] at ht <;> simp only [o1, o2] <;> first | decide | (exfalso; linarith [ht.1, ht.2])
  · intro s hs
    obtain ⟨v, hv⟩ := chain_out path hh ⟨q, hq, hqc⟩ s hs
    exact key s v hv
  · rcases mem_arcs.1 hqc.1 with ⟨_, _, _, _, h⟩ | ⟨i, e, j, s, he, _, hs, h⟩ | ⟨l, hl, h⟩
    · cases h
    · injection h with ea eb
      injection ea with ea; injection eb with eb
      subst ea eb
      have a1 := (Dict.mem_iff_get? inv.nd_demand _ _).1 hd
      have a2 := (Dict.mem_iff_get? inv.nd_demand _ _).1 he
      rw [a1] at a2; injection a2 with a2
      rw [a2]; exact hs
    · cases h


/-- A path without repeated sites. -/
theorem simple_path {α : Type} {R : α → α → Prop} : ∀ (path : List α), path.IsChain R → path ≠ [] →
    ∃ q : List α, q.IsChain R ∧ q.Nodup ∧ q.head? = path.head? ∧ q.getLast? = path.getLast? ∧
      ∀ a ∈ q, a ∈ path
  | [], _, h => absurd rfl h
  | [a], _, _ => ⟨[a], by simp, by simp, rfl, rfl, by simp⟩
  | a :: b :: t, h, _ => by
    rw [List.isChain_cons_cons] at h
    obtain ⟨q, h1, h2, h3, h4, h5⟩ := simple_path (b :: t) h.2 (by simp)
    by_cases c : a ∈ q
    · obtain ⟨q1, q2, rfl⟩ := List.append_of_mem c
      rw [List.isChain_append] at h1
      refine ⟨a :: q2, h1.2.1, (List.nodup_append.1 h2).2.1, rfl, ?_, ?_⟩
      · rw [List.getLast?_cons_cons, ← h4, List.getLast?_append]
        cases hq : (a :: q2).getLast? with
        | none => simp at hq
        | some _ => rfl
      · intro y hy
        exact List.mem_cons_of_mem _ (h5 y (List.mem_append_right _ hy))
    · refine ⟨a :: q, ?_, List.nodup_cons.2 ⟨c, h2⟩, rfl, ?_, ?_⟩
      · cases q with
        | nil => simp
        | cons y q =>
          simp only [List.head?_cons, Option.some.injEq] at h3
          subst h3
          exact List.isChain_cons_cons.2 ⟨h.1, h1⟩
      · rw [List.getLast?_cons_cons, ← h4]
        cases q with
        | nil => simp at h3
        | cons y q => rw [List.getLast?_cons_cons]
      · intro y hy
        rcases List.mem_cons.1 hy with rfl | hy
        · simp
        · exact List.mem_cons_of_mem _ (h5 y hy)

/-- Consecutive pairs of a list of locations. -/
def pairs : List Loc → List Arc
  | a :: b :: t => (a, b) :: pairs (b :: t)
  | _ => []

theorem pairs_snd : ∀ L : List Loc, (pairs L).map (·.2) = L.tail
  | [] => rfl
  | [_] => rfl
  | a :: b :: t => by
    show b :: (pairs (b :: t)).map (·.2) = b :: t
    rw [pairs_snd (b :: t)]; rfl

theorem pairs_fst : ∀ L : List Loc, (pairs L).map (·.1) = L.dropLast
  | [] => rfl
  | [_] => rfl
  | a :: b :: t => by
    show a :: (pairs (b :: t)).map (·.1) = a :: (b :: t).dropLast
    rw [pairs_fst (b :: t)]

theorem pairs_mem {R : Loc → Loc → Prop} : ∀ L : List Loc, L.IsChain R → ∀ e ∈ pairs L, R e.1 e.2
  | [], _ => by simp [pairs]
  | [_], _ => by simp [pairs]
  | a :: b :: t, h => by
    rw [List.isChain_cons_cons] at h
    intro e he
    rcases List.mem_cons.1 he with rfl | he
    · exact h.1
    · exact pairs_mem (b :: t) h.2 e he

/-- Sum of the indicator of `A` over the arcs with a property. -/
theorem indicator_sum {A : List Arc} (hA : A.Nodup) (hsub : ∀ e ∈ A, e ∈ P.arcs) (g : Arc → Loc)
    (v : Loc) :
    ((P.arcs.filter (fun e => g e = v)).map (fun e => if e ∈ A then (1 : ℚ) else 0)).sum =
      ((A.map g).count v : ℚ) := by
  have h1 : ∀ M : List Arc, (M.map (fun e => if e ∈ A then (1 : ℚ) else 0)).sum =
      ((M.filter (fun e => decide (e ∈ A))).length : ℚ) := by
    intro M
    induction M with
    | nil => simp
    | cons a M ih =>
      by_cases c : a ∈ A
      · simp only [List.map_cons, List.sum_cons, ih, c, if_true, List.filter_cons, decide_true,
          List.length_cons]
        push_cast; ring
      · simp [c, ih]
  rw [h1]
  have h2 : ((P.arcs.filter (fun e => g e = v)).filter (fun e => decide (e ∈ A))).Perm
      (A.filter (fun e => g e = v)) := by
    refine (List.perm_ext_iff_of_nodup ((arcs_nodup.filter _).filter _) (hA.filter _)).2 ?_
    intro e
    simp only [List.mem_filter, decide_eq_true_eq]
    constructor
    · rintro ⟨⟨_, h⟩, h'⟩; exact ⟨h', h⟩
    · rintro ⟨h, h'⟩; exact ⟨⟨hsub e h, h'⟩, h⟩
  rw [h2.length_eq]
  rw [List.count_eq_countP, List.countP_map, List.countP_eq_length_filter]
  congr 1

/-- Sending one unit along a path of distinct sites from the source to a demand
location. -/
theorem path_flow {R : Loc → Loc → Prop} (hR : ∀ a b, R a b → (a, b) ∈ P.arcs)
    {path : List SiteId} {id : DemandId} {k : Nat} (nd : path.Nodup)
    (h : (Loc.source :: (path.map Loc.site ++ [Loc.demand id k])).IsChain R) :
    ∃ f : Arc → ℚ, (∀ e, f e = 0 ∨ f e = 1) ∧
      (∀ s, P.inFlow f (.site s) = P.outFlow f (.site s)) ∧
      P.inFlow f (.demand id k) = 1 ∧ (∀ e, f e ≠ 0 → R e.1 e.2) := by
  let L := Loc.source :: (path.map Loc.site ++ [Loc.demand id k])
  have ndL : L.Nodup := by
    refine List.nodup_cons.2 ⟨by simp, ?_⟩
    refine List.nodup_append.2 ⟨?_, by simp, ?_⟩
    · exact (List.nodup_map_iff (fun a b h => by injection h)).2 nd
    · intro a ha b hb
      simp only [List.mem_map] at ha
      simp only [List.mem_singleton] at hb
      obtain ⟨c, _, rfl⟩ := ha
      rw [hb]; simp
  have ndA : (pairs L).Nodup := by
    apply List.Nodup.of_map (f := fun e : Arc => e.2)
    rw [pairs_snd]
    exact (List.nodup_cons.1 ndL).2
  have hA : ∀ e ∈ pairs L, R e.1 e.2 := pairs_mem L h
  have hsub : ∀ e ∈ pairs L, e ∈ P.arcs := fun e he => hR _ _ (hA e he)
  have hin : ∀ v, P.inFlow (fun e => if e ∈ pairs L then (1 : ℚ) else 0) v = (L.tail.count v : ℚ) := by
    intro v
    have := indicator_sum ndA hsub (fun e => e.2) v
    rw [pairs_snd] at this
    exact this
  have hout : ∀ v, P.outFlow (fun e => if e ∈ pairs L then (1 : ℚ) else 0) v =
      (L.dropLast.count v : ℚ) := by
    intro v
    have := indicator_sum ndA hsub (fun e => e.1) v
    rw [pairs_fst] at this
    exact this
  have htail : L.tail = path.map Loc.site ++ [Loc.demand id k] := rfl
  have hdrop : L.dropLast = Loc.source :: path.map Loc.site := by
    show (Loc.source :: (path.map Loc.site ++ [Loc.demand id k])).dropLast = _
    rw [← List.cons_append, List.dropLast_concat]
  refine ⟨fun e => if e ∈ pairs L then 1 else 0, fun e => by dsimp only; split <;> simp, ?_, ?_, ?_⟩
  · intro s
    rw [hin, hout, htail, hdrop]
    simp [List.count_append, List.count_cons]
  · rw [hin, htail, List.count_append]
    have : (path.map Loc.site).count (Loc.demand id k) = 0 := by
      apply List.count_eq_zero_of_not_mem
      simp
    rw [this]; simp
  · intro e he
    dsimp only at he
    split at he
    · rename_i hm; exact hA e hm
    · exact absurd rfl he

theorem inFlow_add (f g : Arc → ℚ) (c : ℚ) (v : Loc) :
    P.inFlow (fun e => f e + c * g e) v = P.inFlow f v + c * P.inFlow g v := by
  unfold inFlow
  induction P.incoming v with
  | nil => simp
  | cons a M ih => simp only [List.map_cons, List.sum_cons, ih]; ring

theorem outFlow_add (f g : Arc → ℚ) (c : ℚ) (v : Loc) :
    P.outFlow (fun e => f e + c * g e) v = P.outFlow f v + c * P.outFlow g v := by
  unfold outFlow
  induction P.outgoing v with
  | nil => simp
  | cons a M ih => simp only [List.map_cons, List.sum_cons, ih]; ring

theorem inFlow_nonneg {f : Arc → ℚ} (h : ∀ e, 0 ≤ f e) (v : Loc) : 0 ≤ P.inFlow f v := by
  apply List.sum_nonneg
  intro y hy
  obtain ⟨a, _, rfl⟩ := List.mem_map.1 hy
  exact h a

theorem outFlow_nonneg {f : Arc → ℚ} (h : ∀ e, 0 ≤ f e) (v : Loc) : 0 ≤ P.outFlow f v := by
  apply List.sum_nonneg
  intro y hy
  obtain ⟨a, _, rfl⟩ := List.mem_map.1 hy
  exact h a

/-- Superposition of unit paths to all locations of a list, each weighted by `c`. -/
theorem superpose {R : Loc → Loc → Prop} (hR : ∀ a b, R a b → (a, b) ∈ P.arcs) {c : ℚ} (hc : 0 ≤ c)
    (S : List Loc)
    (hS : ∀ l ∈ S, ∃ (path : List SiteId) (id : DemandId) (k : Nat), path.Nodup ∧ l = Loc.demand id k ∧
      (Loc.source :: (path.map Loc.site ++ [l])).IsChain R) :
    ∃ f : Arc → ℚ, (∀ e, 0 ≤ f e ∧ f e ≤ S.length * c) ∧
      (∀ s, P.inFlow f (.site s) = P.outFlow f (.site s)) ∧
      (∀ l ∈ S, c ≤ P.inFlow f l) ∧ (∀ e, f e ≠ 0 → R e.1 e.2) := by
  induction S with
  | nil => exact ⟨fun _ => 0, by simp, by intro s; simp [inFlow, outFlow], by simp, by simp⟩
  | cons l S ih =>
    obtain ⟨f, f1, f2, f3, f4⟩ := ih (fun m hm => hS m (List.mem_cons_of_mem _ hm))
    obtain ⟨path, id, k, nd, rfl, hch⟩ := hS l (by simp)
    obtain ⟨g, g1, g2, g3, g4⟩ := path_flow hR nd hch
    have gn : ∀ e, 0 ≤ g e := fun e => by rcases g1 e with h | h <;> rw [h]; norm_num
    refine ⟨fun e => f e + c * g e, ?_, ?_, ?_, ?_⟩
    · intro e
      have hg : 0 ≤ g e ∧ g e ≤ 1 := by rcases g1 e with h | h <;> rw [h] <;> norm_num
      obtain ⟨a, b⟩ := f1 e
      have h1 : 0 ≤ c * g e := mul_nonneg hc hg.1
      have h2 : c * g e ≤ c := by nlinarith [hg.2]
      simp only [List.length_cons]
      push_cast
      constructor
      · linarith
      · linarith
    · intro s; rw [inFlow_add, outFlow_add, f2, g2]
    · intro m hm
      rw [inFlow_add]
      have a1 := inFlow_nonneg (P := P) (fun e => (f1 e).1) m
      have a2 := mul_nonneg hc (inFlow_nonneg (P := P) gn m)
      rcases List.mem_cons.1 hm with rfl | hm
      · rw [g3]; linarith
      · linarith [f3 m hm]
    · intro e he
      by_cases c1 : f e = 0
      · apply g4
        intro c2
        apply he
        dsimp only
        rw [c1, c2]; simp
      · exact f4 e c1

theorem chain_and {α : Type} {R : α → α → Prop} {Q : α → Prop} : ∀ (path : List α),
    path.IsChain R → (∀ a ∈ path, Q a) → path.IsChain (fun a b => R a b ∧ Q a ∧ Q b)
  | [], _, _ => by simp
  | [_], _, _ => by simp
  | a :: b :: t, h, hq => by
    rw [List.isChain_cons_cons] at h ⊢
    exact ⟨⟨h.1, hq a (by simp), hq b (by simp)⟩, chain_and (b :: t) h.2 (fun y hy => hq y
      (List.mem_cons_of_mem _ hy))⟩

/-- An arc of the planning graph between open sites over an open link. -/
def OpenArc (P : Plan) (adv : Arc → Bool) (odd : SiteId → Bool) (a b : Loc) : Prop :=
  (a, b) ∈ P.arcs ∧ (∀ s, a = .site s ∨ b = .site s → OpenSite P s) ∧
    ∀ s t, a = .site s → b = .site t → OpenLink P adv odd s t

theorem openPath_chain (inv : P.t.Inv) {odd : SiteId → Bool} {path : List SiteId} {l : Loc}
    (h : OpenPath P adv odd path l) :
    ∃ (q : List SiteId) (id : DemandId) (k : Nat), q.Nodup ∧ l = Loc.demand id k ∧
      (Loc.source :: (q.map Loc.site ++ [l])).IsChain (OpenArc P adv odd) := by
  obtain ⟨⟨p, y, hp, hy, hty⟩, hh, hs, z, id, d, k, hz, hd, hk, hc, rfl⟩ := h
  have hne : path ≠ [] := by rintro rfl; cases hp
  obtain ⟨q, q1, q2, q3, q4, q5⟩ := simple_path path (chain_and path hh hs) hne
  refine ⟨q, id, k, q2, rfl, ?_⟩
  have hsq : ∀ s ∈ q, OpenSite P s := fun s h => hs s (q5 s h)
  rw [hp] at q3
  rw [hz] at q4
  have hpq : p ∈ q := List.mem_of_mem_head? q3
  have hzq : z ∈ q := List.mem_of_mem_getLast? q4
  rw [List.isChain_cons]
  constructor
  · intro b hb
    have : b = .site p := by
      cases q with
      | nil => cases q3
      | cons a t =>
        simp only [List.head?_cons, Option.some.injEq] at q3
        simp only [List.map_cons, List.cons_append, List.head?_cons, Option.mem_def,
          Option.some.injEq] at hb
        rw [← hb, q3]
    subst this
    refine ⟨mem_arcs.2 (Or.inl ⟨p, y, Dict.mem_of_get? _ hy, hty, rfl⟩), ?_, ?_⟩
    · rintro s (h | h)
      · cases h
      · injection h with h; exact h ▸ hsq p hpq
    · intro s t h; cases h
  · rw [List.isChain_append]
    refine ⟨?_, by simp, ?_⟩
    · rw [List.isChain_map]
      refine List.IsChain.imp ?_ q1
      rintro a b ⟨hl, ha, hb⟩
      refine ⟨?_, ?_, ?_⟩
      · obtain ⟨l, hl, rfl, rfl, _⟩ := hl
        exact arcOf_mem hl
      · rintro s (h | h)
        · injection h with h; exact h ▸ ha
        · injection h with h; exact h ▸ hb
      · intro s t e1 e2
        injection e1 with e1; injection e2 with e2
        subst e1 e2
        exact hl
    · intro a ha b hb
      simp only [List.head?_cons, Option.mem_def, Option.some.injEq] at hb
      subst hb
      have : a = .site z := by
        rw [List.getLast?_map, q4] at ha
        simpa using ha.symm
      subst this
      refine ⟨mem_arcs.2 (Or.inr (Or.inl ⟨id, d, k, z, Dict.mem_of_get? _ hd, hk, hc, rfl⟩)), ?_, ?_⟩
      · rintro s (h | h)
        · injection h with h; exact h ▸ hsq z hzq
        · cases h
      · intro s t _ h; cases h

theorem dist_site {s : SiteId} (hs : P.isDist (.site s) = true) :
    ∃ y, P.t.sites.get? s = some y ∧ y.siteType ≠ .cn := by
  unfold isDist siteType? at hs
  dsimp only at hs
  cases h : P.t.sites.get? s with
  | none => rw [h] at hs; cases hs
  | some y =>
    rw [h] at hs
    refine ⟨y, rfl, ?_⟩
    intro h'
    simp only [Option.map_some, Option.any_some, h'] at hs
    exact absurd hs (by decide)

/-- All demand locations with an open path can be marked together. -/
theorem all_connected (inv : P.t.Inv) (hadv : ∀ e, adv e = true → ∃ a b, e = (.site a, .site b))
    (odd : SiteId → Bool)
    (hodd : P.p.ignorePolarities = false → ∀ l ∈ P.t.links.vals, l.status.active = true →
      ∀ x y, P.t.sites.get? l.tx = some x → P.t.sites.get? l.rx = some y → x.siteType ≠ .cn →
        y.siteType ≠ .cn → odd l.tx ≠ odd l.rx) :
    ∃ x mark, P.ConnFeasible adv x mark ∧ (∀ s, x.odd s = if odd s then 1 else 0) ∧
      ∀ l ∈ P.demands, mark l = 1 ↔ ∃ path, OpenPath P adv odd path l := by
  classical
  let S := P.demands.filter (fun l => ∃ path, OpenPath P adv odd path l)
  let c : ℚ := 1 / (P.demands.length : ℚ)
  have hc : 0 ≤ c := by positivity
  obtain ⟨f, f1, f2, f3, f4⟩ := superpose (P := P) (R := OpenArc P adv odd) (fun a b h => h.1) hc S
    (by
      intro l hl
      obtain ⟨path, hp⟩ := of_decide_eq_true (List.mem_filter.1 hl).2
      exact openPath_chain inv hp)
  have hle : (S.length : ℚ) * c ≤ 1 := by
    have h1 : S.length ≤ P.demands.length := List.length_filter_le _ _
    have h2 : (S.length : ℚ) ≤ P.demands.length := by exact_mod_cast h1
    by_cases h0 : (P.demands.length : ℚ) = 0
    · show _ * (1 / (P.demands.length : ℚ)) ≤ 1
      rw [h0]; norm_num
    · have hp : 0 < (P.demands.length : ℚ) := lt_of_le_of_ne (by positivity) (Ne.symm h0)
      show _ * (1 / (P.demands.length : ℚ)) ≤ 1
      rw [mul_one_div, div_le_one hp]; exact h2
  have link_of : ∀ a b, (Loc.site a, Loc.site b) ∈ P.arcs → ∃ l ∈ P.t.links.vals, l.tx = a ∧ l.rx = b ∧
      P.linkOf (.site a, .site b) = some l := by
    intro a b h
    rcases mem_arcs.1 h with ⟨_, _, _, _, h⟩ | ⟨_, _, _, _, _, _, _, h⟩ | ⟨l, hl, h⟩
    · cases h
    · cases h
    · injection h with h1 h2
      injection h1 with h1; injection h2 with h2
      subst h1 h2
      exact ⟨l, hl, rfl, rfl, linkOf_arcOf inv hl⟩
  have real_of : ∀ e l, P.linkOf e = some l → ∃ a b, e = (.site a, .site b) := by
    rintro ⟨a, b⟩ l h
    cases a <;> cases b <;> first | exact ⟨_, _, rfl⟩ | cases h
  have uniq : ∀ a b l l', P.linkOf (.site a, .site b) = some l → l' ∈ P.t.links.vals → l'.tx = a →
      l'.rx = b → l' = l := by
    intro a b l l' h h1 h2 h3
    have := linkOf_arcOf inv h1
    unfold arcOf at this
    rw [h2, h3, h] at this
    injection this with this
    exact this.symm
  refine ⟨⟨fun _ => 0, fun _ _ => 0, f, fun e _ => f e, fun s => if odd s then 1 else 0, fun _ => 0⟩,
    fun l => if ∃ path, OpenPath P adv odd path l then 1 else 0, ?_, fun _ => rfl, ?_⟩
  · refine ⟨fun e _ => ⟨(f1 e).1, (f1 e).2.trans hle⟩, fun _ _ => rfl, ?_, ?_, ?_, ?_, ?_, ?_, ?_⟩
    · intro _ s _
      dsimp only
      split <;> simp
    · intro l _
      split <;> simp
    · intro e he hin
      show f e = 0
      by_contra hne
      obtain ⟨_, _, h3⟩ := f4 e hne
      unfold inactiveArc at hin
      cases hl : P.linkOf e with
      | none => rw [hl] at hin; cases hin
      | some l =>
        rw [hl] at hin
        obtain ⟨a, b, rfl⟩ := real_of e l hl
        obtain ⟨l', m1, m2, m3, m4, m5, m6, m7, _⟩ := h3 a b rfl rfl
        have := uniq a b l l' hl m1 m2 m3
        subst this
        simp only [Option.any_some, Bool.or_eq_true, Bool.and_eq_true] at hin
        rcases hin with hin | ⟨hw, hn⟩
        · rw [m6] at hin; cases hin
        · have := m7 hw
          cases hsec : l'.sectors with
          | none => rw [hsec] at this; cases this
          | some _ => rw [hsec] at hn; cases hn
    · intro e he hig
      show f e = 0
      by_contra hne
      obtain ⟨_, _, h3⟩ := f4 e hne
      unfold ignoreLink at hig
      rw [Bool.or_eq_true] at hig
      rcases hig with hig | hig
      · cases hl : P.linkOf e with
        | none => rw [hl] at hig; cases hig
        | some l =>
          rw [hl] at hig
          obtain ⟨a, b, rfl⟩ := real_of e l hl
          obtain ⟨l', m1, m2, m3, m4, _⟩ := h3 a b rfl rfl
          have := uniq a b l l' hl m1 m2 m3
          subst this
          simp only [Option.any_some, decide_eq_true_eq] at hig
          linarith
      · obtain ⟨a, b, rfl⟩ := hadv e hig
        obtain ⟨l', m1, m2, m3, m4, m5, _⟩ := h3 a b rfl rfl
        unfold arcOf at m5
        rw [m2, m3, hig] at m5
        cases m5
    · intro hp a b hab hia hwi ha hb
      have e1 : tdmSum 1 ⟨fun _ => 0, fun _ _ => 0, f, fun e _ => f e, fun s => if odd s then 1 else 0,
          fun _ => 0⟩ (.site a, .site b) = f (.site a, .site b) := by simp [tdmSum]
      rw [e1]
      dsimp only
      have hf1 : f (.site a, .site b) ≤ 1 := (f1 _).2.trans hle
      by_cases hz : f (.site a, .site b) = 0
      · rw [hz]
        cases odd a <;> cases odd b <;> norm_num
      · obtain ⟨_, _, h3⟩ := f4 _ hz
        obtain ⟨l, m1, m2, m3, _, _, _, _, m8⟩ := h3 a b rfl rfl
        obtain ⟨l', _, _, _, hl'⟩ := link_of a b hab
        have := uniq a b l' l hl' m1 m2 m3
        subst this
        obtain ⟨y, hy, hyt⟩ := dist_site ha
        obtain ⟨z, hz, hzt⟩ := dist_site hb
        have hw : l.isWireless = true := by
          change ((P.linkOf (.site a, .site b)).any fun l => !l.isWireless) = false at hwi
          rw [hl'] at hwi
          simpa using hwi
        have hst : l.status.active = false := by
          unfold inputActive at hia
          rw [hl'] at hia
          simpa using hia
        have := m8 hp hw hst y z hy hz hyt hzt
        cases ho : odd a <;> cases ho' : odd b <;> rw [ho, ho'] at this <;>
          first | exact absurd rfl this | (constructor <;> norm_num <;> linarith)
    · intro hp a b hab hia ha hb
      obtain ⟨l, m1, rfl, rfl, hl⟩ := link_of a b hab
      have hst : l.status.active = true := by
        unfold inputActive at hia
        rw [hl] at hia
        simpa using hia
      obtain ⟨y, hy, hyt⟩ := dist_site ha
      obtain ⟨z, hz, hzt⟩ := dist_site hb
      have := hodd hp l m1 hst y z hy hz hyt hzt
      show (if odd l.tx then (1 : ℚ) else 0) = 1 - (if odd l.rx then (1 : ℚ) else 0)
      cases ho : odd l.tx <;> cases ho' : odd l.rx <;> rw [ho, ho'] at this <;>
        first | exact absurd rfl this | norm_num
    · intro v hv
      rcases mem_locations.1 hv with rfl | ⟨s, hs, rfl⟩ | hd
      · intro _
        exact outFlow_nonneg (fun e => (f1 e).1) _
      · dsimp only
        split
        · intro _; exact (f2 s).symm
        · rename_i hu
          have hcl : ¬ OpenSite P s := fun h => hu ((usableSite_iff inv.nd_sites hs).2 h)
          have hz : P.outFlow f (.site s) = 0 := by
            apply List.sum_eq_zero
            intro y hy
            obtain ⟨e, he, rfl⟩ := List.mem_map.1 hy
            by_contra hne
            exact hcl ((f4 e hne).2.1 s (Or.inl (mem_outgoing.1 he).2))
          exact ⟨fun _ => (f2 s).trans hz, fun _ => hz⟩
      · obtain ⟨id, d, k, h1, h2, rfl⟩ := mem_demands.1 hd
        dsimp only
        have hn : 0 < (P.demands.length : ℚ) := by
          exact_mod_cast List.length_pos_of_mem hd
        have h0 := inFlow_nonneg (P := P) (fun e => (f1 e).1) (.demand id k)
        split
        · rename_i hop
          have h3 := f3 _ (List.mem_filter.2 ⟨hd, decide_eq_true hop⟩)
          have : 1 ≤ (P.demands.length : ℚ) * P.inFlow f (.demand id k) := by
            have := mul_le_mul_of_nonneg_left h3 hn.le
            rwa [mul_one_div_cancel hn.ne'] at this
          show (1 : ℚ) ≤ 10 * (P.demands.length : ℚ) * P.inFlow f (.demand id k)
          nlinarith
        · show (0 : ℚ) ≤ 10 * (P.demands.length : ℚ) * P.inFlow f (.demand id k)
          positivity
  · intro l _
    dsimp only
    split <;> simp_all

end Plan

/-- **C89.** A demand location counted as connectable has a path from a POP over open
links and sites under the polarities of the solution. -/
theorem C89_counted_has_path (ops : List Op) (p : OptParams) (adv : Arc → Bool) (x : Vars)
    (mark : Loc → ℚ) (ok : (Plan.mk (run {} ops) p).setupErr = none)
    (feas : (Plan.mk (run {} ops) p).ConnFeasible adv x mark)
    (l : Loc) (hl : l ∈ (Plan.mk (run {} ops) p).demands) (hm : mark l = 1) :
    ∃ path, OpenPath ⟨run {} ops, p⟩ adv (fun s => decide (x.odd s = 1)) path l :=
  Plan.connected_path (Inv.empty.run ops) (Plan.ready ok) feas hl hm

namespace Plan
variable {P : Plan}

theorem mark_sum (mark : Loc → ℚ) : ∀ L : List Loc, (∀ l ∈ L, mark l = 0 ∨ mark l = 1) →
    (L.map mark).sum = ((L.filter (fun l => mark l = 1)).length : ℚ)
  | [], _ => by simp
  | a :: L, h => by
    have ih := mark_sum mark L (fun l hl => h l (List.mem_cons_of_mem _ hl))
    rcases h a (by simp) with e | e
    · have : ¬ mark a = 1 := by rw [e]; norm_num
      rw [List.map_cons, List.sum_cons, ih, List.filter_cons_of_neg (by simpa using this), e, zero_add]
    · rw [List.map_cons, List.sum_cons, ih, List.filter_cons_of_pos (by simpa using e), e,
        List.length_cons]
      push_cast; ring

end Plan

open Classical in
/-- **C89.** A solution with the most marked demand locations marks exactly those that
have an open path under its polarities, and under no polarities that suit the links
already decided by the input do more demand locations have one. -/
theorem C89_best_is_exact (ops : List Op) (p : OptParams) (adv : Arc → Bool) (x : Vars)
    (mark : Loc → ℚ) (ok : (Plan.mk (run {} ops) p).setupErr = none)
    (hadv : ∀ e, adv e = true → ∃ a b, e = (.site a, .site b))
    (feas : (Plan.mk (run {} ops) p).ConnFeasible adv x mark)
    (best : ∀ x' mark', (Plan.mk (run {} ops) p).ConnFeasible adv x' mark' →
      ((Plan.mk (run {} ops) p).demands.map mark').sum ≤
        ((Plan.mk (run {} ops) p).demands.map mark).sum) :
    let P : Plan := ⟨run {} ops, p⟩
    (∀ l ∈ P.demands, mark l = 1 ↔
      ∃ path, OpenPath P adv (fun s => decide (x.odd s = 1)) path l) ∧
    ∀ odd : SiteId → Bool,
      (p.ignorePolarities = false → ∀ l ∈ P.t.links.vals, l.status.active = true →
        ∀ x y, P.t.sites.get? l.tx = some x → P.t.sites.get? l.rx = some y → x.siteType ≠ .cn →
          y.siteType ≠ .cn → odd l.tx ≠ odd l.rx) →
      (P.demands.filter (fun l => ∃ path, OpenPath P adv odd path l)).length ≤
        (P.demands.filter (fun l => mark l = 1)).length := by
  intro P
  have inv : P.t.Inv := Inv.empty.run ops
  have r := Plan.ready ok
  have second : ∀ odd : SiteId → Bool,
      (p.ignorePolarities = false → ∀ l ∈ P.t.links.vals, l.status.active = true →
        ∀ x y, P.t.sites.get? l.tx = some x → P.t.sites.get? l.rx = some y → x.siteType ≠ .cn →
          y.siteType ≠ .cn → odd l.tx ≠ odd l.rx) →
      (P.demands.filter (fun l => ∃ path, OpenPath P adv odd path l)).length ≤
        (P.demands.filter (fun l => mark l = 1)).length := by
    intro odd hodd
    obtain ⟨x', mark', feas', _, hm⟩ := Plan.all_connected (P := P) inv hadv odd hodd
    have h := best x' mark' feas'
    rw [Plan.mark_sum mark' _ feas'.binary, Plan.mark_sum mark _ feas.binary] at h
    have e : P.demands.filter (fun l => mark' l = 1) =
        P.demands.filter (fun l => ∃ path, OpenPath P adv odd path l) := by
      apply List.filter_congr
      intro l hl
      simp only [decide_eq_decide]
      exact hm l hl
    have h' : (P.demands.filter (fun l => mark' l = 1)).length ≤
        (P.demands.filter (fun l => mark l = 1)).length := by exact_mod_cast h
    rwa [e] at h'
  refine ⟨?_, second⟩
  have hown := second (fun s => decide (x.odd s = 1)) (by
    intro hp l hl hst y z hy hz hyt hzt
    have hlk := Plan.linkOf_arcOf inv hl
    have ha := Plan.arcOf_mem hl
    have hia : P.inputActive (arcOf l) = true := by
      unfold Plan.inputActive; rw [hlk]; simpa using hst
    have d1 : P.isDist (.site l.tx) = true := by
      unfold Plan.isDist; rw [Plan.siteType?_of hy]
      cases h : y.siteType <;> first | exact absurd h hyt | rfl
    have d2 : P.isDist (.site l.rx) = true := by
      unfold Plan.isDist; rw [Plan.siteType?_of hz]
      cases h : z.siteType <;> first | exact absurd h hzt | rfl
    have h := feas.activePolarity hp l.tx l.rx ha hia d1 d2
    rcases feas.odd hp _ d2 with o | o <;> rw [o] at h <;> simp [h, o])
  intro l hl
  refine ⟨fun hm => Plan.connected_path inv r feas hl hm, ?_⟩
  intro hop
  by_contra hne
  have hsub : (P.demands.filter (fun l => mark l = 1)).Sublist
      (P.demands.filter (fun l => ∃ path, OpenPath P adv (fun s => decide (x.odd s = 1)) path l)) := by
    have e : P.demands.filter (fun l => mark l = 1) = (P.demands.filter (fun l =>
        ∃ path, OpenPath P adv (fun s => decide (x.odd s = 1)) path l)).filter (fun l => mark l = 1) := by
      rw [List.filter_filter]
      apply List.filter_congr
      intro m hm
      by_cases c : mark m = 1
      · have := Plan.connected_path inv r feas hm c
        simp [c, this]
      · simp [c]
    rw [e]
    exact List.filter_sublist
  have heq := hsub.eq_of_length_le hown
  have : l ∈ P.demands.filter (fun l => mark l = 1) := by
    rw [heq]; exact List.mem_filter.2 ⟨hl, decide_eq_true hop⟩
  exact hne (of_decide_eq_true (List.mem_filter.1 this).2)


/-- A POP, two DNs in a row behind it joined by radio links, a demand site at the second. -/
def connDemo : List Op := [
  .addSite { id := "P", siteType := .pop, status := .existing } false,
  .addSite { id := "D", siteType := .dn, status := .candidate, lat := 1 } false,
  .addSite { id := "E", siteType := .dn, status := .candidate, lat := 2 } false,
  .addSector { site := "P", node := 0, pos := 0 },
  .addSector { site := "D", node := 0, pos := 0 },
  .addSector { site := "E", node := 0, pos := 0 },
  .addLink { tx := "P", rx := "D", capacity := 5,
             sectors := some (⟨"P", 0, 0, .dn⟩, ⟨"D", 0, 0, .dn⟩) },
  .addLink { tx := "D", rx := "P", capacity := 5,
             sectors := some (⟨"D", 0, 0, .dn⟩, ⟨"P", 0, 0, .dn⟩) },
  .addLink { tx := "D", rx := "E", capacity := 5,
             sectors := some (⟨"D", 0, 0, .dn⟩, ⟨"E", 0, 0, .dn⟩) },
  .addLink { tx := "E", rx := "D", capacity := 5,
             sectors := some (⟨"E", 0, 0, .dn⟩, ⟨"D", 0, 0, .dn⟩) },
  .addDemandSite { id := "a", connected := ["E"], demand := some 1 }]

/-- The parameters of the demo networks. -/
def connParams : OptParams := { popCapacity := 10, costs := ⟨0, 0, 0⟩ }

theorem connDemo_path : OpenPath ⟨run {} connDemo, connParams⟩ (fun _ => false) (fun s => s == "D")
    ["P", "D", "E"] (.demand "a" 0) := by
  have inv := Inv.empty.run connDemo
  refine ⟨⟨"P", _, rfl, rfl, rfl⟩, ?_, ?_, ⟨"E", "a", _, 0, rfl, rfl, by decide, by decide, rfl⟩⟩
  · have hop : ∀ a b, (∃ l ∈ (run {} connDemo).links.vals, l.tx = a ∧ l.rx = b ∧ 0 < l.capacity ∧
        l.status.inactive = false ∧ l.sectors.isSome = true) → ((a == "D") ≠ (b == "D")) →
        OpenLink ⟨run {} connDemo, connParams⟩ (fun _ => false) (fun s => s == "D") a b := by
      rintro a b ⟨l, h1, h2, h3, h4, h5, h6⟩ hne
      exact ⟨l, h1, h2, h3, h4, rfl, h5, fun _ => h6, fun _ _ _ _ _ _ _ _ _ => hne⟩
    refine List.isChain_cons_cons.2 ⟨hop _ _ (by decide +kernel) (by decide),
      List.isChain_cons_cons.2 ⟨hop _ _ (by decide +kernel) (by decide), by simp⟩⟩
  · intro s hs
    have hk : s ∈ (run {} connDemo).sites.keys := by
      revert s; decide +kernel
    rw [← Plan.usableSite_iff (P := ⟨run {} connDemo, connParams⟩) inv.nd_sites hk]
    revert s; decide +kernel

/-- The hypotheses of C89 on the demo network: the best solution marks the demand site. -/
example :
    let P : Plan := ⟨run {} connDemo, connParams⟩
    P.setupErr = none ∧ ∃ x mark, P.ConnFeasible (fun _ => false) x mark ∧
      mark (.demand "a" 0) = 1 ∧ ∀ x' mark', P.ConnFeasible (fun _ => false) x' mark' →
        (P.demands.map mark').sum ≤ (P.demands.map mark).sum := by
  intro P
  refine ⟨by decide +kernel, ?_⟩
  obtain ⟨x, mark, h1, _, h2⟩ := Plan.all_connected (P := P) (adv := fun _ => false)
    (Inv.empty.run connDemo) (fun _ h => by cases h) (fun s => s == "D") (by
      intro _ l hl hst
      exfalso
      have : ∀ l ∈ P.t.links.vals, l.status.active = false := by decide +kernel
      rw [this l hl] at hst
      cases hst)
  have hd : P.demands = [.demand "a" 0] := by decide +kernel
  have hm : mark (.demand "a" 0) = 1 := (h2 _ (by rw [hd]; simp)).2 ⟨_, connDemo_path⟩
  refine ⟨x, mark, h1, hm, ?_⟩
  intro x' mark' f'
  have := f'.binary (.demand "a" 0) (by rw [hd]; simp)
  rw [hd]
  simp only [List.map_cons, List.map_nil, List.sum_cons, List.sum_nil, add_zero, hm]
  rcases this with h | h <;> rw [h]; norm_num

end Verif
