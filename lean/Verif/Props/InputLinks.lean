import Verif.Lemmas.InputLinks
import Verif.Props.InputSites
import Verif.Props.Topology

/-! # Links read from files (C30, C104) -/

namespace Verif
namespace Topology

/-- The topology with the given sites only. -/
theorem ofSites_spec (L : List Site) (t : Topology) :
    (((t.sites.keys ++ L.map (·.id)).Nodup ∧
        t.ofSites L = .ok { t with sites := t.sites ++ L.map fun s => (s.id, s) }) ∨
      (t.sites.keys.Nodup → ¬ (t.sites.keys ++ L.map (·.id)).Nodup ∧ t.ofSites L = .error .topology)) := by
  induction L generalizing t with
  | nil =>
    by_cases c : t.sites.keys.Nodup
    · left; simp [ofSites, c]
    · right; exact fun h => absurd h c
  | cons s r ih =>
    by_cases c : t.sites.has s.id = true
    · right
      intro _
      have hm : s.id ∈ t.sites.keys := (Dict.mem_keys_iff _ _).2 ((Dict.has_iff _ _).1 c)
      constructor
      · rw [List.nodup_append]
        rintro ⟨-, -, h⟩
        exact h _ hm _ (by simp) rfl
      · simp [ofSites, addSite, c]
    · have c' : t.sites.get? s.id = none := (Dict.has_eq_false_iff _ _).1 (by simpa using c)
      have hk : s.id ∉ t.sites.keys := (Dict.get?_eq_none_iff _ _).1 c'
      have es : t.sites.set s.id s = t.sites ++ [(s.id, s)] := by
        clear * - hk
        generalize t.sites = d at hk
        induction d with
        | nil => rfl
        | cons p d ih =>
          simp only [Dict.keys, List.map_cons, List.mem_cons, not_or] at hk
          simp only [Dict.set, Ne.symm hk.1, if_false, List.cons_append]
          rw [ih hk.2]
      have e : t.ofSites (s :: r) = ({ t with sites := t.sites ++ [(s.id, s)] } : Topology).ofSites r := by
        simp only [ofSites, addSite, c, es, Bool.false_eq_true, if_false]
      have ek : ({ t with sites := t.sites ++ [(s.id, s)] } : Topology).sites.keys ++ r.map (·.id) =
          t.sites.keys ++ (s :: r).map (·.id) := by simp [Dict.keys]
      rw [e]
      rcases ih { t with sites := t.sites ++ [(s.id, s)] } with ⟨nd, h⟩ | h
      · left
        rw [ek] at nd
        exact ⟨nd, by rw [h]; simp⟩
      · right
        intro hn
        rw [ek] at h
        refine h ?_
        have : ({ t with sites := t.sites ++ [(s.id, s)] } : Topology).sites.keys = t.sites.keys ++ [s.id] := by
          simp [Dict.keys]
        rw [this, List.nodup_append]
        refine ⟨hn, by simp, ?_⟩
        intro a ha b hb
        simp only [List.mem_singleton] at hb
        subst hb
        rintro rfl
        exact hk ha

theorem ofSites_run {L : List Site} {t t' : Topology} (h : t.ofSites L = .ok t') :
    t' = run t (L.map fun s => .addSite s false) := by
  induction L generalizing t with
  | nil => simp only [ofSites, Except.ok.injEq] at h; subst h; rfl
  | cons s r ih =>
    simp only [ofSites] at h
    simp only [run, List.map_cons, List.foldl_cons, step]
    rcases hs : t.addSite s with ⟨t1, _ | e⟩
    · rw [hs] at h
      exact ih h
    · rw [hs] at h
      simp at h

/-- The topology with the sites of a list. -/
def bare (L : List Site) : Topology := { sites := L.map fun s => (s.id, s) }

theorem ofSites_cases (L : List Site) :
    ((L.map (·.id)).Nodup ∧ ofSites {} L = .ok (bare L)) ∨ (¬ (L.map (·.id)).Nodup ∧ ofSites {} L = .error .topology) := by
  rcases ofSites_spec L {} with ⟨h, e⟩ | h
  · left
    simp only [Dict.keys, List.map_nil, List.nil_append] at h e
    exact ⟨h, e⟩
  · right
    have := h (by simp [Dict.keys])
    simpa [Dict.keys] using this

theorem bare_get {L : List Site} (nd : (L.map (·.id)).Nodup) {s : Site} (h : s ∈ L) :
    (bare L).sites.get? s.id = some s := by
  rw [← Dict.mem_iff_get?]
  · exact List.mem_map.2 ⟨s, h, rfl⟩
  · simpa [bare, Dict.NodupKeys, Dict.keys, Function.comp_def] using nd

/-- The requests of a list of name pairs; pairs with an unknown name yield none. -/
def csvReqs (S : InputSites) (pairs : List (String × String)) : List Req :=
  pairs.flatMap fun p => match S.getByName p.1, S.getByName p.2 with
    | some a, some b => [⟨a.site, b.site, none⟩, ⟨b.site, a.site, none⟩]
    | _, _ => []

theorem addPairs_append (S : InputSites) (P Q : List (String × String)) (t : Topology)
    (h : ∀ p ∈ P, S.getByName p.1 ≠ none ∧ S.getByName p.2 ≠ none) :
    t.addPairs S (P ++ Q) = match t.addList (csvReqs S P) with
      | .error e => .error e
      | .ok t1 => t1.addPairs S Q := by
  induction P generalizing t with
  | nil => rfl
  | cons p r ih =>
    obtain ⟨n, m⟩ := p
    have h1 := h _ (List.mem_cons_self ..)
    simp only at h1
    cases ha : S.getByName n with
    | none => exact absurd ha h1.1
    | some a =>
      cases hb : S.getByName m with
      | none => exact absurd hb h1.2
      | some b =>
        have e : csvReqs S ((n, m) :: r) = [⟨a.site, b.site, none⟩, ⟨b.site, a.site, none⟩] ++ csvReqs S r := by
          simp [csvReqs, ha, hb]
        rw [e, addList_append, ← addBoth_eq]
        simp only [List.cons_append, addPairs, ha, hb]
        cases t.addBoth a.site b.site none with
        | error e => rfl
        | ok t1 => exact ih t1 fun p hp => h p (List.mem_cons_of_mem _ hp)

theorem mem_csvReqs {S : InputSites} {pairs : List (String × String)} {q : Req} :
    q ∈ csvReqs S pairs ↔ ∃ n m a b, ((n, m) ∈ pairs ∨ (m, n) ∈ pairs) ∧ S.getByName n = some a ∧
      S.getByName m = some b ∧ q = ⟨a.site, b.site, none⟩ := by
  unfold csvReqs
  rw [List.mem_flatMap]
  constructor
  · rintro ⟨⟨n, m⟩, hp, hq⟩
    simp only at hq
    cases ha : S.getByName n with
    | none => simp [ha] at hq
    | some a =>
      cases hb : S.getByName m with
      | none => simp [ha, hb] at hq
      | some b =>
        simp only [ha, hb, List.mem_cons, List.not_mem_nil, or_false] at hq
        rcases hq with rfl | rfl
        · exact ⟨n, m, a, b, Or.inl hp, ha, hb, rfl⟩
        · exact ⟨m, n, b, a, Or.inr hp, hb, ha, rfl⟩
  · rintro ⟨n, m, a, b, hp | hp, ha, hb, rfl⟩
    · exact ⟨(n, m), hp, by simp [ha, hb]⟩
    · exact ⟨(m, n), hp, by simp [ha, hb]⟩

theorem compat_candidate {a b : StatusType} (ha : a.inactive = false) (hb : b.inactive = false) :
    linkCompat a b .candidate = true := by
  cases a <;> cases b <;> first | rfl | simp_all [StatusType.inactive]

/-- What is known about loaded sites. -/
theorem loaded {fold : String → String} {xs : List NamedSite} {S : InputSites}
    (h : ({} : InputSites).load fold xs = .ok S) :
    (∀ n y, S.getByName n = some y → y ∈ S.list ∧ y.name = n) ∧ ∀ y ∈ S.list, ∃ x ∈ xs, x.site = y.site := by
  obtain ⟨f, g, -⟩ := (InputSites.C29_names_partial fold xs).2 S h
  refine ⟨g, fun y hy => ?_⟩
  obtain ⟨i, hi, rfl⟩ := List.getElem_of_mem hy
  rw [List.forall₂_iff_get] at f
  have hi' : i < (keepFirst (·.key fold) xs).length := by rw [f.1]; exact hi
  refine ⟨(keepFirst (·.key fold) xs)[i], (keepFirst_sub _ xs).subset (List.getElem_mem hi'), ?_⟩
  exact (f.2 i hi' hi).1.symm

/-- C30. A topology is read from a site list and a link list exactly if the sites have different ids and every
name in the link list is known; otherwise a TopologyException or a DataException is raised. It has the sites of
the list, no demand sites and no sectors; and the links are exactly those, for each pair of the list in either
direction, from a site that is not a CN, each a radio link with status candidate. -/
theorem C30_link_list (fold : String → String) (xs : List NamedSite) (S : InputSites) (pairs : List (String × String))
    (hS : ({} : InputSites).load fold xs = .ok S) (hst : ∀ x ∈ xs, x.site.status.inactive = false) :
    (∀ e, fromCsv S pairs = .error e ↔
      (¬ (S.list.map (·.site.id)).Nodup ∧ e = .topology) ∨
      ((S.list.map (·.site.id)).Nodup ∧ e = .data ∧
        ∃ p ∈ pairs, S.getByName p.1 = none ∨ S.getByName p.2 = none)) ∧
    ∀ t, fromCsv S pairs = .ok t →
      (∀ i s, t.sites.get? i = some s ↔ s.id = i ∧ ∃ y ∈ S.list, y.site = s) ∧
      t.demandSites = [] ∧ t.sectors = [] ∧ t.Inv ∧
      ∀ k l, t.links.get? k = some l ↔
        l = { tx := k.tx, rx := k.rx, isWireless := true, status := .candidate } ∧
        ∃ n m a b, ((n, m) ∈ pairs ∨ (m, n) ∈ pairs) ∧ S.getByName n = some a ∧ S.getByName m = some b ∧
          a.site.id = k.tx ∧ b.site.id = k.rx ∧ a.site.siteType ≠ .cn := by
  obtain ⟨snd, from_⟩ := loaded hS
  have hids : S.list.map (·.site.id) = (S.list.map (·.site)).map (·.id) := by simp [List.map_map, Function.comp_def]
  unfold fromCsv
  rw [hids]
  rcases ofSites_cases (S.list.map (·.site)) with ⟨nd, e⟩ | ⟨nd, e⟩ <;> rw [e]
  swap
  · constructor
    · intro e'
      simp only [nd, false_and, or_false, Except.error.injEq, not_false_eq_true, true_and]
      exact eq_comm
    · intro t h; simp at h
  simp only [nd, not_true_eq_false, false_and, false_or, true_and]
  set t0 := bare (S.list.map (·.site)) with ht0
  have req : ∀ P : List (String × String), ∀ q ∈ csvReqs S P,
      (∃ a ∈ S.list, a.site = q.tx) ∧ (∃ b ∈ S.list, b.site = q.rx) ∧ q.raw = none := by
    intro P q hq
    obtain ⟨n, m, a, b, -, ha, hb, rfl⟩ := mem_csvReqs.1 hq
    exact ⟨⟨a, (snd n a ha).1, rfl⟩, ⟨b, (snd m b hb).1, rfl⟩, rfl⟩
  have carry : ∀ P : List (String × String), ∃ t', t0.addList (csvReqs S P) = .ok t' ∧ AddedFrom t0 t' ∧
      t'.sites = t0.sites ∧ t'.demandSites = t0.demandSites ∧ t'.sectors = t0.sectors ∧
      ∀ k, t'.links.get? k = outcome t0 (csvReqs S P) k := by
    intro P
    have hs : ∀ q ∈ csvReqs S P, t0.sites.get? q.tx.id = some q.tx ∧ t0.sites.get? q.rx.id = some q.rx := by
      intro q hq
      obtain ⟨⟨a, ha, ea⟩, ⟨b, hb, eb⟩, -⟩ := req P q hq
      exact ⟨bare_get nd (List.mem_map.2 ⟨a, ha, ea⟩), bare_get nd (List.mem_map.2 ⟨b, hb, eb⟩)⟩
    have inact : ∀ a ∈ S.list, a.site.status.inactive = false := by
      intro a ha
      obtain ⟨x, hx, ex⟩ := from_ a ha
      rw [← ex]
      exact hst x hx
    have m : Meets t0 (csvReqs S P) := by
      constructor
      · intro k q _ hq
        obtain ⟨hq, -, -⟩ := firstReq_some hq
        obtain ⟨⟨a, ha, ea⟩, ⟨b, hb, eb⟩, er⟩ := req P q hq
        have : q.status = .candidate := by simp [Req.status, er]
        rw [this]
        exact compat_candidate (by rw [← ea]; exact inact a ha) (by rw [← eb]; exact inact b hb)
      · intro q hq r hr
        rw [(req P q hq).2.2] at hr
        simp at hr
    rcases addList_spec (csvReqs S P) hs with ⟨t', h1, -, h⟩ | ⟨nm, -⟩
    · exact ⟨t', h1, h⟩
    · exact absurd m nm
  by_cases miss : ∃ p ∈ pairs, S.getByName p.1 = none ∨ S.getByName p.2 = none
  · -- split at the first unknown name
    have hf : ∃ P p Q, pairs = P ++ p :: Q ∧ (∀ p ∈ P, S.getByName p.1 ≠ none ∧ S.getByName p.2 ≠ none) ∧
        (S.getByName p.1 = none ∨ S.getByName p.2 = none) := by
      clear * - miss
      induction pairs with
      | nil => simp at miss
      | cons p r ih =>
        by_cases c : S.getByName p.1 = none ∨ S.getByName p.2 = none
        · exact ⟨[], p, r, rfl, by simp, c⟩
        · obtain ⟨P, p', Q, e, h1, h2⟩ := ih (by
            obtain ⟨x, hx, h⟩ := miss
            rcases List.mem_cons.1 hx with rfl | hx
            · exact absurd h c
            · exact ⟨x, hx, h⟩)
          refine ⟨p :: P, p', Q, by rw [e]; rfl, ?_, h2⟩
          intro q hq
          rcases List.mem_cons.1 hq with rfl | hq
          · exact not_or.1 c
          · exact h1 q hq
    obtain ⟨P, p, Q, rfl, hP, hp⟩ := hf
    have : t0.addPairs S (P ++ p :: Q) = .error .data := by
      rw [addPairs_append S P _ t0 hP]
      obtain ⟨t1, e1, -⟩ := carry P
      rw [e1]
      simp only [addPairs]
      rcases hp with hp | hp
      · simp [hp]
      · cases S.getByName p.1 <;> simp [hp]
    rw [this]
    constructor
    · intro e'
      simp only [miss, and_true, Except.error.injEq]
      exact eq_comm
    · intro t h; simp at h
  · have known : ∀ p ∈ pairs, S.getByName p.1 ≠ none ∧ S.getByName p.2 ≠ none := by
      intro p hp
      by_contra c
      apply miss
      refine ⟨p, hp, ?_⟩
      by_contra d
      exact c (not_or.1 d)
    have e1 : t0.addPairs S pairs = t0.addList (csvReqs S pairs) := by
      have := addPairs_append S pairs [] t0 known
      rw [List.append_nil] at this
      rw [this]
      cases t0.addList (csvReqs S pairs) <;> rfl
    rw [e1]
    obtain ⟨t', e2, ha, s1, s2, s3, hl⟩ := carry pairs
    rw [e2]
    refine ⟨fun e' => by simp [miss], ?_⟩
    intro t ht
    simp only [Except.ok.injEq] at ht
    subst ht
    refine ⟨?_, s2, s3, ?_, ?_⟩
    · intro i s
      rw [s1]
      rw [← Dict.mem_iff_get? (by simpa [ht0, bare, Dict.NodupKeys, Dict.keys, Function.comp_def] using nd)]
      simp only [ht0, bare, List.map_map, List.mem_map, Function.comp_def, Prod.mk.injEq]
      constructor
      · rintro ⟨y, hy, h1, rfl⟩; exact ⟨h1, y, hy, rfl⟩
      · rintro ⟨h1, y, hy, rfl⟩; exact ⟨y, hy, h1, rfl⟩
    · obtain ⟨ops, rfl, -⟩ := ha
      rw [ofSites_run e]
      exact (Inv.empty.run _).run _
    · intro k l
      rw [hl]
      have e0 : outcome t0 (csvReqs S pairs) k =
          (firstReq (csvReqs S pairs) k).map fun q => requestedLink q.tx q.rx q.raw := by
        simp [outcome, ht0, bare]
      rw [e0]
      constructor
      · intro h
        obtain ⟨q, hq, rfl⟩ := Option.map_eq_some_iff.1 h
        obtain ⟨hm, hk, hc⟩ := firstReq_some hq
        obtain ⟨n, m, a, b, hp, ha, hb, rfl⟩ := mem_csvReqs.1 hm
        subst hk
        exact ⟨rfl, n, m, a, b, hp, ha, hb, rfl, rfl, hc⟩
      · rintro ⟨rfl, n, m, a, b, hp, ha, hb, e1, e2, hc⟩
        have hm : (⟨a.site, b.site, none⟩ : Req) ∈ csvReqs S pairs := mem_csvReqs.2 ⟨n, m, a, b, hp, ha, hb, rfl⟩
        cases hq : firstReq (csvReqs S pairs) k with
        | none =>
          have := List.find?_eq_none.1 hq _ hm
          simp only [Req.key, e1, e2, decide_eq_true_eq] at this
          exact absurd (by simpa using this) hc
        | some q =>
          obtain ⟨hmq, hk, -⟩ := firstReq_some hq
          obtain ⟨-, -, hr⟩ := req pairs q hmq
          simp only [Option.map_some, Option.some.injEq]
          subst hk
          rw [hr]
          rfl

end Topology
end Verif
