import Verif.Props.Deploy

/-! # C75: sectors with too many links -/

namespace Verif
namespace Topology
open Spec

theorem Dict.set_fresh {κ ν : Type} [DecidableEq κ] (d : Dict κ ν) (k : κ) (v : ν)
    (h : d.get? k = none) : d.set k v = d ++ [(k, v)] := by
  induction d with
  | nil => rfl
  | cons p d ih =>
    obtain ⟨k', v'⟩ := p
    rw [Dict.get?_cons] at h
    by_cases c : k' = k
    · rw [if_pos c] at h; cases h
    · rw [if_neg c] at h
      unfold Dict.set
      rw [if_neg c, ih h]
      rfl

/-- The entry of a link in the row of sector `s`. -/
def rowEntry (s : SectorId) (l : Link) : Option (SectorId × LinkId) :=
  match l.sectors with
  | none => none
  | some (a, b) => if a = s then some (b, l.id) else none

theorem get?_none_of_not_mem {κ ν : Type} [DecidableEq κ] (d : Dict κ ν) (k : κ)
    (h : ∀ p ∈ d, p.1 ≠ k) : d.get? k = none := by
  rw [Dict.get?_eq_none_iff]
  intro c
  obtain ⟨p, hp, e⟩ := List.mem_map.1 c
  exact h p hp e

theorem conn_fold (s : SectorId) : ∀ (L : List Link),
    (L.Pairwise (fun l l' => ∀ p, l.sectors = some p → l'.sectors ≠ some p)) →
    ((L.foldl connStep []).get? s).getD [] = L.filterMap (rowEntry s) := by
  intro L
  induction L using List.reverseRecOn with
  | nil => intro _; rfl
  | append_singleton L l ih =>
    intro hp
    rw [List.pairwise_append] at hp
    obtain ⟨h1, _, h3⟩ := hp
    rw [List.foldl_append, List.filterMap_append]
    have ih := ih h1
    simp only [List.foldl_cons, List.foldl_nil, List.filterMap_cons, List.filterMap_nil]
    generalize L.foldl connStep [] = D at ih ⊢
    unfold connStep
    have hre : rowEntry s l = match l.sectors with
      | none => none
      | some (a, b) => if a = s then some (b, l.id) else none := rfl
    rw [hre]
    cases hs : l.sectors with
    | none => simp only [List.append_nil]; exact ih
    | some p =>
      obtain ⟨a, b⟩ := p
      dsimp only
      rw [Dict.get?_set]
      by_cases c : a = s
      · subst c
        rw [if_pos rfl, if_pos rfl, Option.getD_some, ih]
        apply Dict.set_fresh
        apply get?_none_of_not_mem
        intro q hq e
        obtain ⟨l', hl', he⟩ := List.mem_filterMap.1 hq
        have := h3 l' hl' l List.mem_cons_self
        unfold rowEntry at he
        cases hs' : l'.sectors with
        | none => rw [hs'] at he; cases he
        | some p' =>
          obtain ⟨a', b'⟩ := p'
          rw [hs'] at he
          dsimp only at he
          by_cases c : a' = a
          · rw [if_pos c] at he
            cases he
            dsimp only at e
            exact this _ hs' (by rw [hs, c, e])
          · rw [if_neg c] at he; cases he
      · rw [if_neg c, if_neg c, List.append_nil]
        exact ih

theorem sector_row {t : Topology} (inv : t.Inv) (ends : SectorsOnEnds t) (s : SectorId) :
    (t.sectorConnectivity.get? s).getD [] = t.links.vals.filterMap (rowEntry s) := by
  apply conn_fold
  have hn : t.links.vals.Nodup := Dict.nodup_vals_of_inj inv.nd_links Link.id inv.link_id
  rw [List.pairwise_iff_forall_sublist]
  intro l l' hsub p hp hp'
  have hm : l ∈ t.links.vals := hsub.subset (by simp)
  have hm' : l' ∈ t.links.vals := hsub.subset (by simp)
  have hne : l ≠ l' := by
    intro e
    subst e
    have := hn.sublist hsub
    simp at this
  have g := (mem_link_vals inv l).1 hm
  have g' := (mem_link_vals inv l').1 hm'
  obtain ⟨e1, e2, _⟩ := ends _ _ p.1 p.2 g hp
  obtain ⟨e3, e4, _⟩ := ends _ _ p.1 p.2 g' hp'
  rw [← e1, ← e2] at g
  rw [← e3, ← e4] at g'
  rw [g] at g'
  exact hne (Option.some.inj g')

theorem countRx_spec {t : Topology} (inv : t.Inv) (s : SectorId) :
    ∀ (L : List Link), (∀ l ∈ L, t.links.get? l.id = some l) →
      (∀ l ∈ L, ∀ a b, l.sectors = some (a, b) → ∃ x, t.sectors.get? b = some x) → ∀ d c,
      t.countRx (L.filterMap (rowEntry s)) d c = .ok
        (d + (L.filter (fun l => l.status.active && l.sectors.any (fun p => p.1 == s && p.2.typ == .dn))).length,
         c + (L.filter (fun l => l.status.active && l.sectors.any (fun p => p.1 == s && p.2.typ == .cn))).length) := by
  intro L
  induction L with
  | nil => intro _ _ d c; rfl
  | cons l L ih =>
    intro h1 h2 d c
    have ih := ih (fun x hx => h1 x (List.mem_cons_of_mem _ hx))
      (fun x hx => h2 x (List.mem_cons_of_mem _ hx))
    have g := h1 l List.mem_cons_self
    have gs := h2 l List.mem_cons_self
    rw [List.filterMap_cons]
    have hre : rowEntry s l = match l.sectors with
      | none => none
      | some (a, b) => if a = s then some (b, l.id) else none := rfl
    rw [hre, List.filter_cons, List.filter_cons]
    cases hs : l.sectors with
    | none =>
      simp only [Option.any_none, Bool.and_false, Bool.false_eq_true, if_false]
      exact ih d c
    | some p =>
      obtain ⟨a, b⟩ := p
      by_cases ca : a = s
      · subst ca
        simp only [if_true, Option.any_some, beq_self_eq_true, Bool.true_and]
        unfold countRx
        rw [g]
        dsimp only
        by_cases hact : l.status.active = true
        · rw [if_pos hact]
          obtain ⟨x, hx⟩ := gs a b hs
          have hty : b.typ = x.typ := by rw [← inv.sector_id _ _ hx]; rfl
          rw [hx, hty]
          dsimp only
          cases x.typ with
          | dn =>
            simp only [hact, Bool.true_and, beq_self_eq_true, if_true]
            rw [ih, if_neg (by decide)]
            simp only [List.length_cons, Except.ok.injEq, Prod.mk.injEq]
            exact ⟨by omega, trivial⟩
          | cn =>
            simp only [hact, Bool.true_and, beq_self_eq_true, if_true]
            rw [ih, if_neg (by decide)]
            simp only [List.length_cons, Except.ok.injEq, Prod.mk.injEq]
            exact ⟨trivial, by omega⟩
        · rw [if_neg hact]
          have : l.status.active = false := by simpa using hact
          simp only [this, Bool.false_and, Bool.false_eq_true, if_false]
          exact ih d c
      · simp only [ca, if_false, Option.any_some, beq_iff_eq, Bool.false_and, Bool.and_false,
          Bool.false_eq_true, show (a == s) = false from by simpa using ca]
        exact ih d c

theorem activeRx_spec {t : Topology} : ∀ (xs r : List SectorId), t.activeRx xs = .ok r →
    ∀ b, b ∈ r ↔ b ∈ xs ∧ ∃ x, t.sectors.get? b = some x ∧ x.status.active = true := by
  intro xs
  induction xs with
  | nil =>
    intro r h b
    unfold activeRx at h
    cases h
    simp
  | cons n xs ih =>
    intro r h b
    unfold activeRx at h
    cases hn : t.sectors.get? n with
    | none => rw [hn] at h; cases h
    | some s =>
      rw [hn] at h
      dsimp only at h
      cases hr : t.activeRx xs with
      | error e => rw [hr] at h; cases h
      | ok r' =>
        rw [hr] at h
        simp only [Except.ok.injEq] at h
        have ih := ih r' hr b
        rw [← h]
        by_cases c : s.status.active = true
        · rw [if_pos c, List.mem_cons, List.mem_cons, ih]
          constructor
          · rintro (rfl | ⟨h1, h2⟩)
            · exact ⟨Or.inl rfl, s, hn, c⟩
            · exact ⟨Or.inr h1, h2⟩
          · rintro ⟨rfl | h1, h2⟩
            · exact Or.inl rfl
            · exact Or.inr ⟨h1, h2⟩
        · rw [if_neg c, List.mem_cons, ih]
          constructor
          · rintro ⟨h1, h2⟩; exact ⟨Or.inr h1, h2⟩
          · rintro ⟨rfl | h1, x, h2, h3⟩
            · rw [hn] at h2; cases h2; exact absurd h3 c
            · exact ⟨h1, x, h2, h3⟩

theorem countRx_row {t : Topology} (inv : t.Inv) (ends : SectorsOnEnds t) (s : SectorId) :
    t.countRx ((t.sectorConnectivity.get? s).getD []) 0 0 =
      .ok (activeLinksTo t s .dn, activeLinksTo t s .cn) := by
  rw [sector_row inv ends, countRx_spec inv s]
  · unfold activeLinksTo; simp only [Nat.zero_add]
  · intro l hl; exact (mem_link_vals inv l).1 hl
  · intro l hl a b hs
    exact (ends _ l a b ((mem_link_vals inv l).1 hl) hs).2.2.2

theorem limitLoop_spec {t : Topology} (inv : t.Inv) (ends : SectorsOnEnds t) (dn tot : Nat) :
    ∀ (xs : List SectorId) (v : Dict SectorId (List SectorId)), t.limitLoop dn tot xs = .ok v →
    ∀ s, (s ∈ v.keys ↔ s ∈ xs ∧ (activeLinksTo t s .dn > dn ∨
        activeLinksTo t s .dn + activeLinksTo t s .cn > tot)) ∧
      ∀ r, (s, r) ∈ v → ∀ b, b ∈ r ↔
        (∃ id l, t.links.get? id = some l ∧ l.sectors = some (s, b)) ∧
        ∃ x, t.sectors.get? b = some x ∧ x.status.active = true := by
  intro xs
  induction xs with
  | nil =>
    intro v h s
    unfold limitLoop at h
    cases h
    simp [Dict.keys]
  | cons k xs ih =>
    intro v h s
    unfold limitLoop at h
    dsimp only at h
    rw [countRx_row inv ends] at h
    dsimp only at h
    by_cases c : activeLinksTo t k .dn > dn ∨ activeLinksTo t k .dn + activeLinksTo t k .cn > tot
    · rw [if_pos c] at h
      cases ha : t.activeRx ((t.sectorConnectivity.get? k).getD []).keys with
      | error e => rw [ha] at h; cases h
      | ok xs' =>
        rw [ha] at h
        dsimp only at h
        cases hr : t.limitLoop dn tot xs with
        | error e => rw [hr] at h; cases h
        | ok v' =>
          rw [hr] at h
          simp only [Except.ok.injEq] at h
          obtain ⟨i1, i2⟩ := ih v' hr s
          rw [← h]
          constructor
          · show s ∈ k :: Dict.keys v' ↔ _
            rw [List.mem_cons, i1, List.mem_cons]
            constructor
            · rintro (rfl | ⟨h1, h2⟩)
              · exact ⟨Or.inl rfl, c⟩
              · exact ⟨Or.inr h1, h2⟩
            · rintro ⟨rfl | h1, h2⟩
              · exact Or.inl rfl
              · exact Or.inr ⟨h1, h2⟩
          · intro r hm b
            rcases List.mem_cons.1 hm with e | hm
            · rw [Prod.mk.injEq] at e
              obtain ⟨rfl, rfl⟩ := e
              rw [activeRx_spec _ _ ha b, sector_row inv ends]
              apply and_congr_left
              intro _
              unfold Dict.keys
              rw [List.mem_map]
              constructor
              · rintro ⟨⟨b', i⟩, hm', e⟩
                dsimp only at e
                subst e
                obtain ⟨l, hl, he⟩ := List.mem_filterMap.1 hm'
                refine ⟨_, l, (mem_link_vals inv l).1 hl, ?_⟩
                unfold rowEntry at he
                cases hs : l.sectors with
                | none => rw [hs] at he; cases he
                | some p =>
                  obtain ⟨a, b⟩ := p
                  rw [hs] at he
                  dsimp only at he
                  by_cases c : a = s
                  · rw [if_pos c] at he
                    cases he
                    rw [c]
                  · rw [if_neg c] at he; cases he
              · rintro ⟨id, l, hl, hs⟩
                refine ⟨(b, l.id), List.mem_filterMap.2 ⟨l, (mem_link_vals inv l).2 ?_, ?_⟩, rfl⟩
                · rw [← inv.link_id _ _ hl]; exact hl
                · unfold rowEntry
                  rw [hs]
                  simp
            · exact i2 r hm b
    · rw [if_neg c] at h
      obtain ⟨i1, i2⟩ := ih v h s
      refine ⟨?_, i2⟩
      rw [i1, List.mem_cons]
      constructor
      · rintro ⟨h1, h2⟩; exact ⟨Or.inr h1, h2⟩
      · rintro ⟨rfl | h1, h2⟩
        · exact absurd h2 c
        · exact ⟨h1, h2⟩

/-- C75: the sectors reported are exactly the active DN sectors with more active
links to DN sectors, or more active links altogether, than allowed. -/
theorem C75_reported_iff (ops : List Op) (dn tot : Nat) (ends : SectorsOnEnds (run {} ops))
    (v : Dict SectorId (List SectorId))
    (ok : (run {} ops).sectorLimitViolations dn tot = .ok v) (s : SectorId) :
    let t := run {} ops
    s ∈ v.keys ↔ (∃ x, t.sectors.get? s = some x ∧ x.typ = .dn ∧ x.status.active = true) ∧
      (dn < activeLinksTo t s .dn ∨ tot < activeLinksTo t s .dn + activeLinksTo t s .cn) := by
  have inv := Inv.empty.run ops
  generalize run {} ops = t at *
  intro t
  unfold sectorLimitViolations at ok
  rw [(limitLoop_spec inv ends dn tot _ v ok s).1]
  apply and_congr_left
  intro _
  rw [List.mem_map]
  constructor
  · rintro ⟨⟨k, x⟩, hm, rfl⟩
    obtain ⟨h1, h2⟩ := List.mem_filter.1 hm
    rw [Bool.and_eq_true, beq_iff_eq] at h2
    exact ⟨x, (Dict.mem_iff_get? inv.nd_sectors _ _).1 h1, h2⟩
  · rintro ⟨x, h1, h2, h3⟩
    refine ⟨(s, x), List.mem_filter.2 ⟨(Dict.mem_iff_get? inv.nd_sectors _ _).2 h1, ?_⟩, rfl⟩
    rw [Bool.and_eq_true, beq_iff_eq]
    exact ⟨h2, h3⟩

/-- C75: every active sector reached by an active link of a reported sector is
listed with it. Missing: the list also names active sectors that are reached by
an inactive link only (`C75_listing_violation`). -/
theorem C75_listing_partial (ops : List Op) (dn tot : Nat) (ends : SectorsOnEnds (run {} ops))
    (v : Dict SectorId (List SectorId))
    (ok : (run {} ops).sectorLimitViolations dn tot = .ok v) (s : SectorId) (r : List SectorId)
    (hv : (s, r) ∈ v) (b : SectorId) :
    let t := run {} ops
    (b ∈ r → ∃ id l, t.links.get? id = some l ∧ l.sectors = some (s, b)) ∧
    (∀ id l x, t.links.get? id = some l → l.status.active = true → l.sectors = some (s, b) →
      t.sectors.get? b = some x → x.status.active = true → b ∈ r) := by
  have inv := Inv.empty.run ops
  generalize run {} ops = t at *
  intro t
  have := (limitLoop_spec inv ends dn tot _ v ok s).2 r hv b
  exact ⟨fun h => (this.1 h).1, fun id l x h1 _ h3 h4 h5 => this.2 ⟨⟨id, l, h1, h3⟩, x, h4, h5⟩⟩

/-- A DN sector with two active links and one candidate link. -/
def limitDemo : List Op := [
  .addSite { id := "A", siteType := .dn, status := .proposed } false,
  .addSite { id := "B", siteType := .dn, status := .proposed } false,
  .addSite { id := "C", siteType := .dn, status := .proposed } false,
  .addSite { id := "D", siteType := .dn, status := .proposed } false,
  .addSector { site := "A", node := 0, pos := 0, status := .proposed },
  .addSector { site := "B", node := 0, pos := 0, status := .proposed },
  .addSector { site := "C", node := 0, pos := 0, status := .proposed },
  .addSector { site := "D", node := 0, pos := 0, status := .proposed },
  .addLink { tx := "A", rx := "B", status := .proposed, sectors := some (⟨"A", 0, 0, .dn⟩, ⟨"B", 0, 0, .dn⟩) },
  .addLink { tx := "A", rx := "C", status := .proposed, sectors := some (⟨"A", 0, 0, .dn⟩, ⟨"C", 0, 0, .dn⟩) },
  .addLink { tx := "A", rx := "D", status := .candidate, sectors := some (⟨"A", 0, 0, .dn⟩, ⟨"D", 0, 0, .dn⟩) }]

theorem limitDemo_ends : SectorsOnEnds (run {} limitDemo) := by
  intro id l a b hl hs
  have all : ∀ p ∈ (run {} limitDemo).links, ∀ q ∈ p.2.sectors.toList,
      q.1.site = p.2.tx ∧ q.2.site = p.2.rx ∧ ((run {} limitDemo).sectors.get? q.1).isSome ∧
      ((run {} limitDemo).sectors.get? q.2).isSome := by decide +kernel
  obtain ⟨h1, h2, h3, h4⟩ := all _ (Dict.mem_of_get? _ hl) (a, b) (by rw [hs]; simp)
  exact ⟨h1, h2, Option.isSome_iff_exists.1 h3, Option.isSome_iff_exists.1 h4⟩

example : (match (run {} limitDemo).sectorLimitViolations 1 5 with
    | .ok v => v.keys | .error _ => []) = [⟨"A", 0, 0, .dn⟩] ∧
    activeLinksTo (run {} limitDemo) ⟨"A", 0, 0, .dn⟩ .dn = 2 ∧
    (match (run {} limitDemo).sectorLimitViolations 2 2 with
    | .ok v => v.keys | .error _ => [⟨"A", 0, 0, .dn⟩]) = [] := by decide +kernel

/-- C75 fails for the list of receivers: sector `D` is named although the only
link to it is a mere candidate. -/
theorem C75_listing_violation :
    (match (run {} limitDemo).sectorLimitViolations 1 5 with
      | .ok v => v | .error _ => []) =
      [(⟨"A", 0, 0, .dn⟩, [⟨"B", 0, 0, .dn⟩, ⟨"C", 0, 0, .dn⟩, ⟨"D", 0, 0, .dn⟩])] ∧
    ((run {} limitDemo).links.get? ⟨"A", "D"⟩).map (·.status.active) = some false := by
  decide +kernel

end Topology
end Verif
