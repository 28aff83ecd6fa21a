import Verif.Model.Tables
import Verif.Props.Statistics
import Verif.Props.Hops
import Verif.Props.Deploy
import Verif.Props.SectorLimit

/-! # Lemmas on the tables of the report -/

namespace Verif
open Spec Topology

section sets
variable {κ α : Type} [DecidableEq κ] [DecidableEq α]

/-- Each set of the dictionary holds what `R` says. -/
def SetsOf (d : Dict κ (List α)) (R : κ → α → Prop) : Prop :=
  ∀ k xs, d.get? k = some xs → xs.Nodup ∧ ∀ a, a ∈ xs ↔ R k a

theorem addAll_spec (ps : List (κ × α)) : ∀ (d : Dict κ (List α)) (R : κ → α → Prop), SetsOf d R →
    (∀ p ∈ ps, ∃ xs, d.get? p.1 = some xs) →
    ∃ d', addAll d ps = .ok d' ∧ (∀ k, (∃ xs, d'.get? k = some xs) ↔ ∃ xs, d.get? k = some xs) ∧
      SetsOf d' (fun k a => R k a ∨ (k, a) ∈ ps) := by
  induction ps with
  | nil => intro d R hd _; exact ⟨d, rfl, fun _ => Iff.rfl, by simpa using hd⟩
  | cons p ps ih =>
    intro d R hd hk
    obtain ⟨xs, hx⟩ := hk p (by simp)
    unfold addAll addAt
    rw [hx]
    dsimp only
    have keys : ∀ k, (∃ ys, (d.set p.1 (if p.2 ∈ xs then xs else p.2 :: xs)).get? k = some ys) ↔
        ∃ ys, d.get? k = some ys := by
      intro k
      rw [Dict.get?_set]
      split
      · rename_i e; subst e; simp [hx]
      · rfl
    obtain ⟨d', h1, h2, h3⟩ := ih (d.set p.1 (if p.2 ∈ xs then xs else p.2 :: xs))
      (fun k a => R k a ∨ (k, a) = p) (by
        intro k ys hy
        rw [Dict.get?_set] at hy
        split at hy
        · rename_i e
          subst e
          simp only [Option.some.injEq] at hy
          obtain ⟨k1, k2⟩ := hd _ _ hx
          subst hy
          split
          · rename_i c
            refine ⟨k1, fun a => ?_⟩
            rw [k2]
            constructor
            · exact Or.inl
            · rintro (h | h)
              · exact h
              · rw [← k2]; rw [← h] at c; exact c
          · rename_i c
            refine ⟨List.nodup_cons.2 ⟨c, k1⟩, fun a => ?_⟩
            rw [List.mem_cons, k2]
            constructor
            · rintro (rfl | h)
              · exact Or.inr rfl
              · exact Or.inl h
            · rintro (h | h)
              · exact Or.inr h
              · exact Or.inl (by rw [← h])
        · rename_i e
          obtain ⟨k1, k2⟩ := hd _ _ hy
          refine ⟨k1, fun a => ?_⟩
          rw [k2]
          constructor
          · exact Or.inl
          · rintro (h | h)
            · exact h
            · exact absurd (by rw [← h]) e) (by
        intro q hq
        exact (keys q.1).2 (hk q (List.mem_cons_of_mem _ hq)))
    refine ⟨d', h1, fun k => (h2 k).trans (keys k), fun k ys hy => ?_⟩
    obtain ⟨k1, k2⟩ := h3 k ys hy
    refine ⟨k1, fun a => ?_⟩
    rw [k2]
    simp only [List.mem_cons, or_assoc]

theorem addAll_known (ps : List (κ × α)) : ∀ (d d' : Dict κ (List α)), addAll d ps = .ok d' →
    ∀ p ∈ ps, ∃ xs, d.get? p.1 = some xs := by
  induction ps with
  | nil => intro d d' _ p hp; cases hp
  | cons q ps ih =>
    intro d d' h p hp
    unfold addAll addAt at h
    cases hx : d.get? q.1 with
    | none => rw [hx] at h; cases h
    | some xs =>
      rw [hx] at h
      dsimp only at h
      rcases List.mem_cons.1 hp with rfl | hp
      · exact ⟨xs, hx⟩
      · obtain ⟨ys, hy⟩ := ih _ _ h p hp
        rw [Dict.get?_set] at hy
        split at hy
        · rename_i e; rw [← e]; exact ⟨xs, hx⟩
        · exact ⟨ys, hy⟩

theorem none_fold {β : Type} (key : β → κ) (L : List β) : ∀ d : Dict κ (List α),
    (∀ k xs, d.get? k = some xs → xs = []) →
    (∀ k xs, (L.foldl (fun d s => d.set (key s) []) d).get? k = some xs → xs = []) ∧
    ∀ k, (∃ xs, (L.foldl (fun d s => d.set (key s) []) d).get? k = some xs) ↔
      (∃ xs, d.get? k = some xs) ∨ ∃ s ∈ L, key s = k := by
  induction L with
  | nil => intro d hd; exact ⟨hd, by simp⟩
  | cons s L ih =>
    intro d hd
    rw [List.foldl_cons]
    obtain ⟨h1, h2⟩ := ih (d.set (key s) []) (by
      intro k xs hx
      rw [Dict.get?_set] at hx
      split at hx
      · simpa using hx.symm
      · exact hd _ _ hx)
    refine ⟨h1, fun k => ?_⟩
    rw [h2, Dict.get?_set]
    simp only [List.mem_cons, exists_eq_or_imp]
    split
    · rename_i e; subst e; simp
    · rename_i e; simp [e]

theorem sizeAt_card {d : Dict κ (List α)} {R : κ → α → Prop} (hd : SetsOf d R) {k : κ}
    (hk : ∃ xs, d.get? k = some xs) :
    ∃ xs : List α, sizeAt d k = .ok xs.length ∧ xs.Nodup ∧ ∀ a, a ∈ xs ↔ R k a := by
  obtain ⟨xs, hx⟩ := hk
  exact ⟨xs, by unfold sizeAt; rw [hx], hd _ _ hx⟩

end sets

/-- The rows of a table are those of the entries, in their order. -/
theorem mapM_rows {α β : Type} (f : α → Except Err β) (g : α → β) (L : List α) (h : ∀ a ∈ L, f a = .ok (g a)) :
    L.mapM f = .ok (L.map g) := by
  induction L with
  | nil => rfl
  | cons a L ih =>
    rw [List.mapM_cons, h a (by simp), ih (fun b hb => h b (by simp [hb]))]
    rfl

theorem mapM_known {α β : Type} (f : α → Except Err β) (L : List α) (ys : List β) (h : L.mapM f = .ok ys) :
    ∀ a ∈ L, ∃ y, f a = .ok y := by
  induction L generalizing ys with
  | nil => intro a ha; cases ha
  | cons b L ih =>
    rw [List.mapM_cons] at h
    cases hb : f b with
    | error e => rw [hb] at h; cases h
    | ok y =>
      rw [hb] at h
      cases hL : L.mapM f with
      | error e => rw [hL] at h; cases h
      | ok zs =>
        intro a ha
        rcases List.mem_cons.1 ha with rfl | ha
        · exact ⟨y, hb⟩
        · exact ih zs hL a ha

/-- With a choice of rows for the entries that have one. -/
theorem mapM_exists {α β : Type} (f : α → Except Err β) (P : α → β → Prop) (L : List α)
    (h : ∀ a ∈ L, ∃ y, f a = .ok y ∧ P a y) :
    ∃ ys, L.mapM f = .ok ys ∧ List.Forall₂ P L ys := by
  induction L with
  | nil => exact ⟨[], rfl, .nil⟩
  | cons a L ih =>
    obtain ⟨y, h1, h2⟩ := h a (by simp)
    obtain ⟨ys, h3, h4⟩ := ih (fun b hb => h b (by simp [hb]))
    exact ⟨y :: ys, by rw [List.mapM_cons, h1, h3]; rfl, .cons h2 h4⟩

theorem forall₂_map_eq {α β γ : Type} {P : α → β → Prop} {f : α → γ} {g : β → γ} {L : List α} {M : List β}
    (h : List.Forall₂ P L M) (hp : ∀ a b, P a b → g b = f a) : M.map g = L.map f := by
  induction h with
  | nil => rfl
  | cons h _ ih => rw [List.map_cons, List.map_cons, hp _ _ h, ih]

theorem forall₂_mem_right {α β : Type} {P : α → β → Prop} {L : List α} {M : List β}
    (h : List.Forall₂ P L M) {b : β} (hb : b ∈ M) : ∃ a ∈ L, P a b := by
  induction h with
  | nil => cases hb
  | cons h _ ih =>
    rcases List.mem_cons.1 hb with rfl | hb
    · exact ⟨_, by simp, h⟩
    · obtain ⟨a, h1, h2⟩ := ih hb; exact ⟨a, by simp [h1], h2⟩

section
variable {t : Topology} {α : Type} [DecidableEq α]

theorem noneAt_known (inv : t.Inv) (k : SiteId) :
    (∃ xs, (t.noneAt (α := α)).get? k = some xs) ↔ ∃ x, t.sites.get? k = some x := by
  unfold noneAt
  rw [(none_fold (α := α) Site.id t.sites.vals [] (by simp)).2]
  simp only [Dict.get?_nil, reduceCtorEq, exists_false, false_or]
  constructor
  · rintro ⟨s, hs, rfl⟩
    obtain ⟨⟨i, x⟩, hi, rfl⟩ := List.mem_map.1 hs
    have := (Dict.mem_iff_get? inv.nd_sites _ _).1 hi
    exact ⟨x, by dsimp only; rw [inv.site_id _ _ this]; exact this⟩
  · rintro ⟨x, hx⟩
    exact ⟨x, List.mem_map.2 ⟨_, (Dict.mem_iff_get? inv.nd_sites _ _).2 hx, rfl⟩, inv.site_id _ _ hx⟩

theorem noneOn_known (inv : t.Inv) (k : SectorId) :
    (∃ xs, (t.noneOn (α := α)).get? k = some xs) ↔ ∃ x, t.sectors.get? k = some x := by
  unfold noneOn
  rw [(none_fold (α := α) Sector.id t.sectors.vals [] (by simp)).2]
  simp only [Dict.get?_nil, reduceCtorEq, exists_false, false_or]
  constructor
  · rintro ⟨s, hs, rfl⟩
    obtain ⟨⟨i, x⟩, hi, rfl⟩ := List.mem_map.1 hs
    have := (Dict.mem_iff_get? inv.nd_sectors _ _).1 hi
    exact ⟨x, by dsimp only; rw [inv.sector_id _ _ this]; exact this⟩
  · rintro ⟨x, hx⟩
    exact ⟨x, List.mem_map.2 ⟨_, (Dict.mem_iff_get? inv.nd_sectors _ _).2 hx, rfl⟩, inv.sector_id _ _ hx⟩

theorem noneAt_sets : SetsOf (t.noneAt (α := α)) (fun _ _ => False) := by
  intro k xs hx
  have := (none_fold (α := α) Site.id t.sites.vals [] (by simp)).1 k xs hx
  subst this
  simp

theorem noneOn_sets : SetsOf (t.noneOn (α := α)) (fun _ _ => False) := by
  intro k xs hx
  have := (none_fold (α := α) Sector.id t.sectors.vals [] (by simp)).1 k xs hx
  subst this
  simp

/-- A dictionary by site, filled. -/
theorem sets_at (inv : t.Inv) (ps : List (SiteId × α)) (hp : ∀ p ∈ ps, ∃ x, t.sites.get? p.1 = some x) :
    ∃ d, addAll t.noneAt ps = .ok d ∧ (∀ k, (∃ xs, d.get? k = some xs) ↔ ∃ x, t.sites.get? k = some x) ∧
      SetsOf d (fun k a => (k, a) ∈ ps) := by
  obtain ⟨d, h1, h2, h3⟩ := addAll_spec ps t.noneAt _ noneAt_sets (fun p h => (noneAt_known inv _).2 (hp p h))
  exact ⟨d, h1, fun k => (h2 k).trans (noneAt_known inv k), by simpa using h3⟩

theorem sets_on (inv : t.Inv) (ps : List (SectorId × α)) (hp : ∀ p ∈ ps, ∃ x, t.sectors.get? p.1 = some x) :
    ∃ d, addAll t.noneOn ps = .ok d ∧ (∀ k, (∃ xs, d.get? k = some xs) ↔ ∃ x, t.sectors.get? k = some x) ∧
      SetsOf d (fun k a => (k, a) ∈ ps) := by
  obtain ⟨d, h1, h2, h3⟩ := addAll_spec ps t.noneOn _ noneOn_sets (fun p h => (noneOn_known inv _).2 (hp p h))
  exact ⟨d, h1, fun k => (h2 k).trans (noneOn_known inv k), by simpa using h3⟩

end

section flow
variable {t : Topology}

/-- What counts for the flow. -/
def counted (t : Topology) (l : Link) : Bool := l.status.active && !t.demandSites.has l.rx

theorem flow_fold (flow : LinkId → ℚ) (L : List Link) : ∀ (d : SiteFlow) (s : SiteId),
    (((L.foldl (t.flowStep flow) d).get? s).getD (0, 0)).1 = ((d.get? s).getD (0, 0)).1 +
      ((L.filter (fun l => counted t l && decide (l.tx = s))).map (fun l => flow l.id)).sum ∧
    (((L.foldl (t.flowStep flow) d).get? s).getD (0, 0)).2 = ((d.get? s).getD (0, 0)).2 +
      ((L.filter (fun l => counted t l && decide (l.rx = s))).map (fun l => flow l.id)).sum := by
  induction L with
  | nil => intro d s; simp
  | cons l L ih =>
    intro d s
    rw [List.foldl_cons]
    obtain ⟨h1, h2⟩ := ih (t.flowStep flow d l) s
    rw [h1, h2]
    have key : (((t.flowStep flow d l).get? s).getD (0, 0)).1 = ((d.get? s).getD (0, 0)).1 +
          (if counted t l && decide (l.tx = s) then flow l.id else 0) ∧
        (((t.flowStep flow d l).get? s).getD (0, 0)).2 = ((d.get? s).getD (0, 0)).2 +
          (if counted t l && decide (l.rx = s) then flow l.id else 0) := by
      unfold flowStep counted
      cases ha : l.status.active
      · simp
      cases hd : t.demandSites.has l.rx
      · simp only [Bool.not_true, Bool.false_eq_true, if_false, Bool.not_false, Bool.and_self, Bool.true_and,
          decide_eq_true_eq, Dict.get?_set]
        by_cases e1 : l.rx = s
        · by_cases e2 : l.tx = s
          · subst e1
            simp [e2]
          · subst e1
            simp [e2]
        · by_cases e2 : l.tx = s
          · subst e2
            simp [e1]
          · simp [e1, e2]
      · simp
    rw [key.1, key.2, List.filter_cons, List.filter_cons]
    constructor
    · split
      · rw [List.map_cons, List.sum_cons]; ring
      · simp
    · split
      · rw [List.map_cons, List.sum_cons]; ring
      · simp

end flow
end Verif
