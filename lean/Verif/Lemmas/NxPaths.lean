import Verif.Lemmas.Nx2
import Verif.Model.NxReport
import Mathlib.Data.List.Nodup
import Mathlib.Data.List.Duplicate
import Mathlib.Data.List.Chain
import Mathlib.Data.Nat.Find

/-! Walks, the edges removed for a path, and the loop of the disjoint path report. -/

namespace Verif

open Spec Relation

section walks

variable {α : Type} {E : α × α → Prop}

/-- The edges of a walk. -/
def pairs : List α → List (α × α)
  | a :: b :: r => (a, b) :: pairs (b :: r)
  | _ => []

theorem IsWalk.joined {a b : α} {p : List α} (h : IsWalk E a b p) : Joined E a b := by
  obtain ⟨h1, h2, h3⟩ := h
  induction p generalizing a with
  | nil => simp at h1
  | cons x p ih =>
    simp only [List.head?_cons, Option.some.injEq] at h1
    subst h1
    cases p with
    | nil =>
      simp only [List.getLast?_singleton, Option.some.injEq] at h2
      subst h2
      exact ReflTransGen.refl
    | cons y p =>
      rw [List.isChain_cons_cons] at h3
      rw [List.getLast?_cons_cons] at h2
      exact ReflTransGen.head h3.1 (ih rfl h2 h3.2)

theorem Joined.walk {a b : α} (h : Joined E a b) : ∃ p, IsWalk E a b p := by
  induction h using ReflTransGen.head_induction_on with
  | refl => exact ⟨[b], rfl, rfl, by simp⟩
  | @head a c hac _ ih =>
    obtain ⟨p, h1, h2, h3⟩ := ih
    cases p with
    | nil => simp at h1
    | cons x p =>
      simp only [List.head?_cons, Option.some.injEq] at h1
      subst h1
      exact ⟨a :: x :: p, rfl, by rw [List.getLast?_cons_cons]; exact h2,
        List.isChain_cons_cons.2 ⟨hac, h3⟩⟩

theorem pairs_edge {p : List α} (h : p.IsChain (fun x y => E (x, y))) : ∀ e ∈ pairs p, E e := by
  induction p with
  | nil => simp [pairs]
  | cons x p ih =>
    cases p with
    | nil => simp [pairs]
    | cons y p =>
      rw [List.isChain_cons_cons] at h
      intro e he
      rw [pairs, List.mem_cons] at he
      rcases he with rfl | he
      · exact h.1
      · exact ih h.2 e he

theorem pairs_mem {p : List α} : ∀ e ∈ pairs p, e.1 ∈ p ∧ e.2 ∈ p.tail := by
  induction p with
  | nil => simp [pairs]
  | cons x p ih =>
    cases p with
    | nil => simp [pairs]
    | cons y p =>
      intro e he
      rw [pairs, List.mem_cons] at he
      rcases he with rfl | he
      · simp
      · have := ih e he
        exact ⟨List.mem_cons_of_mem _ this.1, by simpa using List.mem_of_mem_tail this.2⟩

theorem pairs_nodup {p : List α} (h : p.Nodup) : (pairs p).Nodup := by
  induction p with
  | nil => simp [pairs]
  | cons x p ih =>
    cases p with
    | nil => simp [pairs]
    | cons y p =>
      rw [List.nodup_cons] at h
      rw [pairs, List.nodup_cons]
      refine ⟨fun c => h.1 (pairs_mem _ c).1, ih h.2⟩

/-- A path does not use an edge and its reverse. -/
theorem pairs_swap {p : List α} (h : p.Nodup) {x y : α} (hx : (x, y) ∈ pairs p) : (y, x) ∉ pairs p := by
  induction p with
  | nil => simp [pairs] at hx
  | cons a p ih =>
    cases p with
    | nil => simp [pairs] at hx
    | cons b p =>
      rw [List.nodup_cons] at h
      rw [pairs, List.mem_cons] at hx ⊢
      rcases hx with hx | hx
      · obtain ⟨rfl, rfl⟩ := Prod.mk.inj hx
        rintro (c | c)
        · obtain ⟨rfl, _⟩ := Prod.mk.inj c
          exact h.1 (by simp)
        · exact h.1 (List.mem_of_mem_tail (pairs_mem _ c).2)
      · rintro (c | c)
        · obtain ⟨rfl, rfl⟩ := Prod.mk.inj c
          exact h.1 (List.mem_of_mem_tail (pairs_mem _ hx).2)
        · exact ih h.2 hx c

/-- A walk that leaves a set uses an edge that leaves it. -/
theorem crossing {R : α → Prop} {a b : α} {p : List α} (h1 : p.head? = some a) (h2 : p.getLast? = some b)
    (ha : R a) (hb : ¬ R b) : ∃ e ∈ pairs p, R e.1 ∧ ¬ R e.2 := by
  induction p generalizing a with
  | nil => simp at h1
  | cons x p ih =>
    simp only [List.head?_cons, Option.some.injEq] at h1
    subst h1
    cases p with
    | nil =>
      simp only [List.getLast?_singleton, Option.some.injEq] at h2
      subst h2
      exact absurd ha hb
    | cons y p =>
      rw [List.getLast?_cons_cons] at h2
      by_cases hy : R y
      · obtain ⟨e, he, h⟩ := ih rfl h2 hy
        exact ⟨e, by rw [pairs]; exact List.mem_cons_of_mem _ he, h⟩
      · exact ⟨(x, y), by rw [pairs]; simp, ha, hy⟩

theorem stays_out {R : α → Prop} {a : α} {p : List α} (h1 : p.head? = some a)
    (mono : ∀ e ∈ pairs p, ¬ R e.1 → ¬ R e.2) (ha : ¬ R a) : ∀ e ∈ pairs p, ¬ R e.1 := by
  induction p generalizing a with
  | nil => simp [pairs]
  | cons x p ih =>
    simp only [List.head?_cons, Option.some.injEq] at h1
    subst h1
    cases p with
    | nil => simp [pairs]
    | cons y p =>
      intro e he
      rw [pairs, List.mem_cons] at he
      rcases he with rfl | he
      · exact ha
      · refine ih (a := y) rfl (fun e he => mono e ?_) (mono (x, y) ?_ ha) e he
        · rw [pairs]; exact List.mem_cons_of_mem _ he
        · rw [pairs]; simp

/-- A walk that never returns to a set leaves it by one edge. -/
theorem crossing_unique {R : α → Prop} {a : α} {p : List α} (h1 : p.head? = some a)
    (mono : ∀ e ∈ pairs p, ¬ R e.1 → ¬ R e.2) :
    ∀ e ∈ pairs p, ∀ f ∈ pairs p, R e.1 → ¬ R e.2 → R f.1 → ¬ R f.2 → e = f := by
  induction p generalizing a with
  | nil => simp [pairs]
  | cons x p ih =>
    cases p with
    | nil => simp [pairs]
    | cons y p =>
      have mono' : ∀ e ∈ pairs (y :: p), ¬ R e.1 → ¬ R e.2 := fun e he =>
        mono e (by rw [pairs]; exact List.mem_cons_of_mem _ he)
      intro e he f hf he1 he2 hf1 hf2
      rw [pairs, List.mem_cons] at he hf
      rcases he with rfl | he <;> rcases hf with rfl | hf
      · rfl
      · exact absurd hf1 (stays_out rfl mono' he2 f hf)
      · exact absurd he1 (stays_out rfl mono' hf2 e he)
      · exact ih rfl mono' e he f hf he1 he2 hf1 hf2

theorem chain_drop_middle {A B C : List α} {v : α} (h : (A ++ v :: (B ++ v :: C)).IsChain (fun x y => E (x, y))) :
    (A ++ v :: C).IsChain (fun x y => E (x, y)) := by
  have h2 : (v :: (B ++ v :: C)).IsChain (fun x y => E (x, y)) := h.right_of_append
  have h3 : (v :: C).IsChain (fun x y => E (x, y)) := by
    have : ((v :: B) ++ v :: C).IsChain (fun x y => E (x, y)) := h2
    exact this.right_of_append
  rw [List.isChain_append] at h ⊢
  exact ⟨h.1, h3, by simpa using h.2.2⟩

/-- A shortest walk repeats no node. -/
theorem shortest_nodup {a b : α} {p : List α} (h : IsWalk E a b p)
    (hs : ∀ q, IsWalk E a b q → p.length ≤ q.length) : p.Nodup := by
  classical
  by_contra c
  obtain ⟨v, hv⟩ := List.exists_duplicate_iff_not_nodup.2 c
  obtain ⟨A, D, rfl, hD⟩ : ∃ A D, p = A ++ v :: D ∧ v ∈ D := by
    clear h hs c
    induction hv with
    | @cons_mem l h => exact ⟨[], _, rfl, h⟩
    | @cons_duplicate y l _ ih =>
      obtain ⟨A, D, rfl, h⟩ := ih
      exact ⟨y :: A, D, rfl, h⟩
  obtain ⟨B, C, rfl⟩ := List.append_of_mem hD
  have := hs (A ++ v :: C) ⟨?_, ?_, chain_drop_middle h.2.2⟩
  · simp only [List.length_append, List.length_cons] at this
    omega
  · rw [← h.1]
    cases A <;> simp
  · rw [← h.2.1]
    simp [List.getLast?_append, List.getLast?_cons]

/-- Shortest walks exist. -/
theorem shortestPaths_exist (E : α × α → Prop) (a : α) : ∃ paths, ShortestPaths E a paths := by
  classical
  have key : ∀ v, ∃ o : Option (List α), (o = none ↔ ∀ p, ¬ IsWalk E a v p) ∧
      ∀ p, o = some p → IsWalk E a v p ∧ ∀ q, IsWalk E a v q → p.length ≤ q.length := by
    intro v
    by_cases h : ∃ p, IsWalk E a v p
    · have hn : ∃ n, ∃ p, IsWalk E a v p ∧ p.length = n := by
        obtain ⟨p, hp⟩ := h; exact ⟨_, p, hp, rfl⟩
      obtain ⟨p, hp, hl⟩ := Nat.find_spec hn
      refine ⟨some p, ⟨by simp, fun c => absurd hp (c p)⟩, ?_⟩
      rintro _ ⟨⟩
      refine ⟨hp, fun q hq => ?_⟩
      rw [hl]
      exact Nat.find_min' hn ⟨q, hq, rfl⟩
    · exact ⟨none, ⟨fun _ p hp => h ⟨p, hp⟩, fun _ => rfl⟩, by simp⟩
  choose f hf using key
  exact ⟨f, fun v => (hf v).1, fun v p h => ((hf v).2 p h).1, fun v p q h hq => ((hf v).2 p h).2 q hq⟩

end walks

end Verif
