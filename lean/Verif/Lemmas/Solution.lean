import Verif.Model.Solution
import Verif.Props.Mark

namespace Verif
open Topology

theorem foldOut_rel {α : Type} {f : Topology → α → Out} {R : Topology → Topology → Prop}
    (hrefl : ∀ t, R t t) (htrans : ∀ a b c, R a b → R b c → R a c)
    (hf : ∀ t a, R t (f t a).1) (l : List α) (t : Topology) : R t (foldOut f t l).1 := by
  induction l generalizing t with
  | nil => exact hrefl t
  | cons a l ih =>
    unfold foldOut
    rcases h : f t a with ⟨t1, e⟩
    have h1 : R t t1 := by have := hf t a; rwa [h] at this
    cases e with
    | some e => exact h1
    | none => exact htrans _ _ _ h1 (ih t1)

theorem foldOut_inv {α : Type} {f : Topology → α → Out} {P : Topology → Prop}
    (hf : ∀ t a, P t → P (f t a).1) (l : List α) (t : Topology) (h : P t) : P (foldOut f t l).1 := by
  induction l generalizing t with
  | nil => exact h
  | cons a l ih =>
    unfold foldOut
    rcases he : f t a with ⟨t1, e⟩
    have h1 : P t1 := by have := hf t a h; rwa [he] at this
    cases e with
    | some e => exact h1
    | none => exact ih t1 h1

/-- Invariant indexed by the processed prefix, on the non-raising path. -/
theorem foldOut_prefix {α : Type} {f : Topology → α → Out} (Q : List α → Topology → Prop)
    (hf : ∀ P a t t', Q P t → f t a = (t', none) → Q (P ++ [a]) t') (l : List α) :
    ∀ (P : List α) (t t' : Topology), Q P t → foldOut f t l = (t', none) → Q (P ++ l) t' := by
  induction l with
  | nil =>
    intro P t t' h he
    simp only [foldOut, Prod.mk.injEq, and_true] at he
    subst he; simpa using h
  | cons a l ih =>
    intro P t t' h he
    unfold foldOut at he
    rcases hx : f t a with ⟨t1, e⟩
    rw [hx] at he
    cases e with
    | some e => simp at he
    | none =>
      have := ih (P ++ [a]) t1 t' (hf P a t t1 h hx) he
      simpa using this

theorem setSiteStatus_ok {t t' : Topology} {id : SiteId} {st : StatusType}
    (h : t.setSiteStatus id st = (t', none)) :
    t' = { t with sites := t.sites.modify id (fun s => { s with status := st }) } := by
  unfold setSiteStatus at h
  repeat' split at h
  all_goals first | (simp only [Prod.mk.injEq, and_true] at h; exact h.symm) | simp at h

theorem setSiteStatus_err {t t' : Topology} {id : SiteId} {st : StatusType} {e : Err}
    (h : t.setSiteStatus id st = (t', some e)) : t' = t := by
  unfold setSiteStatus at h
  repeat' split at h
  all_goals first | (simp only [Prod.mk.injEq] at h; exact h.1.symm) | simp at h

theorem setSectorStatus_err {t t' : Topology} {id : SectorId} {st : StatusType} {e : Err}
    (h : t.setSectorStatus id st = (t', some e)) : t' = t := by
  unfold setSectorStatus at h
  repeat' split at h
  all_goals first | (simp only [Prod.mk.injEq] at h; exact h.1.symm) | simp at h

theorem setLinkStatus_err {t t' : Topology} {id : LinkId} {st : StatusType} {e : Err}
    (h : t.setLinkStatus id st = (t', some e)) : t' = t := by
  unfold setLinkStatus at h
  repeat' split at h
  all_goals first | (simp only [Prod.mk.injEq] at h; exact h.1.symm) | simp at h

end Verif
