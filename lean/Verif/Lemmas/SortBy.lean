import Verif.Model.Ids
import Verif.Base

/-! # Sorting dictionaries -/

namespace Verif

section generic
set_option linter.unusedSectionVars false
variable {κ ν : Type} [DecidableEq κ]

theorem sortBy_perm (f : κ → String) (d : Dict κ ν) : (d.sortBy f).Perm d :=
  List.perm_insertionSort _ _

theorem sortBy_pairwise (f : κ → String) (d : Dict κ ν) :
    (d.sortBy f).Pairwise (fun a b => f a.1 ≤ f b.1) := by
  have : Std.Total (fun a b : κ × ν => f a.1 ≤ f b.1) := ⟨fun a b => le_total _ _⟩
  have : IsTrans (κ × ν) (fun a b : κ × ν => f a.1 ≤ f b.1) :=
    ⟨fun a b c h1 h2 => le_trans h1 h2⟩
  exact List.pairwise_insertionSort _ _

theorem sortBy_nodupKeys (f : κ → String) {d : Dict κ ν} (h : d.NodupKeys) :
    (d.sortBy f).NodupKeys :=
  ((sortBy_perm f d).map Prod.fst).nodup_iff.2 h

theorem get?_of_perm {d e : Dict κ ν} (hd : d.NodupKeys) (h : d.Perm e) (k : κ) :
    d.get? k = e.get? k := by
  have he : e.NodupKeys := (h.map Prod.fst).nodup_iff.1 hd
  apply Option.ext
  intro v
  rw [← Dict.mem_iff_get? hd, ← Dict.mem_iff_get? he]
  exact h.mem_iff

theorem perm_of_get? {d e : Dict κ ν} (hd : d.NodupKeys) (he : e.NodupKeys)
    (h : ∀ k, d.get? k = e.get? k) : d.Perm e := by
  rw [List.perm_ext_iff_of_nodup (List.Nodup.of_map _ hd) (List.Nodup.of_map _ he)]
  rintro ⟨k, v⟩
  rw [Dict.mem_iff_get? hd, Dict.mem_iff_get? he, h]

theorem eq_of_sorted (f : κ → String) {d e : Dict κ ν} (hd : d.NodupKeys)
    (hinj : ∀ a ∈ d.keys, ∀ b ∈ d.keys, f a = f b → a = b) (h : d.Perm e) :
    d.sortBy f = e.sortBy f := by
  refine List.Perm.eq_of_pairwise (le := fun a b => f a.1 ≤ f b.1) ?_ (sortBy_pairwise f d)
    (sortBy_pairwise f e) ((sortBy_perm f d).trans (h.trans (sortBy_perm f e).symm))
  rintro ⟨a, v⟩ ⟨b, w⟩ ha hb h1 h2
  have ha' : (a, v) ∈ d := (sortBy_perm f d).mem_iff.1 ha
  have hb' : (b, w) ∈ d := h.mem_iff.2 ((sortBy_perm f e).mem_iff.1 hb)
  have hab : a = b := hinj a (List.mem_map.2 ⟨_, ha', rfl⟩) b (List.mem_map.2 ⟨_, hb', rfl⟩)
    (le_antisymm h1 h2)
  subst hab
  have := (Dict.mem_iff_get? hd a v).1 ha'
  have h' := (Dict.mem_iff_get? hd a w).1 hb'
  rw [this] at h'; cases h'; rfl

theorem sortBy_idem (f : κ → String) (d : Dict κ ν) : (d.sortBy f).sortBy f = d.sortBy f :=
  List.Pairwise.insertionSort_eq (sortBy_pairwise f d)

theorem keys_sorted_strict (f : κ → String) {d : Dict κ ν} (hd : d.NodupKeys)
    (hinj : ∀ a ∈ d.keys, ∀ b ∈ d.keys, f a = f b → a = b) :
    (d.sortBy f).keys.Pairwise (fun a b => f a < f b) := by
  have h1 := sortBy_pairwise f d
  have h2 : (d.sortBy f).keys.Nodup := sortBy_nodupKeys f hd
  have h3 : (d.sortBy f).keys.Pairwise (fun a b => f a ≤ f b) := by
    rw [Dict.keys, List.pairwise_map]; exact h1
  have hk : ∀ x ∈ (d.sortBy f).keys, x ∈ d.keys := fun x hx =>
    ((sortBy_perm f d).map Prod.fst).mem_iff.1 hx
  have h4 := List.Pairwise.and (List.Pairwise.and_mem.1 h3) h2
  refine h4.imp ?_
  rintro a b ⟨⟨ha, hb, hle⟩, hne⟩
  exact lt_of_le_of_ne hle fun e => hne (hinj a (hk a ha) b (hk b hb) e)

end generic

theorem keys_map_val {κ ν : Type} (d : Dict κ ν) (f : ν → ν) :
    Dict.keys (d.map fun p => (p.1, f p.2)) = d.keys := by
  simp [Dict.keys, Function.comp_def]

theorem get?_map_val {κ ν : Type} [DecidableEq κ] (d : Dict κ ν) (f : ν → ν) (k : κ) :
    Dict.get? (d.map fun p => (p.1, f p.2)) k = (d.get? k).map f := by
  induction d with
  | nil => rfl
  | cons p t ih => obtain ⟨a, b⟩ := p; simp only [List.map_cons, Dict.get?_cons, ih]; split <;> rfl

end Verif
