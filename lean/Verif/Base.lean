import Mathlib.Data.List.Basic
import Mathlib.Data.List.Nodup
import Mathlib.Tactic.Common

/-!
# Python containers

A Python `dict` (insertion ordered, unique keys) is an association list; key
uniqueness is the separate predicate `Dict.NodupKeys`, preserved by each
operation. A Python `set` is a duplicate-free list.
-/

namespace Verif

/-- Python `dict`: association list in insertion order. -/
abbrev Dict (κ ν : Type) := List (κ × ν)

namespace Dict

variable {κ ν : Type} [DecidableEq κ]

/-- `d.get(k)`. -/
def get? : Dict κ ν → κ → Option ν
  | [], _ => none
  | (k', v) :: t, k => if k' = k then some v else get? t k

/-- `k in d`. -/
def has (d : Dict κ ν) (k : κ) : Bool := (d.get? k).isSome

/-- `d[k] = v`: an existing key keeps its position, a new key goes last. -/
def set : Dict κ ν → κ → ν → Dict κ ν
  | [], k, v => [(k, v)]
  | (k', v') :: t, k, v => if k' = k then (k, v) :: t else (k', v') :: set t k v

/-- `del d[k]` (no effect on an absent key; callers model the `KeyError`). -/
def del (d : Dict κ ν) (k : κ) : Dict κ ν := d.filter (fun p => p.1 ≠ k)

/-- `list(d.keys())`. -/
def keys (d : Dict κ ν) : List κ := d.map Prod.fst

/-- `list(d.values())`. -/
def vals (d : Dict κ ν) : List ν := d.map Prod.snd

/-- Update the value under `k` in place, if present. -/
def modify (d : Dict κ ν) (k : κ) (f : ν → ν) : Dict κ ν :=
  d.map (fun p => if p.1 = k then (p.1, f p.2) else p)

/-- Keys are unique. -/
def NodupKeys (d : Dict κ ν) : Prop := (keys d).Nodup

@[simp] theorem get?_nil (k : κ) : get? ([] : Dict κ ν) k = none := rfl

@[simp] theorem get?_cons (k k' : κ) (v : ν) (t : Dict κ ν) :
    get? ((k', v) :: t) k = if k' = k then some v else get? t k := rfl

theorem get?_set (d : Dict κ ν) (k k' : κ) (v : ν) :
    (d.set k v).get? k' = if k = k' then some v else d.get? k' := by
  induction d with
  | nil => simp [set]
  | cons p t ih =>
    obtain ⟨a, b⟩ := p
    simp only [set]
    split
    · subst_vars; simp; split <;> rfl
    · simp only [get?_cons, ih]; split <;> split <;> simp_all

@[simp] theorem get?_set_self (d : Dict κ ν) (k : κ) (v : ν) :
    (d.set k v).get? k = some v := by simp [get?_set]

theorem get?_del (d : Dict κ ν) (k k' : κ) :
    (d.del k).get? k' = if k = k' then none else d.get? k' := by
  induction d with
  | nil => simp [del]
  | cons p t ih =>
    obtain ⟨a, b⟩ := p
    simp only [del, List.filter_cons] at ih ⊢
    by_cases h : a = k
    · simp only [h, ne_eq, not_true_eq_false, decide_false, get?_cons]
      rw [if_neg (by simp), ih]; split <;> simp_all
    · simp only [ne_eq, h, not_false_eq_true, decide_true, if_true, get?_cons, ih]
      split <;> split <;> simp_all

theorem get?_modify (d : Dict κ ν) (k k' : κ) (f : ν → ν) :
    (d.modify k f).get? k' = if k = k' then (d.get? k').map f else d.get? k' := by
  induction d with
  | nil => simp [modify]
  | cons p t ih =>
    obtain ⟨a, b⟩ := p
    simp only [modify, List.map_cons] at ih ⊢
    by_cases h : a = k
    · subst h; simp only [if_true, get?_cons, ih]; split <;> simp_all
    · simp only [h, if_false, get?_cons, ih]; split <;> split <;> simp_all

theorem get?_eq_none_iff (d : Dict κ ν) (k : κ) : d.get? k = none ↔ k ∉ d.keys := by
  induction d with
  | nil => simp [keys]
  | cons p t ih =>
    obtain ⟨a, b⟩ := p
    simp only [get?_cons, keys, List.map_cons, List.mem_cons, not_or] at ih ⊢
    by_cases h : a = k
    · simp [h]
    · simp only [h, if_false, ih]; exact ⟨fun h' => ⟨fun e => h e.symm, h'⟩, fun h' => h'.2⟩

theorem mem_keys_iff (d : Dict κ ν) (k : κ) : k ∈ d.keys ↔ ∃ v, d.get? k = some v := by
  have := get?_eq_none_iff d k
  cases h : d.get? k with
  | none => simp [h] at this; simp [this]
  | some v => simp [h] at this; simp [this]

theorem has_iff (d : Dict κ ν) (k : κ) : d.has k = true ↔ ∃ v, d.get? k = some v := by
  simp [has, Option.isSome_iff_exists]

theorem has_eq_false_iff (d : Dict κ ν) (k : κ) : d.has k = false ↔ d.get? k = none := by
  simp [has]

theorem mem_of_get? (d : Dict κ ν) {k : κ} {v : ν} (h : d.get? k = some v) : (k, v) ∈ d := by
  induction d with
  | nil => simp at h
  | cons p t ih =>
    obtain ⟨a, b⟩ := p
    simp only [get?_cons] at h
    split at h
    · simp_all
    · exact List.mem_cons_of_mem _ (ih h)

theorem mem_iff_get? {d : Dict κ ν} (hd : d.NodupKeys) (k : κ) (v : ν) :
    (k, v) ∈ d ↔ d.get? k = some v := by
  refine ⟨fun h => ?_, mem_of_get? d⟩
  induction d with
  | nil => simp at h
  | cons p t ih =>
    obtain ⟨a, b⟩ := p
    simp only [NodupKeys, keys, List.map_cons, List.nodup_cons] at hd
    rcases List.mem_cons.1 h with h | h
    · cases h; simp
    · have : a ≠ k := by
        rintro rfl; exact hd.1 (List.mem_map.2 ⟨_, h, rfl⟩)
      simp [this, ih hd.2 h]

theorem keys_set (d : Dict κ ν) (k : κ) (v : ν) :
    (d.set k v).keys = if d.has k then d.keys else d.keys ++ [k] := by
  induction d with
  | nil => simp [set, keys, has]
  | cons p t ih =>
    obtain ⟨a, b⟩ := p
    simp only [set, has, get?_cons] at ih ⊢
    by_cases h : a = k
    · subst h; simp [keys]
    · simp only [h, if_false]
      simp only [keys, List.map_cons] at ih ⊢
      rw [ih]; split <;> simp_all

theorem keys_del (d : Dict κ ν) (k : κ) : (d.del k).keys = d.keys.filter (· ≠ k) := by
  simp [keys, del, List.filter_map, Function.comp_def]

@[simp] theorem keys_modify (d : Dict κ ν) (k : κ) (f : ν → ν) :
    (d.modify k f).keys = d.keys := by
  simp only [keys, modify, List.map_map]
  apply List.map_congr_left
  intro p _; simp only [Function.comp]; split <;> rfl

omit [DecidableEq κ] in
theorem nodupKeys_nil : NodupKeys ([] : Dict κ ν) := by simp [NodupKeys, keys]

theorem NodupKeys.set {d : Dict κ ν} (hd : d.NodupKeys) (k : κ) (v : ν) :
    (d.set k v).NodupKeys := by
  unfold NodupKeys at *
  rw [keys_set]
  split
  · exact hd
  · rename_i h
    have : k ∉ d.keys := by
      rw [← get?_eq_none_iff, ← has_eq_false_iff]; simpa using h
    rw [List.nodup_append]
    refine ⟨hd, by simp, ?_⟩
    intro a ha b hb
    simp at hb; subst hb; rintro rfl; exact this ha

theorem NodupKeys.del {d : Dict κ ν} (hd : d.NodupKeys) (k : κ) : (d.del k).NodupKeys := by
  unfold NodupKeys at *; rw [keys_del]; exact hd.filter _

theorem NodupKeys.modify {d : Dict κ ν} (hd : d.NodupKeys) (k : κ) (f : ν → ν) :
    (d.modify k f).NodupKeys := by
  unfold NodupKeys at *; rwa [keys_modify]

end Dict

/-- The exception classes of `common/exceptions.py:9-41` together with the
Python built-in exceptions the code can raise. -/
inductive Err
  | planner | geoSystem | topology | config | data | los | optimizer
  | keyError | zeroDivision | valueError | unboundLocal | attributeError
  deriving DecidableEq, Repr

end Verif
