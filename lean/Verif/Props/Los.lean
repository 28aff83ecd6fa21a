import Verif.Model.Los
import Mathlib.Data.List.Nodup

/-!
# Which pairs the LOS phase looks at, and how batches and the memo matter

C22 and the first half of C23.
-/

namespace Verif

/-- Two sites may be joined by a link: they are not both client sites and not both POPs. -/
def Linkable (a b : SiteType) : Prop := ¬ (a = .cn ∧ b = .cn) ∧ ¬ (a = .pop ∧ b = .pop)

theorem flatMap_single {α β : Type} [DecidableEq α] {f : α → List β} {a : α} : ∀ {L : List α}, L.Nodup →
    (∀ x ∈ L, x ≠ a → f x = []) → L.flatMap f = if a ∈ L then f a else []
  | [], _, _ => by simp
  | x :: L, nd, h => by
    rw [List.nodup_cons] at nd
    rw [List.flatMap_cons, flatMap_single nd.2 (fun y hy => h y (List.mem_cons_of_mem _ hy))]
    by_cases e : x = a
    · subst e
      simp [nd.1]
    · rw [h x List.mem_cons_self e]
      simp [Ne.symm e]

theorem candidateOf_ends {types : List SiteType} {i j : Nat} {c : CandidateLos} (h : c ∈ candidateOf types i j) :
    (c.site1 = i ∧ c.site2 = j) ∨ (c.site1 = j ∧ c.site2 = i) := by
  unfold candidateOf at h
  split at h
  · split_ifs at h <;> simp_all
  · simp at h

theorem candidateOf_none {types : List SiteType} {i j : Nat}
    (h : ¬ ∃ a b, types[i]? = some a ∧ types[j]? = some b ∧ Linkable a b) : candidateOf types i j = [] := by
  unfold candidateOf
  split
  · rename_i a b ha hb
    have : ¬ Linkable a b := fun c => h ⟨a, b, ha, hb, c⟩
    clear h ha hb
    revert this
    cases a <;> cases b <;> simp [Linkable, biLinks, directedLinks]
  · rfl

theorem candidateOf_some {types : List SiteType} {i j : Nat} {a b : SiteType} (ha : types[i]? = some a)
    (hb : types[j]? = some b) (h : Linkable a b) :
    ∃ c, candidateOf types i j = [c] ∧ (c.both = true ↔ a ≠ .cn ∧ b ≠ .cn)
      ∧ (c.both = false → types[c.site1]? ≠ some .cn ∧ types[c.site2]? = some .cn) := by
  unfold candidateOf
  rw [ha, hb]
  dsimp only
  cases a <;> cases b <;> simp [Linkable, biLinks, directedLinks] at h ⊢ <;> simp_all

/-- The candidate joins the two sites, in one order or the other. -/
def Joins (i j : Nat) (c : CandidateLos) : Prop := (c.site1 = i ∧ c.site2 = j) ∨ (c.site1 = j ∧ c.site2 = i)

instance (i j : Nat) (c : CandidateLos) : Decidable (Joins i j c) := by unfold Joins; infer_instance

theorem filter_joins {types : List SiteType} {i j i' j' : Nat} (h : i < j) (h' : i' < j') :
    (candidateOf types i' j').filter (fun c => Joins i j c) = if i' = i ∧ j' = j then candidateOf types i j else [] := by
  split_ifs with e
  · obtain ⟨rfl, rfl⟩ := e
    refine List.filter_eq_self.2 fun c hc => ?_
    exact decide_eq_true (candidateOf_ends hc)
  · refine List.filter_eq_nil_iff.2 fun c hc => ?_
    intro hd
    rcases (of_decide_eq_true hd : Joins i j c) with ⟨h1, h2⟩ | ⟨h1, h2⟩ <;> rcases candidateOf_ends hc with ⟨g1, g2⟩ | ⟨g1, g2⟩ <;> omega

theorem losCandidates_joins (types : List SiteType) (fresh : Nat) {i j : Nat} (h : i < j) :
    (losCandidates types fresh).filter (fun c => Joins i j c)
      = if i < fresh ∧ j < types.length then candidateOf types i j else [] := by
  unfold losCandidates
  rw [List.filter_flatMap, flatMap_single (a := i) List.nodup_range]
  · rw [List.filter_flatMap, flatMap_single (a := j) (List.nodup_range.filter _)]
    · rw [filter_joins h h]
      simp only [List.mem_range, List.mem_filter, decide_eq_true_eq]
      by_cases h1 : i < fresh <;> by_cases h2 : j < types.length <;> simp [h1, h2]
      · intro c; omega
    · intro x hx ne
      simp only [List.mem_filter, decide_eq_true_eq] at hx
      rw [filter_joins h (by omega)]
      simp [ne]
  · intro x _ ne
    rw [List.filter_flatMap, List.flatMap_eq_nil_iff]
    intro y hy
    simp only [List.mem_filter, decide_eq_true_eq] at hy
    rw [filter_joins h (by omega)]
    simp [ne]

/-- **C22.** Two different sites of which at least one is new (the sites before position `fresh` are the new ones)
and which may be joined by a link are listed exactly once, as a link in both directions if neither is a client site
and otherwise as a link towards the client site. No other pair is listed. -/
theorem C22_candidate_pairs (types : List SiteType) (fresh : Nat) :
    (∀ i j a b, i < j → i < fresh → types[i]? = some a → types[j]? = some b → Linkable a b →
      ∃ c, (losCandidates types fresh).filter (fun c => Joins i j c) = [c]
        ∧ (c.both = true ↔ a ≠ .cn ∧ b ≠ .cn)
        ∧ (c.both = false → types[c.site1]? ≠ some .cn ∧ types[c.site2]? = some .cn))
    ∧ ∀ c ∈ losCandidates types fresh, ∃ a b, c.site1 ≠ c.site2 ∧ (c.site1 < fresh ∨ c.site2 < fresh)
        ∧ types[c.site1]? = some a ∧ types[c.site2]? = some b ∧ Linkable a b := by
  constructor
  · intro i j a b h hi ha hb hl
    have hj : j < types.length := by
      by_contra c
      rw [List.getElem?_eq_none (by omega)] at hb
      cases hb
    rw [losCandidates_joins types fresh h, if_pos ⟨hi, hj⟩]
    exact candidateOf_some ha hb hl
  · intro c hc
    unfold losCandidates at hc
    simp only [List.mem_flatMap, List.mem_filter, List.mem_range, decide_eq_true_eq] at hc
    obtain ⟨i, hi, j, ⟨hj, hij⟩, hc⟩ := hc
    have he := candidateOf_ends hc
    by_cases hl : ∃ a b, types[i]? = some a ∧ types[j]? = some b ∧ Linkable a b
    · obtain ⟨a, b, ha, hb, hl⟩ := hl
      rcases he with ⟨h1, h2⟩ | ⟨h1, h2⟩
      · exact ⟨a, b, by omega, by omega, by rw [h1, ha], by rw [h2, hb], hl⟩
      · refine ⟨b, a, by omega, by omega, by rw [h1, hb], by rw [h2, ha], ?_⟩
        exact ⟨fun c => hl.1 ⟨c.2, c.1⟩, fun c => hl.2 ⟨c.2, c.1⟩⟩
    · rw [candidateOf_none hl] at hc
      cases hc

/-- A POP, a DN, a CN and a DN of the base topology. -/
example : losCandidates [.cn, .dn, .pop, .dn] 3
    = [⟨1, 0, false⟩, ⟨2, 0, false⟩, ⟨3, 0, false⟩, ⟨1, 2, true⟩, ⟨1, 3, true⟩, ⟨2, 3, true⟩] := by
  decide

theorem losBatches_take (size : Nat) (ls : List CandidateLos) (m : Nat) :
    ((List.range m).map fun i =>
      (ls.take (min ((i + 1) * size) ls.length)).drop (i * size)).flatten = ls.take (m * size) := by
  induction m with
  | zero => simp
  | succ m ih =>
    rw [List.range_succ, List.map_append, List.flatten_append, ih]
    have e : ls.take (min ((m + 1) * size) ls.length) = ls.take ((m + 1) * size) := by
      rcases le_total ((m + 1) * size) ls.length with h | h
      · rw [min_eq_left h]
      · rw [min_eq_right h, List.take_length, List.take_of_length_le h]
    have e2 : ls.take (m * size) = (ls.take ((m + 1) * size)).take (m * size) := by
      rw [List.take_take, min_eq_left (Nat.mul_le_mul_right _ (Nat.le_succ m))]
    simp only [List.map_cons, List.map_nil, List.flatten_cons, List.flatten_nil, List.append_nil]
    rw [e, e2, List.take_append_drop]

/-- The batches are the list of candidates, cut into pieces. -/
theorem losBatches_flatten {size : Nat} (h : 0 < size) (ls : List CandidateLos) : (losBatches size ls).flatten = ls := by
  unfold losBatches
  rw [losBatches_take, List.take_of_length_le]
  have := Nat.div_add_mod (ls.length + size - 1) size
  have := Nat.mod_lt (ls.length + size - 1) h
  rw [mul_comm]
  omega

variable {K : Type}

/-- The confidence of two sites depends on nothing but where they are, and not on their order. -/
structure ByPlace (conf : LosSite → LosSite → K) (sites : List LosSite) : Prop where
  place : ∀ a ∈ sites, ∀ b ∈ sites, ∀ a' ∈ sites, ∀ b' ∈ sites,
    (a.x, a.y, a.alt) = (a'.x, a'.y, a'.alt) → (b.x, b.y, b.alt) = (b'.x, b'.y, b'.alt) → conf a b = conf a' b'
  symm : ∀ a ∈ sites, ∀ b ∈ sites, conf a b = conf b a

/-- The links found if every pair is computed afresh: none, or one, or one in each direction. -/
def freshLinks (conf : LosSite → LosSite → K) (pos : K → Bool) (sites : List LosSite) (l : CandidateLos) :
    List (ValidLos K) :=
  match sites[l.site1]?, sites[l.site2]? with
  | some a, some b =>
    if pos (conf a b) then
      if l.both then [⟨l.site1, l.site2, conf a b⟩, ⟨l.site2, l.site1, conf a b⟩] else [⟨l.site1, l.site2, conf a b⟩]
    else []
  | _, _ => []

theorem validLinks_eq (pos : K → Bool) (l : CandidateLos) (c : K) : validLinks pos l c =
    if pos c then (if l.both then [⟨l.site1, l.site2, c⟩, ⟨l.site2, l.site1, c⟩] else [⟨l.site1, l.site2, c⟩])
    else [] := by
  unfold validLinks
  split_ifs <;> rfl

/-- What the memo holds was computed for sites in the same places. -/
def MemoOk (conf : LosSite → LosSite → K) (sites : List LosSite) (memo : Dict MemoKey K) : Prop :=
  ∀ k c, memo.get? k = some c → ∃ a ∈ sites, ∃ b ∈ sites, k = (a.key, b.key) ∧ c = conf a b

theorem memoConfidence_ok {conf : LosSite → LosSite → K} {sites : List LosSite} {memo : Dict MemoKey K}
    (hm : MemoOk conf sites memo) {a b : LosSite} (ha : a ∈ sites) (hb : b ∈ sites) :
    (∃ a' ∈ sites, ∃ b' ∈ sites, (memoConfidence conf memo a b).1 = conf a' b'
      ∧ ((a'.key = a.key ∧ b'.key = b.key) ∨ (a'.key = b.key ∧ b'.key = a.key)))
    ∧ MemoOk conf sites (memoConfidence conf memo a b).2 := by
  unfold memoConfidence
  split
  · rename_i c hc
    obtain ⟨a', ha', b', hb', hk, rfl⟩ := hm _ _ hc
    rw [Prod.mk.injEq] at hk
    exact ⟨⟨a', ha', b', hb', rfl, .inl ⟨hk.1.symm, hk.2.symm⟩⟩, hm⟩
  · split
    · rename_i c hc
      obtain ⟨a', ha', b', hb', hk, rfl⟩ := hm _ _ hc
      rw [Prod.mk.injEq] at hk
      exact ⟨⟨a', ha', b', hb', rfl, .inr ⟨hk.1.symm, hk.2.symm⟩⟩, hm⟩
    · refine ⟨⟨a, ha, b, hb, rfl, .inl ⟨rfl, rfl⟩⟩, fun k c hk => ?_⟩
      rw [Dict.get?_set] at hk
      split_ifs at hk with e
      · exact ⟨a, ha, b, hb, e.symm, (Option.some.inj hk).symm⟩
      · exact hm k c hk

theorem losBatch_fresh {conf : LosSite → LosSite → K} {pos : K → Bool} {sites : List LosSite}
    (hp : ByPlace conf sites) : ∀ (ls : List CandidateLos) (memo : Dict MemoKey K), MemoOk conf sites memo →
    losBatch conf pos sites memo ls = ls.flatMap (freshLinks conf pos sites)
  | [], _, _ => rfl
  | l :: rest, memo, hm => by
    rw [List.flatMap_cons]
    have skip : (∀ a b, sites[l.site1]? = some a → sites[l.site2]? = some b → False) →
        losBatch conf pos sites memo (l :: rest)
          = freshLinks conf pos sites l ++ rest.flatMap (freshLinks conf pos sites) := by
      intro h
      simp only [losBatch, freshLinks]
      cases h1 : sites[l.site1]? with
      | none => simpa using losBatch_fresh hp rest _ hm
      | some a =>
        cases h2 : sites[l.site2]? with
        | none => simpa using losBatch_fresh hp rest _ hm
        | some b => exact (h a b h1 h2).elim
    cases h1 : sites[l.site1]? with
    | none => exact skip (by simp [h1])
    | some a =>
      cases h2 : sites[l.site2]? with
      | none => exact skip (by simp [h2])
      | some b =>
        have ha := List.mem_of_getElem? h1
        have hb := List.mem_of_getElem? h2
        obtain ⟨⟨a', ha', b', hb', hc, hk⟩, hm'⟩ := memoConfidence_ok hm ha hb
        have : conf a' b' = conf a b := by
          rcases hk with ⟨h1, h2⟩ | ⟨h1, h2⟩
          · exact hp.place a' ha' b' hb' a ha b hb h1 h2
          · rw [hp.symm a ha b hb]
            exact hp.place a' ha' b' hb' b hb a ha h1 h2
        simp only [losBatch, freshLinks, h1, h2]
        rw [losBatch_fresh hp rest _ hm', hc, this, validLinks_eq]

/-- **C22, batches; C23 (partial).** If the confidence of two sites depends on nothing but their places, regardless
of the order, then neither the memo nor the division into batches matters: the links found are those found by
computing each candidate afresh, in the order of the candidates. Missing: the confidence depends on the building and
the kind of location too, and then they do matter (`C23_memo_violation`). -/
theorem C23_memo_partial (conf : LosSite → LosSite → K) (pos : K → Bool) (sites : List LosSite)
    (hp : ByPlace conf sites) (size : Nat) (hs : 0 < size) (ls : List CandidateLos) :
    computeLos conf pos size sites ls = ls.flatMap (freshLinks conf pos sites) := by
  unfold computeLos
  have e : ∀ L : List (List CandidateLos), L.flatMap (losBatch conf pos sites [])
      = L.flatten.flatMap (freshLinks conf pos sites) := by
    intro L
    induction L with
    | nil => rfl
    | cons l L ih =>
      rw [List.flatMap_cons, List.flatten_cons, List.flatMap_append, ih,
        losBatch_fresh hp l [] (by intro k c h; simp [Dict.get?] at h)]
  rw [e, losBatches_flatten hs]

/-- Two sites with a confidence that falls with the distance, in batches of one. -/
example : ByPlace (fun a b => if |a.x - b.x| ≤ 10 then (1 : ℚ) else 0) [⟨0, 0, none, .unknown, none⟩, ⟨5, 0, none, .unknown, none⟩]
    ∧ computeLos (fun a b => if |a.x - b.x| ≤ 10 then (1 : ℚ) else 0) (fun c => decide (0 < c)) 1
        [⟨0, 0, none, .unknown, none⟩, ⟨5, 0, none, .unknown, none⟩] [⟨0, 1, true⟩] = [⟨0, 1, 1⟩, ⟨1, 0, 1⟩] := by
  refine ⟨⟨?_, ?_⟩, by decide +kernel⟩
  · intro a _ b _ a' _ b' _ h h'
    simp only [Prod.mk.injEq] at h h'
    simp only [h.1, h'.1]
  · intro a _ b _
    simp only [abs_sub_comm]

/-- **C22, batches.** The batches together are the candidates, each once and in their order, and no batch is longer
than the batch size. -/
theorem C22_batches {size : Nat} (h : 0 < size) (ls : List CandidateLos) :
    (losBatches size ls).flatten = ls ∧ ∀ B ∈ losBatches size ls, B.length ≤ size := by
  refine ⟨losBatches_flatten h ls, ?_⟩
  intro B hB
  unfold losBatches at hB
  obtain ⟨i, _, rfl⟩ := List.mem_map.1 hB
  rw [List.length_drop, List.length_take]
  have : (i + 1) * size = i * size + size := Nat.succ_mul i size
  omega

example : losBatches 2 [⟨0, 1, true⟩, ⟨0, 2, true⟩, ⟨1, 2, true⟩]
    = [[⟨0, 1, true⟩, ⟨0, 2, true⟩], [⟨1, 2, true⟩]] := by decide +kernel

end Verif
