import Verif.Model.LosPick
import Verif.Props.Los
import Verif.Props.LosSelect

/-!
# One site per building
-/

namespace Verif

variable {K : Type}

namespace LosPick

/-- The list at a position. -/
abbrev row (L : List (List Nat)) (i : Nat) : List Nat := (L[i]?).getD []

/-- The sites on a building are grouped under it, in their order. -/
theorem group_spec : ∀ (bs : List (Option Int)) (i : Nat) (D : Dict Int (List Nat)), D.NodupKeys →
    (∀ k L, D.get? k = some L → L ≠ []) →
    (groupByBuilding i bs D).NodupKeys
    ∧ (∀ k L, (groupByBuilding i bs D).get? k = some L → L ≠ [])
    ∧ ∀ k j, j ∈ ((groupByBuilding i bs D).get? k).getD [] ↔
        j ∈ (D.get? k).getD [] ∨ ∃ m b, bs[m]? = some b ∧ onBuilding b = some k ∧ j = i + m
  | [], i, D, nd, ne => ⟨nd, ne, by intro k j; simp [groupByBuilding]⟩
  | b :: rest, i, D, nd, ne => by
    unfold groupByBuilding
    cases hb : onBuilding b with
    | none =>
      obtain ⟨h1, h2, h3⟩ := group_spec rest (i + 1) D nd ne
      refine ⟨h1, h2, ?_⟩
      intro k j
      rw [h3]
      constructor
      · rintro (h | ⟨m, c, hc, ho, e⟩)
        · exact .inl h
        · exact .inr ⟨m + 1, c, by simpa using hc, ho, by omega⟩
      · rintro (h | ⟨m, c, hc, ho, e⟩)
        · exact .inl h
        · cases m with
          | zero =>
            simp only [List.getElem?_cons_zero, Option.some.injEq] at hc
            subst hc
            rw [hb] at ho
            cases ho
          | succ m => exact .inr ⟨m, c, by simpa using hc, ho, by omega⟩
    | some q =>
      obtain ⟨h1, h2, h3⟩ := group_spec rest (i + 1) (D.set q ((D.get? q).getD [] ++ [i])) (nd.set _ _) (by
        intro k L h
        rw [Dict.get?_set] at h
        split at h
        · simp only [Option.some.injEq] at h
          subst h
          simp
        · exact ne k L h)
      refine ⟨h1, h2, ?_⟩
      intro k j
      rw [h3, Dict.get?_set]
      constructor
      · rintro (h | ⟨m, c, hc, ho, e⟩)
        · split at h
          · rename_i e
            subst e
            simp only [Option.getD_some, List.mem_append, List.mem_singleton] at h
            rcases h with h | h
            · exact .inl h
            · exact .inr ⟨0, b, rfl, hb, by omega⟩
          · exact .inl h
        · exact .inr ⟨m + 1, c, by simpa using hc, ho, by omega⟩
      · rintro (h | ⟨m, c, hc, ho, e⟩)
        · left
          split
          · rename_i e
            subst e
            simp [h]
          · exact h
        · cases m with
          | zero =>
            simp only [List.getElem?_cons_zero, Option.some.injEq] at hc
            subst hc
            rw [hb, Option.some.injEq] at ho
            left
            rw [if_pos ho]
            simp [e]
          | succ m => exact .inr ⟨m, c, by simpa using hc, ho, by omega⟩

theorem without_spec : ∀ (bs : List (Option Int)) (i j : Nat),
    j ∈ withoutBuilding i bs ↔ ∃ m b, bs[m]? = some b ∧ onBuilding b = none ∧ j = i + m
  | [], i, j => by simp [withoutBuilding]
  | b :: rest, i, j => by
    have ih := without_spec rest (i + 1) j
    have step : (∃ m c, (b :: rest)[m]? = some c ∧ onBuilding c = none ∧ j = i + m) ↔
        (onBuilding b = none ∧ j = i) ∨ ∃ m c, rest[m]? = some c ∧ onBuilding c = none ∧ j = i + 1 + m := by
      constructor
      · rintro ⟨m, c, hc, ho, e⟩
        cases m with
        | zero =>
          simp only [List.getElem?_cons_zero, Option.some.injEq] at hc
          subst hc
          exact .inl ⟨ho, by omega⟩
        | succ m => exact .inr ⟨m, c, by simpa using hc, ho, by omega⟩
      · rintro (⟨ho, e⟩ | ⟨m, c, hc, ho, e⟩)
        · exact ⟨0, b, rfl, ho, by omega⟩
        · exact ⟨m + 1, c, by simpa using hc, ho, by omega⟩
    rw [step]
    unfold withoutBuilding
    cases hb : onBuilding b with
    | none => simp [ih]
    | some q => simp [ih]

theorem without_nodup : ∀ (bs : List (Option Int)) (i : Nat), (withoutBuilding i bs).Nodup
  | [], _ => List.nodup_nil
  | b :: rest, i => by
    unfold withoutBuilding
    split
    · exact without_nodup rest (i + 1)
    · rw [List.nodup_cons]
      refine ⟨?_, without_nodup rest (i + 1)⟩
      rw [without_spec]
      rintro ⟨m, _, _, _, e⟩
      omega

theorem firstMax_spec (f : Nat → Nat) : ∀ (i : Nat) (L : List Nat),
    (firstMax f i L = i ∨ firstMax f i L ∈ L) ∧ f i ≤ f (firstMax f i L) ∧ ∀ j ∈ L, f j ≤ f (firstMax f i L)
  | i, [] => by simp [firstMax]
  | i, j :: L => by
    unfold firstMax
    split
    · rename_i h
      obtain ⟨h1, h2, h3⟩ := firstMax_spec f j L
      refine ⟨.inr ?_, by omega, ?_⟩
      · rcases h1 with h1 | h1
        · rw [h1]; exact List.mem_cons_self
        · exact List.mem_cons_of_mem _ h1
      · intro x hx
        rcases List.mem_cons.1 hx with rfl | hx
        · exact h2
        · exact h3 x hx
    · rename_i h
      obtain ⟨h1, h2, h3⟩ := firstMax_spec f i L
      refine ⟨?_, h2, ?_⟩
      · rcases h1 with h1 | h1
        · exact .inl h1
        · exact .inr (List.mem_cons_of_mem _ h1)
      · intro x hx
        rcases List.mem_cons.1 hx with rfl | hx
        · omega
        · exact h3 x hx

theorem linkCn_spec (dn cn : Nat) : ∀ (T : List Nat) (rx : List (List Nat)) (conf : Dict (Nat × Nat) K),
    (∀ t ∈ T, conf.get? (dn, t) ≠ none) → (∀ t ∈ T, t ≠ cn) →
    ∃ rx' conf', linkCn dn cn T (rx, conf) = .ok (rx', conf') ∧ rx'.length = rx.length
      ∧ (∀ i, rx'[i]? = (rx[i]?).map fun l => l ++ List.replicate (T.count i) cn)
      ∧ (∀ i j, j ≠ cn → conf'.get? (i, j) = conf.get? (i, j))
      ∧ (∀ t ∈ T, conf'.get? (t, cn) = conf.get? (dn, t))
      ∧ (∀ t, t ∉ T → conf'.get? (t, cn) = conf.get? (t, cn))
  | [], rx, conf, _, _ => ⟨rx, conf, rfl, rfl, by simp, by simp, by simp, by simp⟩
  | t :: T, rx, conf, h, hn => by
    obtain ⟨c, hc⟩ := Option.ne_none_iff_exists'.1 (h t List.mem_cons_self)
    have keep : ∀ i j, j ≠ cn → (conf.set (t, cn) c).get? (i, j) = conf.get? (i, j) := by
      intro i j hj
      rw [Dict.get?_set, if_neg]
      intro e
      exact hj (Prod.mk.inj e).2.symm
    obtain ⟨rx', conf', e, hl, h1, h2, h3, h4⟩ := linkCn_spec dn cn T (rx.modify t (· ++ [cn])) (conf.set (t, cn) c)
      (by
        intro u hu
        rw [keep dn u (hn u (List.mem_cons_of_mem _ hu))]
        exact h u (List.mem_cons_of_mem _ hu))
      fun u hu => hn u (List.mem_cons_of_mem _ hu)
    refine ⟨rx', conf', ?_, by rw [hl, List.length_modify], ?_, ?_, ?_, ?_⟩
    · simp only [linkCn, hc]
      exact e
    · intro i
      rw [h1, List.getElem?_modify, List.count_cons]
      by_cases e : t = i
      · subst e
        cases rx[t]? with
        | none => simp
        | some l =>
          simp [List.replicate_succ]
      · have : (t == i) = false := by simp [e]
        rw [this]
        cases rx[i]? <;> simp [e]
    · intro i j hj
      rw [h2 i j hj, keep i j hj]
    · intro u hu
      rcases Classical.em (u ∈ T) with m | m
      · rw [h3 u m, keep dn u (hn u (List.mem_cons_of_mem _ m))]
      · rcases List.mem_cons.1 hu with rfl | hu
        · rw [h4 u m, Dict.get?_set_self, hc]
        · exact (m hu).elim
    · intro u hu
      rw [List.mem_cons, not_or] at hu
      rw [h4 u hu.2, Dict.get?_set, if_neg]
      intro e
      exact hu.1 (Prod.mk.inj e).1.symm

/-- What `pickAll` has done for the buildings with the chosen sites `ch`. -/
structure PickInv (dep : Bool) (types : List SiteType) (buildings : List (Option Int)) (rx tx : List (List Nat))
    (conf : Dict (Nat × Nat) K) (ch : List (Int × Nat)) (S : PickState K) : Prop where
  typesEq : S.types = types ++ List.replicate ch.length .cn
  buildingsEq : S.buildings = buildings ++ ch.map fun p => some p.1
  originEq : S.origin = ch.map (·.2)
  txEq : S.tx = tx ++ ch.map fun p => row tx p.2
  rxLen : S.rx.length = types.length + ch.length
  rxOld : ∀ i < types.length, ∃ N, row S.rx i = row rx i ++ N
    ∧ N.length = (ch.map fun p => (row tx p.2).count i).sum
    ∧ ∀ c, c ∈ N ↔ ∃ m p, ch[m]? = some p ∧ c = types.length + m ∧ i ∈ row tx p.2
  rxNew : ∀ i, types.length ≤ i → row S.rx i = []
  confOld : ∀ i j, j < types.length → S.conf.get? (i, j) = conf.get? (i, j)
  confNew : ∀ m p, ch[m]? = some p → ∀ t ∈ row tx p.2, S.conf.get? (t, types.length + m) = conf.get? (p.2, t)
  nodup : S.picked.Nodup
  picked : ∀ i, i ∈ S.picked ↔ i ∈ withoutBuilding 0 buildings ∨ (dep = true ∧ ∃ p ∈ ch, p.2 = i)
    ∨ (types.length ≤ i ∧ i < types.length + ch.length)

/-- The lists are about the same sites, and the LOS between a site on a building and another is known in both
directions. -/
structure PickOk (types : List SiteType) (buildings : List (Option Int)) (rx tx : List (List Nat))
    (conf : Dict (Nat × Nat) K) : Prop where
  bLen : buildings.length = types.length
  rxLen : rx.length = types.length
  txLen : tx.length = types.length
  txLt : ∀ i, ∀ t ∈ row tx i, t < types.length
  both : ∀ i b k, buildings[i]? = some b → onBuilding b = some k → ∀ t ∈ row tx i, conf.get? (i, t) ≠ none

/-- A chosen site is on the building and sees the most, with the CNs of the buildings before. -/
def Chosen (buildings : List (Option Int)) (rx tx : List (List Nat)) (ch : List (Int × Nat)) : Prop :=
  ∀ m p, ch[m]? = some p → (∃ b, buildings[p.2]? = some b ∧ onBuilding b = some p.1)
    ∧ ∀ j b, buildings[j]? = some b → onBuilding b = some p.1 →
      (row rx j).length + ((ch.take m).map fun q => (row tx q.2).count j).sum
        ≤ (row rx p.2).length + ((ch.take m).map fun q => (row tx q.2).count p.2).sum

theorem row_append_left {A B : List (List Nat)} {i : Nat} (h : i < A.length) : row (A ++ B) i = row A i := by
  unfold row
  rw [List.getElem?_append_left h]

theorem pickOne_spec {dep : Bool} {types : List SiteType} {buildings : List (Option Int)} {rx tx : List (List Nat)}
    {conf : Dict (Nat × Nat) K} (ok : PickOk types buildings rx tx conf) {ch : List (Int × Nat)} {S : PickState K}
    (inv : PickInv dep types buildings rx tx conf ch S) (hch : Chosen buildings rx tx ch) {k : Int} {L : List Nat}
    (hk : ∀ p ∈ ch, p.1 ≠ k) (ne : L ≠ [])
    (hL : ∀ j, j ∈ L ↔ ∃ b, buildings[j]? = some b ∧ onBuilding b = some k) :
    ∃ d S', pickOne dep S k L = .ok S' ∧ PickInv dep types buildings rx tx conf (ch ++ [(k, d)]) S'
      ∧ Chosen buildings rx tx (ch ++ [(k, d)]) := by
  obtain ⟨i, rest, rfl⟩ : ∃ i rest, L = i :: rest := by
    cases L with
    | nil => exact (ne rfl).elim
    | cons i rest => exact ⟨i, rest, rfl⟩
  have lt : ∀ j, j ∈ i :: rest → j < types.length := by
    intro j hj
    obtain ⟨b, hb, _⟩ := (hL j).1 hj
    rw [← ok.bLen]
    exact (List.getElem?_eq_some_iff.1 hb).1
  set f : Nat → Nat := fun j => ((S.rx[j]?).getD []).length with hf
  set d := firstMax f i rest with hd
  obtain ⟨g1, g2, g3⟩ := firstMax_spec f i rest
  rw [← hd] at g1 g2 g3
  have dm : d ∈ i :: rest := by
    rcases g1 with h | h
    · rw [h]; exact List.mem_cons_self
    · exact List.mem_cons_of_mem _ h
  have best : ∀ j ∈ i :: rest, f j ≤ f d := by
    intro j hj
    rcases List.mem_cons.1 hj with rfl | hj
    · exact g2
    · exact g3 j hj
  obtain ⟨b, hb, hbk⟩ := (hL d).1 dm
  have cn : S.types.length = types.length + ch.length := by
    rw [inv.typesEq, List.length_append, List.length_replicate]
  have tl : S.tx.length = types.length + ch.length := by
    rw [inv.txEq, List.length_append, List.length_map, ok.txLen]
  have txd : (S.tx[d]?).getD [] = row tx d := by
    rw [inv.txEq]
    exact row_append_left (by rw [ok.txLen]; exact lt d dm)
  have Tlt := ok.txLt d
  have cdn : ∀ t ∈ row tx d, S.conf.get? (d, t) = conf.get? (d, t) := fun t ht => inv.confOld d t (Tlt t ht)
  obtain ⟨rx', conf', e, hl, h1, h2, h3, h4⟩ := linkCn_spec d (types.length + ch.length) (row tx d) (S.rx ++ [[]])
    S.conf (by intro t ht; rw [cdn t ht]; exact ok.both d b k hb hbk t ht)
    (by intro t ht e; have := Tlt t ht; omega)
  have len : ∀ j < types.length, f j = (row rx j).length + (ch.map fun q => (row tx q.2).count j).sum := by
    intro j hj
    obtain ⟨N, e1, e2, _⟩ := inv.rxOld j hj
    show (row S.rx j).length = _
    rw [e1, List.length_append, e2]
  refine ⟨d,
      { types := S.types ++ [.cn]
        buildings := S.buildings ++ [some k]
        rx := rx'
        tx := S.tx ++ [row tx d]
        conf := conf'
        picked := S.picked ++ (if dep then [d] else []) ++ [types.length + ch.length]
        origin := S.origin ++ [d] }, ?_, ?_, ?_⟩
  · unfold pickOne
    dsimp only
    rw [← hf, ← hd, txd, cn, e]
  · constructor
    · dsimp only
      rw [inv.typesEq, List.append_assoc, List.length_append, List.length_singleton, List.replicate_succ']
    · dsimp only
      rw [inv.buildingsEq, List.append_assoc, List.map_append]
      rfl
    · dsimp only
      rw [inv.originEq, List.map_append]
      rfl
    · dsimp only
      rw [inv.txEq, List.append_assoc, List.map_append]
      rfl
    · dsimp only
      rw [hl, List.length_append, inv.rxLen, List.length_append]
      simp [Nat.add_assoc]
    · intro j hj
      obtain ⟨N, e1, e2, e3⟩ := inv.rxOld j hj
      refine ⟨N ++ List.replicate ((row tx d).count j) (types.length + ch.length), ?_, ?_, ?_⟩
      · dsimp only
        have : row rx' j = row S.rx j ++ List.replicate ((row tx d).count j) (types.length + ch.length) := by
          have hj' : j < S.rx.length := by rw [inv.rxLen]; omega
          unfold row
          rw [h1, List.getElem?_append_left hj', List.getElem?_eq_getElem hj']
          rfl
        rw [this, e1, List.append_assoc]
      · rw [List.length_append, e2, List.length_replicate, List.map_append, List.sum_append]
        simp
      · intro c
        rw [List.mem_append, e3, List.mem_replicate]
        constructor
        · rintro (⟨m, p, hp, ec, hi⟩ | ⟨h0, ec⟩)
          · exact ⟨m, p, by rw [List.getElem?_append_left (List.getElem?_eq_some_iff.1 hp).1]; exact hp, ec, hi⟩
          · refine ⟨ch.length, (k, d), by simp, ec, ?_⟩
            exact List.count_pos_iff.1 (Nat.pos_of_ne_zero h0)
        · rintro ⟨m, p, hp, ec, hi⟩
          rcases Nat.lt_or_ge m ch.length with hm | hm
          · rw [List.getElem?_append_left hm] at hp
            exact .inl ⟨m, p, hp, ec, hi⟩
          · rw [List.getElem?_append_right hm, List.getElem?_singleton] at hp
            split at hp
            · simp only [Option.some.injEq] at hp
              subst hp
              right
              exact ⟨Nat.pos_iff_ne_zero.1 (List.count_pos_iff.2 hi), by omega⟩
            · cases hp
    · intro j hj
      dsimp only
      unfold row
      rw [h1]
      have z : (row tx d).count j = 0 := by
        rw [List.count_eq_zero]
        intro c
        have := Tlt j c
        omega
      rw [z]
      rcases Nat.lt_or_ge j S.rx.length with c | c
      · rw [List.getElem?_append_left c]
        have := inv.rxNew j hj
        unfold row at this
        rw [List.getElem?_eq_getElem c] at this ⊢
        simpa using this
      · rw [List.getElem?_append_right c, List.getElem?_singleton]
        split <;> rfl
    · intro x y hy
      dsimp only
      rw [h2 x y (by omega), inv.confOld x y hy]
    · intro m p hp t ht
      dsimp only
      rcases Nat.lt_or_ge m ch.length with hm | hm
      · rw [List.getElem?_append_left hm] at hp
        rw [h2 _ _ (by omega)]
        exact inv.confNew m p hp t ht
      · rw [List.getElem?_append_right hm, List.getElem?_singleton] at hp
        split at hp
        · simp only [Option.some.injEq] at hp
          subst hp
          have : m = ch.length := by omega
          subst this
          rw [h3 t ht, cdn t ht]
        · cases hp
    · dsimp only
      have dlt := lt d dm
      have nd1 : d ∉ S.picked := by
        rw [inv.picked, without_spec]
        rintro (⟨m, c, hc, hn, e⟩ | ⟨_, p, hp, e⟩ | h)
        · rw [Nat.zero_add] at e
          rw [← e, hb, Option.some.injEq] at hc
          rw [← hc, hbk] at hn
          cases hn
        · obtain ⟨m, hm⟩ := List.mem_iff_getElem?.1 hp
          obtain ⟨c, hc, hck⟩ := (hch m p hm).1
          rw [e, hb, Option.some.injEq] at hc
          rw [← hc, hbk, Option.some.injEq] at hck
          exact hk p hp hck.symm
        · omega
      have nd2 : types.length + ch.length ∉ S.picked := by
        rw [inv.picked, without_spec]
        rintro (⟨m, c, hc, hn, e⟩ | ⟨_, p, hp, e⟩ | h)
        · have := (List.getElem?_eq_some_iff.1 hc).1
          rw [ok.bLen] at this
          omega
        · obtain ⟨m, hm⟩ := List.mem_iff_getElem?.1 hp
          obtain ⟨c, hc, _⟩ := (hch m p hm).1
          have := (List.getElem?_eq_some_iff.1 hc).1
          rw [ok.bLen] at this
          omega
        · omega
      cases dep with
      | true =>
        simp only [if_true]
        rw [List.append_assoc, List.nodup_append]
        refine ⟨inv.nodup, ?_, ?_⟩
        · simp only [List.singleton_append, List.nodup_cons, List.mem_singleton, List.not_mem_nil, not_false_iff,
            List.nodup_nil, and_true]
          omega
        · intro x hx y hy e
          subst e
          simp only [List.singleton_append, List.mem_cons, List.not_mem_nil, or_false] at hy
          rcases hy with rfl | rfl
          · exact nd1 hx
          · exact nd2 hx
      | false =>
        rw [if_neg (by simp), List.append_nil, List.nodup_append]
        refine ⟨inv.nodup, by simp, ?_⟩
        intro x hx y hy e
        subst e
        rw [List.mem_singleton] at hy
        subst hy
        exact nd2 hx
    · intro x
      dsimp only
      rw [List.mem_append, List.mem_append, inv.picked, List.mem_singleton, List.length_append, List.length_singleton]
      constructor
      · rintro ((h | h) | h)
        · rcases h with h | ⟨h, p, hp, e⟩ | h
          · exact .inl h
          · exact .inr (.inl ⟨h, p, List.mem_append_left _ hp, e⟩)
          · exact .inr (.inr ⟨h.1, by omega⟩)
        · split at h
          · rename_i hdep
            rw [List.mem_singleton] at h
            exact .inr (.inl ⟨hdep, (k, d), by simp, h.symm⟩)
          · cases h
        · exact .inr (.inr ⟨by omega, by omega⟩)
      · rintro (h | ⟨h, p, hp, e⟩ | h)
        · exact .inl (.inl (.inl h))
        · rw [List.mem_append, List.mem_singleton] at hp
          rcases hp with hp | hp
          · exact .inl (.inl (.inr (.inl ⟨h, p, hp, e⟩)))
          · subst hp
            left; right
            rw [if_pos h, List.mem_singleton]
            exact e.symm
        · rcases Nat.lt_or_ge x (types.length + ch.length) with c | c
          · exact .inl (.inl (.inr (.inr ⟨h.1, c⟩)))
          · exact .inr (by omega)
  · intro m p hp
    rcases Nat.lt_or_ge m ch.length with hm | hm
    · rw [List.getElem?_append_left hm] at hp
      obtain ⟨c1, c2⟩ := hch m p hp
      refine ⟨c1, ?_⟩
      rw [List.take_append_of_le_length hm.le]
      exact c2
    · rw [List.getElem?_append_right hm, List.getElem?_singleton] at hp
      split at hp
      · simp only [Option.some.injEq] at hp
        subst hp
        have : m = ch.length := by omega
        subst this
        refine ⟨⟨b, hb, hbk⟩, ?_⟩
        intro j c hc hck
        rw [List.take_left]
        have hj := (hL j).2 ⟨c, hc, hck⟩
        rw [← len j (lt j hj), ← len d (lt d dm)]
        exact best j hj
      · cases hp

theorem pickAll_spec {dep : Bool} {types : List SiteType} {buildings : List (Option Int)} {rx tx : List (List Nat)}
    {conf : Dict (Nat × Nat) K} (ok : PickOk types buildings rx tx conf) :
    ∀ (D : Dict Int (List Nat)) (ch : List (Int × Nat)) (S : PickState K),
      PickInv dep types buildings rx tx conf ch S → Chosen buildings rx tx ch → (ch.map (·.1) ++ D.keys).Nodup →
      (∀ k L, (k, L) ∈ D → L ≠ [] ∧ ∀ j, j ∈ L ↔ ∃ b, buildings[j]? = some b ∧ onBuilding b = some k) →
      ∃ ch' S', pickAll dep S D = .ok S' ∧ PickInv dep types buildings rx tx conf ch' S'
        ∧ Chosen buildings rx tx ch' ∧ ch'.map (·.1) = ch.map (·.1) ++ D.keys
  | [], ch, S, inv, hch, nd, _ => ⟨ch, S, rfl, inv, hch, by simp [Dict.keys]⟩
  | (k, L) :: D, ch, S, inv, hch, nd, hD => by
    obtain ⟨ne, hL⟩ := hD k L List.mem_cons_self
    have hk : ∀ p ∈ ch, p.1 ≠ k := by
      intro p hp e
      have := (List.nodup_append.1 nd).2.2 p.1 (List.mem_map.2 ⟨p, hp, rfl⟩) k (by simp [Dict.keys])
      exact this e
    obtain ⟨d, S1, e, inv1, hch1⟩ := pickOne_spec ok inv hch hk ne hL
    obtain ⟨ch', S', e', inv', hch', hk'⟩ := pickAll_spec ok D (ch ++ [(k, d)]) S1 inv1 hch1
      (by simpa [Dict.keys] using nd) fun k' L' h => hD k' L' (List.mem_cons_of_mem _ h)
    refine ⟨ch', S', ?_, inv', hch', ?_⟩
    · unfold pickAll
      rw [e]
      exact e'
    · rw [hk']
      simp [Dict.keys]

theorem pickBest_spec (dep : Bool) {types : List SiteType} {buildings : List (Option Int)} {rx tx : List (List Nat)}
    {conf : Dict (Nat × Nat) K} (ok : PickOk types buildings rx tx conf) :
    ∃ ch S, pickBest dep types buildings rx tx conf = .ok S ∧ PickInv dep types buildings rx tx conf ch S
      ∧ Chosen buildings rx tx ch ∧ (ch.map (·.1)).Nodup
      ∧ ∀ k, k ∈ ch.map (·.1) ↔ ∃ (j : Nat) (b : Option Int), buildings[j]? = some b ∧ onBuilding b = some k := by
  obtain ⟨g1, g2, g3⟩ := group_spec buildings 0 [] (by simp [Dict.NodupKeys, Dict.keys]) (by simp [Dict.get?])
  set D := groupByBuilding 0 buildings [] with hD
  have g3' : ∀ k j, j ∈ (D.get? k).getD [] ↔ ∃ b, buildings[j]? = some b ∧ onBuilding b = some k := by
    intro k j
    rw [g3]
    constructor
    · rintro (h | ⟨m, b, hb, ho, e⟩)
      · simp [Dict.get?] at h
      · rw [Nat.zero_add] at e
        subst e
        exact ⟨b, hb, ho⟩
    · rintro ⟨b, hb, ho⟩
      exact .inr ⟨j, b, hb, ho, by omega⟩
  have inv0 : PickInv dep types buildings rx tx conf [] ⟨types, buildings, rx, tx, conf, withoutBuilding 0 buildings, []⟩ := by
    constructor
    · simp
    · simp
    · rfl
    · simp
    · simp [ok.rxLen]
    · intro i _
      exact ⟨[], by simp, by simp, by simp⟩
    · intro i hi
      unfold row
      rw [List.getElem?_eq_none (by dsimp only; rw [ok.rxLen]; exact hi)]
      rfl
    · intro _ _ _; rfl
    · intro m p hp; simp at hp
    · exact without_nodup _ _
    · intro i
      simp
  obtain ⟨ch, S, e, inv, hch, hk⟩ := pickAll_spec ok D [] _ inv0 (by intro m p hp; simp at hp)
    (by simpa [Dict.NodupKeys] using g1) (by
      intro k L h
      have hg := (Dict.mem_iff_get? g1 k L).1 h
      refine ⟨g2 k L hg, ?_⟩
      intro j
      rw [← g3' k j, hg]
      rfl)
  simp only [List.map_nil, List.nil_append] at hk
  refine ⟨ch, S, e, inv, hch, ?_, ?_⟩
  · rw [hk]; exact g1
  · intro k
    rw [hk, Dict.mem_keys_iff]
    constructor
    · rintro ⟨L, hL⟩
      obtain ⟨j, hj⟩ := List.exists_mem_of_ne_nil L (g2 k L hL)
      obtain ⟨b, hb⟩ := (g3' k j).1 (by rw [hL]; exact hj)
      exact ⟨j, b, hb⟩
    · rintro ⟨j, b, hb⟩
      have := (g3' k j).2 ⟨b, hb⟩
      cases h : D.get? k with
      | none => rw [h] at this; cases this
      | some L => exact ⟨L, rfl⟩

theorem row_modify (L : List (List Nat)) (i v j : Nat) (h : i < L.length) :
    row (L.modify i (· ++ [v])) j = row L j ++ if i = j then [v] else [] := by
  unfold row
  rw [List.getElem?_modify]
  split_ifs with e
  · subst e
    rw [List.getElem?_eq_getElem h]
    rfl
  · cases L[j]? <;> simp

/-- The neighbours and confidences of a list of links. -/
theorem neighbors_spec : ∀ (links : List (ValidLos K)) (rx tx : List (List Nat)) (conf : Dict (Nat × Nat) K),
    (∀ l ∈ links, l.tx < rx.length ∧ l.rx < tx.length) →
    (losNeighbors links (rx, tx, conf)).1.length = rx.length
    ∧ (losNeighbors links (rx, tx, conf)).2.1.length = tx.length
    ∧ (∀ i, row (losNeighbors links (rx, tx, conf)).1 i = row rx i ++ (links.filter fun l => l.tx = i).map (·.rx))
    ∧ (∀ i, row (losNeighbors links (rx, tx, conf)).2.1 i = row tx i ++ (links.filter fun l => l.rx = i).map (·.tx))
    ∧ (∀ i j c, (losNeighbors links (rx, tx, conf)).2.2.get? (i, j) = some c →
        conf.get? (i, j) = some c ∨ ∃ l ∈ links, l.tx = i ∧ l.rx = j ∧ l.confidence = c)
    ∧ (∀ i j, (conf.get? (i, j) ≠ none ∨ ∃ l ∈ links, l.tx = i ∧ l.rx = j) →
        (losNeighbors links (rx, tx, conf)).2.2.get? (i, j) ≠ none)
  | [], rx, tx, conf, _ => by simp [losNeighbors]
  | l :: rest, rx, tx, conf, h => by
    obtain ⟨h1, h2⟩ := h l List.mem_cons_self
    obtain ⟨a, b, c, d, e, f⟩ := neighbors_spec rest (rx.modify l.tx (· ++ [l.rx])) (tx.modify l.rx (· ++ [l.tx]))
      (conf.set (l.tx, l.rx) l.confidence) (by
        intro x hx
        rw [List.length_modify, List.length_modify]
        exact h x (List.mem_cons_of_mem _ hx))
    unfold losNeighbors
    refine ⟨by rw [a, List.length_modify], by rw [b, List.length_modify], ?_, ?_, ?_, ?_⟩
    · intro i
      rw [c, row_modify _ _ _ _ h1, List.filter_cons]
      split_ifs <;> simp_all
    · intro i
      rw [d, row_modify _ _ _ _ h2, List.filter_cons]
      split_ifs <;> simp_all
    · intro i j x hx
      rcases e i j x hx with hx | ⟨l', hl, q⟩
      · rw [Dict.get?_set] at hx
        split at hx
        · rename_i he
          obtain ⟨e1, e2⟩ := Prod.mk.inj he
          exact .inr ⟨l, List.mem_cons_self, e1, e2, by simpa using hx⟩
        · exact .inl hx
      · exact .inr ⟨l', List.mem_cons_of_mem _ hl, q⟩
    · intro i j hx
      apply f
      rw [Dict.get?_set]
      by_cases he : (l.tx, l.rx) = (i, j)
      · left
        rw [if_pos he]
        exact Option.some_ne_none _
      · rw [if_neg he]
        rcases hx with hx | ⟨l', hl, q1, q2⟩
        · exact .inl hx
        · rcases List.mem_cons.1 hl with rfl | hl
          · exact (he (by rw [q1, q2])).elim
          · exact .inr ⟨l', hl, q1, q2⟩

theorem row_empty (types : List SiteType) (i : Nat) : row (types.map fun _ => ([] : List Nat)) i = [] := by
  unfold row
  rw [List.getElem?_map]
  cases types[i]? <;> rfl

end LosPick

open LosPick

/-- The number of lines of sight from a site. -/
def losFrom (links : List (ValidLos K)) (i : Nat) : Nat := (links.filter fun l => l.tx = i).length

/-- The number of lines of sight from one site to another. -/
def losTo (links : List (ValidLos K)) (i j : Nat) : Nat := (links.filter fun l => l.tx = i ∧ l.rx = j).length

/-- The site is a detected one, on building `k`. -/
def OnBuilding (buildings : List (Option Int)) (i : Nat) (k : Int) : Prop := -1 < k ∧ buildings[i]? = some (some k)

theorem onBuilding_some {b : Option Int} {k : Int} : onBuilding b = some k ↔ -1 < k ∧ b = some k := by
  unfold onBuilding
  cases b with
  | none => simp
  | some q =>
    dsimp only
    split
    · rename_i h
      simp only [Option.some.injEq]
      constructor
      · rintro rfl; exact ⟨h, rfl⟩
      · exact fun h => h.2
    · rename_i h
      simp only [Option.some.injEq, reduceCtorEq, false_iff]
      rintro ⟨h1, rfl⟩
      exact h h1

theorem onBuilding_iff {buildings : List (Option Int)} {i : Nat} {k : Int} :
    (∃ b, buildings[i]? = some b ∧ onBuilding b = some k) ↔ OnBuilding buildings i k := by
  unfold OnBuilding
  constructor
  · rintro ⟨b, hb, h⟩
    rw [onBuilding_some] at h
    rw [hb, h.2]
    exact ⟨h.1, rfl⟩
  · rintro ⟨h, hb⟩
    exact ⟨some k, hb, onBuilding_some.2 ⟨h, rfl⟩⟩

/-- **C106 (partial).** Suppose that the LOS result is about the given sites and contains, for each line of sight to a
site on a building, the reverse one (`C106_reverse` shows that it does). Then the selection of sites succeeds. With
`ch` the list of buildings with their chosen sites:
* each building occurs once, with a site on it;
* a copy of the chosen site as a client site is appended for each building, which each site sees that the chosen site
  sees it with the confidence found for the pair, and which sees nothing; all else is as the LOS result says;
* all sites without building are picked, all appended client sites, and the chosen sites if `dnDeployment` is set;
* the additional sites are other sites on buildings; no site is picked twice;
* the chosen site is one of the best on its building, where a line of sight to the chosen site of a building treated
  before counts twice.
Missing: that it has the most lines of sight on its building (`C106_most_los_violation`). -/
theorem C106_site_per_building_partial (order : List Nat → List Nat) (ho : ∀ L, (order L).Perm L) (dep : Bool)
    (types : List SiteType) (buildings : List (Option Int)) (links : List (ValidLos K))
    (hb : buildings.length = types.length) (hlt : ∀ l ∈ links, l.tx < types.length ∧ l.rx < types.length)
    (hrev : ∀ l ∈ links, ∀ k, OnBuilding buildings l.rx k → ∃ l' ∈ links, l'.tx = l.rx ∧ l'.rx = l.tx) :
    ∃ (S : PickState K) (ch : List (Int × Nat)) (P A : List Nat),
      selectSites order true dep types buildings links = .ok S ∧ S.picked = P ++ A
      ∧ ((ch.map (·.1)).Nodup ∧ ∀ k, k ∈ ch.map (·.1) ↔ ∃ j, OnBuilding buildings j k)
      ∧ (∀ p ∈ ch, OnBuilding buildings p.2 p.1)
      ∧ S.types = types ++ List.replicate ch.length .cn
      ∧ S.buildings = buildings ++ ch.map (fun p => some p.1) ∧ S.origin = ch.map (·.2)
      ∧ (∀ i j : Nat, j ∈ (S.rx[i]?).getD [] ↔
          (∃ l ∈ links, l.tx = i ∧ l.rx = j)
          ∨ ∃ m p, ch[m]? = some p ∧ j = types.length + m ∧ ∃ l ∈ links, l.tx = i ∧ l.rx = p.2)
      ∧ (∀ i j : Nat, j ∈ (S.rx[i]?).getD [] → ∃ c, S.conf.get? (i, j) = some c ∧
          ((∃ l ∈ links, l.tx = i ∧ l.rx = j ∧ l.confidence = c)
          ∨ ∃ m p, ch[m]? = some p ∧ j = types.length + m ∧ ∃ l ∈ links, l.tx = p.2 ∧ l.rx = i ∧ l.confidence = c))
      ∧ (P ++ A).Nodup
      ∧ (∀ i, i ∈ P ↔ (i < types.length ∧ ¬ ∃ k, OnBuilding buildings i k) ∨ (dep = true ∧ ∃ p ∈ ch, p.2 = i)
          ∨ (types.length ≤ i ∧ i < types.length + ch.length))
      ∧ (∀ i ∈ A, ∃ k, OnBuilding buildings i k)
      ∧ (A = additionalDns order S.types S.rx S.tx P
          ∧ ∀ i j : Nat, i ∈ (S.tx[j]?).getD [] ↔ j ∈ (S.rx[i]?).getD [])
      ∧ ∀ m p, ch[m]? = some p → ∀ j, OnBuilding buildings j p.1 →
          losFrom links j + ((ch.take m).map fun q => losTo links j q.2).sum
            ≤ losFrom links p.2 + ((ch.take m).map fun q => losTo links p.2 q.2).sum := by
  obtain ⟨n1, n2, n3, n4, n5, n6⟩ := neighbors_spec links (types.map fun _ => []) (types.map fun _ => [])
    ([] : Dict (Nat × Nat) K) (by simpa using hlt)
  unfold selectSites
  generalize losNeighbors links (types.map fun _ => [], types.map fun _ => [], []) = N at *
  rw [List.length_map] at n1 n2
  simp only [row_empty, List.nil_append] at n3 n4
  have m3 : ∀ i j, j ∈ row N.1 i ↔ ∃ l ∈ links, l.tx = i ∧ l.rx = j := by
    intro i j
    rw [n3]
    simp [and_assoc]
  have m4 : ∀ i j, j ∈ row N.2.1 i ↔ ∃ l ∈ links, l.tx = j ∧ l.rx = i := by
    intro i j
    rw [n4]
    simp only [List.mem_map, List.mem_filter, decide_eq_true_eq]
    constructor
    · rintro ⟨l, ⟨h1, h2⟩, h3⟩; exact ⟨l, h1, h3, h2⟩
    · rintro ⟨l, h1, h3, h2⟩; exact ⟨l, ⟨h1, h2⟩, h3⟩
  have ok : PickOk types buildings N.1 N.2.1 N.2.2 := by
    refine ⟨hb, n1, n2, ?_, ?_⟩
    · intro i t ht
      obtain ⟨l, hl, rfl, _⟩ := (m4 i t).1 ht
      exact (hlt l hl).1
    · intro i b k hi hk t ht
      obtain ⟨l, hl, rfl, rfl⟩ := (m4 i t).1 ht
      obtain ⟨l', hl', e1, e2⟩ := hrev l hl k (onBuilding_iff.1 ⟨b, hi, hk⟩)
      exact n6 _ _ (.inr ⟨l', hl', e1, e2⟩)
  obtain ⟨ch, S, e, inv, hch, nd, hk⟩ := pickBest_spec dep ok
  have chon : ∀ p ∈ ch, OnBuilding buildings p.2 p.1 := by
    intro p hp
    obtain ⟨m, hm⟩ := List.mem_iff_getElem?.1 hp
    exact onBuilding_iff.1 (hch m p hm).1
  have chlt : ∀ p ∈ ch, p.2 < types.length := by
    intro p hp
    rw [← hb]
    exact (List.getElem?_eq_some_iff.1 (chon p hp).2).1
  have rxS : ∀ i j : Nat, j ∈ (S.rx[i]?).getD [] ↔
      (∃ l ∈ links, l.tx = i ∧ l.rx = j)
      ∨ ∃ m p, ch[m]? = some p ∧ j = types.length + m ∧ ∃ l ∈ links, l.tx = i ∧ l.rx = p.2 := by
    intro i j
    rcases Nat.lt_or_ge i types.length with hi | hi
    · obtain ⟨N', e1, _, e3⟩ := inv.rxOld i hi
      show j ∈ row S.rx i ↔ _
      rw [e1, List.mem_append, m3, e3]
      simp only [m4]
    · show j ∈ row S.rx i ↔ _
      rw [inv.rxNew i hi]
      constructor
      · intro h; cases h
      · rintro (⟨l, hl, rfl, _⟩ | ⟨_, _, _, _, l, hl, rfl, _⟩)
        · have := (hlt l hl).1; omega
        · have := (hlt l hl).1; omega
  have txS : ∀ i j : Nat, i ∈ (S.tx[j]?).getD [] ↔ j ∈ (S.rx[i]?).getD [] := by
    intro i j
    rw [rxS, inv.txEq]
    rcases Nat.lt_or_ge j N.2.1.length with hj | hj
    · show i ∈ row _ j ↔ _
      rw [row_append_left hj, m4]
      constructor
      · exact .inl
      · rintro (h | ⟨m, p, hp, ej, _⟩)
        · exact h
        · omega
    · rw [List.getElem?_append_right hj, List.getElem?_map, n2]
      rw [n2] at hj
      cases hp : ch[j - types.length]? with
      | none =>
        constructor
        · intro h; cases h
        · rintro (⟨l, hl, _, rfl⟩ | ⟨m, p, hp', ej, _⟩)
          · have := (hlt l hl).2; omega
          · have : j - types.length = m := by omega
            rw [this, hp'] at hp
            cases hp
      | some p =>
        simp only [Option.map_some, Option.getD_some]
        rw [m4]
        constructor
        · intro h
          exact .inr ⟨_, p, hp, by omega, h⟩
        · rintro (⟨l, hl, _, rfl⟩ | ⟨m, p', hp', ej, h⟩)
          · have := (hlt l hl).2; omega
          · have : j - types.length = m := by omega
            rw [this, hp', Option.some.injEq] at hp
            subst hp
            exact h
  have plt : ∀ i ∈ S.picked, i < S.types.length := by
    intro i hi
    rw [inv.typesEq, List.length_append, List.length_replicate]
    rcases (inv.picked i).1 hi with h | ⟨_, p, hp, rfl⟩ | h
    · obtain ⟨m, b, hm, _, rfl⟩ := (without_spec _ _ _).1 h
      have := (List.getElem?_eq_some_iff.1 hm).1
      omega
    · have := chlt p hp; omega
    · exact h.2
  have wi : ∀ i, i ∈ withoutBuilding 0 buildings ↔ i < types.length ∧ ¬ ∃ k, OnBuilding buildings i k := by
    intro i
    rw [without_spec]
    constructor
    · rintro ⟨m, b, hm, hn, rfl⟩
      rw [Nat.zero_add]
      refine ⟨by rw [← hb]; exact (List.getElem?_eq_some_iff.1 hm).1, ?_⟩
      rintro ⟨k, hk⟩
      obtain ⟨b', hb', h⟩ := onBuilding_iff.2 hk
      rw [hm, Option.some.injEq] at hb'
      rw [← hb', hn] at h
      cases h
    · rintro ⟨h, hn⟩
      have hi : i < buildings.length := by omega
      refine ⟨i, buildings[i], List.getElem?_eq_getElem hi, ?_, by omega⟩
      cases h : onBuilding buildings[i] with
      | none => rfl
      | some k => exact (hn ⟨k, onBuilding_iff.1 ⟨_, List.getElem?_eq_getElem hi, h⟩⟩).elim
  obtain ⟨a1, a2, _⟩ := C25_additional_dns order ho S.types S.rx S.tx (fun c d => (txS d c).1) S.picked plt
  refine ⟨{ S with picked := S.picked ++ additionalDns order S.types S.rx S.tx S.picked }, ch, S.picked,
    additionalDns order S.types S.rx S.tx S.picked, ?_, rfl, ⟨nd, ?_⟩, chon, inv.typesEq, inv.buildingsEq, inv.originEq, rxS, ?_, ?_,
    ?_, ?_, ⟨rfl, txS⟩, ?_⟩
  · rw [if_pos rfl, e]
  · intro k
    rw [hk]
    exact exists_congr fun j => onBuilding_iff
  · intro i j hij
    dsimp only at hij ⊢
    rcases (rxS i j).1 hij with ⟨l, hl, e1, e2⟩ | ⟨m, p, hp, ej, l, hl, e1, e2⟩
    · have hj : j < types.length := by have := (hlt l hl).2; omega
      rw [inv.confOld i j hj]
      obtain ⟨c, hc⟩ := Option.ne_none_iff_exists'.1 (n6 i j (.inr ⟨l, hl, e1, e2⟩))
      refine ⟨c, hc, .inl ?_⟩
      rcases n5 i j c hc with h | h
      · simp [Dict.get?] at h
      · exact h
    · have ht : i ∈ row N.2.1 p.2 := (m4 _ _).2 ⟨l, hl, e1, e2⟩
      rw [ej, inv.confNew m p hp i ht]
      obtain ⟨b, q1, q2⟩ := (hch m p hp).1
      obtain ⟨c, hc⟩ := Option.ne_none_iff_exists'.1 (ok.both p.2 b p.1 q1 q2 i ht)
      refine ⟨c, hc, .inr ⟨m, p, hp, rfl, ?_⟩⟩
      rcases n5 _ _ c hc with h | h
      · simp [Dict.get?] at h
      · exact h
  · rw [List.nodup_append]
    refine ⟨inv.nodup, a1, ?_⟩
    intro x hx y hy exy
    subst exy
    obtain ⟨pre, post, h⟩ := List.append_of_mem hy
    exact (a2 pre x post h).2.1 hx
  · intro i
    rw [inv.picked, wi]
  · intro i hi
    obtain ⟨pre, post, h⟩ := List.append_of_mem hi
    obtain ⟨_, b2, _, _, ⟨c, _, hc⟩, _⟩ := a2 pre i post h
    have il : i < types.length := by
      rcases (rxS i c).1 hc with ⟨l, hl, rfl, _⟩ | ⟨_, _, _, _, l, hl, rfl, _⟩
      · exact (hlt l hl).1
      · exact (hlt l hl).1
    by_contra hn
    exact b2 ((inv.picked i).2 (.inl ((wi i).2 ⟨il, hn⟩)))
  · intro m p hp j hj
    have := (hch m p hp).2 j (some p.1) hj.2 (onBuilding_some.2 ⟨hj.1, rfl⟩)
    have f1 : ∀ i, (row N.1 i).length = losFrom links i := by
      intro i
      rw [n3, List.length_map]
      rfl
    have f2 : ∀ i q, (row N.2.1 q).count i = losTo links i q := by
      intro i q
      rw [n4]
      unfold losTo
      rw [← List.countP_eq_length_filter, List.count, List.countP_map, List.countP_filter]
      apply List.countP_congr
      intro l _
      simp
    simp only [f1, f2] at this
    exact this

namespace LosPick

theorem mem_losBatch {conf : LosSite → LosSite → K} {pos : K → Bool} {sites : List LosSite} {l : ValidLos K} :
    ∀ {ls : List CandidateLos} {memo : Dict MemoKey K}, l ∈ losBatch conf pos sites memo ls →
      ∃ q ∈ ls, ∃ c, l ∈ validLinks pos q c ∧ ∀ l' ∈ validLinks pos q c, l' ∈ losBatch conf pos sites memo ls
  | [], _, h => by cases h
  | q :: rest, memo, h => by
    unfold losBatch at h
    cases h1 : sites[q.site1]? with
    | none =>
      simp only [h1] at h
      obtain ⟨q', hq, c, h2, h3⟩ := mem_losBatch h
      refine ⟨q', List.mem_cons_of_mem _ hq, c, h2, ?_⟩
      simpa only [losBatch, h1] using h3
    | some a =>
      cases h2 : sites[q.site2]? with
      | none =>
        simp only [h1, h2] at h
        obtain ⟨q', hq, c, h3, h4⟩ := mem_losBatch h
        refine ⟨q', List.mem_cons_of_mem _ hq, c, h3, ?_⟩
        simpa only [losBatch, h1, h2] using h4
      | some b =>
        simp only [h1, h2, List.mem_append] at h
        simp only [losBatch, h1, h2, List.mem_append]
        rcases h with h | h
        · exact ⟨q, List.mem_cons_self, _, h, fun _ h => .inl h⟩
        · obtain ⟨q', hq, c, h3, h4⟩ := mem_losBatch h
          exact ⟨q', List.mem_cons_of_mem _ hq, c, h3, fun l' hl => .inr (h4 l' hl)⟩

end LosPick

/-- **C106, without detection of the best site.** All sites are picked, each once; no site is added, and which sites see
which, and with which confidence, is as the LOS result says. -/
theorem C106_no_detection (order : List Nat → List Nat) (dep : Bool) (types : List SiteType)
    (buildings : List (Option Int)) (links : List (ValidLos K))
    (hlt : ∀ l ∈ links, l.tx < types.length ∧ l.rx < types.length) :
    ∃ S, selectSites order false dep types buildings links = .ok S
      ∧ S.types = types ∧ S.buildings = buildings ∧ S.origin = []
      ∧ S.picked.Nodup ∧ (∀ i, i ∈ S.picked ↔ i < types.length)
      ∧ (∀ i j : Nat, j ∈ (S.rx[i]?).getD [] ↔ ∃ l ∈ links, l.tx = i ∧ l.rx = j)
      ∧ (∀ i j : Nat, i ∈ (S.tx[j]?).getD [] ↔ ∃ l ∈ links, l.tx = i ∧ l.rx = j)
      ∧ ∀ i j : Nat, (∃ l ∈ links, l.tx = i ∧ l.rx = j) →
          ∃ c, S.conf.get? (i, j) = some c ∧ ∃ l ∈ links, l.tx = i ∧ l.rx = j ∧ l.confidence = c := by
  obtain ⟨n1, n2, n3, n4, n5, n6⟩ := neighbors_spec links (types.map fun _ => []) (types.map fun _ => [])
    ([] : Dict (Nat × Nat) K) (by simpa using hlt)
  unfold selectSites
  generalize losNeighbors links (types.map fun _ => [], types.map fun _ => [], []) = N at *
  simp only [row_empty, List.nil_append] at n3 n4
  refine ⟨_, rfl, rfl, rfl, rfl, List.nodup_range, fun i => List.mem_range, ?_, ?_, ?_⟩
  · intro i j
    show j ∈ row N.1 i ↔ _
    rw [n3]
    simp [and_assoc]
  · intro i j
    show i ∈ row N.2.1 j ↔ _
    rw [n4]
    simp only [List.mem_map, List.mem_filter, decide_eq_true_eq]
    constructor
    · rintro ⟨l, ⟨h1, h2⟩, h3⟩; exact ⟨l, h1, h3, h2⟩
    · rintro ⟨l, h1, h2, h3⟩; exact ⟨l, ⟨h1, h3⟩, h2⟩
  · intro i j h
    cases hc : N.2.2.get? (i, j) with
    | none => exact absurd hc (n6 i j (.inr h))
    | some c =>
      refine ⟨c, rfl, ?_⟩
      rcases n5 i j c hc with h' | h'
      · cases h'
      · exact h'

/-- **C106, reverse.** The lines of sight that `compute_los` finds join the given sites, none starts at a client site,
and each that does not end at a client site is also found in the opposite direction, with the same confidence. -/
theorem C106_reverse (conf : LosSite → LosSite → K) (pos : K → Bool) (size : Nat) (hs : 0 < size)
    (sites : List LosSite) (types : List SiteType) (fresh : Nat) :
    ∀ l ∈ computeLos conf pos size sites (losCandidates types fresh),
      (l.tx < types.length ∧ l.rx < types.length ∧ types[l.tx]? ≠ some .cn)
      ∧ (types[l.rx]? ≠ some .cn →
          ⟨l.rx, l.tx, l.confidence⟩ ∈ computeLos conf pos size sites (losCandidates types fresh)) := by
  intro l hl
  unfold computeLos at hl ⊢
  obtain ⟨B, hB, hl⟩ := List.mem_flatMap.1 hl
  obtain ⟨q, hq, c, h1, h2⟩ := mem_losBatch hl
  have hqc : q ∈ losCandidates types fresh := by
    rw [← losBatches_flatten hs (losCandidates types fresh)]
    exact List.mem_flatten.2 ⟨B, hB, hq⟩
  obtain ⟨a, b, hne, hfr, ha, hb, hlk⟩ := (C22_candidate_pairs types fresh).2 q hqc
  have la := (List.getElem?_eq_some_iff.1 ha).1
  have lb := (List.getElem?_eq_some_iff.1 hb).1
  have key : (q.both = true ↔ a ≠ .cn ∧ b ≠ .cn) ∧ (q.both = false → a ≠ .cn ∧ b = .cn) := by
    unfold losCandidates at hqc
    simp only [List.mem_flatMap, List.mem_filter, List.mem_range, decide_eq_true_eq] at hqc
    obtain ⟨i, hi, j, ⟨hj, hij⟩, hqc⟩ := hqc
    rcases candidateOf_ends hqc with ⟨e1, e2⟩ | ⟨e1, e2⟩
    · rw [e1] at ha
      rw [e2] at hb
      obtain ⟨q', e, k1, k2⟩ := candidateOf_some ha hb hlk
      rw [e, List.mem_singleton] at hqc
      subst hqc
      refine ⟨k1, fun h => ?_⟩
      have := k2 h
      rw [e1, e2, ha, hb] at this
      simpa using this
    · rw [e1] at ha
      rw [e2] at hb
      obtain ⟨q', e, k1, k2⟩ := candidateOf_some hb ha ⟨fun c => hlk.1 ⟨c.2, c.1⟩, fun c => hlk.2 ⟨c.2, c.1⟩⟩
      rw [e, List.mem_singleton] at hqc
      subst hqc
      refine ⟨k1.trans and_comm, fun h => ?_⟩
      have := k2 h
      rw [e1, e2, ha, hb] at this
      simpa using this
  rw [validLinks_eq] at h1 h2
  split_ifs at h1 h2 with hp hbo
  · have hc := key.1.1 hbo
    simp only [List.mem_cons, List.not_mem_nil, or_false] at h1
    rcases h1 with rfl | rfl
    · refine ⟨⟨la, lb, by dsimp only; rw [ha]; simpa using hc.1⟩, fun _ => ?_⟩
      exact List.mem_flatMap.2 ⟨B, hB, h2 _ (by simp)⟩
    · refine ⟨⟨lb, la, by dsimp only; rw [hb]; simpa using hc.2⟩, fun _ => ?_⟩
      exact List.mem_flatMap.2 ⟨B, hB, h2 _ (by simp)⟩
  · have hc := key.2 (by simpa using hbo)
    rw [List.mem_singleton] at h1
    subst h1
    refine ⟨⟨la, lb, by dsimp only; rw [ha]; simpa using hc.1⟩, fun h => ?_⟩
    dsimp only at h
    rw [hb, hc.2] at h
    exact (h rfl).elim
  · cases h1

/-- Sites on two buildings and two input sites. -/
def pickDemoTypes : List SiteType := [.dn, .dn, .dn, .dn, .pop]

def pickDemoBuildings : List (Option Int) := [some 0, some 1, some 1, none, some (-1)]

def pickDemoLinks : List (ValidLos ℚ) :=
  [⟨0, 1, 1⟩, ⟨1, 0, 1⟩, ⟨2, 3, 1⟩, ⟨3, 2, 1⟩, ⟨2, 4, 1 / 2⟩, ⟨4, 2, 1 / 2⟩]

/-- The hypotheses of `C106_site_per_building_partial` hold for it, and the sites are picked. -/
example : pickDemoBuildings.length = pickDemoTypes.length
    ∧ (∀ l ∈ pickDemoLinks, l.tx < pickDemoTypes.length ∧ l.rx < pickDemoTypes.length)
    ∧ (∀ l ∈ pickDemoLinks, ∃ l' ∈ pickDemoLinks, l'.tx = l.rx ∧ l'.rx = l.tx)
    ∧ ((selectSites id true true pickDemoTypes pickDemoBuildings pickDemoLinks).toOption.map (·.picked))
        = some [3, 4, 0, 5, 1, 6] := by decide +kernel

/-- **C106, not the most lines of sight.** Site 2 on building 1 has two lines of sight and site 1 on the same building
one, but site 1 is chosen, since the site it sees is on a building treated before. -/
theorem C106_most_los_violation : losFrom pickDemoLinks 1 < losFrom pickDemoLinks 2
    ∧ OnBuilding pickDemoBuildings 1 1 ∧ OnBuilding pickDemoBuildings 2 1
    ∧ ∀ S ∈ (selectSites id true true pickDemoTypes pickDemoBuildings pickDemoLinks).toOption,
        1 ∈ S.picked ∧ 2 ∉ S.picked := by
  refine ⟨by decide +kernel, ⟨by decide, by decide⟩, ⟨by decide, by decide⟩, by decide +kernel⟩

end Verif
