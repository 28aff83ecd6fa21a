import Verif.Model.Orient
import Mathlib.Tactic.Linarith
import Mathlib.Tactic.Ring

/-!
# The dynamic program of the sector search is exact
-/

namespace Verif.Tableau

variable (T : Tableau)

/-- The candidates are in increasing order. -/
def Sorted : Prop := ∀ x y, x < y → y < T.size → T.az x < T.az y

/-- `x` may follow `c` in a selection that starts with `first`. -/
def Step (first c x : ℕ) : Prop :=
  c < x ∧ x < T.size ∧ T.width ≤ T.az x - T.az c ∧ T.width ≤ T.az first + 360 - T.az x

/-- `better`: an entry is at most `u`. -/
def AtMost (R : Row) (x : ℕ) (u : ℚ) : Prop := ∃ v p, R x = some (v, p) ∧ v ≤ u

theorem AtMost.mono {R : Row} {x : ℕ} {u u' : ℚ} (h : AtMost R x u) (hu : u ≤ u') :
    AtMost R x u' := by
  obtain ⟨v, p, e, hv⟩ := h
  exact ⟨v, p, e, le_trans hv hu⟩

/-- What `relax` does: entries only get better, every reachable candidate gets
an entry that is good enough, and every new entry comes from `c`. -/
theorem relax_spec (hs : T.Sorted) (first c : ℕ) (v : ℚ) :
    ∀ (len start : ℕ) (R : Row), c < start → start + len = T.size →
      let R' := T.relax first c v (List.range' start len) R
      (∀ x u, AtMost R x u → AtMost R' x u) ∧
      (∀ x, start ≤ x → T.Step first c x → AtMost R' x (v + T.met x)) ∧
      (∀ x w p, R' x = some (w, p) → R x = some (w, p) ∨
        (p = c ∧ w = v + T.met x ∧ T.Step first c x)) := by
  intro len
  induction len with
  | zero =>
    intro start R hc hl
    refine ⟨fun x u h => h, ?_, fun x w p h => Or.inl h⟩
    intro x hx hst
    exact absurd hst.2.1 (by omega)
  | succ len ih =>
    intro start R hc hl
    dsimp only
    rw [List.range'_succ]
    unfold relax
    by_cases h1 : T.az start - T.az c < T.width
    · rw [if_pos h1]
      obtain ⟨i1, i2, i3⟩ := ih (start + 1) R (by omega) (by omega)
      refine ⟨i1, ?_, i3⟩
      intro x hx hst
      rcases Nat.eq_or_lt_of_le hx with rfl | hx
      · exact absurd hst.2.2.1 (by linarith)
      · exact i2 x hx hst
    · rw [if_neg h1]
      by_cases h2 : T.az first + 360 - T.az start < T.width
      · rw [if_pos h2]
        refine ⟨fun x u h => h, ?_, fun x w p h => Or.inl h⟩
        intro x hx hst
        exfalso
        have : T.az start ≤ T.az x := by
          rcases Nat.eq_or_lt_of_le hx with rfl | hx
          · exact le_refl _
          · exact le_of_lt (hs _ _ hx hst.2.1)
        have := hst.2.2.2
        linarith
      · rw [if_neg h2]
        have step : T.Step first c start := ⟨hc, by omega, by linarith, by linarith⟩
        by_cases hb : improves (v + T.met start) (R start) = true
        · rw [if_pos hb]
          obtain ⟨i1, i2, i3⟩ := ih (start + 1)
            (fun y => if y = start then some (v + T.met start, c) else R y) (by omega) (by omega)
          refine ⟨?_, ?_, ?_⟩
          · intro x u hx
            apply i1
            by_cases e : x = start
            · subst e
              obtain ⟨w, p, e1, hw⟩ := hx
              rw [e1] at hb
              exact ⟨v + T.met x, c, by simp, by
                have := of_decide_eq_true hb; linarith⟩
            · obtain ⟨w, p, e1, hw⟩ := hx
              exact ⟨w, p, by simp only [e, if_false]; exact e1, hw⟩
          · intro x hx hst
            rcases Nat.eq_or_lt_of_le hx with rfl | hx
            · exact i1 _ _ ⟨v + T.met start, c, by simp, le_refl _⟩
            · exact i2 x hx hst
          · intro x w p hx
            rcases i3 x w p hx with h | h
            · by_cases e : x = start
              · subst e
                simp only [if_true, Option.some.injEq, Prod.mk.injEq] at h
                exact Or.inr ⟨h.2.symm, h.1.symm, step⟩
              · simp only [e, if_false] at h
                exact Or.inl h
            · exact Or.inr h
        · rw [if_neg hb]
          obtain ⟨i1, i2, i3⟩ := ih (start + 1) R (by omega) (by omega)
          refine ⟨i1, ?_, i3⟩
          intro x hx hst
          rcases Nat.eq_or_lt_of_le hx with rfl | hx
          · apply i1
            cases hR : R start with
            | none => rw [hR] at hb; simp [improves] at hb
            | some w =>
              obtain ⟨w, p⟩ := w
              rw [hR] at hb
              exact ⟨w, p, hR, by simpa [improves] using hb⟩
          · exact i2 x hx hst

/-- One row from the previous one. -/
theorem nextRow_spec (hs : T.Sorted) (first : ℕ) (R : Row) :
    (∀ c v p x, c < T.size → R c = some (v, p) → T.Step first c x →
      AtMost (T.nextRow first R) x (v + T.met x)) ∧
    (∀ x w c, T.nextRow first R x = some (w, c) →
      ∃ v p, R c = some (v, p) ∧ w = v + T.met x ∧ T.Step first c x) := by
  unfold nextRow
  -- the loop over the candidates
  have key : ∀ (L : List ℕ) (A : Row), (∀ c ∈ L, c < T.size) →
      let A' := L.foldl (fun R' c =>
        match R c with
        | none => R'
        | some (v, _) => T.relax first c v (List.range' (c + 1) (T.size - (c + 1))) R') A
      (∀ x u, AtMost A x u → AtMost A' x u) ∧
      (∀ c ∈ L, ∀ v p x, R c = some (v, p) → T.Step first c x → AtMost A' x (v + T.met x)) ∧
      (∀ x w c, A' x = some (w, c) → A x = some (w, c) ∨
        ∃ v p, R c = some (v, p) ∧ w = v + T.met x ∧ T.Step first c x) := by
    intro L
    induction L with
    | nil =>
      intro A _
      exact ⟨fun x u h => h, by simp, fun x w c h => Or.inl h⟩
    | cons c L ih =>
      intro A hL
      dsimp only
      rw [List.foldl_cons]
      have hc := hL c List.mem_cons_self
      cases hR : R c with
      | none =>
        obtain ⟨i1, i2, i3⟩ := ih A (fun d hd => hL d (List.mem_cons_of_mem _ hd))
        refine ⟨i1, ?_, i3⟩
        intro d hd v p x e hst
        rcases List.mem_cons.1 hd with rfl | hd
        · rw [hR] at e; cases e
        · exact i2 d hd v p x e hst
      | some vp =>
        obtain ⟨v, p⟩ := vp
        dsimp only
        obtain ⟨r1, r2, r3⟩ := T.relax_spec hs first c v (T.size - (c + 1)) (c + 1) A
          (by omega) (by omega)
        obtain ⟨i1, i2, i3⟩ := ih
          (T.relax first c v (List.range' (c + 1) (T.size - (c + 1))) A)
          (fun d hd => hL d (List.mem_cons_of_mem _ hd))
        refine ⟨fun x u h => i1 _ _ (r1 _ _ h), ?_, ?_⟩
        · intro d hd v' p' x e hst
          rcases List.mem_cons.1 hd with rfl | hd
          · rw [hR] at e
            cases e
            exact i1 _ _ (r2 x hst.1 hst)
          · exact i2 d hd v' p' x e hst
        · intro x w d hx
          rcases i3 x w d hx with h | h
          · rcases r3 x w d h with h | ⟨rfl, h2, h3⟩
            · exact Or.inl h
            · exact Or.inr ⟨v, p, hR, h2, h3⟩
          · exact Or.inr h
  obtain ⟨k1, k2, k3⟩ := key (List.range T.size) (fun _ => none)
    (fun c hc => List.mem_range.1 hc)
  refine ⟨fun c v p x hc e hst => k2 c (List.mem_range.2 hc) v p x e hst, ?_⟩
  intro x w c hx
  rcases k3 x w c hx with h | h
  · cases h
  · exact h

/-- A selection that starts with `first` and ends with `x`, written from the
last to the first candidate. -/
inductive Chain (first : ℕ) : ℕ → ℕ → List ℕ → Prop
  | one : Chain first 0 first [first]
  | step {r c x : ℕ} {l : List ℕ} : Chain first r c l → T.Step first c x →
      Chain first (r + 1) x (l ++ [x])

/-- The metric of a selection. -/
def cost (l : List ℕ) : ℚ := (l.map T.met).sum

theorem cost_append (l : List ℕ) (x : ℕ) : T.cost (l ++ [x]) = T.cost l + T.met x := by
  unfold cost; simp

/-- Every chain is accounted for by a row at no more than its metric. -/
theorem row_le (hs : T.Sorted) {first : ℕ} (hf : first < T.size) {r x : ℕ} {l : List ℕ}
    (h : T.Chain first r x l) : x < T.size ∧ AtMost (T.row first r) x (T.cost l) := by
  induction h with
  | one => exact ⟨hf, T.met first, 0, by simp [row], by simp [cost]⟩
  | @step r c x l hch hst ih =>
    refine ⟨hst.2.1, ?_⟩
    obtain ⟨hc, v, p, e, hv⟩ := ih
    have := (T.nextRow_spec hs first (T.row first r)).1 c v p x hc e hst
    exact this.mono (by rw [T.cost_append]; linarith)

/-- Every entry of a row is the metric of the chain that `back` reads off. -/
theorem row_chain (hs : T.Sorted) {first : ℕ} : ∀ (r x : ℕ) (v : ℚ) (p : ℕ),
    T.row first r x = some (v, p) →
      T.Chain first r x (T.back first r x) ∧ T.cost (T.back first r x) = v := by
  intro r
  induction r with
  | zero =>
    intro x v p h
    simp only [row] at h
    split at h
    · rename_i e
      subst e
      simp only [Option.some.injEq, Prod.mk.injEq] at h
      exact ⟨Chain.one, by simp [back, cost, h.1]⟩
    · cases h
  | succ r ih =>
    intro x v p h
    obtain ⟨v', p', e, hv, hst⟩ := (T.nextRow_spec hs first (T.row first r)).2 x v p h
    obtain ⟨hch, hco⟩ := ih p v' p' e
    simp only [back, h]
    exact ⟨hch.step hst, by rw [T.cost_append, hco, hv]⟩

theorem least_spec (R : Row) : ∀ L : List ℕ,
    (∀ x v, least R L = some (x, v) → x ∈ L ∧ (∃ p, R x = some (v, p)) ∧
      ∀ y ∈ L, ∀ u p, R y = some (u, p) → v ≤ u) ∧
    (least R L = none → ∀ y ∈ L, R y = none) := by
  intro L
  induction L with
  | nil => exact ⟨fun x v h => (by cases h), fun _ y hy => (by cases hy)⟩
  | cons z L ih =>
    obtain ⟨i1, i2⟩ := ih
    unfold least
    cases hz : R z with
    | none =>
      dsimp only
      refine ⟨?_, ?_⟩
      · intro x v h
        obtain ⟨a, b, c⟩ := i1 x v h
        refine ⟨List.mem_cons_of_mem _ a, b, ?_⟩
        intro y hy u p hu
        rcases List.mem_cons.1 hy with rfl | hy
        · rw [hz] at hu; cases hu
        · exact c y hy u p hu
      · intro h y hy
        rcases List.mem_cons.1 hy with rfl | hy
        · exact hz
        · exact i2 h y hy
    | some w =>
      obtain ⟨w, pw⟩ := w
      cases hl : least R L with
      | none =>
        dsimp only
        refine ⟨?_, by simp⟩
        intro x v h
        simp only [Option.some.injEq, Prod.mk.injEq] at h
        obtain ⟨rfl, rfl⟩ := h
        refine ⟨List.mem_cons_self, ⟨pw, hz⟩, ?_⟩
        intro y hy u p hu
        rcases List.mem_cons.1 hy with rfl | hy
        · rw [hz] at hu; cases hu; exact le_refl _
        · rw [i2 hl y hy] at hu; cases hu
      | some yu =>
        obtain ⟨y, u⟩ := yu
        dsimp only
        obtain ⟨a, b, c⟩ := i1 y u hl
        by_cases hlt : u < w
        · rw [if_pos hlt]
          refine ⟨?_, by simp⟩
          intro x v h
          simp only [Option.some.injEq, Prod.mk.injEq] at h
          obtain ⟨rfl, rfl⟩ := h
          refine ⟨List.mem_cons_of_mem _ a, b, ?_⟩
          intro y' hy' u' p' hu'
          rcases List.mem_cons.1 hy' with rfl | hy'
          · rw [hz] at hu'; cases hu'; exact le_of_lt hlt
          · exact c y' hy' u' p' hu'
        · rw [if_neg hlt]
          refine ⟨?_, by simp⟩
          intro x v h
          simp only [Option.some.injEq, Prod.mk.injEq] at h
          obtain ⟨rfl, rfl⟩ := h
          refine ⟨List.mem_cons_self, ⟨pw, hz⟩, ?_⟩
          intro y' hy' u' p' hu'
          rcases List.mem_cons.1 hy' with rfl | hy'
          · rw [hz] at hu'; cases hu'; exact le_refl _
          · exact le_trans (not_lt.1 hlt) (c y' hy' u' p' hu')

/-- A selection of `n` candidates that starts with `first`. -/
def From (first : ℕ) (l : List ℕ) : Prop := ∃ x, T.Chain first (T.n - 1) x l

/-- The room a chain needs. -/
theorem Chain.room {first r x : ℕ} {l : List ℕ} (h : T.Chain first r x l) :
    T.az first + r * T.width ≤ T.az x ∧ (0 < r → T.width ≤ T.az first + 360 - T.az x) := by
  induction h with
  | one => simp
  | @step r c x l hch hst ih =>
    obtain ⟨h1, h2, h3, h4⟩ := hst
    refine ⟨?_, fun _ => h4⟩
    push_cast
    linarith [ih.1]

/-- The loop over the first candidate: nothing below `best` is missed. -/
theorem search_spec (hs : T.Sorted) (hW : 0 < T.width) (hn : 0 < T.n)
    (hr : ∀ x, x < T.size → T.az x < 360) :
    ∀ (len start : ℕ) (best : ℚ) (pos : Option (List ℕ)), start + len = T.size →
      let out := T.search (List.range' start len) best pos
      (out = pos ∧ ∀ f l, start ≤ f → f < T.size → T.From f l → best ≤ T.cost l) ∨
      (∃ f l, start ≤ f ∧ f < T.size ∧ out = some l ∧ T.From f l ∧ T.cost l < best ∧
        ∀ f' l', start ≤ f' → f' < T.size → T.From f' l' → T.cost l ≤ T.cost l') := by
  intro len
  induction len with
  | zero =>
    intro start best pos hl
    left
    refine ⟨rfl, ?_⟩
    intro f l h1 h2
    omega
  | succ len ih =>
    intro start best pos hl
    dsimp only
    rw [List.range'_succ]
    unfold search
    by_cases hb : T.az start ≥ 360 - ((T.n : ℚ) - 1) * T.width
    · rw [if_pos hb]
      left
      refine ⟨rfl, ?_⟩
      rintro f l h1 h2 ⟨x, hch⟩
      exfalso
      have hle : T.az start ≤ T.az f := by
        rcases Nat.eq_or_lt_of_le h1 with rfl | h1
        · exact le_refl _
        · exact le_of_lt (hs _ _ h1 h2)
      obtain ⟨r1, r2⟩ := hch.room
      have hcast : ((T.n - 1 : ℕ) : ℚ) = (T.n : ℚ) - 1 := by
        rw [Nat.cast_sub hn]; simp
      rw [hcast] at r1
      have hx := hr x (T.row_le hs h2 hch).1
      linarith
    · rw [if_neg hb]
      have hsz : start < T.size := by omega
      cases hle : least (T.row start (T.n - 1)) (List.range T.size) with
      | none =>
        dsimp only
        have nof : ∀ l, ¬ T.From start l := by
          rintro l ⟨x, hch⟩
          obtain ⟨hx, v, p, e, _⟩ := T.row_le hs hsz hch
          have := (least_spec _ _).2 hle x (List.mem_range.2 hx)
          rw [this] at e; cases e
        rcases ih (start + 1) best pos (by omega) with ⟨e, h⟩ | ⟨f, l, h1, h2, h3, h4, h5, h6⟩
        · left
          refine ⟨e, ?_⟩
          intro f l h1 h2 h3
          rcases Nat.eq_or_lt_of_le h1 with rfl | h1
          · exact absurd h3 (nof l)
          · exact h f l h1 h2 h3
        · right
          refine ⟨f, l, by omega, h2, h3, h4, h5, ?_⟩
          intro f' l' h1' h2' h3'
          rcases Nat.eq_or_lt_of_le h1' with rfl | h1'
          · exact absurd h3' (nof l')
          · exact h6 f' l' h1' h2' h3'
      | some xv =>
        obtain ⟨x, v⟩ := xv
        dsimp only
        obtain ⟨m1, ⟨p, m2⟩, m3⟩ := (least_spec _ _).1 x v hle
        obtain ⟨c1, c2⟩ := T.row_chain hs (T.n - 1) x v p m2
        have low : ∀ l, T.From start l → v ≤ T.cost l := by
          rintro l ⟨y, hch⟩
          obtain ⟨hy, u, p', e, hu⟩ := T.row_le hs hsz hch
          exact le_trans (m3 y (List.mem_range.2 hy) u p' e) hu
        by_cases hlt : v < best
        · rw [if_pos hlt]
          right
          rcases ih (start + 1) v (some (T.back start (T.n - 1) x)) (by omega) with
            ⟨e, h⟩ | ⟨f, l, h1, h2, h3, h4, h5, h6⟩
          · refine ⟨start, _, le_refl _, hsz, e, ⟨x, c1⟩, by rw [c2]; exact hlt, ?_⟩
            intro f' l' h1' h2' h3'
            rw [c2]
            rcases Nat.eq_or_lt_of_le h1' with rfl | h1'
            · exact low l' h3'
            · exact h f' l' h1' h2' h3'
          · refine ⟨f, l, by omega, h2, h3, h4, lt_trans h5 hlt, ?_⟩
            intro f' l' h1' h2' h3'
            rcases Nat.eq_or_lt_of_le h1' with rfl | h1'
            · exact le_trans (le_of_lt h5) (low l' h3')
            · exact h6 f' l' h1' h2' h3'
        · rw [if_neg hlt]
          rcases ih (start + 1) best pos (by omega) with ⟨e, h⟩ | ⟨f, l, h1, h2, h3, h4, h5, h6⟩
          · left
            refine ⟨e, ?_⟩
            intro f l h1 h2 h3
            rcases Nat.eq_or_lt_of_le h1 with rfl | h1
            · exact le_trans (not_lt.1 hlt) (low l h3)
            · exact h f l h1 h2 h3
          · right
            refine ⟨f, l, by omega, h2, h3, h4, h5, ?_⟩
            intro f' l' h1' h2' h3'
            rcases Nat.eq_or_lt_of_le h1' with rfl | h1'
            · exact le_of_lt (lt_of_lt_of_le h5 (le_trans (not_lt.1 hlt) (low l' h3')))
            · exact h6 f' l' h1' h2' h3'

end Verif.Tableau
