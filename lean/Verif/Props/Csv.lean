import Verif.Spec.Csv

/-! # C141: angles; C142: headers -/

namespace Verif
namespace Csv

theorem takeWhile_all {α : Type} (p : α → Bool) (l : List α) : ∀ d ∈ l.takeWhile p, p d = true := by
  induction l with
  | nil => intro d hd; cases hd
  | cons x l ih =>
    intro d hd
    rw [List.takeWhile_cons] at hd
    split at hd
    · rcases List.mem_cons.1 hd with rfl | hd
      · assumption
      · exact ih d hd
    · cases hd

theorem isSep_iff (c : Char) : isSep c = true ↔ Sep c := by
  unfold isSep Sep
  simp [or_assoc]

theorem consHead_append (p : List Char) (ps : List (List Char)) (q : List Char) :
    p.foldr consHead (q :: ps) = (p ++ q) :: ps := by
  induction p with
  | nil => rfl
  | cons c p ih => rw [List.foldr_cons, ih]; rfl

theorem pieces_word (p r : List Char) (h : ∀ c ∈ p, ¬ Sep c) (hp : p ≠ []) (b : Bool) :
    pieces b (p ++ r) = p.foldr consHead (pieces false r) := by
  induction p generalizing b with
  | nil => exact absurd rfl hp
  | cons c p ih =>
    have hc : ¬ isSep c = true := fun h' => h c (by simp) ((isSep_iff c).1 h')
    rw [List.cons_append, pieces, if_neg hc, List.foldr_cons]
    by_cases hp' : p = []
    · subst hp'; rfl
    · rw [ih (fun c hc => h c (by simp [hc])) hp']

theorem pieces_seps (u r : List Char) (h : ∀ c ∈ u, Sep c) : pieces true (u ++ r) = pieces true r := by
  induction u with
  | nil => rfl
  | cons c u ih =>
    rw [List.cons_append, pieces, if_pos ((isSep_iff c).2 (h c (by simp))), if_pos rfl, ih fun c hc => h c (by simp [hc])]

theorem pieces_gap (u r : List Char) (h : ∀ c ∈ u, Sep c) (hu : u ≠ []) :
    pieces false (u ++ r) = [] :: pieces true r := by
  cases u with
  | nil => exact absurd rfl hu
  | cons c u =>
    rw [List.cons_append, pieces, if_pos ((isSep_iff c).2 (h c (by simp))), if_neg (by simp),
      pieces_seps _ _ fun c hc => h c (by simp [hc])]

theorem pieces_apart (ps : List (List Char)) (l : List Char) (b : Bool) (h : Apart ps l) : pieces b l = ps := by
  induction ps generalizing l b with
  | nil => exact absurd h (by simp [Apart])
  | cons p ps ih =>
    cases ps with
    | nil =>
      obtain ⟨rfl, h1, h2⟩ := h
      have := pieces_word l [] h2 h1 b
      rw [List.append_nil] at this
      rw [this, pieces, consHead_append, List.append_nil]
    | cons q ps =>
      obtain ⟨h1, h2, u, r, h3, h4, rfl, h5⟩ := h
      rw [List.append_assoc, pieces_word p _ h2 h1, pieces_gap u r h4 h3, consHead_append, List.append_nil, ih r true h5]

theorem pieces_ne (b : Bool) (l : List Char) : pieces b l ≠ [] := by
  induction l generalizing b with
  | nil => simp [pieces]
  | cons c l ih =>
    rw [pieces]
    split
    · split
      · exact ih true
      · simp
    · intro h
      revert h
      cases pieces false l <;> simp [consHead]

/-- What the pieces of a text are. -/
theorem pieces_back (l : List Char) (b : Bool) :
    (b = true ∧ ∃ u r, u ≠ [] ∧ (∀ c ∈ u, Sep c) ∧ l = u ++ r ∧ pieces true l = pieces true r ∧
      (r = [] ∨ ∃ c q, r = c :: q ∧ ¬ Sep c)) ∨
    ((∀ c ∈ l, ¬ Sep c) ∧ pieces b l = [l]) ∨
    ∃ p u r, (∀ c ∈ p, ¬ Sep c) ∧ (b = true → p ≠ []) ∧ u ≠ [] ∧ (∀ c ∈ u, Sep c) ∧ l = p ++ u ++ r ∧
      pieces b l = p :: pieces true r ∧ (r = [] ∨ ∃ c q, r = c :: q ∧ ¬ Sep c) := by
  induction l generalizing b with
  | nil => exact .inr (.inl ⟨by simp, rfl⟩)
  | cons c l ih =>
    by_cases hc : isSep c = true
    · have hs := (isSep_iff c).1 hc
      have tail : ∃ u r, (∀ d ∈ u, Sep d) ∧ l = u ++ r ∧ pieces true l = pieces true r ∧
          (r = [] ∨ ∃ c q, r = c :: q ∧ ¬ Sep c) := by
        refine ⟨l.takeWhile isSep, l.dropWhile isSep, ?_, (List.takeWhile_append_dropWhile).symm, ?_, ?_⟩
        · intro d hd; exact (isSep_iff d).1 (takeWhile_all _ _ d hd)
        · conv_lhs => rw [← List.takeWhile_append_dropWhile (p := isSep) (l := l)]
          exact pieces_seps _ _ fun d hd => (isSep_iff d).1 (takeWhile_all _ _ d hd)
        · cases hd : l.dropWhile isSep with
          | nil => exact .inl rfl
          | cons d q =>
            refine .inr ⟨d, q, rfl, fun h => ?_⟩
            have := List.head_dropWhile_not isSep (l := l) (by rw [hd]; simp)
            simp only [hd, List.head_cons] at this
            rw [(isSep_iff d).2 h] at this
            cases this
      obtain ⟨u, r, h1, h2, h3, h4⟩ := tail
      have hu : ∀ d ∈ c :: u, Sep d := by
        intro d hd
        rcases List.mem_cons.1 hd with rfl | hd
        · exact hs
        · exact h1 d hd
      cases b with
      | true =>
        refine .inl ⟨rfl, c :: u, r, by simp, hu, by rw [h2]; rfl, ?_, h4⟩
        rw [pieces, if_pos hc, if_pos rfl, h3]
      | false =>
        refine .inr (.inr ⟨[], c :: u, r, by simp, by simp, by simp, hu, by rw [h2]; rfl, ?_, h4⟩)
        rw [pieces, if_pos hc, if_neg (by simp), h3]
    · have hs : ¬ Sep c := fun h => hc ((isSep_iff c).2 h)
      rcases ih false with ⟨h, -⟩ | ⟨h1, h2⟩ | ⟨p, u, r, h1, -, h2, h3, h4, h5, h6⟩
      · cases h
      · refine .inr (.inl ⟨?_, ?_⟩)
        · intro d hd
          rcases List.mem_cons.1 hd with rfl | hd
          · exact hs
          · exact h1 d hd
        · rw [pieces, if_neg hc, h2]; rfl
      · refine .inr (.inr ⟨c :: p, u, r, ?_, by simp, h2, h3, by rw [h4]; rfl, ?_, h6⟩)
        · intro d hd
          rcases List.mem_cons.1 hd with rfl | hd
          · exact hs
          · exact h1 d hd
        · rw [pieces, if_neg hc, h5]; rfl

theorem pieces_true_false (r : List Char) (h : r = [] ∨ ∃ c q, r = c :: q ∧ ¬ Sep c) :
    pieces true r = pieces false r := by
  rcases h with rfl | ⟨c, q, rfl, h⟩
  · rfl
  · have hc : ¬ isSep c = true := fun h' => h ((isSep_iff c).1 h')
    rw [pieces, pieces, if_neg hc, if_neg hc]

/-- Pieces none of which is empty are the parts of the text. -/
theorem apart_of_pieces (ps : List (List Char)) (l : List Char) (h : pieces false l = ps) (ne : ∀ p ∈ ps, p ≠ []) :
    Apart ps l := by
  induction ps generalizing l with
  | nil => exact absurd h (pieces_ne false l)
  | cons p ps ih =>
    rcases pieces_back l false with ⟨h', -⟩ | ⟨h1, h2⟩ | ⟨p', u, r, h1, -, h2, h3, h4, h5, h6⟩
    · cases h'
    · rw [h2] at h
      cases h
      exact ⟨rfl, ne _ (by simp), h1⟩
    · rw [h5, pieces_true_false r h6] at h
      rw [List.cons.injEq] at h
      obtain ⟨rfl, h⟩ := h
      cases ps with
      | nil => exact absurd h (pieces_ne false r)
      | cons q ps =>
        exact ⟨ne p' (by simp), h1, u, r, h2, h3, h4, ih r h fun p hp => ne p (by simp [hp])⟩

theorem sign_iff (d : List Char) (e : ℚ) : sign d = some e ↔ Direction d e := by
  unfold sign Direction
  split
  · rename_i h
    constructor
    · intro h'; cases h'; exact .inl ⟨h, rfl⟩
    · rintro (⟨-, rfl⟩ | ⟨h', rfl⟩)
      · rfl
      · rcases h with rfl | rfl <;> revert h' <;> decide
  · rename_i h
    split
    · rename_i h'
      constructor
      · intro e'; cases e'; exact .inr ⟨h', rfl⟩
      · rintro (⟨h1, -⟩ | ⟨-, rfl⟩)
        · exact absurd h1 h
        · rfl
    · rename_i h'
      constructor
      · intro e'; cases e'
      · rintro (⟨h1, -⟩ | ⟨h1, -⟩)
        · exact absurd h1 h
        · exact absurd h1 h'

theorem direction_ne {d : List Char} {e : ℚ} (h : Direction d e) : d ≠ [] := by
  rcases h with ⟨rfl | rfl, -⟩ | ⟨rfl | rfl, -⟩ <;> simp

/-- **C141.** A text is read as an angle exactly if it is a number of degrees and a direction, or degrees, minutes,
seconds and a direction; the value is the sum of degrees, sixtieths of minutes and 3600ths of seconds, negative for
south and west. Otherwise a `DataException` is raised. -/
theorem C141_dms (lib : Lib) (empty : lib.float "" = none) (s : String) :
    (∀ v, dms lib s = .ok v ↔ Angle lib s v) ∧
    ((∀ v, ¬ Angle lib s v) → dms lib s = .error .data) := by
  have e : ∀ {a x}, lib.float (String.ofList a) = some x → a ≠ [] := by
    rintro a x h rfl
    have : lib.float (String.ofList []) = none := empty
    rw [this] at h
    cases h
  have main : ∀ v, dms lib s = .ok v ↔ Angle lib s v := by
    intro v
    constructor
    · intro h
      unfold dms at h
      split at h
      · rename_i a d hp
        split at h
        · rename_i e' x hs hx
          cases h
          have hd := (sign_iff _ _).1 hs
          refine ⟨d, e', hd, .inl ⟨a, x, apart_of_pieces _ _ hp ?_, hx, mul_comm _ _⟩⟩
          simp only [List.mem_cons, List.not_mem_nil, or_false, forall_eq_or_imp, forall_eq]
          exact ⟨e hx, direction_ne hd⟩
        · cases h
      · rename_i a b c d hp
        split at h
        · rename_i e' x y z hs hx hy hz
          cases h
          have hd := (sign_iff _ _).1 hs
          refine ⟨d, e', hd, .inr ⟨a, b, c, x, y, z, apart_of_pieces _ _ hp ?_, hx, hy, hz, by ring⟩⟩
          simp only [List.mem_cons, List.not_mem_nil, or_false, forall_eq_or_imp, forall_eq]
          exact ⟨e hx, e hy, e hz, direction_ne hd⟩
        · cases h
      · cases h
    · rintro ⟨d, e', hd, ⟨a, x, hp, hx, rfl⟩ | ⟨a, b, c, x, y, z, hp, hx, hy, hz, rfl⟩⟩
      · unfold dms
        rw [pieces_apart _ _ _ hp]
        dsimp only
        rw [(sign_iff _ _).2 hd, hx]
        dsimp only
        rw [mul_comm]
      · unfold dms
        rw [pieces_apart _ _ _ hp]
        dsimp only
        rw [(sign_iff _ _).2 hd, hx, hy, hz]
        dsimp only
        congr 1
        ring
  refine ⟨main, fun h => ?_⟩
  cases hd : dms lib s with
  | ok v => exact absurd ((main v).1 hd) (h v)
  | error er =>
    unfold dms at hd
    split at hd
    · split at hd
      · cases hd
      · exact hd ▸ rfl
    · split at hd
      · cases hd
      · exact hd ▸ rfl
    · exact hd ▸ rfl

/-- **C141 violated.** The minutes and seconds of a negative number of degrees are counted in the wrong direction:
`-100°30'0"E` is read as -99.5 degrees, though it is half a degree further west than -100 degrees. -/
theorem C141_negative_violation (lib : Lib) (strip : ∀ s, lib.strip s = s) (h1 : lib.float "-100" = some (-100))
    (h2 : lib.float "30" = some 30) (h3 : lib.float "0" = some 0) :
    dms lib "-100°30'0\"E" = .ok (-100 + 1 / 2) := by
  unfold dms
  rw [strip, show pieces false "-100°30'0\"E".toList = [['-', '1', '0', '0'], ['3', '0'], ['0'], ['E']] by decide +kernel]
  dsimp only
  rw [show String.ofList ['-', '1', '0', '0'] = "-100" by decide, show String.ofList ['3', '0'] = "30" by decide,
    show String.ofList ['0'] = "0" by decide, h1, h2, h3]
  have : sign ['E'] = some 1 := by decide +kernel
  rw [this]
  dsimp only
  norm_num

/-- **C141 violated.** An angle to the east is the same as one to the north: nothing rejects a latitude given as
east. -/
theorem C141_axis_violation (lib : Lib) (strip : ∀ s, lib.strip s = s) (x : ℚ) (h : lib.float "10" = some x) :
    dms lib "10° E" = .ok x ∧ dms lib "10° N" = .ok x := by
  unfold dms
  rw [strip, strip, show pieces false "10° E".toList = [['1', '0'], ['E']] by decide +kernel,
    show pieces false "10° N".toList = [['1', '0'], ['N']] by decide +kernel]
  dsimp only
  rw [show String.ofList ['1', '0'] = "10" by decide, h, show sign ['E'] = some 1 by decide +kernel,
    show sign ['N'] = some 1 by decide +kernel]
  simp

theorem names_eq (k : Col) : k.names = accepted k := by cases k <;> rfl

theorem mem_matched (lib : Lib) (t : Table) (k : Col) (n : String) :
    n ∈ matched lib t k ↔ n ∈ accepted k ∧ ∃ h ∈ t.header, lib.norm h = n := by
  unfold matched
  rw [List.mem_filter, names_eq]
  simp

theorem at_iff (lib : Lib) (t : Table) (k : Col) : (∃ i, At lib t k i) ↔ matched lib t k ≠ [] := by
  constructor
  · rintro ⟨i, h, h1, h2⟩ e
    have : lib.norm h ∈ matched lib t k := (mem_matched lib t k _).2 ⟨h2, h, List.mem_of_getElem? h1, rfl⟩
    rw [e] at this
    cases this
  · intro h
    obtain ⟨n, hn⟩ := List.exists_mem_of_ne_nil _ h
    obtain ⟨h1, h, h2, rfl⟩ := (mem_matched lib t k _).1 hn
    obtain ⟨i, hi⟩ := List.mem_iff_getElem?.1 h2
    exact ⟨i, h, hi, h1⟩

theorem two_iff (lib : Lib) (t : Table) (k : Col) : ¬ 1 < (matched lib t k).length ↔
    ∀ i j h h', At lib t k i → At lib t k j → t.header[i]? = some h → t.header[j]? = some h' → lib.norm h = lib.norm h' := by
  have nd : (matched lib t k).Nodup := by
    unfold matched
    exact List.Nodup.filter _ (by cases k <;> decide)
  have mem : ∀ i h, At lib t k i → t.header[i]? = some h → lib.norm h ∈ matched lib t k := by
    rintro i h ⟨g, h1, h2⟩ hi
    rw [hi] at h1
    cases h1
    exact (mem_matched lib t k _).2 ⟨h2, h, List.mem_of_getElem? hi, rfl⟩
  constructor
  · intro hl i j h h' hi hj e e'
    have m := mem i h hi e
    have m' := mem j h' hj e'
    cases hm : matched lib t k with
    | nil => rw [hm] at m; cases m
    | cons x xs =>
      rw [hm] at hl m m'
      have : xs = [] := by
        cases xs with
        | nil => rfl
        | cons y ys => simp at hl
      subst this
      rw [List.mem_singleton] at m m'
      rw [m, m']
  · intro h hl
    cases hm : matched lib t k with
    | nil => rw [hm] at hl; simp at hl
    | cons x xs =>
      cases xs with
      | nil => rw [hm] at hl; simp at hl
      | cons y ys =>
        rw [hm] at nd
        have get : ∀ n ∈ matched lib t k, ∃ i g, At lib t k i ∧ t.header[i]? = some g ∧ lib.norm g = n := by
          intro n hn
          obtain ⟨h1, g, h2, rfl⟩ := (mem_matched lib t k _).1 hn
          obtain ⟨i, hi⟩ := List.mem_iff_getElem?.1 h2
          exact ⟨i, g, ⟨g, hi, h1⟩, hi, rfl⟩
        obtain ⟨i, g, a1, a2, a3⟩ := get x (by rw [hm]; simp)
        obtain ⟨j, g', b1, b2, b3⟩ := get y (by rw [hm]; simp)
        have := h i j g g' a1 b1 a2 b2
        rw [a3, b3] at this
        rw [this] at nd
        simp at nd

/-- **C142.** A header is accepted exactly if all needed attributes have a column and no attribute has two columns with
different names; otherwise a `DataException` is raised. No name stands for two attributes. -/
theorem C142_header_partial (lib : Lib) (t : Table) (user : Bool) :
    (checkHeader lib t user = .ok () ↔ HeaderOk lib t user) ∧
    (¬ HeaderOk lib t user → checkHeader lib t user = .error .data) ∧
    ∀ k k' i, At lib t k i → At lib t k' i → k = k' := by
  have main : checkHeader lib t user = .ok () ↔ HeaderOk lib t user := by
    have need : ((required user).all fun k => decide (matched lib t k ≠ [])) = true ↔
        ∀ k, Needed user k → ∃ i, At lib t k i := by
      simp only [List.all_eq_true, decide_eq_true_eq, at_iff]
      refine forall_congr' fun k => ?_
      refine imp_congr ?_ Iff.rfl
      unfold required Needed
      cases user <;> cases k <;> simp
    have twice : (Col.all.any fun k => decide (1 < (matched lib t k).length)) = true ↔
        ¬ ∀ k i j h h', At lib t k i → At lib t k j → t.header[i]? = some h → t.header[j]? = some h' →
          lib.norm h = lib.norm h' := by
      rw [List.any_eq_true, not_forall]
      refine exists_congr fun k => ?_
      have : k ∈ Col.all := by cases k <;> decide
      rw [← two_iff, not_not]
      simp [this]
    unfold checkHeader HeaderOk
    by_cases h : (Col.all.any fun k => decide (1 < (matched lib t k).length)) = true
    · rw [if_pos h]
      have := twice.1 h
      constructor
      · intro h'; cases h'
      · intro h'; exact absurd h'.2 this
    · rw [if_neg h]
      have h2 := not_not.1 (fun hh => h (twice.2 hh))
      by_cases h' : ((required user).all fun k => decide (matched lib t k ≠ [])) = true
      · rw [if_pos h']
        exact ⟨fun _ => ⟨need.1 h', h2⟩, fun _ => rfl⟩
      · rw [if_neg h']
        constructor
        · intro h''; cases h''
        · intro h''; exact absurd (need.2 h''.1) h'
  refine ⟨main, fun h => ?_, ?_⟩
  · have : checkHeader lib t user ≠ .ok () := fun h' => h (main.1 h')
    unfold checkHeader at this ⊢
    split
    · rfl
    · rename_i h1
      split
      · rename_i h2
        rw [if_neg h1, if_pos h2] at this
        exact absurd rfl this
      · rfl
  · rintro k k' i ⟨h, h1, h2⟩ ⟨h', h3, h4⟩
    rw [h1] at h3
    cases h3
    have : ∀ k k', ∀ n ∈ accepted k, n ∈ accepted k' → k = k' := by
      intro k k'
      cases k <;> cases k' <;> decide
    exact this k k' _ h2 h4

/-- **C142 violated.** Two columns for the latitude are not noticed if their names only differ in capital letters. -/
theorem C142_duplicate_violation (lib : Lib) (h1 : lib.norm "Lat" = "lat") (h2 : lib.norm "lat" = "lat")
    (h3 : lib.norm "lon" = "lon") (rows : List (List String)) :
    checkHeader lib ⟨["Lat", "lat", "lon"], rows⟩ true = .ok () ∧
    At lib ⟨["Lat", "lat", "lon"], rows⟩ .lat 0 ∧ At lib ⟨["Lat", "lat", "lon"], rows⟩ .lat 1 := by
  refine ⟨?_, ⟨"Lat", rfl, by rw [h1]; decide⟩, ⟨"lat", rfl, by rw [h2]; decide⟩⟩
  unfold checkHeader matched
  simp only [List.map_cons, List.map_nil, h1, h2, h3]
  decide +kernel

end Csv
end Verif
