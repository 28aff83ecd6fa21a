import Verif.Spec.Kml
import Verif.Props.Tables3

/-! # Lemmas about the KML file -/

namespace Verif
namespace Kml

/-! ## Text -/

theorem readChars_append (a b x y : List Char) (ha : readChars a = some x) (hb : readChars b = some y) :
    readChars (a ++ b) = some (x ++ y) := by
  induction a using readChars.induct generalizing x with
  | case1 => simp only [readChars, Option.some.injEq] at ha; subst ha; simpa using hb
  | case2 rest ih =>
    simp only [readChars, Option.map_eq_some_iff] at ha
    obtain ⟨z, hz, rfl⟩ := ha
    simp [readChars, ih z hz]
  | case3 rest ih =>
    simp only [readChars, Option.map_eq_some_iff] at ha
    obtain ⟨z, hz, rfl⟩ := ha
    simp [readChars, ih z hz]
  | case4 rest ih =>
    simp only [readChars, Option.map_eq_some_iff] at ha
    obtain ⟨z, hz, rfl⟩ := ha
    simp [readChars, ih z hz]
  | case5 c rest h1 h2 h3 hc =>
    rw [readChars] at ha
    · rw [if_pos hc] at ha; cases ha
    all_goals simpa using by assumption
  | case6 c rest h1 h2 h3 hc ih =>
    have hc1 : c ≠ '&' := fun h => hc (.inl h)
    have hc2 : c ≠ '<' := fun h => hc (.inr h)
    rw [readChars, if_neg hc, Option.map_eq_some_iff] at ha
    · obtain ⟨z, hz, rfl⟩ := ha
      rw [List.cons_append, readChars, if_neg hc, ih z hz]
      · rfl
      all_goals (intro r h; exact absurd h hc1)
    all_goals (intro r h; exact absurd h hc1)

/-- A text without the two special characters is read as it is. -/
theorem readChars_plain (s : List Char) (h : ∀ c ∈ s, c ≠ '&' ∧ c ≠ '<') : readChars s = some s := by
  induction s with
  | nil => rfl
  | cons c s ih =>
    obtain ⟨h1, h2⟩ := h c (by simp)
    rw [readChars, if_neg (by simp [h1, h2]), ih fun x hx => h x (by simp [hx])]
    · rfl
    all_goals (intro r h; exact absurd h h1)

theorem replace_eq (s : List Char) :
    replaceChar '<' ['&', 'l', 't', ';'] (replaceChar '>' ['&', 'g', 't', ';']
      (replaceChar '&' ['&', 'a', 'm', 'p', ';'] s)) =
    s.flatMap fun c => if c = '&' then ['&', 'a', 'm', 'p', ';'] else if c = '>' then ['&', 'g', 't', ';']
      else if c = '<' then ['&', 'l', 't', ';'] else [c] := by
  induction s with
  | nil => rfl
  | cons c s ih =>
    unfold replaceChar at ih ⊢
    rw [List.flatMap_cons, List.flatMap_append, List.flatMap_append, ih, List.flatMap_cons]
    congr 1
    by_cases h1 : c = '&'
    · subst h1; decide
    · by_cases h2 : c = '>'
      · subst h2; decide
      · by_cases h3 : c = '<'
        · subst h3; decide
        · simp [h1, h2, h3]

theorem readText_escape (s : String) : readText (escape s) = some s := by
  have h : ∀ l : List Char, readChars (l.flatMap fun c => if c = '&' then ['&', 'a', 'm', 'p', ';'] else
      if c = '>' then ['&', 'g', 't', ';'] else if c = '<' then ['&', 'l', 't', ';'] else [c]) = some l := by
    intro l
    induction l with
    | nil => rfl
    | cons c l ih =>
      rw [List.flatMap_cons]
      refine readChars_append _ _ [c] l ?_ ih
      by_cases h1 : c = '&'
      · subst h1; decide
      · by_cases h2 : c = '>'
        · subst h2; decide
        · by_cases h3 : c = '<'
          · subst h3; decide
          · rw [if_neg h1, if_neg h2, if_neg h3]
            exact readChars_plain _ (by simp [h1, h3])
  unfold readText escape
  rw [String.toList_ofList, replace_eq, h]
  simp

theorem readText_plain (s : String) (h : ∀ c ∈ s.toList, c ≠ '&' ∧ c ≠ '<') : readText s = some s := by
  unfold readText
  rw [readChars_plain _ h]
  simp

/-! ## Groups -/

section
variable {α κ : Type} [DecidableEq κ] (key : α → κ)

theorem groupOn_flat (l : List α) : (groupOn key l).flatMap (·.2) = l := by
  induction l with
  | nil => rfl
  | cons x l ih =>
    unfold groupOn
    cases hg : groupOn key l with
    | nil => rw [hg] at ih; simp at ih; simp [← ih]
    | cons a more =>
      obtain ⟨k, g⟩ := a
      rw [hg] at ih
      dsimp only
      split
      · simpa using ih
      · simpa using ih

theorem groupOn_key (l : List α) : ∀ g ∈ groupOn key l, g.2 ≠ [] ∧ ∀ x ∈ g.2, key x = g.1 := by
  induction l with
  | nil => intro g h; cases h
  | cons x l ih =>
    unfold groupOn
    cases hg : groupOn key l with
    | nil => simp
    | cons a more =>
      obtain ⟨k, g⟩ := a
      rw [hg] at ih
      dsimp only
      split
      · rename_i hk
        intro a ha
        rcases List.mem_cons.1 ha with rfl | ha
        · refine ⟨by simp, fun y hy => ?_⟩
          rcases List.mem_cons.1 hy with rfl | hy
          · exact hk
          · exact (ih (k, g) (by simp)).2 y hy
        · exact ih a (by simp [ha])
      · intro a ha
        rcases List.mem_cons.1 ha with rfl | ha
        · simp
        · exact ih a ha

theorem groupOn_mem (l : List α) {g : κ × List α} (h : g ∈ groupOn key l) {x : α} (hx : x ∈ g.2) : x ∈ l := by
  rw [← groupOn_flat key l]
  exact List.mem_flatMap.2 ⟨g, h, hx⟩

/-- The groups of a key together are the elements with that key. -/
theorem groupOn_filter (l : List α) (k : κ) :
    ((groupOn key l).filter (·.1 = k)).flatMap (·.2) = l.filter (key · = k) := by
  have h : ∀ gs : List (κ × List α), (∀ g ∈ gs, ∀ x ∈ g.2, key x = g.1) →
      (gs.filter (·.1 = k)).flatMap (·.2) = (gs.flatMap (·.2)).filter (key · = k) := by
    intro gs
    induction gs with
    | nil => intro _; rfl
    | cons g gs ih =>
      intro hg
      rw [List.flatMap_cons, List.filter_append, ← ih fun a ha => hg a (by simp [ha])]
      by_cases c : g.1 = k
      · rw [List.filter_cons_of_pos (by simpa using c), List.flatMap_cons]
        congr 1
        refine (List.filter_eq_self.2 fun x hx => ?_).symm
        simpa using (hg g (by simp) x hx).trans c
      · rw [List.filter_cons_of_neg (by simpa using c)]
        have : g.2.filter (key · = k) = [] := by
          refine List.filter_eq_nil_iff.2 fun x hx => ?_
          simpa using fun h => c ((hg g (by simp) x hx).symm.trans h)
        rw [this, List.nil_append]
  rw [h _ fun g hg => (groupOn_key key l g hg).2, groupOn_flat]

/-- The keys of the groups of a sorted list go up. -/
theorem groupOn_sorted {ρ : Type} [LinearOrder ρ] (r : κ → ρ) (inj : Function.Injective r) (l : List α)
    (h : l.Pairwise fun a b => r (key a) ≤ r (key b)) : (groupOn key l).Pairwise fun g f => r g.1 < r f.1 := by
  induction l with
  | nil => exact List.Pairwise.nil
  | cons x l ih =>
    rw [List.pairwise_cons] at h
    have ih := ih h.2
    have mem : ∀ g ∈ groupOn key l, r (key x) ≤ r g.1 := by
      intro g hg
      obtain ⟨hne, hk⟩ := groupOn_key key l g hg
      obtain ⟨y, hy⟩ := List.exists_mem_of_ne_nil _ hne
      rw [← hk y hy]
      exact h.1 y (groupOn_mem key l hg hy)
    unfold groupOn
    cases hg : groupOn key l with
    | nil => simp
    | cons a more =>
      obtain ⟨k, g⟩ := a
      rw [hg] at ih mem
      rw [List.pairwise_cons] at ih
      dsimp only
      split
      · exact List.pairwise_cons.2 ⟨ih.1, ih.2⟩
      · rename_i hk
        have lt : r (key x) < r k := lt_of_le_of_ne (mem (k, g) (by simp)) fun e => hk (inj e)
        refine List.pairwise_cons.2 ⟨fun f hf => ?_, List.pairwise_cons.2 ih⟩
        rcases List.mem_cons.1 hf with rfl | hf
        · exact lt
        · exact lt.trans (ih.1 f hf)

/-- In a sorted list there is at most one group for a key. -/
theorem groupOn_one {ρ : Type} [LinearOrder ρ] (r : κ → ρ) (inj : Function.Injective r) (l : List α)
    (h : l.Pairwise fun a b => r (key a) ≤ r (key b)) (k : κ) :
    (groupOn key l).filter (·.1 = k) = [] ∧ l.filter (key · = k) = [] ∨
    (groupOn key l).filter (·.1 = k) = [(k, l.filter (key · = k))] := by
  have hf := groupOn_filter key l k
  have hs := (groupOn_sorted key r inj l h).filter (p := fun g => decide (g.1 = k))
  cases hg : (groupOn key l).filter (·.1 = k) with
  | nil => rw [hg] at hf; exact .inl ⟨rfl, hf.symm⟩
  | cons a more =>
    have ka : a.1 = k := by
      have : a ∈ (groupOn key l).filter (·.1 = k) := by rw [hg]; simp
      simpa using (List.mem_filter.1 this).2
    cases more with
    | nil =>
      rw [hg] at hf
      refine .inr ?_
      rw [← hf]
      simp [← ka]
    | cons b more =>
      exfalso
      have kb : b.1 = k := by
        have : b ∈ (groupOn key l).filter (·.1 = k) := by rw [hg]; simp
        simpa using (List.mem_filter.1 this).2
      rw [hg, List.pairwise_cons] at hs
      have := hs.1 b (by simp)
      rw [ka, kb] at this
      exact lt_irrefl _ this

end

/-! ## Orders -/

instance : IsTrans (Nat × String) pairLe where
  trans a b c h1 h2 := by
    unfold pairLe at *
    rcases h1 with h1 | ⟨h1, h1'⟩ <;> rcases h2 with h2 | ⟨h2, h2'⟩
    · exact .inl (h1.trans h2)
    · exact .inl (h2 ▸ h1)
    · exact .inl (h1 ▸ h2)
    · exact .inr ⟨h1.trans h2, fun h => by
        rw [not_lt] at h1' h2'
        exact absurd h (not_lt.2 (h1'.trans h2'))⟩

theorem pairLe_total (a b : Nat × String) : pairLe a b ∨ pairLe b a := by
  unfold pairLe
  rcases lt_trichotomy a.1 b.1 with h | h | h
  · exact .inl (.inl h)
  · rcases le_total a.2 b.2 with h' | h'
    · exact .inl (.inr ⟨h, not_lt.2 h'⟩)
    · exact .inr (.inr ⟨h.symm, not_lt.2 h'⟩)
  · exact .inr (.inl h)

/-- Sorting by a key gives a sorted list. -/
theorem sorted_on {α κ : Type} (le : κ → κ → Prop) [DecidableRel le] (tr : ∀ a b c, le a b → le b c → le a c)
    (tot : ∀ a b, le a b ∨ le b a) (key : α → κ) (l : List α) :
    (l.insertionSort fun a b => le (key a) (key b)).Pairwise fun a b => le (key a) (key b) := by
  have : Std.Total fun a b : α => le (key a) (key b) := ⟨fun a b => tot _ _⟩
  have : IsTrans α fun a b : α => le (key a) (key b) := ⟨fun a b c => tr _ _ _⟩
  exact List.pairwise_insertionSort _ l

theorem siteRank_inj : Function.Injective siteRank := by
  intro a b; cases a <;> cases b <;> simp [siteRank]

theorem linkRank_inj : Function.Injective linkRank := by
  intro a b; cases a <;> cases b <;> simp [linkRank]

/-! ## The sites and links of a folder -/

theorem sitesOf_perm (t : Topology) (K : Info) (st : StatusType) :
    (sitesOf t K st).Perm (t.sites.vals.filter (·.status = st)) := List.perm_insertionSort _ _

theorem linksOf_perm (t : Topology) (st : StatusType) :
    (linksOf t st).Perm (t.links.vals.filter (·.status = st)) := List.perm_insertionSort _ _

theorem sitesOf_sorted (t : Topology) (K : Info) (st : StatusType) : (sitesOf t K st).Pairwise fun a b =>
    pairLe (siteRank a.siteType, K.name a.id) (siteRank b.siteType, K.name b.id) :=
  sorted_on pairLe (fun a b c => Trans.trans) pairLe_total (fun a : Site => (siteRank a.siteType, K.name a.id)) _

theorem linksOf_sorted (t : Topology) (st : StatusType) : (linksOf t st).Pairwise fun a b =>
    linkRank (t.linkType a) ≤ linkRank (t.linkType b) := by
  refine (sorted_on pairLe (fun a b c => Trans.trans) pairLe_total
    (fun a : Link => (linkRank (t.linkType a), t.linkHash a)) _).imp ?_
  rintro a b (h | h)
  · exact h.le
  · exact h.1.le

theorem orderLinks_perm (t : Topology) (K : Info) (g : List Link) : (orderLinks t K g).Perm g := by
  have h : ∀ gs : List (String × List Link),
      (gs.flatMap fun h => h.2.insertionSort fun a b => K.util b.id ≤ K.util a.id).Perm (gs.flatMap (·.2)) := by
    intro gs
    induction gs with
    | nil => exact List.Perm.refl _
    | cons a gs ih =>
      rw [List.flatMap_cons, List.flatMap_cons]
      exact (List.perm_insertionSort _ _).append ih
  refine (h _).trans ?_
  rw [groupOn_flat]
  exact List.perm_insertionSort _ _

theorem orderLinks_sorted (t : Topology) (K : Info) (g : List Link) : (orderLinks t K g).Pairwise fun a b =>
    t.linkHash a < t.linkHash b ∨ t.linkHash a = t.linkHash b ∧ K.util b.id ≤ K.util a.id := by
  have hs : (g.insertionSort fun a b => ¬ t.linkHash b < t.linkHash a).Pairwise
      fun a b => t.linkHash a ≤ t.linkHash b := by
    refine (sorted_on (fun a b : String => ¬ b < a) ?_ ?_ t.linkHash g).imp not_lt.1
    · intro a b c h1 h2; exact not_lt.2 ((not_lt.1 h1).trans (not_lt.1 h2))
    · intro a b; rw [not_lt, not_lt]; exact le_total a b
  unfold orderLinks
  rw [List.pairwise_flatMap]
  constructor
  · intro f hf
    have hk := (groupOn_key _ _ f hf).2
    have hp := List.perm_insertionSort (fun a b => K.util b.id ≤ K.util a.id) f.2
    refine List.Pairwise.imp_of_mem ?_ (sorted_on (fun a b : ℚ => b ≤ a) (fun a b c h1 h2 => h2.trans h1)
      (fun a b => (le_total b a)) (fun l : Link => K.util l.id) f.2)
    intro a b ha hb h
    exact .inr ⟨(hk a (hp.mem_iff.1 ha)).trans (hk b (hp.mem_iff.1 hb)).symm, h⟩
  · refine List.Pairwise.imp_of_mem ?_ (groupOn_sorted t.linkHash id Function.injective_id _ hs)
    intro f f' hf hf' h a ha b hb
    have ha := (List.perm_insertionSort _ _).mem_iff.1 ha
    have hb := (List.perm_insertionSort _ _).mem_iff.1 hb
    rw [(groupOn_key _ _ f hf).2 a ha, (groupOn_key _ _ f' hf').2 b hb]
    exact .inl h

end Kml
end Verif
