import Verif.Model.Prune
import Verif.Spec.Prune
import Verif.Lemmas.Topology
import Mathlib.Algebra.Order.Field.Basic
import Mathlib.Algebra.Order.BigOperators.Group.List
import Mathlib.Data.Rat.Floor
import Mathlib.Tactic.Linarith
import Mathlib.Tactic.Ring
import Mathlib.Tactic.NormNum

/-! # C46: loop pruning -/

namespace Verif
namespace Plan
open Spec

theorem eps_pos : (0 : ℚ) < eps := by unfold eps; norm_num

/-! ## Sums after reducing one link -/

theorem sum_update (L : List Arc) (hL : L.Nodup) (f : Arc → ℚ) (e : Arc) (r : ℚ) :
    (L.map fun e' => if e' = e then f e - r else f e').sum =
      (L.map f).sum - (if e ∈ L then r else 0) := by
  induction L with
  | nil => simp
  | cons a L ih =>
    rw [List.nodup_cons] at hL
    rw [List.map_cons, List.sum_cons, ih hL.2, List.map_cons, List.sum_cons]
    by_cases c : a = e
    · subst c
      rw [if_pos rfl, if_neg hL.1, if_pos List.mem_cons_self]
      ring
    · rw [if_neg c]
      by_cases d : e ∈ L
      · rw [if_pos d, if_pos (List.mem_cons_of_mem _ d)]; ring
      · rw [if_neg d, if_neg]
        · ring
        · rw [List.mem_cons]; rintro (h | h)
          · exact c h.symm
          · exact d h

/-- `q` if the proposition holds, else 0. -/
def unit (p : Prop) [Decidable p] (q : ℚ) : ℚ := if p then q else 0

theorem net_reduce {arcs : List Arc} (hL : arcs.Nodup) (s : PruneState) {e : Arc} (he : e ∈ arcs)
    (r : ℚ) (v : Loc) : netFlow arcs (s.reduce e r).flow v =
      netFlow arcs s.flow v + unit (v = e.1) r - unit (v = e.2) r := by
  unfold netFlow PruneState.reduce unit
  dsimp only
  rw [sum_update _ (hL.filter _), sum_update _ (hL.filter _)]
  simp only [List.mem_filter, he, true_and, decide_eq_true_eq]
  by_cases c1 : v = e.1 <;> by_cases c2 : v = e.2
  · rw [if_pos c2.symm, if_pos c1.symm, if_pos c1, if_pos c2]; ring
  · rw [if_neg (Ne.symm c2), if_pos c1.symm, if_pos c1, if_neg c2]; ring
  · rw [if_pos c2.symm, if_neg (Ne.symm c1), if_neg c1, if_pos c2]; ring
  · rw [if_neg (Ne.symm c2), if_neg (Ne.symm c1), if_neg c1, if_neg c2]; ring

/-- Total positive flow. -/
def mass (arcs : List Arc) (f : Arc → ℚ) : ℚ := (arcs.map fun e => max (f e) 0).sum

theorem mass_mono {arcs : List Arc} {f g : Arc → ℚ} (h : ∀ e, g e ≤ f e) :
    mass arcs g ≤ mass arcs f := by
  unfold mass
  apply List.sum_le_sum
  intro e _
  exact max_le_max (h e) (le_refl _)

theorem mass_nonneg (arcs : List Arc) (f : Arc → ℚ) : 0 ≤ mass arcs f := by
  unfold mass
  apply List.sum_nonneg
  intro q hq
  rw [List.mem_map] at hq
  obtain ⟨e, _, rfl⟩ := hq
  exact le_max_right _ _

theorem mass_reduce {arcs : List Arc} (hL : arcs.Nodup) (s : PruneState) {e : Arc} (he : e ∈ arcs)
    {r : ℚ} (h : r ≤ s.flow e) (h0 : 0 ≤ s.flow e) :
    mass arcs (s.reduce e r).flow = mass arcs s.flow - r := by
  unfold mass PruneState.reduce
  dsimp only
  have : (arcs.map fun e' => max (if e' = e then s.flow e - r else s.flow e') 0) =
      arcs.map (fun e' => if e' = e then max (s.flow e) 0 - r else max (s.flow e') 0) := by
    apply List.map_congr_left
    intro e' _
    by_cases c : e' = e
    · rw [if_pos c, if_pos c, max_eq_left h0, max_eq_left (by linarith)]
    · rw [if_neg c, if_neg c]
  rw [this, sum_update arcs hL (fun e => max (s.flow e) 0) e r, if_pos he]

/-! ## `capMins` -/

theorem keys_capMins (d : Dict Loc ℚ) (q : ℚ) : (capMins d q).keys = d.keys := by
  unfold capMins Dict.keys
  rw [List.map_map]; rfl

theorem get?_capMins (d : Dict Loc ℚ) (q : ℚ) (k : Loc) :
    (capMins d q).get? k = (d.get? k).map fun x => min x q := by
  induction d with
  | nil => rfl
  | cons a d ih =>
    unfold capMins at *
    rw [List.map_cons, Dict.get?_cons, Dict.get?_cons]
    split
    · rfl
    · exact ih

/-! ## The invariant of `_prune_loop` -/

/-- `i_to_j_map`. -/
def succOf (arcs : List Arc) (i : Loc) : List Loc := (arcs.filter fun e => e.1 = i).map (·.2)

theorem mem_succOf {arcs : List Arc} {i j : Loc} : j ∈ succOf arcs i ↔ (i, j) ∈ arcs := by
  unfold succOf
  simp only [List.mem_map, List.mem_filter, decide_eq_true_eq]
  constructor
  · rintro ⟨⟨a, b⟩, ⟨h, rfl⟩, rfl⟩; exact h
  · intro h; exact ⟨_, ⟨h, rfl⟩, rfl⟩

/-- The graph: distinct links, none from a location to itself, between the locations `V`. -/
structure Graph (V : List Loc) (arcs : List Arc) : Prop where
  nodup : arcs.Nodup
  noSelf : ∀ e ∈ arcs, e.1 ≠ e.2
  ends : ∀ e ∈ arcs, e.1 ∈ V ∧ e.2 ∈ V

/-- Locations found loop free lead only to locations found before them. -/
def Ordered (arcs : List Arc) (s : PruneState) : Prop :=
  ∀ a i b, s.free = a ++ i :: b → ∀ j, (i, j) ∈ arcs → eps < s.flow (i, j) → j ∈ b

/-- The link is done with. -/
def Clear (s : PruneState) (i j : Loc) : Prop := s.flow (i, j) ≤ eps ∨ j ∈ s.free

structure MinsOk (V : List Loc) (i : Loc) (mins : Dict Loc ℚ) : Prop where
  fresh : mins.get? i = none
  low : ∀ k q, mins.get? k = some q → eps ≤ q
  nd : mins.NodupKeys
  sub : ∀ k ∈ mins.keys, k ∈ V
  here : i ∈ V

structure LatestOk (i j : Loc) (mins latest : Dict Loc ℚ) (s : PruneState) : Prop where
  keys : latest.keys = mins.keys ++ [i]
  low : ∀ k q, latest.get? k = some q → eps ≤ q ∧ q ≤ s.flow (i, j)
  le : ∀ k q, latest.get? k = some q → k ≠ i → ∃ q', mins.get? k = some q' ∧ q ≤ q'

def Pre (V : List Loc) (arcs : List Arc) : PruneTask → PruneState → Prop
  | .call i mins, s => MinsOk V i mins ∧ Ordered arcs s
  | .edges i mins js, s => MinsOk V i mins ∧ Ordered arcs s ∧ (∀ j ∈ js, (i, j) ∈ arcs) ∧
      (∀ j, (i, j) ∈ arcs → j ∈ js ∨ Clear s i j)
  | .search i mins js j latest, s => MinsOk V i mins ∧ Ordered arcs s ∧ (∀ j ∈ js, (i, j) ∈ arcs) ∧
      (∀ j', (i, j') ∈ arcs → j' = j ∨ j' ∈ js ∨ Clear s i j') ∧ (i, j) ∈ arcs ∧
      mins.get? j = none ∧ eps ≤ s.flow (i, j) ∧ LatestOk i j mins latest s

def PruneTask.at : PruneTask → Loc
  | .call i _ => i
  | .edges i _ _ => i
  | .search i _ _ _ _ => i

def PruneTask.mins : PruneTask → Dict Loc ℚ
  | .call _ m => m
  | .edges _ m _ => m
  | .search _ m _ _ _ => m

structure Post (arcs : List Arc) (i : Loc) (mins : Dict Loc ℚ) (s s' : PruneState)
    (ret : Option (Loc × ℚ)) : Prop where
  mono : ∀ e, s'.flow e ≤ s.flow e
  nonneg : ∀ e, s'.flow e = s.flow e ∨ 0 ≤ s'.flow e
  frame : ∀ a b, a ∈ mins.keys → s'.flow (a, b) = s.flow (a, b)
  free : s.free <:+ s'.free
  ordered : Ordered arcs s'
  done : ret = none → i ∈ s'.free
  back : ∀ k r, ret = some (k, r) → eps ≤ r ∧ ∃ q, mins.get? k = some q ∧ r ≤ q
  net : ∀ v, netFlow arcs s'.flow v = netFlow arcs s.flow v +
    (match ret with | none => 0 | some (k, r) => unit (v = i) r - unit (v = k) r)
  less : ∀ k r, ret = some (k, r) → Plan.mass arcs s'.flow + eps ≤ Plan.mass arcs s.flow

theorem Post.trans {arcs : List Arc} {i : Loc} {mins : Dict Loc ℚ} {a b c : PruneState}
    {ret : Option (Loc × ℚ)} (m : ∀ e, b.flow e ≤ a.flow e)
    (n : ∀ e, b.flow e = a.flow e ∨ 0 ≤ b.flow e)
    (f : ∀ x y, x ∈ mins.keys → b.flow (x, y) = a.flow (x, y)) (fr : a.free <:+ b.free)
    (nt : ∀ v, netFlow arcs b.flow v = netFlow arcs a.flow v)
    (h : Post arcs i mins b c ret) : Post arcs i mins a c ret where
  mono e := (h.mono e).trans (m e)
  nonneg e := by
    rcases h.nonneg e with h1 | h1
    · rcases n e with h2 | h2
      · exact Or.inl (h1.trans h2)
      · right; rw [h1]; exact h2
    · exact Or.inr h1
  frame x y hx := (h.frame x y hx).trans (f x y hx)
  free := fr.trans h.free
  ordered := h.ordered
  done := h.done
  back := h.back
  net v := by rw [h.net v, nt v]
  less k r hr := (h.less k r hr).trans (mass_mono m)

theorem Ordered.reduce {arcs : List Arc} {s : PruneState} (h : Ordered arcs s) (e : Arc) {r : ℚ}
    (hr : 0 ≤ r) : Ordered arcs (s.reduce e r) := by
  intro a i b hs j hj hf
  refine h a i b hs j hj (lt_of_lt_of_le hf ?_)
  unfold PruneState.reduce
  dsimp only
  split
  · rename_i c; rw [c]; linarith
  · exact le_refl _

theorem reduce_le (s : PruneState) (e : Arc) {r : ℚ} (hr : 0 ≤ r) (e' : Arc) :
    (s.reduce e r).flow e' ≤ s.flow e' := by
  unfold PruneState.reduce
  dsimp only
  split
  · rename_i c; rw [c]; linarith
  · exact le_refl _

theorem reduce_nonneg (s : PruneState) (e : Arc) {r : ℚ} (hr : r ≤ s.flow e) (e' : Arc) :
    (s.reduce e r).flow e' = s.flow e' ∨ 0 ≤ (s.reduce e r).flow e' := by
  unfold PruneState.reduce
  dsimp only
  split
  · right; linarith
  · left; rfl

theorem reduce_frame (s : PruneState) (e : Arc) (r : ℚ) (e' : Arc) (h : e' ≠ e) :
    (s.reduce e r).flow e' = s.flow e' := by
  unfold PruneState.reduce
  dsimp only
  rw [if_neg h]

theorem reduce_self (s : PruneState) (e : Arc) (r : ℚ) : (s.reduce e r).flow e = s.flow e - r := by
  unfold PruneState.reduce
  dsimp only
  rw [if_pos rfl]

theorem Clear.mono {s s' : PruneState} {i j : Loc} (h : Clear s i j) (hf : s'.flow (i, j) ≤ s.flow (i, j))
    (hs : s.free <:+ s'.free) : Clear s' i j := by
  rcases h with h | h
  · exact Or.inl (hf.trans h)
  · exact Or.inr (hs.subset h)

theorem LatestOk.minsOk {V : List Loc} {arcs : List Arc} (G : Graph V arcs) {i j : Loc}
    {mins latest : Dict Loc ℚ} {s : PruneState} (hm : MinsOk V i mins)
    (hl : LatestOk i j mins latest s) (hij : (i, j) ∈ arcs) (hj : mins.get? j = none) :
    MinsOk V j latest := by
  have hi : i ∉ mins.keys := by
    rw [Dict.mem_keys_iff]; rintro ⟨v, hv⟩; rw [hm.fresh] at hv; cases hv
  refine ⟨?_, fun k q hk => (hl.low k q hk).1, ?_, ?_, (G.ends _ hij).2⟩
  · cases h : latest.get? j with
    | none => rfl
    | some v =>
      have : j ∈ latest.keys := (Dict.mem_keys_iff _ _).2 ⟨v, h⟩
      rw [hl.keys, List.mem_append, List.mem_singleton] at this
      rcases this with h | h
      · obtain ⟨v, hv⟩ := (Dict.mem_keys_iff _ _).1 h
        rw [hj] at hv; cases hv
      · exact absurd h.symm (G.noSelf _ hij)
  · unfold Dict.NodupKeys
    rw [hl.keys]
    exact List.Nodup.append hm.nd (List.nodup_singleton i) (by simpa using hi)
  · intro k hk
    rw [hl.keys, List.mem_append, List.mem_singleton] at hk
    rcases hk with h | h
    · exact hm.sub k h
    · rw [h]; exact hm.here

theorem latest_start {V : List Loc} {i j : Loc} {mins : Dict Loc ℚ} {s : PruneState}
    (hm : MinsOk V i mins) (hf : eps < s.flow (i, j)) :
    LatestOk i j mins ((capMins mins (s.flow (i, j))).set i (s.flow (i, j))) s := by
  have hno : (capMins mins (s.flow (i, j))).has i = false := by
    rw [Dict.has_eq_false_iff, get?_capMins, hm.fresh]; rfl
  refine ⟨?_, ?_, ?_⟩
  · rw [Dict.keys_set, hno, keys_capMins]; rfl
  · intro k q hk
    rw [Dict.get?_set] at hk
    split at hk
    · injection hk with hk; subst hk; exact ⟨hf.le, le_refl _⟩
    · rw [get?_capMins] at hk
      cases h : mins.get? k with
      | none => rw [h] at hk; cases hk
      | some x =>
        rw [h] at hk; injection hk with hk; subst hk
        exact ⟨le_min (hm.low k x h) hf.le, min_le_right _ _⟩
  · intro k q hk hki
    rw [Dict.get?_set, if_neg (Ne.symm hki), get?_capMins] at hk
    cases h : mins.get? k with
    | none => rw [h] at hk; cases hk
    | some x =>
      rw [h] at hk; injection hk with hk; subst hk
      exact ⟨x, rfl, min_le_left _ _⟩

theorem latest_next {i j : Loc} {mins latest : Dict Loc ℚ} {s s' : PruneState}
    (hl : LatestOk i j mins latest s) (hf : eps ≤ s'.flow (i, j)) :
    LatestOk i j mins (capMins latest (s'.flow (i, j))) s' := by
  refine ⟨by rw [keys_capMins]; exact hl.keys, ?_, ?_⟩
  · intro k q hk
    rw [get?_capMins] at hk
    cases h : latest.get? k with
    | none => rw [h] at hk; cases hk
    | some x =>
      rw [h] at hk; injection hk with hk; subst hk
      exact ⟨le_min (hl.low k x h).1 hf, min_le_right _ _⟩
  · intro k q hk hki
    rw [get?_capMins] at hk
    cases h : latest.get? k with
    | none => rw [h] at hk; cases hk
    | some x =>
      rw [h] at hk; injection hk with hk; subst hk
      obtain ⟨q', h1, h2⟩ := hl.le k x h hki
      exact ⟨q', h1, (min_le_left _ _).trans h2⟩

/-- What is known when the recursive call on `j` has returned. -/
theorem after_call {V : List Loc} {arcs : List Arc} (G : Graph V arcs) {i j : Loc}
    {mins latest : Dict Loc ℚ} {js : List Loc} {s s1 : PruneState} {ret : Option (Loc × ℚ)}
    (pre : Pre V arcs (.search i mins js j latest) s) (post : Post arcs j latest s s1 ret) :
    (∀ b, s1.flow (i, b) = s.flow (i, b)) ∧
    (∀ a b, a ∈ mins.keys → s1.flow (a, b) = s.flow (a, b)) ∧
    (ret = none → Pre V arcs (.edges i mins js) s1 ∧
      ∀ o s', Post arcs i mins s1 s' o → Post arcs i mins s s' o) ∧
    (∀ k r, ret = some (k, r) → eps ≤ r ∧ r ≤ s1.flow (i, j) ∧
      (k ≠ i → Post arcs i mins s (s1.reduce (i, j) r) (some (k, r))) ∧
      (k = i →
        Plan.mass arcs (s1.reduce (i, j) r).flow + eps ≤ Plan.mass arcs s.flow ∧
        (∀ o s', Post arcs i mins (s1.reduce (i, j) r) s' o → Post arcs i mins s s' o) ∧
        (Clear (s1.reduce (i, j) r) i j → Pre V arcs (.edges i mins js) (s1.reduce (i, j) r)) ∧
        (eps ≤ (s1.reduce (i, j) r).flow (i, j) →
          Pre V arcs (.search i mins js j
            (capMins latest ((s1.reduce (i, j) r).flow (i, j)))) (s1.reduce (i, j) r)))) := by
  obtain ⟨hm, ho, hjs, hcl, hij, hjn, hfl, hl⟩ := pre
  have hi : i ∉ mins.keys := by
    rw [Dict.mem_keys_iff]; rintro ⟨v, hv⟩; rw [hm.fresh] at hv; cases hv
  have f1 : ∀ b, s1.flow (i, b) = s.flow (i, b) :=
    fun b => post.frame i b (by rw [hl.keys]; simp)
  have f2 : ∀ a b, a ∈ mins.keys → s1.flow (a, b) = s.flow (a, b) :=
    fun a b ha => post.frame a b (by rw [hl.keys]; simp [ha])
  refine ⟨f1, f2, ?_, ?_⟩
  · intro hr
    subst hr
    refine ⟨⟨hm, post.ordered, hjs, ?_⟩, ?_⟩
    · intro j' hj'
      rcases hcl j' hj' with h | h | h
      · subst h; exact Or.inr (Or.inr (post.done rfl))
      · exact Or.inl h
      · exact Or.inr (h.mono (le_of_eq (f1 j')) post.free)
    · intro o s' h
      refine Post.trans post.mono post.nonneg f2 post.free (fun v => ?_) h
      rw [post.net v]; exact add_zero _
  · intro k r hr
    subst hr
    obtain ⟨r1, q, hq, r2⟩ := post.back k r rfl
    have r0 : (0 : ℚ) ≤ r := eps_pos.le.trans r1
    have r3 : r ≤ s1.flow (i, j) := by
      rw [f1]; exact r2.trans (hl.low k q hq).2
    have pos : 0 ≤ s1.flow (i, j) := r0.trans r3
    have mono : ∀ e, (s1.reduce (i, j) r).flow e ≤ s.flow e :=
      fun e => (reduce_le s1 _ r0 e).trans (post.mono e)
    have nonneg : ∀ e, (s1.reduce (i, j) r).flow e = s.flow e ∨ 0 ≤ (s1.reduce (i, j) r).flow e := by
      intro e
      rcases reduce_nonneg s1 (i, j) r3 e with h | h
      · rw [h]; exact post.nonneg e
      · exact Or.inr h
    have frame : ∀ a b, a ∈ mins.keys → (s1.reduce (i, j) r).flow (a, b) = s.flow (a, b) := by
      intro a b ha
      rw [reduce_frame _ _ _ _ (fun h => hi (by rw [← (Prod.mk.inj h).1]; exact ha)), f2 a b ha]
    have mass' : Plan.mass arcs (s1.reduce (i, j) r).flow + eps ≤ Plan.mass arcs s.flow := by
      rw [mass_reduce G.nodup s1 hij r3 pos]
      have := mass_mono (arcs := arcs) post.mono
      linarith
    have net : ∀ v, netFlow arcs (s1.reduce (i, j) r).flow v =
        netFlow arcs s.flow v + (unit (v = i) r - unit (v = k) r) := by
      intro v
      rw [net_reduce G.nodup s1 hij, post.net v]
      dsimp only
      ring
    refine ⟨r1, r3, ?_, ?_⟩
    · intro hk
      refine ⟨mono, nonneg, frame, post.free, post.ordered.reduce _ r0, (fun h => by cases h),
        ?_, net, ?_⟩
      · intro k' r' h
        injection h with h
        obtain ⟨rfl, rfl⟩ := Prod.mk.inj h
        obtain ⟨q', h1, h2⟩ := hl.le k q hq hk
        exact ⟨r1, q', h1, r2.trans h2⟩
      · intro _ _ _; exact mass'
    · rintro rfl
      have netk : ∀ v, netFlow arcs (s1.reduce (k, j) r).flow v = netFlow arcs s.flow v := by
        intro v; rw [net v]; ring
      have clear : ∀ j', (k, j') ∈ arcs → j' = j ∨ j' ∈ js ∨ Clear (s1.reduce (k, j) r) k j' := by
        intro j' hj'
        rcases hcl j' hj' with h | h | h
        · exact Or.inl h
        · exact Or.inr (Or.inl h)
        · exact Or.inr (Or.inr (h.mono (mono _) post.free))
      refine ⟨mass', fun o s' h => Post.trans mono nonneg frame post.free netk h, ?_, ?_⟩
      · intro hc
        refine ⟨hm, post.ordered.reduce _ r0, hjs, ?_⟩
        intro j' hj'
        rcases clear j' hj' with h | h | h
        · subst h; exact Or.inr hc
        · exact Or.inl h
        · exact Or.inr h
      · intro he
        exact ⟨hm, post.ordered.reduce _ r0, hjs, clear, hij, hjn, he, latest_next hl he⟩

theorem clear_of {s : PruneState} {i j : Loc} (h : |s.flow (i, j)| < eps ∨ j ∈ s.free) :
    Clear s i j := by
  rcases h with h | h
  · exact Or.inl ((le_abs_self _).trans h.le)
  · exact Or.inr h

theorem big_of {s : PruneState} {i j : Loc} (h : ¬ (|s.flow (i, j)| < eps ∨ j ∈ s.free))
    (h0 : 0 ≤ s.flow (i, j)) : eps ≤ s.flow (i, j) := by
  push Not at h
  rw [abs_of_nonneg h0] at h
  exact h.1

theorem finish {V : List Loc} {arcs : List Arc} (G : Graph V arcs) {i : Loc} {mins : Dict Loc ℚ}
    {s : PruneState} (pre : Pre V arcs (.edges i mins []) s) :
    Post arcs i mins s (s.setFree i) none := by
  obtain ⟨hm, ho, _, hcl⟩ := pre
  refine ⟨fun _ => le_refl _, fun _ => Or.inl rfl, fun _ _ _ => rfl, ?_, ?_, ?_,
    (fun _ _ h => by cases h), fun v => (add_zero _).symm, (fun _ _ h => by cases h)⟩
  · unfold PruneState.setFree
    dsimp only
    split
    · exact List.suffix_refl _
    · exact List.suffix_cons _ _
  · intro a k b hs j hj hf
    unfold PruneState.setFree at hs hf
    dsimp only at hs hf
    split at hs
    · exact ho a k b hs j hj hf
    · cases a with
      | nil =>
        simp only [List.nil_append, List.cons.injEq] at hs
        obtain ⟨rfl, rfl⟩ := hs
        rcases hcl j hj with h | h | h
        · cases h
        · exact absurd hf (not_lt.2 h)
        · exact h
      | cons a0 a =>
        simp only [List.cons_append, List.cons.injEq] at hs
        exact ho a k b hs.2 j hj hf
  · intro _
    unfold PruneState.setFree
    dsimp only
    split
    · assumption
    · simp

theorem close_loop {V : List Loc} {arcs : List Arc} (G : Graph V arcs) {i j : Loc}
    {js : List Loc} {mins : Dict Loc ℚ} {s : PruneState}
    (pre : Pre V arcs (.edges i mins (j :: js)) s) (hf : eps < s.flow (i, j))
    (hj : mins.has j = true) :
    let r := ((((capMins mins (s.flow (i, j))).set i (s.flow (i, j))).get? j).getD 0)
    Post arcs i mins s (s.reduce (i, j) r) (some (j, r)) := by
  intro r
  obtain ⟨hm, ho, hjs, hcl⟩ := pre
  have hij : (i, j) ∈ arcs := hjs j (by simp)
  have hi : i ∉ mins.keys := by
    rw [Dict.mem_keys_iff]; rintro ⟨v, hv⟩; rw [hm.fresh] at hv; cases hv
  obtain ⟨q, hq⟩ := (Dict.has_iff _ _).1 hj
  have hr : r = min q (s.flow (i, j)) := by
    show ((((capMins mins (s.flow (i, j))).set i (s.flow (i, j))).get? j).getD 0) = _
    rw [Dict.get?_set, if_neg (G.noSelf _ hij), get?_capMins, hq]; rfl
  have r1 : eps ≤ r := by rw [hr]; exact le_min (hm.low j q hq) hf.le
  have r2 : r ≤ q := by rw [hr]; exact min_le_left _ _
  have r3 : r ≤ s.flow (i, j) := by rw [hr]; exact min_le_right _ _
  have r0 : 0 ≤ r := eps_pos.le.trans r1
  clear_value r
  refine ⟨reduce_le s _ r0, reduce_nonneg s _ r3, ?_, List.suffix_refl _, ho.reduce _ r0,
    (fun h => by cases h), ?_, ?_, ?_⟩
  · intro a b ha
    exact reduce_frame _ _ _ _ (fun h => hi (by rw [← (Prod.mk.inj h).1]; exact ha))
  · intro k' r' h
    injection h with h
    obtain ⟨rfl, rfl⟩ := Prod.mk.inj h
    exact ⟨r1, q, hq, r2⟩
  · intro v
    rw [net_reduce G.nodup s hij]
    dsimp only
    ring
  · intro _ _ _
    rw [mass_reduce G.nodup s hij r3 (r0.trans r3)]
    linarith

theorem pre_search {V : List Loc} {arcs : List Arc} {i j : Loc}
    {js : List Loc} {mins : Dict Loc ℚ} {s : PruneState}
    (pre : Pre V arcs (.edges i mins (j :: js)) s) (hf : eps < s.flow (i, j))
    (hj : ¬ mins.has j = true) :
    Pre V arcs (.search i mins js j
      ((capMins mins (s.flow (i, j))).set i (s.flow (i, j)))) s := by
  obtain ⟨hm, ho, hjs, hcl⟩ := pre
  refine ⟨hm, ho, fun a ha => hjs a (by simp [ha]), ?_, hjs j (by simp),
    (Dict.has_eq_false_iff _ _).1 (Bool.eq_false_iff.2 hj), hf.le, latest_start hm hf⟩
  intro j' hj'
  rcases hcl j' hj' with h | h
  · rcases List.mem_cons.1 h with h | h
    · exact Or.inl h
    · exact Or.inr (Or.inl h)
  · exact Or.inr (Or.inr h)

theorem pre_skip {V : List Loc} {arcs : List Arc} {i j : Loc}
    {js : List Loc} {mins : Dict Loc ℚ} {s : PruneState}
    (pre : Pre V arcs (.edges i mins (j :: js)) s) (hc : ¬ (eps < s.flow (i, j) ∧ j ∉ s.free)) :
    Pre V arcs (.edges i mins js) s := by
  obtain ⟨hm, ho, hjs, hcl⟩ := pre
  refine ⟨hm, ho, fun a ha => hjs a (by simp [ha]), ?_⟩
  intro j' hj'
  rcases hcl j' hj' with h | h
  · rcases List.mem_cons.1 h with h | h
    · subst h
      right
      by_cases c : j' ∈ s.free
      · exact Or.inr c
      · exact Or.inl (not_lt.1 fun h => hc ⟨h, c⟩)
    · exact Or.inl h
  · exact Or.inr h

theorem pre_call {V : List Loc} {arcs : List Arc} {i : Loc} {mins : Dict Loc ℚ} {s : PruneState}
    (pre : Pre V arcs (.call i mins) s) : Pre V arcs (.edges i mins (succOf arcs i)) s :=
  ⟨pre.1, pre.2, fun _ h => mem_succOf.1 h, fun _ h => Or.inl (mem_succOf.2 h)⟩

/-- `_prune_loop` keeps its promises whenever it returns. -/
theorem pruneLoop_sound {V : List Loc} {arcs : List Arc} (G : Graph V arcs) (n : Nat) :
    ∀ task s s' ret, Pre V arcs task s → pruneLoop (succOf arcs) n task s = some (s', ret) →
      Post arcs task.at task.mins s s' ret := by
  induction n with
  | zero => intro task s s' ret _ h; cases h
  | succ n ih =>
    intro task s s' ret pre h
    match task with
    | .call i mins =>
      rw [pruneLoop] at h
      have := ih _ _ _ _ (pre_call pre) h
      exact this
    | .edges i mins [] =>
      rw [pruneLoop] at h
      injection h with h
      obtain ⟨rfl, rfl⟩ := Prod.mk.inj h
      exact finish G pre
    | .edges i mins (j :: js) =>
      rw [pruneLoop] at h
      split at h
      · rename_i hc
        split at h
        · rename_i hj
          injection h with h
          obtain ⟨rfl, rfl⟩ := Prod.mk.inj h
          exact close_loop G pre hc.1 hj
        · rename_i hj
          have := ih _ _ _ _ (pre_search pre hc.1 hj) h
          exact this
      · rename_i hc
        have := ih _ _ _ _ (pre_skip pre hc) h
        exact this
    | .search i mins js j latest =>
      rw [pruneLoop] at h
      have hmj := LatestOk.minsOk G pre.1 pre.2.2.2.2.2.2.2 pre.2.2.2.2.1 pre.2.2.2.2.2.1
      cases hc : pruneLoop (succOf arcs) n (.call j latest) s with
      | none => rw [hc] at h; cases h
      | some o =>
        obtain ⟨s1, ret1⟩ := o
        rw [hc] at h
        have post := ih _ _ _ _ (show Pre V arcs (.call j latest) s from ⟨hmj, pre.2.1⟩) hc
        obtain ⟨_, _, k3, k4⟩ := after_call G pre post
        cases ret1 with
        | none =>
          dsimp only at h
          obtain ⟨p1, p2⟩ := k3 rfl
          have := ih _ _ _ _ p1 h
          exact p2 _ _ this
        | some kr =>
          obtain ⟨k, r⟩ := kr
          dsimp only at h
          obtain ⟨_, hr, p1, p2⟩ := k4 k r rfl
          split at h
          · rename_i hk
            injection h with h
            obtain ⟨rfl, rfl⟩ := Prod.mk.inj h
            exact p1 hk
          · rename_i hk
            push Not at hk
            obtain ⟨_, q1, q2, q3⟩ := p2 hk
            split at h
            · rename_i hcl
              have := ih _ _ _ _ (q2 (clear_of hcl)) h
              exact q1 _ _ this
            · rename_i hcl
              have := ih _ _ _ _ (q3 (big_of hcl (by rw [reduce_self]; linarith))) h
              exact q1 _ _ this

/-! ## Termination -/

theorem pruneLoop_fuel {succ : Loc → List Loc} (n : Nat) :
    ∀ task s o, pruneLoop succ n task s = some o → pruneLoop succ (n + 1) task s = some o := by
  induction n with
  | zero => intro task s o h; cases h
  | succ n ih =>
    intro task s o h
    match task with
    | .call i mins =>
      rw [pruneLoop] at h ⊢
      exact ih _ _ _ h
    | .edges i mins [] =>
      rw [pruneLoop] at h ⊢
      exact h
    | .edges i mins (j :: js) =>
      rw [pruneLoop] at h ⊢
      split at h
      · rename_i hc
        rw [if_pos hc]
        dsimp only at h ⊢
        split at h
        · rename_i hj; rw [if_pos hj]; exact h
        · rename_i hj; rw [if_neg hj]; exact ih _ _ _ h
      · rename_i hc
        rw [if_neg hc]
        exact ih _ _ _ h
    | .search i mins js j latest =>
      rw [pruneLoop] at h ⊢
      cases hc : pruneLoop succ n (.call j latest) s with
      | none => rw [hc] at h; cases h
      | some o1 =>
        rw [hc] at h
        rw [ih _ _ _ hc]
        obtain ⟨s1, ret1⟩ := o1
        cases ret1 with
        | none => exact ih _ _ _ h
        | some kr =>
          obtain ⟨k, r⟩ := kr
          dsimp only at h ⊢
          split at h
          · rename_i hk; rw [if_pos hk]; exact h
          · rename_i hk
            rw [if_neg hk]
            split at h
            · rename_i hcl; rw [if_pos hcl]; exact ih _ _ _ h
            · rename_i hcl; rw [if_neg hcl]; exact ih _ _ _ h

theorem pruneLoop_le {succ : Loc → List Loc} {n m : Nat} (hnm : n ≤ m) {task : PruneTask}
    {s : PruneState} {o : PruneState × Option (Loc × ℚ)}
    (h : pruneLoop succ n task s = some o) : pruneLoop succ m task s = some o := by
  induction hnm with
  | refl => exact h
  | step _ ih => exact pruneLoop_fuel _ _ _ _ ih

/-- How many more reductions are possible at most. -/
def rounds (arcs : List Arc) (f : Arc → ℚ) : Nat := ⌊mass arcs f / eps⌋₊

theorem rounds_mono {arcs : List Arc} {f g : Arc → ℚ} (h : mass arcs g ≤ mass arcs f) :
    rounds arcs g ≤ rounds arcs f := by
  unfold rounds
  exact Nat.floor_le_floor (div_le_div_of_nonneg_right h eps_pos.le)

theorem rounds_lt {arcs : List Arc} {f g : Arc → ℚ} (h : mass arcs g + eps ≤ mass arcs f) :
    rounds arcs g < rounds arcs f := by
  unfold rounds
  rw [← Nat.succ_le_iff, Nat.succ_eq_add_one, Nat.le_floor_iff (div_nonneg (mass_nonneg _ _) eps_pos.le),
    le_div_iff₀ eps_pos]
  push_cast
  have := Nat.floor_le (div_nonneg (mass_nonneg arcs g) eps_pos.le)
  rw [le_div_iff₀ eps_pos] at this
  linarith

def PruneTask.size (arcs : List Arc) : PruneTask → Nat
  | .call i _ => 2 * (succOf arcs i).length + 1
  | .edges _ _ js => 2 * js.length
  | .search _ _ js _ _ => 2 * js.length + 1

theorem depth_lt {V : List Loc} {i : Loc} {mins : Dict Loc ℚ} (h : MinsOk V i mins) :
    mins.keys.length < V.length := by
  have hi : i ∉ mins.keys := by
    rw [Dict.mem_keys_iff]; rintro ⟨v, hv⟩; rw [h.fresh] at hv; cases hv
  have hs : (i :: mins.keys) ⊆ V := by
    intro k hk
    rcases List.mem_cons.1 hk with e | e
    · rw [e]; exact h.here
    · exact h.sub k e
  have := (List.subperm_of_subset (List.nodup_cons.2 ⟨hi, h.nd⟩) hs).length_le
  rw [List.length_cons] at this
  omega

theorem pruneLoop_total {V : List Loc} {arcs : List Arc} (G : Graph V arcs) :
    ∀ N D K task s, Pre V arcs task s → rounds arcs s.flow ≤ N →
      V.length - task.mins.keys.length ≤ D → task.size arcs ≤ K →
      ∃ n o, pruneLoop (succOf arcs) n task s = some o := by
  intro N
  induction N using Nat.strong_induction_on with | _ N ihN => ?_
  intro D
  induction D using Nat.strong_induction_on with | _ D ihD => ?_
  intro K
  induction K using Nat.strong_induction_on with | _ K ihK => ?_
  intro task s pre hN hD hK
  match task with
  | .call i mins =>
    obtain ⟨n, o, h⟩ := ihK (2 * (succOf arcs i).length) (by simp only [PruneTask.size] at hK; omega)
      (.edges i mins (succOf arcs i)) s (pre_call pre) hN hD (le_refl _)
    exact ⟨n + 1, o, by rw [pruneLoop]; exact h⟩
  | .edges i mins [] => exact ⟨1, (s.setFree i, none), by rw [pruneLoop]⟩
  | .edges i mins (j :: js) =>
    simp only [PruneTask.size, List.length_cons] at hK
    by_cases hc : eps < s.flow (i, j) ∧ j ∉ s.free
    · by_cases hj : mins.has j = true
      · exact ⟨1, _, by rw [pruneLoop, if_pos hc]; dsimp only; rw [if_pos hj]⟩
      · obtain ⟨n, o, h⟩ := ihK (2 * js.length + 1) (by omega) _ s (pre_search pre hc.1 hj) hN hD
          (le_refl _)
        exact ⟨n + 1, o, by rw [pruneLoop, if_pos hc]; dsimp only; rw [if_neg hj]; exact h⟩
    · obtain ⟨n, o, h⟩ := ihK (2 * js.length) (by omega) _ s (pre_skip pre hc) hN hD (le_refl _)
      exact ⟨n + 1, o, by rw [pruneLoop, if_neg hc]; exact h⟩
  | .search i mins js j latest =>
    simp only [PruneTask.size] at hK
    have hlt := depth_lt pre.1
    have hl := pre.2.2.2.2.2.2.2
    have hmj := LatestOk.minsOk G pre.1 hl pre.2.2.2.2.1 pre.2.2.2.2.2.1
    have hd : V.length - latest.keys.length < D := by
      rw [hl.keys, List.length_append, List.length_singleton]
      simp only [PruneTask.mins] at hD
      omega
    obtain ⟨n1, ⟨s1, ret1⟩, h1⟩ := ihD _ hd _ (.call j latest) s ⟨hmj, pre.2.1⟩ hN (le_refl _)
      (le_refl _)
    have post := pruneLoop_sound G _ _ _ _ _ (show Pre V arcs (.call j latest) s from ⟨hmj, pre.2.1⟩) h1
    obtain ⟨_, _, k3, k4⟩ := after_call G pre post
    cases ret1 with
    | none =>
      obtain ⟨p1, _⟩ := k3 rfl
      obtain ⟨n2, o, h2⟩ := ihK (2 * js.length) (by omega) _ s1 p1
        ((rounds_mono (mass_mono post.mono)).trans hN) hD (le_refl _)
      refine ⟨max n1 n2 + 1, o, ?_⟩
      rw [pruneLoop, pruneLoop_le (le_max_left _ _) h1]
      exact pruneLoop_le (le_max_right _ _) h2
    | some kr =>
      obtain ⟨k, r⟩ := kr
      obtain ⟨_, hr, p1, p2⟩ := k4 k r rfl
      by_cases hk : k = i
      · obtain ⟨hmass, _, q2, q3⟩ := p2 hk
        have hlt := (rounds_lt hmass).trans_le hN
        by_cases hcl : |(s1.reduce (i, j) r).flow (i, j)| < eps ∨ j ∈ (s1.reduce (i, j) r).free
        · obtain ⟨n2, o, h2⟩ := ihN _ hlt _ _ _ _ (q2 (clear_of hcl)) (le_refl _) (le_refl _) (le_refl _)
          refine ⟨max n1 n2 + 1, o, ?_⟩
          rw [pruneLoop, pruneLoop_le (le_max_left _ _) h1]
          dsimp only
          rw [if_neg (not_not.2 hk), if_pos hcl]
          exact pruneLoop_le (le_max_right _ _) h2
        · obtain ⟨n2, o, h2⟩ := ihN _ hlt _ _ _ _ (q3 (big_of hcl (by rw [reduce_self]; linarith)))
            (le_refl _) (le_refl _) (le_refl _)
          refine ⟨max n1 n2 + 1, o, ?_⟩
          rw [pruneLoop, pruneLoop_le (le_max_left _ _) h1]
          dsimp only
          rw [if_neg (not_not.2 hk), if_neg hcl]
          exact pruneLoop_le (le_max_right _ _) h2
      · exact ⟨n1 + 1, _, by rw [pruneLoop, h1]; dsimp only; rw [if_pos hk]⟩

/-! ## The outer loops -/

structure Outer (arcs : List Arc) (s s' : PruneState) : Prop where
  mono : ∀ e, s'.flow e ≤ s.flow e
  nonneg : ∀ e, s'.flow e = s.flow e ∨ 0 ≤ s'.flow e
  free : s.free <:+ s'.free
  ordered : Ordered arcs s'
  net : ∀ v, netFlow arcs s'.flow v = netFlow arcs s.flow v

theorem Outer.trans {arcs : List Arc} {a b c : PruneState} (h : Outer arcs a b)
    (h' : Outer arcs b c) : Outer arcs a c where
  mono e := (h'.mono e).trans (h.mono e)
  nonneg e := by
    rcases h'.nonneg e with h1 | h1
    · rw [h1]; exact h.nonneg e
    · exact Or.inr h1
  free := h.free.trans h'.free
  ordered := h'.ordered
  net v := (h'.net v).trans (h.net v)

theorem Outer.refl {arcs : List Arc} {s : PruneState} (h : Ordered arcs s) : Outer arcs s s :=
  ⟨fun _ => le_refl _, fun _ => Or.inl rfl, List.suffix_refl _, h, fun _ => rfl⟩

theorem root_call {V : List Loc} {arcs : List Arc} (G : Graph V arcs) {l : Loc} (hl : l ∈ V)
    {s s' : PruneState} {ret : Option (Loc × ℚ)} (ho : Ordered arcs s) {n : Nat}
    (h : pruneLoop (succOf arcs) n (.call l []) s = some (s', ret)) :
    Outer arcs s s' ∧ l ∈ s'.free := by
  have post := pruneLoop_sound G n _ _ _ _ (show Pre V arcs (.call l []) s from
    ⟨⟨rfl, (fun _ _ h => by cases h), List.nodup_nil, (fun _ h => by cases h), hl⟩, ho⟩) h
  have hr : ret = none := by
    cases ret with
    | none => rfl
    | some kr =>
      obtain ⟨_, q, hq, _⟩ := post.back kr.1 kr.2 rfl
      cases hq
  subst hr
  exact ⟨⟨post.mono, post.nonneg, post.free, post.ordered, fun v => by
    rw [post.net v]; exact add_zero _⟩, post.done rfl⟩

theorem pruneAt_sound {V : List Loc} {arcs : List Arc} (G : Graph V arcs) {l : Loc} (hl : l ∈ V)
    (n : Nat) : ∀ s s', Ordered arcs s → pruneAt (succOf arcs) n l s = some s' →
      Outer arcs s s' ∧ l ∈ s'.free := by
  induction n with
  | zero => intro s s' _ h; cases h
  | succ n ih =>
    intro s s' ho h
    rw [pruneAt] at h
    split at h
    · rename_i hf
      injection h with h; subst h
      exact ⟨Outer.refl ho, hf⟩
    · cases hc : pruneLoop (succOf arcs) n (.call l []) s with
      | none => rw [hc] at h; cases h
      | some o =>
        rw [hc, Option.bind_some] at h
        obtain ⟨o1, _⟩ := root_call G hl ho hc
        obtain ⟨o2, f2⟩ := ih _ _ o1.ordered h
        exact ⟨o1.trans o2, f2⟩

theorem pruneAt_total {V : List Loc} {arcs : List Arc} (G : Graph V arcs) {l : Loc} (hl : l ∈ V)
    {s : PruneState} (ho : Ordered arcs s) :
    ∃ n, ∀ m, n ≤ m → (pruneAt (succOf arcs) m l s).isSome := by
  by_cases hf : l ∈ s.free
  · refine ⟨1, fun m hm => ?_⟩
    obtain ⟨k, rfl⟩ := Nat.exists_eq_add_of_le hm
    rw [Nat.add_comm, pruneAt, if_pos hf]; rfl
  · obtain ⟨n, ⟨s', ret⟩, h⟩ := pruneLoop_total G _ _ _ (.call l []) s
      ⟨⟨rfl, (fun _ _ h => by cases h), List.nodup_nil, (fun _ h => by cases h), hl⟩, ho⟩
      (le_refl _) (le_refl _) (le_refl _)
    refine ⟨n + 2, fun m hm => ?_⟩
    obtain ⟨k, rfl⟩ := Nat.exists_eq_add_of_le hm
    have e : n + 2 + k = (n + k + 1) + 1 := by omega
    rw [e, pruneAt, if_neg hf, pruneLoop_le (by omega) h, Option.bind_some, pruneAt,
      if_pos (root_call G hl ho h).2]
    rfl

theorem pruneAll_sound {V : List Loc} {arcs : List Arc} (G : Graph V arcs) (n : Nat)
    (L : List Loc) (hL : ∀ l ∈ L, l ∈ V) : ∀ s s', Ordered arcs s →
      pruneAll (succOf arcs) n L s = some s' → Outer arcs s s' ∧ ∀ l ∈ L, l ∈ s'.free := by
  induction L with
  | nil =>
    intro s s' ho h
    rw [pruneAll] at h; injection h with h; subst h
    exact ⟨Outer.refl ho, fun _ h => by cases h⟩
  | cons l L ih =>
    intro s s' ho h
    rw [pruneAll] at h
    cases hc : pruneAt (succOf arcs) n l s with
    | none => rw [hc] at h; cases h
    | some s1 =>
      rw [hc, Option.bind_some] at h
      obtain ⟨o1, f1⟩ := pruneAt_sound G (hL l (by simp)) n _ _ ho hc
      obtain ⟨o2, f2⟩ := ih (fun a ha => hL a (by simp [ha])) _ _ o1.ordered h
      refine ⟨o1.trans o2, fun a ha => ?_⟩
      rcases List.mem_cons.1 ha with e | e
      · subst e; exact o2.free.subset f1
      · exact f2 a e

theorem pruneAt_fuel {succ : Loc → List Loc} {l : Loc} (n : Nat) : ∀ s s',
    pruneAt succ n l s = some s' → pruneAt succ (n + 1) l s = some s' := by
  induction n with
  | zero => intro s s' h; cases h
  | succ n ih =>
    intro s s' h
    rw [pruneAt] at h ⊢
    split at h
    · rename_i hf; rw [if_pos hf]; exact h
    · rename_i hf
      rw [if_neg hf]
      cases hc : pruneLoop succ n (.call l []) s with
      | none => rw [hc] at h; cases h
      | some o =>
        rw [hc, Option.bind_some] at h
        rw [pruneLoop_fuel _ _ _ _ hc, Option.bind_some]
        exact ih _ _ h

theorem pruneAt_le {succ : Loc → List Loc} {l : Loc} {n m : Nat} (hnm : n ≤ m) {s s' : PruneState}
    (h : pruneAt succ n l s = some s') : pruneAt succ m l s = some s' := by
  induction hnm with
  | refl => exact h
  | step _ ih => exact pruneAt_fuel _ _ _ ih

theorem pruneAll_le {succ : Loc → List Loc} {n m : Nat} (hnm : n ≤ m) (L : List Loc) :
    ∀ s s', pruneAll succ n L s = some s' → pruneAll succ m L s = some s' := by
  induction L with
  | nil => intro s s' h; exact h
  | cons l L ih =>
    intro s s' h
    rw [pruneAll] at h ⊢
    cases hc : pruneAt succ n l s with
    | none => rw [hc] at h; cases h
    | some s1 =>
      rw [hc, Option.bind_some] at h
      rw [pruneAt_le hnm hc, Option.bind_some]
      exact ih _ _ h

theorem pruneAll_total {V : List Loc} {arcs : List Arc} (G : Graph V arcs)
    (L : List Loc) (hL : ∀ l ∈ L, l ∈ V) : ∀ s, Ordered arcs s →
      ∃ n s', pruneAll (succOf arcs) n L s = some s' := by
  induction L with
  | nil => intro s _; exact ⟨0, s, rfl⟩
  | cons l L ih =>
    intro s ho
    obtain ⟨n1, h1⟩ := pruneAt_total G (hL l (by simp)) ho
    obtain ⟨s1, h1⟩ := Option.isSome_iff_exists.1 (h1 n1 (le_refl _))
    obtain ⟨o1, _⟩ := pruneAt_sound G (hL l (by simp)) n1 _ _ ho h1
    obtain ⟨n2, s2, h2⟩ := ih (fun a ha => hL a (by simp [ha])) s1 o1.ordered
    refine ⟨max n1 n2, s2, ?_⟩
    rw [pruneAll, pruneAt_le (le_max_left _ _) h1, Option.bind_some]
    exact pruneAll_le (le_max_right _ _) L _ _ h2

/-! ## No loops are left -/

theorem earlier {arcs : List Arc} {s : PruneState} (ho : Ordered arcs s) {a b : Loc}
    (h : Relation.TransGen (Hot arcs s.flow eps) a b) :
    ∀ x y, s.free = x ++ a :: y → b ∈ y := by
  induction h with
  | single h => intro x y hs; exact ho x a y hs _ h.1 h.2
  | tail _ h ih =>
    intro x y hs
    have hb := ih x y hs
    obtain ⟨y1, y2, rfl⟩ := List.append_of_mem hb
    have := ho (x ++ a :: y1) _ y2 (by rw [hs]; simp) _ h.1 h.2
    simp [this]

theorem noLoop_of {arcs : List Arc} {s : PruneState} (ho : Ordered arcs s)
    (hall : ∀ e ∈ arcs, e.1 ∈ s.free) : NoLoop arcs s.flow eps := by
  intro v hv
  have hm : v ∈ s.free := by
    obtain ⟨w, h, _⟩ := Relation.TransGen.head'_iff.1 hv
    exact hall _ h.1
  -- take the last occurrence
  have key : ∀ y : List Loc, (∃ x, s.free = x ++ y) → v ∉ y := by
    intro y
    induction y with
    | nil => simp
    | cons c y ih =>
      rintro ⟨x, hx⟩ hmem
      have hy := ih ⟨x ++ [c], by rw [hx]; simp⟩
      rcases List.mem_cons.1 hmem with e | e
      · subst e; exact hy (earlier ho hv x y hx)
      · exact hy e
  exact key s.free ⟨[], rfl⟩ hm

end Plan

open Plan Spec

/-- **C46.** On a graph with distinct links, no link from a location to itself and
all ends among the locations: loop pruning finishes, and whenever it does the
flows it returns have no directed cycle of links above the tolerance of 1e-5;
no flow has increased or become negative; and at every location the flow in
minus the flow out is what it was. -/
theorem C46_prune_loops (locs : List Loc) (arcs : List Arc) (f : Arc → ℚ) (hn : arcs.Nodup)
    (hs : ∀ e ∈ arcs, e.1 ≠ e.2) (he : ∀ e ∈ arcs, e.1 ∈ locs ∧ e.2 ∈ locs) :
    (∃ n g, ∀ m, n ≤ m → pruneFlows m locs arcs f = some g) ∧
    ∀ n g, pruneFlows n locs arcs f = some g →
      NoLoop arcs g (1 / 100000) ∧
      (∀ e, g e ≤ f e ∧ (0 ≤ f e → 0 ≤ g e)) ∧
      ∀ v, netFlow arcs g v = netFlow arcs f v := by
  have G : Graph locs arcs := ⟨hn, hs, he⟩
  have ho : Ordered arcs ⟨f, []⟩ := by
    intro a i b h; simp at h
  constructor
  · obtain ⟨n, s', h⟩ := pruneAll_total G locs (fun _ h => h) _ ho
    refine ⟨n, s'.flow, fun m hm => ?_⟩
    unfold pruneFlows
    rw [Option.map_eq_some_iff]
    exact ⟨s', pruneAll_le hm _ _ _ h, rfl⟩
  · intro n g h
    unfold pruneFlows at h
    rw [Option.map_eq_some_iff] at h
    obtain ⟨s', h, rfl⟩ := h
    obtain ⟨o, hf⟩ := pruneAll_sound G n locs (fun _ h => h) _ _ ho h
    refine ⟨noLoop_of o.ordered (fun e h => hf _ (he e h).1), fun e => ⟨o.mono e, fun h0 => ?_⟩, o.net⟩
    rcases o.nonneg e with h1 | h1
    · rw [h1]; exact h0
    · exact h1

/-- A flow of 2 from the source to `C` along `A`, `B`, with a circulation of 3 on
`A`, `B`. -/
def pruneDemo : List Arc × (Arc → ℚ) :=
  ([(.source, .site "A"), (.site "A", .site "B"), (.site "B", .site "A"), (.site "B", .site "C")],
    fun e => if e = (.site "A", .site "B") then 5 else if e = (.site "B", .site "A") then 3 else 2)

/-- Only the circulation is removed. -/
example : ∃ g, pruneFlows 20 [.source, .site "A", .site "B", .site "C"] pruneDemo.1 pruneDemo.2 = some g ∧
    pruneDemo.1.map g = [2, 2, 0, 2] ∧ pruneDemo.1.Nodup ∧ (∀ e ∈ pruneDemo.1, e.1 ≠ e.2) := by
  have : (pruneFlows 20 [.source, .site "A", .site "B", .site "C"] pruneDemo.1 pruneDemo.2).any
      (fun g => pruneDemo.1.map g = [2, 2, 0, 2]) = true := by decide +kernel
  rw [Option.any_eq_true] at this
  obtain ⟨g, h1, h2⟩ := this
  exact ⟨g, h1, by simpa using h2, by decide +kernel, by decide +kernel⟩

end Verif
