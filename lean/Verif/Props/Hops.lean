import Verif.Model.Hops
import Verif.Spec.Hops
import Verif.Props.Topology
import Mathlib.Data.Nat.Find

/-! # C08, C09: hop counts and reachable demand -/

namespace Verif
open Topology Spec

theorem foldl_set_get? {κ ν : Type} [DecidableEq κ] (l : List κ) (v : ν) (d : Dict κ ν) (k : κ) :
    (l.foldl (fun d s => d.set s v) d).get? k = if k ∈ l then some v else d.get? k := by
  induction l generalizing d with
  | nil => simp
  | cons a l ih =>
    simp only [List.foldl_cons, ih, Dict.get?_set, List.mem_cons]
    by_cases h1 : k ∈ l
    · simp [h1]
    · by_cases h2 : a = k
      · simp [h2]
      · simp [h1, h2, Ne.symm h2]

section
variable {t : Topology} (h : Inv t) (f : Filter)

theorem mem_vals_links (l : Link) : l ∈ t.links.vals ↔ ∃ i, (i, l) ∈ t.links := by
  simp [Dict.vals]

include h in
theorem mem_newIds (cur : List SiteId) (s : SiteId) :
    s ∈ t.newIds f cur ↔ s ∉ cur ∧ ∃ a ∈ cur, ∃ l, t.links.get? ⟨a, s⟩ = some l ∧
      f l.status = true ∧ ∃ y, t.sites.get? s = some y ∧ f y.status = true := by
  have hadm : t.admits f s = true ↔ ∃ y, t.sites.get? s = some y ∧ f y.status = true := by
    unfold admits; cases t.sites.get? s <;> simp
  simp only [newIds, List.mem_dedup, List.mem_filter, List.mem_flatMap, Bool.and_eq_true,
    decide_eq_true_eq, Bool.not_eq_true', decide_eq_false_iff_not, List.mem_cons, List.not_mem_nil,
    or_false, hadm, mem_vals_links]
  constructor
  · rintro ⟨⟨l, ⟨⟨i, hl⟩, hc, hf⟩, rfl | rfl⟩, hy, hn⟩
    · exact absurd hc hn
    · have := (Dict.mem_iff_get? h.nd_links _ _).1 hl
      rw [h.link_id _ _ this] at this
      exact ⟨hn, l.tx, hc, l, this, hf, hy⟩
  · rintro ⟨hn, a, ha, l, hl, hf, hy⟩
    have e := h.link_id _ _ hl
    have e1 : a = l.tx := congrArg LinkId.tx e
    have e2 : s = l.rx := congrArg LinkId.rx e
    exact ⟨⟨l, ⟨⟨_, Dict.mem_of_get? _ hl⟩, e1 ▸ ha, hf⟩, Or.inr e2⟩, hy, hn⟩

/-- Loop invariant. -/
structure HopInv (t : Topology) (f : Filter) (k : Nat) (hc : Dict SiteId Nat)
    (cur : List SiteId) : Prop where
  cur_iff : ∀ s, s ∈ cur ↔ ∃ m, m ≤ k ∧ HopPath t f s m
  hc_iff : ∀ s n, hc.get? s = some n ↔
    n ≤ k ∧ HopPath t f s n ∧ ∀ m, HopPath t f s m → n ≤ m
  sub : ∀ s ∈ cur, s ∈ t.sites.keys

include h in
theorem HopInv.step {k : Nat} {hc : Dict SiteId Nat} {cur : List SiteId}
    (hi : HopInv t f k hc cur) :
    HopInv t f (k + 1) ((t.newIds f cur).foldl (fun d s => d.set s (k + 1)) hc)
      (cur ++ t.newIds f cur) := by
  have key : ∀ s, s ∈ t.newIds f cur ↔ HopPath t f s (k + 1) ∧ ∀ m, HopPath t f s m → k + 1 ≤ m := by
    intro s
    rw [mem_newIds h]
    constructor
    · rintro ⟨hn, a, ha, l, hl, hf, y, hy, hy'⟩
      have hlow : ∀ m, HopPath t f s m → k + 1 ≤ m := by
        intro m hm
        by_contra hc
        exact hn ((hi.cur_iff s).2 ⟨m, by omega, hm⟩)
      obtain ⟨m, hm, hp⟩ := (hi.cur_iff a).1 ha
      have hp' := HopPath.hop hp hl hf hy hy'
      have := hlow _ hp'
      have e : m = k := by omega
      exact ⟨e ▸ hp', hlow⟩
    · rintro ⟨hp, hlow⟩
      refine ⟨fun hc => ?_, ?_⟩
      · obtain ⟨m, hm, hm'⟩ := (hi.cur_iff s).1 hc
        have := hlow m hm'; omega
      · cases hp with
        | hop hp hl hf hy hy' =>
          exact ⟨_, (hi.cur_iff _).2 ⟨k, le_rfl, hp⟩, _, hl, hf, _, hy, hy'⟩
  refine ⟨?_, ?_, ?_⟩
  · intro s
    rw [List.mem_append, hi.cur_iff, key]
    constructor
    · rintro (⟨m, hm, hp⟩ | ⟨hp, _⟩)
      · exact ⟨m, by omega, hp⟩
      · exact ⟨k + 1, le_rfl, hp⟩
    · rintro ⟨m, hm, hp⟩
      by_cases c : ∃ m', m' ≤ k ∧ HopPath t f s m'
      · exact Or.inl c
      · have : m = k + 1 := by
          by_contra hne; exact c ⟨m, by omega, hp⟩
        subst this
        refine Or.inr ⟨hp, fun m' hm' => ?_⟩
        by_contra hlt; exact c ⟨m', by omega, hm'⟩
  · intro s n
    rw [foldl_set_get?]
    split
    · rename_i hs
      obtain ⟨hp, hlow⟩ := (key s).1 hs
      constructor
      · intro e; cases e; exact ⟨le_rfl, hp, hlow⟩
      · rintro ⟨_, hp', hlow'⟩
        have := hlow n hp'; have := hlow' _ hp
        congr 1; omega
    · rename_i hs
      rw [hi.hc_iff]
      constructor
      · rintro ⟨a, b, c⟩; exact ⟨by omega, b, c⟩
      · rintro ⟨a, b, c⟩
        refine ⟨?_, b, c⟩
        by_contra hlt
        have : n = k + 1 := by omega
        exact hs ((key s).2 ⟨this ▸ b, fun m hm => this ▸ c m hm⟩)
  · intro s hs
    rw [List.mem_append] at hs
    rcases hs with hs | hs
    · exact hi.sub s hs
    · obtain ⟨_, _, _, _, _, _, y, hy, _⟩ := (mem_newIds h f cur s).1 hs
      exact (Dict.mem_keys_iff _ _).2 ⟨y, hy⟩

include h in
theorem HopInv.done {k : Nat} {hc : Dict SiteId Nat} {cur : List SiteId}
    (hi : HopInv t f k hc cur) (he : t.newIds f cur = []) (s : SiteId) (n : Nat) :
    hc.get? s = some n ↔ HopPath t f s n ∧ ∀ m, HopPath t f s m → n ≤ m := by
  have hall : ∀ s n, HopPath t f s n → s ∈ cur := by
    intro s n hp
    induction hp with
    | pop h1 h2 h3 => exact (hi.cur_iff _).2 ⟨0, by omega, .pop h1 h2 h3⟩
    | @hop a b n l y hp hl hf hy hy' ih =>
      by_contra hc
      have : b ∈ t.newIds f cur := (mem_newIds h f cur b).2 ⟨hc, a, ih, l, hl, hf, y, hy, hy'⟩
      simp [he] at this
  rw [hi.hc_iff]
  constructor
  · rintro ⟨_, b, c⟩; exact ⟨b, c⟩
  · rintro ⟨b, c⟩
    obtain ⟨m, hm, hp⟩ := (hi.cur_iff s).1 (hall s n b)
    exact ⟨(c m hp).trans hm, b, c⟩

include h in
theorem hopLoop_spec (fuel k : Nat) (hc : Dict SiteId Nat) (cur : List SiteId)
    (hi : HopInv t f k hc cur)
    (hfuel : (t.sites.keys.filter (fun s => !decide (s ∈ cur))).length < fuel) :
    ∃ r, hopLoop t f fuel k hc cur = some r ∧
      ∀ s n, r.get? s = some n ↔ HopPath t f s n ∧ ∀ m, HopPath t f s m → n ≤ m := by
  induction fuel generalizing k hc cur with
  | zero => omega
  | succ fuel ih =>
    unfold hopLoop
    by_cases he : t.newIds f cur = []
    · simp only [he, if_true]
      exact ⟨hc, rfl, hi.done h f he⟩
    · simp only [he, if_false]
      refine ih _ _ _ (hi.step h f) ?_
      have hlt : (t.sites.keys.filter (fun s => !decide (s ∈ cur ++ t.newIds f cur))).length <
          (t.sites.keys.filter (fun s => !decide (s ∈ cur))).length := by
        have hsub : (t.sites.keys.filter (fun s => !decide (s ∈ cur ++ t.newIds f cur))) =
            (t.sites.keys.filter (fun s => !decide (s ∈ cur))).filter
              (fun s => !decide (s ∈ t.newIds f cur)) := by
          rw [List.filter_filter]
          congr 1; funext s
          by_cases a : s ∈ cur <;> by_cases b : s ∈ t.newIds f cur <;> simp [a, b]
        rw [hsub]
        obtain ⟨s, hs⟩ := List.exists_mem_of_ne_nil _ he
        obtain ⟨hn, _, _, _, _, _, y, hy, _⟩ := (mem_newIds h f cur s).1 hs
        refine List.length_filter_lt_length_iff_exists.2 ⟨s, ?_, by simpa using hs⟩
        rw [List.mem_filter]
        exact ⟨(Dict.mem_keys_iff _ _).2 ⟨y, hy⟩, by simpa using hn⟩
      omega

include h in
theorem mem_popIds (s : SiteId) : s ∈ t.popIds f ↔ HopPath t f s 0 := by
  simp only [popIds, List.mem_map, List.mem_filter, Bool.and_eq_true, beq_iff_eq, Prod.exists,
    exists_and_right, exists_eq_right]
  constructor
  · rintro ⟨x, hx, hf, hp⟩
    exact .pop ((Dict.mem_iff_get? h.nd_sites _ _).1 hx) hp hf
  · intro hp
    cases hp with
    | pop h1 h2 h3 => exact ⟨_, Dict.mem_of_get? _ h1, h3, h2⟩

include h in
theorem hops_spec :
    ∃ r, t.hopsFromPops f = some r ∧
      ∀ s n, r.get? s = some n ↔ HopPath t f s n ∧ ∀ m, HopPath t f s m → n ≤ m := by
  unfold hopsFromPops
  by_cases he : t.popIds f = []
  · simp only [he, if_true]
    refine ⟨[], rfl, fun s n => ?_⟩
    have hno : ∀ s n, ¬ HopPath t f s n := by
      intro s n hp
      induction hp with
      | pop h1 h2 h3 =>
        have := (mem_popIds h f _).2 (.pop h1 h2 h3)
        simp [he] at this
      | hop _ _ _ _ _ ih => exact ih
    simp [hno]
  · simp only [he, if_false]
    refine hopLoop_spec h f _ 0 _ _ ⟨?_, ?_, ?_⟩ ?_
    · intro s; rw [mem_popIds h]
      constructor
      · intro hp; exact ⟨0, le_rfl, hp⟩
      · rintro ⟨m, hm, hp⟩
        have : m = 0 := by omega
        exact this ▸ hp
    · intro s n
      rw [foldl_set_get?]
      split
      · rename_i hs
        have hp := (mem_popIds h f s).1 hs
        constructor
        · intro e; cases e; exact ⟨le_rfl, hp, fun m _ => Nat.zero_le m⟩
        · rintro ⟨a, _, _⟩; congr 1; omega
      · rename_i hs
        rw [mem_popIds h] at hs
        constructor
        · intro e; simp at e
        · rintro ⟨a, b, _⟩
          have : n = 0 := by omega
          exact absurd (this ▸ b) hs
    · intro s hs
      have hp := (mem_popIds h f s).1 hs
      cases hp with
      | pop h1 _ _ => exact (Dict.mem_keys_iff _ _).2 ⟨_, h1⟩
    · have := List.length_filter_le (fun s => !decide (s ∈ t.popIds f)) t.sites.keys
      have e : t.sites.keys.length = t.sites.length := by simp [Dict.keys]
      omega

end

/-- **C08.** For every topology built by API calls and every status filter,
`hops_from_pops` terminates; it maps a site to `n` iff `n` is the least length
of a directed path of admitted links and sites from an admitted POP, and so has
no entry exactly for the sites that no such path reaches. -/
theorem C08_hops (ops : List Op) (f : StatusType → Bool) :
    ∃ r, (run {} ops).hopsFromPops f = some r ∧
      (∀ s n, r.get? s = some n ↔ IsLeast {m | HopPath (run {} ops) f s m} n) ∧
      (∀ s, r.get? s = none ↔ ∀ m, ¬ HopPath (run {} ops) f s m) := by
  obtain ⟨r, hr, hs⟩ := hops_spec (Inv.empty.run ops) f
  refine ⟨r, hr, fun s n => by rw [hs]; rfl, fun s => ?_⟩
  constructor
  · intro hn m hm
    classical
    have hex : ∃ m, HopPath (run {} ops) f s m := ⟨m, hm⟩
    have := (hs s (Nat.find hex)).2 ⟨Nat.find_spec hex, fun m' hm' => Nat.find_min' hex hm'⟩
    rw [hn] at this; simp at this
  · intro hno
    cases e : r.get? s with
    | none => rfl
    | some n => exact absurd ((hs s n).1 e).1 (hno n)

/-- The demo network: POP, DN and CN at hops 0, 1 and 2; without CANDIDATE only
the POP is left. -/
example : demo.hopsFromPops StatusType.reachable = some [("p", 0), ("d", 1), ("c", 2)] ∧
    demo.hopsFromPops StatusType.active = some [("p", 0)] := by decide +kernel

/-- **C09.** The reachable demand sites are exactly those with a connected site
on an admitted path from an admitted POP. -/
theorem C09_reachable_demand (ops : List Op) (f : StatusType → Bool) :
    ∃ r, (run {} ops).reachableDemand f = some r ∧
      ∀ id, id ∈ r ↔ ∃ d, (run {} ops).demandSites.get? id = some d ∧
        ∃ s ∈ d.connected, ∃ n, HopPath (run {} ops) f s n := by
  have h := Inv.empty.run ops
  obtain ⟨hc, hr, hs, hn⟩ := C08_hops ops f
  have hhas : ∀ s, hc.has s = true ↔ ∃ n, HopPath (run {} ops) f s n := by
    intro s
    rw [Dict.has_iff]
    constructor
    · rintro ⟨n, e⟩; exact ⟨n, ((hs s n).1 e).1⟩
    · rintro ⟨n, hp⟩
      cases e : hc.get? s with
      | some v => exact ⟨v, rfl⟩
      | none => exact absurd hp ((hn s).1 e n)
  refine ⟨_, by unfold reachableDemand; rw [hr]; rfl, fun id => ?_⟩
  simp only [List.mem_map, List.mem_filter, List.any_eq_true, hhas, Dict.vals, Prod.exists,
    exists_eq_right]
  constructor
  · rintro ⟨d, ⟨⟨k, hk⟩, hd⟩, rfl⟩
    have := (Dict.mem_iff_get? h.nd_demand _ _).1 hk
    rw [← h.demand_id _ _ this] at this
    exact ⟨d, this, hd⟩
  · rintro ⟨d, hd, hx⟩
    exact ⟨d, ⟨⟨id, Dict.mem_of_get? _ hd⟩, hx⟩, h.demand_id _ _ hd⟩

/-- A demand point served by the CN and one attached to no site. -/
example :
    (run {} (demoOps ++ [.addDemandSite { id := "x", connected := ["c"] },
      .addDemandSite { id := "y" }])).reachableDemand StatusType.reachable = some ["x"] := by
  decide +kernel

end Verif
