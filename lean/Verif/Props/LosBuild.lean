import Verif.Model.LosBuild
import Verif.Props.Topology

/-!
# The candidate topology holds the links found, except those to the base topology

C26.
-/

namespace Verif
open Topology

/-- The site `s` of the topology stands for the picked site at position `i`: it is that site, or a detected site with
a device of the right kind. -/
def Offers (devs : List Device) (items : List LosItem) (picked : List Nat) (i : Nat) (s : Site) : Prop :=
  i ∈ picked ∧ ((items[i]? = some (.given s)) ∨ ∃ typ f d, items[i]? = some (.detected typ f) ∧ d ∈ devs
    ∧ (d.deviceType = .cn ↔ typ = .cn) ∧ s = f d)

namespace LosBuild

theorem mem_sites {devs : List Device} {x : LosItem} {s : Site} :
    s ∈ x.sites devs ↔ x = .given s ∨ ∃ typ f d, x = .detected typ f ∧ d ∈ devs
      ∧ (d.deviceType = .cn ↔ typ = .cn) ∧ s = f d := by
  cases x with
  | given s' =>
    simp only [LosItem.sites, List.mem_singleton, LosItem.given.injEq, reduceCtorEq, false_and, exists_false, or_false]
    exact eq_comm
  | detected typ f =>
    simp only [LosItem.sites, List.mem_map, List.mem_filter, decide_eq_true_eq, reduceCtorEq, false_or,
      LosItem.detected.injEq]
    constructor
    · rintro ⟨d, ⟨h1, h2⟩, rfl⟩
      refine ⟨typ, f, d, ⟨rfl, rfl⟩, h1, ?_, rfl⟩
      split_ifs at h2 with c
      · simp [h2, c]
      · simp [h2, c]
    · rintro ⟨_, _, d, ⟨rfl, rfl⟩, h1, h2, rfl⟩
      refine ⟨d, ⟨h1, ?_⟩, rfl⟩
      split_ifs with c
      · exact h2.2 c
      · cases hd : d.deviceType with
        | cn => exact (c (h2.1 hd)).elim
        | dn => rfl

theorem addSite_get {t : Topology} {s : Site} (h : t.sites.has s.id = false) (k : SiteId) :
    (t.addSite s).1.sites.get? k = if k = s.id then some s else t.sites.get? k := by
  unfold addSite
  simp only [Bool.false_eq_true, if_false, h]
  rw [Dict.get?_set]
  by_cases c : s.id = k
  · rw [if_pos c, if_pos c.symm]
  · rw [if_neg c, if_neg (Ne.symm c)]

theorem addSite_links {t : Topology} {s : Site} : (t.addSite s).1.links = t.links := by
  unfold addSite
  simp only [Bool.false_eq_true, if_false]
  split_ifs <;> rfl

theorem addNew_links (L : List Site) (t : Topology) : (addNew t L).1.links = t.links := by
  induction L generalizing t with
  | nil => rfl
  | cons s r ih =>
    unfold addNew
    split_ifs
    · exact ih t
    · dsimp only
      rw [ih, addSite_links]

/-- What the addition of sites does. -/
theorem addNew_spec (L : List Site) (t : Topology) :
    (∀ k s, t.sites.get? k = some s → (addNew t L).1.sites.get? k = some s)
    ∧ (∀ s ∈ (addNew t L).2, s ∈ L ∧ t.sites.get? s.id = none ∧ (addNew t L).1.sites.get? s.id = some s)
    ∧ (∀ s ∈ L, (addNew t L).1.sites.get? s.id ≠ none)
    ∧ (∀ s ∈ L, t.sites.get? s.id = none → (∀ s' ∈ L, s'.id = s.id → s' = s) → s ∈ (addNew t L).2)
    ∧ (∀ k s, (addNew t L).1.sites.get? k = some s → t.sites.get? k = some s ∨ (s ∈ L ∧ s.id = k)) := by
  induction L generalizing t with
  | nil => simp [addNew]
  | cons s r ih =>
    unfold addNew
    split_ifs with c
    · obtain ⟨h1, h2, h3, h4, h5⟩ := ih t
      have hs : t.sites.get? s.id ≠ none := by
        rw [Dict.has_iff] at c
        obtain ⟨v, hv⟩ := c
        rw [hv]; simp
      refine ⟨h1, fun x hx => ⟨List.mem_cons_of_mem _ (h2 x hx).1, (h2 x hx).2⟩, ?_, ?_, ?_⟩
      · intro x hx
        rcases List.mem_cons.1 hx with rfl | hx
        · obtain ⟨v, hv⟩ := Option.ne_none_iff_exists'.1 hs
          rw [h1 _ _ hv]; simp
        · exact h3 x hx
      · intro x hx hn hu
        rcases List.mem_cons.1 hx with rfl | hx
        · exact (hs hn).elim
        · exact h4 x hx hn fun y hy => hu y (List.mem_cons_of_mem _ hy)
      · intro k x hx
        rcases h5 k x hx with h | ⟨h, e⟩
        · exact .inl h
        · exact .inr ⟨List.mem_cons_of_mem _ h, e⟩
    · rw [Bool.not_eq_true] at c
      obtain ⟨h1, h2, h3, h4, h5⟩ := ih (t.addSite s).1
      have hn : t.sites.get? s.id = none := by
        exact (Dict.has_eq_false_iff _ _).1 c
      have g := addSite_get c
      have gs : (addNew (t.addSite s).1 r).1.sites.get? s.id = some s := h1 _ _ (by rw [g, if_pos rfl])
      dsimp only
      refine ⟨?_, ?_, ?_, ?_, ?_⟩
      · intro k x hx
        refine h1 _ _ ?_
        rw [g]
        split_ifs with e
        · rw [e, hn] at hx; cases hx
        · exact hx
      · intro x hx
        rcases List.mem_cons.1 hx with rfl | hx
        · exact ⟨List.mem_cons_self, hn, gs⟩
        · obtain ⟨a1, a2, a3⟩ := h2 x hx
          refine ⟨List.mem_cons_of_mem _ a1, ?_, a3⟩
          rw [g] at a2
          split_ifs at a2
          exact a2
      · intro x hx
        rcases List.mem_cons.1 hx with rfl | hx
        · rw [gs]; simp
        · exact h3 x hx
      · intro x hx hxn hu
        rcases List.mem_cons.1 hx with rfl | hx
        · exact List.mem_cons_self
        · by_cases e : s = x
          · rw [e]; exact List.mem_cons_self
          · refine List.mem_cons_of_mem _ (h4 x hx ?_ fun y hy => hu y (List.mem_cons_of_mem _ hy))
            rw [g, if_neg]
            · exact hxn
            · intro e'
              exact e (hu s List.mem_cons_self e'.symm)
      · intro k x hx
        rcases h5 k x hx with h | ⟨h, e⟩
        · rw [g] at h
          split_ifs at h with e
          · cases h
            exact .inr ⟨List.mem_cons_self, e.symm⟩
          · exact .inl h
        · exact .inr ⟨List.mem_cons_of_mem _ h, e⟩

/-- The sites offered from position `n` on. -/
def OffersFrom (devs : List Device) (items : List LosItem) (picked : List Nat) (n i : Nat) (s : Site) : Prop :=
  n + i ∈ picked ∧ ∃ x, items[i]? = some x ∧ s ∈ x.sites devs

theorem offersFrom_zero {devs : List Device} {items : List LosItem} {picked : List Nat} {i : Nat} {s : Site} :
    OffersFrom devs items picked 0 i s ↔ Offers devs items picked i s := by
  unfold OffersFrom Offers
  rw [zero_add]
  refine and_congr_right fun _ => ?_
  constructor
  · rintro ⟨x, hx, hs⟩
    rcases mem_sites.1 hs with rfl | ⟨typ, f, d, rfl, h⟩
    · exact .inl hx
    · exact .inr ⟨typ, f, d, hx, h⟩
  · rintro (h | ⟨typ, f, d, hx, h⟩)
    · exact ⟨_, h, mem_sites.2 (.inl rfl)⟩
    · exact ⟨_, hx, mem_sites.2 (.inr ⟨typ, f, d, rfl, h⟩)⟩

theorem offersFrom_succ {devs : List Device} {x : LosItem} {items : List LosItem} {picked : List Nat} {n i : Nat}
    {s : Site} : OffersFrom devs (x :: items) picked n (i + 1) s ↔ OffersFrom devs items picked (n + 1) i s := by
  unfold OffersFrom
  rw [List.getElem?_cons_succ, show n + (i + 1) = n + 1 + i by omega]

theorem addItems_links (devs : List Device) (picked : List Nat) (items : List LosItem) (n : Nat) (t : Topology) :
    (addItems devs picked n t items).1.links = t.links := by
  induction items generalizing n t with
  | nil => rfl
  | cons x r ih =>
    unfold addItems
    split_ifs
    · dsimp only
      rw [ih, addNew_links]
    · exact ih _ _

theorem addItems_spec (devs : List Device) (picked : List Nat) (items : List LosItem) (n : Nat) (t : Topology) :
    (∀ k s, t.sites.get? k = some s → (addItems devs picked n t items).1.sites.get? k = some s)
    ∧ (∀ i, ∀ s ∈ ((addItems devs picked n t items).2[i]?).getD [], OffersFrom devs items picked n i s
        ∧ t.sites.get? s.id = none ∧ (addItems devs picked n t items).1.sites.get? s.id = some s)
    ∧ (∀ i s, OffersFrom devs items picked n i s → (addItems devs picked n t items).1.sites.get? s.id ≠ none)
    ∧ (∀ i s, OffersFrom devs items picked n i s → t.sites.get? s.id = none →
        (∀ i' s', OffersFrom devs items picked n i' s' → s'.id = s.id → i' = i ∧ s' = s) →
        s ∈ ((addItems devs picked n t items).2[i]?).getD [])
    ∧ (∀ k s, (addItems devs picked n t items).1.sites.get? k = some s → t.sites.get? k = some s
        ∨ ∃ i, OffersFrom devs items picked n i s ∧ s.id = k) := by
  induction items generalizing n t with
  | nil =>
    have no : ∀ i s, ¬ OffersFrom devs [] picked n i s := by
      rintro i s ⟨_, x, hx, _⟩; simp at hx
    refine ⟨fun k s h => h, ?_, fun i s h => (no i s h).elim, fun i s h => (no i s h).elim, fun k s h => .inl h⟩
    intro i s hs
    simp [addItems] at hs
  | cons x r ih =>
    unfold addItems
    split_ifs with c
    · rw [List.contains_iff_mem] at c
      dsimp only
      obtain ⟨a1, a2, a3, a4, a5⟩ := addNew_spec (x.sites devs) t
      obtain ⟨h1, h2, h3, h4, h5⟩ := ih (n + 1) (addNew t (x.sites devs)).1
      have zero : ∀ s, OffersFrom devs (x :: r) picked n 0 s ↔ s ∈ x.sites devs := by
        intro s
        simp [OffersFrom, c]
      refine ⟨fun k s h => h1 _ _ (a1 _ _ h), ?_, ?_, ?_, ?_⟩
      · intro i s hs
        cases i with
        | zero =>
          obtain ⟨b1, b2, b3⟩ := a2 s hs
          exact ⟨(zero s).2 b1, b2, h1 _ _ b3⟩
        | succ i =>
          obtain ⟨b1, b2, b3⟩ := h2 i s hs
          refine ⟨offersFrom_succ.2 b1, ?_, b3⟩
          cases ht : t.sites.get? s.id with
          | none => rfl
          | some v => rw [a1 _ _ ht] at b2; cases b2
      · intro i s hs
        cases i with
        | zero =>
          obtain ⟨v, hv⟩ := Option.ne_none_iff_exists'.1 (a3 s ((zero s).1 hs))
          rw [h1 _ _ hv]; simp
        | succ i => exact h3 i s (offersFrom_succ.1 hs)
      · intro i s hs hn hu
        cases i with
        | zero =>
          refine a4 s ((zero s).1 hs) hn fun s' hs' e => ?_
          exact (hu 0 s' ((zero s').2 hs') e).2
        | succ i =>
          refine h4 i s (offersFrom_succ.1 hs) ?_ ?_
          · cases hv : (addNew t (x.sites devs)).1.sites.get? s.id with
            | none => rfl
            | some v =>
              rcases a5 _ _ hv with h | ⟨h, e⟩
              · rw [hn] at h; cases h
              · have := (hu 0 v ((zero v).2 h) e).1
                omega
          · intro i' s' hs' e
            obtain ⟨e1, e2⟩ := hu (i' + 1) s' (offersFrom_succ.2 hs') e
            exact ⟨by omega, e2⟩
      · intro k s hs
        rcases h5 k s hs with h | ⟨i, h, e⟩
        · rcases a5 k s h with h | ⟨h, e⟩
          · exact .inl h
          · exact .inr ⟨0, (zero s).2 h, e⟩
        · exact .inr ⟨i + 1, offersFrom_succ.2 h, e⟩
    · rw [List.contains_iff_mem] at c
      dsimp only
      obtain ⟨h1, h2, h3, h4, h5⟩ := ih (n + 1) t
      have zero : ∀ s, ¬ OffersFrom devs (x :: r) picked n 0 s := fun s h => c h.1
      refine ⟨h1, ?_, ?_, ?_, ?_⟩
      · intro i s hs
        cases i with
        | zero => simp at hs
        | succ i =>
          obtain ⟨b1, b2, b3⟩ := h2 i s hs
          exact ⟨offersFrom_succ.2 b1, b2, b3⟩
      · intro i s hs
        cases i with
        | zero => exact (zero s hs).elim
        | succ i => exact h3 i s (offersFrom_succ.1 hs)
      · intro i s hs hn hu
        cases i with
        | zero => exact (zero s hs).elim
        | succ i =>
          refine h4 i s (offersFrom_succ.1 hs) hn fun i' s' hs' e => ?_
          obtain ⟨e1, e2⟩ := hu (i' + 1) s' (offersFrom_succ.2 hs') e
          exact ⟨by omega, e2⟩
      · intro k s hs
        rcases h5 k s hs with h | ⟨i, h, e⟩
        · exact .inl h
        · exact .inr ⟨i + 1, offersFrom_succ.2 h, e⟩

theorem mem_losReqs {picked : List Nat} {rx : List (List Nat)} {M : List (List Site)} {q : LosReq} :
    q ∈ losReqs picked rx M ↔ q.i ∈ picked ∧ q.j ∈ picked ∧ q.j ∈ (rx[q.i]?).getD []
      ∧ q.tx ∈ (M[q.i]?).getD [] ∧ q.rx ∈ (M[q.j]?).getD [] := by
  unfold losReqs
  simp only [List.mem_flatMap, List.mem_range]
  constructor
  · rintro ⟨i, hi, h⟩
    split_ifs at h with c1
    · rw [List.mem_flatMap] at h
      obtain ⟨j, hj, h⟩ := h
      split_ifs at h with c2
      · rw [List.mem_flatMap] at h
        obtain ⟨a, ha, h⟩ := h
        rw [List.mem_map] at h
        obtain ⟨b, hb, rfl⟩ := h
        rw [List.contains_iff_mem] at c1 c2
        exact ⟨c1, c2, hj, ha, hb⟩
      · cases h
    · cases h
  · rintro ⟨h1, h2, h3, h4, h5⟩
    refine ⟨q.i, ?_, ?_⟩
    · by_contra c
      rw [List.getElem?_eq_none (by omega)] at h3
      cases h3
    · rw [if_pos (List.contains_iff_mem.2 h1), List.mem_flatMap]
      refine ⟨q.j, h3, ?_⟩
      rw [if_pos (List.contains_iff_mem.2 h2), List.mem_flatMap]
      exact ⟨q.tx, h4, List.mem_map.2 ⟨q.rx, h5, rfl⟩⟩

/-- The link for a request. -/
def linkFor (q : LosReq) (c : ℚ) : Link :=
  { tx := q.tx.id, rx := q.rx.id, sectors := none, isWireless := true, status := .candidate, confidence := some c }

/-- The pair of sites is within the limits. -/
def InLimits (P : LosLimits) (a b : Site) : Prop :=
  P.minDist ≤ P.dist a b ∧ (∃ m, P.maxDist.get? (a.device.sku, b.device.sku) = some m ∧ P.dist a b ≤ m)
  ∧ |P.el a b| ≤ P.maxEl

theorem addReq_spec {P : LosLimits} {t t1 : Topology} {q : LosReq} (h : addReq P t q = .ok t1) :
    ∃ c, P.conf.get? (q.i, q.j) = some c ∧
      ((InLimits P q.tx q.rx ∧ t1 = (t.addLink (linkFor q c)).1 ∧ t1.links = t.links.set ⟨q.tx.id, q.rx.id⟩ (linkFor q c))
        ∨ (¬ InLimits P q.tx q.rx ∧ t1 = t)) := by
  unfold addReq at h
  split at h
  · cases h
  · rename_i c hc
    refine ⟨c, hc, ?_⟩
    split at h
    · cases h
    · rename_i l hl
      have el : { l with confidence := some c } = linkFor q c := by
        unfold mkLink at hl
        dsimp only [Option.map_none, HOrElse.hOrElse, OrElse.orElse, Option.orElse] at hl
        split_ifs at hl
        cases hl
        rfl
      split_ifs at h with c1
      · split at h
        · cases h
        · rename_i m hm
          split_ifs at h with c2
          · left
            refine ⟨⟨c1, ⟨m, hm, c2.1⟩, c2.2⟩, ?_⟩
            rw [el] at h
            have ha : (t.addLink (linkFor q c)).2 = none ∧ t1 = (t.addLink (linkFor q c)).1 := by
              revert h
              cases t.addLink (linkFor q c) with
              | mk t' o =>
                cases o with
                | none => intro h; cases h; exact ⟨rfl, rfl⟩
                | some e => intro h; cases h
            refine ⟨ha.2, ?_⟩
            rw [ha.2]
            have h2 := ha.1
            unfold addLink at h2 ⊢
            split_ifs at h2 ⊢
            rfl
          · right
            refine ⟨?_, by cases h; rfl⟩
            rintro ⟨_, ⟨m', hm', hd⟩, he⟩
            rw [hm] at hm'
            cases hm'
            exact c2 ⟨hd, he⟩
      · right
        exact ⟨fun h' => c1 h'.1, by cases h; rfl⟩

theorem addLink_sites (t : Topology) (l : Link) : (t.addLink l).1.sites = t.sites := by
  unfold addLink
  split_ifs <;> rfl

theorem addReqs_spec {P : LosLimits} : ∀ (L : List LosReq) {t t' : Topology}, addReqs P t L = .ok t' →
    t'.sites = t.sites
    ∧ (∀ q ∈ L, InLimits P q.tx q.rx → ∃ l, t'.links.get? ⟨q.tx.id, q.rx.id⟩ = some l ∧ l.status = .candidate
        ∧ l.tx = q.tx.id ∧ l.rx = q.rx.id ∧ l.isWireless = true
        ∧ ∃ q' ∈ L, q'.tx.id = q.tx.id ∧ q'.rx.id = q.rx.id ∧ l.confidence = P.conf.get? (q'.i, q'.j))
    ∧ (∀ k l, t'.links.get? k = some l → t.links.get? k = some l
        ∨ ∃ q ∈ L, InLimits P q.tx q.rx ∧ k = ⟨q.tx.id, q.rx.id⟩ ∧ l.confidence = P.conf.get? (q.i, q.j)
          ∧ l.status = .candidate ∧ l.tx = q.tx.id ∧ l.rx = q.rx.id ∧ l.isWireless = true)
    ∧ (∀ k, t.links.get? k ≠ none → t'.links.get? k ≠ none)
  | [], t, t', h => by
    cases h
    exact ⟨rfl, fun q hq => (List.not_mem_nil hq).elim, fun k l h => .inl h, fun k h => h⟩
  | q :: L, t, t', h => by
    unfold addReqs at h
    split at h
    · cases h
    · rename_i t1 h1
      obtain ⟨i1, i2, i3, i4⟩ := addReqs_spec L h
      obtain ⟨c, hc, hcase⟩ := addReq_spec h1
      have s1 : t1.sites = t.sites := by
        rcases hcase with ⟨_, e, _⟩ | ⟨_, e⟩
        · rw [e, addLink_sites]
        · rw [e]
      have l1 : ∀ k, t.links.get? k ≠ none → t1.links.get? k ≠ none := by
        intro k hk
        rcases hcase with ⟨_, _, e⟩ | ⟨_, e⟩
        · rw [e, Dict.get?_set]
          split_ifs
          · simp
          · exact hk
        · rw [e]; exact hk
      have l2 : ∀ k l, t1.links.get? k = some l → t.links.get? k = some l ∨ (InLimits P q.tx q.rx
          ∧ k = ⟨q.tx.id, q.rx.id⟩ ∧ l = linkFor q c) := by
        intro k l hk
        rcases hcase with ⟨hin, _, e⟩ | ⟨_, e⟩
        · rw [e, Dict.get?_set] at hk
          split_ifs at hk with e2
          · cases hk
            exact .inr ⟨hin, e2.symm, rfl⟩
          · exact .inl hk
        · rw [e] at hk
          exact .inl hk
      have third : ∀ k l, t'.links.get? k = some l → t.links.get? k = some l
          ∨ ∃ q' ∈ q :: L, InLimits P q'.tx q'.rx ∧ k = ⟨q'.tx.id, q'.rx.id⟩ ∧ l.confidence = P.conf.get? (q'.i, q'.j)
          ∧ l.status = .candidate ∧ l.tx = q'.tx.id ∧ l.rx = q'.rx.id ∧ l.isWireless = true := by
        intro k l hk
        rcases i3 k l hk with h | ⟨q', hq', h⟩
        · rcases l2 k l h with h | ⟨h2, h3, rfl⟩
          · exact .inl h
          · exact .inr ⟨q, List.mem_cons_self, h2, h3, hc.symm, rfl, rfl, rfl, rfl⟩
        · exact .inr ⟨q', List.mem_cons_of_mem _ hq', h⟩
      refine ⟨i1.trans s1, ?_, third, fun k hk => i4 k (l1 k hk)⟩
      intro q' hq' hin
      rcases List.mem_cons.1 hq' with rfl | hq'
      · have : t1.links.get? ⟨q'.tx.id, q'.rx.id⟩ = some (linkFor q' c) := by
          rcases hcase with ⟨_, _, e⟩ | ⟨e, _⟩
          · rw [e, Dict.get?_set_self]
          · exact (e hin).elim
        obtain ⟨l, hl⟩ := Option.ne_none_iff_exists'.1 (i4 _ (by rw [this]; simp))
        refine ⟨l, hl, ?_⟩
        rcases i3 _ l hl with h | ⟨q2, hq2, _, e, g1, g2, g3, g4, g5⟩
        · rw [this] at h
          cases h
          exact ⟨rfl, rfl, rfl, rfl, q', List.mem_cons_self, rfl, rfl, hc.symm⟩
        · injection e with e1 e2
          exact ⟨g2, g3.trans e1.symm, g4.trans e2.symm, g5, q2, List.mem_cons_of_mem _ hq2, e1.symm, e2.symm, g1⟩
      · obtain ⟨l, h1, h2, h3, h4, h5, q2, hq2, h6⟩ := i2 q' hq' hin
        exact ⟨l, h1, h2, h3, h4, h5, q2, List.mem_cons_of_mem _ hq2, h6⟩

end LosBuild

open LosBuild

/-- **C26 (partial).** After the LOS phase the topology has the sites of the base topology and, for each picked site,
the site itself or one for each device of the right kind; nothing else. Between two sites that were not in the base
topology, for which the LOS phase found a line of sight, and which are within the limits of distance and elevation of
the two devices, there is a candidate link with the confidence found. Each link that was not in the base topology
is such a link. Missing: links between a new site and one of the base topology (`C26_base_violation`). -/
theorem C26_links_partial (P : LosLimits) (devs : List Device) (ops : List Op) (items : List LosItem)
    (rx : List (List Nat)) (picked : List Nat) (t : Topology)
    (h : constructLos P devs (run {} ops) items rx picked = .ok t) :
    (∀ k s, t.sites.get? k = some s → (run {} ops).sites.get? k = some s ∨ ∃ i, Offers devs items picked i s ∧ s.id = k)
    ∧ (∀ k s, (run {} ops).sites.get? k = some s → t.sites.get? k = some s)
    ∧ (∀ i s, Offers devs items picked i s → t.sites.get? s.id ≠ none)
    ∧ (∀ i j a b, Offers devs items picked i a → Offers devs items picked j b → j ∈ (rx[i]?).getD [] →
        (run {} ops).sites.get? a.id = none → (run {} ops).sites.get? b.id = none →
        (∀ i' s', Offers devs items picked i' s' → (s'.id = a.id → i' = i ∧ s' = a) ∧ (s'.id = b.id → i' = j ∧ s' = b)) →
        InLimits P a b →
        ∃ l, t.links.get? ⟨a.id, b.id⟩ = some l ∧ l.tx = a.id ∧ l.rx = b.id ∧ l.status = .candidate
          ∧ l.isWireless = true ∧ l.confidence = P.conf.get? (i, j))
    ∧ (∀ k l, t.links.get? k = some l → (run {} ops).links.get? k = some l ∨
        ∃ i j a b, Offers devs items picked i a ∧ Offers devs items picked j b ∧ j ∈ (rx[i]?).getD [] ∧ InLimits P a b
          ∧ k = ⟨a.id, b.id⟩ ∧ l.confidence = P.conf.get? (i, j))
    ∧ (∀ k, (run {} ops).links.get? k ≠ none → t.links.get? k ≠ none) := by
  generalize run {} ops = base at *
  unfold constructLos at h
  obtain ⟨r1, r2, r3, r4⟩ := addReqs_spec _ h
  obtain ⟨a1, a2, a3, a4, a5⟩ := addItems_spec devs picked items 0 base
  have hl := addItems_links devs picked items 0 base
  simp only [offersFrom_zero] at a2 a3 a4 a5
  rw [hl] at r3 r4
  rw [r1]
  refine ⟨a5, a1, a3, ?_, ?_, r4⟩
  · intro i j a b ha hb hij na nb hu hin
    have ma := a4 i a ha na fun i' s' hs' e => (hu i' s' hs').1 e
    have mb := a4 j b hb nb fun i' s' hs' e => (hu i' s' hs').2 e
    obtain ⟨l, e1, e2, e3, e4, e5, q, hq, f1, f2, f3⟩ := r2 ⟨i, j, a, b⟩ (mem_losReqs.2 ⟨ha.1, hb.1, hij, ma, mb⟩) hin
    obtain ⟨_, _, _, g4, g5⟩ := mem_losReqs.1 hq
    have qi := ((hu q.i q.tx (a2 _ _ g4).1).1 f1).1
    have qj := ((hu q.j q.rx (a2 _ _ g5).1).2 f2).1
    exact ⟨l, e1, e3, e4, e2, e5, by rw [f3, qi, qj]⟩
  · intro k l hk
    rcases r3 k l hk with h | ⟨q, hq, hin, e, hc, _⟩
    · exact .inl h
    · obtain ⟨_, _, g3, g4, g5⟩ := mem_losReqs.1 hq
      exact .inr ⟨q.i, q.j, q.tx, q.rx, (a2 _ _ g4).1, (a2 _ _ g5).1, g3, hin, e, hc⟩

/-- **C26 fails for the base topology.** No link that is added has an end at a site of the base topology. -/
theorem C26_base_violation (P : LosLimits) (devs : List Device) (ops : List Op) (items : List LosItem)
    (rx : List (List Nat)) (picked : List Nat) (t : Topology)
    (h : constructLos P devs (run {} ops) items rx picked = .ok t) (k : LinkId) (l : Link)
    (hk : t.links.get? k = some l) (hn : (run {} ops).links.get? k ≠ some l) :
    (run {} ops).sites.get? k.tx = none ∧ (run {} ops).sites.get? k.rx = none := by
  generalize run {} ops = base at *
  unfold constructLos at h
  obtain ⟨_, _, r3, _⟩ := addReqs_spec _ h
  obtain ⟨_, a2, _⟩ := addItems_spec devs picked items 0 base
  rw [addItems_links devs picked items 0 base] at r3
  rcases r3 k l hk with h | ⟨q, hq, _, e, _⟩
  · exact (hn h).elim
  · obtain ⟨_, _, _, g4, g5⟩ := mem_losReqs.1 hq
    rw [e]
    exact ⟨(a2 _ _ g4).2.1, (a2 _ _ g5).2.1⟩

/-- A device. -/
def losDemoDevice : Device := { sku := "D", deviceType := .dn }

/-- A DN in the base topology, an input POP and a detected site, which sees both. -/
def losDemoItems : List LosItem :=
  [.given { id := "P", siteType := .pop, status := .candidate, lat := 0, lon := 0, device := losDemoDevice },
    .detected .dn fun d => { id := "X", siteType := .dn, status := .candidate, lat := 0, lon := 1, device := d },
    .given { id := "B", siteType := .dn, status := .candidate, lat := 0, lon := 2, device := losDemoDevice }]

/-- All pairs are a hundred metres apart. -/
def losDemoLimits : LosLimits :=
  { conf := [((0, 1), 1), ((1, 0), 1), ((1, 2), 9 / 10), ((2, 1), 9 / 10)]
    maxDist := [(("D", "D"), 200)], minDist := 5, maxEl := 25, dist := fun _ _ => 100, el := fun _ _ => 0 }

/-- The links between the POP and the detected site are added, those to the site of the base topology are not. -/
example : ((constructLos losDemoLimits [losDemoDevice]
      (run {} [.addSite { id := "B", siteType := .dn, status := .candidate, lat := 0, lon := 2, device := losDemoDevice } false])
      losDemoItems [[1], [0, 2], [1]] [0, 1, 2]).toOption.map fun t => (t.sites.keys, t.links.keys))
    = some (["B", "P", "X"], [⟨"P", "X"⟩, ⟨"X", "P"⟩]) := by
  decide +kernel

end Verif
