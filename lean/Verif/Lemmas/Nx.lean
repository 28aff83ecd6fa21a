import Verif.Model.Nx
import Verif.Props.Topology
import Mathlib.Logic.Relation
import Mathlib.Data.List.Count

/-! Reachability and edges of networkx graphs. -/

namespace Verif

open Relation

theorem closure_sub {α : Type} [DecidableEq α] (E : List (α × α)) (n : Nat) (S : List α) :
    ∀ v ∈ S, v ∈ closure E n S := by
  induction n generalizing S with
  | zero => intro v h; exact h
  | succ n ih =>
    intro v h
    unfold closure
    split
    · exact ih _ v (List.mem_cons_of_mem _ h)
    · exact h

theorem closure_sound {α : Type} [DecidableEq α] (E : List (α × α)) (P : α → Prop)
    (hP : ∀ e ∈ E, P e.1 → P e.2) (n : Nat) (S : List α) (hS : ∀ v ∈ S, P v) :
    ∀ v ∈ closure E n S, P v := by
  induction n generalizing S with
  | zero => exact hS
  | succ n ih =>
    unfold closure
    split
    · rename_i e he
      apply ih
      intro v hv
      have h1 := List.find?_some he
      simp only [Bool.and_eq_true, List.contains_iff_mem] at h1
      rcases List.mem_cons.1 hv with rfl | hv
      · exact hP e (List.mem_of_find?_eq_some he) (hS _ h1.1)
      · exact hS v hv
    · exact hS

theorem closure_closed {α : Type} [DecidableEq α] (E : List (α × α)) (n : Nat) (S : List α)
    (h : E.countP (fun e => !S.contains e.2) ≤ n) :
    ∀ e ∈ E, e.1 ∈ closure E n S → e.2 ∈ closure E n S := by
  induction n generalizing S with
  | zero =>
    intro e he _
    have := (List.countP_eq_zero.1 (Nat.le_zero.1 h)) e he
    simpa [closure] using this
  | succ n ih =>
    unfold closure
    split
    · rename_i e he
      apply ih
      have h1 := List.find?_some he
      have hm := List.mem_of_find?_eq_some he
      simp only [Bool.and_eq_true, Bool.not_eq_true'] at h1
      have : E.countP (fun e' => !(e.2 :: S).contains e'.2) < E.countP (fun e => !S.contains e.2) := by
        clear h ih he
        induction E with
        | nil => simp at hm
        | cons b E ihE =>
          have hle : E.countP (fun e' => !(e.2 :: S).contains e'.2) ≤
              E.countP (fun e => !S.contains e.2) := by
            apply List.countP_mono_left
            intro c _ hc
            simp only [List.contains_cons, Bool.not_or, Bool.and_eq_true] at hc
            exact hc.2
          rcases List.mem_cons.1 hm with rfl | hm
          · rw [List.countP_cons_of_neg (by simp), List.countP_cons_of_pos (by rw [h1.2]; rfl)]
            omega
          · have := ihE hm
            rw [List.countP_cons, List.countP_cons]
            have : (if (!(e.2 :: S).contains b.2) = true then 1 else 0) ≤
                (if (!S.contains b.2) = true then 1 else 0) := by
              split
              · rename_i hc
                simp only [List.contains_cons, Bool.not_or, Bool.and_eq_true] at hc
                rw [if_pos hc.2]
              · omega
            omega
      omega
    · rename_i hn
      intro e he h1
      have := List.find?_eq_none.1 hn e he
      simp only [Bool.and_eq_true, List.contains_iff_mem, not_and, Bool.not_eq_true', Bool.not_eq_false] at this
      simpa using this h1

/-- There is a directed walk along the edges `E`. -/
def Joined {α : Type} (E : α × α → Prop) (a b : α) : Prop := ReflTransGen (fun x y => E (x, y)) a b

namespace Graph

/-- The edges of a graph. -/
def edge (G : Graph) (e : GEdge) : Prop := e ∈ G.edges.keys

theorem mem_reach {G : Graph} {s v : GNode} : v ∈ G.reach s ↔ Joined G.edge s v := by
  constructor
  · apply closure_sound G.edges.keys (Joined G.edge s) ?_ _ _ ?_ v
    · intro e he h
      exact ReflTransGen.tail h he
    · intro v hv
      rw [List.mem_singleton] at hv
      subst hv
      exact ReflTransGen.refl
  · intro h
    induction h with
    | refl => exact closure_sub _ _ _ _ (List.mem_singleton.2 rfl)
    | @tail b c _ hbc ih =>
      refine closure_closed G.edges.keys G.edges.length [s] ?_ (b, c) hbc ih
      refine le_trans (List.countP_le_length) ?_
      simp [Dict.keys]

theorem Joined.congr {α : Type} {E F : α × α → Prop} (h : ∀ e, E e ↔ F e) {a b : α} :
    Joined E a b ↔ Joined F a b := by
  have : E = F := funext fun e => propext (h e)
  rw [this]

theorem descendants_ok {G : Graph} (h : G.nodes.has .super = true) :
    G.descendants = .ok ((G.reach .super).filter (· ≠ .super)) := by
  unfold descendants; rw [if_pos h]

/-- The demand nodes reached from the supersource. -/
def Fed (G : Graph) (E : GEdge → Prop) (d : GNode) : Prop :=
  (d, some NodeKind.demand) ∈ G.nodes ∧ d ≠ .super ∧ Joined E .super d

theorem connected_ok {G : Graph} (h : G.nodes.has .super = true) :
    ∃ C, G.connectedDemands = .ok C ∧ ∀ d, d ∈ C ↔ G.Fed G.edge d := by
  unfold connectedDemands
  rw [descendants_ok h]
  refine ⟨_, rfl, fun d => ?_⟩
  simp only [List.mem_map, List.mem_filter, Bool.and_eq_true, beq_iff_eq, List.contains_iff_mem,
    decide_eq_true_eq, mem_reach]
  constructor
  · rintro ⟨⟨v, k⟩, ⟨h1, h2, h3, h4⟩, rfl⟩
    dsimp only at h2 h3 h4 ⊢
    exact ⟨h2 ▸ h1, h4, h3⟩
  · rintro ⟨h1, h2, h3⟩
    exact ⟨(d, some .demand), ⟨h1, rfl, h3, h2⟩, rfl⟩

theorem addNode_edges (G : Graph) (v : GNode) : (G.addNode v).edges = G.edges := by
  unfold addNode; split <;> rfl

theorem addNode_has (G : Graph) (v w : GNode) :
    (G.addNode v).nodes.has w = true ↔ G.nodes.has w = true ∨ w = v := by
  unfold addNode
  split
  · rename_i h
    constructor
    · exact Or.inl
    · rintro (h' | rfl)
      · exact h'
      · exact h
  · simp only [Dict.has_iff, Dict.get?_set]
    constructor
    · rintro ⟨x, hx⟩
      split at hx
      · rename_i e; exact Or.inr e.symm
      · exact Or.inl ⟨x, hx⟩
    · rintro (⟨x, hx⟩ | rfl)
      · split
        · exact ⟨_, rfl⟩
        · exact ⟨x, hx⟩
      · exact ⟨none, by simp⟩

theorem addEdge_has (G : Graph) (u v w : GNode) (a : EdgeAttr) :
    (G.addEdge u v a).nodes.has w = true ↔ G.nodes.has w = true ∨ w = u ∨ w = v := by
  unfold addEdge
  dsimp only
  rw [addNode_has, addNode_has, or_assoc]

theorem addEdge_get? (G : Graph) (u v : GNode) (a : EdgeAttr) (e : GEdge) :
    (G.addEdge u v a).edges.get? e = if (u, v) = e then some a else G.edges.get? e := by
  unfold addEdge
  dsimp only
  rw [Dict.get?_set, addNode_edges, addNode_edges]

theorem addEdge_edge (G : Graph) (u v : GNode) (a : EdgeAttr) (e : GEdge) :
    (G.addEdge u v a).edge e ↔ G.edge e ∨ e = (u, v) := by
  unfold edge
  rw [Dict.mem_keys_iff, Dict.mem_keys_iff]
  simp only [addEdge_get?]
  constructor
  · rintro ⟨x, hx⟩
    split at hx
    · rename_i h; exact Or.inr h.symm
    · exact Or.inl ⟨x, hx⟩
  · rintro (⟨x, hx⟩ | rfl)
    · split
      · exact ⟨_, rfl⟩
      · exact ⟨x, hx⟩
    · exact ⟨a, by simp⟩

theorem hasEdge_iff (G : Graph) (u v : GNode) : G.hasEdge u v = true ↔ G.edge (u, v) := by
  unfold hasEdge edge
  rw [Dict.has_iff, Dict.mem_keys_iff]

theorem removeEdge_ok {G : Graph} {u v : GNode} (h : G.edge (u, v)) :
    ∃ H, G.removeEdge u v = .ok H ∧ H.nodes = G.nodes ∧ ∀ e, H.edge e ↔ G.edge e ∧ e ≠ (u, v) := by
  unfold removeEdge
  have h' : G.edges.has (u, v) = true := (hasEdge_iff G u v).2 h
  rw [if_pos h']
  refine ⟨_, rfl, rfl, fun e => ?_⟩
  unfold edge
  rw [Dict.mem_keys_iff, Dict.mem_keys_iff]
  dsimp only
  simp only [Dict.get?_del]
  constructor
  · rintro ⟨x, hx⟩
    split at hx
    · simp at hx
    · rename_i hne; exact ⟨⟨x, hx⟩, fun h => hne h.symm⟩
  · rintro ⟨⟨x, hx⟩, hne⟩
    exact ⟨x, by rw [if_neg (fun h => hne h.symm)]; exact hx⟩

/-- The edges left when the edge and its reverse are taken out. -/
def without (G : Graph) (u v : GNode) (e : GEdge) : Prop := G.edge e ∧ e ≠ (u, v) ∧ e ≠ (v, u)

theorem cut_ok {G H : Graph} (hs : ∀ e, H.edge e ↔ G.edge e) {u v : GNode} (h : G.edge (u, v))
    (hne : u ≠ v) :
    ∃ H1, H.cut u v (G.hasEdge v u) = .ok H1 ∧ H1.nodes = H.nodes ∧
      ∀ e, H1.edge e ↔ G.without u v e := by
  unfold cut
  obtain ⟨H1, h1, hn, he⟩ := removeEdge_ok ((hs _).2 h)
  rw [h1]
  dsimp only
  by_cases hr : G.edge (v, u)
  · rw [if_pos ((hasEdge_iff _ _ _).2 hr)]
    have hr1 : H1.edge (v, u) := (he _).2 ⟨(hs _).2 hr, by
      intro e; simp only [Prod.mk.injEq] at e; exact hne e.2⟩
    obtain ⟨H2, h2, hn2, he2⟩ := removeEdge_ok hr1
    refine ⟨H2, h2, hn2.trans hn, fun e => ?_⟩
    rw [he2, he, hs]
    unfold without
    rw [and_assoc]
  · rw [if_neg (fun c => hr ((hasEdge_iff _ _ _).1 c))]
    refine ⟨H1, rfl, hn, fun e => ?_⟩
    rw [he, hs]
    constructor
    · rintro ⟨h1, h2⟩
      exact ⟨h1, h2, fun c => hr (c ▸ h1)⟩
    · rintro ⟨h1, h2, _⟩
      exact ⟨h1, h2⟩

theorem uncut_edge {G H1 : Graph} {u v : GNode} (h : G.edge (u, v))
    (he : ∀ e, H1.edge e ↔ G.without u v e) (e : GEdge) :
    (H1.uncut u v (G.hasEdge v u)).edge e ↔ G.edge e := by
  unfold uncut
  dsimp only
  by_cases hr : G.edge (v, u)
  · rw [if_pos ((hasEdge_iff _ _ _).2 hr), addEdge_edge, addEdge_edge, he]
    unfold without
    constructor
    · rintro ((h1 | h1) | h1)
      · exact h1.1
      · exact h1 ▸ h
      · exact h1 ▸ hr
    · intro h1
      by_cases c1 : e = (u, v)
      · exact Or.inl (Or.inr c1)
      by_cases c2 : e = (v, u)
      · exact Or.inr c2
      exact Or.inl (Or.inl ⟨h1, c1, c2⟩)
  · rw [if_neg (fun c => hr ((hasEdge_iff _ _ _).1 c)), addEdge_edge, he]
    unfold without
    constructor
    · rintro (h1 | h1)
      · exact h1.1
      · exact h1 ▸ h
    · intro h1
      by_cases c1 : e = (u, v)
      · exact Or.inr c1
      exact Or.inl ⟨h1, c1, fun c => hr (c ▸ h1)⟩

theorem uncut_has {H1 : Graph} {u v : GNode} {r : Bool} (h : H1.nodes.has .super = true) :
    (H1.uncut u v r).nodes.has .super = true := by
  unfold uncut
  dsimp only
  split
  · rw [addEdge_has, addEdge_has]; exact Or.inl (Or.inl h)
  · rw [addEdge_has]; exact Or.inl h

theorem sortedEdge_cases (u v : GNode) : sortedEdge u v = (u, v) ∨ sortedEdge u v = (v, u) := by
  unfold sortedEdge; split
  · exact Or.inl rfl
  · exact Or.inr rfl

theorem without_comm (G : Graph) (u v : GNode) (e : GEdge) : G.without u v e ↔ G.without v u e := by
  unfold without; tauto

/-- Same key: same edge up to direction. -/
theorem sortedEdge_same {u v a b : GNode} (h : sortedEdge u v = sortedEdge a b) (G : Graph) (e : GEdge) :
    G.without u v e ↔ G.without a b e := by
  rcases sortedEdge_cases u v with h1 | h1 <;> rcases sortedEdge_cases a b with h2 | h2 <;>
    rw [h1, h2] at h <;> simp only [Prod.mk.injEq] at h <;> obtain ⟨rfl, rfl⟩ := h
  · rfl
  · exact without_comm _ _ _ _
  · exact without_comm _ _ _ _
  · rfl

theorem edgeLoop_spec {G : Graph} {conn : List GNode} (hself : ∀ e, G.edge e → e.1 ≠ e.2)
    (L : List (GEdge × EdgeAttr)) (hL : ∀ x ∈ L, G.edge x.1) (H : Graph) (D : Dict GEdge (List GNode))
    (hH : H.nodes.has .super = true) (hs : ∀ e, H.edge e ↔ G.edge e)
    (hD : ∀ k S, D.get? k = some S → ∃ x : GEdge, G.edge x ∧ k = sortedEdge x.1 x.2 ∧
      ∀ d, d ∈ S ↔ d ∈ conn ∧ (d = .super ∨ ¬ Joined (G.without x.1 x.2) .super d)) :
    ∃ R, G.edgeLoop conn H D L = .ok R ∧
      (∀ k S, R.get? k = some S → (∃ x : GEdge, G.edge x ∧ k = sortedEdge x.1 x.2 ∧
        ∀ d, d ∈ S ↔ d ∈ conn ∧ (d = .super ∨ ¬ Joined (G.without x.1 x.2) .super d))) ∧
      (∀ k, D.has k = true → R.has k = true) ∧
      (∀ x ∈ L, skipped x.2 = false → R.has (sortedEdge x.1.1 x.1.2) = true) ∧
      (∀ k, R.has k = true → D.has k = true ∨
        ∃ x ∈ L, skipped x.2 = false ∧ k = sortedEdge x.1.1 x.1.2) := by
  induction L generalizing H D with
  | nil => exact ⟨D, rfl, hD, fun _ h => h, by simp, fun k h => Or.inl h⟩
  | cons x L ih =>
    obtain ⟨⟨u, v⟩, a⟩ := x
    have hL' : ∀ x ∈ L, G.edge x.1 := fun x hx => hL x (List.mem_cons_of_mem _ hx)
    unfold edgeLoop
    by_cases hsk : skipped a = true
    · rw [if_pos hsk]
      obtain ⟨R, h1, h2, h3, h4, h5⟩ := ih hL' H D hH hs hD
      refine ⟨R, h1, h2, h3, ?_, ?_⟩
      · intro x hx hx2
        rcases List.mem_cons.1 hx with rfl | hx
        · rw [hsk] at hx2; simp at hx2
        · exact h4 x hx hx2
      · intro k hk
        rcases h5 k hk with h | ⟨x, hx, h⟩
        · exact Or.inl h
        · exact Or.inr ⟨x, List.mem_cons_of_mem _ hx, h⟩
    rw [if_neg hsk]
    have hsk' : skipped a = false := by simpa using hsk
    by_cases hk : D.has (sortedEdge u v) = true
    · rw [if_pos hk]
      obtain ⟨R, h1, h2, h3, h4, h5⟩ := ih hL' H D hH hs hD
      refine ⟨R, h1, h2, h3, ?_, ?_⟩
      · intro x hx hx2
        rcases List.mem_cons.1 hx with rfl | hx
        · exact h3 _ hk
        · exact h4 x hx hx2
      · intro k hk
        rcases h5 k hk with h | ⟨x, hx, h⟩
        · exact Or.inl h
        · exact Or.inr ⟨x, List.mem_cons_of_mem _ hx, h⟩
    rw [if_neg hk]
    have he : G.edge (u, v) := hL _ List.mem_cons_self
    obtain ⟨H1, hc, hn, hc1⟩ := cut_ok hs he (hself _ he)
    rw [hc]
    dsimp only
    have hH1 : H1.nodes.has .super = true := by rw [hn]; exact hH
    rw [descendants_ok hH1]
    dsimp only
    have hspec : ∀ d, d ∈ (conn.filter fun d => !(((H1.reach .super).filter (· ≠ .super)).contains d)) ↔
        d ∈ conn ∧ (d = .super ∨ ¬ Joined (G.without u v) .super d) := by
      intro d
      rw [List.mem_filter]
      apply and_congr_right
      intro _
      rw [Bool.not_eq_true', ← Bool.not_eq_true, List.contains_iff_mem, List.mem_filter, mem_reach,
        Joined.congr hc1, decide_eq_true_eq, not_and_or, not_not]
      exact or_comm
    obtain ⟨R, h1, h2, h3, h4, h5⟩ := ih hL' (H1.uncut u v (G.hasEdge v u))
      (D.set (sortedEdge u v) (conn.filter fun d => !(((H1.reach .super).filter (· ≠ .super)).contains d)))
      (uncut_has hH1) (uncut_edge he hc1) (by
        intro k S hk
        rw [Dict.get?_set] at hk
        split at hk
        · rename_i hkk
          simp only [Option.some.injEq] at hk
          subst hk
          exact ⟨(u, v), he, hkk.symm, hspec⟩
        · exact hD k S hk)
    refine ⟨R, h1, h2, ?_, ?_, ?_⟩
    · intro k hk
      apply h3
      rw [Dict.has_iff] at hk ⊢
      rw [Dict.get?_set]
      split
      · exact ⟨_, rfl⟩
      · exact hk
    · intro x hx hx2
      rcases List.mem_cons.1 hx with rfl | hx
      · apply h3
        rw [Dict.has_iff]
        exact ⟨_, Dict.get?_set_self _ _ _⟩
      · exact h4 x hx hx2
    · intro k hk
      rcases h5 k hk with h | ⟨x, hx, h⟩
      · rw [Dict.has_iff, Dict.get?_set] at h
        split at h
        · rename_i hkk
          exact Or.inr ⟨((u, v), a), List.mem_cons_self, hsk', hkk.symm⟩
        · exact Or.inl ((Dict.has_iff _ _).2 h)
      · exact Or.inr ⟨x, List.mem_cons_of_mem _ hx, h⟩

/-- `single_edge_failures` on any graph with a supersource and without loops: one entry per pair of
joined nodes, with the demands that lose their last walk from the supersource. -/
theorem edgeFailures_spec {G : Graph} (hself : ∀ e, G.edge e → e.1 ≠ e.2)
    (hsup : G.nodes.has .super = true) :
    ∃ R, G.edgeFailures = .ok R ∧
      (∀ x ∈ G.edges, skipped x.2 = false → ∃ S, R.get? (sortedEdge x.1.1 x.1.2) = some S ∧
        ∀ d, d ∈ S ↔ G.Fed G.edge d ∧ ¬ Joined (G.without x.1.1 x.1.2) .super d) ∧
      (∀ k, R.has k = true → ∃ x ∈ G.edges, skipped x.2 = false ∧ k = sortedEdge x.1.1 x.1.2) := by
  unfold edgeFailures
  obtain ⟨C, hC, hCd⟩ := connected_ok hsup
  rw [hC]
  dsimp only
  obtain ⟨R, h1, h2, _, h4, h5⟩ := edgeLoop_spec (conn := C) hself G.edges
    (fun x hx => List.mem_map.2 ⟨x, hx, rfl⟩) G [] hsup (fun _ => Iff.rfl) (by simp)
  refine ⟨R, h1, ?_, ?_⟩
  · intro x hx hsk
    obtain ⟨S, hS⟩ := (Dict.has_iff _ _).1 (h4 x hx hsk)
    refine ⟨S, hS, fun d => ?_⟩
    obtain ⟨y, _, hk, hy⟩ := h2 _ S hS
    rw [hy, hCd, Joined.congr (sortedEdge_same hk G)]
    constructor
    · rintro ⟨ha, hb | hb⟩
      · exact absurd hb ha.2.1
      · exact ⟨ha, hb⟩
    · rintro ⟨ha, hb⟩
      exact ⟨ha, Or.inr hb⟩
  · intro k hk
    rcases h5 k hk with h | h
    · simp [Dict.has] at h
    · exact h

theorem isolate_edge (G : Graph) (s : GNode) (e : GEdge) :
    (G.isolate s).edge e ↔ G.edge e ∧ e.1 ≠ s := by
  unfold edge isolate Dict.keys
  simp only [List.mem_map, List.mem_filter]
  constructor
  · rintro ⟨x, ⟨h1, h2⟩, rfl⟩
    exact ⟨⟨x, h1, rfl⟩, by simpa using h2⟩
  · rintro ⟨⟨x, h1, rfl⟩, h2⟩
    exact ⟨x, ⟨h1, by simpa using h2⟩, rfl⟩

theorem restore_edge (G : Graph) (L : List (GEdge × EdgeAttr)) (e : GEdge) :
    (G.restore L).edge e ↔ G.edge e ∨ ∃ x ∈ L, x.1 = e := by
  unfold restore
  induction L generalizing G with
  | nil => simp
  | cons x L ih =>
    rw [List.foldl_cons, ih, addEdge_edge]
    simp only [List.mem_cons, exists_eq_or_imp]
    rw [or_assoc]
    apply or_congr_right
    apply or_congr_left
    exact eq_comm

theorem restore_has (G : Graph) (L : List (GEdge × EdgeAttr)) (h : G.nodes.has .super = true) :
    (G.restore L).nodes.has .super = true := by
  unfold restore
  induction L generalizing G with
  | nil => exact h
  | cons x L ih =>
    rw [List.foldl_cons]
    exact ih _ ((addEdge_has _ _ _ _ _).2 (Or.inl h))

/-- What `single_site_failures` records for a node. -/
def lostAt (G : Graph) (s : GNode) (d : GNode) : Prop :=
  G.Fed G.edge d ∧ ¬ Joined (fun e => G.edge e ∧ e.1 ≠ s) .super d

theorem siteLoop_spec {G : Graph} {conn : List GNode} (hconn : ∀ d, d ∈ conn ↔ G.Fed G.edge d)
    (L : List (GNode × Option NodeKind)) (hL : (L.map (·.1)).Nodup) (H : Graph)
    (D : Dict GNode (List GNode) × Dict GNode (List GNode))
    (hH : H.nodes.has .super = true) (hs : ∀ e, H.edge e ↔ G.edge e) :
    ∃ R, siteLoop conn H D L = .ok R ∧
      (∀ s, s ∉ L.map (·.1) → R.1.get? s = D.1.get? s ∧ R.2.get? s = D.2.get? s) ∧
      (∀ s ∈ L.map (·.1), D.1.get? s = none → D.2.get? s = none →
        (∀ S, R.1.get? s = some S → (s, some (.site .pop)) ∈ L ∧ S ≠ [] ∧ ∀ d, d ∈ S ↔ G.lostAt s d) ∧
        (∀ S, R.2.get? s = some S → (s, some (.site .dn)) ∈ L ∧ S ≠ [] ∧ ∀ d, d ∈ S ↔ G.lostAt s d) ∧
        ((s, some (.site .pop)) ∈ L → s ≠ .super → R.1.get? s = none → ∀ d, ¬ G.lostAt s d) ∧
        ((s, some (.site .dn)) ∈ L → s ≠ .super → R.2.get? s = none → ∀ d, ¬ G.lostAt s d)) := by
  induction L generalizing H D with
  | nil => exact ⟨D, rfl, fun _ _ => ⟨rfl, rfl⟩, by simp⟩
  | cons x L ih =>
    obtain ⟨v, k⟩ := x
    rw [List.map_cons, List.nodup_cons] at hL
    have hkey : ∀ {c}, (v, c) ∈ (v, k) :: L → c = k := by
      intro c hc
      rcases List.mem_cons.1 hc with h | h
      · simp only [Prod.mk.injEq, true_and] at h; exact h
      · exact absurd (List.mem_map.2 ⟨_, h, rfl⟩) hL.1
    unfold siteLoop
    by_cases hp : passedOver v k = true
    · rw [if_pos hp]
      obtain ⟨R, h1, h2, h3⟩ := ih hL.2 H D hH hs
      refine ⟨R, h1, fun s hs' => h2 s (fun c => hs' (List.mem_cons_of_mem _ c)), ?_⟩
      intro s hs' d1 d2
      rw [List.map_cons] at hs'
      by_cases hsv : s = v
      · subst hsv
        obtain ⟨e1, e2⟩ := h2 s hL.1
        have hk : s = .super ∨ (k ≠ some (.site .pop) ∧ k ≠ some (.site .dn)) := by
          unfold passedOver at hp
          simp only [Bool.or_eq_true, beq_iff_eq] at hp
          rcases hp with (hp | hp) | hp
          · right; rw [hp]; simp
          · right; rw [hp]; simp
          · exact Or.inl hp
        refine ⟨fun S hS => ?_, fun S hS => ?_, fun hm hne => ?_, fun hm hne => ?_⟩
        · rw [e1, d1] at hS; simp at hS
        · rw [e2, d2] at hS; simp at hS
        · have := hkey hm
          rcases hk with hk | hk
          · exact absurd hk hne
          · exact absurd this.symm hk.1
        · have := hkey hm
          rcases hk with hk | hk
          · exact absurd hk hne
          · exact absurd this.symm hk.2
      · have hsL : s ∈ L.map (·.1) := (List.mem_cons.1 hs').resolve_left hsv
        obtain ⟨q1, q2, q3, q4⟩ := h3 s hsL d1 d2
        have hm' : ∀ {c}, (s, c) ∈ (v, k) :: L → (s, c) ∈ L := fun hm =>
          (List.mem_cons.1 hm).resolve_left (fun e => hsv (by simpa using congrArg Prod.fst e))
        exact ⟨fun S hS => ⟨List.mem_cons_of_mem _ (q1 S hS).1, (q1 S hS).2⟩,
          fun S hS => ⟨List.mem_cons_of_mem _ (q2 S hS).1, (q2 S hS).2⟩,
          fun hm => q3 (hm' hm), fun hm => q4 (hm' hm)⟩
    rw [if_neg hp]
    have hH1 : (H.isolate v).nodes.has .super = true := hH
    rw [descendants_ok hH1]
    dsimp only
    set lost := conn.filter fun d => !((((H.isolate v).reach .super).filter (· ≠ .super)).contains d)
      with hlost
    have hspec : ∀ d, d ∈ lost ↔ G.lostAt v d := by
      intro d
      rw [hlost, List.mem_filter, hconn, Bool.not_eq_true', ← Bool.not_eq_true, List.contains_iff_mem,
        List.mem_filter, mem_reach, decide_eq_true_eq, not_and_or, not_not,
        Joined.congr (F := fun e => G.edge e ∧ e.1 ≠ v) (fun e => by rw [isolate_edge, hs])]
      unfold lostAt
      apply and_congr_right
      intro hf
      exact ⟨fun h => h.resolve_right hf.2.1, Or.inl⟩
    set D' := (if lost = [] then D
           else if k = some (.site .pop) then (D.1.set v lost, D.2)
           else if k = some (.site .dn) then (D.1, D.2.set v lost)
           else D) with hD'
    have hD1 : ∀ s, s ≠ v → D'.1.get? s = D.1.get? s ∧ D'.2.get? s = D.2.get? s := by
      intro s hsv
      rw [hD']
      split
      · exact ⟨rfl, rfl⟩
      · split
        · exact ⟨by rw [Dict.get?_set, if_neg (fun h => hsv h.symm)], rfl⟩
        · split
          · exact ⟨rfl, by rw [Dict.get?_set, if_neg (fun h => hsv h.symm)]⟩
          · exact ⟨rfl, rfl⟩
    obtain ⟨R, h1, h2, h3⟩ := ih hL.2 ((H.isolate v).restore (H.edges.filter fun e => e.1.1 = v)) D'
      (restore_has _ _ hH1) (by
        intro e
        rw [restore_edge, isolate_edge, hs]
        constructor
        · rintro (h | ⟨x, hx, rfl⟩)
          · exact h.1
          · exact (hs _).1 (List.mem_map.2 ⟨x, (List.mem_filter.1 hx).1, rfl⟩)
        · intro h
          by_cases hv : e.1 = v
          · obtain ⟨x, hx, rfl⟩ := List.mem_map.1 ((hs _).2 h)
            exact Or.inr ⟨x, List.mem_filter.2 ⟨hx, by simpa using hv⟩, rfl⟩
          · exact Or.inl ⟨h, hv⟩)
    refine ⟨R, h1, ?_, ?_⟩
    · intro s hs'
      rw [List.map_cons, List.mem_cons, not_or] at hs'
      obtain ⟨a1, a2⟩ := h2 s hs'.2
      obtain ⟨b1, b2⟩ := hD1 s hs'.1
      exact ⟨a1.trans b1, a2.trans b2⟩
    · intro s hs' d1 d2
      rw [List.map_cons] at hs'
      by_cases hsv : s = v
      · subst hsv
        obtain ⟨e1, e2⟩ := h2 s hL.1
        have hnil : lost = [] → ∀ d, ¬ G.lostAt s d := by
          intro hl d hd
          have := (hspec d).2 hd
          rw [hl] at this
          simp at this
        refine ⟨fun S hS => ?_, fun S hS => ?_, fun hm _ hS => ?_, fun hm _ hS => ?_⟩
        · rw [e1, hD'] at hS
          split at hS
          · rw [d1] at hS; simp at hS
          · rename_i hne
            split at hS
            · rename_i hk
              rw [Dict.get?_set_self] at hS
              simp only [Option.some.injEq] at hS
              subst hS
              exact ⟨by rw [hk]; exact List.mem_cons_self, hne, hspec⟩
            · split at hS <;> ((try dsimp only at hS); rw [d1] at hS; simp at hS)
        · rw [e2, hD'] at hS
          split at hS
          · rw [d2] at hS; simp at hS
          · rename_i hne
            split at hS
            · dsimp only at hS; rw [d2] at hS; simp at hS
            · split at hS
              · rename_i hk
                rw [Dict.get?_set_self] at hS
                simp only [Option.some.injEq] at hS
                subst hS
                exact ⟨by rw [hk]; exact List.mem_cons_self, hne, hspec⟩
              · rw [d2] at hS; simp at hS
        · have hk := hkey hm
          rw [e1, hD'] at hS
          by_cases hl : lost = []
          · exact hnil hl
          · rw [if_neg hl, if_pos hk.symm, Dict.get?_set_self] at hS
            simp at hS
        · have hk := hkey hm
          rw [e2, hD'] at hS
          by_cases hl : lost = []
          · exact hnil hl
          · rw [if_neg hl, if_neg (by rw [← hk]; simp), if_pos hk.symm, Dict.get?_set_self] at hS
            simp at hS
      · have hsL : s ∈ L.map (·.1) := (List.mem_cons.1 hs').resolve_left hsv
        obtain ⟨b1, b2⟩ := hD1 s hsv
        obtain ⟨q1, q2, q3, q4⟩ := h3 s hsL (b1.trans d1) (b2.trans d2)
        have hm' : ∀ {c}, (s, c) ∈ (v, k) :: L → (s, c) ∈ L := fun hm =>
          (List.mem_cons.1 hm).resolve_left (fun e => hsv (by simpa using congrArg Prod.fst e))
        exact ⟨fun S hS => ⟨List.mem_cons_of_mem _ (q1 S hS).1, (q1 S hS).2⟩,
          fun S hS => ⟨List.mem_cons_of_mem _ (q2 S hS).1, (q2 S hS).2⟩,
          fun hm => q3 (hm' hm), fun hm => q4 (hm' hm)⟩

end Graph
end Verif
