import Verif.Model.Availability
import Verif.Spec.Availability
import Verif.Lemmas.NxLoop
import Mathlib.Tactic.Linarith
import Mathlib.Tactic.FieldSimp
import Mathlib.Tactic.Ring

/-! The availability simulation. -/

namespace Verif

open Spec Relation

theorem upTime_congr {up up' : ℚ → Prop} {last : ℚ} {ts : List ℚ} (h : ∀ x, up x ↔ up' x) :
    upTime up last ts = upTime up' last ts := by
  have : up = up' := funext fun x => propext (h x)
  rw [this]

theorem upTime_nonneg {up : ℚ → Prop} {last : ℚ} {ts : List ℚ} (h : (last :: ts).Pairwise (· ≤ ·)) :
    0 ≤ upTime up last ts := by
  classical
  induction ts generalizing last with
  | nil => simp [upTime]
  | cons t ts ih =>
    rw [List.pairwise_cons] at h
    have := ih h.2
    have h1 := h.1 t List.mem_cons_self
    unfold upTime
    split <;> linarith

theorem upTime_le {up : ℚ → Prop} {last T : ℚ} {ts : List ℚ} (h : (last :: ts).Pairwise (· ≤ ·))
    (hT : (last :: ts).getLast? = some T) : upTime up last ts ≤ T - last := by
  classical
  induction ts generalizing last with
  | nil =>
    simp only [List.getLast?_singleton, Option.some.injEq] at hT
    subst hT
    simp [upTime]
  | cons t ts ih =>
    rw [List.pairwise_cons] at h
    rw [List.getLast?_cons_cons] at hT
    have := ih h.2 hT
    have h1 := h.1 t List.mem_cons_self
    unfold upTime
    split <;> linarith

theorem upTime_full {up : ℚ → Prop} {last T : ℚ} {ts : List ℚ} (h : (last :: ts).Pairwise (· ≤ ·))
    (hT : (last :: ts).getLast? = some T) (hup : ∀ x, last ≤ x → x < T → up x) :
    upTime up last ts = T - last := by
  classical
  induction ts generalizing last with
  | nil =>
    simp only [List.getLast?_singleton, Option.some.injEq] at hT
    subst hT
    simp [upTime]
  | cons t ts ih =>
    rw [List.pairwise_cons] at h
    rw [List.getLast?_cons_cons] at hT
    have h1 := h.1 t List.mem_cons_self
    have hr := ih h.2 hT (fun x hx hxT => hup x (le_trans h1 hx) hxT)
    have htT : t ≤ T := by
      have hm : T ∈ t :: ts := List.mem_of_getLast? hT
      rcases List.mem_cons.1 hm with rfl | hm
      · exact le_refl _
      · exact (List.pairwise_cons.1 h.2).1 T hm
    unfold upTime
    rw [hr]
    split
    · ring
    · rename_i hn
      have : t = last := by
        by_contra c
        exact hn (hup last (le_refl _) (lt_of_lt_of_le (lt_of_le_of_ne h1 (Ne.symm c)) htT))
      rw [this]; ring

/-! ### Events -/

theorem Ev.le_time {a b : Ev} (h : a.le b) : a.time ≤ b.time := by
  unfold Ev.le Ev.tuple at h
  rw [Prod.Lex.toLex_le_toLex] at h
  rcases h with h | h
  · exact le_of_lt h
  · exact le_of_eq h.1

theorem Ev.le_of_lt {a b : Ev} (h : a.time < b.time) : a.le b := by
  unfold Ev.le Ev.tuple
  rw [Prod.Lex.toLex_le_toLex]
  exact Or.inl h

theorem Ev.le_total' (a b : Ev) : a.le b ∨ b.le a := le_total _ _

theorem Ev.le_trans' {a b c : Ev} (h : a.le b) (h' : b.le c) : a.le c := le_trans h h'

instance : Std.Total Ev.le := ⟨fun a b => Ev.le_total' a b⟩
instance : IsTrans Ev Ev.le := ⟨fun _ _ _ h h' => Ev.le_trans' h h'⟩

theorem Ev.le_kind {a b : Ev} (ht : a.time = b.time) (hk : a.key = b.key) (hr : a.kind.rank ≤ b.kind.rank) :
    a.le b := by
  unfold Ev.le Ev.tuple
  rw [ht, hk]
  simp only [Prod.Lex.toLex_le_toLex, lt_irrefl, true_and, false_or]
  exact hr

theorem Ev.le_antisymm' {a b : Ev} (hk : a.key = b.key) (h : a.le b) (h' : b.le a) : a = b := by
  have he : a.tuple = b.tuple := le_antisymm h h'
  unfold Ev.tuple at he
  simp only [EmbeddingLike.apply_eq_iff_eq, Prod.mk.injEq] at he
  have hr : a.kind = b.kind := by
    have := he.2.2.2
    revert this
    cases a.kind <;> cases b.kind <;> simp [EvKind.rank]
  cases a; cases b
  simp only at he hk hr ⊢
  rw [he.1, hk, hr]

/-- Outages in order: repairs not before failures, the next failure after the repair. -/
def Ordered (lo : ℚ) : List (ℚ × ℚ) → Prop
  | [] => True
  | (f, r) :: rest => lo < f ∧ f ≤ r ∧ Ordered r rest

theorem outages_ordered {sim : ℚ} (D : List (ℚ × ℚ)) (h : ∀ x ∈ D, 0 < x.1 ∧ 0 ≤ x.2) (curr : ℚ) :
    Ordered curr (outages sim curr D) := by
  induction D generalizing curr with
  | nil => simp [outages, Ordered]
  | cons x D ih =>
    obtain ⟨f, r⟩ := x
    have := h (f, r) List.mem_cons_self
    dsimp only at this
    unfold outages
    split
    · exact ⟨by linarith, by linarith, ih (fun x hx => h x (List.mem_cons_of_mem _ hx)) _⟩
    · simp [Ordered]

theorem Ordered.lt {lo : ℚ} {O : List (ℚ × ℚ)} (h : Ordered lo O) : ∀ x ∈ O, lo < x.1 ∧ lo < x.2 := by
  induction O generalizing lo with
  | nil => simp
  | cons y O ih =>
    obtain ⟨f, r⟩ := y
    obtain ⟨h1, h2, h3⟩ := h
    intro x hx
    rcases List.mem_cons.1 hx with rfl | hx
    · exact ⟨h1, lt_of_lt_of_le h1 h2⟩
    · have := ih h3 x hx
      exact ⟨by linarith [this.1], by linarith [this.2]⟩

theorem Ordered.append {lo : ℚ} {A : List (ℚ × ℚ)} {f r : ℚ} {B : List (ℚ × ℚ)}
    (h : Ordered lo (A ++ (f, r) :: B)) : f ≤ r ∧ Ordered r B := by
  induction A generalizing lo with
  | nil => exact ⟨h.2.1, h.2.2⟩
  | cons y A ih =>
    obtain ⟨f', r'⟩ := y
    exact ih h.2.2

theorem linkEvents_mem {k : GEdge} {O : List (ℚ × ℚ)} {e : Ev} (h : e ∈ linkEvents k O) :
    e.key = some k ∧ (e.kind = .failed ∧ (∃ o ∈ O, o.1 = e.time) ∨ e.kind = .repaired ∧ ∃ o ∈ O, o.2 = e.time) := by
  induction O with
  | nil => simp [linkEvents] at h
  | cons x O ih =>
    obtain ⟨f, r⟩ := x
    simp only [linkEvents, List.mem_cons] at h
    rcases h with rfl | rfl | h
    · exact ⟨rfl, Or.inl ⟨rfl, (f, r), List.mem_cons_self, rfl⟩⟩
    · exact ⟨rfl, Or.inr ⟨rfl, (f, r), List.mem_cons_self, rfl⟩⟩
    · obtain ⟨h1, h2⟩ := ih h
      refine ⟨h1, ?_⟩
      rcases h2 with ⟨a, o, b, c⟩ | ⟨a, o, b, c⟩
      · exact Or.inl ⟨a, o, List.mem_cons_of_mem _ b, c⟩
      · exact Or.inr ⟨a, o, List.mem_cons_of_mem _ b, c⟩

theorem linkEvents_of {k : GEdge} {O : List (ℚ × ℚ)} {o : ℚ × ℚ} (h : o ∈ O) :
    (∃ e ∈ linkEvents k O, e.time = o.1) ∧ ∃ e ∈ linkEvents k O, e.time = o.2 := by
  induction O with
  | nil => simp at h
  | cons x O ih =>
    obtain ⟨f, r⟩ := x
    rcases List.mem_cons.1 h with rfl | h
    · exact ⟨⟨_, by simp [linkEvents]; left; rfl, rfl⟩, ⟨⟨r, some k, .repaired⟩, by simp [linkEvents], rfl⟩⟩
    · obtain ⟨⟨e, h1, h2⟩, e', h3, h4⟩ := ih h
      exact ⟨⟨e, by simp [linkEvents, h1], h2⟩, ⟨e', by simp [linkEvents, h3], h4⟩⟩

theorem linkEvents_sorted {k : GEdge} {lo : ℚ} {O : List (ℚ × ℚ)} (h : Ordered lo O) :
    (linkEvents k O).Pairwise Ev.le := by
  induction O generalizing lo with
  | nil => simp [linkEvents]
  | cons x O ih =>
    obtain ⟨f, r⟩ := x
    obtain ⟨h1, h2, h3⟩ := h
    have later : ∀ e ∈ linkEvents k O, r < e.time := by
      intro e he
      obtain ⟨_, h4⟩ := linkEvents_mem he
      rcases h4 with ⟨_, o, ho, h⟩ | ⟨_, o, ho, h⟩
      · rw [← h]; exact (h3.lt o ho).1
      · rw [← h]; exact (h3.lt o ho).2
    simp only [linkEvents, List.pairwise_cons, List.mem_cons]
    refine ⟨?_, ?_, ih h3⟩
    · rintro e (rfl | he)
      · rcases lt_or_eq_of_le h2 with h | h
        · exact Ev.le_of_lt h
        · exact Ev.le_kind h rfl (by simp [EvKind.rank])
      · exact Ev.le_of_lt (lt_of_le_of_lt h2 (later e he))
    · intro e he
      exact Ev.le_of_lt (later e he)

/-- The heap yields the events of one link in the order of their making. -/
theorem events_filter {sim : ℚ} {draws : GEdge → List (ℚ × ℚ)} {L : List GEdge} (hL : L.Nodup) {k : GEdge}
    (hk : k ∈ L) (ho : Ordered 0 (outages sim 0 (draws k))) :
    (Graph.events sim draws L).filter (fun e => e.key = some k) = linkEvents k (outages sim 0 (draws k)) := by
  have hsub : (⟨sim, none, .simEnd⟩ :: L.flatMap fun k => linkEvents k (outages sim 0 (draws k)) : List Ev).filter
      (fun e => e.key = some k) = linkEvents k (outages sim 0 (draws k)) := by
    rw [List.filter_cons_of_neg (by simp)]
    clear ho
    induction L with
    | nil => simp at hk
    | cons j L ih =>
      rw [List.nodup_cons] at hL
      rw [List.flatMap_cons, List.filter_append]
      rcases List.mem_cons.1 hk with rfl | hk
      · have h1 : (linkEvents k (outages sim 0 (draws k))).filter (fun e => e.key = some k) =
            linkEvents k (outages sim 0 (draws k)) :=
          List.filter_eq_self.2 (fun e he => by simp [(linkEvents_mem he).1])
        have h2 : (L.flatMap fun k => linkEvents k (outages sim 0 (draws k))).filter
            (fun e => e.key = some k) = [] := by
          rw [List.filter_eq_nil_iff]
          intro e he
          obtain ⟨j, hj, he⟩ := List.mem_flatMap.1 he
          simp only [(linkEvents_mem he).1, Option.some.injEq, decide_eq_true_eq]
          rintro rfl
          exact hL.1 hj
        rw [h1, h2, List.append_nil]
      · have h1 : (linkEvents j (outages sim 0 (draws j))).filter (fun e => e.key = some k) = [] := by
          rw [List.filter_eq_nil_iff]
          intro e he
          simp only [(linkEvents_mem he).1, Option.some.injEq, decide_eq_true_eq]
          rintro rfl
          exact hL.1 hk
        rw [h1, List.nil_append]
        exact ih hL.2 hk
  unfold Graph.events
  refine List.Perm.eq_of_pairwise (le := Ev.le) ?_ ?_ ?_ ?_
  · intro a b ha hb h1 h2
    have ha' := List.mem_filter.1 ha
    have hb' := linkEvents_mem hb
    exact Ev.le_antisymm' ((of_decide_eq_true ha'.2).trans hb'.1.symm) h1 h2
  · exact (List.pairwise_insertionSort _ _).filter _
  · exact linkEvents_sorted ho
  · have := (List.perm_insertionSort Ev.le (⟨sim, none, .simEnd⟩ ::
      L.flatMap fun k => linkEvents k (outages sim 0 (draws k)))).filter (fun e => e.key = some k)
    rw [hsub] at this
    exact this

end Verif
