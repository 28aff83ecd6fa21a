import Verif.Props.LosStatus

/-!
# Additional DNs

C25.
-/

namespace Verif
open LosStatus

/-- A site may be selected after the sites `acc`: it is neither picked nor selected, and has LOS from a site
connected by the picked ones or from a selected one. -/
def Selectable (types : List SiteType) (rx : List (List Nat)) (picked acc : List Nat) (i : Nat) : Prop :=
  i < types.length ∧ i ∉ picked ∧ i ∉ acc ∧ ∃ t, (ConnectedBy types rx picked t ∨ t ∈ acc) ∧ i ∈ (rx[t]?).getD []

/-- A picked CN that is not connected by the picked sites and not seen by the sites `acc`. -/
def Uncovered (types : List SiteType) (rx : List (List Nat)) (picked acc : List Nat) (c : Nat) : Prop :=
  c ∈ picked ∧ types[c]? = some .cn ∧ ¬ ConnectedBy types rx picked c ∧ ∀ d ∈ acc, c ∉ (rx[d]?).getD []

namespace LosStatus

variable {types : List SiteType} {rx tx : List (List Nat)} {picked : List Nat}

theorem bestDn_spec (rx : List (List Nat)) (cns : List Nat) : ∀ (L : List Nat) (b : Option Nat × List Nat),
    (bestDn rx cns b L = b ∨ ∃ d ∈ L, bestDn rx cns b L = (some d, (nbrs rx d).filter fun r => cns.contains r)
      ∧ b.2.length < ((nbrs rx d).filter fun r => cns.contains r).length)
    ∧ b.2.length ≤ (bestDn rx cns b L).2.length
    ∧ ∀ d ∈ L, ((nbrs rx d).filter fun r => cns.contains r).length ≤ (bestDn rx cns b L).2.length
  | [], b => by simp [bestDn]
  | d :: L, b => by
    have e : bestDn rx cns b (d :: L) = bestDn rx cns
        (if ((nbrs rx d).filter fun r => cns.contains r).length > b.2.length then
          (some d, (nbrs rx d).filter fun r => cns.contains r) else b) L := rfl
    rw [e]
    by_cases h : ((nbrs rx d).filter fun r => cns.contains r).length > b.2.length
    · rw [if_pos h]
      obtain ⟨h1, h2, h3⟩ := bestDn_spec rx cns L (some d, (nbrs rx d).filter fun r => cns.contains r)
      dsimp only at h1 h2
      refine ⟨.inr ?_, by omega, ?_⟩
      · rcases h1 with h1 | ⟨d', hd', h1, h4⟩
        · exact ⟨d, List.mem_cons_self, h1, h⟩
        · exact ⟨d', List.mem_cons_of_mem _ hd', h1, by omega⟩
      · intro d' hd'
        rcases List.mem_cons.1 hd' with rfl | hd'
        · exact h2
        · exact h3 d' hd'
    · rw [if_neg h]
      obtain ⟨h1, h2, h3⟩ := bestDn_spec rx cns L b
      refine ⟨?_, h2, ?_⟩
      · rcases h1 with h1 | ⟨d', hd', h1, h4⟩
        · exact .inl h1
        · exact .inr ⟨d', List.mem_cons_of_mem _ hd', h1, h4⟩
      · intro d' hd'
        rcases List.mem_cons.1 hd' with rfl | hd'
        · omega
        · exact h3 d' hd'

/-- What the update of the neighbours does to the sites not picked. -/
theorem coverStep_spec : ∀ (ns : List Nat) (S : Status4),
    (∀ i, i ∈ (coverStep S ns).connectable ↔ i ∈ S.connectable ∨ (i ∈ ns ∧ i ∈ S.other))
    ∧ (∀ i, i ∈ (coverStep S ns).other ↔ i ∈ S.other ∧ i ∉ ns)
  | [], S => by simp [coverStep]
  | r :: ns, S => by
    by_cases h1 : r ∈ S.other
    · have e : coverStep S (r :: ns) = coverStep { S with
          other := S.other.filter (· ≠ r), connectable := r :: S.connectable } ns := by
        simp only [coverStep, List.contains_iff_mem, h1, if_true]
      rw [e]
      obtain ⟨i1, i2⟩ := coverStep_spec ns { S with
          other := S.other.filter (· ≠ r), connectable := r :: S.connectable }
      refine ⟨fun i => ?_, fun i => ?_⟩
      · rw [i1]
        simp only [List.mem_cons, List.mem_filter, decide_eq_true_eq]
        by_cases c : i = r
        · subst c; simp [h1]
        · simp [c]
      · rw [i2]
        simp only [List.mem_cons, List.mem_filter, decide_eq_true_eq]
        tauto
    · have e : (coverStep S (r :: ns)).connectable = (coverStep S ns).connectable
          ∧ (coverStep S (r :: ns)).other = (coverStep S ns).other
          ∨ ∃ S' : Status4, S'.connectable = S.connectable ∧ S'.other = S.other
            ∧ coverStep S (r :: ns) = coverStep S' ns := by
        by_cases h2 : r ∈ S.unconnected
        · refine .inr ⟨{ S with unconnected := S.unconnected.filter (· ≠ r), connected := r :: S.connected }, rfl, rfl, ?_⟩
          simp only [coverStep, List.contains_iff_mem, h1, h2, if_true, if_false]
        · refine .inl ?_
          simp only [coverStep, List.contains_iff_mem, h1, h2, if_false]
          simp
      have key : (∀ i, i ∈ (coverStep S (r :: ns)).connectable ↔ i ∈ S.connectable ∨ (i ∈ ns ∧ i ∈ S.other))
          ∧ (∀ i, i ∈ (coverStep S (r :: ns)).other ↔ i ∈ S.other ∧ i ∉ ns) := by
        rcases e with ⟨e1, e2⟩ | ⟨S', e1, e2, e3⟩
        · rw [e1, e2]; exact coverStep_spec ns S
        · rw [e3]
          obtain ⟨i1, i2⟩ := coverStep_spec ns S'
          rw [e1, e2] at i1
          rw [e2] at i2
          exact ⟨i1, i2⟩
      refine ⟨fun i => ?_, fun i => ?_⟩
      · rw [key.1, List.mem_cons]
        by_cases c : i = r
        · subst c; simp [h1]
        · simp [c]
      · rw [key.2, List.mem_cons]
        by_cases c : i = r
        · subst c; simp [h1]
        · simp [c]

/-- How many unseen CNs a site sees, after the sites `acc` have been selected. -/
def Sees (types : List SiteType) (rx : List (List Nat)) (picked acc : List Nat) (d : Nat) (L : List Nat) : Prop :=
  L.Sublist (nbrs rx d) ∧ ∀ c ∈ L, Uncovered types rx picked acc c

/-- The sites selected, the last one first. -/
inductive Good (types : List SiteType) (rx tx : List (List Nat)) (picked : List Nat) : List Nat → Prop
  | nil : Good types rx tx picked []
  | cons (d : Nat) (acc : List Nat) : Good types rx tx picked acc → Selectable types rx picked acc d →
      (∃ c, Uncovered types rx picked acc c ∧ c ∈ nbrs rx d) →
      (∃ c, Uncovered types rx picked acc c ∧ d ∈ nbrs tx c ∧ ∃ L, Sees types rx picked acc d L ∧
        ∀ d' ∈ nbrs tx c, Selectable types rx picked acc d' → ∀ L', Sees types rx picked acc d' L' →
          L'.length ≤ L.length) →
      Good types rx tx picked (d :: acc)

theorem Good.connected {acc : List Nat} (h : Good types rx tx picked acc) :
    ∀ d ∈ acc, ConnectedBy types rx (picked ++ acc) d := by
  induction h with
  | nil => intro d hd; cases hd
  | cons d acc _ hs _ _ ih =>
    have mono : ∀ i ∈ picked ++ acc, i ∈ picked ++ d :: acc := by
      intro i hi
      rcases List.mem_append.1 hi with c | c
      · exact List.mem_append_left _ c
      · exact List.mem_append_right _ (List.mem_cons_of_mem _ c)
    intro e he
    rcases List.mem_cons.1 he with rfl | he
    · obtain ⟨_, _, _, t, ht, hr⟩ := hs
      refine .step t e ?_ hr (by simp)
      rcases ht with ht | ht
      · exact ht.mono fun i hi => List.mem_append_left _ hi
      · exact (ih t ht).mono mono
    · exact (ih e he).mono mono

theorem Good.suffix {post pre : List Nat} (h : Good types rx tx picked (post ++ pre)) : Good types rx tx picked pre := by
  induction post with
  | nil => exact h
  | cons d post ih =>
    cases h with
    | cons _ _ h _ _ _ => exact ih h

/-- The queue of CNs to try. -/
def load (q : List (Nat × Nat)) : Nat := (q.map fun p => 4 - p.2).sum

/-- The invariant of the selection. -/
structure SelInv (types : List SiteType) (rx tx : List (List Nat)) (picked : List Nat) (S : Status4)
    (cns acc : List Nat) (q : List (Nat × Nat)) : Prop where
  good : Good types rx tx picked acc
  able : ∀ i, i ∈ S.connectable ↔ Selectable types rx picked acc i
  other : ∀ i, i ∈ S.other ↔ i < types.length ∧ i ∉ picked ∧
    ¬ ∃ t, (ConnectedBy types rx picked t ∨ t ∈ acc) ∧ i ∈ nbrs rx t
  unc : ∀ c, c ∈ cns ↔ Uncovered types rx picked acc c
  tries : ∀ p ∈ q, p.2 ≤ 3
  pend : ∀ c ∈ cns, (∃ k, (c, k) ∈ q) ∨ ∃ pre post, acc = post ++ pre ∧
    ∀ d ∈ nbrs tx c, ¬ Selectable types rx picked pre d

/-- What the selection ends with. -/
def Final (types : List SiteType) (rx tx : List (List Nat)) (picked out : List Nat) : Prop :=
  Good types rx tx picked out.reverse ∧ ∀ c, Uncovered types rx picked out c →
    ∃ pre post, out.reverse = post ++ pre ∧ ∀ d ∈ nbrs tx c, ¬ Selectable types rx picked pre d

theorem SelInv.final {S : Status4} {cns acc : List Nat} (I : SelInv types rx tx picked S cns acc []) :
    Final types rx tx picked acc.reverse := by
  refine ⟨by rw [List.reverse_reverse]; exact I.good, fun c hc => ?_⟩
  rw [List.reverse_reverse]
  have : c ∈ cns := by
    rw [I.unc]
    exact ⟨hc.1, hc.2.1, hc.2.2.1, fun d hd => hc.2.2.2 d (List.mem_reverse.2 hd)⟩
  rcases I.pend c this with ⟨k, hk⟩ | h
  · cases hk
  · exact h

theorem filter_sees {cns acc : List Nat} (hc : ∀ c, c ∈ cns ↔ Uncovered types rx picked acc c) (d : Nat) :
    Sees types rx picked acc d ((nbrs rx d).filter fun r => cns.contains r) := by
  refine ⟨List.filter_sublist, fun c h => ?_⟩
  rw [← hc]
  simpa using (List.mem_filter.1 h).2

theorem sees_le {cns acc : List Nat} (hc : ∀ c, c ∈ cns ↔ Uncovered types rx picked acc c) {d : Nat} {L : List Nat}
    (h : Sees types rx picked acc d L) : L.length ≤ ((nbrs rx d).filter fun r => cns.contains r).length := by
  have : L = L.filter fun r => cns.contains r := by
    refine (List.filter_eq_self.2 fun c hcL => ?_).symm
    simpa using (hc c).2 (h.2 c hcL)
  rw [this]
  exact (h.1.filter _).length_le

/-- One selection. -/
theorem SelInv.select (hx : ∀ c d, d ∈ nbrs tx c → c ∈ nbrs rx d) {S : Status4} {cns acc : List Nat} {c tries : Nat}
    {q : List (Nat × Nat)} (I : SelInv types rx tx picked S cns acc ((c, tries) :: q)) (hc : c ∈ cns) {d : Nat}
    {ns : List Nat}
    (hb : bestDn rx cns (none, []) ((nbrs tx c).filter fun d => S.connectable.contains d) = (some d, ns)) :
    SelInv types rx tx picked
      (coverStep { S with connected := d :: S.connected, connectable := S.connectable.filter (· ≠ d) } (nbrs rx d))
      (cns.filter fun r => !ns.contains r) (d :: acc) q := by
  obtain ⟨b1, b2, b3⟩ := bestDn_spec rx cns ((nbrs tx c).filter fun d => S.connectable.contains d) (none, [])
  rw [hb] at b1 b2 b3
  obtain ⟨hd, hs, rfl⟩ : d ∈ nbrs tx c ∧ d ∈ S.connectable ∧ ns = (nbrs rx d).filter fun r => cns.contains r := by
    rcases b1 with b1 | ⟨d', hd', b1, _⟩
    · cases b1
    · cases b1
      have := List.mem_filter.1 hd'
      exact ⟨this.1, by simpa using this.2, rfl⟩
  have sel := (I.able d).1 hs
  obtain ⟨c1, c2⟩ := coverStep_spec (nbrs rx d)
    { S with connected := d :: S.connected, connectable := S.connectable.filter (· ≠ d) }
  dsimp only at c1 c2
  have hcns : ∀ r, r ∈ (cns.filter fun r => !((nbrs rx d).filter fun r => cns.contains r).contains r) ↔
      r ∈ cns ∧ r ∉ nbrs rx d := by
    intro r
    rw [List.mem_filter, Bool.not_eq_true', ← Bool.not_eq_true, List.contains_iff_mem, List.mem_filter,
      List.contains_iff_mem]
    tauto
  constructor
  · refine .cons d acc I.good sel ⟨c, (I.unc c).1 hc, hx c d hd⟩ ⟨c, (I.unc c).1 hc, hd, _, filter_sees I.unc d, ?_⟩
    intro d' hd' hs' L' hL'
    refine le_trans (sees_le I.unc hL') (b3 d' ?_)
    rw [List.mem_filter, List.contains_iff_mem]
    exact ⟨hd', (I.able d').2 hs'⟩
  · intro i
    rw [c1, List.mem_filter, decide_eq_true_eq, I.able, I.other]
    unfold Selectable
    constructor
    · rintro (⟨⟨h1, h2, h3, t, ht, hr⟩, ne⟩ | ⟨hr, h1, h2, h3⟩)
      · refine ⟨h1, h2, ?_, t, ?_, hr⟩
        · simp [ne, h3]
        · rcases ht with ht | ht
          · exact .inl ht
          · exact .inr (List.mem_cons_of_mem _ ht)
      · refine ⟨h1, h2, ?_, d, .inr List.mem_cons_self, hr⟩
        rw [List.mem_cons]
        rintro (rfl | c)
        · exact h3 sel.2.2.2
        · have := I.good
          clear * - this c h3
          induction this with
          | nil => cases c
          | cons e acc _ hs _ _ ih =>
            rcases List.mem_cons.1 c with rfl | c
            · obtain ⟨_, _, _, t, ht, hr⟩ := hs
              refine h3 ⟨t, ?_, hr⟩
              rcases ht with ht | ht
              · exact .inl ht
              · exact .inr (List.mem_cons_of_mem _ ht)
            · refine ih (fun ⟨t, ht, hr⟩ => h3 ⟨t, ?_, hr⟩) c
              rcases ht with ht | ht
              · exact .inl ht
              · exact .inr (List.mem_cons_of_mem _ ht)
    · rintro ⟨h1, h2, h3, t, ht, hr⟩
      rw [List.mem_cons, not_or] at h3
      by_cases c : ∃ t, (ConnectedBy types rx picked t ∨ t ∈ acc) ∧ i ∈ nbrs rx t
      · exact .inl ⟨⟨h1, h2, h3.2, c⟩, h3.1⟩
      · refine .inr ⟨?_, h1, h2, c⟩
        rcases ht with ht | ht
        · exact (c ⟨t, .inl ht, hr⟩).elim
        · rcases List.mem_cons.1 ht with rfl | ht
          · exact hr
          · exact (c ⟨t, .inr ht, hr⟩).elim
  · intro i
    rw [c2, I.other]
    constructor
    · rintro ⟨⟨h1, h2, h3⟩, h4⟩
      refine ⟨h1, h2, ?_⟩
      rintro ⟨t, ht, hr⟩
      rcases ht with ht | ht
      · exact h3 ⟨t, .inl ht, hr⟩
      · rcases List.mem_cons.1 ht with rfl | ht
        · exact h4 hr
        · exact h3 ⟨t, .inr ht, hr⟩
    · rintro ⟨h1, h2, h3⟩
      refine ⟨⟨h1, h2, ?_⟩, fun c => h3 ⟨d, .inr List.mem_cons_self, c⟩⟩
      rintro ⟨t, ht, hr⟩
      refine h3 ⟨t, ?_, hr⟩
      rcases ht with ht | ht
      · exact .inl ht
      · exact .inr (List.mem_cons_of_mem _ ht)
  · intro r
    rw [hcns, I.unc]
    unfold Uncovered
    rw [List.forall_mem_cons]
    tauto
  · exact fun p hp => I.tries p (List.mem_cons_of_mem _ hp)
  · intro r hr
    rw [hcns] at hr
    rcases I.pend r hr.1 with ⟨k, hk⟩ | ⟨pre, post, e, h⟩
    · rcases List.mem_cons.1 hk with e | hk
      · cases e
        exact (hr.2 (hx c d hd)).elim
      · exact .inl ⟨k, hk⟩
    · exact .inr ⟨pre, d :: post, by rw [e]; rfl, h⟩

/-- A CN for which there is nothing to select. -/
theorem SelInv.hopeless (hx : ∀ c d, d ∈ nbrs tx c → c ∈ nbrs rx d) {S : Status4} {cns acc : List Nat} {c tries : Nat}
    {q : List (Nat × Nat)} (I : SelInv types rx tx picked S cns acc ((c, tries) :: q)) (hc : c ∈ cns) {ns : List Nat}
    (hb : bestDn rx cns (none, []) ((nbrs tx c).filter fun d => S.connectable.contains d) = (none, ns)) :
    ∀ d ∈ nbrs tx c, ¬ Selectable types rx picked acc d := by
  obtain ⟨b1, b2, b3⟩ := bestDn_spec rx cns ((nbrs tx c).filter fun d => S.connectable.contains d) (none, [])
  rw [hb] at b1 b2 b3
  rcases b1 with b1 | ⟨d', _, b1, _⟩
  · cases b1
    intro d hd hs
    have := b3 d (by rw [List.mem_filter, List.contains_iff_mem]; exact ⟨hd, (I.able d).2 hs⟩)
    have h0 : (nbrs rx d).filter (fun r => cns.contains r) = [] := List.length_eq_zero_iff.1 (by simpa using this)
    have : c ∈ (nbrs rx d).filter (fun r => cns.contains r) := by
      rw [List.mem_filter, List.contains_iff_mem]; exact ⟨hx c d hd, hc⟩
    rw [h0] at this
    cases this
  · cases b1

theorem selectLoop_spec (hx : ∀ c d, d ∈ nbrs tx c → c ∈ nbrs rx d) : ∀ (n : Nat) (S : Status4) (cns acc : List Nat)
    (q : List (Nat × Nat)), SelInv types rx tx picked S cns acc q → load q < n →
    Final types rx tx picked (selectLoop rx tx n S cns acc q)
  | 0, _, _, _, _, _, hn => by omega
  | n + 1, S, cns, acc, [], I, _ => I.final
  | n + 1, S, cns, acc, (c, tries) :: q, I, hn => by
    have hq : load ((c, tries) :: q) = (4 - tries) + load q := rfl
    have h3 : tries ≤ 3 := I.tries _ List.mem_cons_self
    have drop : c ∉ cns ∨ (∀ d ∈ nbrs tx c, ¬ Selectable types rx picked acc d) → SelInv types rx tx picked S cns acc q := by
      intro hd
      refine ⟨I.good, I.able, I.other, I.unc, fun p hp => I.tries p (List.mem_cons_of_mem _ hp), fun r hr => ?_⟩
      rcases I.pend r hr with ⟨k, hk⟩ | h
      · rcases List.mem_cons.1 hk with e | hk
        · cases e
          exact .inr ⟨acc, [], rfl, hd.resolve_left (not_not.2 hr)⟩
        · exact .inl ⟨k, hk⟩
      · exact .inr h
    by_cases hc : c ∈ cns
    · cases hb : bestDn rx cns (none, []) ((nbrs tx c).filter fun d => S.connectable.contains d) with
      | mk o ns =>
        cases o with
        | some d =>
          have e : selectLoop rx tx (n + 1) S cns acc ((c, tries) :: q) = selectLoop rx tx n
              (coverStep { S with connected := d :: S.connected, connectable := S.connectable.filter (· ≠ d) }
                (nbrs rx d)) (cns.filter fun r => !ns.contains r) (d :: acc) q := by
            simp only [selectLoop, List.contains_iff_mem, hc, if_true]
            rw [hb]
          rw [e]
          exact selectLoop_spec hx n _ _ _ _ (I.select hx hc hb) (by omega)
        | none =>
          have hl := I.hopeless hx hc hb
          by_cases ht : tries < 3
          · have e : selectLoop rx tx (n + 1) S cns acc ((c, tries) :: q)
                = selectLoop rx tx n S cns acc (q ++ [(c, tries + 1)]) := by
              simp only [selectLoop, List.contains_iff_mem, hc, if_true]
              rw [hb]
              simp only [ht, if_true]
            rw [e]
            refine selectLoop_spec hx n _ _ _ _ ?_ ?_
            · have J := drop (.inr hl)
              refine ⟨J.good, J.able, J.other, J.unc, ?_, fun r hr => ?_⟩
              · intro p hp
                rcases List.mem_append.1 hp with h | h
                · exact J.tries p h
                · rw [List.mem_singleton] at h; subst h; exact ht
              · rcases J.pend r hr with ⟨k, hk⟩ | h
                · exact .inl ⟨k, List.mem_append_left _ hk⟩
                · exact .inr h
            · have : load (q ++ [(c, tries + 1)]) = load q + (4 - (tries + 1)) := by
                simp [load]
              omega
          · have e : selectLoop rx tx (n + 1) S cns acc ((c, tries) :: q) = selectLoop rx tx n S cns acc q := by
              simp only [selectLoop, List.contains_iff_mem, hc, if_true]
              rw [hb]
              simp only [ht, if_false]
            rw [e]
            exact selectLoop_spec hx n _ _ _ _ (drop (.inr hl)) (by omega)
    · have e : selectLoop rx tx (n + 1) S cns acc ((c, tries) :: q) = selectLoop rx tx n S cns acc q := by
        simp only [selectLoop, List.contains_iff_mem, hc, if_false]
      rw [e]
      exact selectLoop_spec hx n _ _ _ _ (drop (.inl hc)) (by omega)

theorem load_first (L : List Nat) : load (L.map fun c => (c, 1)) = 3 * L.length := by
  induction L with
  | nil => rfl
  | cons c L ih =>
    have : load ((c :: L).map fun c => (c, 1)) = 3 + load (L.map fun c => (c, 1)) := rfl
    rw [this, ih, List.length_cons]
    omega

theorem additionalDns_final (hx : ∀ c d, d ∈ nbrs tx c → c ∈ nbrs rx d) (order : List Nat → List Nat)
    (ho : ∀ L, (order L).Perm L) (hp : ∀ i ∈ picked, i < types.length) :
    Final types rx tx picked (additionalDns order types rx tx picked) := by
  unfold additionalDns
  dsimp only
  have hcns : ∀ c, c ∈ ((connectableStatus types rx picked).unconnected.filter fun i => types[i]? = some .cn)
      ↔ Uncovered types rx picked [] c := by
    intro c
    rw [List.mem_filter, (C24_connectable_status types rx picked hp c).2.1, decide_eq_true_eq]
    unfold Uncovered
    simp only [List.not_mem_nil, false_imp_iff, implies_true, and_true]
    tauto
  apply selectLoop_spec hx
  · constructor
    · exact .nil
    · intro i
      rw [(C24_connectable_status types rx picked hp i).2.2.1]
      unfold Selectable
      simp
    · intro i
      rw [(C24_connectable_status types rx picked hp i).2.2.2]
      simp
    · exact hcns
    · intro p h
      obtain ⟨c, _, rfl⟩ := List.mem_map.1 h
      exact (by decide : 1 ≤ 3)
    · intro c hc
      exact .inl ⟨1, List.mem_map.2 ⟨c, (ho _).mem_iff.2 hc, rfl⟩⟩
  · rw [load_first, (ho _).length_eq]
    omega

end LosStatus

/-- **C25.** Each site that `select_additional_dns` selects is one of the sites and was neither picked nor selected
before; it has LOS from a site that a chain through picked and previously selected sites joins to a picked POP; it
sees a picked CN that was not connected and that no site selected before it sees; and it was chosen for such a CN, as
one that sees the most of them among the selectable sites that see it. A CN that remains without is one for which, at
some point of the selection, there was no selectable site that sees it. -/
theorem C25_additional_dns (order : List Nat → List Nat) (ho : ∀ L, (order L).Perm L) (types : List SiteType)
    (rx tx : List (List Nat)) (hx : ∀ c d : Nat, d ∈ (tx[c]?).getD [] → c ∈ (rx[d]?).getD []) (picked : List Nat)
    (hp : ∀ i ∈ picked, i < types.length) :
    (additionalDns order types rx tx picked).Nodup
    ∧ (∀ pre d post, additionalDns order types rx tx picked = pre ++ d :: post →
        d < types.length ∧ d ∉ picked ∧ d ∉ pre
        ∧ (∃ t, ConnectedBy types rx (picked ++ pre) t ∧ d ∈ (rx[t]?).getD [])
        ∧ (∃ c, Uncovered types rx picked pre c ∧ c ∈ (rx[d]?).getD [])
        ∧ ∃ c, Uncovered types rx picked pre c ∧ d ∈ (tx[c]?).getD [] ∧
            ∃ L : List Nat, (L.Sublist ((rx[d]?).getD []) ∧ ∀ r ∈ L, Uncovered types rx picked pre r) ∧
              ∀ d' ∈ (tx[c]?).getD [], Selectable types rx picked pre d' → ∀ L' : List Nat,
                L'.Sublist ((rx[d']?).getD []) → (∀ r ∈ L', Uncovered types rx picked pre r) → L'.length ≤ L.length)
    ∧ (∀ c, Uncovered types rx picked (additionalDns order types rx tx picked) c →
        ∃ pre post, additionalDns order types rx tx picked = pre ++ post ∧
          ∀ d ∈ (tx[c]?).getD [], ¬ Selectable types rx picked pre d) := by
  obtain ⟨hg, hrem⟩ := additionalDns_final (types := types) hx order ho hp
  generalize additionalDns order types rx tx picked = out at *
  have selmem : ∀ {A B : List Nat}, (∀ i, i ∈ A ↔ i ∈ B) → ∀ i, Selectable types rx picked A i → Selectable types rx picked B i := by
    rintro A B h i ⟨h1, h2, h3, t, ht, hr⟩
    refine ⟨h1, h2, fun c => h3 ((h i).2 c), t, ?_, hr⟩
    rcases ht with ht | ht
    · exact .inl ht
    · exact .inr ((h t).1 ht)
  have uncmem : ∀ {A B : List Nat}, (∀ i, i ∈ A ↔ i ∈ B) → ∀ i, Uncovered types rx picked A i → Uncovered types rx picked B i := by
    rintro A B h i ⟨h1, h2, h3, h4⟩
    exact ⟨h1, h2, h3, fun d hd => h4 d ((h d).2 hd)⟩
  have rev : ∀ A : List Nat, ∀ i, i ∈ A.reverse ↔ i ∈ A := fun A i => List.mem_reverse
  have rev' : ∀ A : List Nat, ∀ i, i ∈ A ↔ i ∈ A.reverse := fun A i => List.mem_reverse.symm
  refine ⟨?_, ?_, ?_⟩
  · rw [← List.nodup_reverse]
    clear hrem
    generalize out.reverse = acc at hg
    induction hg with
    | nil => exact List.nodup_nil
    | cons d acc _ hs _ _ ih => exact List.nodup_cons.2 ⟨hs.2.2.1, ih⟩
  · intro pre d post e
    have hg' : Good types rx tx picked (d :: pre.reverse) := by
      rw [e] at hg
      have : (pre ++ d :: post).reverse = post.reverse ++ d :: pre.reverse := by simp
      rw [this] at hg
      exact hg.suffix
    cases hg' with
    | cons _ _ hg1 hs h1 h2 =>
      obtain ⟨a1, a2, a3, t, ht, hr⟩ := hs
      refine ⟨a1, a2, fun c => a3 ((rev' _ _).1 c), ⟨t, ?_, hr⟩, ?_, ?_⟩
      · rcases ht with ht | ht
        · exact ht.mono fun i hi => List.mem_append_left _ hi
        · refine (hg1.connected t ht).mono fun i hi => ?_
          simpa using hi
      · obtain ⟨c, hc, hcd⟩ := h1
        exact ⟨c, uncmem (rev pre) c hc, hcd⟩
      · obtain ⟨c, hc, hd, L, hL, hbest⟩ := h2
        refine ⟨c, uncmem (rev pre) c hc, hd, L, ⟨hL.1, fun r hr => uncmem (rev pre) r (hL.2 r hr)⟩, ?_⟩
        intro d' hd' hs' L' h1' h2'
        exact hbest d' hd' (selmem (rev' pre) d' hs') L' ⟨h1', fun r hr => uncmem (rev' pre) r (h2' r hr)⟩
  · intro c hc
    obtain ⟨pre, post, e, h⟩ := hrem c hc
    refine ⟨pre.reverse, post.reverse, ?_, fun d hd c => h d hd (selmem (rev pre) d c)⟩
    rw [← List.reverse_append, ← e, List.reverse_reverse]

/-- A POP sees two sites that are not picked; the first of them sees one CN, the second two. -/
example : additionalDns id [.pop, .dn, .dn, .cn, .cn] [[1, 2], [0, 3], [0, 3, 4], [], []]
    [[1, 2], [0], [0], [1, 2], [2]] [0, 3, 4] = [2] := by decide

end Verif
