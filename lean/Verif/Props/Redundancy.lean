import Verif.Model.Redundancy
import Verif.Spec.Redundancy
import Verif.Props.NextPhase
import Verif.Lemmas.RedCheck

/-! # C47: redundancy guarantees survival of failures -/

namespace Verif
namespace Plan
open Spec Topology
variable {P : Plan} {r : RedParams} {restr : Option (List (SiteId × SiteId))} {x : RVars}

theorem mem_redArcs {e : Arc} : e ∈ P.redArcs restr ↔ e ∈ P.arcs ∧ 0 < P.cap e ∧
    P.superDist e.1 = true ∧ P.superDist e.2 = true ∧
    (restr = none ∨ e.1 = .source ∨ e.2 = .source ∨
      ∃ a b, e = (.site a, .site b) ∧ (a, b) ∈ restr.getD []) := by
  unfold redArcs
  rw [List.mem_filter]
  refine and_congr_right fun _ => ?_
  simp only [Bool.and_eq_true, decide_eq_true_eq, Bool.or_eq_true, beq_iff_eq,
    Option.isNone_iff_eq_none, and_assoc]
  refine and_congr_right fun _ => and_congr_right fun _ => and_congr_right fun _ => ?_
  rw [or_assoc, or_assoc]
  refine or_congr_right (or_congr_right (or_congr_right ?_))
  clear * -
  split
  · rename_i a b
    constructor
    · intro h; exact ⟨a, b, rfl, by simpa using h⟩
    · rintro ⟨a', b', h, h2⟩
      injection h with h3 h4
      injection h3 with h3
      injection h4 with h4
      subst h3; subst h4
      simpa using h2
  · rename_i h
    constructor
    · intro h; cases h
    · rintro ⟨a, b, h2, _⟩
      exact absurd h2 (h a b)

theorem redSite_iff {l : Loc} : P.redSite restr l = true ↔ ∃ e ∈ P.redArcs restr, e.1 = l ∨ e.2 = l := by
  unfold redSite
  rw [List.any_eq_true]
  simp only [Bool.or_eq_true, beq_iff_eq]

theorem mem_redIn {l : Loc} {e : Arc} : e ∈ P.redIn restr l ↔ e ∈ P.redArcs restr ∧ e.2 = l := by
  unfold redIn
  rw [List.mem_filter, mem_incoming, List.contains_eq_mem, decide_eq_true_eq]
  constructor
  · rintro ⟨⟨_, h⟩, h2⟩; exact ⟨h2, h⟩
  · rintro ⟨h, h2⟩; exact ⟨⟨(mem_redArcs.1 h).1, h2⟩, h⟩

theorem mem_redOut {l : Loc} {e : Arc} : e ∈ P.redOut restr l ↔ e ∈ P.redArcs restr ∧ e.1 = l := by
  unfold redOut
  rw [List.mem_filter, mem_outgoing, List.contains_eq_mem, decide_eq_true_eq]
  constructor
  · rintro ⟨⟨_, h⟩, h2⟩; exact ⟨h2, h⟩
  · rintro ⟨h, h2⟩; exact ⟨⟨(mem_redArcs.1 h).1, h2⟩, h⟩

/-- The flow of a DN on all links. -/
def redFlow (P : Plan) (restr : Option (List (SiteId × SiteId))) (x : RVars) (d : SiteId) (e : Arc) : ℚ :=
  if (P.redArcs restr).contains e then x.flow d e else 0

theorem sum_filter_zero {α : Type} (L : List α) (p : α → Bool) (f : α → ℚ) :
    (L.map fun a => if p a then f a else 0).sum = ((L.filter p).map f).sum := by
  induction L with
  | nil => rfl
  | cons a L ih =>
    rw [List.map_cons, List.sum_cons, ih, List.filter_cons]
    by_cases h : p a = true
    · rw [if_pos h, if_pos h, List.map_cons, List.sum_cons]
    · rw [if_neg h, if_neg h, zero_add]

theorem inFlow_red (l : Loc) (d : SiteId) :
    P.inFlow (P.redFlow restr x d) l = ((P.redIn restr l).map (x.flow d)).sum :=
  sum_filter_zero _ _ _

theorem outFlow_red (l : Loc) (d : SiteId) :
    P.outFlow (P.redFlow restr x d) l = ((P.redOut restr l).map (x.flow d)).sum :=
  sum_filter_zero _ _ _

theorem redFlow_nonneg (feas : P.RedFeasible r restr x) {d : SiteId} (hd : d ∈ P.redDns) (e : Arc) :
    0 ≤ P.redFlow restr x d e := by
  unfold redFlow
  split
  · rename_i h
    exact (feas.flow d hd e (by simpa using h)).1
  · exact le_refl _

/-- Net flow at every location but the source. -/
theorem redNet (feas : P.RedFeasible r restr x) {d : SiteId} (hd : d ∈ P.redDns)
    {l : Loc} (hl : l ∈ P.locations) (h0 : l ≠ .source) :
    (l = .site d → P.redSite restr l = true →
      (r.sink : ℚ) - x.shortage d ≤ P.inFlow (P.redFlow restr x d) l - P.outFlow (P.redFlow restr x d) l) ∧
    (l ≠ .site d → P.inFlow (P.redFlow restr x d) l - P.outFlow (P.redFlow restr x d) l = 0) := by
  rw [inFlow_red, outFlow_red]
  constructor
  · intro h1 h2
    obtain ⟨e, he, h3⟩ := redSite_iff.1 h2
    have := feas.balance l hl h2 d hd (by
      rcases h3 with h3 | h3
      · right; intro c; have := mem_redOut.2 ⟨he, h3⟩; rw [c] at this; cases this
      · left; intro c; have := mem_redIn.2 ⟨he, h3⟩; rw [c] at this; cases this)
    rw [if_neg h0, if_pos h1] at this
    exact this
  · intro h1
    by_cases hne : P.redIn restr l ≠ [] ∨ P.redOut restr l ≠ []
    · have h2 : P.redSite restr l = true := by
        rw [redSite_iff]
        rcases hne with hne | hne
        · obtain ⟨e, he⟩ := List.exists_mem_of_ne_nil _ hne
          exact ⟨e, (mem_redIn.1 he).1, .inr (mem_redIn.1 he).2⟩
        · obtain ⟨e, he⟩ := List.exists_mem_of_ne_nil _ hne
          exact ⟨e, (mem_redOut.1 he).1, .inl (mem_redOut.1 he).2⟩
      have := feas.balance l hl h2 d hd hne
      rw [if_neg h0, if_neg h1] at this
      exact this
    · push Not at hne
      rw [hne.1, hne.2]
      simp

theorem redDns_iff {d : SiteId} : d ∈ P.redDns ↔ d ∈ P.t.sites.keys ∧ P.isActive d = true ∧
    P.siteType? (.site d) = some .dn := by
  unfold redDns
  rw [List.mem_filter, Bool.and_eq_true, beq_iff_eq]

/-- A failed site carries at most its capacity. -/
theorem redIn_le (feas : P.RedFeasible r restr x) (rdy : P.Ready) {d : SiteId} (hd : d ∈ P.redDns) {s : SiteId} :
    P.inFlow (P.redFlow restr x d) (.site s) ≤ P.redCap r d (.site s) := by
  have h0 : 0 ≤ P.redCap r d (.site s) := by
    unfold redCap; split
    · positivity
    · split <;> positivity
  rw [inFlow_red]
  by_cases hne : P.redIn restr (.site s) = []
  · rw [hne]; simpa using h0
  · obtain ⟨e, he⟩ := List.exists_mem_of_ne_nil _ hne
    obtain ⟨h1, h2⟩ := mem_redIn.1 he
    have h3 : P.redSite restr (.site s) = true := redSite_iff.2 ⟨e, h1, .inr h2⟩
    have h4 : Loc.site s ∈ P.locations := h2 ▸ (rdy.ends e (mem_redArcs.1 h1).1).2
    have hk : s ∈ P.t.sites.keys := by
      rcases mem_locations.1 h4 with h | ⟨s', h1, h2⟩ | h
      · cases h
      · injection h2 with h2; exact h2 ▸ h1
      · obtain ⟨_, _, _, _, _, h⟩ := mem_demands.1 h; cases h
    have := feas.flowSite _ h4 h3 d hd hne
    dsimp only at this
    rcases feas.site s hk h3 with h | h
    · rw [h, mul_zero] at this; linarith
    · rw [h, mul_one] at this; exact this

/-- One step of the flow of `d` that avoids failed sites and links. -/
def RedStep (P : Plan) (restr : Option (List (SiteId × SiteId))) (x : RVars) (d : SiteId)
    (F : List SiteId) (G : List (SiteId × SiteId)) (u v : Loc) : Prop :=
  (u, v) ∈ P.redArcs restr ∧ 0 < x.flow d (u, v) ∧ (∀ s ∈ F, v ≠ .site s) ∧
  ∀ g ∈ G, ¬ (u = .site g.1 ∧ v = .site g.2) ∧ ¬ (u = .site g.2 ∧ v = .site g.1)

/-- What failures take away from the flow of `d`. -/
def failWeight (P : Plan) (r : RedParams) (F : List SiteId) (G : List (SiteId × SiteId)) : ℚ :=
  (F.map fun s => if P.isPop (.site s) then (r.pop : ℚ) else r.dn).sum + G.length

theorem sum_map_add' {α : Type} (L : List α) (f g : α → ℚ) :
    (L.map fun a => f a + g a).sum = (L.map f).sum + (L.map g).sum := by
  induction L with
  | nil => simp
  | cons a L ih => simp only [List.map_cons, List.sum_cons, ih]; ring

theorem sum_map_mono {α : Type} (L : List α) (f g : α → ℚ) (h : ∀ a ∈ L, f a ≤ g a) :
    (L.map f).sum ≤ (L.map g).sum := by
  induction L with
  | nil => exact le_refl _
  | cons a L ih =>
    rw [List.map_cons, List.map_cons, List.sum_cons, List.sum_cons]
    have h1 := h a (by simp)
    have h2 := ih (fun b hb => h b (by simp [hb]))
    linarith

/-- If the failures leave anything of the flow of `d`, it reaches `d` around them. -/
theorem red_reach (inv : P.t.Inv) (rdy : P.Ready) (feas : P.RedFeasible r restr x)
    {d : SiteId} (hd : d ∈ P.redDns) (hr : P.redSite restr (.site d) = true)
    {F : List SiteId} {G : List (SiteId × SiteId)} (hF : d ∉ F)
    (hw : P.failWeight r F G + x.shortage d < r.sink) :
    Relation.ReflTransGen (P.RedStep restr x d F G) .source (.site d) := by
  classical
  by_contra c
  set f := P.redFlow restr x d with hf
  have f0 : ∀ e, 0 ≤ f e := redFlow_nonneg feas hd
  let U : Loc → Prop := fun v => ¬ Relation.ReflTransGen (P.RedStep restr x d F G) .source v
  have nd := locations_nodup inv.nd_sites inv.nd_demand
  have hc := cut_sum rdy nd f U
  have hdl : Loc.site d ∈ P.locations :=
    mem_locations.2 (.inr (.inl ⟨d, (redDns_iff.1 hd).1, rfl⟩))
  have src : ∀ v, U v → v ≠ .source := fun v hv h => hv (h ▸ Relation.ReflTransGen.refl)
  have hge : (r.sink : ℚ) - x.shortage d ≤ ((P.locations.filter (fun v => U v)).map
      (fun v => P.inFlow f v - P.outFlow f v)).sum := by
    have hm : Loc.site d ∈ P.locations.filter (fun v => U v) :=
      List.mem_filter.2 ⟨hdl, by simpa [U] using c⟩
    refine le_trans ((redNet feas hd hdl (by simp)).1 rfl hr) ?_
    apply List.single_le_sum
    · intro y hy
      obtain ⟨v, hv, rfl⟩ := List.mem_map.1 hy
      obtain ⟨hv1, hv2⟩ := List.mem_filter.1 hv
      have hv2 : U v := by simpa using hv2
      by_cases hvd : v = .site d
      · have := (redNet feas hd hv1 (src v hv2)).1 hvd (hvd ▸ hr)
        have hs := (feas.shortage d hd).2
        linarith
      · exact le_of_eq ((redNet feas hd hv1 (src v hv2)).2 hvd).symm
    · exact List.mem_map.2 ⟨_, hm, rfl⟩
  -- flow across the cut enters a failed site or uses a failed link
  let cross : SiteId × SiteId → Arc → ℚ := fun g e =>
    if U e.2 ∧ ¬ U e.1 ∧ (e = (.site g.1, .site g.2) ∨ e = (.site g.2, .site g.1)) then f e else 0
  have hle : (P.arcs.map (fun e => (if U e.2 then f e else 0) - (if U e.1 then f e else 0))).sum ≤
      (P.arcs.map fun e => (F.map fun s => if e.2 = .site s then f e else 0).sum +
        (G.map fun g => cross g e).sum).sum := by
    apply sum_map_mono
    intro e he
    have hF0 : 0 ≤ (F.map fun s => if e.2 = .site s then f e else 0).sum := by
      apply List.sum_nonneg
      intro y hy
      obtain ⟨s, _, rfl⟩ := List.mem_map.1 hy
      split
      · exact f0 e
      · exact le_refl _
    have hG0 : 0 ≤ (G.map fun g => cross g e).sum := by
      apply List.sum_nonneg
      intro y hy
      obtain ⟨s, _, rfl⟩ := List.mem_map.1 hy
      dsimp only [cross]; split
      · exact f0 e
      · exact le_refl _
    by_cases c2 : U e.2
    · by_cases c1 : U e.1
      · rw [if_pos c2, if_pos c1]; linarith
      · rw [if_pos c2, if_neg c1, sub_zero]
        by_cases hz : f e = 0
        · linarith
        have hm : e ∈ P.redArcs restr := by
          by_contra h
          exact hz (by rw [hf]; unfold redFlow; rw [if_neg (by simpa using h)])
        have hfe : f e = x.flow d e := by
          rw [hf]; unfold redFlow; rw [if_pos (by simpa using hm)]
        have hpos : 0 < x.flow d e := by
          rw [← hfe]; exact lt_of_le_of_ne (f0 e) (Ne.symm hz)
        have hreach : Relation.ReflTransGen (P.RedStep restr x d F G) .source e.1 := by
          by_contra h; exact c1 h
        by_cases hs : ∃ s ∈ F, e.2 = .site s
        · obtain ⟨s, hs, es⟩ := hs
          have : f e ≤ (F.map fun s => if e.2 = .site s then f e else 0).sum := by
            apply List.single_le_sum
            · intro y hy
              obtain ⟨s, _, rfl⟩ := List.mem_map.1 hy
              split
              · exact f0 e
              · exact le_refl _
            · exact List.mem_map.2 ⟨s, hs, by rw [if_pos es]⟩
          linarith
        · push Not at hs
          by_cases hg : ∃ g ∈ G, (e.1 = .site g.1 ∧ e.2 = .site g.2) ∨ (e.1 = .site g.2 ∧ e.2 = .site g.1)
          · obtain ⟨g, hg, eg⟩ := hg
            have : f e ≤ (G.map fun g => cross g e).sum := by
              apply List.single_le_sum
              · intro y hy
                obtain ⟨s, _, rfl⟩ := List.mem_map.1 hy
                dsimp only [cross]; split
                · exact f0 e
                · exact le_refl _
              · refine List.mem_map.2 ⟨g, hg, ?_⟩
                dsimp only [cross]
                have : e = (.site g.1, .site g.2) ∨ e = (.site g.2, .site g.1) := by
                  rcases eg with ⟨h1, h2⟩ | ⟨h1, h2⟩
                  · left; rw [← h1, ← h2]
                  · right; rw [← h1, ← h2]
                rw [if_pos ⟨c2, c1, this⟩]
            linarith
          · push Not at hg
            refine absurd (hreach.tail ⟨hm, hpos, fun s h => hs s h, fun g h => ⟨?_, ?_⟩⟩) c2
            · rintro ⟨h1, h2⟩; exact (hg g h).1 h1 h2
            · rintro ⟨h1, h2⟩; exact (hg g h).2 h1 h2
    · have := f0 e
      rw [if_neg c2]
      split <;> linarith
  have hcross : ∀ g ∈ G, (P.arcs.map fun e => cross g e).sum ≤ 1 := by
    intro g _
    have key : ∀ a b : SiteId, ¬ U (.site a) → U (.site b) →
        (∀ e ∈ P.arcs, cross g e = 0 ∨ e = (.site a, .site b)) →
        (P.arcs.map fun e => cross g e).sum ≤ 1 := by
      intro a b _ _ h
      have h1 : (P.arcs.map fun e => cross g e).sum ≤
          (P.arcs.map fun e => if e = (Loc.site a, Loc.site b) then (1 : ℚ) else 0).sum := by
        apply sum_map_mono
        intro e he
        rcases h e he with h | h
        · rw [h]; split <;> norm_num
        · rw [if_pos h]
          dsimp only [cross]
          split
          · rw [hf]; unfold redFlow
            split
            · rename_i hm
              have := (feas.flow d hd e (by simpa using hm)).2
              rw [if_neg (by rw [h]; simp)] at this
              exact this
            · norm_num
          · norm_num
      refine le_trans h1 ?_
      have := arcs_nodup (P := P)
      generalize P.arcs = L at this
      clear * - this
      induction L with
      | nil => norm_num
      | cons e L ih =>
        rw [List.map_cons, List.sum_cons]
        have nd := List.nodup_cons.1 this
        by_cases he : e = (Loc.site a, Loc.site b)
        · rw [if_pos he]
          have : (L.map fun e => if e = (Loc.site a, Loc.site b) then (1 : ℚ) else 0).sum = 0 := by
            apply List.sum_eq_zero
            intro y hy
            obtain ⟨e', he', rfl⟩ := List.mem_map.1 hy
            exact if_neg (fun h => nd.1 (by rw [he, ← h]; exact he'))
          rw [this, add_zero]
        · rw [if_neg he, zero_add]; exact ih nd.2
    by_cases u1 : U (.site g.1)
    · by_cases u2 : U (.site g.2)
      · rw [List.sum_eq_zero]
        · norm_num
        · intro y hy
          obtain ⟨e, _, rfl⟩ := List.mem_map.1 hy
          dsimp only [cross]
          rw [if_neg]
          rintro ⟨_, h0, h | h⟩ <;> rw [h] at h0
          · exact h0 u1
          · exact h0 u2
      · refine key g.2 g.1 u2 u1 fun e _ => ?_
        dsimp only [cross]
        split
        · rename_i h
          right
          rcases h with ⟨h1, h2, h | h⟩
          · rw [h] at h1; exact absurd h1 u2
          · exact h
        · left; rfl
    · by_cases u2 : U (.site g.2)
      · refine key g.1 g.2 u1 u2 fun e _ => ?_
        dsimp only [cross]
        split
        · rename_i h
          right
          rcases h with ⟨h1, h2, h | h⟩
          · exact h
          · rw [h] at h1; exact absurd h1 u1
        · left; rfl
      · rw [List.sum_eq_zero]
        · norm_num
        · intro y hy
          obtain ⟨e, _, rfl⟩ := List.mem_map.1 hy
          dsimp only [cross]
          rw [if_neg]
          rintro ⟨h0, _, h | h⟩ <;> rw [h] at h0
          · exact u2 h0
          · exact u1 h0
  have hFb : ∀ s ∈ F, (P.arcs.map fun e => if e.2 = .site s then f e else 0).sum ≤
      if P.isPop (.site s) then (r.pop : ℚ) else r.dn := by
    intro s hs
    have h1 := redIn_le feas rdy hd (s := s)
    have h2 : (P.arcs.map fun e => if e.2 = .site s then f e else 0).sum = P.inFlow f (.site s) := by
      unfold inFlow incoming
      rw [← sum_filter_zero]
      simp only [decide_eq_true_eq]
    rw [h2]
    refine le_trans h1 (le_of_eq ?_)
    unfold redCap
    rw [if_neg (show ¬ Loc.site s = Loc.site d by
      intro h; injection h with h; exact hF (h ▸ hs))]
  have tot : (P.arcs.map fun e => (F.map fun s => if e.2 = .site s then f e else 0).sum +
        (G.map fun g => cross g e).sum).sum ≤ P.failWeight r F G := by
    rw [sum_map_add', sum_swap _ P.arcs F, sum_swap _ P.arcs G]
    unfold failWeight
    refine add_le_add (sum_map_mono _ _ _ hFb) ?_
    refine le_trans (sum_map_mono _ _ (fun _ => 1) hcross) (le_of_eq ?_)
    simp
  rw [hc] at hge
  linarith

theorem key_of_mem (rdy : P.Ready) {e : Arc} (he : e ∈ P.arcs) {s : SiteId}
    (h : e.1 = .site s ∨ e.2 = .site s) : s ∈ P.t.sites.keys := by
  have hloc : Loc.site s ∈ P.locations := by
    rcases h with h | h
    · exact h ▸ (rdy.ends e he).1
    · exact h ▸ (rdy.ends e he).2
  rcases mem_locations.1 hloc with h | ⟨s', h1, h2⟩ | h
  · cases h
  · injection h2 with h2; exact h2 ▸ h1
  · obtain ⟨_, _, _, _, _, h⟩ := mem_demands.1 h; cases h

/-- A site that receives flow is selected. -/
theorem red_selected (feas : P.RedFeasible r restr x) (rdy : P.Ready) {d : SiteId} (hd : d ∈ P.redDns)
    {u : Loc} {s : SiteId} (he : (u, Loc.site s) ∈ P.redArcs restr) (hp : 0 < x.flow d (u, .site s)) :
    x.site s = 1 := by
  have hk := key_of_mem rdy (mem_redArcs.1 he).1 (.inr rfl)
  have hr : P.redSite restr (.site s) = true := redSite_iff.2 ⟨_, he, .inr rfl⟩
  rcases feas.site s hk hr with h | h
  · exfalso
    have hin : (u, Loc.site s) ∈ P.redIn restr (.site s) := mem_redIn.2 ⟨he, rfl⟩
    have h1 := feas.flowSite (.site s) (mem_locations.2 (.inr (.inl ⟨s, hk, rfl⟩))) hr d hd
      (List.ne_nil_of_mem hin)
    dsimp only at h1
    rw [h, mul_zero] at h1
    have h2 : x.flow d (u, .site s) ≤ ((P.redIn restr (.site s)).map (x.flow d)).sum := by
      apply List.single_le_sum
      · intro y hy
        obtain ⟨e, he', rfl⟩ := List.mem_map.1 hy
        exact (feas.flow d hd e (mem_redIn.1 he').1).1
      · exact List.mem_map.2 ⟨_, hin, rfl⟩
    linarith
  · exact h

theorem redDec_one (feas : P.RedFeasible r restr x) {s : SiteId} (hd : P.isDist (.site s) = true)
    (hr : P.redSite restr (.site s) = true) (h1 : x.site s = 1) : P.redDec restr x s = 1 := by
  unfold redDec redDist
  rw [if_pos hd, if_pos hr, h1]
  decide +kernel

theorem afterDecision_active {st : StatusType} (h : st.inactive = false) :
    afterDecision st 1 = .proposed ∨ afterDecision st 1 = .existing := by
  cases st <;> simp_all [afterDecision, StatusType.inactive]

/-- The applied decisions join every site reached by the flow to a POP. -/
theorem red_survives (inv : P.t.Inv) (rdy : P.Ready) (feas : P.RedFeasible r restr x)
    (ends : SectorsAtEnds P.t) {t1 : Topology}
    (h1 : applySolution (P.redSolution restr x) P.t = (t1, none))
    {d : SiteId} (hd : d ∈ P.redDns) {F : List SiteId} {G : List (SiteId × SiteId)} {v : Loc}
    (h : Relation.ReflTransGen (P.RedStep restr x d F G) .source v) :
    ∀ s, v = .site s → Survives t1 F G s ∧ x.site s = 1 ∧ P.redSite restr (.site s) = true ∧
      P.isDist (.site s) = true := by
  obtain ⟨a1, a2, a3, _⟩ := C12_proposed_iff_decided _ _ _ h1
  induction h with
  | refl => intro s h; cases h
  | @tail u v hu huv ih =>
    rintro s rfl
    obtain ⟨he, hpos, hF, hG⟩ := huv
    obtain ⟨m1, m2, m3, m4, _⟩ := mem_redArcs.1 he
    have hs1 := red_selected feas rdy hd he hpos
    have hr : P.redSite restr (.site s) = true := redSite_iff.2 ⟨_, he, .inr rfl⟩
    have hk := key_of_mem rdy m1 (.inr rfl)
    have hdist : P.isDist (.site s) = true := m4
    have hdec := redDec_one feas hdist hr hs1
    obtain ⟨y, hy⟩ := (Dict.mem_keys_iff _ _).1 hk
    have hsol : (P.redSolution restr x).site s = 1 := by
      change (if P.t.sites.has s then P.redDec restr x s else 0) = 1
      rw [if_pos ((Dict.has_iff _ _).2 ⟨y, hy⟩), hdec]
    have hdecd := feas.decided s hk hr
    have hst : P.statusOf s = some y.status := by
      unfold statusOf Topology.siteStatus; rw [hy]; rfl
    have hina : y.status.inactive = false := by
      by_contra hc
      have hc : y.status.inactive = true := by simpa using hc
      have hact : ¬ P.isActive s = true := by
        have key : ∀ st : StatusType, st.inactive = true → ¬ st.active = true := by
          intro st; cases st <;> decide
        unfold isActive; rw [hst]; exact key _ hc
      have : P.isInactive s = true := by unfold isInactive; rw [hst]; exact hc
      rw [if_neg hact, if_pos this] at hdecd
      rw [hdecd] at hs1; norm_num at hs1
    have hy1 := a1 s
    rw [hy, Option.map_some, hsol] at hy1
    have hact1 := afterDecision_active hina
    have hnF : s ∉ F := fun h => hF s h rfl
    refine ⟨?_, hs1, hr, hdist⟩
    rcases mem_arcs.1 m1 with ⟨s', z, g1, g2, g3⟩ | ⟨_, _, _, _, _, _, _, h⟩ | ⟨l, hl, h⟩
    · injection g3 with e1 e2
      injection e2 with e2
      subst e2
      have := (Dict.mem_iff_get? inv.nd_sites _ _).1 g1
      rw [hy] at this; cases this
      exact .pop hy1 g2 hact1 hnF
    · simp at h
    · injection h with e1 e2
      injection e2 with e2
      subst e1 e2
      obtain ⟨i1, i2, i3, i4⟩ := ih l.tx rfl
      have hdec0 := redDec_one feas i4 i3 i2
      have hg : P.t.links.get? ⟨l.tx, l.rx⟩ = some l := linkOf_arcOf inv hl
      have el : P.linkOf (.site l.tx, .site l.rx) = some l := linkOf_arcOf inv hl
      have hin : P.inactiveArc (.site l.tx, .site l.rx) = false := by
        by_contra hc
        have := feas.inactive _ he (by simpa using hc) d hd
        rw [this] at hpos; exact lt_irrefl _ hpos
      have hin' := hin
      unfold inactiveArc at hin'
      rw [el, Option.any_some, Bool.or_eq_false_iff] at hin'
      have pol : P.redPolOk restr x l.tx l.rx = true := by
        unfold redPolOk
        by_cases hi : P.p.ignorePolarities = true
        · rw [hi]; simp
        by_cases hac : P.inputActive (.site l.tx, .site l.rx) = true
        · rw [hac]; simp
        by_cases hwr : P.isWired (.site l.tx, .site l.rx) = true
        · rw [hwr]; simp
        have hi : P.p.ignorePolarities = false := by simpa using hi
        have hp := feas.polarity hi l.tx l.rx he (by simpa using hwr)
        rw [if_neg hac] at hp
        obtain ⟨p1, p2⟩ := hp d hd
        have hk0 := key_of_mem rdy m1 (.inl rfl)
        have o1 := feas.odd hi _ hk0 i3 i4
        have o2 := feas.odd hi _ hk hr hdist
        have od : ∀ s, P.isDist (.site s) = true → P.redSite restr (.site s) = true →
            P.redDec restr x s = 1 → P.redOdd restr x s = bin (x.odd s) := by
          intro s h1 h2 h3
          unfold redOdd redOddRaw
          rw [if_neg (by rw [hi, h1, h3]; simp), if_pos h2]
        rw [od _ i4 i3 hdec0, od _ hdist hr hdec]
        have hne : bin (x.odd l.tx) ≠ bin (x.odd l.rx) := by
          rcases o1 with o1 | o1 <;> rcases o2 with o2 | o2 <;> rw [o1, o2] at p1 p2 ⊢
          · linarith
          · decide +kernel
          · decide +kernel
          · linarith
        simp [hne]
      have hcand : P.redCand restr x l.tx l.rx = true := by
        unfold redCand
        rw [hin, pol, hdec0, hdec]
        simpa using m2
      have hlink : P.redLink restr x l.tx l.rx = true := by
        unfold redLink
        rw [hcand, Bool.true_and]
        by_cases hw : l.isWireless = true
        · have hs : l.sectors.isSome = true := by
            have := hin'.2
            rw [hw] at this
            cases hh : l.sectors with
            | none => rw [hh] at this; simp at this
            | some q => rfl
          obtain ⟨⟨a, b⟩, hab⟩ := Option.isSome_iff_exists.1 hs
          obtain ⟨⟨q, hq, eq1⟩, q', hq', eq2⟩ := ends l hl a b hab
          have s1 : P.txSector (.site l.tx, .site l.rx) = some a := by
            unfold txSector; rw [el, Option.bind_some, hab]; rfl
          have s2 : P.rxSector (.site l.tx, .site l.rx) = some b := by
            unfold rxSector; rw [el, Option.bind_some, hab]; rfl
          have d1 : P.redSector restr x l.tx a = 1 := by
            unfold redSector
            rw [hq, Option.any_some, eq1, beq_self_eq_true, if_pos rfl]; exact hdec0
          have d2 : P.redSector restr x l.rx b = 1 := by
            unfold redSector
            rw [hq', Option.any_some, eq2, beq_self_eq_true, if_pos rfl]; exact hdec
          rw [s1, s2, Option.any_some, Option.any_some, d1, d2]
          simp
        · have : P.isWired (.site l.tx, .site l.rx) = true := by
            unfold isWired
            simp only [el, Option.any_some]
            simpa using hw
          rw [this]; rfl
      have hlsol : (P.redSolution restr x).link ⟨l.tx, l.rx⟩ = 1 := by
        change (if P.arcs.contains (.site l.tx, .site l.rx) && P.redLink restr x l.tx l.rx then
          (1 : Int) else 0) = 1
        rw [hlink, List.contains_eq_mem, decide_eq_true m1]
        rfl
      have hl1 := a3 ⟨l.tx, l.rx⟩
      rw [hg, Option.map_some, hlsol] at hl1
      refine .hop i1 hl1 (afterDecision_active hin'.1) ?_ ?_ hy1 hact1 hnF
      · exact fun c => (hG _ c).1 ⟨rfl, rfl⟩
      · exact fun c => (hG _ c).2 ⟨rfl, rfl⟩

/-- Clean-up does not break what survives. -/
theorem survives_removed {t t' : Topology} (inv : t.Inv) (hu : t.removeDisconnected = some (t', none))
    {F : List SiteId} {G : List (SiteId × SiteId)} {s : SiteId} (h : Survives t F G s) :
    Survives t' F G s := by
  obtain ⟨_, k2, k3, _, _, _⟩ := removeDisconnected_spec inv hu
  have conn : ∀ s, Survives t F G s → ConnectedActive t s := by
    intro s h
    induction h with
    | pop h1 h2 h3 h4 => exact ⟨0, .pop h1 h2 (by simpa using h3)⟩
    | hop _ h2 h3 _ _ h6 h7 _ ih =>
      obtain ⟨n, hn⟩ := ih
      exact ⟨n + 1, .hop hn h2 (by simpa using h3) h6 (by simpa using h7)⟩
  have keep : ∀ s y, Survives t F G s → t.sites.get? s = some y → t'.sites.get? s = some y := by
    intro s y h hy
    obtain ⟨y', hy', _, c2⟩ := k2 s y hy
    rw [hy', c2 (fun c => c.2.1 (conn s h))]
  have notc : ∀ s y, t'.sites.get? s = some y → (y.status = .proposed ∨ y.status = .existing) →
      t'.siteStatus s ≠ some .candidate := by
    intro s y hy h
    unfold Topology.siteStatus
    rw [hy, Option.map_some]
    rcases h with h | h <;> rw [h] <;> simp
  have site : ∀ s, Survives t F G s → ∃ y, t.sites.get? s = some y ∧
      (y.status = .proposed ∨ y.status = .existing) := by
    intro s h
    cases h with
    | pop h1 h2 h3 h4 => exact ⟨_, h1, h3⟩
    | hop _ _ _ _ _ h6 h7 _ => exact ⟨_, h6, h7⟩
  induction h with
  | pop h1 h2 h3 h4 => exact .pop (keep _ _ (.pop h1 h2 h3 h4) h1) h2 h3 h4
  | @hop a b l y ha h2 h3 h4 h5 h6 h7 h8 ih =>
    have hb := Survives.hop ha h2 h3 h4 h5 h6 h7 h8
    have hyb := keep _ _ hb h6
    obtain ⟨ya, hya, sta⟩ := site _ ha
    have hl := k3 ⟨a, b⟩
    have hid : (⟨a, b⟩ : LinkId) = l.id := inv.link_id _ _ h2
    have e1 : l.tx = a := (congrArg LinkId.tx hid).symm
    have e2 : l.rx = b := (congrArg LinkId.rx hid).symm
    rw [h2, Option.map_some, if_neg] at hl
    · exact .hop ih hl h3 h4 h5 hyb h7 h8
    · rintro ⟨_, c⟩
      rw [e1, e2] at c
      rcases c with c | c
      · exact notc _ _ (keep _ _ ha hya) sta c
      · exact notc _ _ hyb h7 c

end Plan

open Plan Topology Spec

/-- **C47.** After applying the plan of the redundancy phase, every DN that was planned before stays
joined to a POP when sites other than itself and links fail, if the failures are lighter than its
redundancy: a failed POP weighs `r.pop`, a failed DN `r.dn`, a failed link 1, and the redundancy is
`r.sink` minus the shortage reported for the DN. -/
theorem C47_survives (ops : List Op) (p : OptParams) (r : RedParams)
    (restr : Option (List (SiteId × SiteId))) (x : RVars) (t' : Topology)
    (ok : (Plan.mk (run {} ops) p).redErr restr = none) (ends : SectorsAtEnds (run {} ops))
    (feas : (Plan.mk (run {} ops) p).RedFeasible r restr x)
    (hu : updateWithSolution ((Plan.mk (run {} ops) p).redSolution restr x) (run {} ops) = some (t', none))
    (d : SiteId) (y : Site) (hy : (run {} ops).sites.get? d = some y) (hdn : y.siteType = .dn)
    (hact : y.status = .proposed ∨ y.status = .existing)
    (F : List SiteId) (G : List (SiteId × SiteId)) (hF : d ∉ F)
    (hw : (F.map fun s => if IsPop (run {} ops) s then (r.pop : ℚ) else r.dn).sum + G.length
      + x.shortage d < r.sink) :
    Survives t' F G d := by
  have inv : Topology.Inv (run {} ops) := Inv.empty.run ops
  set P : Plan := ⟨run {} ops, p⟩ with hP
  have invP : P.t.Inv := inv
  have hyP : P.t.sites.get? d = some y := hy
  unfold redErr at ok
  cases hset : P.setupErr with
  | some e => rw [hset] at ok; cases ok
  | none =>
  rw [hset] at ok
  dsimp only at ok
  have rdy := ready hset
  have hd : d ∈ P.redDns := by
    refine redDns_iff.2 ⟨(Dict.mem_keys_iff _ _).2 ⟨y, hyP⟩, ?_, ?_⟩
    · unfold isActive statusOf siteStatus
      rw [hyP]
      rcases hact with h | h <;> rw [Option.map_some, h] <;> rfl
    · unfold siteType?; dsimp only; rw [hyP, Option.map_some, hdn]
  have hr : P.redSite restr (.site d) = true := by
    split at ok
    · rename_i h; exact List.all_eq_true.1 h d hd
    · cases ok
  have hpop : ∀ s, P.isPop (.site s) = true ↔ IsPop (run {} ops) s := by
    intro s
    unfold isPop siteType? IsPop
    change ((P.t.sites.get? s).map (·.siteType) == some SiteType.pop) = true ↔
      ∃ x, P.t.sites.get? s = some x ∧ x.siteType = .pop
    rw [beq_iff_eq, Option.map_eq_some_iff]
  have hw' : P.failWeight r F G + x.shortage d < r.sink := by
    unfold failWeight
    simp only [hpop]
    exact hw
  have reach := red_reach invP rdy feas hd hr hF hw'
  unfold updateWithSolution at hu
  rcases h1 : applySolution (P.redSolution restr x) (run {} ops) with ⟨t1, e⟩
  rw [h1] at hu
  cases e with
  | some e => simp at hu
  | none =>
  dsimp only at hu
  have inv1 : t1.Inv := by
    have := inv_applySolution (P.redSolution restr x) inv
    rw [h1] at this; exact this
  exact survives_removed inv1 hu (red_survives invP rdy feas ends h1 hd reach d rfl).1

/-- **C47, per level.** What the levels promise (comments in `topology_optimization.py:389-419`)
for a planned DN without shortage: LOW survives any link failure; MEDIUM any link or DN failure, and
any POP failure if there are several POPs; HIGH with several POPs a POP and a DN, or three DNs, and
with one POP two DNs. -/
theorem C47_levels (ops : List Op) (p : OptParams) (lv : RedLevel) (pops : Nat)
    (restr : Option (List (SiteId × SiteId))) (x : RVars) (t' : Topology)
    (ok : (Plan.mk (run {} ops) p).redErr restr = none) (ends : SectorsAtEnds (run {} ops))
    (feas : (Plan.mk (run {} ops) p).RedFeasible (RedParams.of lv pops) restr x)
    (hu : updateWithSolution ((Plan.mk (run {} ops) p).redSolution restr x) (run {} ops) = some (t', none))
    (d : SiteId) (y : Site) (hy : (run {} ops).sites.get? d = some y) (hdn : y.siteType = .dn)
    (hact : y.status = .proposed ∨ y.status = .existing) (hsh : x.shortage d = 0) :
    (∀ a b, Survives t' [] [(a, b)] d) ∧
    (lv ≠ .low → ∀ s ≠ d, 1 < pops ∨ ¬ IsPop (run {} ops) s → Survives t' [s] [] d) ∧
    (lv = .high → ∀ s₁ s₂, s₁ ≠ d → s₂ ≠ d → ¬ IsPop (run {} ops) s₂ →
      1 < pops ∨ ¬ IsPop (run {} ops) s₁ → Survives t' [s₁, s₂] [] d) ∧
    (lv = .high → 1 < pops → ∀ s₁ s₂ s₃, s₁ ≠ d → s₂ ≠ d → s₃ ≠ d →
      ¬ IsPop (run {} ops) s₁ → ¬ IsPop (run {} ops) s₂ → ¬ IsPop (run {} ops) s₃ →
      Survives t' [s₁, s₂, s₃] [] d) := by
  have key := C47_survives ops p (RedParams.of lv pops) restr x t' ok ends feas hu d y hy hdn hact
  refine ⟨?_, ?_, ?_, ?_⟩
  · intro a b
    apply key _ _ (by simp)
    rw [hsh]
    cases lv <;> simp only [RedParams.of] <;> (try split) <;> norm_num
  · intro hlv s hs hp
    apply key _ _ (by simpa using fun h => hs h.symm)
    rw [hsh]
    by_cases hpp : IsPop (run {} ops) s
    · have h1 : 1 < pops := hp.resolve_right (fun h => h hpp)
      cases lv
      · exact absurd rfl hlv
      all_goals simp only [RedParams.of, if_pos h1, List.map_cons, List.map_nil, if_pos hpp]; norm_num
    · cases lv
      · exact absurd rfl hlv
      all_goals
        simp only [RedParams.of, List.map_cons, List.map_nil, if_neg hpp]
        split <;> norm_num
  · rintro rfl s₁ s₂ h1 h2 hp2 hp
    apply key _ _ (by simp [Ne.symm h1, Ne.symm h2])
    rw [hsh]
    by_cases hpp : IsPop (run {} ops) s₁
    · have h1 : 1 < pops := hp.resolve_right (fun h => h hpp)
      simp only [RedParams.of, if_pos h1, List.map_cons, List.map_nil, if_pos hpp, if_neg hp2]; norm_num
    · simp only [RedParams.of, List.map_cons, List.map_nil, if_neg hpp, if_neg hp2]
      split <;> norm_num
  · rintro rfl hn s₁ s₂ s₃ h1 h2 h3 p1 p2 p3
    apply key _ _ (by simp [Ne.symm h1, Ne.symm h2, Ne.symm h3])
    rw [hsh]
    simp only [RedParams.of, if_pos hn, List.map_cons, List.map_nil, if_neg p1, if_neg p2, if_neg p3]
    norm_num

/-- The hypotheses hold of the demo at level MEDIUM: `E` is added, `A` is not, and `D` survives the
loss of either POP. -/
example :
    let P : Plan := ⟨run {} redDemo, redDemoParams⟩
    P.redErr none = none ∧ SectorsAtEnds P.t ∧ P.RedFeasible (RedParams.of .medium 2) none redDemoVars ∧
    updateWithSolution (P.redSolution none redDemoVars) P.t = some (redDemoResult, none) ∧
    redDemoResult.siteStatus "E" = some .proposed ∧ redDemoResult.siteStatus "A" = some .candidate ∧
    Survives redDemoResult ["P"] [] "D" ∧ Survives redDemoResult ["Q"] [] "D" := by
  have ends : SectorsAtEnds (run {} redDemo) := by
    have h : ∀ l ∈ (run {} redDemo).links.vals, ∀ q ∈ l.sectors,
        (∃ d ∈ (run {} redDemo).sectors.get? q.1, d.site = l.tx) ∧
        ∃ d ∈ (run {} redDemo).sectors.get? q.2, d.site = l.rx := by
      decide +kernel
    intro l hl a b hab
    exact h l hl (a, b) hab
  have key := fun y hy h1 h2 => C47_levels redDemo redDemoParams .medium 2 none redDemoVars redDemoResult
    (by decide +kernel) ends redDemo_feasible (by decide +kernel) "D" y hy h1 h2 rfl
  obtain ⟨y, hy, h1, h2⟩ : ∃ y, (run {} redDemo).sites.get? "D" = some y ∧ y.siteType = .dn ∧
      (y.status = .proposed ∨ y.status = .existing) :=
    ⟨_, rfl, by decide +kernel, by decide +kernel⟩
  obtain ⟨-, k, -⟩ := key y hy h1 h2
  exact ⟨by decide +kernel, ends, redDemo_feasible, by decide +kernel, by decide +kernel, by decide +kernel,
    k (by decide) "P" (by decide) (.inl (by decide)), k (by decide) "Q" (by decide) (.inl (by decide))⟩

end Verif
