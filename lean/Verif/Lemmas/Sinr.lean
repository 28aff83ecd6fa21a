import Verif.Spec.Sinr
import Verif.Props.SectorLimit

/-! # Lemmas on the interference analysis (for C115 and C116) -/

namespace Verif
namespace Sinr
open Topology Spec

/-! ## Polarities of client nodes -/

/-- Polarity a link leaves its receiver. -/
def polOf (t : Topology) (l : Link) : PolarityType :=
  servedPolarity (((t.sites.get? l.tx).map Site.polarity).getD .unassigned)

theorem cn_fold (t : Topology) (s : SiteId)
    (hs : (t.sites.get? s).any (fun s => s.siteType == .cn) = true) : ∀ L : List Link,
    ((L.foldl (cnPolStep t) []).get? s = none → ∀ l ∈ L, l.status.active = true → l.rx ≠ s) ∧
    ∀ q, (L.foldl (cnPolStep t) []).get? s = some q →
      (∃ l ∈ L, l.status.active = true ∧ l.rx = s) ∧
      ∀ p, p ≠ .unassigned →
        (q = p ↔ ∀ l ∈ L, l.status.active = true → l.rx = s → polOf t l = p) := by
  intro L
  induction L using List.reverseRecOn with
  | nil => exact ⟨fun _ l hl => by simp at hl, fun q h => by simp at h⟩
  | append_singleton L l ih =>
    rw [List.foldl_append]
    simp only [List.foldl_cons, List.foldl_nil]
    generalize L.foldl (cnPolStep t) [] = D at ih ⊢
    obtain ⟨ih1, ih2⟩ := ih
    by_cases c : l.status.active = true ∧ l.rx = s
    · obtain ⟨ca, rfl⟩ := c
      have e : cnPolStep t D l = match D.get? l.rx with
          | none => D.set l.rx (polOf t l)
          | some q => if q ≠ polOf t l then D.set l.rx .unassigned else D := by
        unfold cnPolStep
        rw [ca, hs]
        rfl
      cases hD : D.get? l.rx with
      | none =>
        rw [e, hD]
        dsimp only
        rw [Dict.get?_set_self]
        refine ⟨fun h => by (cases h), ?_⟩
        intro q hq
        cases hq
        refine ⟨⟨l, by simp, ca, rfl⟩, fun p _ => ?_⟩
        constructor
        · intro h x hx hx1 hx2
          rw [List.mem_append, List.mem_singleton] at hx
          rcases hx with hx | rfl
          · exact absurd hx2 (ih1 hD x hx hx1)
          · exact h
        · intro h; exact h l (by simp) ca rfl
      | some q0 =>
        obtain ⟨⟨l0, h01, h02, h03⟩, h1⟩ := ih2 q0 hD
        rw [e, hD]
        dsimp only
        by_cases cq : q0 = polOf t l
        · rw [if_neg (not_not.2 cq), hD]
          refine ⟨fun h => by (cases h), ?_⟩
          intro q hq
          cases hq
          refine ⟨⟨l, by simp, ca, rfl⟩, fun p hp => ?_⟩
          rw [h1 p hp]
          constructor
          · intro h x hx hx1 hx2
            rw [List.mem_append, List.mem_singleton] at hx
            rcases hx with hx | rfl
            · exact h x hx hx1 hx2
            · exact cq.symm.trans ((h1 p hp).2 h)
          · intro h x hx; exact h x (by simp [hx])
        · rw [if_pos cq, Dict.get?_set_self]
          refine ⟨fun h => by (cases h), ?_⟩
          intro q hq
          cases hq
          refine ⟨⟨l, by simp, ca, rfl⟩, fun p hp => ?_⟩
          constructor
          · intro h; exact absurd h.symm hp
          · intro h
            exfalso
            have e1 := (h1 p hp).2 (fun x hx => h x (by simp [hx]))
            have e2 := h l (by simp) ca rfl
            exact cq (e1.trans e2.symm)
    · have e : (cnPolStep t D l).get? s = D.get? s := by
        unfold cnPolStep
        split
        · rename_i h
          rw [Bool.and_eq_true] at h
          have hne : l.rx ≠ s := fun he => c ⟨h.1, he⟩
          dsimp only
          split
          · rw [Dict.get?_set, if_neg hne]
          · split
            · rw [Dict.get?_set, if_neg hne]
            · rfl
        · rfl
      rw [e]
      constructor
      · intro h x hx hx1
        rw [List.mem_append, List.mem_singleton] at hx
        rcases hx with hx | rfl
        · exact ih1 h x hx hx1
        · exact fun he => c ⟨hx1, he⟩
      · intro q hq
        obtain ⟨⟨l0, h01, h02, h03⟩, h1⟩ := ih2 q hq
        refine ⟨⟨l0, by simp [h01], h02, h03⟩, fun p hp => ?_⟩
        rw [h1 p hp]
        constructor
        · intro h x hx hx1 hx2
          rw [List.mem_append, List.mem_singleton] at hx
          rcases hx with hx | rfl
          · exact h x hx hx1 hx2
          · exact absurd ⟨hx1, hx2⟩ c
        · intro h x hx; exact h x (by simp [hx])

/-- A client node in use, with no link in use into it. -/
def Unserved (t : Topology) (P : Link) : Prop :=
  ∃ x y, SiteInUse t P.tx x ∧ SiteInUse t P.rx y ∧ y.siteType = .cn ∧
    ∀ l ∈ t.links.vals, l.status.active = true → l.rx ≠ P.rx

theorem served_iff (p q : PolarityType) (hp : p ≠ .unassigned) (hq : q ≠ .unassigned) (a : PolarityType) :
    servedPolarity a = q ↔ (a ≠ .unassigned ∧ a ≠ q) := by
  cases a <;> cases q <;> simp_all [servedPolarity]

theorem polarity_error {t : Topology} {P : Link} (h : Unserved t P) :
    compatiblePolarity t (cnPolarities t) P = .error .keyError := by
  obtain ⟨x, y, ⟨h1, h2⟩, ⟨h3, h4⟩, h5, h6⟩ := h
  have hcn : (t.sites.get? P.rx).any (fun s => s.siteType == .cn) = true := by
    rw [h3]; simp [h5]
  have := cn_fold t P.rx hcn t.links.vals
  unfold compatiblePolarity
  rw [h1, h3]
  simp only [h2, h4, Bool.not_true, Bool.or_self, Bool.false_eq_true, if_false, h5, if_true]
  have e : (cnPolarities t).get? P.rx = none := by
    cases hq : (cnPolarities t).get? P.rx with
    | none => rfl
    | some q =>
      obtain ⟨⟨l, hl1, hl2, hl3⟩, _⟩ := this.2 q hq
      exact absurd hl3 (h6 l hl1 hl2)
  rw [e]

theorem polarity_ok {t : Topology} (inv : t.Inv) {P : Link} (hP : P ∈ t.links.vals) (h : ¬ Unserved t P) :
    ∃ b, compatiblePolarity t (cnPolarities t) P = .ok b ∧
      (b = true ↔ ∃ x y, SiteInUse t P.tx x ∧ SiteInUse t P.rx y ∧ ¬ SameSlot t x y) := by
  have g := (mem_link_vals inv P).1 hP
  obtain ⟨x, hx⟩ := inv.link_tx _ _ g
  obtain ⟨y, hy⟩ := inv.link_rx _ _ g
  unfold compatiblePolarity
  rw [hx, hy]
  dsimp only
  by_cases ca : x.status.active = true ∧ y.status.active = true
  · obtain ⟨ca, cb⟩ := ca
    simp only [ca, cb, Bool.not_true, Bool.or_self, Bool.false_eq_true, if_false]
    have red : (∃ x y, SiteInUse t P.tx x ∧ SiteInUse t P.rx y ∧ ¬ SameSlot t x y) ↔ ¬ SameSlot t x y := by
      constructor
      · rintro ⟨x', y', ⟨h1, _⟩, ⟨h2, _⟩, h3⟩
        rw [hx] at h1; rw [hy] at h2
        cases h1; cases h2
        exact h3
      · intro h; exact ⟨x, y, ⟨hx, ca⟩, ⟨hy, cb⟩, h⟩
    rw [red]
    by_cases cn : y.siteType = .cn
    · have hcn : (t.sites.get? P.rx).any (fun s => s.siteType == .cn) = true := by
        rw [hy]; simp [cn]
      have sp := cn_fold t P.rx hcn t.links.vals
      rw [if_pos cn]
      cases hq : (cnPolarities t).get? P.rx with
      | none =>
        exact absurd ⟨x, y, ⟨hx, ca⟩, ⟨hy, cb⟩, cn, sp.1 hq⟩ h
      | some q =>
        refine ⟨_, rfl, ?_⟩
        obtain ⟨⟨l0, hl1, hl2, hl3⟩, s2⟩ := sp.2 q hq
        unfold SameSlot
        rw [if_pos cn]
        have hyid := inv.site_id _ _ hy
        have tx : ∀ l ∈ t.links.vals, ∃ z, t.sites.get? l.tx = some z := fun l hl =>
          inv.link_tx _ _ ((mem_link_vals inv l).1 hl)
        have key : (∃ p, p ≠ .unassigned ∧ x.polarity ≠ .unassigned ∧ x.polarity ≠ p ∧
            ∀ l ∈ t.links.vals, l.status.active = true → l.rx = y.id →
              ∃ z, t.sites.get? l.tx = some z ∧ z.polarity = p) ↔
            (x.polarity ≠ .unassigned ∧ q = x.polarity) := by
          constructor
          · rintro ⟨p, hp, hx1, hx2, hall⟩
            refine ⟨hx1, (s2 _ hx1).2 ?_⟩
            intro l hl ha hr
            obtain ⟨z, hz1, hz2⟩ := hall l hl ha (hr.trans hyid.symm)
            unfold polOf
            rw [hz1]
            simp only [Option.map_some, Option.getD_some, hz2]
            rw [served_iff p _ hp hx1]
            exact ⟨hp, fun e => hx2 e.symm⟩
          · rintro ⟨hx1, he⟩
            have hall := (s2 _ hx1).1 he
            have pol : ∀ l ∈ t.links.vals, l.status.active = true → l.rx = y.id →
                ∃ z, t.sites.get? l.tx = some z ∧ z.polarity = servedPolarity x.polarity := by
              intro l hl ha hr
              obtain ⟨z, hz⟩ := tx l hl
              refine ⟨z, hz, ?_⟩
              have := hall l hl ha (hr.trans hyid)
              unfold polOf at this
              rw [hz] at this
              simp only [Option.map_some, Option.getD_some] at this
              rw [← this]
              cases hp : z.polarity <;> rfl
            refine ⟨servedPolarity x.polarity, ?_, hx1, ?_, pol⟩
            · cases hp : x.polarity with
              | unassigned => exact absurd hp hx1
              | odd => simp [servedPolarity]
              | even => simp [servedPolarity]
            · cases hp : x.polarity with
              | unassigned => exact absurd hp hx1
              | odd => simp [servedPolarity]
              | even => simp [servedPolarity]
        rw [key]
        cases hp : x.polarity <;> cases q <;> simp
    · rw [if_neg cn]
      refine ⟨_, rfl, ?_⟩
      unfold SameSlot
      rw [if_neg cn]
      unfold SamePolarity
      cases hp : x.polarity <;> cases hq : y.polarity <;> simp
  · have e : (!x.status.active || !y.status.active) = true := by
      cases h1 : x.status.active <;> cases h2 : y.status.active <;> simp_all
    rw [if_pos e]
    refine ⟨false, rfl, ?_⟩
    constructor
    · intro h; cases h
    · rintro ⟨x', y', ⟨h1, h1'⟩, ⟨h2, h2'⟩, _⟩
      rw [hx] at h1; rw [hy] at h2
      cases h1; cases h2
      exact absurd ⟨h1', h2'⟩ ca

theorem channel_iff (t : Topology) (a b : SectorId) :
    (sectorActive t a && sectorActive t b) = true ∧ compatibleChannel t a b = true ↔
      ∃ x y, t.sectors.get? a = some x ∧ t.sectors.get? b = some y ∧
        x.status.active = true ∧ y.status.active = true ∧
        (x.channel = y.channel ∨ x.channel = -1 ∨ y.channel = -1) := by
  unfold sectorActive compatibleChannel
  cases ha : t.sectors.get? a with
  | none => simp
  | some x =>
    cases hb : t.sectors.get? b with
    | none => simp
    | some y =>
      cases h1 : x.status.active <;> cases h2 : y.status.active <;> simp [h1, h2]

/-! ## Rows of the connectivity maps -/

/-- The link with its two sectors exchanged. -/
def swapSectors (l : Link) : Link := { l with sectors := l.sectors.map Prod.swap }

/-- The entry of a link in the reverse row of sector `s`. -/
def revEntry (s : SectorId) (l : Link) : Option (SectorId × LinkId) :=
  match l.sectors with
  | none => none
  | some (a, b) => if b = s then some (a, l.id) else none

theorem revEntry_eq (s : SectorId) (l : Link) : rowEntry s (swapSectors l) = revEntry s l := by
  unfold rowEntry revEntry swapSectors
  cases l.sectors with
  | none => rfl
  | some p => rfl

theorem connRevStep_eq (d : Dict SectorId (Dict SectorId LinkId)) (l : Link) :
    connRevStep d l = connStep d (swapSectors l) := by
  unfold connRevStep connStep swapSectors
  cases l.sectors with
  | none => rfl
  | some p => rfl

theorem pairs_distinct {t : Topology} (inv : t.Inv) (ends : SectorsOnEnds t) {l l' : Link}
    (hl : l ∈ t.links.vals) (hl' : l' ∈ t.links.vals) {p : SectorId × SectorId}
    (h : l.sectors = some p) (h' : l'.sectors = some p) : l = l' := by
  have g := (mem_link_vals inv l).1 hl
  have g' := (mem_link_vals inv l').1 hl'
  obtain ⟨e1, e2, _⟩ := ends _ _ p.1 p.2 g h
  obtain ⟨e3, e4, _⟩ := ends _ _ p.1 p.2 g' h'
  rw [← e1, ← e2] at g
  rw [← e3, ← e4] at g'
  rw [g] at g'
  exact Option.some.inj g'

theorem vals_nodup {t : Topology} (inv : t.Inv) : t.links.vals.Nodup :=
  Dict.nodup_vals_of_inj inv.nd_links Link.id inv.link_id

theorem rev_row {t : Topology} (inv : t.Inv) (ends : SectorsOnEnds t) (s : SectorId) :
    ((sectorConnectivityReverse t).get? s).getD [] = t.links.vals.filterMap (revEntry s) := by
  have e : sectorConnectivityReverse t = (t.links.vals.map swapSectors).foldl connStep [] := by
    unfold sectorConnectivityReverse
    rw [List.foldl_map]
    congr 1
    funext d l
    exact connRevStep_eq d l
  rw [e, conn_fold, List.filterMap_map]
  · congr 1
    funext l
    exact revEntry_eq s l
  · rw [List.pairwise_map, List.pairwise_iff_forall_sublist]
    intro l l' hsub p hp hp'
    have hm : l ∈ t.links.vals := hsub.subset (by simp)
    have hm' : l' ∈ t.links.vals := hsub.subset (by simp)
    have hne : l ≠ l' := by
      intro e
      subst e
      have := (vals_nodup inv).sublist hsub
      simp at this
    have unswap : ∀ {k : Link} {p}, (swapSectors k).sectors = some p → k.sectors = some p.swap := by
      intro k p h
      unfold swapSectors at h
      cases hk : k.sectors with
      | none => rw [hk] at h; cases h
      | some q => rw [hk] at h; cases h; simp
    exact hne (pairs_distinct inv ends hm hm' (unswap hp) (unswap hp'))

/-! ## The gain map -/

/-- The row of path `p` and interfered link `r`. -/
def rowOf (m : GainMap) (p r : LinkId) : Dict LinkId ℚ := (((m.get? p).getD []).get? r).getD []

/-- No interfered link is listed twice. -/
def RowsOk (m : GainMap) : Prop := ∀ p, ((m.get? p).getD []).NodupKeys

theorem rowOf_put (m : GainMap) (p r x p' r' : LinkId) (g : ℚ) :
    rowOf (m.put p r x g) p' r' =
      if p = p' ∧ r = r' then (rowOf m p r).set x g else rowOf m p' r' := by
  unfold rowOf GainMap.put
  dsimp only
  rw [Dict.get?_set]
  by_cases c : p = p'
  · subst c
    rw [if_pos rfl, Option.getD_some, Dict.get?_set]
    by_cases d : r = r'
    · subst d
      rw [if_pos rfl, if_pos ⟨rfl, rfl⟩]
      rfl
    · rw [if_neg d, if_neg (fun h => d h.2)]
  · rw [if_neg c, if_neg (fun h => c h.1)]

theorem RowsOk.put {m : GainMap} (h : RowsOk m) (p r x : LinkId) (g : ℚ) : RowsOk (m.put p r x g) := by
  intro p'
  unfold GainMap.put
  dsimp only
  rw [Dict.get?_set]
  split
  · rw [Option.getD_some]; exact (h p).set _ _
  · exact h p'

theorem put_fold (R : RadioEnv) (P r : Link) : ∀ (xs : List Link) (m : GainMap),
    (xs.map Link.id).Nodup → (∀ x ∈ xs, (rowOf m P.id r.id).get? x.id = none) → RowsOk m →
    RowsOk (xs.foldl (fun m x => m.put P.id r.id x.id (pairGain R P r x)) m) ∧
    ∀ p' r', rowOf (xs.foldl (fun m x => m.put P.id r.id x.id (pairGain R P r x)) m) p' r' =
      if P.id = p' ∧ r.id = r' then
        rowOf m P.id r.id ++ xs.map (fun x => (x.id, pairGain R P r x))
      else rowOf m p' r' := by
  intro xs
  induction xs with
  | nil =>
    intro m _ _ hr
    refine ⟨hr, fun p' r' => ?_⟩
    simp only [List.foldl_nil, List.map_nil, List.append_nil]
    split
    · rename_i h; rw [h.1, h.2]
    · rfl
  | cons x xs ih =>
    intro m hn hf hr
    rw [List.map_cons, List.nodup_cons] at hn
    rw [List.foldl_cons]
    have e0 : rowOf (m.put P.id r.id x.id (pairGain R P r x)) P.id r.id =
        rowOf m P.id r.id ++ [(x.id, pairGain R P r x)] := by
      rw [rowOf_put, if_pos ⟨rfl, rfl⟩, Dict.set_fresh _ _ _ (hf x List.mem_cons_self)]
    obtain ⟨h1, h2⟩ := ih (m.put P.id r.id x.id (pairGain R P r x)) hn.2 (by
      intro y hy
      rw [rowOf_put, if_pos ⟨rfl, rfl⟩, Dict.get?_set, if_neg]
      · exact hf y (List.mem_cons_of_mem _ hy)
      · intro e; exact hn.1 (List.mem_map.2 ⟨y, hy, e.symm⟩)) (hr.put _ _ _ _)
    refine ⟨h1, fun p' r' => ?_⟩
    rw [h2]
    by_cases c : P.id = p' ∧ r.id = r'
    · rw [if_pos c, if_pos c, e0]; simp
    · rw [if_neg c, if_neg c, rowOf_put, if_neg c]

/-- Boolean form of `Source`. -/
noncomputable def srcB (P r x : Link) : Bool := by
  classical exact decide (Source P r x)

theorem srcB_iff (P r x : Link) : srcB P r x = true ↔ Source P r x := by
  unfold srcB; simp

theorem txLoop_eq {t : Topology} (R : RadioEnv) {P r : Link} {a b c : SectorId}
    (hP : P.sectors = some (a, b)) (hr : r.sectors = some (c, b)) :
    ∀ (L : List Link) (m : GainMap), (∀ l ∈ L, t.links.get? l.id = some l) →
      (∀ l ∈ L, l.isRedundant = false) →
      gainTxLoop t R P r b c (L.filterMap (rowEntry a)) m =
        .ok ((L.filter (srcB P r)).foldl (fun m x => m.put P.id r.id x.id (pairGain R P r x)) m) := by
  intro L
  induction L with
  | nil => intro m _ _; rfl
  | cons x L ih =>
    intro m hg hred
    have ih := fun m => ih m (fun l hl => hg l (List.mem_cons_of_mem _ hl))
      (fun l hl => hred l (List.mem_cons_of_mem _ hl))
    have gx := hg x List.mem_cons_self
    have rx := hred x List.mem_cons_self
    rw [List.filterMap_cons, List.filter_cons]
    have no : ¬ Source P r x → (if srcB P r x = true then x :: L.filter (srcB P r) else L.filter (srcB P r))
        = L.filter (srcB P r) := by
      intro h
      rw [if_neg]
      rw [srcB_iff]
      exact h
    have src : Source P r x ↔ InUse x ∧ ∃ d, x.sectors = some (a, d) ∧ d ≠ b ∧ d ≠ c := by
      unfold Source
      constructor
      · rintro ⟨h1, _, a', b', c', d, h2, h3, h4, h5, h6⟩
        rw [hP] at h2; rw [hr] at h3
        cases h2; cases h3
        exact ⟨h1, d, h4, h5, h6⟩
      · rintro ⟨h1, d, h4, h5, h6⟩
        exact ⟨h1, rx, a, b, c, d, hP, hr, h4, h5, h6⟩
    unfold rowEntry
    cases hs : x.sectors with
    | none =>
      dsimp only
      rw [no]
      · exact ih m
      · rw [src, hs]; rintro ⟨_, d, h, _⟩; cases h
    | some p =>
      obtain ⟨a', d⟩ := p
      dsimp only
      by_cases ca : a' = a
      · subst ca
        rw [if_pos rfl]
        dsimp only
        unfold gainTxLoop
        by_cases c1 : d = b
        · rw [if_pos c1, no]
          · exact ih m
          · rw [src, hs]
            rintro ⟨_, d', h, h', _⟩
            cases h
            exact h' c1
        · rw [if_neg c1]
          by_cases c2 : d = c
          · rw [if_pos c2, no]
            · exact ih m
            · rw [src, hs]
              rintro ⟨_, d', h, _, h'⟩
              cases h
              exact h' c2
          · rw [if_neg c2, gx]
            dsimp only
            by_cases cu : x.isWireless = true ∧ x.status.active = true
            · have : (!x.isWireless || !x.status.active) = false := by simp [cu.1, cu.2]
              rw [this, if_neg Bool.false_ne_true, if_pos]
              · rw [List.foldl_cons]
                exact ih _
              · rw [srcB_iff, src]
                exact ⟨cu, d, hs, c1, c2⟩
            · have : (!x.isWireless || !x.status.active) = true := by
                cases h1 : x.isWireless <;> cases h2 : x.status.active <;> simp_all
              rw [this, if_pos rfl, no]
              · exact ih m
              · rw [src]
                rintro ⟨h, _⟩
                exact cu h
      · rw [if_neg ca, no]
        · exact ih m
        · rw [src, hs]
          rintro ⟨_, d', h, _⟩
          cases h
          exact ca rfl

theorem dropRedundant_eq {t : Topology} (a : SectorId) : ∀ (L : List Link),
    (∀ l ∈ L, t.links.get? l.id = some l) →
    dropRedundant t (L.filterMap (rowEntry a)) =
      .ok ((L.filter (fun l => !l.isRedundant)).filterMap (rowEntry a)) := by
  intro L
  induction L with
  | nil => intro _; rfl
  | cons x L ih =>
    intro hg
    have ih := ih (fun l hl => hg l (List.mem_cons_of_mem _ hl))
    have gx := hg x List.mem_cons_self
    rw [List.filterMap_cons, List.filter_cons]
    cases he : rowEntry a x with
    | none =>
      dsimp only
      rw [ih]
      split
      · rw [List.filterMap_cons, he]
      · rfl
    | some q =>
      have hq : q.2 = x.id := by
        unfold rowEntry at he
        cases hs : x.sectors with
        | none => rw [hs] at he; cases he
        | some p =>
          rw [hs] at he
          dsimp only at he
          split at he
          · cases he; rfl
          · cases he
      obtain ⟨q1, q2⟩ := q
      dsimp only at hq
      subst hq
      dsimp only
      unfold dropRedundant
      rw [gx]
      dsimp only
      rw [ih]
      dsimp only
      cases hred : x.isRedundant
      · simp [he]
      · simp

theorem links_at {t : Topology} (inv : t.Inv) : ∀ l ∈ t.links.vals, t.links.get? l.id = some l :=
  fun l hl => (mem_link_vals inv l).1 hl

theorem ids_nd {t : Topology} (inv : t.Inv) : (t.links.vals.map Link.id).Nodup := by
  refine (List.nodup_map_iff_inj_on (vals_nodup inv)).2 ?_
  intro x hx y hy e
  have g := links_at inv x hx
  rw [e, links_at inv y hy] at g
  exact (Option.some.inj g).symm

/-- The sources of path `P` onto `r` with their gains. -/
noncomputable def srcRow (t : Topology) (R : RadioEnv) (P r : Link) : Dict LinkId ℚ :=
  (t.links.vals.filter (srcB P r)).map (fun x => (x.id, pairGain R P r x))

theorem filter_src {t : Topology} (P r : Link) :
    (t.links.vals.filter (fun l => !l.isRedundant)).filter (srcB P r) = t.links.vals.filter (srcB P r) := by
  rw [List.filter_filter]
  apply List.filter_congr
  intro x _
  by_cases h : Source P r x
  · have := h.2.1
    rw [(srcB_iff P r x).2 h, this]; rfl
  · have : srcB P r x = false := by
      rw [← Bool.not_eq_true, srcB_iff]; exact h
    rw [this]; rfl

theorem rxLoop_eq {t : Topology} (inv : t.Inv) (R : RadioEnv) {P : Link} {a b : SectorId}
    (hP : P.sectors = some (a, b)) :
    ∀ (L : List Link) (m : GainMap), (∀ l ∈ L, l ∈ t.links.vals) → L.Nodup →
      (∀ l ∈ L, rowOf m P.id l.id = []) → RowsOk m →
      ∃ m', gainRxLoop t R P a b
        ((t.links.vals.filter (fun l => !l.isRedundant)).filterMap (rowEntry a))
        (L.filterMap (revEntry b)) m = .ok m' ∧ RowsOk m' ∧
        (∀ p' r', p' ≠ P.id → rowOf m' p' r' = rowOf m p' r') ∧
        (∀ r ∈ t.links.vals, r ∉ L → rowOf m' P.id r.id = rowOf m P.id r.id) ∧
        ∀ r ∈ L, ((InUse r ∧ ∃ c, r.sectors = some (c, b) ∧ c ≠ a) →
          rowOf m' P.id r.id = srcRow t R P r) ∧
          (¬ (InUse r ∧ ∃ c, r.sectors = some (c, b) ∧ c ≠ a) → rowOf m' P.id r.id = []) := by
  intro L
  induction L with
  | nil =>
    intro m _ _ _ hr
    exact ⟨m, rfl, hr, fun _ _ _ => rfl, fun _ _ _ => rfl, fun r hr => by simp at hr⟩
  | cons r L ih =>
    intro m hL hn he hok
    rw [List.nodup_cons] at hn
    have ih := fun m' => ih m' (fun l hl => hL l (List.mem_cons_of_mem _ hl)) hn.2
    have hrm := hL r List.mem_cons_self
    have gr := links_at inv r hrm
    have idne : ∀ x ∈ t.links.vals, x ≠ r → r.id ≠ x.id := by
      intro x hx hne e
      have := links_at inv x hx
      rw [← e, gr] at this
      exact hne (Option.some.inj this).symm
    -- the case in which the head changes nothing
    have skip : ∀ rows, ¬ (InUse r ∧ ∃ c, r.sectors = some (c, b) ∧ c ≠ a) →
        gainRxLoop t R P a b ((t.links.vals.filter (fun l => !l.isRedundant)).filterMap (rowEntry a)) rows m =
        gainRxLoop t R P a b ((t.links.vals.filter (fun l => !l.isRedundant)).filterMap (rowEntry a))
          (L.filterMap (revEntry b)) m →
        ∃ m', gainRxLoop t R P a b
        ((t.links.vals.filter (fun l => !l.isRedundant)).filterMap (rowEntry a)) rows m = .ok m' ∧ RowsOk m' ∧
        (∀ p' r', p' ≠ P.id → rowOf m' p' r' = rowOf m p' r') ∧
        (∀ x ∈ t.links.vals, x ∉ r :: L → rowOf m' P.id x.id = rowOf m P.id x.id) ∧
        ∀ x ∈ r :: L, ((InUse x ∧ ∃ c, x.sectors = some (c, b) ∧ c ≠ a) →
          rowOf m' P.id x.id = srcRow t R P x) ∧
          (¬ (InUse x ∧ ∃ c, x.sectors = some (c, b) ∧ c ≠ a) → rowOf m' P.id x.id = []) := by
      intro rows hno heq
      obtain ⟨m', e1, e2, e3, e4, e5⟩ := ih m (fun l hl => he l (List.mem_cons_of_mem _ hl)) hok
      refine ⟨m', heq.trans e1, e2, e3, fun x hx hx' => e4 x hx (fun h => hx' (List.mem_cons_of_mem _ h)), ?_⟩
      intro x hx
      rcases List.mem_cons.1 hx with rfl | hx
      · refine ⟨fun h => absurd h hno, fun _ => ?_⟩
        rw [e4 x hrm hn.1]
        exact he x List.mem_cons_self
      · exact e5 x hx
    rw [List.filterMap_cons]
    unfold revEntry
    cases hs : r.sectors with
    | none =>
      dsimp only
      apply skip _ _ rfl
      rintro ⟨_, c, h, _⟩
      rw [hs] at h; cases h
    | some p =>
      obtain ⟨c, b'⟩ := p
      dsimp only
      by_cases cb : b' = b
      · subst cb
        rw [if_pos rfl]
        dsimp only
        by_cases ca : c = a
        · apply skip
          · rintro ⟨_, c', h, h'⟩
            rw [hs] at h; cases h
            exact h' ca
          · rw [gainRxLoop, if_pos ca]; rfl
        · by_cases cu : r.isWireless = true ∧ r.status.active = true
          · have hu : (!r.isWireless || !r.status.active) = false := by simp [cu.1, cu.2]
            have tx := txLoop_eq (t := t) R hP hs (t.links.vals.filter (fun l => !l.isRedundant)) m
              (fun l hl => links_at inv l (List.mem_filter.1 hl).1)
              (fun l hl => by simpa using (List.mem_filter.1 hl).2)
            rw [filter_src] at tx
            have pf := put_fold R P r (t.links.vals.filter (srcB P r)) m
              ((ids_nd inv).sublist (List.Sublist.map _ List.filter_sublist))
              (by intro x _; rw [he r List.mem_cons_self]; rfl) hok
            obtain ⟨pf1, pf2⟩ := pf
            obtain ⟨m', e1, e2, e3, e4, e5⟩ := ih _ (by
              intro l hl
              rw [pf2, if_neg]
              · exact he l (List.mem_cons_of_mem _ hl)
              · rintro ⟨_, e⟩
                exact idne l (hL l (List.mem_cons_of_mem _ hl)) (by rintro rfl; exact hn.1 hl) e) pf1
            refine ⟨m', ?_, e2, ?_, ?_, ?_⟩
            · rw [gainRxLoop, if_neg ca, gr]
              dsimp only
              rw [hu, if_neg Bool.false_ne_true, tx]
              exact e1
            · intro p' r' hp'
              rw [e3 p' r' hp', pf2, if_neg (fun h => hp' h.1.symm)]
            · intro x hx hx'
              rw [e4 x hx (fun h => hx' (List.mem_cons_of_mem _ h)), pf2, if_neg]
              rintro ⟨_, e⟩
              exact idne x hx (by rintro rfl; exact hx' List.mem_cons_self) e
            · intro x hx
              rcases List.mem_cons.1 hx with rfl | hx
              · refine ⟨fun _ => ?_, fun h => absurd ⟨cu, c, hs, ca⟩ h⟩
                rw [e4 x hrm hn.1, pf2, if_pos ⟨rfl, rfl⟩, he x List.mem_cons_self]
                rfl
              · exact e5 x hx
          · have hu : (!r.isWireless || !r.status.active) = true := by
              cases h1 : r.isWireless <;> cases h2 : r.status.active <;> simp_all
            apply skip
            · rintro ⟨h, _⟩; exact cu h
            · rw [gainRxLoop, if_neg ca, gr]
              dsimp only
              rw [hu, if_pos rfl]
              rfl
      · rw [if_neg cb]
        apply skip _ _ rfl
        rintro ⟨_, c', h, _⟩
        rw [hs] at h; cases h
        exact cb rfl

end Sinr
end Verif
