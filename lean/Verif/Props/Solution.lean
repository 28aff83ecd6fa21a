import Verif.Lemmas.Solution
import Mathlib.Data.List.Induction

/-! # C11-C13: applying an optimizer solution -/

namespace Verif
open Topology Spec

/-- The statuses the optimizer may not touch. -/
def Spec.IsFixed (st : StatusType) : Prop := st = .existing ∨ st = .unavailable ∨ st = .unreachable

/-- `b` may follow `a`: a fixed status stays and none is newly taken. -/
def Spec.KeepsFixed (a b : StatusType) : Prop :=
  (a = .existing ↔ b = .existing) ∧ (a = .unavailable ↔ b = .unavailable) ∧
    (a = .unreachable ↔ b = .unreachable)

/-- `KeepsFixed` of the statuses of two objects. -/
def Spec.KeepsBy {α : Type} (status : α → StatusType) (a b : α) : Prop :=
  KeepsFixed (status a) (status b)

/-- Same objects; every site, sector and link keeps a fixed status. -/
def Spec.FixedUntouched (t t' : Topology) : Prop :=
  (∀ i, Option.Rel (KeepsBy Site.status)
    (t.sites.get? i) (t'.sites.get? i)) ∧
  (∀ i, Option.Rel (KeepsBy Sector.status)
    (t.sectors.get? i) (t'.sectors.get? i)) ∧
  (∀ i, Option.Rel (KeepsBy Link.status)
    (t.links.get? i) (t'.links.get? i))

theorem keepsFixed_refl (a : StatusType) : KeepsFixed a a := ⟨Iff.rfl, Iff.rfl, Iff.rfl⟩

theorem keepsFixed_trans {a b c : StatusType} (h : KeepsFixed a b) (g : KeepsFixed b c) :
    KeepsFixed a c := ⟨h.1.trans g.1, h.2.1.trans g.2.1, h.2.2.trans g.2.2⟩

theorem keepsBy_refl {α : Type} (st : α → StatusType) (a : α) : KeepsBy st a a := keepsFixed_refl _

theorem keepsBy_trans {α : Type} (st : α → StatusType) (a b c : α) (h : KeepsBy st a b)
    (g : KeepsBy st b c) : KeepsBy st a c := keepsFixed_trans h g

theorem optRel_refl {α : Type} {R : α → α → Prop} (hR : ∀ a, R a a) (o : Option α) :
    Option.Rel R o o := by
  cases o
  · exact .none
  · exact .some (hR _)

theorem fixedUntouched_refl (t : Topology) : FixedUntouched t t :=
  ⟨fun _ => optRel_refl (keepsBy_refl _) _,
    fun _ => optRel_refl (keepsBy_refl _) _,
    fun _ => optRel_refl (keepsBy_refl _) _⟩

theorem fixedUntouched_trans {a b c : Topology} (h : FixedUntouched a b) (g : FixedUntouched b c) :
    FixedUntouched a c :=
  ⟨fun i => rel_trans (keepsBy_trans _) (h.1 i) (g.1 i),
    fun i => rel_trans (keepsBy_trans _) (h.2.1 i) (g.2.1 i),
    fun i => rel_trans (keepsBy_trans _) (h.2.2 i) (g.2.2 i)⟩

theorem keepsFixed_open {a b : StatusType} (ha : a.open? = true)
    (hb : b = .candidate ∨ b = .proposed) : KeepsFixed a b := by
  rcases hb with rfl | rfl <;> cases a <;> simp_all [StatusType.open?, StatusType.immutable, KeepsFixed]

theorem decided_or (d : Int) : decided d = .candidate ∨ decided d = .proposed := by
  unfold decided; split <;> simp

theorem modify_rel {κ ν : Type} [DecidableEq κ] {R : ν → ν → Prop} (hR : ∀ a, R a a)
    (d : Dict κ ν) (k : κ) (f : ν → ν) (hf : ∀ v, d.get? k = some v → R v (f v)) (i : κ) :
    Option.Rel R (d.get? i) ((d.modify k f).get? i) := by
  rw [Dict.get?_modify]
  split
  · rename_i e; subst e
    cases h : d.get? k with
    | none => exact .none
    | some v => exact .some (hf v h)
  · exact optRel_refl hR _

theorem fixed_modSite {t : Topology} (id : SiteId) (f : Site → Site)
    (hf : ∀ v, t.sites.get? id = some v → KeepsFixed v.status (f v).status) :
    FixedUntouched t { t with sites := t.sites.modify id f } :=
  ⟨fun i => modify_rel (keepsBy_refl Site.status) t.sites id f hf i, (fixedUntouched_refl t).2⟩

theorem fixed_modSector {t : Topology} (id : SectorId) (f : Sector → Sector)
    (hf : ∀ v, t.sectors.get? id = some v → KeepsFixed v.status (f v).status) :
    FixedUntouched t { t with sectors := t.sectors.modify id f } :=
  ⟨(fixedUntouched_refl t).1,
    fun i => modify_rel (keepsBy_refl Sector.status) t.sectors id f hf i, (fixedUntouched_refl t).2.2⟩

theorem fixed_modLink {t : Topology} (id : LinkId) (f : Link → Link)
    (hf : ∀ v, t.links.get? id = some v → KeepsFixed v.status (f v).status) :
    FixedUntouched t { t with links := t.links.modify id f } :=
  ⟨(fixedUntouched_refl t).1, (fixedUntouched_refl t).2.1,
    fun i => modify_rel (keepsBy_refl Link.status) t.links id f hf i⟩

theorem fixed_setSite {t : Topology} {id : SiteId} {s : Site} {st : StatusType}
    (hs : t.sites.get? id = some s) (ho : s.status.open? = true)
    (hst : st = .candidate ∨ st = .proposed) : FixedUntouched t (t.setSiteStatus id st).1 := by
  rcases h : t.setSiteStatus id st with ⟨t1, e⟩
  cases e with
  | some e => rw [setSiteStatus_err h]; exact fixedUntouched_refl t
  | none =>
    rw [setSiteStatus_ok h]
    refine fixed_modSite _ _ ?_
    intro v hv; rw [hs] at hv; cases hv; exact keepsFixed_open ho hst

theorem fixed_setSector {t : Topology} {id : SectorId} {s : Sector} {st : StatusType}
    (hs : t.sectors.get? id = some s) (ho : s.status.open? = true)
    (hst : st = .candidate ∨ st = .proposed) : FixedUntouched t (t.setSectorStatus id st).1 := by
  rcases h : t.setSectorStatus id st with ⟨t1, e⟩
  cases e with
  | some e => rw [setSectorStatus_err h]; exact fixedUntouched_refl t
  | none =>
    rw [setSectorStatus_ok h]
    refine fixed_modSector _ _ ?_
    intro v hv; rw [hs] at hv; cases hv; exact keepsFixed_open ho hst

theorem fixed_setLink {t : Topology} {id : LinkId} {s : Link} {st : StatusType}
    (hs : t.links.get? id = some s) (ho : s.status.open? = true)
    (hst : st = .candidate ∨ st = .proposed) : FixedUntouched t (t.setLinkStatus id st).1 := by
  rcases h : t.setLinkStatus id st with ⟨t1, e⟩
  cases e with
  | some e => rw [setLinkStatus_err h]; exact fixedUntouched_refl t
  | none =>
    rw [setLinkStatus_ok h]
    refine fixed_modLink _ _ ?_
    intro v hv; rw [hs] at hv; cases hv; exact keepsFixed_open ho hst

theorem fixed_updateSite (sol : Solution) (t : Topology) (id : SiteId) :
    FixedUntouched t (updateSite sol t id).1 := by
  unfold updateSite
  split
  · exact fixedUntouched_refl t
  rename_i s hs
  have h0 : FixedUntouched t
      (if s.status.open? then t.setSiteStatus id (decided (sol.site id)) else (t, none)).1 := by
    split
    · rename_i ho; exact fixed_setSite hs ho (decided_or _)
    · exact fixedUntouched_refl t
  generalize (if s.status.open? then t.setSiteStatus id (decided (sol.site id)) else (t, none)) = o at *
  obtain ⟨t1, e⟩ := o
  cases e with
  | some e => exact h0
  | none =>
    simp only
    split
    · exact h0
    · exact fixedUntouched_trans h0 (fixed_modSite _ _ (fun v _ => keepsFixed_refl v.status))

theorem fixed_updateSector (sol : Solution) (t : Topology) (id : SectorId) :
    FixedUntouched t (updateSector sol t id).1 := by
  unfold updateSector
  split
  · exact fixedUntouched_refl t
  rename_i s hs
  have h0 : FixedUntouched t
      (if s.status.open? then t.setSectorStatus id (decided (sol.sector id)) else (t, none)).1 := by
    split
    · rename_i ho; exact fixed_setSector hs ho (decided_or _)
    · exact fixedUntouched_refl t
  generalize (if s.status.open? then t.setSectorStatus id (decided (sol.sector id)) else (t, none)) = o at *
  obtain ⟨t1, e⟩ := o
  cases e with
  | some e => exact h0
  | none =>
    exact fixedUntouched_trans h0 (fixed_modSector _ _ (fun v _ => keepsFixed_refl v.status))

theorem fixed_updateLink (sol : Solution) (t : Topology) (id : LinkId) :
    FixedUntouched t (updateLink sol t id).1 := by
  unfold updateLink
  split
  · exact fixedUntouched_refl t
  rename_i s hs
  split
  · rename_i ho; exact fixed_setLink hs ho (decided_or _)
  · exact fixedUntouched_refl t

theorem fixed_withdrawSite (t : Topology) (id : SiteId) :
    FixedUntouched t (t.withdrawSite id).1 ∧ (t.withdrawSite id).1.sectors = t.sectors := by
  unfold withdrawSite
  split
  · exact ⟨fixedUntouched_refl t, rfl⟩
  · rename_i s hs
    split
    · rename_i ho
      refine ⟨fixed_setSite hs ho (Or.inl rfl), ?_⟩
      unfold setSiteStatus; repeat' split
      all_goals rfl
    · exact ⟨fixedUntouched_refl t, rfl⟩

theorem fixed_withdrawSector (hc : Dict SiteId Nat) (t : Topology) (id : SectorId) :
    FixedUntouched t (withdrawSector hc t id).1 := by
  unfold withdrawSector
  split
  · exact fixedUntouched_refl t
  rename_i x hx
  split
  · exact fixedUntouched_refl t
  have h0 := fixed_withdrawSite t x.site
  generalize t.withdrawSite x.site = o at *
  obtain ⟨t1, e⟩ := o
  obtain ⟨h0, hsec⟩ := h0
  cases e with
  | some e => exact h0
  | none =>
    simp only at hsec ⊢
    split
    · rename_i ho
      exact fixedUntouched_trans h0 (fixed_setSector (by rw [hsec]; exact hx) ho (Or.inl rfl))
    · exact h0

theorem fixed_withdrawLink (t : Topology) (id : LinkId) :
    FixedUntouched t (withdrawLink t id).1 := by
  unfold withdrawLink
  split
  · exact fixedUntouched_refl t
  rename_i l hl
  split
  · rename_i hc
    simp only [Bool.and_eq_true] at hc
    exact fixed_setLink hl hc.2 (Or.inl rfl)
  · exact fixedUntouched_refl t

theorem fixed_foldOut {α : Type} {f : Topology → α → Out}
    (hf : ∀ t a, FixedUntouched t (f t a).1) (l : List α) (t : Topology) :
    FixedUntouched t (foldOut f t l).1 :=
  foldOut_rel fixedUntouched_refl (fun _ _ _ => fixedUntouched_trans) hf l t

theorem fixed_andThen {t : Topology} {o : Out} {k : Topology → Out} (h : FixedUntouched t o.1)
    (hk : ∀ t, FixedUntouched t (k t).1) : FixedUntouched t (Out.andThen o k).1 := by
  obtain ⟨t1, e⟩ := o
  cases e with
  | some e => exact h
  | none => exact fixedUntouched_trans h (hk t1)

theorem fixed_applySolution (sol : Solution) (t : Topology) :
    FixedUntouched t (applySolution sol t).1 := by
  unfold applySolution
  refine fixed_andThen (fixed_foldOut (fixed_updateSite sol) _ _) fun t1 => ?_
  exact fixed_andThen (fixed_foldOut (fixed_updateSector sol) _ _) fun t2 =>
    fixed_foldOut (fixed_updateLink sol) _ _

theorem fixed_removeDisconnected {t t' : Topology} {e : Option Err}
    (h : t.removeDisconnected = some (t', e)) : FixedUntouched t t' := by
  simp only [removeDisconnected, Option.map_eq_some_iff] at h
  obtain ⟨hc, _, h⟩ := h
  have := fixed_andThen (t := t) (fixed_foldOut (fixed_withdrawSector hc) t.sectors.keys t)
    (fun t2 => fixed_foldOut fixed_withdrawLink t2.links.keys t2)
  rw [h] at this
  exact this

/-- **C11.** Whatever the solution says, and whether or not the update raises,
every EXISTING, UNAVAILABLE or UNREACHABLE site, sector and link keeps exactly
that status and no other object acquires one of them. -/
theorem C11_fixed_untouched (sol : Solution) (t t' : Topology) (e : Option Err)
    (h : updateWithSolution sol t = some (t', e)) : FixedUntouched t t' := by
  unfold updateWithSolution at h
  have h0 := fixed_applySolution sol t
  generalize applySolution sol t = o at *
  obtain ⟨t1, e1⟩ := o
  cases e1 with
  | some e1 =>
    simp only [Option.some.injEq, Prod.mk.injEq] at h
    rw [← h.1]; exact h0
  | none =>
    exact fixedUntouched_trans h0 (fixed_removeDisconnected h)

/-- The update always finishes (with or without an exception) on a topology
built through the API. -/
theorem C11_terminates (sol : Solution) (ops : List Op) :
    ∃ o, updateWithSolution sol (run {} ops) = some o := by
  have h := Inv.empty.run ops
  generalize run {} ops = t at *
  unfold updateWithSolution
  have hinv : Inv (applySolution sol t).1 := by
    have hs : ∀ (t : Topology) a, t.Inv → Topology.Inv (updateSite sol t a).1 := by
      intro t a h
      unfold updateSite
      split
      · exact h
      rename_i s _
      have h0 : Inv (if s.status.open? then t.setSiteStatus a (decided (sol.site a)) else (t, none)).1 := by
        split
        · exact h.assign (.site a (decided (sol.site a)))
        · exact h
      generalize (if s.status.open? then t.setSiteStatus a (decided (sol.site a)) else (t, none)) = o at *
      obtain ⟨t1, e⟩ := o
      cases e with
      | some e => exact h0
      | none =>
        simp only
        split
        · exact h0
        · exact h0.modSite _ _ (fun _ => rfl)
    have hx : ∀ (t : Topology) a, t.Inv → Topology.Inv (updateSector sol t a).1 := by
      intro t a h
      unfold updateSector
      split
      · exact h
      rename_i s _
      have h0 : Inv (if s.status.open? then t.setSectorStatus a (decided (sol.sector a)) else (t, none)).1 := by
        split
        · exact h.assign (.sector a (decided (sol.sector a)))
        · exact h
      generalize (if s.status.open? then t.setSectorStatus a (decided (sol.sector a)) else (t, none)) = o at *
      obtain ⟨t1, e⟩ := o
      cases e with
      | some e => exact h0
      | none => exact h0.modSector _ _ (fun _ => rfl)
    have hl : ∀ (t : Topology) a, t.Inv → Topology.Inv (updateLink sol t a).1 := by
      intro t a h
      unfold updateLink
      split
      · exact h
      split
      · exact h.assign (.link a (decided (sol.link a)))
      · exact h
    have hand : ∀ (o : Out) (k : Topology → Out), Topology.Inv o.1 → (∀ t, Topology.Inv t → Topology.Inv (k t).1) →
        Topology.Inv (Out.andThen o k).1 := by
      rintro ⟨t1, e⟩ k h hk
      cases e with
      | some e => exact h
      | none => exact hk t1 h
    unfold applySolution
    refine hand _ _ (foldOut_inv hs _ _ h) fun t1 h1 => ?_
    exact hand _ _ (foldOut_inv hx _ _ h1) fun t2 h2 => foldOut_inv hl _ _ h2
  generalize applySolution sol t = o at *
  obtain ⟨t1, e⟩ := o
  cases e with
  | some e => exact ⟨_, rfl⟩
  | none =>
    obtain ⟨r, hr, _⟩ := hops_spec hinv StatusType.active
    simp only [removeDisconnected, hr]
    exact ⟨_, rfl⟩

/-! ## C12 -/

theorem open_iff (st : StatusType) : st.open? = true ↔ st = .candidate ∨ st = .proposed := by
  cases st <;> simp [StatusType.open?, StatusType.immutable]

/-- The status an object gets from a 0/1 decision. -/
def Spec.afterDecision (st : StatusType) (d : Int) : StatusType :=
  if st = .candidate ∨ st = .proposed then (if d = 1 then .proposed else .candidate) else st

/-- The polarity a site gets. -/
def Spec.afterPolarity (odd even : Int) : PolarityType :=
  if odd = 1 then .odd else if even = 1 then .even else .unassigned

/-- `d'` is `d` with entry `k` (present) updated by `g`. -/
def EntryUpd {κ ν : Type} [DecidableEq κ] (d d' : Dict κ ν) (k : κ) (g : ν → ν) : Prop :=
  ∀ i, d'.get? i = (d.get? i).map (fun v => if i = k then g v else v)

theorem entryUpd_modify {κ ν : Type} [DecidableEq κ] (d : Dict κ ν) (k : κ) (f g : ν → ν)
    (h : ∀ v, d.get? k = some v → f v = g v) : EntryUpd d (d.modify k f) k g := by
  intro i
  rw [Dict.get?_modify]
  by_cases c : k = i
  · subst c
    cases hd : d.get? k with
    | none => simp
    | some v => simp [h v hd]
  · simp [c, Ne.symm c]

theorem entryUpd_id {κ ν : Type} [DecidableEq κ] (d : Dict κ ν) (k : κ) (g : ν → ν)
    (h : ∀ v, d.get? k = some v → g v = v) : EntryUpd d d k g := by
  intro i
  by_cases c : i = k
  · subst c
    cases hd : d.get? i with
    | none => simp
    | some v => simp [h v hd]
  · simp [c]

theorem entryUpd_comp {κ ν : Type} [DecidableEq κ] {d d1 d2 : Dict κ ν} {k : κ} {g1 g2 : ν → ν}
    (h1 : EntryUpd d d1 k g1) (h2 : EntryUpd d1 d2 k g2) : EntryUpd d d2 k (fun v => g2 (g1 v)) := by
  intro i
  rw [h2 i, h1 i]
  cases d.get? i with
  | none => rfl
  | some v => by_cases c : i = k <;> simp [c]

/-- Pointwise update over a processed list, with an idempotent update. -/
theorem entryUpd_prefix {κ ν : Type} [DecidableEq κ] {d0 d d' : Dict κ ν} {P : List κ} {k : κ}
    {g : κ → ν → ν} (hg : ∀ k v, g k (g k v) = g k v)
    (h0 : ∀ i, d.get? i = (d0.get? i).map (fun v => if i ∈ P then g i v else v))
    (h : EntryUpd d d' k (g k)) :
    ∀ i, d'.get? i = (d0.get? i).map (fun v => if i ∈ P ++ [k] then g i v else v) := by
  intro i
  rw [h i, h0 i]
  cases d0.get? i with
  | none => rfl
  | some v =>
    by_cases c1 : i = k
    · subst c1
      by_cases c2 : i ∈ P <;> simp [c2, hg]
    · by_cases c2 : i ∈ P <;> simp [c1, c2]

def updSite (sol : Solution) (i : SiteId) (s : Site) : Site :=
  { s with status := afterDecision s.status (sol.site i)
           polarity := afterPolarity (sol.odd i) (sol.even i) }

def updSector (sol : Solution) (i : SectorId) (s : Sector) : Sector :=
  { s with status := afterDecision s.status (sol.sector i), channel := sol.channel i }

def updLink (sol : Solution) (i : LinkId) (l : Link) : Link :=
  { l with status := afterDecision l.status (sol.link i) }

theorem afterDecision_idem (st : StatusType) (d : Int) :
    afterDecision (afterDecision st d) d = afterDecision st d := by
  unfold afterDecision
  by_cases h : st = .candidate ∨ st = .proposed <;> by_cases h2 : d = 1 <;> simp [h, h2]

theorem afterDecision_open {st : StatusType} (d : Int) (h : st.open? = true) :
    afterDecision st d = decided d := by
  rw [open_iff] at h; simp [afterDecision, decided, h]

theorem afterDecision_closed {st : StatusType} (d : Int) (h : st.open? = false) :
    afterDecision st d = st := by
  have : ¬ (st = .candidate ∨ st = .proposed) := by rw [← open_iff]; simp [h]
  simp [afterDecision, this]

theorem updateSite_ok {sol : Solution} {t t' : Topology} {id : SiteId}
    (h : updateSite sol t id = (t', none)) :
    t' = { t with sites := t'.sites } ∧ EntryUpd t.sites t'.sites id (updSite sol id) := by
  unfold updateSite at h
  split at h
  · simp at h
  rename_i s hs
  have key : ∀ t1, (if s.status.open? then t.setSiteStatus id (decided (sol.site id)) else (t, none))
      = (t1, none) → t1 = { t with sites := t1.sites } ∧
        EntryUpd t.sites t1.sites id (fun s => { s with status := afterDecision s.status (sol.site id) }) := by
    intro t1 h1
    split at h1
    · rename_i ho
      have e := setSiteStatus_ok h1
      subst e
      refine ⟨rfl, ?_⟩
      dsimp only
      refine entryUpd_modify t.sites _ _ _ ?_
      intro v hv; rw [hs] at hv; cases hv
      simp only [afterDecision_open _ ho]
    · rename_i ho
      simp only [Prod.mk.injEq, and_true] at h1
      subst h1
      refine ⟨rfl, entryUpd_id _ _ _ ?_⟩
      intro v hv; rw [hs] at hv; cases hv
      simp only [afterDecision_closed _ (by simpa using ho)]
  generalize (if s.status.open? then t.setSiteStatus id (decided (sol.site id)) else (t, none)) = o at *
  obtain ⟨t1, e⟩ := o
  cases e with
  | some e => simp at h
  | none =>
    obtain ⟨k1, k2⟩ := key t1 rfl
    simp only at h
    split at h
    · simp at h
    · simp only [Prod.mk.injEq, and_true] at h
      subst h
      refine ⟨by rw [k1], ?_⟩
      have := entryUpd_comp k2 (entryUpd_modify t1.sites id
        (fun s => { s with polarity := afterPolarity (sol.odd id) (sol.even id) }) _ (fun v _ => rfl))
      exact this

theorem updateSector_ok {sol : Solution} {t t' : Topology} {id : SectorId}
    (h : updateSector sol t id = (t', none)) :
    t' = { t with sectors := t'.sectors } ∧ EntryUpd t.sectors t'.sectors id (updSector sol id) := by
  unfold updateSector at h
  split at h
  · simp at h
  rename_i s hs
  have key : ∀ t1, (if s.status.open? then t.setSectorStatus id (decided (sol.sector id)) else (t, none))
      = (t1, none) → t1 = { t with sectors := t1.sectors } ∧
        EntryUpd t.sectors t1.sectors id
          (fun s => { s with status := afterDecision s.status (sol.sector id) }) := by
    intro t1 h1
    split at h1
    · rename_i ho
      have e := setSectorStatus_ok h1
      subst e
      refine ⟨rfl, ?_⟩
      dsimp only
      refine entryUpd_modify t.sectors _ _ _ ?_
      intro v hv; rw [hs] at hv; cases hv
      simp only [afterDecision_open _ ho]
    · rename_i ho
      simp only [Prod.mk.injEq, and_true] at h1
      subst h1
      refine ⟨rfl, entryUpd_id _ _ _ ?_⟩
      intro v hv; rw [hs] at hv; cases hv
      simp only [afterDecision_closed _ (by simpa using ho)]
  generalize (if s.status.open? then t.setSectorStatus id (decided (sol.sector id)) else (t, none)) = o at *
  obtain ⟨t1, e⟩ := o
  cases e with
  | some e => simp at h
  | none =>
    obtain ⟨k1, k2⟩ := key t1 rfl
    simp only [Prod.mk.injEq, and_true] at h
    subst h
    refine ⟨by rw [k1], ?_⟩
    have := entryUpd_comp k2 (entryUpd_modify t1.sectors id
      (fun s => { s with channel := sol.channel id }) (fun s => { s with channel := sol.channel id })
      (fun v _ => rfl))
    exact this

theorem updateLink_ok {sol : Solution} {t t' : Topology} {id : LinkId}
    (h : updateLink sol t id = (t', none)) :
    t' = { t with links := t'.links } ∧ EntryUpd t.links t'.links id (updLink sol id) := by
  unfold updateLink at h
  split at h
  · simp at h
  rename_i s hs
  split at h
  · rename_i ho
    have e := setLinkStatus_ok h
    subst e
    refine ⟨rfl, ?_⟩
    dsimp only
    refine entryUpd_modify t.links _ _ _ ?_
    intro v hv; rw [hs] at hv; cases hv
    simp only [updLink, afterDecision_open _ ho]
  · rename_i ho
    simp only [Prod.mk.injEq, and_true] at h
    subst h
    refine ⟨rfl, entryUpd_id _ _ _ ?_⟩
    intro v hv; rw [hs] at hv; cases hv
    simp only [updLink, afterDecision_closed _ (by simpa using ho)]

theorem foldSites_ok {sol : Solution} {t t' : Topology}
    (h : foldOut (updateSite sol) t t.sites.keys = (t', none)) :
    t' = { t with sites := t'.sites } ∧
      ∀ i, t'.sites.get? i = (t.sites.get? i).map (updSite sol i) := by
  have := foldOut_prefix (f := updateSite sol)
    (fun P t1 => t1 = { t with sites := t1.sites } ∧
      ∀ i, t1.sites.get? i = (t.sites.get? i).map (fun v => if i ∈ P then updSite sol i v else v))
    (by
      rintro P a t1 t2 ⟨h1, h2⟩ hf
      obtain ⟨k1, k2⟩ := updateSite_ok hf
      refine ⟨by rw [k1, h1], ?_⟩
      exact entryUpd_prefix (g := updSite sol)
        (fun k v => by simp [updSite, afterDecision_idem]) h2 k2)
    t.sites.keys [] t t' ⟨rfl, fun i => by simp⟩ h
  refine ⟨this.1, fun i => ?_⟩
  rw [this.2]
  cases hx : t.sites.get? i with
  | none => rfl
  | some x =>
    have hm : i ∈ t.sites.keys := (Dict.mem_keys_iff _ _).2 ⟨x, hx⟩
    simp [hm]

theorem foldSectors_ok {sol : Solution} {t t' : Topology}
    (h : foldOut (updateSector sol) t t.sectors.keys = (t', none)) :
    t' = { t with sectors := t'.sectors } ∧
      ∀ i, t'.sectors.get? i = (t.sectors.get? i).map (updSector sol i) := by
  have := foldOut_prefix (f := updateSector sol)
    (fun P t1 => t1 = { t with sectors := t1.sectors } ∧
      ∀ i, t1.sectors.get? i = (t.sectors.get? i).map (fun v => if i ∈ P then updSector sol i v else v))
    (by
      rintro P a t1 t2 ⟨h1, h2⟩ hf
      obtain ⟨k1, k2⟩ := updateSector_ok hf
      refine ⟨by rw [k1, h1], ?_⟩
      exact entryUpd_prefix (g := updSector sol)
        (fun k v => by simp [updSector, afterDecision_idem]) h2 k2)
    t.sectors.keys [] t t' ⟨rfl, fun i => by simp⟩ h
  refine ⟨this.1, fun i => ?_⟩
  rw [this.2]
  cases hx : t.sectors.get? i with
  | none => rfl
  | some x =>
    have hm : i ∈ t.sectors.keys := (Dict.mem_keys_iff _ _).2 ⟨x, hx⟩
    simp [hm]

theorem foldLinks_ok {sol : Solution} {t t' : Topology}
    (h : foldOut (updateLink sol) t t.links.keys = (t', none)) :
    t' = { t with links := t'.links } ∧
      ∀ i, t'.links.get? i = (t.links.get? i).map (updLink sol i) := by
  have := foldOut_prefix (f := updateLink sol)
    (fun P t1 => t1 = { t with links := t1.links } ∧
      ∀ i, t1.links.get? i = (t.links.get? i).map (fun v => if i ∈ P then updLink sol i v else v))
    (by
      rintro P a t1 t2 ⟨h1, h2⟩ hf
      obtain ⟨k1, k2⟩ := updateLink_ok hf
      refine ⟨by rw [k1, h1], ?_⟩
      exact entryUpd_prefix (g := updLink sol)
        (fun k v => by simp [updLink, afterDecision_idem]) h2 k2)
    t.links.keys [] t t' ⟨rfl, fun i => by simp⟩ h
  refine ⟨this.1, fun i => ?_⟩
  rw [this.2]
  cases hx : t.links.get? i with
  | none => rfl
  | some x =>
    have hm : i ∈ t.links.keys := (Dict.mem_keys_iff _ _).2 ⟨x, hx⟩
    simp [hm]

/-- **C12.** When the three update loops return, every CANDIDATE or PROPOSED
site, sector and link is PROPOSED if its decision is 1 and CANDIDATE otherwise;
the other statuses are unchanged; the polarity of each site and the channel of
each sector are those of the solution; nothing else changes. -/
theorem C12_proposed_iff_decided (sol : Solution) (t t' : Topology)
    (h : applySolution sol t = (t', none)) :
    (∀ i, t'.sites.get? i = (t.sites.get? i).map (fun s =>
      { s with status := afterDecision s.status (sol.site i)
               polarity := afterPolarity (sol.odd i) (sol.even i) })) ∧
    (∀ i, t'.sectors.get? i = (t.sectors.get? i).map (fun x =>
      { x with status := afterDecision x.status (sol.sector i), channel := sol.channel i })) ∧
    (∀ i, t'.links.get? i = (t.links.get? i).map (fun l =>
      { l with status := afterDecision l.status (sol.link i) })) ∧
    t' = { t with sites := t'.sites, sectors := t'.sectors, links := t'.links } := by
  unfold applySolution at h
  rcases h1 : foldOut (updateSite sol) t t.sites.keys with ⟨t1, e1⟩
  rw [h1] at h
  cases e1 with
  | some e => simp [Out.andThen] at h
  | none =>
  simp only [Out.andThen] at h
  rcases h2 : foldOut (updateSector sol) t1 t1.sectors.keys with ⟨t2, e2⟩
  rw [h2] at h
  cases e2 with
  | some e => simp at h
  | none =>
  simp only at h
  obtain ⟨a1, a2⟩ := foldSites_ok h1
  obtain ⟨b1, b2⟩ := foldSectors_ok h2
  obtain ⟨c1, c2⟩ := foldLinks_ok h
  refine ⟨fun i => ?_, fun i => ?_, fun i => ?_, by rw [c1, b1, a1]⟩
  · have : t'.sites = t1.sites := by rw [c1, b1]
    rw [this]; exact a2 i
  · have e1 : t'.sectors = t2.sectors := by rw [c1]
    have e2 : t1.sectors = t.sectors := by rw [a1]
    rw [e1, ← e2]; exact b2 i
  · have e1 : t2.links = t.links := by rw [b1, a1]
    rw [← e1]; exact c2 i

/-- A solution that selects `d` (with its sector), `d -> c` and `c`. -/
def demoSol : Solution where
  site i := if i = "d" ∨ i = "c" then 1 else 0
  sector _ := 1
  link i := if i = ⟨"p", "d"⟩ ∨ i = ⟨"d", "c"⟩ then 1 else 0

example : (applySolution demoSol demo).2 = none ∧
    (applySolution demoSol demo).1.sites.vals.map (fun s => (s.id, s.status)) =
      [("p", .existing), ("d", .proposed), ("c", .proposed)] ∧
    (applySolution demoSol demo).1.links.vals.map (·.status) =
      [.proposed, .candidate, .proposed] := by decide +kernel

/-- C11 on the same input: the whole call changes statuses, and the existing POP keeps its own. -/
example : (updateWithSolution demoSol demo).map (fun o => (o.2, o.1.sites.vals.map (·.status))) =
    some (none, [.existing, .proposed, .proposed]) := by decide +kernel

/-- A link selected without its end sites makes the update raise. -/
example : (applySolution { link := fun _ => 1 } demo).2 = some .topology := by decide +kernel

/-! ## C13 -/

theorem withdrawSite_ok {t t' : Topology} {id : SiteId} (h : t.withdrawSite id = (t', none)) :
    t' = { t with sites := t'.sites } ∧ EntryUpd t.sites t'.sites id
      (fun s => if s.status.open? then { s with status := .candidate } else s) := by
  unfold withdrawSite at h
  split at h
  · simp at h
  rename_i s hs
  split at h
  · rename_i ho
    have e := setSiteStatus_ok h
    subst e
    refine ⟨rfl, ?_⟩
    dsimp only
    refine entryUpd_modify t.sites _ _ _ ?_
    intro v hv; rw [hs] at hv; cases hv; simp [ho]
  · rename_i ho
    simp only [Prod.mk.injEq, and_true] at h
    subst h
    refine ⟨rfl, entryUpd_id _ _ _ ?_⟩
    intro v hv; rw [hs] at hv; cases hv; simp [ho]

theorem withdrawSector_ok {hc : Dict SiteId Nat} {t t' : Topology} {id : SectorId} {x : Sector}
    (hx : t.sectors.get? id = some x) (h : withdrawSector hc t id = (t', none)) :
    t' = { t with sites := t'.sites, sectors := t'.sectors } ∧
    EntryUpd t.sites t'.sites x.site (fun s =>
      if hc.has x.site = false ∧ s.status.open? = true then { s with status := .candidate } else s) ∧
    EntryUpd t.sectors t'.sectors id (fun y =>
      if hc.has x.site = false ∧ y.status.open? = true then { y with status := .candidate } else y) := by
  unfold withdrawSector at h
  simp only [hx] at h
  cases hh : hc.has x.site with
  | true =>
    simp only [hh, if_true, Prod.mk.injEq, and_true] at h
    subst h
    exact ⟨rfl, entryUpd_id _ _ _ (by simp), entryUpd_id _ _ _ (by simp)⟩
  | false =>
    simp only [hh, Bool.false_eq_true, if_false] at h
    rcases hw : t.withdrawSite x.site with ⟨t1, e⟩
    rw [hw] at h
    cases e with
    | some e => simp at h
    | none =>
      obtain ⟨k1, k2⟩ := withdrawSite_ok hw
      have hx1 : t1.sectors.get? id = some x := by rw [k1]; exact hx
      simp only at h
      split at h
      · rename_i ho
        have e := setSectorStatus_ok h
        subst e
        refine ⟨by rw [k1], ?_, ?_⟩
        · simpa using k2
        · have : t1.sectors = t.sectors := by rw [k1]
          rw [← this]
          dsimp only
          refine entryUpd_modify t1.sectors _ _ _ ?_
          intro v hv; rw [hx1] at hv; cases hv; simp [ho]
      · rename_i ho
        simp only [Prod.mk.injEq, and_true] at h
        subst h
        refine ⟨by rw [k1], ?_, ?_⟩
        · simpa using k2
        · have : t1.sectors = t.sectors := by rw [k1]
          rw [this]
          refine entryUpd_id _ _ _ ?_
          intro v hv; rw [hx] at hv; cases hv; simp [ho]

theorem withdrawLink_ok {t t' : Topology} {id : LinkId} (h : withdrawLink t id = (t', none)) :
    t' = { t with links := t'.links } ∧ EntryUpd t.links t'.links id (fun l =>
      if l.status = .proposed ∧ (t.siteStatus l.tx = some .candidate ∨
          t.siteStatus l.rx = some .candidate) then { l with status := .candidate } else l) := by
  unfold withdrawLink at h
  split at h
  · simp at h
  rename_i l hl
  have hcond : (l.status.active && (t.siteStatus l.tx == some .candidate ||
      t.siteStatus l.rx == some .candidate) && l.status.open?) = true ↔
      (l.status = .proposed ∧ (t.siteStatus l.tx = some .candidate ∨
          t.siteStatus l.rx = some .candidate)) := by
    simp only [Bool.and_eq_true, Bool.or_eq_true, beq_iff_eq]
    cases l.status <;> simp [StatusType.active, StatusType.open?, StatusType.immutable]
  split at h
  · rename_i ho
    rw [hcond] at ho
    have e := setLinkStatus_ok h
    subst e
    refine ⟨rfl, ?_⟩
    dsimp only
    refine entryUpd_modify t.links _ _ _ ?_
    intro v hv; rw [hl] at hv; cases hv; rw [if_pos ho]
  · rename_i ho
    rw [hcond] at ho
    simp only [Prod.mk.injEq, and_true] at h
    subst h
    refine ⟨rfl, entryUpd_id _ _ _ ?_⟩
    intro v hv; rw [hl] at hv; cases hv; rw [if_neg ho]

theorem foldWithdraw_ok {hc : Dict SiteId Nat} {t0 : Topology}
    (hid : ∀ i x, t0.sectors.get? i = some x → x.site = i.site)
    (ids : List SectorId) (hids : ∀ i ∈ ids, ∃ x, t0.sectors.get? i = some x) {t' : Topology}
    (h : foldOut (withdrawSector hc) t0 ids = (t', none)) :
    t' = { t0 with sites := t'.sites, sectors := t'.sectors } ∧
    (∀ i, t'.sites.get? i = (t0.sites.get? i).map (fun s =>
      if (∃ p ∈ ids, p.site = i) ∧ hc.has i = false ∧ s.status.open? = true then
        { s with status := .candidate } else s)) ∧
    (∀ i, t'.sectors.get? i = (t0.sectors.get? i).map (fun y =>
      if i ∈ ids ∧ hc.has i.site = false ∧ y.status.open? = true then
        { y with status := .candidate } else y)) := by
  classical
  induction ids using List.reverseRecOn generalizing t' with
  | nil =>
    simp only [foldOut, Prod.mk.injEq, and_true] at h
    subst h; exact ⟨rfl, fun i => by simp, fun i => by simp⟩
  | append_singleton ids a ih =>
    have hsplit : ∀ (l : List SectorId) (t : Topology), foldOut (withdrawSector hc) t (l ++ [a]) =
        Out.andThen (foldOut (withdrawSector hc) t l) (fun t1 => withdrawSector hc t1 a) := by
      intro l
      induction l with
      | nil =>
        intro t; simp only [List.nil_append, foldOut, Out.andThen]
        rcases withdrawSector hc t a with ⟨t1, e⟩; cases e <;> rfl
      | cons b l ihl =>
        intro t; simp only [List.cons_append, foldOut]
        rcases withdrawSector hc t b with ⟨t1, e⟩
        cases e with
        | some e => rfl
        | none => exact ihl t1
    rw [hsplit] at h
    rcases hf : foldOut (withdrawSector hc) t0 ids with ⟨t1, e⟩
    rw [hf] at h
    cases e with
    | some e => simp [Out.andThen] at h
    | none =>
      simp only [Out.andThen] at h
      obtain ⟨a1, a2, a3⟩ := ih (fun i hi => hids i (by simp [hi])) hf
      obtain ⟨x, hx⟩ := hids a (by simp)
      have hx1 := a3 a
      rw [hx, Option.map_some] at hx1
      have hsite : ∀ y : Sector, (if a ∈ ids ∧ hc.has a.site = false ∧ x.status.open? = true then
          { x with status := StatusType.candidate } else x) = y → y.site = a.site := by
        intro y hy; rw [← hid _ _ hx, ← hy]; split <;> rfl
      obtain ⟨b1, b2, b3⟩ := withdrawSector_ok hx1 h
      rw [hsite _ rfl] at b2 b3
      have g1 : ∀ s : Site, s.status.open? = true → ({ s with status := .candidate } : Site).status.open? = true :=
        fun _ _ => rfl
      refine ⟨by rw [b1, a1], fun i => ?_, fun i => ?_⟩
      · rw [b2 i, a2 i]
        cases t0.sites.get? i with
        | none => rfl
        | some s =>
          simp only [Option.map_some, List.mem_append, List.mem_singleton]
          congr 1
          by_cases c1 : i = a.site
          · subst c1
            have ex : ∃ p, (p ∈ ids ∨ p = a) ∧ p.site = a.site := ⟨a, Or.inr rfl, rfl⟩
            have co : StatusType.candidate.open? = true := rfl
            by_cases c2 : hc.has a.site = false <;> by_cases c3 : s.status.open? = true <;>
              by_cases c4 : ∃ p ∈ ids, p.site = a.site <;>
              simp only [c2, c3, c4, co, ex, and_self, and_true, and_false, if_true, if_false,
                true_and, false_and, Bool.false_eq_true, reduceCtorEq]
          · have : (∃ p, (p ∈ ids ∨ p = a) ∧ p.site = i) ↔ ∃ p ∈ ids, p.site = i := by
              constructor
              · rintro ⟨p, hp | rfl, e⟩
                · exact ⟨p, hp, e⟩
                · exact absurd e.symm c1
              · rintro ⟨p, hp, e⟩; exact ⟨p, Or.inl hp, e⟩
            simp only [this, c1, if_false]
      · rw [b3 i, a3 i]
        cases t0.sectors.get? i with
        | none => rfl
        | some y =>
          simp only [Option.map_some, List.mem_append, List.mem_singleton]
          congr 1
          by_cases c1 : i = a
          · subst c1
            have co : StatusType.candidate.open? = true := rfl
            by_cases c2 : hc.has i.site = false <;> by_cases c3 : y.status.open? = true <;>
              by_cases c4 : i ∈ ids <;>
              simp only [c2, c3, c4, co, and_self, and_true, and_false, if_true, if_false, true_and,
                false_and, Bool.false_eq_true, or_true, reduceCtorEq]
          · simp [c1]

theorem foldWithdrawLink_ok {t t' : Topology}
    (h : foldOut withdrawLink t t.links.keys = (t', none)) :
    t' = { t with links := t'.links } ∧
    ∀ i, t'.links.get? i = (t.links.get? i).map (fun l =>
      if l.status = .proposed ∧ (t.siteStatus l.tx = some .candidate ∨
          t.siteStatus l.rx = some .candidate) then { l with status := .candidate } else l) := by
  have := foldOut_prefix (f := withdrawLink)
    (fun P t1 => t1 = { t with links := t1.links } ∧
      ∀ i, t1.links.get? i = (t.links.get? i).map (fun v => if i ∈ P then
        (fun (_ : LinkId) (l : Link) => if l.status = .proposed ∧ (t.siteStatus l.tx = some .candidate ∨
          t.siteStatus l.rx = some .candidate) then { l with status := .candidate } else l) i v else v))
    (by
      rintro P a t1 t2 ⟨h1, h2⟩ hf
      obtain ⟨k1, k2⟩ := withdrawLink_ok hf
      have hss : ∀ i, t1.siteStatus i = t.siteStatus i := by intro i; rw [h1]; rfl
      simp only [hss] at k2
      refine ⟨by rw [k1, h1], ?_⟩
      refine entryUpd_prefix (g := fun (_ : LinkId) (l : Link) =>
        if l.status = .proposed ∧ (t.siteStatus l.tx = some .candidate ∨
          t.siteStatus l.rx = some .candidate) then { l with status := .candidate } else l) ?_ h2 k2
      intro k v
      by_cases c : v.status = .proposed ∧ (t.siteStatus v.tx = some .candidate ∨
          t.siteStatus v.rx = some .candidate)
      · simp only [if_pos c]; simp
      · simp only [if_neg c])
    t.links.keys [] t t' ⟨rfl, fun i => by simp⟩ h
  refine ⟨this.1, fun i => ?_⟩
  rw [this.2]
  cases hx : t.links.get? i with
  | none => rfl
  | some x =>
    have hm : i ∈ t.links.keys := (Dict.mem_keys_iff _ _).2 ⟨x, hx⟩
    simp [hm]

/-- A path of PROPOSED or EXISTING links and sites from a PROPOSED or EXISTING POP. -/
def Spec.ConnectedActive (t : Topology) (i : SiteId) : Prop :=
  ∃ n, HopPath t (fun st => st = .proposed ∨ st = .existing) i n

theorem active_eq : StatusType.active = fun st => decide (st = .proposed ∨ st = .existing) := by
  funext st; cases st <;> rfl

theorem removeDisconnected_spec {t : Topology} (h : Topology.Inv t) {t' : Topology}
    (he : t.removeDisconnected = some (t', none)) :
    t' = { t with sites := t'.sites, sectors := t'.sectors, links := t'.links } ∧
    (∀ i s, t.sites.get? i = some s → ∃ s', t'.sites.get? i = some s' ∧
      ((s.status = .proposed ∨ s.status = .candidate) → ¬ ConnectedActive t i →
        (∃ k x, t.sectors.get? k = some x ∧ x.site = i) → s' = { s with status := .candidate }) ∧
      (¬ ((s.status = .proposed ∨ s.status = .candidate) ∧ ¬ ConnectedActive t i ∧
        (∃ k x, t.sectors.get? k = some x ∧ x.site = i)) → s' = s)) ∧
    (∀ i, t'.links.get? i = (t.links.get? i).map (fun l =>
      if l.status = .proposed ∧ (t'.siteStatus l.tx = some .candidate ∨
          t'.siteStatus l.rx = some .candidate) then { l with status := .candidate } else l)) ∧
    (∀ i y, t.sectors.get? i = some y → ∃ y', t'.sectors.get? i = some y' ∧ y'.site = y.site ∧
      ((y.status = .proposed ∨ y.status = .candidate) → ¬ ConnectedActive t y.site →
        y'.status = .candidate) ∧ (ConnectedActive t y.site → y' = y)) ∧
    (∀ i, t.sectors.get? i = none → t'.sectors.get? i = none) ∧
    (∀ i, t.sites.get? i = none → t'.sites.get? i = none) := by
  classical
  obtain ⟨hc, hh, hspec⟩ := hops_spec h StatusType.active
  unfold removeDisconnected at he
  simp only [hh, Option.map_some, Option.some.injEq] at he
  rcases hf : foldOut (withdrawSector hc) t t.sectors.keys with ⟨t1, e⟩
  rw [hf] at he
  cases e with
  | some e => simp [Out.andThen] at he
  | none =>
  simp only [Out.andThen] at he
  have hid : ∀ i x, t.sectors.get? i = some x → x.site = i.site := by
    intro i x hx; rw [← h.sector_id _ _ hx]; rfl
  obtain ⟨a1, a2, a3⟩ := foldWithdraw_ok hid t.sectors.keys
    (fun i hi => (Dict.mem_keys_iff _ _).1 hi) hf
  obtain ⟨b1, b2⟩ := foldWithdrawLink_ok he
  have hs' : t'.sites = t1.sites := by rw [b1]
  have hconn : ∀ i, hc.has i = false ↔ ¬ ConnectedActive t i := by
    intro i
    rw [← Bool.not_eq_true, Dict.has_iff]
    unfold ConnectedActive
    rw [show (fun st => decide (st = StatusType.proposed ∨ st = StatusType.existing)) =
      StatusType.active from active_eq.symm]
    refine not_congr ⟨?_, ?_⟩
    · rintro ⟨n, e⟩; exact ⟨n, ((hspec i n).1 e).1⟩
    · rintro ⟨n, hn⟩
      have hex : ∃ m, HopPath t StatusType.active i m := ⟨n, hn⟩
      exact ⟨_, (hspec i (Nat.find hex)).2 ⟨Nat.find_spec hex, fun m' hm' => Nat.find_min' hex hm'⟩⟩
  have hsec : ∀ i, (∃ p ∈ t.sectors.keys, p.site = i) ↔
      (∃ k x, t.sectors.get? k = some x ∧ x.site = i) := by
    intro i
    constructor
    · rintro ⟨p, hp, e⟩
      obtain ⟨x, hx⟩ := (Dict.mem_keys_iff _ _).1 hp
      exact ⟨p, x, hx, by rw [hid _ _ hx, e]⟩
    · rintro ⟨k, x, hx, e⟩
      exact ⟨k, (Dict.mem_keys_iff _ _).2 ⟨x, hx⟩, by rw [← hid _ _ hx, e]⟩
  refine ⟨by rw [b1, a1], ?_, ?_, ?_, ?_, ?_⟩
  · intro i s hs
    have hi := a2 i
    rw [hs, Option.map_some, ← hs'] at hi
    refine ⟨_, hi, ?_, ?_⟩
    · intro c1 c2 c3
      rw [if_pos ⟨(hsec i).2 c3, (hconn i).2 c2, (open_iff _).2 c1.symm⟩]
    · intro hn
      rw [if_neg]
      rintro ⟨c1, c2, c3⟩
      exact hn ⟨((open_iff _).1 c3).symm, (hconn i).1 c2, (hsec i).1 c1⟩
  · intro i
    rw [b2]
    have e1 : t1.links = t.links := by rw [a1]
    have e2 : ∀ i, t1.siteStatus i = t'.siteStatus i := by intro i; unfold siteStatus; rw [hs']
    simp only [e1, e2]
  · intro i y hy
    have e : t'.sectors = t1.sectors := by rw [b1]
    have hi := a3 i
    rw [hy, Option.map_some, ← e] at hi
    refine ⟨_, hi, by split <;> rfl, ?_, ?_⟩
    · intro c1 c2
      rw [hid _ _ hy] at c2
      rw [if_pos ⟨(Dict.mem_keys_iff _ _).2 ⟨y, hy⟩, (hconn _).2 c2, (open_iff _).2 c1.symm⟩]
    · intro c
      rw [hid _ _ hy] at c
      rw [if_neg]
      rintro ⟨_, c2, _⟩
      exact (hconn _).1 c2 c
  · intro i hi
    have e : t'.sectors = t1.sectors := by rw [b1]
    rw [e, a3, hi]; rfl
  · intro i hi
    rw [hs', a2, hi]; rfl

/-- **C13 (kept).** A PROPOSED site that active links and sites join to an
active POP stays PROPOSED, and is still so joined after the clean-up. -/
theorem C13_connected_kept (ops : List Op) (t' : Topology)
    (he : (run {} ops).removeDisconnected = some (t', none)) (i : SiteId) (s : Site)
    (hs : (run {} ops).sites.get? i = some s) (hc : ConnectedActive (run {} ops) i) :
    t'.sites.get? i = some s ∧ ConnectedActive t' i := by
  have h := Inv.empty.run ops
  generalize run {} ops = t at *
  obtain ⟨_, k2, k3, _⟩ := removeDisconnected_spec h he
  have keep : ∀ j x, t.sites.get? j = some x → ConnectedActive t j → t'.sites.get? j = some x := by
    intro j x hx hj
    obtain ⟨x', hx', _, hk⟩ := k2 j x hx
    rw [hx', hk (fun c => c.2.1 hj)]
  refine ⟨keep i s hs hc, ?_⟩
  obtain ⟨n, hn⟩ := hc
  clear hs
  refine ⟨n, ?_⟩
  induction hn with
  | pop h1 h2 h3 => exact .pop (keep _ _ h1 ⟨0, .pop h1 h2 h3⟩) h2 h3
  | @hop a b n l y hp hl hf hy hy' ih =>
    have hb := HopPath.hop hp hl hf hy hy'
    refine .hop ih (l := l) ?_ hf (keep _ _ hy ⟨_, hb⟩) hy'
    rw [k3, hl, Option.map_some, if_neg]
    rintro ⟨_, hcand⟩
    have e := h.link_id _ _ hl
    have ea : l.tx = a := (congrArg LinkId.tx e).symm
    have eb : l.rx = b := (congrArg LinkId.rx e).symm
    rw [ea, eb] at hcand
    rcases hcand with hcand | hcand
    · have hact : ∃ x, t'.sites.get? a = some x ∧ (x.status = .proposed ∨ x.status = .existing) := by
        cases ih with
        | pop h1 _ h3 => exact ⟨_, h1, by simpa using h3⟩
        | hop _ _ _ h4 h5 => exact ⟨_, h4, by simpa using h5⟩
      obtain ⟨x, hx, hx'⟩ := hact
      simp only [siteStatus, hx, Option.map_some, Option.some.injEq] at hcand
      rw [hcand] at hx'; simp at hx'
    · have := keep _ _ hy ⟨_, hb⟩
      simp only [siteStatus, this, Option.map_some, Option.some.injEq] at hcand
      rw [hcand] at hy'; simp at hy'

/-- **C13 (links).** After the clean-up no link is PROPOSED at a CANDIDATE end. -/
theorem C13_no_link_at_withdrawn_site (ops : List Op) (t' : Topology)
    (he : (run {} ops).removeDisconnected = some (t', none)) (i : LinkId) (l : Link)
    (hl : t'.links.get? i = some l) (hp : l.status = .proposed) :
    ∀ s, (t'.sites.get? l.tx = some s ∨ t'.sites.get? l.rx = some s) → s.status ≠ .candidate := by
  have h := Inv.empty.run ops
  generalize run {} ops = t at *
  obtain ⟨_, _, k3, _⟩ := removeDisconnected_spec h he
  rw [k3] at hl
  cases hx : t.links.get? i with
  | none => simp [hx] at hl
  | some x =>
    simp only [hx, Option.map_some, Option.some.injEq] at hl
    intro s hs hcand
    split at hl
    · rw [← hl] at hp; simp at hp
    · rename_i hn
      subst hl
      refine hn ⟨hp, ?_⟩
      rcases hs with hs | hs
      · left; simp [siteStatus, hs, hcand]
      · right; simp [siteStatus, hs, hcand]

/-- **C13 (withdrawn), `_partial`.** Full statement (false of the code): after the
clean-up no PROPOSED site is unconnected to a POP. Proved: this holds of every
site that carries a sector; moreover the connection exists in the final state. -/
theorem C13_withdrawn_partial (ops : List Op) (t' : Topology)
    (he : (run {} ops).removeDisconnected = some (t', none)) (i : SiteId) (s' : Site)
    (hs' : t'.sites.get? i = some s') (hp : s'.status = .proposed)
    (hsec : ∃ k x, t'.sectors.get? k = some x ∧ x.site = i) :
    ConnectedActive t' i := by
  have h := Inv.empty.run ops
  have hk := C13_connected_kept ops t' he i
  generalize run {} ops = t at *
  obtain ⟨k1, k2, _, k4, k5, k6⟩ := removeDisconnected_spec h he
  cases hx : t.sites.get? i with
  | none => rw [k6 i hx] at hs'; simp at hs'
  | some s =>
    obtain ⟨s'', h1, h2, h3⟩ := k2 i s hx
    rw [hs'] at h1; cases h1
    by_contra hcon
    by_cases hc : ConnectedActive t i
    · exact hcon (hk s hx hc).2
    · have hsec' : ∃ k x, t.sectors.get? k = some x ∧ x.site = i := by
        obtain ⟨k, x, hkx, hxs⟩ := hsec
        cases hy : t.sectors.get? k with
        | none => rw [k5 k hy] at hkx; simp at hkx
        | some y =>
          obtain ⟨y', hy', e, _⟩ := k4 k y hy
          rw [hkx] at hy'; cases hy'
          exact ⟨k, y, hy, by rw [← e, hxs]⟩
      by_cases c : s.status = .proposed ∨ s.status = .candidate
      · rw [h2 c hc hsec'] at hp; simp at hp
      · rw [h3 (fun hh => c hh.1)] at hp
        exact c (Or.inl hp)

/-- **C13 (sectors).** After the clean-up every PROPOSED sector sits on a site
connected to a POP. -/
theorem C13_sectors_withdrawn (ops : List Op) (t' : Topology)
    (he : (run {} ops).removeDisconnected = some (t', none)) (k : SectorId) (x : Sector)
    (hx : t'.sectors.get? k = some x) (hp : x.status = .proposed) :
    ConnectedActive t' x.site := by
  have h := Inv.empty.run ops
  have hf := fixed_removeDisconnected he
  have hk := C13_connected_kept ops t' he x.site
  generalize run {} ops = t at *
  obtain ⟨_, _, _, k4, k5, _⟩ := removeDisconnected_spec h he
  cases hy : t.sectors.get? k with
  | none => rw [k5 k hy] at hx; simp at hx
  | some y =>
    obtain ⟨y', hy', e, hd⟩ := k4 k y hy
    rw [hx] at hy'; cases hy'
    rw [e] at hk ⊢
    have hsite : ∃ s, t.sites.get? y.site = some s := h.sector_site _ _ hy
    obtain ⟨s, hs⟩ := hsite
    by_cases hc : ConnectedActive t y.site
    · exact (hk s hs hc).2
    · exfalso
      have hst : y.status = .proposed ∨ y.status = .candidate := by
        have := hf.2.1 k
        rw [hy, hx] at this
        cases this with
        | some r =>
          obtain ⟨r1, r2, r3⟩ := r
          rw [hp] at r1 r2 r3
          revert r1 r2 r3
          cases y.status <;> simp
      rw [hd.1 hst hc] at hp; simp at hp

/-- A disconnected PROPOSED site with a sector is withdrawn together with its
links (the demo solution without the `p -> d` link). -/
example :
    let t := (applySolution { demoSol with link := fun i => if i = ⟨"d", "c"⟩ then 1 else 0 } demo).1
    (t.removeDisconnected).map (fun o => (o.2, o.1.siteStatus "d", o.1.links.vals.map (·.status))) =
      some (none, some .candidate, [.candidate, .candidate, .candidate]) := by decide +kernel

/-- **C13 violation.** In the same state the CN `c`, which carries no sector,
is left PROPOSED although nothing connects it to a POP. -/
theorem C13_no_sector_violation :
    ∃ ops t', (run {} ops).removeDisconnected = some (t', none) ∧
      t'.siteStatus "c" = some .proposed ∧ ¬ ConnectedActive t' "c" := by
  let ops : List Op := [.addSite { id := "c", siteType := .cn, status := .proposed } false]
  refine ⟨ops, run {} ops, by decide +kernel, by decide +kernel, ?_⟩
  rintro ⟨n, hn⟩
  have hsite : ∀ (i : SiteId) x, (run {} ops).sites.get? i = some x → x.siteType = .cn := by
    intro i x hx
    have : (run {} ops).sites = [("c", { id := "c", siteType := .cn, status := .proposed })] := by
      decide +kernel
    rw [this] at hx
    simp only [Dict.get?_cons, Dict.get?_nil] at hx
    split at hx
    · cases hx; rfl
    · simp at hx
  have hlink : (run {} ops).links = [] := by decide +kernel
  cases hn with
  | pop h1 h2 _ => rw [hsite _ _ h1] at h2; simp at h2
  | hop _ hl _ _ _ => rw [hlink] at hl; simp at hl

end Verif
