import Verif.Model.Status
import Verif.Props.Topology

/-! # C06, C07: status assignments -/

namespace Verif
open Topology

/-- `b` may follow `a` in the life of an object: EXISTING and UNAVAILABLE are
neither left nor entered. -/
def Spec.FixedKept (a b : StatusType) : Prop :=
  (a = .existing ↔ b = .existing) ∧ (a = .unavailable ↔ b = .unavailable)

theorem fixedKept_refl (a : StatusType) : Spec.FixedKept a a := ⟨Iff.rfl, Iff.rfl⟩

theorem fixedKept_trans {a b c : StatusType} (h : Spec.FixedKept a b) (g : Spec.FixedKept b c) :
    Spec.FixedKept a c := ⟨h.1.trans g.1, h.2.trans g.2⟩

theorem fixedKept_of_mutable {a b : StatusType} (h : statusMutable a b = true) :
    Spec.FixedKept a b := by
  cases a <;> cases b <;> simp_all [statusMutable, StatusType.immutable, Spec.FixedKept]

/-- One assignment: objects stay, keep everything but their status, and a status
change respects `FixedKept`. -/
theorem assign_step (t : Topology) (a : Assign) :
    (∀ i, Option.Rel (fun s s' : Site => s' = { s with status := s'.status } ∧
      Spec.FixedKept s.status s'.status) (t.sites.get? i) ((t.assign a).1.sites.get? i)) ∧
    (∀ i, Option.Rel (fun s s' : Sector => s' = { s with status := s'.status } ∧
      Spec.FixedKept s.status s'.status) (t.sectors.get? i) ((t.assign a).1.sectors.get? i)) ∧
    (∀ i, Option.Rel (fun s s' : Link => s' = { s with status := s'.status } ∧
      Spec.FixedKept s.status s'.status) (t.links.get? i) ((t.assign a).1.links.get? i)) ∧
    (t.assign a).1.demandSites = t.demandSites := by
  have r1 : ∀ o : Option Site, Option.Rel (fun s s' : Site => s' = { s with status := s'.status } ∧
      Spec.FixedKept s.status s'.status) o o := by
    intro o; cases o
    · exact .none
    · exact .some ⟨rfl, fixedKept_refl _⟩
  have r2 : ∀ o : Option Sector, Option.Rel (fun s s' : Sector => s' = { s with status := s'.status } ∧
      Spec.FixedKept s.status s'.status) o o := by
    intro o; cases o
    · exact .none
    · exact .some ⟨rfl, fixedKept_refl _⟩
  have r3 : ∀ o : Option Link, Option.Rel (fun s s' : Link => s' = { s with status := s'.status } ∧
      Spec.FixedKept s.status s'.status) o o := by
    intro o; cases o
    · exact .none
    · exact .some ⟨rfl, fixedKept_refl _⟩
  cases a with
  | site j st =>
    simp only [assign, setSiteStatus]
    split
    · exact ⟨fun _ => r1 _, fun _ => r2 _, fun _ => r3 _, rfl⟩
    · rename_i s hs
      split
      · rename_i hm
        refine ⟨fun i => ?_, fun _ => r2 _, fun _ => r3 _, rfl⟩
        simp only [Dict.get?_modify]
        split
        · rename_i e; subst e; rw [hs]; exact .some ⟨rfl, fixedKept_of_mutable hm⟩
        · exact r1 _
      · exact ⟨fun _ => r1 _, fun _ => r2 _, fun _ => r3 _, rfl⟩
  | sector j st =>
    simp only [assign, setSectorStatus]
    split
    · exact ⟨fun _ => r1 _, fun _ => r2 _, fun _ => r3 _, rfl⟩
    · rename_i s hs
      split
      · rename_i hm
        split
        · exact ⟨fun _ => r1 _, fun _ => r2 _, fun _ => r3 _, rfl⟩
        · split
          · refine ⟨fun _ => r1 _, fun i => ?_, fun _ => r3 _, rfl⟩
            simp only [Dict.get?_modify]
            split
            · rename_i e; subst e; rw [hs]; exact .some ⟨rfl, fixedKept_of_mutable hm⟩
            · exact r2 _
          · exact ⟨fun _ => r1 _, fun _ => r2 _, fun _ => r3 _, rfl⟩
      · exact ⟨fun _ => r1 _, fun _ => r2 _, fun _ => r3 _, rfl⟩
  | link j st =>
    simp only [assign, setLinkStatus]
    split
    · exact ⟨fun _ => r1 _, fun _ => r2 _, fun _ => r3 _, rfl⟩
    · rename_i s hs
      split
      · rename_i hm
        split
        · split
          · refine ⟨fun _ => r1 _, fun _ => r2 _, fun i => ?_, rfl⟩
            simp only [Dict.get?_modify]
            split
            · rename_i e; subst e; rw [hs]; exact .some ⟨rfl, fixedKept_of_mutable hm⟩
            · exact r3 _
          · exact ⟨fun _ => r1 _, fun _ => r2 _, fun _ => r3 _, rfl⟩
        · exact ⟨fun _ => r1 _, fun _ => r2 _, fun _ => r3 _, rfl⟩
      · exact ⟨fun _ => r1 _, fun _ => r2 _, fun _ => r3 _, rfl⟩

theorem rel_trans {α : Type} {R : α → α → Prop} (hR : ∀ a b c, R a b → R b c → R a c)
    {x y z : Option α} (h : Option.Rel R x y) (g : Option.Rel R y z) : Option.Rel R x z := by
  cases h with
  | none => cases g; exact .none
  | some h => cases g with
    | some g => exact .some (hR _ _ _ h g)

/-- **C06.** Whatever statuses are assigned to sites, sectors and links in
whatever order (raising assignments included): no object appears or disappears,
nothing but the status of an object changes, and an object is EXISTING
(UNAVAILABLE) at the end iff it was EXISTING (UNAVAILABLE) at the start. -/
theorem C06_fixed_status (t : Topology) (as : List Assign) :
    (∀ i, Option.Rel (fun s s' : Site => s' = { s with status := s'.status } ∧
      Spec.FixedKept s.status s'.status) (t.sites.get? i) ((t.assigns as).sites.get? i)) ∧
    (∀ i, Option.Rel (fun s s' : Sector => s' = { s with status := s'.status } ∧
      Spec.FixedKept s.status s'.status) (t.sectors.get? i) ((t.assigns as).sectors.get? i)) ∧
    (∀ i, Option.Rel (fun s s' : Link => s' = { s with status := s'.status } ∧
      Spec.FixedKept s.status s'.status) (t.links.get? i) ((t.assigns as).links.get? i)) ∧
    (t.assigns as).demandSites = t.demandSites := by
  induction as generalizing t with
  | nil =>
    refine ⟨fun i => ?_, fun i => ?_, fun i => ?_, rfl⟩
    · simp only [assigns, List.foldl_nil]; cases t.sites.get? i
      · exact .none
      · exact .some ⟨rfl, fixedKept_refl _⟩
    · simp only [assigns, List.foldl_nil]; cases t.sectors.get? i
      · exact .none
      · exact .some ⟨rfl, fixedKept_refl _⟩
    · simp only [assigns, List.foldl_nil]; cases t.links.get? i
      · exact .none
      · exact .some ⟨rfl, fixedKept_refl _⟩
  | cons a as ih =>
    obtain ⟨h1, h2, h3, h4⟩ := assign_step t a
    obtain ⟨g1, g2, g3, g4⟩ := ih (t.assign a).1
    refine ⟨fun i => rel_trans ?_ (h1 i) (g1 i), fun i => rel_trans ?_ (h2 i) (g2 i),
      fun i => rel_trans ?_ (h3 i) (g3 i), g4.trans h4⟩
    all_goals
      rintro x y z ⟨e1, k1⟩ ⟨e2, k2⟩
      refine ⟨?_, fixedKept_trans k1 k2⟩
      rw [e2, e1]

/-- Non-trivial instance: an accepted assignment, a rejected one on an EXISTING
site and a rejected one to UNAVAILABLE. -/
example : (demo.assign (.site "d" .proposed)).2 = none ∧
    (demo.assign (.site "p" .candidate)).2 = some .topology ∧
    (demo.assign (.site "d" .unavailable)).2 = some .topology ∧
    ((demo.assigns [.site "d" .proposed, .site "p" .candidate]).siteStatus "d",
      (demo.assigns [.site "d" .proposed, .site "p" .candidate]).siteStatus "p") =
      (some .proposed, some .existing) := by decide +kernel

/-- The compatibility rules between a link and its end sites, as in the English
of the property. -/
structure Spec.LinkRules (tx rx st : StatusType) : Prop where
  existing : st = .existing → tx = .existing ∧ rx = .existing
  unavailable : tx = .unavailable ∨ rx = .unavailable → st = .unavailable
  unreachable : tx = .unreachable ∨ rx = .unreachable → st = .unreachable
  candidate : tx = .candidate ∨ rx = .candidate → st ≠ .proposed ∧ st ≠ .existing

theorem linkCompat_iff (tx rx st : StatusType) :
    linkCompat tx rx st = true ↔ Spec.LinkRules tx rx st := by
  have : Spec.LinkRules tx rx st ↔ (st = .existing → tx = .existing ∧ rx = .existing) ∧
      (tx = .unavailable ∨ rx = .unavailable → st = .unavailable) ∧
      (tx = .unreachable ∨ rx = .unreachable → st = .unreachable) ∧
      (tx = .candidate ∨ rx = .candidate → st ≠ .proposed ∧ st ≠ .existing) :=
    ⟨fun h => ⟨h.1, h.2, h.3, h.4⟩, fun h => ⟨h.1, h.2.1, h.2.2.1, h.2.2.2⟩⟩
  rw [this]
  cases tx <;> cases rx <;> cases st <;> decide

/-- **C07 (constructor).** A link constructor call that succeeds yields a link
between the given sites whose transmitter is not a CN, whose status obeys the
rules, and with both or no sectors, each belonging to the right end. -/
theorem C07_constructor (txSite rxSite : Option Site) (txSec rxSec : Option SectorRef)
    (st : StatusType) (w : Bool) (l : Link)
    (h : mkLink txSite rxSite txSec rxSec st w = .ok l) :
    ∃ tx rx : Site, (txSite = some tx ∨ txSite = none ∧ txSec.map (·.site) = some tx) ∧
      (rxSite = some rx ∨ rxSite = none ∧ rxSec.map (·.site) = some rx) ∧
      l.tx = tx.id ∧ l.rx = rx.id ∧ l.status = st ∧ tx.siteType ≠ .cn ∧
      Spec.LinkRules tx.status rx.status l.status ∧
      (l.sectors = none ∧ txSec = none ∧ rxSec = none ∨
        ∃ a b, txSec = some a ∧ rxSec = some b ∧ l.sectors = some (a.sid, b.sid) ∧
          a.site.id = tx.id ∧ b.site.id = rx.id) := by
  unfold mkLink at h
  split at h
  swap
  · simp at h
  rename_i tx rx htx hrx
  split at h
  · simp at h
  rename_i hcn
  have h1 : txSite = some tx ∨ txSite = none ∧ txSec.map (·.site) = some tx := by
    cases txSite <;> simp_all
  have h2 : rxSite = some rx ∨ rxSite = none ∧ rxSec.map (·.site) = some rx := by
    cases rxSite <;> simp_all
  cases txSec with
  | none =>
    cases rxSec with
    | none =>
      simp only at h
      split at h
      · rename_i hc
        cases h
        exact ⟨tx, rx, h1, h2, rfl, rfl, rfl, hcn, (linkCompat_iff _ _ _).1 hc,
          Or.inl ⟨rfl, rfl, rfl⟩⟩
      · simp at h
    | some b => simp at h
  | some a =>
    cases rxSec with
    | none => simp at h
    | some b =>
      simp only at h
      split at h
      · simp at h
      split at h
      · simp at h
      rename_i ha hb
      split at h
      · rename_i hc
        cases h
        exact ⟨tx, rx, h1, h2, rfl, rfl, rfl, hcn, (linkCompat_iff _ _ _).1 hc,
          Or.inr ⟨a, b, rfl, rfl, rfl, not_not.1 ha, not_not.1 hb⟩⟩
      · simp at h

/-- **C07 (setter).** An accepted assignment gives the link the requested status,
compatible with the statuses its ends have at that moment. -/
theorem C07_setter (t t' : Topology) (id : LinkId) (st : StatusType)
    (h : t.setLinkStatus id st = (t', none)) :
    ∃ l l' a b, t.links.get? id = some l ∧ t'.links.get? id = some l' ∧ l'.status = st ∧
      t'.siteStatus l'.tx = some a ∧ t'.siteStatus l'.rx = some b ∧ Spec.LinkRules a b st := by
  unfold setLinkStatus at h
  split at h
  · simp at h
  rename_i l hl
  split at h
  swap
  · simp at h
  split at h
  swap
  · simp at h
  rename_i a b ha hb
  split at h
  swap
  · simp at h
  rename_i hc
  simp only [Prod.mk.injEq, and_true] at h
  subst h
  refine ⟨l, { l with status := st }, a, b, hl, ?_, rfl, ha, hb, (linkCompat_iff _ _ _).1 hc⟩
  simp [Dict.get?_modify, hl]

/-- **C07 (sequences).** Whatever link and sector statuses are then attempted, a
link that obeyed the rules keeps obeying them as long as no site status is
assigned. -/
theorem C07_sequences (t : Topology) (as : List Assign)
    (has : ∀ a ∈ as, ∀ i st, a ≠ .site i st)
    (id : LinkId) (l : Link) (hl : t.links.get? id = some l) (a b : StatusType)
    (ha : t.siteStatus l.tx = some a) (hb : t.siteStatus l.rx = some b)
    (hr : Spec.LinkRules a b l.status) :
    ∃ l', (t.assigns as).links.get? id = some l' ∧ l'.tx = l.tx ∧ l'.rx = l.rx ∧
      (t.assigns as).siteStatus l'.tx = some a ∧ (t.assigns as).siteStatus l'.rx = some b ∧
      Spec.LinkRules a b l'.status := by
  induction as generalizing t l with
  | nil => exact ⟨l, hl, rfl, rfl, ha, hb, hr⟩
  | cons x as ih =>
    have hx : ∀ i st, x ≠ .site i st := has x (by simp)
    have hrest : ∀ a ∈ as, ∀ i st, a ≠ .site i st := fun a h => has a (by simp [h])
    have step : ∃ l1, (t.assign x).1.links.get? id = some l1 ∧ l1.tx = l.tx ∧ l1.rx = l.rx ∧
        (∀ s, (t.assign x).1.siteStatus s = t.siteStatus s) ∧ Spec.LinkRules a b l1.status := by
      cases x with
      | site i st => exact absurd rfl (hx i st)
      | sector i st =>
        refine ⟨l, ?_, rfl, rfl, ?_, hr⟩
        · simp only [assign, setSectorStatus]
          split
          · exact hl
          · split
            · split
              · exact hl
              · split <;> exact hl
            · exact hl
        · intro s
          simp only [assign, setSectorStatus]
          split
          · rfl
          · split
            · split
              · rfl
              · split <;> rfl
            · rfl
      | link i st =>
        have hsites : ∀ s, (t.assign (.link i st)).1.siteStatus s = t.siteStatus s := by
          intro s
          simp only [assign, setLinkStatus]
          split
          · rfl
          · split
            · split
              · split <;> rfl
              · rfl
            · rfl
        rcases ho : t.assign (.link i st) with ⟨t1, e⟩
        cases e with
        | some e =>
          have hne : t1 = t := by
            simp only [assign, setLinkStatus] at ho
            split at ho
            · cases ho; rfl
            · split at ho
              · split at ho
                · split at ho
                  · simp at ho
                  · cases ho; rfl
                · cases ho; rfl
              · cases ho; rfl
          subst hne
          rw [ho] at hsites
          exact ⟨l, hl, rfl, rfl, hsites, hr⟩
        | none =>
          simp only [assign] at ho
          rw [show t.assign (.link i st) = (t1, none) from ho] at hsites
          by_cases e : i = id
          · subst e
            obtain ⟨l0, l1, a', b', h0, h1, h2, h3, h4, h5⟩ := C07_setter t t1 i st ho
            rw [hl] at h0; cases h0
            have htx : l1.tx = l.tx ∧ l1.rx = l.rx := by
              have := (assign_step t (.link i st)).2.2.1 i
              simp only [assign] at this
              rw [ho, hl, h1] at this
              cases this with
              | some h => rw [h.1]; exact ⟨rfl, rfl⟩
            simp only [hsites] at h3 h4
            rw [htx.1, ha] at h3; rw [htx.2, hb] at h4
            cases h3; cases h4
            exact ⟨l1, h1, htx.1, htx.2, hsites, h2 ▸ h5⟩
          · have hlk : t1.links.get? id = some l := by
              unfold setLinkStatus at ho
              split at ho
              · simp at ho
              · split at ho
                · split at ho
                  · split at ho
                    · simp only [Prod.mk.injEq, and_true] at ho
                      subst ho
                      simp [Dict.get?_modify, e, hl]
                    · simp at ho
                  · simp at ho
                · simp at ho
            exact ⟨l, hlk, rfl, rfl, hsites, hr⟩
    obtain ⟨l1, h1, h2, h3, h4, h5⟩ := step
    obtain ⟨l', k1, k2, k3, k4, k5, k6⟩ :=
      ih (t.assign x).1 hrest l1 h1 (by rw [h4, h2]; exact ha) (by rw [h4, h3]; exact hb) h5
    exact ⟨l', k1, k2.trans h2, k3.trans h3, k4, k5, k6⟩

/-- **C07 (no link).** No link of any status can be built between an UNAVAILABLE
and an UNREACHABLE site. -/
theorem C07_no_unavailable_unreachable (tx rx : Site) (txSec rxSec : Option SectorRef)
    (st : StatusType) (w : Bool)
    (h : tx.status = .unavailable ∧ rx.status = .unreachable ∨
      tx.status = .unreachable ∧ rx.status = .unavailable) :
    mkLink (some tx) (some rx) txSec rxSec st w = .error .topology := by
  cases hm : mkLink (some tx) (some rx) txSec rxSec st w with
  | ok l =>
    obtain ⟨tx', rx', h1, h2, _, _, _, _, hr, _⟩ := C07_constructor _ _ _ _ _ _ _ hm
    simp only [Option.some.injEq, reduceCtorEq, false_and, or_false] at h1 h2
    subst h1; subst h2
    rcases h with ⟨ha, hb⟩ | ⟨ha, hb⟩
    · have e1 := hr.unavailable (Or.inl ha)
      have e2 := hr.unreachable (Or.inr hb)
      rw [e1] at e2; cases e2
    · have e1 := hr.unavailable (Or.inr hb)
      have e2 := hr.unreachable (Or.inl ha)
      rw [e1] at e2; cases e2
  | error e =>
    unfold mkLink at hm
    congr 1
    repeat' split at hm
    all_goals first | (cases hm; rfl) | simp_all

/-- Accepted and rejected constructor calls. -/
example :
    (mkLink (some { id := "p", siteType := .pop, status := .existing })
      (some { id := "d", siteType := .dn, status := .proposed }) none none .proposed true).isOk ∧
    (mkLink (some { id := "p", siteType := .pop, status := .existing })
      (some { id := "d", siteType := .dn, status := .candidate }) none none .proposed true)
        = .error .topology ∧
    (demo.setLinkStatus ⟨"p", "d"⟩ .unreachable).2 = none := by
  decide +kernel

/-- The rule between a sector and its site, as in the English of C64. -/
def Spec.SectorRule (site sector : StatusType) : Prop :=
  ((site = .proposed ∨ site = .existing) →
    sector = .candidate ∨ sector = .proposed ∨ sector = .existing) ∧
  (¬ (site = .proposed ∨ site = .existing) → sector = site)

theorem sectorCompat_iff (site st : StatusType) :
    sectorCompat site st = true ↔ Spec.SectorRule site st := by
  unfold Spec.SectorRule
  cases site <;> cases st <;> decide

/-- **C64.** A sector status assignment is accepted exactly when neither the old
nor the new status is EXISTING or UNAVAILABLE and the new one obeys the rule
against the site's current status; it then changes that sector's status and
nothing else, and otherwise changes nothing at all. -/
theorem C64_sector_setter (t : Topology) (id : SectorId) (st : StatusType) (s : Sector)
    (ss : StatusType) (hs : t.sectors.get? id = some s) (hss : t.siteStatus s.site = some ss) :
    ((t.setSectorStatus id st).2 = none ↔
      s.status ≠ .existing ∧ s.status ≠ .unavailable ∧ st ≠ .existing ∧ st ≠ .unavailable ∧
        Spec.SectorRule ss st) ∧
    ((t.setSectorStatus id st).2 ≠ none → (t.setSectorStatus id st).1 = t) ∧
    ((t.setSectorStatus id st).2 = none →
      let t' := (t.setSectorStatus id st).1
      t'.sectors.get? id = some { s with status := st } ∧
      (∀ j, j ≠ id → t'.sectors.get? j = t.sectors.get? j) ∧
      t' = { t with sectors := t'.sectors }) := by
  have hm : statusMutable s.status st = true ↔
      s.status ≠ .existing ∧ s.status ≠ .unavailable ∧ st ≠ .existing ∧ st ≠ .unavailable := by
    cases s.status <;> cases st <;> decide
  rw [← sectorCompat_iff]
  unfold setSectorStatus
  simp only [hs, hss]
  by_cases h1 : statusMutable s.status st = true
  · have h1' := hm.1 h1
    simp only [h1, if_true]
    by_cases h2 : sectorCompat ss st = true
    · simp only [h2, if_true]
      refine ⟨by simp [h1'], by simp, fun _ => ⟨by simp [Dict.get?_modify, hs], ?_, by trivial⟩⟩
      intro j hj
      simp [Dict.get?_modify, Ne.symm hj]
    · simp [h2]
  · have : ¬ (s.status ≠ .existing ∧ s.status ≠ .unavailable ∧ st ≠ .existing ∧
        st ≠ .unavailable) := fun h => h1 (hm.2 h)
    simp only [h1]
    refine ⟨?_, by simp, by simp⟩
    simp only [Bool.false_eq_true, if_false, reduceCtorEq, false_iff]
    tauto

/-- The demo sector sits on a CANDIDATE site; PROPOSED is rejected until the site
is made PROPOSED. -/
example :
    let sec : Sector := { site := "d", node := 0, pos := 0 }
    demo.sectors.get? sec.id = some sec ∧ demo.siteStatus "d" = some .candidate ∧
    (demo.setSectorStatus sec.id .proposed).2 = some .topology ∧
    ((demo.assigns [.site "d" .proposed]).setSectorStatus sec.id .proposed).2 = none := by
  decide +kernel

end Verif
