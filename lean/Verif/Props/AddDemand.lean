import Verif.Props.Demand
import Verif.Props.Colocate

/-! # The whole demand step (C79) -/

namespace Verif
namespace Topology

open Spec

/-! ## Each stage only touches the demand sites -/

/-- Every demand site carries `q`. -/
def AllDemand (t : Topology) (q : ℚ) : Prop :=
  ∀ id d, t.demandSites.get? id = some d → d.demand = some q

theorem addGridPoint_sites (t : Topology) (hash : DemandHash) (demand lon lat : ℚ) :
    (t.addGridPoint hash demand lon lat).1.sites = t.sites ∧
    (∀ id ∈ t.demandSites.keys, id ∈ (t.addGridPoint hash demand lon lat).1.demandSites.keys) ∧
    (t.demandSites.NodupKeys → (t.addGridPoint hash demand lon lat).1.demandSites.NodupKeys) ∧
    (t.AllDemand demand → (t.addGridPoint hash demand lon lat).1.AllDemand demand) := by
  unfold addGridPoint
  split
  · unfold addDemandSite
    refine ⟨rfl, ?_, fun h => h.set _ _, ?_⟩
    · intro id h
      rw [Dict.mem_keys_iff] at h ⊢
      obtain ⟨v, hv⟩ := h
      dsimp only
      rw [Dict.get?_set]
      split
      · exact ⟨_, rfl⟩
      · exact ⟨v, hv⟩
    · intro h id d hd
      dsimp only at hd
      rw [Dict.get?_set] at hd
      split at hd
      · cases hd; rfl
      · exact h id d hd
  · exact ⟨rfl, fun _ h => h, fun h => h, fun h => h⟩

theorem latLoop_sites {hash : DemandHash} {demand : ℚ} {g : Grid} {lon : ℚ} :
    ∀ (fuel : Nat) (t : Topology) (lat : ℚ) (o : Out), latLoop hash demand g lon fuel t lat = some o →
    o.1.sites = t.sites ∧ (∀ id ∈ t.demandSites.keys, id ∈ o.1.demandSites.keys) ∧
    (t.demandSites.NodupKeys → o.1.demandSites.NodupKeys) ∧
    (t.AllDemand demand → o.1.AllDemand demand) := by
  intro fuel
  induction fuel with
  | zero => intro t lat o h; unfold latLoop at h; cases h
  | succ n ih =>
    intro t lat o h
    unfold latLoop at h
    by_cases c : lat ≤ g.top
    · rw [if_pos c] at h
      have := addGridPoint_sites t hash demand lon lat
      generalize t.addGridPoint hash demand lon lat = o1 at *
      obtain ⟨t1, e⟩ := o1
      cases e with
      | some e => cases h; exact this
      | none =>
        obtain ⟨h1, h2, h3, h4⟩ := ih t1 _ o h
        exact ⟨h1.trans this.1, fun id hi => h2 id (this.2.1 id hi), fun hd => h3 (this.2.2.1 hd),
          fun hd => h4 (this.2.2.2 hd)⟩
    · rw [if_neg c] at h
      cases h
      exact ⟨rfl, fun _ h => h, fun h => h, fun h => h⟩

theorem lonLoop_sites {hash : DemandHash} {demand : ℚ} {g : Grid} {rounds : Nat} :
    ∀ (fuel : Nat) (t : Topology) (x : ℚ) (o : Out), lonLoop hash demand g rounds fuel t x = some o →
    o.1.sites = t.sites ∧ (∀ id ∈ t.demandSites.keys, id ∈ o.1.demandSites.keys) ∧
    (t.demandSites.NodupKeys → o.1.demandSites.NodupKeys) ∧
    (t.AllDemand demand → o.1.AllDemand demand) := by
  intro fuel
  induction fuel with
  | zero => intro t x o h; unfold lonLoop at h; cases h
  | succ n ih =>
    intro t x o h
    unfold lonLoop at h
    by_cases c : g.more x = true
    · rw [if_pos c] at h
      generalize ho : latLoop hash demand g x rounds t g.bottom = o1 at h
      cases o1 with
      | none => cases h
      | some o1 =>
        have := latLoop_sites rounds t g.bottom o1 ho
        obtain ⟨t1, e⟩ := o1
        cases e with
        | some e => cases h; exact this
        | none =>
          obtain ⟨h1, h2, h3, h4⟩ := ih t1 _ o h
          exact ⟨h1.trans this.1, fun id hi => h2 id (this.2.1 id hi), fun hd => h3 (this.2.2.1 hd),
          fun hd => h4 (this.2.2.2 hd)⟩
    · rw [if_neg c] at h
      cases h
      exact ⟨rfl, fun _ h => h, fun h => h, fun h => h⟩

theorem addUniform_sites {t : Topology} {hash : DemandHash} {demand dx dy : ℚ} {fuel : Nat} {o : Out}
    (h : t.addUniform hash demand dx dy fuel = some o) :
    o.1.sites = t.sites ∧ (∀ id ∈ t.demandSites.keys, id ∈ o.1.demandSites.keys) ∧
    (t.demandSites.NodupKeys → o.1.demandSites.NodupKeys) ∧
    (t.AllDemand demand → o.1.AllDemand demand) := by
  unfold addUniform at h
  split at h
  · cases h
    exact ⟨rfl, fun _ h => h, fun h => h, fun h => h⟩
  · exact lonLoop_sites fuel t _ o h

theorem sitesNear_congr {t t' : Topology} (h : t'.sites = t.sites) (dist : Dist) (r : ℚ) (d : DemandSite) :
    t'.sitesNear dist r d = t.sitesNear dist r d := by
  unfold sitesNear
  rw [h]

/-- What connecting to near sites leaves of a demand site. -/
def nearResult (t : Topology) (dist : Dist) (r : ℚ) (manual : List DemandId) (id : DemandId)
    (d : DemandSite) : Option DemandSite :=
  if t.sitesNear dist r d = [] ∧ id ∉ manual then none
  else some { d with connected := t.sitesNear dist r d }

theorem connectNear_get (dist : Dist) (r : ℚ) (manual : List DemandId) (t : Topology) (k id : DemandId) :
    (connectNear dist r manual t k).demandSites.get? id =
      if k = id then (t.demandSites.get? id).bind (nearResult t dist r manual id)
      else t.demandSites.get? id := by
  unfold connectNear
  by_cases c : k = id
  · subst c
    rw [if_pos rfl]
    cases h : t.demandSites.get? k with
    | none => exact h
    | some d =>
      dsimp only
      unfold nearResult
      rw [Option.bind_some]
      by_cases c : t.sitesNear dist r d = [] ∧ k ∉ manual
      · rw [if_pos c, if_pos c]
        dsimp only
        rw [Dict.get?_del, if_pos rfl]
      · rw [if_neg c, if_neg c]
        dsimp only
        rw [Dict.get?_modify, if_pos rfl, h]
        rfl
  · rw [if_neg c]
    cases h : t.demandSites.get? k with
    | none => rfl
    | some d =>
      dsimp only
      split
      · dsimp only
        rw [Dict.get?_del, if_neg c]
      · dsimp only
        rw [Dict.get?_modify, if_neg c]

theorem connectNear_sites (dist : Dist) (r : ℚ) (manual : List DemandId) (t : Topology) (k : DemandId) :
    (connectNear dist r manual t k).sites = t.sites := by
  unfold connectNear
  split
  · rfl
  · split <;> rfl

theorem near_fold (dist : Dist) (r : ℚ) (manual : List DemandId) : ∀ (ks : List DemandId) (t : Topology),
    ks.Nodup → (ks.foldl (connectNear dist r manual) t).sites = t.sites ∧
    ∀ id, (ks.foldl (connectNear dist r manual) t).demandSites.get? id =
      if id ∈ ks then (t.demandSites.get? id).bind (nearResult t dist r manual id)
      else t.demandSites.get? id := by
  intro ks
  induction ks with
  | nil => intro t _; simp
  | cons k ks ih =>
    intro t hnd
    rw [List.nodup_cons] at hnd
    rw [List.foldl_cons]
    obtain ⟨h1, h2⟩ := ih (connectNear dist r manual t k) hnd.2
    have hs := connectNear_sites dist r manual t k
    refine ⟨h1.trans hs, ?_⟩
    intro id
    rw [h2 id, connectNear_get]
    have hcong : nearResult (connectNear dist r manual t k) dist r manual id =
        nearResult t dist r manual id := by
      funext d
      unfold nearResult
      rw [sitesNear_congr hs]
    rw [hcong]
    by_cases c : k = id
    · subst c
      rw [if_neg hnd.1, if_pos rfl, if_pos List.mem_cons_self]
    · rw [if_neg c]
      by_cases e : id ∈ ks
      · rw [if_pos e, if_pos (List.mem_cons_of_mem _ e)]
      · rw [if_neg e, if_neg (by rw [List.mem_cons, not_or]; exact ⟨fun x => c x.symm, e⟩)]

/-! ## Demand at CNs -/

/-- State of the loop over the CNs after visiting `L`. -/
structure CnDone (hash : DemandHash) (q : ℚ) (t0 : Topology) (L : List Site)
    (st : Topology × Dict (ℚ × ℚ) DemandId) : Prop where
  sites : st.1.sites = t0.sites
  other : ∀ id, (∀ c ∈ L, id ≠ hash c.lon c.lat) → st.1.demandSites.get? id = t0.demandSites.get? id
  seen : ∀ a b v, st.2.get? (a, b) = some v → v = hash a b ∧ ∃ c ∈ L, c.lon = a ∧ c.lat = b
  unseen : ∀ a b, st.2.get? (a, b) = none → ∀ c ∈ L, ¬ (c.lon = a ∧ c.lat = b)
  at_ : ∀ c ∈ L, ∃ d, (d.demand = some q ∧ ∃ c' ∈ L, d.numSites = c'.subscribers ∧ c'.lon = c.lon ∧ c'.lat = c.lat) ∧
    st.1.demandSites.get? (hash c.lon c.lat) = some d ∧ d.lon = c.lon ∧ d.lat = c.lat ∧
    ∀ s, s ∈ d.connected ↔ ∃ c' ∈ L, c'.id = s ∧ c'.lon = c.lon ∧ c'.lat = c.lat

theorem cnStep_done {hash : DemandHash} (inj : HashInj hash) {demand : ℚ} {t0 : Topology} {L : List Site}
    {st : Topology × Dict (ℚ × ℚ) DemandId} (h : CnDone hash demand t0 L st) (c : Site) :
    CnDone hash demand t0 (L ++ [c]) (cnStep hash demand st c) := by
  unfold cnStep
  cases hg : st.2.get? (c.lon, c.lat) with
  | none =>
    dsimp only
    have hun := h.unseen _ _ hg
    have hget : ∀ id, (st.1.addDemandSite (cnDemand hash demand c)).1.demandSites.get? id =
        if hash c.lon c.lat = id then some (cnDemand hash demand c) else st.1.demandSites.get? id := by
      intro id
      unfold addDemandSite
      dsimp only
      rw [Dict.get?_set]
      rfl
    refine ⟨h.sites, ?_, ?_, ?_, ?_⟩
    · intro id hid
      dsimp only
      rw [hget, if_neg (fun e => hid c (by simp) e.symm)]
      exact h.other id (fun x hx => hid x (by simp [hx]))
    · intro a b v hv
      dsimp only at hv
      rw [Dict.get?_set] at hv
      by_cases e : (c.lon, c.lat) = (a, b)
      · rw [if_pos e] at hv
        cases e
        cases hv
        exact ⟨rfl, c, by simp, rfl, rfl⟩
      · rw [if_neg e] at hv
        obtain ⟨h1, x, hx, h2⟩ := h.seen a b v hv
        exact ⟨h1, x, by simp [hx], h2⟩
    · intro a b hn x hx
      dsimp only at hn
      rw [Dict.get?_set] at hn
      by_cases e : (c.lon, c.lat) = (a, b)
      · rw [if_pos e] at hn; cases hn
      · rw [if_neg e] at hn
        rw [List.mem_append, List.mem_singleton] at hx
        rcases hx with hx | rfl
        · exact h.unseen a b hn x hx
        · rintro ⟨rfl, rfl⟩
          exact e rfl
    · intro x hx
      rw [List.mem_append, List.mem_singleton] at hx
      dsimp only
      by_cases e : c.lon = x.lon ∧ c.lat = x.lat
      · have hxc : x = c := by
          rcases hx with hx | hx
          · exact absurd ⟨e.1.symm, e.2.symm⟩ (hun x hx)
          · exact hx
        subst hxc
        refine ⟨cnDemand hash demand x, ⟨rfl, x, by simp, rfl, rfl, rfl⟩, by rw [hget, if_pos rfl], rfl, rfl, ?_⟩
        intro s
        show s ∈ [x.id] ↔ _
        rw [List.mem_singleton]
        constructor
        · intro hs
          exact ⟨x, by simp, hs.symm, rfl, rfl⟩
        · rintro ⟨y, hy, h1, h2⟩
          rw [List.mem_append, List.mem_singleton] at hy
          rcases hy with hy | rfl
          · exact absurd h2 (hun y hy)
          · exact h1.symm
      · rcases hx with hx | rfl
        · obtain ⟨d, hq, hd, h1, h2, h3⟩ := h.at_ x hx
          obtain ⟨hq, z, hz, hn⟩ := hq
          refine ⟨d, ⟨hq, z, by simp [hz], hn⟩, ?_, h1, h2, ?_⟩
          · rw [hget, if_neg (fun q => e (inj _ _ _ _ q))]
            exact hd
          · intro s
            rw [h3]
            constructor
            · rintro ⟨y, hy, q⟩
              exact ⟨y, by simp [hy], q⟩
            · rintro ⟨y, hy, q⟩
              rw [List.mem_append, List.mem_singleton] at hy
              rcases hy with hy | rfl
              · exact ⟨y, hy, q⟩
              · exact absurd q.2 e
        · exact absurd ⟨rfl, rfl⟩ e
  | some v =>
    obtain ⟨hv, x0, hx0, hx1, hx2⟩ := h.seen _ _ _ hg
    subst hv
    dsimp only
    have hget : ∀ id, (st.1.demandSites.modify (hash c.lon c.lat)
        (fun d => { d with connected := d.connected ++ [c.id] })).get? id =
        if hash c.lon c.lat = id then (st.1.demandSites.get? id).map
          (fun d => { d with connected := d.connected ++ [c.id] }) else st.1.demandSites.get? id := by
      intro id
      rw [Dict.get?_modify]
    refine ⟨h.sites, ?_, ?_, ?_, ?_⟩
    · intro id hid
      dsimp only
      rw [hget, if_neg (fun e => hid c (by simp) e.symm)]
      exact h.other id (fun x hx => hid x (by simp [hx]))
    · intro a b w hw
      obtain ⟨h1, x, hx, h2⟩ := h.seen a b w hw
      exact ⟨h1, x, by simp [hx], h2⟩
    · intro a b hn x hx
      rw [List.mem_append, List.mem_singleton] at hx
      rcases hx with hx | rfl
      · exact h.unseen a b hn x hx
      · rintro ⟨rfl, rfl⟩
        rw [hg] at hn
        cases hn
    · intro x hx
      dsimp only
      have hx' : ∃ y ∈ L, y.lon = x.lon ∧ y.lat = x.lat := by
        rw [List.mem_append, List.mem_singleton] at hx
        rcases hx with hx | rfl
        · exact ⟨x, hx, rfl, rfl⟩
        · exact ⟨x0, hx0, hx1, hx2⟩
      obtain ⟨y, hy, y1, y2⟩ := hx'
      obtain ⟨d, hq, hd, h1, h2, h3⟩ := h.at_ y hy
      simp only [y1, y2] at hq hd h1 h2 h3
      obtain ⟨hq, z, hz, hn⟩ := hq
      have hq : d.demand = some demand ∧ ∃ c' ∈ L ++ [c], d.numSites = c'.subscribers ∧ c'.lon = x.lon ∧ c'.lat = x.lat :=
        ⟨hq, z, by simp [hz], hn⟩
      by_cases e : hash c.lon c.lat = hash x.lon x.lat
      · obtain ⟨e1, e2⟩ := inj _ _ _ _ e
        refine ⟨{ d with connected := d.connected ++ [c.id] }, hq, ?_, h1, h2, ?_⟩
        · rw [hget, if_pos e, hd]; rfl
        · intro s
          show s ∈ d.connected ++ [c.id] ↔ _
          rw [List.mem_append, List.mem_singleton, h3]
          constructor
          · rintro (⟨z, hz, q⟩ | q)
            · exact ⟨z, by simp [hz], q⟩
            · exact ⟨c, by simp, q.symm, e1, e2⟩
          · rintro ⟨z, hz, q⟩
            rw [List.mem_append, List.mem_singleton] at hz
            rcases hz with hz | rfl
            · exact Or.inl ⟨z, hz, q⟩
            · exact Or.inr q.1.symm
      · refine ⟨d, hq, ?_, h1, h2, ?_⟩
        · rw [hget, if_neg e]; exact hd
        · intro s
          rw [h3]
          constructor
          · rintro ⟨z, hz, q⟩
            exact ⟨z, by simp [hz], q⟩
          · rintro ⟨z, hz, q⟩
            rw [List.mem_append, List.mem_singleton] at hz
            rcases hz with hz | rfl
            · exact ⟨z, hz, q⟩
            · exact absurd (by rw [q.2.1, q.2.2]) e

theorem cn_fold {hash : DemandHash} (inj : HashInj hash) {demand : ℚ} {t0 : Topology} :
    ∀ (M L : List Site) (st : Topology × Dict (ℚ × ℚ) DemandId), CnDone hash demand t0 L st →
    CnDone hash demand t0 (L ++ M) (M.foldl (cnStep hash demand) st) := by
  intro M
  induction M with
  | nil => intro L st h; rw [List.append_nil]; exact h
  | cons c M ih =>
    intro L st h
    rw [List.foldl_cons]
    have := ih (L ++ [c]) _ (cnStep_done inj (demand := demand) h c)
    rw [List.append_assoc] at this
    exact this

theorem addCnDemand_done {hash : DemandHash} (inj : HashInj hash) (demand : ℚ) (t : Topology) :
    ∃ m, CnDone hash demand t (t.sites.vals.filter (fun s => s.siteType == .cn)) (t.addCnDemand hash demand, m) := by
  have := cn_fold inj (demand := demand) (t0 := t) (t.sites.vals.filter (fun s => s.siteType == .cn)) [] (t, [])
    ⟨rfl, fun _ _ => rfl, (fun a b v h => by cases h), (fun _ _ _ c hc => by cases hc), (fun c hc => by cases hc)⟩
  rw [List.nil_append] at this
  exact ⟨_, this⟩

/-! ## The whole step -/

theorem wired_congr {t t' : Topology} (h : t'.sites = t.sites) : WiredTo t' = WiredTo t := by
  funext a b
  unfold WiredTo
  rw [h]

/-- What there is before connecting co-located sites. -/
structure Before (t t' : Topology) (hash : DemandHash) (dist : Dist) (p : DemandParams) : Prop where
  sites : t'.sites = t.sites
  all : t'.AllDemand p.demand
  kept : p.manual = true → ∀ id ∈ t.demandSites.keys, id ∈ t'.demandSites.keys
  linked : ∀ id d, t'.demandSites.get? id = some d →
    (p.manual = true ∧ id ∈ t.demandSites.keys) ∨ d.connected ≠ []
  cns : p.cn = true → ∀ i c, t.sites.get? i = some c → c.siteType = .cn →
    ∃ d, t'.demandSites.get? (hash c.lon c.lat) = some d ∧ d.lon = c.lon ∧ d.lat = c.lat ∧
      (∃ k c', t.sites.get? k = some c' ∧ c'.siteType = .cn ∧ c'.lon = c.lon ∧ c'.lat = c.lat ∧
        d.numSites = c'.subscribers) ∧ i ∈ d.connected
  near : ∀ id d, t'.demandSites.get? id = some d →
    (p.cn = true → ∀ i c, t.sites.get? i = some c → c.siteType = .cn → hash c.lon c.lat ≠ id) →
    ∀ s, s ∈ d.connected ↔ ∃ x, t.sites.get? s = some x ∧ dist x.lon x.lat d.lon d.lat ≤ p.radius

theorem resetDemand_keys (t : Topology) (p : DemandParams) :
    (t.resetDemand p).demandSites.keys = if p.manual then t.demandSites.keys else [] := by
  unfold resetDemand
  dsimp only
  split
  · unfold Dict.keys
    rw [List.map_map]
    rfl
  · rfl

theorem resetDemand_all (t : Topology) (p : DemandParams) : (t.resetDemand p).AllDemand p.demand := by
  intro id d h
  have h := Dict.mem_of_get? _ h
  unfold resetDemand at h
  dsimp only at h
  split at h
  · obtain ⟨e, _, he⟩ := List.mem_map.1 h
    cases he
    rfl
  · cases h

theorem mem_sitesNear {t : Topology} (nd : t.sites.NodupKeys) (dist : Dist) (r : ℚ) (d : DemandSite)
    (s : SiteId) : s ∈ t.sitesNear dist r d ↔
      ∃ x, t.sites.get? s = some x ∧ dist x.lon x.lat d.lon d.lat ≤ r := by
  unfold sitesNear
  rw [List.mem_map]
  constructor
  · rintro ⟨⟨k, x⟩, h, rfl⟩
    rw [List.mem_filter] at h
    exact ⟨x, (Dict.mem_iff_get? nd _ _).1 h.1, of_decide_eq_true h.2⟩
  · rintro ⟨x, hx, hd⟩
    exact ⟨(s, x), List.mem_filter.2 ⟨Dict.mem_of_get? _ hx, decide_eq_true hd⟩, rfl⟩

theorem finish_before {t t1 : Topology} {hash : DemandHash} (inj : HashInj hash) (dist : Dist)
    (p : DemandParams) (inv : t.Inv)
    (hs : t1.sites = t.sites) (hk : ∀ id ∈ (t.resetDemand p).demandSites.keys, id ∈ t1.demandSites.keys)
    (hn : t1.demandSites.NodupKeys) (ha : t1.AllDemand p.demand) :
    ∃ t2, Before t t2 hash dist p ∧
      t1.finishDemand hash dist p (t.resetDemand p).demandSites.keys =
        (t2.connectColocated, if t2.connectColocated.demandSites = [] then some .optimizer else none) := by
  let manual := (t.resetDemand p).demandSites.keys
  let tn := t1.demandSites.keys.foldl (connectNear dist p.radius manual) t1
  obtain ⟨f1, f2⟩ := near_fold dist p.radius manual t1.demandSites.keys t1 hn
  have f2' : ∀ id, tn.demandSites.get? id = (t1.demandSites.get? id).bind (nearResult t1 dist p.radius manual id) := by
    intro id
    rw [f2 id]
    by_cases c : id ∈ t1.demandSites.keys
    · rw [if_pos c]
    · rw [if_neg c]
      cases h : t1.demandSites.get? id with
      | none => rfl
      | some d => exact absurd ((Dict.mem_keys_iff _ _).2 ⟨d, h⟩) c
  have f1 : tn.sites = t.sites := f1.trans hs
  have hmk : ∀ id, id ∈ manual ↔ p.manual = true ∧ id ∈ t.demandSites.keys := by
    intro id
    show id ∈ (t.resetDemand p).demandSites.keys ↔ _
    rw [resetDemand_keys]
    split
    · simp_all
    · simp_all
  have nb : ∀ id d, tn.demandSites.get? id = some d → d.demand = some p.demand ∧
      d.connected = t1.sitesNear dist p.radius d ∧ (d.connected ≠ [] ∨ id ∈ manual) := by
    intro id d h
    rw [f2' id] at h
    cases h1 : t1.demandSites.get? id with
    | none => rw [h1] at h; cases h
    | some d0 =>
      rw [h1, Option.bind_some] at h
      unfold nearResult at h
      split at h
      · cases h
      · rename_i c
        cases h
        refine ⟨ha id d0 h1, rfl, ?_⟩
        by_cases e : id ∈ manual
        · exact Or.inr e
        · exact Or.inl (fun q => c ⟨q, e⟩)
  have nk : ∀ id ∈ manual, id ∈ tn.demandSites.keys := by
    intro id hm
    obtain ⟨d, hd⟩ := (Dict.mem_keys_iff _ _).1 (hk id hm)
    rw [Dict.mem_keys_iff, f2' id, hd, Option.bind_some]
    unfold nearResult
    rw [if_neg (fun q => q.2 hm)]
    exact ⟨_, rfl⟩
  have nnear : ∀ id d, tn.demandSites.get? id = some d → ∀ s, s ∈ d.connected ↔
      ∃ x, t.sites.get? s = some x ∧ dist x.lon x.lat d.lon d.lat ≤ p.radius := by
    intro id d h s
    rw [(nb id d h).2.1, sitesNear_congr hs, mem_sitesNear inv.nd_sites]
  by_cases hc : p.cn = true
  · obtain ⟨m, done⟩ := addCnDemand_done inj p.demand tn
    have cnmem : ∀ c : Site, c ∈ tn.sites.vals.filter (fun s => s.siteType == .cn) ↔
        t.sites.get? c.id = some c ∧ c.siteType = .cn := by
      intro c
      rw [List.mem_filter, f1, beq_iff_eq]
      constructor
      · rintro ⟨h, h2⟩
        obtain ⟨e, he, rfl⟩ := List.mem_map.1 h
        have := (Dict.mem_iff_get? inv.nd_sites _ _).1 he
        have e2 := inv.site_id _ _ this
        rw [e2]
        exact ⟨this, h2⟩
      · rintro ⟨h, h2⟩
        exact ⟨List.mem_map.2 ⟨_, Dict.mem_of_get? _ h, rfl⟩, h2⟩
    have split : ∀ id d, (tn.addCnDemand hash p.demand).demandSites.get? id = some d →
        tn.demandSites.get? id = some d ∧ (∀ c ∈ tn.sites.vals.filter (fun s => s.siteType == .cn),
            id ≠ hash c.lon c.lat) ∨
        (d.demand = some p.demand ∧ ∃ c ∈ tn.sites.vals.filter (fun s => s.siteType == .cn),
          id = hash c.lon c.lat ∧ c.id ∈ d.connected) := by
      intro id d h
      by_cases c : ∀ c ∈ tn.sites.vals.filter (fun s => s.siteType == .cn), id ≠ hash c.lon c.lat
      · rw [done.other id c] at h
        exact Or.inl ⟨h, c⟩
      · push Not at c
        obtain ⟨c, hcm, rfl⟩ := c
        obtain ⟨d', hq, hd, h1, h2, h3⟩ := done.at_ c hcm
        rw [hd] at h
        cases h
        exact Or.inr ⟨hq.1, c, hcm, rfl, (h3 c.id).2 ⟨c, hcm, rfl, rfl, rfl⟩⟩
    refine ⟨tn.addCnDemand hash p.demand, ⟨done.sites.trans f1, ?_, ?_, ?_, ?_, ?_⟩, ?_⟩
    · intro id d h
      rcases split id d h with h | h
      · exact (nb id d h.1).1
      · exact h.1
    · intro hm id hid
      have := nk id ((hmk id).2 ⟨hm, hid⟩)
      rw [Dict.mem_keys_iff] at this ⊢
      by_cases c : ∀ c ∈ tn.sites.vals.filter (fun s => s.siteType == .cn), id ≠ hash c.lon c.lat
      · rw [done.other id c]
        exact this
      · push Not at c
        obtain ⟨c, hcm, rfl⟩ := c
        obtain ⟨d', hq, hd, _⟩ := done.at_ c hcm
        exact ⟨d', hd⟩
    · intro id d h
      rcases split id d h with h | ⟨_, c, _, _, h⟩
      · rcases (nb id d h.1).2.2 with e | e
        · exact Or.inr e
        · exact Or.inl ((hmk id).1 e)
      · exact Or.inr (List.ne_nil_of_mem h)
    · intro _ i c hi ht
      have e := inv.site_id _ _ hi
      have hcm := (cnmem c).2 ⟨by rw [e]; exact hi, ht⟩
      obtain ⟨d', hq, hd, h1, h2, h3⟩ := done.at_ c hcm
      obtain ⟨_, z, hz, hn⟩ := hq
      obtain ⟨z1, z2⟩ := (cnmem z).1 hz
      exact ⟨d', hd, h1, h2, ⟨_, z, z1, z2, hn.2.1, hn.2.2, hn.1⟩, (h3 i).2 ⟨c, hcm, e, rfl, rfl⟩⟩
    · intro id d h hcn
      rcases split id d h with h | ⟨_, c, hcm, e, _⟩
      · exact nnear id d h.1
      · obtain ⟨h1, h2⟩ := (cnmem c).1 hcm
        exact absurd e.symm (hcn hc _ c h1 h2)
    · unfold finishDemand
      dsimp only
      rw [if_pos hc]
      split <;> rfl
  · refine ⟨tn, ⟨f1, fun id d h => (nb id d h).1, fun hm id hid => nk id ((hmk id).2 ⟨hm, hid⟩), ?_,
      fun h => absurd h hc, fun id d h _ => nnear id d h⟩, ?_⟩
    · intro id d h
      rcases (nb id d h).2.2 with e | e
      · exact Or.inr e
      · exact Or.inl ((hmk id).1 e)
    · unfold finishDemand
      dsimp only
      rw [if_neg hc]
      split <;> rfl

theorem addDemand_before {t t' : Topology} {hash : DemandHash} (inj : HashInj hash) {dist : Dist}
    {p : DemandParams} {fuel : Nat} (inv : t.Inv) (h : t.addDemand hash dist p fuel = some (t', none)) :
    ∃ t2, Before t t2 hash dist p ∧ t' = t2.connectColocated ∧ t'.demandSites ≠ [] := by
  unfold addDemand at h
  dsimp only at h
  have hnd : (t.resetDemand p).demandSites.NodupKeys := by
    show (t.resetDemand p).demandSites.keys.Nodup
    rw [resetDemand_keys]
    split
    · exact inv.nd_demand
    · exact List.nodup_nil
  have grid : ∀ o, (if p.uniform then (t.resetDemand p).addUniform hash p.demand p.dx p.dy fuel
      else some (t.resetDemand p, none)) = some o → o.1.sites = t.sites ∧
      (∀ id ∈ (t.resetDemand p).demandSites.keys, id ∈ o.1.demandSites.keys) ∧
      o.1.demandSites.NodupKeys ∧ o.1.AllDemand p.demand := by
    intro o ho
    split at ho
    · obtain ⟨h1, h2, h3, h4⟩ := addUniform_sites ho
      exact ⟨h1, h2, h3 hnd, h4 (resetDemand_all t p)⟩
    · cases ho
      exact ⟨rfl, fun _ h => h, hnd, resetDemand_all t p⟩
  generalize (if p.uniform then (t.resetDemand p).addUniform hash p.demand p.dx p.dy fuel
      else some (t.resetDemand p, none)) = o at h grid
  cases o with
  | none => cases h
  | some o =>
    obtain ⟨g1, g2, g3, g4⟩ := grid o rfl
    obtain ⟨t1, e⟩ := o
    cases e with
    | some e => cases h
    | none =>
      obtain ⟨t2, hb, he⟩ := finish_before inj dist p inv g1 g2 g3 g4
      dsimp only at h
      rw [he] at h
      refine ⟨t2, hb, ?_⟩
      split at h
      · cases h
      · rename_i q
        cases h
        exact ⟨rfl, q⟩

theorem colocated_of_get {t : Topology} {id : DemandId} {d' : DemandSite}
    (h : t.connectColocated.demandSites.get? id = some d') :
    ∃ d, t.demandSites.get? id = some d := by
  have : id ∈ t.connectColocated.demandSites.keys := (Dict.mem_keys_iff _ _).2 ⟨_, h⟩
  have e : t.connectColocated.demandSites.keys = t.demandSites.keys := by
    unfold connectColocated connectDemand Dict.keys
    dsimp only
    rw [List.map_map]
    rfl
  rw [e] at this
  exact (Dict.mem_keys_iff _ _).1 this

/-- C79: when the step returns, there is demand, every demand site carries the
configured demand, and the sites are as before. -/
theorem C79_demand (ops : List Op) (hash : DemandHash) (inj : HashInj hash) (dist : Dist)
    (p : DemandParams) (fuel : Nat) (t' : Topology)
    (h : (run {} ops).addDemand hash dist p fuel = some (t', none)) :
    t'.sites = (run {} ops).sites ∧ t'.demandSites ≠ [] ∧
    ∀ id d, t'.demandSites.get? id = some d → d.demand = some p.demand := by
  obtain ⟨t2, b, rfl, hne⟩ := addDemand_before inj (Inv.empty.run ops) h
  refine ⟨b.sites, hne, ?_⟩
  intro id d hd
  obtain ⟨d0, h0⟩ := colocated_of_get hd
  have nd : t2.sites.NodupKeys := by rw [b.sites]; exact (Inv.empty.run ops).nd_sites
  obtain ⟨ex, h1, _⟩ := connectColocated_get nd h0
  rw [h1] at hd
  cases hd
  exact b.all id d0 h0

/-- C79: no manual demand site is dropped when manual demand is enabled, and any
other demand site is connected to some site. -/
theorem C79_kept_or_connected (ops : List Op) (hash : DemandHash) (inj : HashInj hash) (dist : Dist)
    (p : DemandParams) (fuel : Nat) (t' : Topology)
    (h : (run {} ops).addDemand hash dist p fuel = some (t', none)) :
    (p.manual = true → ∀ id ∈ (run {} ops).demandSites.keys, id ∈ t'.demandSites.keys) ∧
    ∀ id d, t'.demandSites.get? id = some d →
      (p.manual = true ∧ id ∈ (run {} ops).demandSites.keys) ∨ d.connected ≠ [] := by
  obtain ⟨t2, b, rfl, hne⟩ := addDemand_before inj (Inv.empty.run ops) h
  have nd : t2.sites.NodupKeys := by rw [b.sites]; exact (Inv.empty.run ops).nd_sites
  constructor
  · intro hm id hid
    obtain ⟨d, hd⟩ := (Dict.mem_keys_iff _ _).1 (b.kept hm id hid)
    obtain ⟨ex, h1, _⟩ := connectColocated_get nd hd
    exact (Dict.mem_keys_iff _ _).2 ⟨_, h1⟩
  · intro id d hd
    obtain ⟨d0, h0⟩ := colocated_of_get hd
    obtain ⟨ex, h1, _⟩ := connectColocated_get nd h0
    rw [h1] at hd
    cases hd
    rcases b.linked id d0 h0 with e | e
    · exact Or.inl e
    · refine Or.inr ?_
      intro q
      exact e (List.append_eq_nil_iff.1 q).1

/-- C79: with CN demand enabled, every CN has a demand site at its own position,
standing for the subscribers of a CN at that position, connected to it and to the
DNs and POPs at its spot or on its roof. -/
theorem C79_cn_served (ops : List Op) (hash : DemandHash) (inj : HashInj hash) (dist : Dist)
    (p : DemandParams) (fuel : Nat) (t' : Topology)
    (h : (run {} ops).addDemand hash dist p fuel = some (t', none)) (hcn : p.cn = true)
    (i : SiteId) (c : Site) (hi : (run {} ops).sites.get? i = some c) (hc : c.siteType = .cn) :
    ∃ d, t'.demandSites.get? (hash c.lon c.lat) = some d ∧ d.lon = c.lon ∧ d.lat = c.lat ∧
      (∃ k c', (run {} ops).sites.get? k = some c' ∧ c'.siteType = .cn ∧ c'.lon = c.lon ∧ c'.lat = c.lat ∧
        d.numSites = c'.subscribers) ∧
      i ∈ d.connected ∧ ∀ s, WiredTo (run {} ops) i s → s ∈ d.connected := by
  obtain ⟨t2, b, rfl, hne⟩ := addDemand_before inj (Inv.empty.run ops) h
  have nd : t2.sites.NodupKeys := by rw [b.sites]; exact (Inv.empty.run ops).nd_sites
  obtain ⟨d, hd, h1, h2, hnum, h3⟩ := b.cns hcn i c hi hc
  obtain ⟨ex, g1, _, g3⟩ := connectColocated_get nd hd
  refine ⟨_, g1, h1, h2, hnum, List.mem_append_left _ h3, ?_⟩
  intro s hs
  dsimp only
  rw [List.mem_append]
  by_cases q : s ∈ d.connected
  · exact Or.inl q
  · refine Or.inr ((g3 s).2 ⟨q, i, h3, ?_⟩)
    rw [wired_congr b.sites]
    exact hs

/-- C79 (full claim: every demand site is connected exactly to the sites within the
radius and to the DNs and POPs at the spot or on the roof of a connected CN).
Missing: with CN demand, demand sites at the position of a CN. -/
theorem C79_radius_partial (ops : List Op) (hash : DemandHash) (inj : HashInj hash) (dist : Dist)
    (p : DemandParams) (fuel : Nat) (t' : Topology)
    (h : (run {} ops).addDemand hash dist p fuel = some (t', none))
    (id : DemandId) (d : DemandSite) (hd : t'.demandSites.get? id = some d)
    (away : p.cn = true → ∀ i c, (run {} ops).sites.get? i = some c → c.siteType = .cn →
      hash c.lon c.lat ≠ id) (s : SiteId) :
    s ∈ d.connected ↔
      (∃ x, (run {} ops).sites.get? s = some x ∧ dist x.lon x.lat d.lon d.lat ≤ p.radius) ∨
      ∃ c x, (run {} ops).sites.get? c = some x ∧ dist x.lon x.lat d.lon d.lat ≤ p.radius ∧
        WiredTo (run {} ops) c s := by
  obtain ⟨t2, b, rfl, hne⟩ := addDemand_before inj (Inv.empty.run ops) h
  have nd : t2.sites.NodupKeys := by rw [b.sites]; exact (Inv.empty.run ops).nd_sites
  obtain ⟨d0, h0⟩ := colocated_of_get hd
  obtain ⟨ex, h1, _, h3⟩ := connectColocated_get nd h0
  rw [h1] at hd
  cases hd
  have hn := b.near id d0 h0 away
  dsimp only
  rw [List.mem_append, h3, wired_congr b.sites]
  constructor
  · rintro (q | ⟨_, c, hc, hw⟩)
    · exact Or.inl ((hn s).1 q)
    · obtain ⟨x, hx⟩ := (hn c).1 hc
      exact Or.inr ⟨c, x, hx.1, hx.2, hw⟩
  · rintro (q | ⟨c, x, hx, hr, hw⟩)
    · exact Or.inl ((hn s).2 q)
    · by_cases q : s ∈ d0.connected
      · exact Or.inl q
      · exact Or.inr ⟨q, c, (hn c).2 ⟨x, hx, hr⟩, hw⟩

/-! ## Examples -/

/-- A CN and a DN one unit apart, and a demand site of the user at the CN. -/
def overwriteDemo (hash : DemandHash) : List Op := [
  .addSite { id := "C", siteType := .cn, status := .candidate, lon := 0, lat := 0 } false,
  .addSite { id := "D", siteType := .dn, status := .candidate, lon := 0, lat := 1 } false,
  .addDemandSite { id := hash 0 0, numSites := 7 }]

/-- Distance along the two axes. -/
def gridDist : Dist := fun a b c d => |a - c| + |b - d|

theorem colocated_keeps {t : Topology} (nd : t.sites.NodupKeys)
    (hw : ∀ a b, ¬ WiredTo t a b) {id : DemandId} {d : DemandSite}
    (h : t.demandSites.get? id = some d) : t.connectColocated.demandSites.get? id = some d := by
  obtain ⟨ex, h1, _, h3⟩ := connectColocated_get nd h
  have : ex = [] := by
    rw [List.eq_nil_iff_forall_not_mem]
    intro s hs
    obtain ⟨_, c, _, hc⟩ := (h3 s).1 hs
    exact hw c s hc
  subst this
  rw [h1, List.append_nil]

theorem overwriteDemo_sites (hash : DemandHash) : (run {} (overwriteDemo hash)).sites =
    [("C", { id := "C", siteType := .cn, status := .candidate, lon := 0, lat := 0 }),
     ("D", { id := "D", siteType := .dn, status := .candidate, lon := 0, lat := 1 })] := rfl

theorem overwriteDemo_wired (hash : DemandHash) {t : Topology}
    (ht : t.sites = (run {} (overwriteDemo hash)).sites) (a b : SiteId) : ¬ WiredTo t a b := by
  have key : ∀ i x, t.sites.get? i = some x → x.siteType = .cn ∧ x.lat = 0 ∧ x.building = none ∨
      x.siteType = .dn ∧ x.lat = 1 := by
    intro i x h
    have := Dict.mem_of_get? _ h
    rw [ht, overwriteDemo_sites] at this
    rcases List.mem_cons.1 this with e | e
    · cases e; exact Or.inl ⟨rfl, rfl, rfl⟩
    · cases List.mem_singleton.1 e; exact Or.inr ⟨rfl, rfl⟩
  rintro ⟨x, y, hx, hy, h1, h2, h3⟩
  rcases key _ _ hx with ⟨_, k1, k2⟩ | ⟨k, _⟩
  · rcases key _ _ hy with ⟨k, _⟩ | ⟨_, k3⟩
    · rw [k] at h2; rcases h2 with e | e <;> cases e
    · rcases h3 with ⟨_, e, _⟩ | ⟨n, _, e, _⟩
      · rw [k1, k3] at e; norm_num at e
      · rw [k2] at e; cases e
  · rw [k] at h1; cases h1

/-- The demand site of `overwriteDemo` after connecting what is near. -/
def overwriteNear (hash : DemandHash) : DemandSite :=
  { id := hash 0 0, numSites := 7, demand := some 3, connected := ["C", "D"] }

theorem overwriteDemo_result (hash : DemandHash) (fuel : Nat) (cn : Bool) :
    ∃ t' d, (run {} (overwriteDemo hash)).addDemand hash gridDist ⟨true, false, cn, 3, 1, 1, 1⟩ fuel =
        some (t', none) ∧ t'.demandSites.get? (hash 0 0) = some d ∧ d.lon = 0 ∧ d.lat = 0 ∧
        d.connected = if cn then ["C"] else ["C", "D"] := by
  let t := run {} (overwriteDemo hash)
  let tn : Topology := { t with demandSites := [(hash 0 0, overwriteNear hash)] }
  have hn : ((t.resetDemand ⟨true, false, cn, 3, 1, 1, 1⟩).demandSites.keys.foldl
      (connectNear gridDist 1 [hash 0 0]) (t.resetDemand ⟨true, false, cn, 3, 1, 1, 1⟩)) = tn := by
    show connectNear gridDist 1 [hash 0 0] { t with demandSites :=
      [(hash 0 0, { id := hash 0 0, numSites := 7, demand := some 3, connected := [] })] } (hash 0 0) = tn
    unfold connectNear
    have e : Dict.get? [(hash 0 0, ({ id := hash 0 0, numSites := 7, demand := some 3, connected := [] } : DemandSite))]
        (hash 0 0) = some { id := hash 0 0, numSites := 7, demand := some 3, connected := [] } := by
      simp [Dict.get?]
    rw [e]
    have e2 : ∀ ds : Dict DemandId DemandSite,
        ({ t with demandSites := ds } : Topology).sitesNear gridDist 1
          { id := hash 0 0, numSites := 7, demand := some 3, connected := [] } = ["C", "D"] := by
      intro ds
      show (List.filter (fun s : SiteId × Site => decide (gridDist s.2.lon s.2.lat 0 0 ≤ 1))
        [("C", { id := "C", siteType := .cn, status := .candidate, lon := 0, lat := 0 }),
         ("D", { id := "D", siteType := .dn, status := .candidate, lon := 0, lat := 1 })]).map Prod.fst = _
      decide +kernel
    dsimp only
    rw [e2, if_neg (by simp)]
    simp only [Dict.modify, List.map_cons, List.map_nil, if_true, e2]
    rfl
  cases cn with
  | false =>
    have hw := colocated_keeps (t := tn) (Inv.empty.run (overwriteDemo hash)).nd_sites
      (overwriteDemo_wired hash rfl) (id := hash 0 0) (d := overwriteNear hash) (by simp [tn, Dict.get?])
    refine ⟨tn.connectColocated, _, ?_, hw, rfl, rfl, rfl⟩
    show some (finishDemand _ _ _ _ _) = _
    unfold finishDemand
    dsimp only
    rw [if_neg Bool.false_ne_true]
    have hn' : List.foldl (connectNear gridDist 1 (t.resetDemand ⟨true, false, false, 3, 1, 1, 1⟩).demandSites.keys)
      (t.resetDemand ⟨true, false, false, 3, 1, 1, 1⟩)
      (t.resetDemand ⟨true, false, false, 3, 1, 1, 1⟩).demandSites.keys = tn := hn
    rw [hn', if_neg (fun q => by rw [q] at hw; cases hw)]
  | true =>
    let d : DemandSite := { id := hash 0 0, numSites := 0, demand := some 3, connected := ["C"] }
    let tc : Topology := { t with demandSites := [(hash 0 0, d)] }
    have hc : tn.addCnDemand hash 3 = tc := by
      show (cnStep hash 3 (tn, []) { id := "C", siteType := .cn, status := .candidate, lon := 0, lat := 0 }).1 = _
      unfold cnStep
      show (tn.addDemandSite _).1 = _
      unfold addDemandSite
      simp only [tn, tc, d, cnDemand, Dict.set, if_true]
    have hw := colocated_keeps (t := tc) (Inv.empty.run (overwriteDemo hash)).nd_sites
      (overwriteDemo_wired hash rfl) (id := hash 0 0) (d := d) (by simp [tc, Dict.get?])
    refine ⟨tc.connectColocated, _, ?_, hw, rfl, rfl, rfl⟩
    show some (finishDemand _ _ _ _ _) = _
    unfold finishDemand
    dsimp only
    rw [if_pos rfl]
    have hn' : List.foldl (connectNear gridDist 1 (t.resetDemand ⟨true, false, true, 3, 1, 1, 1⟩).demandSites.keys)
      (t.resetDemand ⟨true, false, true, 3, 1, 1, 1⟩)
      (t.resetDemand ⟨true, false, true, 3, 1, 1, 1⟩).demandSites.keys = tn := hn
    rw [hn', hc, if_neg (fun q => by rw [q] at hw; cases hw)]

/-- C79: with manual and CN demand both enabled, a demand site of the user at the
position of a CN is replaced by the one of the CN: it loses its connection to a DN
within the radius, which it has when CN demand is disabled. -/
theorem C79_cn_overwrites_violation (hash : DemandHash) (fuel : Nat) :
    ∃ ops p, ∃ t' d x, (run {} ops).addDemand hash gridDist p fuel = some (t', none) ∧
      hash 0 0 ∈ (run {} ops).demandSites.keys ∧ p.manual = true ∧
      t'.demandSites.get? (hash 0 0) = some d ∧
      (run {} ops).sites.get? "D" = some x ∧ gridDist x.lon x.lat d.lon d.lat ≤ p.radius ∧
      "D" ∉ d.connected := by
  obtain ⟨t', d, h1, h2, h3, h4, h5⟩ := overwriteDemo_result hash fuel true
  refine ⟨_, _, t', d, _, h1, ?_, rfl, h2, rfl, ?_, ?_⟩
  · exact List.mem_singleton.2 rfl
  · rw [h3, h4]; decide +kernel
  · rw [h5]; decide

/-- The hypotheses of the theorems hold: the hash of `Props/Demand` is injective,
the step returns, and with CN demand there is a CN to serve. -/
example (fuel : Nat) : (∃ t', (run {} (overwriteDemo unaryHash)).addDemand unaryHash gridDist
      ⟨true, false, true, 3, 1, 1, 1⟩ fuel = some (t', none)) ∧
    ∃ c, (run {} (overwriteDemo unaryHash)).sites.get? "C" = some c ∧ c.siteType = .cn :=
  ⟨(overwriteDemo_result unaryHash fuel true).imp fun _ h => h.elim fun _ h => h.1, _, rfl, rfl⟩

/-- Without CN demand no demand site is at a CN in the sense of
`C79_radius_partial`. -/
example (fuel : Nat) : ∃ t' d, (run {} (overwriteDemo unaryHash)).addDemand unaryHash gridDist
      ⟨true, false, false, 3, 1, 1, 1⟩ fuel = some (t', none) ∧
    t'.demandSites.get? (unaryHash 0 0) = some d ∧ d.connected = ["C", "D"] := by
  obtain ⟨t', d, h1, h2, _, _, h5⟩ := overwriteDemo_result unaryHash fuel false
  exact ⟨t', d, h1, h2, h5⟩

end Topology
end Verif
