import Verif.Model.Whole
import Verif.Props.Pipeline4
import Verif.Props.AddDemand

/-!
# The planning call as a whole (C167, C168)
-/

namespace Verif
namespace Topology

/-- What the preparation may do: sites stay as they are, links change sectors and capacity, and all is done by API
calls; if `K`, no demand site is lost. -/
structure Prepared (K : Prop) (t t' : Topology) : Prop where
  sites : ∀ i, t'.sites.get? i = t.sites.get? i
  links : ∀ i, Option.Rel (fun l l' : Link => l' = { l with sectors := l'.sectors, capacity := l'.capacity })
    (t.links.get? i) (t'.links.get? i)
  demand : K → ∀ i, (t.demandSites.get? i).isSome = true → (t'.demandSites.get? i).isSome = true
  built : ∃ ops, t' = run t ops

theorem rel_link_refl (o : Option Link) :
    Option.Rel (fun l l' : Link => l' = { l with sectors := l'.sectors, capacity := l'.capacity }) o o := by
  cases o
  · exact .none
  · exact .some rfl

theorem Prepared.refl {K : Prop} (t : Topology) : Prepared K t t := ⟨fun _ => rfl, fun _ => rel_link_refl _, fun _ _ h => h, [], rfl⟩

theorem Prepared.trans {K : Prop} {t u v : Topology} (h : Prepared K t u) (g : Prepared K u v) : Prepared K t v := by
  refine ⟨fun i => (g.sites i).trans (h.sites i), fun i => ?_, fun k i x => g.demand k i (h.demand k i x), ?_⟩
  · refine rel_trans (R := fun l l' : Link => l' = { l with sectors := l'.sectors, capacity := l'.capacity }) ?_
      (h.links i) (g.links i)
    rintro a b c e1 e2
    rw [e2, e1]
  · obtain ⟨o1, rfl⟩ := h.built
    obtain ⟨o2, rfl⟩ := g.built
    exact ⟨o1 ++ o2, by simp [run, List.foldl_append]⟩

theorem Prepared.inv {K : Prop} {t u : Topology} (h : Prepared K t u) (i : Inv t) : Inv u := by
  obtain ⟨o, rfl⟩ := h.built
  exact i.run o

theorem Prepared.same {K : Prop} {t u : Topology} (hs : u.sites = t.sites) (hl : u.links = t.links)
    (hd : K → u.demandSites = t.demandSites) (hb : ∃ ops, u = run t ops) :
    Prepared K t u :=
  ⟨fun i => by rw [hs], fun i => by rw [hl]; exact rel_link_refl _, fun k i => by rw [hd k]; exact id, hb⟩

theorem addSector_prepared {K : Prop} (t : Topology) (s : Sector) : Prepared K t (t.addSector s).1 := by
  refine Prepared.same ?_ ?_ (fun _ => ?_) ⟨[.addSector s], rfl⟩
  · unfold addSector
    repeat' split
    all_goals rfl
  · unfold addSector
    repeat' split
    all_goals rfl
  · unfold addSector
    repeat' split
    all_goals rfl

theorem foldOut_prepared {K : Prop} {α : Type} {f : Topology → α → Out} (hf : ∀ t a, Inv t → Prepared K t (f t a).1) :
    ∀ (L : List α) (t : Topology), Inv t → Prepared K t (foldOut f t L).1
  | [], t, _ => Prepared.refl t
  | a :: L, t, i => by
    have h := hf t a i
    unfold foldOut
    generalize f t a = o at h
    obtain ⟨t1, e⟩ := o
    cases e with
    | some e => exact h
    | none => exact h.trans (foldOut_prepared hf L t1 (h.inv i))

theorem createLoop_prepared {K : Prop} (mean : List ℚ → ℚ) (radio : SiteId → Radio) (want : Site → Bool)
    (best : SiteId → Except Err (List (List ℚ))) (hv : SiteId → List Sector) :
    ∀ (L : List Site) (t : Topology), Inv t → Prepared K t (createLoop mean radio want best hv t L).1
  | [], t, _ => Prepared.refl t
  | s :: L, t, i => by
    unfold createLoop
    split
    · split
      · exact Prepared.refl t
      · exact createLoop_prepared mean radio want best hv L t i
    · split
      · exact Prepared.refl t
      · rename_i angles _
        split
        · have h := foldOut_prepared (K := K) (fun t a _ => addSector_prepared t a) (newSectors s angles) t i
          generalize foldOut addSector t (newSectors s angles) = o at h
          obtain ⟨t1, e⟩ := o
          cases e with
          | some e => exact h
          | none => exact h.trans (createLoop_prepared mean radio want best hv L t1 (h.inv i))
        · exact Prepared.refl t

theorem assign_prepared {K : Prop} {t : Topology} (i : Inv t) (g : Geometry) (force : Bool) (chan : Option (Dict LinkId Int))
    (L : List LinkId) : Prepared K t (t.assignLoop g force chan L).1 := by
  have v := via_assignLoop (b := ⟨t, false, true, False⟩) g force chan L t i
  have s := Via.still_ rfl i v
  obtain ⟨ops, _, e⟩ := v
  have x := Via.extends_ ⟨ops, ‹_›, e⟩ i i (Extends.refl _ _)
  refine ⟨s.site, fun j => ?_, fun _ j hj => ?_, ops, e⟩
  swap
  · have := x.demand j
    generalize t.demandSites.get? j = y at *
    generalize (t.assignLoop g force chan L).1.demandSites.get? j = z at *
    cases this with
    | none => exact hj
    | some q => rfl
  have := s.link j
  generalize t.links.get? j = x at *
  generalize (t.assignLoop g force chan L).1.links.get? j = y at *
  cases this with
  | none => exact .none
  | some q => exact .some (by rw [q])

theorem setup_prepared {K : Prop} (E : PrepEnv) {t : Topology} (i : Inv t) : Prepared K t (t.setupNodes E).1 := by
  unfold setupNodes
  have h : Prepared K t (createDnSectors E.mean E.radio (E.bestDn t) t).1 := createLoop_prepared _ _ _ _ _ _ _ i
  generalize createDnSectors E.mean E.radio (E.bestDn t) t = o at h
  obtain ⟨t1, e⟩ := o
  cases e with
  | some e => exact h
  | none =>
    dsimp only at h ⊢
    have i1 := h.inv i
    have h2 : Prepared K t1 (createCnSectors E.mean E.radio (E.bestCn t1) t1).1 := createLoop_prepared _ _ _ _ _ _ _ i1
    generalize createCnSectors E.mean E.radio (E.bestCn t1) t1 = o at h2
    obtain ⟨t2, e⟩ := o
    cases e with
    | some e => exact h.trans h2
    | none => exact (h.trans h2).trans (assign_prepared (h2.inv i1) _ _ _ _)

theorem modify_eq_set {κ ν : Type} [DecidableEq κ] : ∀ (d : Dict κ ν) (k : κ) (f : ν → ν) (v : ν), d.NodupKeys →
    d.get? k = some v → d.modify k f = d.set k (f v)
  | [], k, f, v, _, h => by cases h
  | (k', v') :: d, k, f, v, nd, h => by
    have nd' : k' ∉ Dict.keys d ∧ Dict.NodupKeys d := by
      simpa [Dict.NodupKeys, Dict.keys] using nd
    by_cases e : k' = k
    · subst e
      have ev : v' = v := by simpa [Dict.get?] using h
      subst ev
      unfold Dict.modify Dict.set
      rw [List.map_cons, if_pos rfl, if_pos rfl]
      congr 1
      conv_rhs => rw [← List.map_id d]
      apply List.map_congr_left
      intro q hq
      rw [if_neg]
      · rfl
      · intro c
        exact nd'.1 (by rw [← c]; exact List.mem_map.2 ⟨q, hq, rfl⟩)
    · have h' : Dict.get? d k = some v := by simpa [Dict.get?, e] using h
      have ih := modify_eq_set d k f v nd'.2 h'
      unfold Dict.modify Dict.set
      rw [List.map_cons, if_neg e, if_neg e, ← ih]
      rfl

theorem capacity_prepared {K : Prop} (E : PrepEnv) (t : Topology) (id : LinkId) (i : Inv t) : Prepared K t (addCapacity E t id).1 := by
  unfold addCapacity
  split
  · exact Prepared.refl t
  · rename_i l hl
    dsimp only
    split
    · exact Prepared.refl t
    · rename_i c _
      refine ⟨fun _ => rfl, fun j => ?_, fun _ _ h => h, [.write (.link id l.isWireless c l.confidence l.isRedundant)], ?_⟩
      · dsimp only
        rw [Dict.get?_modify]
        split
        · cases t.links.get? j with
          | none => exact .none
          | some m => exact .some rfl
        · exact rel_link_refl _
      · have hh : t.links.has id = true := by
          unfold Dict.has
          rw [hl]
          rfl
        show _ = (t.write _).1
        unfold write
        dsimp only
        rw [if_pos hh, modify_eq_set _ _ _ _ i.nd_links hl, modify_eq_set _ _ _ _ i.nd_links hl]

/-! ## Demand -/

theorem run_remove : ∀ (L : List (DemandId × DemandSite)) (t : Topology), t.demandSites = L → Dict.NodupKeys L →
    run t (L.map fun e => Op.removeDemandSite e.1) = { t with demandSites := [] }
  | [], t, h, _ => by
    obtain ⟨_, _⟩ := t
    dsimp only at h
    subst h
    rfl
  | e :: L, t, h, nd => by
    have nd' : e.1 ∉ Dict.keys L ∧ Dict.NodupKeys L := by
      simpa [Dict.NodupKeys, Dict.keys] using nd
    have hs : (t.step (.removeDemandSite e.1)).1 = { t with demandSites := L } := by
      show (t.removeDemandSite e.1).1 = _
      unfold removeDemandSite
      have hh : t.demandSites.has e.1 = true := by
        rw [h]
        simp [Dict.has, Dict.get?]
      rw [if_pos hh]
      dsimp only
      congr 1
      rw [h]
      unfold Dict.del
      rw [List.filter_cons_of_neg (by simp), List.filter_eq_self]
      intro q hq
      simp only [ne_eq, decide_not, Bool.not_eq_eq_eq_not, Bool.not_true, decide_eq_false_iff_not]
      intro c
      exact nd'.1 (by rw [← c]; exact List.mem_map.2 ⟨q, hq, rfl⟩)
    rw [List.map_cons]
    show run (t.step (.removeDemandSite e.1)).1 _ = _
    rw [hs]
    exact run_remove L { t with demandSites := L } rfl nd'.2

theorem demandMap_prepared {t : Topology} (i : Inv t) (f : DemandSite → DemandSite) (hf : ∀ d, (f d).id = d.id) :
    Prepared False t { t with demandSites := t.demandSites.map (fun p => (p.1, f p.2)) } := by
  refine Prepared.same rfl rfl False.elim ⟨t.demandSites.map fun p => Op.addDemandSite (f p.2), ?_⟩
  rw [run_demand]
  congr 1
  have := fold_demand f t.demandSites [] (by rw [List.nil_append]; exact i.nd_demand) (by
    intro p hp
    have hg := (Dict.mem_iff_get? i.nd_demand p.1 p.2).1 hp
    rw [hf]
    exact i.demand_id _ _ hg)
  simpa using this.symm

theorem reset_prepared {t : Topology} (i : Inv t) (p : DemandParams) : Prepared False t (t.resetDemand p) := by
  unfold resetDemand
  split
  · exact demandMap_prepared i (fun d => { d with demand := some p.demand, connected := [] }) fun _ => rfl
  · exact Prepared.same rfl rfl False.elim ⟨_, (run_remove t.demandSites t rfl i.nd_demand).symm⟩

theorem addDemandSite_prepared (t : Topology) (d : DemandSite) : Prepared False t (t.addDemandSite d).1 :=
  Prepared.same rfl rfl False.elim ⟨[.addDemandSite d], rfl⟩

theorem gridPoint_prepared (t : Topology) (hash : DemandHash) (demand lon lat : ℚ) :
    Prepared False t (t.addGridPoint hash demand lon lat).1 := by
  unfold addGridPoint
  split
  · exact addDemandSite_prepared _ _
  · exact Prepared.refl t

theorem latLoop_prepared {hash : DemandHash} {demand : ℚ} {g : Grid} {lon : ℚ} : ∀ (fuel : Nat) (t : Topology) (lat : ℚ)
    (o : Out), latLoop hash demand g lon fuel t lat = some o → Prepared False t o.1
  | 0, t, lat, o, h => by cases h
  | fuel + 1, t, lat, o, h => by
    unfold latLoop at h
    split at h
    · have k := gridPoint_prepared t hash demand lon lat
      generalize t.addGridPoint hash demand lon lat = a at h k
      obtain ⟨t1, e⟩ := a
      cases e with
      | some e => cases h; exact k
      | none => exact k.trans (latLoop_prepared fuel t1 _ o h)
    · cases h; exact Prepared.refl t

theorem lonLoop_prepared {hash : DemandHash} {demand : ℚ} {g : Grid} {rounds : Nat} : ∀ (fuel : Nat) (t : Topology)
    (lon : ℚ) (o : Out), lonLoop hash demand g rounds fuel t lon = some o → Prepared False t o.1
  | 0, t, lon, o, h => by cases h
  | fuel + 1, t, lon, o, h => by
    unfold lonLoop at h
    split at h
    · split at h
      · cases h
      · rename_i t1 e h1
        cases h
        exact latLoop_prepared _ _ _ _ h1
      · rename_i t1 h1
        exact (latLoop_prepared _ _ _ _ h1).trans (lonLoop_prepared fuel t1 _ o h)
    · cases h; exact Prepared.refl t

theorem demandModify_prepared {t : Topology} (i : Inv t) (id : DemandId) (f : DemandSite → DemandSite)
    (hf : ∀ d, (f d).id = d.id) : Prepared False t { t with demandSites := t.demandSites.modify id f } := by
  cases h : t.demandSites.get? id with
  | none =>
    rw [Dict.modify_none _ _ _ h]
    exact Prepared.refl t
  | some d =>
    refine Prepared.same rfl rfl False.elim ⟨[.addDemandSite (f d)], ?_⟩
    rw [modify_eq_set _ _ _ _ i.nd_demand h]
    show _ = (t.addDemandSite (f d)).1
    unfold addDemandSite
    rw [hf, i.demand_id _ _ h]

theorem near_prepared (dist : Dist) (radius : ℚ) (manual : List DemandId) (t : Topology) (id : DemandId) (i : Inv t) :
    Prepared False t (connectNear dist radius manual t id) := by
  unfold connectNear
  split
  · exact Prepared.refl t
  · rename_i d hd
    split
    · refine Prepared.same rfl rfl False.elim ⟨[.removeDemandSite id], ?_⟩
      show _ = (t.removeDemandSite id).1
      unfold removeDemandSite
      have hh : t.demandSites.has id = true := by
        unfold Dict.has
        rw [hd]
        rfl
      rw [if_pos hh]
    · exact demandModify_prepared i id _ fun _ => rfl

theorem foldl_prepared {α : Type} {f : Topology → α → Topology} (hf : ∀ t a, Inv t → Prepared False t (f t a)) :
    ∀ (L : List α) (t : Topology), Inv t → Prepared False t (L.foldl f t)
  | [], t, _ => Prepared.refl t
  | a :: L, t, i => (hf t a i).trans (foldl_prepared hf L (f t a) ((hf t a i).inv i))

theorem cn_prepared (hash : DemandHash) (demand : ℚ) : ∀ (L : List Site) (st : Topology × Dict (ℚ × ℚ) DemandId),
    Inv st.1 → Prepared False st.1 (L.foldl (cnStep hash demand) st).1
  | [], st, _ => Prepared.refl _
  | c :: L, st, i => by
    have h : Prepared False st.1 (cnStep hash demand st c).1 := by
      unfold cnStep
      split
      · exact addDemandSite_prepared _ _
      · exact demandModify_prepared i _ _ fun _ => rfl
    exact h.trans (cn_prepared hash demand L _ (h.inv i))

theorem finish_prepared {t : Topology} (i : Inv t) (hash : DemandHash) (dist : Dist) (p : DemandParams)
    (manual : List DemandId) : Prepared False t (t.finishDemand hash dist p manual).1 := by
  have h1 := foldl_prepared (fun t a j => near_prepared dist p.radius manual t a j) t.demandSites.keys t i
  have i1 := h1.inv i
  have h2 : Prepared False t (if p.cn then (t.demandSites.keys.foldl (connectNear dist p.radius manual) t).addCnDemand hash p.demand
      else t.demandSites.keys.foldl (connectNear dist p.radius manual) t) := by
    split
    · exact h1.trans (cn_prepared hash p.demand _ (_, []) i1)
    · exact h1
  unfold finishDemand
  dsimp only
  generalize (if p.cn then (t.demandSites.keys.foldl (connectNear dist p.radius manual) t).addCnDemand hash p.demand
      else t.demandSites.keys.foldl (connectNear dist p.radius manual) t) = u at *
  have h3 : Prepared False t u.connectColocated := h2.trans (by
    unfold connectColocated connectDemand
    exact demandMap_prepared (h2.inv i) (fun d => { d with connected := connectLoop _ d.connected d.connected }) fun _ => rfl)
  split <;> exact h3

theorem addDemand_prepared {t : Topology} (i : Inv t) {hash : DemandHash} {dist : Dist} {p : DemandParams} {fuel : Nat}
    {o : Out} (h : t.addDemand hash dist p fuel = some o) : Prepared False t o.1 := by
  have r := reset_prepared i p
  have g : ∀ a, (if p.uniform then (t.resetDemand p).addUniform hash p.demand p.dx p.dy fuel
      else some (t.resetDemand p, none)) = some a → Prepared False t a.1 := by
    intro a ha
    split at ha
    · unfold addUniform at ha
      split at ha
      · cases ha; exact r
      · exact r.trans (lonLoop_prepared _ _ _ _ ha)
    · cases ha; exact r
  unfold addDemand at h
  dsimp only at h
  generalize (if p.uniform then (t.resetDemand p).addUniform hash p.demand p.dx p.dy fuel
      else some (t.resetDemand p, none)) = x at h g
  match x, g, h with
  | some (t1, some e), g, h => cases h; exact g _ rfl
  | some (t1, none), g, h =>
    cases h
    have := g _ rfl
    exact this.trans (finish_prepared (this.inv i) _ _ _ _)

theorem prepare_prepared {E : PrepEnv} {t : Topology} (i : Inv t) {o : Out} (h : t.prepare E = some o) :
    Prepared False t o.1 := by
  unfold prepare at h
  have h1 := setup_prepared (K := False) E i
  generalize t.setupNodes E = a at h h1
  obtain ⟨t1, e⟩ := a
  cases e with
  | some e => cases h; exact h1
  | none =>
    dsimp only at h h1
    have i1 := h1.inv i
    have h2 := foldOut_prepared (K := False) (fun t a j => capacity_prepared E t a j) t1.links.keys t1 i1
    generalize foldOut (addCapacity E) t1 t1.links.keys = a at h h2
    obtain ⟨t2, e⟩ := a
    cases e with
    | some e => cases h; exact h1.trans h2
    | none =>
      dsimp only at h h2
      exact (h1.trans h2).trans (addDemand_prepared (h2.inv i1) h)

theorem plan_cases {E : PrepEnv} {O : Outside} {p : RunParams} {t t' : Topology} {h : Option Halt} (i : Inv t)
    (r : planTopology E O p t = some (t', h)) :
    (t' = t ∧ h ≠ none ∧ h = t.preOptCheck p.extraPops E.demand.uniform E.demand.manual) ∨
    ∃ u e, t.preOptCheck p.extraPops E.demand.uniform E.demand.manual = none ∧ t.prepare E = some (u, e) ∧ Prepared False t u ∧
      ((t' = u ∧ ∃ x, e = some x ∧ h = some (.raised x)) ∨ (e = none ∧ optimize O p u = some (t', h))) := by
  unfold planTopology at r
  split at r
  · rename_i x hx
    cases r
    exact .inl ⟨rfl, by simp, hx.symm⟩
  · rename_i hx
    right
    rw [Option.bind_eq_some_iff] at r
    obtain ⟨a, ha, r⟩ := r
    rw [Option.map_eq_some_iff] at ha
    obtain ⟨⟨u, e⟩, hu, rfl⟩ := ha
    refine ⟨u, e, hx, hu, prepare_prepared i hu, ?_⟩
    cases e with
    | some e => cases r; exact .inl ⟨rfl, e, rfl, rfl⟩
    | none => exact .inr ⟨rfl, r⟩

/-- **C167**: whether it returns or raises, a planning call loses and rewrites nothing of its input: every site is still
there, with all attributes but the status, the polarity and the number of breakdowns, and every link, with all
attributes but the status, the sectors and the capacity; EXISTING and UNAVAILABLE are neither left nor entered. New are
at most POPs on DNs, if extra POPs were asked for, and links that touch them. -/
theorem C167_input_kept (ops : List Op) (E : PrepEnv) (O : Outside) (p : RunParams) (t' : Topology) (h : Option Halt)
    (r : planTopology E O p (run {} ops) = some (t', h)) :
    (∀ i s, (run {} ops).sites.get? i = some s → ∃ s', t'.sites.get? i = some s' ∧
      s' = { s with status := s'.status, polarity := s'.polarity, breakdowns := s'.breakdowns } ∧
      Spec.FixedKept s.status s'.status)
    ∧ (∀ i l, (run {} ops).links.get? i = some l → ∃ l', t'.links.get? i = some l' ∧
      l' = { l with status := l'.status, sectors := l'.sectors, capacity := l'.capacity } ∧
      Spec.FixedKept l.status l'.status)
    ∧ (∀ i n, t'.sites.get? i = some n → (run {} ops).sites.get? i = none → p.extraPops ≠ 0 ∧
      (∃ j d, (run {} ops).sites.get? j = some d ∧ Spec.PopOnDn n d) ∧ n.status ≠ .existing ∧ n.status ≠ .unavailable)
    ∧ (∀ i l, t'.links.get? i = some l → (run {} ops).links.get? i = none →
      ((run {} ops).sites.get? l.tx = none ∨ (run {} ops).sites.get? l.rx = none) ∧
        l.status ≠ .existing ∧ l.status ≠ .unavailable) := by
  have i := Inv.empty.run ops
  have key : ∃ u, Prepared False (run {} ops) u ∧ Extends (p.extraPops ≠ 0) u t' := by
    rcases plan_cases i r with ⟨rfl, _⟩ | ⟨u, e, _, _, P, ⟨rfl, _⟩ | ⟨_, ho⟩⟩
    · exact ⟨_, Prepared.refl _, Extends.refl _ _⟩
    · exact ⟨_, P, Extends.refl _ _⟩
    · exact ⟨u, P, (via_optimize (P.inv i) ho).extends_ (P.inv i) (P.inv i) (Extends.refl _ _)⟩
  obtain ⟨u, P, X⟩ := key
  refine ⟨?_, ?_, ?_, ?_⟩
  · intro k s hs
    exact X.site k s (by rw [P.sites]; exact hs)
  · intro k l hl
    have := P.links k
    rw [hl] at this
    generalize hu : u.links.get? k = x at this
    cases this with
    | some q =>
      rename_i m
      obtain ⟨l', h1, h2, h3⟩ := X.link k m hu
      refine ⟨l', h1, ?_, ?_⟩
      · rw [h2, q]
      · have : l.status = m.status := by rw [q]
        rw [this]
        exact h3
  · intro k n hn h0
    obtain ⟨a, ⟨j, d, hd, hp⟩, b⟩ := X.newSite k n hn (by rw [P.sites]; exact h0)
    exact ⟨a, ⟨j, d, by rw [← P.sites]; exact hd, hp⟩, b⟩
  · intro k l hl h0
    have hu : u.links.get? k = none := by
      have := P.links k
      rw [h0] at this
      generalize u.links.get? k = x at this
      cases this
      rfl
    have := X.newLink k l hl hu
    rw [P.sites, P.sites] at this
    exact this

/-- **C167**: the result is a topology as the API calls build them, and so is the topology handed to the planning run
when the preparation succeeds: all that is proved of runs and of topologies holds of them. -/
theorem C167_result_built (ops : List Op) (E : PrepEnv) (O : Outside) (p : RunParams) (t' : Topology) (h : Option Halt)
    (r : planTopology E O p (run {} ops) = some (t', h)) :
    (∃ ops', t' = run {} ops') ∧ (h = none → ∃ ops', (run {} ops).prepare E = some (run {} ops', none)
      ∧ optimize O p (run {} ops') = some (t', none)) := by
  have i := Inv.empty.run ops
  have app : ∀ {u : Topology}, (∃ o, u = run (run {} ops) o) → ∃ ops', u = run {} ops' := by
    rintro u ⟨o, rfl⟩
    exact ⟨ops ++ o, by simp [run, List.foldl_append]⟩
  rcases plan_cases i r with ⟨rfl, hn, _⟩ | ⟨u, e, _, hu, P, ⟨rfl, x, _, hx⟩ | ⟨rfl, ho⟩⟩
  · exact ⟨⟨ops, rfl⟩, fun c => absurd c hn⟩
  · exact ⟨app P.built, fun c => by rw [hx] at c; cases c⟩
  · obtain ⟨ops', rfl⟩ := app P.built
    exact ⟨C156_result_built ops' O p t' h ho, fun c => ⟨ops', hu, by rw [← c]; exact ho⟩⟩

/-- **C167**: in a plan every demand site asks for the configured demand; with manual demand, all demand sites of the
input are there; with demand at CNs, there is one at the place of each CN. -/
theorem C167_demand (ops : List Op) (E : PrepEnv) (inj : HashInj E.hash) (O : Outside) (p : RunParams) (t' : Topology)
    (r : planTopology E O p (run {} ops) = some (t', none)) :
    t'.demandSites.keys ≠ [] ∧ (∀ k d, t'.demandSites.get? k = some d → d.demand = some E.demand.demand)
    ∧ (E.demand.manual = true → ∀ k d, (run {} ops).demandSites.get? k = some d → t'.demandSites.get? k ≠ none)
    ∧ (E.demand.cn = true → ∀ k c, (run {} ops).sites.get? k = some c → c.siteType = .cn →
      ∃ d, t'.demandSites.get? (E.hash c.lon c.lat) = some d ∧ d.lat = c.lat ∧ d.lon = c.lon) := by
  have i := Inv.empty.run ops
  rcases plan_cases i r with ⟨_, hn, _⟩ | ⟨u, e, _, hu, P, ⟨_, x, _, hx⟩ | ⟨rfl, ho⟩⟩
  · exact absurd rfl hn
  · cases hx
  have iu := P.inv i
  have X := (via_optimize iu ho).extends_ iu iu (Extends.refl _ _)
  unfold prepare at hu
  have h1 := setup_prepared (K := True) E i
  generalize setupNodes E (run {} ops) = a at hu h1
  obtain ⟨t1, e⟩ := a
  cases e with
  | some e => cases hu
  | none =>
  dsimp only at hu h1
  have h2 := foldOut_prepared (K := True) (fun t a j => capacity_prepared E t a j) t1.links.keys t1 (h1.inv i)
  generalize foldOut (addCapacity E) t1 t1.links.keys = a at hu h2
  obtain ⟨t2, e⟩ := a
  cases e with
  | some e => cases hu
  | none =>
  dsimp only at hu h2
  have h12 := h1.trans h2
  obtain ⟨o2, e2⟩ := h12.built
  have e2 : t2 = run {} (ops ++ o2) := by rw [e2]; simp [run, List.foldl_append]
  have fin : ∀ k d, u.demandSites.get? k = some d → ∃ d', t'.demandSites.get? k = some d' ∧
      d' = { d with connected := d'.connected } := by
    intro k d hd
    have := X.demand k
    rw [show Base.toTopology _ = u from rfl, hd] at this
    generalize t'.demandSites.get? k = x at this
    cases this with
    | some q => exact ⟨_, rfl, q⟩
  have back : ∀ k d', t'.demandSites.get? k = some d' → ∃ d, u.demandSites.get? k = some d ∧
      d' = { d with connected := d'.connected } := by
    intro k d' hd
    have := X.demand k
    rw [show Base.toTopology _ = u from rfl, hd] at this
    generalize u.demandSites.get? k = x at this
    cases this with
    | some q => exact ⟨_, rfl, q⟩
  rw [e2] at hu
  obtain ⟨q1, q2, q3⟩ := C79_demand _ _ inj _ _ _ _ hu
  obtain ⟨q4, _⟩ := C79_kept_or_connected _ _ inj _ _ _ _ hu
  refine ⟨?_, ?_, ?_, ?_⟩
  · intro c
    obtain ⟨⟨k, d⟩, hd⟩ := List.exists_mem_of_ne_nil _ q2
    obtain ⟨d', hd', _⟩ := fin k d ((Dict.mem_iff_get? iu.nd_demand k d).1 hd)
    have : k ∈ t'.demandSites.keys := (Dict.mem_keys_iff _ _).2 ⟨_, hd'⟩
    rw [c] at this
    cases this
  · intro k d' hd
    obtain ⟨d, h, e⟩ := back k d' hd
    rw [e]
    exact q3 k d h
  · intro hm k d hd
    have := h12.demand trivial k (by rw [hd]; rfl)
    obtain ⟨d2, hd2⟩ := Option.isSome_iff_exists.1 this
    obtain ⟨d3, hd3⟩ := (Dict.mem_keys_iff _ _).1 (q4 hm k ((Dict.mem_keys_iff _ _).2 ⟨d2, by rw [← e2]; exact hd2⟩))
    obtain ⟨d', hd', _⟩ := fin k d3 hd3
    rw [hd']
    simp
  · intro hc k c hk hy
    obtain ⟨d, hd, h1, h2, _⟩ := C79_cn_served _ _ inj _ _ _ _ hu hc k c (by rw [← e2, h12.sites]; exact hk) hy
    obtain ⟨d', hd', e⟩ := fin _ d hd
    exact ⟨d', hd', by rw [e]; tauto, by rw [e]; tauto⟩

theorem any_pop_iff {t : Topology} (i : Inv t) (ty : SiteType) :
    t.sites.vals.any (fun s => s.siteType == ty) = true ↔ ∃ k s, t.sites.get? k = some s ∧ s.siteType = ty := by
  rw [List.any_eq_true]
  constructor
  · rintro ⟨s, hs, h⟩
    obtain ⟨k, hk⟩ := (mem_vals_iff i.nd_sites s).1 hs
    exact ⟨k, s, hk, by simpa using h⟩
  · rintro ⟨k, s, hk, h⟩
    exact ⟨s, (mem_vals_iff i.nd_sites s).2 ⟨k, hk⟩, by simpa using h⟩

/-- Neither of the two reasons for which the check before the run gives up. -/
def Later (h : Option Halt) : Prop := h ≠ some .noPop ∧ h ≠ some .noDemand

theorem later_none : Later none := ⟨by simp, by simp⟩

theorem later_raised (e : Err) : Later (some (.raised e)) := ⟨by simp, by simp⟩

theorem later_phase (o : Out) : Later (Out.phase o).2 := by
  unfold Out.phase
  cases o.2 with
  | none => exact later_none
  | some e => exact later_raised e

theorem later_update {sol : Solution} {t : Topology} {r : Phase} (h : (updateWithSolution sol t).map Out.phase = some r) :
    Later r.2 := by
  rw [Option.map_eq_some_iff] at h
  obtain ⟨o, _, rfl⟩ := h
  exact later_phase o

theorem later_cost {O : Outside} {p : OptParams} {t : Topology} {r : Phase} (h : costStep O p t = some r) : Later r.2 := by
  unfold costStep at h
  split at h
  · cases h; exact later_raised _
  · split at h
    · cases h; exact later_raised _
    · exact later_update h
    · cases h; exact ⟨by simp, by simp⟩
    · split at h <;> cases h <;> exact ⟨by simp, by simp⟩

theorem later_second {O : Outside} {p : RunParams} {t : Topology} {r : Phase} (h : secondStep O p t = some r) :
    Later r.2 := by
  unfold secondStep at h
  split at h
  · unfold coverageStep at h
    split at h
    · cases h; exact later_none
    · split at h
      · cases h; exact later_raised _
      · dsimp only at h
        split at h
        · cases h; exact later_raised _
        · split at h
          · cases h; exact later_none
          · split at h
            · cases h; exact later_none
            · split at h
              · cases h; exact later_raised _
              · cases h; exact later_none
              · exact later_update h
  · unfold redundancyStep at h
    split at h
    · cases h; exact later_none
    · dsimp only at h
      split at h
      · cases h; exact later_raised _
      · split at h
        · cases h; exact later_raised _
        · split at h
          · cases h; exact later_none
          · exact later_update h

theorem later_interf {O : Outside} {p : OptParams} {t : Topology} {r : Phase} (h : interferenceStep O p t = some r) :
    Later r.2 := by
  have y : ∀ b : Bool, Later (some (if b then Halt.interfTimedOut else .interfInfeasible)) := by
    intro b
    cases b <;> exact ⟨by simp, by simp⟩
  unfold interferenceStep at h
  split at h
  · cases h; exact later_raised _
  · dsimp only at h
    split at h
    · cases h; exact later_raised _
    · split at h
      · cases h; exact ⟨by simp, by simp⟩
      · split at h
        · cases h; exact y _
        · split at h
          · cases h; exact later_raised _
          · cases h; exact y _
          · exact later_update h

theorem later_optimize {O : Outside} {p : RunParams} {t t' : Topology} {h : Option Halt} (i : Inv t)
    (hp : p.extraPops ≠ 0 ∨ ∃ k s, t.sites.get? k = some s ∧ s.siteType = .pop)
    (r : optimize O p t = some (t', h)) : Later h := by
  unfold optimize at r
  dsimp only at r
  rw [Option.bind_eq_some_iff] at r
  obtain ⟨r1, h1, r⟩ := r
  have l1 : Later r1.2 := by
    unfold popStep at h1
    split at h1
    · rename_i h0
      cases h1
      have is : Inv t.sort := (Via.step (b := ⟨t, false, false, False⟩) .sort trivial).inv i
      have : t.sort.sites.vals.any (fun s => s.siteType == .pop) = true := by
        rw [any_pop_iff is]
        obtain ⟨k, s, hs, hy⟩ := hp.resolve_left (fun c => c h0)
        have X := (Via.step (b := ⟨t, false, false, False⟩) (t := t) .sort trivial).extends_ i i (Extends.refl _ _)
        obtain ⟨s', h1, h2, _⟩ := X.site k s hs
        exact ⟨k, s', h1, by rw [h2]; exact hy⟩
      dsimp only
      rw [if_pos this]
      exact later_none
    · rw [Option.map_eq_some_iff] at h1
      obtain ⟨a, -, h1⟩ := h1
      split at h1
      · subst h1; exact later_raised _
      · split at h1
        · subst h1; exact later_none
        · split at h1
          · subst h1; exact later_raised _
          · subst h1; exact later_none
          · subst h1; exact later_phase _
  have step : ∀ {r : Phase} {k : Topology → Option Phase}, r.next k = some (t', h) → Later r.2 →
      (∀ u, k u = some (t', h) → Later h) → Later h := by
    intro r k hr hl hk
    rcases Phase.next_some hr with ⟨e, h1, h2⟩ | ⟨_, h2⟩
    · rw [h1] at hl
      dsimp only at h2
      rw [h2]
      exact hl
    · exact hk _ h2
  refine step r l1 fun u r => ?_
  rw [Option.bind_eq_some_iff] at r
  obtain ⟨r2, h2, r⟩ := r
  refine step r (by
    rw [Option.map_eq_some_iff] at h2
    obtain ⟨o, _, rfl⟩ := h2
    exact later_phase o) fun u r => ?_
  rw [Option.bind_eq_some_iff] at r
  obtain ⟨r3, h3, r⟩ := r
  refine step r (later_cost h3) fun u r => ?_
  rw [Option.bind_eq_some_iff] at r
  obtain ⟨r4, h4, r⟩ := r
  refine step r (later_second h4) fun u r => ?_
  rw [Option.bind_eq_some_iff] at r
  obtain ⟨r5, h5, r⟩ := r
  refine step r (later_interf h5) fun u r => ?_
  cases r
  exact later_phase _

/-- **C168**: a planning call is given up for lack of POPs exactly if the input has none and no extra ones were asked
for, and for lack of clients exactly if the input has no CN while demand is placed at CNs only. It is so before anything
is changed. -/
theorem C168_early (ops : List Op) (E : PrepEnv) (O : Outside) (p : RunParams) (t' : Topology) (h : Option Halt)
    (r : planTopology E O p (run {} ops) = some (t', h)) :
    (h = some .noPop ↔ p.extraPops = 0 ∧ ¬ ∃ k s, (run {} ops).sites.get? k = some s ∧ s.siteType = .pop)
    ∧ (h = some .noDemand ↔ (p.extraPops ≠ 0 ∨ ∃ k s, (run {} ops).sites.get? k = some s ∧ s.siteType = .pop)
      ∧ E.demand.uniform = false ∧ E.demand.manual = false
      ∧ ¬ ∃ k s, (run {} ops).sites.get? k = some s ∧ s.siteType = .cn)
    ∧ (h = some .noPop ∨ h = some .noDemand → t' = run {} ops) := by
  have i := Inv.empty.run ops
  classical
  have ck : (run {} ops).preOptCheck p.extraPops E.demand.uniform E.demand.manual =
      if p.extraPops = 0 ∧ ¬ ∃ k s, (run {} ops).sites.get? k = some s ∧ s.siteType = .pop then some .noPop
      else if E.demand.uniform = false ∧ E.demand.manual = false
        ∧ ¬ ∃ k s, (run {} ops).sites.get? k = some s ∧ s.siteType = .cn then some .noDemand else none := by
    unfold preOptCheck
    simp only [any_pop_iff i .pop]
    have := any_pop_iff i .cn
    by_cases c : ∃ k s, (run {} ops).sites.get? k = some s ∧ s.siteType = .cn
    · rw [this.2 c]
      simp [c]
    · rw [Bool.eq_false_iff.2 (fun e => c (this.1 e))]
      simp only [c, not_false_eq_true, and_true, Bool.not_false, Bool.and_true, Bool.and_eq_true, Bool.not_eq_true']
  have late : Later h ∧ (run {} ops).preOptCheck p.extraPops E.demand.uniform E.demand.manual = none ∨
      (t' = run {} ops ∧ h = (run {} ops).preOptCheck p.extraPops E.demand.uniform E.demand.manual) := by
    rcases plan_cases i r with ⟨e, _, hc⟩ | ⟨u, e, hc, _, P, ⟨_, x, _, rfl⟩ | ⟨_, ho⟩⟩
    · exact .inr ⟨e, hc⟩
    · exact .inl ⟨later_raised _, hc⟩
    · refine .inl ⟨later_optimize (P.inv i) ?_ ho, hc⟩
      simp only [P.sites]
      by_contra q
      push_neg at q
      rw [ck, if_pos ⟨q.1, by push_neg; exact q.2⟩] at hc
      cases hc
  rw [ck] at late
  by_cases a : p.extraPops = 0 ∧ ¬ ∃ k s, (run {} ops).sites.get? k = some s ∧ s.siteType = .pop
  · rw [if_pos a] at late
    obtain ⟨_, e⟩ | ⟨e, rfl⟩ := late
    · cases e
    · refine ⟨by simp [a], ?_, fun _ => e⟩
      simp only [Option.some.injEq, reduceCtorEq, false_iff]
      intro c
      exact c.1.elim (fun x => x a.1) a.2
  · rw [if_neg a] at late
    have a' : p.extraPops ≠ 0 ∨ ∃ k s, (run {} ops).sites.get? k = some s ∧ s.siteType = .pop := by tauto
    split_ifs at late with b
    · obtain ⟨_, e⟩ | ⟨e, rfl⟩ := late
      · cases e
      · exact ⟨⟨fun c => by (cases c), fun c => absurd c a⟩, ⟨fun _ => ⟨a', b⟩, fun _ => rfl⟩, fun _ => e⟩
    · have l : Later h := by
        obtain ⟨l, _⟩ | ⟨_, rfl⟩ := late
        · exact l
        · exact later_none
      exact ⟨⟨fun c => absurd c l.1, fun c => absurd c a⟩, ⟨fun c => absurd c l.2, fun c => absurd c.2 b⟩,
        fun c => c.elim (fun c => absurd c l.1) (fun c => absurd c l.2)⟩

/-- **C168**: the check is enough for the demand at CNs: with a CN in the input, and no grid asked for, the preparation
succeeds as soon as sectors and capacities are found. -/
theorem C168_demand_placed (ops : List Op) (E : PrepEnv) (inj : HashInj E.hash) (t1 t2 : Topology)
    (h1 : setupNodes E (run {} ops) = (t1, none)) (h2 : foldOut (addCapacity E) t1 t1.links.keys = (t2, none))
    (hc : E.demand.cn = true) (hu : E.demand.uniform = false)
    (hs : ∃ k s, (run {} ops).sites.get? k = some s ∧ s.siteType = .cn) :
    ∃ u, (run {} ops).prepare E = some (u, none) := by
  have i := Inv.empty.run ops
  have p1 : Prepared False (run {} ops) t1 := by
    have := setup_prepared (K := False) E i
    rw [h1] at this
    exact this
  have p2 : Prepared False t1 t2 := by
    have := foldOut_prepared (K := False) (fun t a j => capacity_prepared E t a j) t1.links.keys t1 (p1.inv i)
    rw [h2] at this
    exact this
  have p12 := p1.trans p2
  have i2 := p12.inv i
  obtain ⟨k, s, hk, hy⟩ := hs
  have grid : (t2.resetDemand E.demand).demandSites.NodupKeys := ((reset_prepared i2 E.demand).inv i2).nd_demand
  obtain ⟨t3, b, e⟩ := finish_before (t1 := t2.resetDemand E.demand) inj E.dist E.demand i2 rfl (fun _ h => h) grid
    (resetDemand_all _ _)
  obtain ⟨d, hd, _⟩ := b.cns hc k s (by rw [p12.sites]; exact hk) hy
  obtain ⟨_, g, _⟩ := connectColocated_get (by rw [b.sites]; exact i2.nd_sites) hd
  refine ⟨t3.connectColocated, ?_⟩
  unfold prepare
  rw [h1]
  dsimp only
  rw [h2]
  dsimp only
  unfold addDemand
  simp only [hu, Bool.false_eq_true, if_false]
  rw [e, if_neg]
  intro c
  rw [c] at g
  cases g

end Topology
end Verif
