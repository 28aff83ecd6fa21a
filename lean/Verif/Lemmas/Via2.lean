import Verif.Lemmas.Via

/-! # POP copies and the final sectors as histories of API calls -/

namespace Verif

theorem Dict.set_append {κ ν : Type} [DecidableEq κ] (pre rest : Dict κ ν) (k : κ) (v w : ν)
    (h : k ∉ pre.map Prod.fst) : Dict.set (pre ++ (k, v) :: rest : List (κ × ν)) k w = pre ++ (k, w) :: rest := by
  induction pre with
  | nil => simp [Dict.set]
  | cons p pre ih =>
    obtain ⟨k', v'⟩ := p
    simp only [List.map_cons, List.mem_cons, not_or] at h
    simp only [List.cons_append, Dict.set]
    rw [if_neg (fun e => h.1 e.symm), ih h.2]

namespace Topology

theorem fold_demand (f : DemandSite → DemandSite) (suf : List (DemandId × DemandSite)) :
    ∀ pre : List (DemandId × DemandSite), ((pre ++ suf).map Prod.fst).Nodup →
    (∀ p ∈ suf, (f p.2).id = p.1) →
    (suf.foldl (fun (D : Dict DemandId DemandSite) p => D.set (f p.2).id (f p.2))
      (pre.map (fun p => (p.1, f p.2)) ++ suf)) =
    pre.map (fun p => (p.1, f p.2)) ++ suf.map (fun p => (p.1, f p.2)) := by
  induction suf with
  | nil => intro pre _ _; simp
  | cons p suf ih =>
    intro pre hn hid
    obtain ⟨k, d⟩ := p
    have hk : (f d).id = k := hid (k, d) (List.mem_cons_self ..)
    simp only [List.foldl_cons, hk]
    have hnk : k ∉ (pre.map (fun p => (p.1, f p.2))).map Prod.fst := by
      simp only [List.map_map]
      simp only [List.map_append, List.map_cons] at hn
      have := (List.nodup_append.1 hn).2.2
      intro hm
      have hm' : k ∈ pre.map Prod.fst := by simpa [Function.comp_def] using hm
      exact this k hm' k (List.mem_cons_self ..) rfl
    rw [Dict.set_append _ _ _ _ _ hnk]
    have := ih (pre ++ [(k, d)]) (by simpa using hn) (fun p hp => hid p (List.mem_cons_of_mem _ hp))
    simpa using this

theorem run_demand (f : DemandSite → DemandSite) (L : List (DemandId × DemandSite)) :
    ∀ t : Topology, run t (L.map fun p => Op.addDemandSite (f p.2)) =
      { t with demandSites := L.foldl (fun (D : Dict DemandId DemandSite) p => D.set (f p.2).id (f p.2)) t.demandSites } := by
  induction L with
  | nil => intro t; rfl
  | cons p L ih =>
    intro t
    simp only [List.map_cons, run, List.foldl_cons] at ih ⊢
    rw [ih]
    rfl

theorem via_demandMap {b : Base} [hb : Fact (b.still = false)] {t : Topology} (it : Inv t) (k : Extends b.grow b t) (f : DemandSite → DemandSite)
    (hf : ∀ d, f d = { d with connected := (f d).connected }) :
    Via b t { t with demandSites := t.demandSites.map (fun p => (p.1, f p.2)) } := by
  refine ⟨t.demandSites.map fun p => Op.addDemandSite (f p.2), ?_, ?_⟩
  · intro o ho
    obtain ⟨p, hp, rfl⟩ := List.mem_map.1 ho
    have hg := (Dict.mem_iff_get? it.nd_demand p.1 p.2).1 hp
    have hid := it.demand_id _ _ hg
    have hfid : (f p.2).id = p.1 := by rw [hf]; exact hid
    have := k.demand p.1
    rw [hg] at this
    simp only [Gentle]
    rw [hfid]
    refine ⟨hb.out, ?_⟩
    generalize b.demandSites.get? p.1 = x at *
    cases this with
    | some q => exact ⟨_, rfl, by rw [hf p.2, q]⟩
  · rw [run_demand]
    congr 1
    have := fold_demand f t.demandSites [] (by rw [List.nil_append]; exact it.nd_demand) (by
      intro p hp
      have hg := (Dict.mem_iff_get? it.nd_demand p.1 p.2).1 hp
      have hid := it.demand_id _ _ hg
      rw [hf]; exact hid)
    simpa using this.symm

theorem via_connectDemand {b : Base} [hb : Fact (b.still = false)] {t : Topology} (it : Inv t) (k : Extends b.grow b t) (m : Dict SiteId (List SiteId)) :
    Via b t (t.connectDemand m) :=
  via_demandMap it k (fun d => { d with connected := connectLoop m d.connected d.connected }) (fun _ => rfl)

/-! ## POP copies -/

theorem via_dupSectors {b : Base} (pop : SiteId) (L : List Sector) : ∀ (t : Topology) D,
    Via b t (t.dupSectors pop D L).1 := by
  induction L with
  | nil => intro t D; exact Via.refl b t
  | cons x rest ih =>
    intro t D
    unfold dupSectors
    have h0 : Via b t (t.addSector (sectorOn pop x)).1 := Via.step (.addSector (sectorOn pop x)) trivial
    generalize t.addSector (sectorOn pop x) = o at *
    obtain ⟨t1, e⟩ := o
    cases e with
    | some e => exact h0
    | none => exact h0.trans (ih t1 _)

theorem popOn_dn {b : Base} {t : Topology} (k : Extends b.grow b t) (pid : SiteId → SiteId) {i : SiteId} {s : Site}
    (h : t.sites.get? i = some s) (hd : s.siteType = .dn) :
    ∃ j d, b.sites.get? j = some d ∧ Spec.PopOnDn (popOn pid s) d := by
  refine ⟨i, ?_⟩
  cases e : b.sites.get? i with
  | none =>
    obtain ⟨_, _, _, q⟩ := (k.newSite i s h e).2.1
    rw [q.1] at hd
    cases hd
  | some d =>
    obtain ⟨s', h', e', _⟩ := k.site i d e
    rw [h] at h'
    cases h'
    refine ⟨d, rfl, ?_⟩
    rw [e'] at hd ⊢
    exact ⟨rfl, hd, rfl, rfl, rfl, rfl, rfl⟩

theorem via_dupSites {b : Base} [hb : Fact (b.still = false)] (hg : b.grow) (ib : Inv (b : Topology)) (pid : SiteId → SiteId) (chosen : SiteId → Bool) (secs : List Sector)
    (L : List (SiteId × Site)) (hL : ∀ e ∈ L, e.2.id = e.1 ∧ (e.2.siteType = .dn →
      ∃ j d, b.sites.get? j = some d ∧ Spec.PopOnDn (popOn pid e.2) d)) : ∀ (t : Topology) S D, Inv t → Extends b.grow b t →
    (∀ dn ∈ S, b.sites.get? (pid dn) = none) →
    Via b t (dupSites pid chosen secs t S D L).1 ∧
      ∀ dn ∈ (dupSites pid chosen secs t S D L).2.1, b.sites.get? (pid dn) = none := by
  induction L with
  | nil => intro t S D _ _ hS; exact ⟨Via.refl b t, hS⟩
  | cons x rest ih =>
    have hrest := fun e he => hL e (List.mem_cons_of_mem _ he)
    intro t S D it k hS
    unfold dupSites
    split
    · rename_i hch
      have h0 : Via b t (t.addSite (popOn pid x.2)).1 := Via.step (.addSite (popOn pid x.2) false)
        ⟨hb.out, rfl, hg, (hL x (List.mem_cons_self ..)).2 (by simpa using (Bool.and_eq_true_iff.1 hch).2)⟩
      have hnew : (t.addSite (popOn pid x.2)).2 = none → b.sites.get? (pid x.1) = none := by
        intro h
        cases hbs : b.sites.get? (pid x.1) with
        | none => rfl
        | some s =>
          obtain ⟨s', h', _⟩ := k.site _ _ hbs
          have e : (popOn pid x.2).id = pid x.1 := by
            simp only [popOn]; rw [(hL x (List.mem_cons_self ..)).1]
          unfold addSite at h
          rw [e, (Dict.has_iff _ _).2 ⟨s', h'⟩] at h
          simp at h
      generalize t.addSite (popOn pid x.2) = o at *
      obtain ⟨t1, e⟩ := o
      cases e with
      | some e => exact ⟨h0, hS⟩
      | none =>
        dsimp only
        have h1 := via_dupSectors (b := b) (pid x.1) (secs.filter fun y => y.site = x.1) t1 D
        generalize t1.dupSectors (pid x.1) D (secs.filter fun y => y.site = x.1) = o at *
        obtain ⟨t2, D2, e⟩ := o
        cases e with
        | some e => exact ⟨h0.trans h1, hS⟩
        | none =>
          have h2 := h0.trans h1
          have := ih hrest t2 (S ++ [x.1]) D2 (h2.inv it) (h2.extends_ ib it k) (by
            intro dn hd
            rcases List.mem_append.1 hd with q | q
            · exact hS dn q
            · rw [List.mem_singleton.1 q]; exact hnew rfl)
          exact ⟨h2.trans this.1, this.2⟩
    · exact ih hrest t S D it k hS

theorem mkLink_fields {a c : Option Site} {x y : Option SectorRef} {st : StatusType} {w : Bool} {l : Link} {a' c' : Site}
    (ha : a = some a') (hc : c = some c')
    (h : mkLink a c x y st w = .ok l) : l.tx = a'.id ∧ l.rx = c'.id ∧ l.status = st := by
  subst ha hc
  unfold mkLink at h
  simp only [HOrElse.hOrElse, OrElse.orElse, Option.orElse] at h
  split at h
  · cases h
  · revert h
    cases x <;> cases y <;> simp only
    · split
      · intro h; cases h; exact ⟨rfl, rfl, rfl⟩
      · intro h; cases h
    · intro h; cases h
    · intro h; cases h
    · split
      · intro h; cases h
      split
      · intro h; cases h
      split
      · intro h; cases h; exact ⟨rfl, rfl, rfl⟩
      · intro h; cases h

theorem via_addCopy {b : Base} [hb : Fact (b.still = false)] {t : Topology} (it : Inv t) (tx rx : SiteId) (secs : SectorId × SectorId) (l m : Link)
    (h : b.sites.get? tx = none ∨ b.sites.get? rx = none) : Via b t (t.addCopy tx rx secs l m).1 := by
  unfold addCopy
  split
  · rename_i a c ha hc
    split
    · exact Via.refl b t
    · rename_i n hn
      obtain ⟨h1, h2, h3⟩ := mkLink_fields rfl rfl hn
      rw [it.site_id _ _ ha] at h1
      rw [it.site_id _ _ hc] at h2
      refine Via.step (.addLink { n with capacity := l.capacity, distance := l.distance, confidence := m.confidence }) ?_
      refine ⟨hb.out, h3, ?_⟩
      dsimp only
      rw [h1, h2]
      exact h
  · exact Via.refl b t

theorem via_dupOut {b : Base} [hb : Fact (b.still = false)] (D : Dict SectorId SectorId) (dn pop : SiteId) (hp : b.sites.get? pop = none)
    (L : List Site) : ∀ (t : Topology) last, Inv t → Via b t (dupOut D dn pop t last L).1 := by
  induction L with
  | nil => intro t last _; exact Via.refl b t
  | cons n rest ih =>
    intro t last it
    unfold dupOut
    split
    · exact ih t last it
    · split
      · exact Via.refl b t
      · exact Via.refl b t
      · rename_i l _
        split
        · exact ih t _ it
        · rename_i secs _
          split
          · exact Via.refl b t
          · rename_i x _
            have h0 := via_addCopy (b := b) it pop n.id (x, secs.2) l l (.inl hp)
            generalize t.addCopy pop n.id (x, secs.2) l l = o at *
            obtain ⟨t1, e⟩ := o
            cases e with
            | some e => exact h0
            | none => exact h0.trans (ih t1 _ (h0.inv it))

theorem via_dupIn {b : Base} [hb : Fact (b.still = false)] (D : Dict SectorId SectorId) (dn pop : SiteId) (hp : b.sites.get? pop = none)
    (last : Option Link) (L : List Site) : ∀ (t : Topology), Inv t → Via b t (dupIn D dn pop last t L).1 := by
  induction L with
  | nil => intro t _; exact Via.refl b t
  | cons n rest ih =>
    intro t it
    unfold dupIn
    split
    · exact ih t it
    · split
      · exact Via.refl b t
      · exact Via.refl b t
      · rename_i l _
        split
        · exact ih t it
        · rename_i secs _
          split
          · exact Via.refl b t
          · rename_i x _
            split
            · exact Via.refl b t
            · rename_i m
              have h0 := via_addCopy (b := b) it n.id pop (secs.1, x) l m (.inr hp)
              generalize t.addCopy n.id pop (secs.1, x) l m = o at *
              obtain ⟨t1, e⟩ := o
              cases e with
              | some e => exact h0
              | none => exact h0.trans (ih t1 (h0.inv it))

theorem via_dupLinks {b : Base} [hb : Fact (b.still = false)] (pid : SiteId → SiteId) (D : Dict SectorId SectorId) (S : List SiteId)
    (hS : ∀ dn ∈ S, b.sites.get? (pid dn) = none) : ∀ (t : Topology) last, Inv t →
    Via b t (dupLinks pid D t last S).1 := by
  induction S with
  | nil => intro t last _; exact Via.refl b t
  | cons dn rest ih =>
    intro t last it
    have hp := hS dn (List.mem_cons_self ..)
    unfold dupLinks
    split
    · exact Via.refl b t
    · rename_i succ _
      have h0 := via_dupOut (b := b) D dn (pid dn) hp succ t last it
      generalize dupOut D dn (pid dn) t last succ = o at *
      obtain ⟨t1, last1, e⟩ := o
      cases e with
      | some e => exact h0
      | none =>
        dsimp only
        split
        · exact h0
        · rename_i pred _
          have h1 := via_dupIn (b := b) D dn (pid dn) hp last1 pred t1 (h0.inv it)
          generalize dupIn D dn (pid dn) last1 t1 pred = o at *
          obtain ⟨t2, e⟩ := o
          cases e with
          | some e => exact h0.trans h1
          | none =>
            exact (h0.trans h1).trans (ih (fun x hx => hS x (List.mem_cons_of_mem _ hx)) t2 _ ((h0.trans h1).inv it))

theorem via_addPops {b : Base} [hb : Fact (b.still = false)] (hg : b.grow) {t : Topology} (ib : Inv (b : Topology)) (it : Inv t) (k : Extends b.grow b t) (pid : SiteId → SiteId)
    (chosen : SiteId → Bool) : Via b t (t.addPopsOnDns pid chosen).1 := by
  unfold addPopsOnDns
  obtain ⟨h0, hS⟩ := via_dupSites hg ib pid chosen t.sectors.vals t.sites
    (fun e he => ⟨it.site_id _ _ ((Dict.mem_iff_get? it.nd_sites e.1 e.2).1 he),
      popOn_dn k pid ((Dict.mem_iff_get? it.nd_sites e.1 e.2).1 he)⟩) t [] [] it k (by simp)
  generalize dupSites pid chosen t.sectors.vals t [] [] t.sites = o at *
  obtain ⟨t1, S, D, e⟩ := o
  cases e with
  | some e => exact h0
  | none =>
    dsimp only
    have h1 := via_dupLinks pid D S hS t1 none (h0.inv it)
    generalize dupLinks pid D t1 none S = o at *
    obtain ⟨t2, e⟩ := o
    cases e with
    | some e => exact h0.trans h1
    | none =>
      have h2 := h0.trans h1
      exact h2.trans (via_connectDemand (h2.inv it) (h2.extends_ ib it k) _)

/-! ## The final sectors -/

theorem via_linkSectors {b : Base} {t : Topology} (i : LinkId) (p : Option (SectorId × SectorId))
    (h : ∀ l a c, t.links.get? i = some l → p = some (a, c) → a.site = l.tx ∧ c.site = l.rx) :
    Via b t (t.setLinkSectors i p) := by
  cases hl : t.links.get? i with
  | none => unfold setLinkSectors; rw [Dict.modify_none _ _ _ hl]; exact Via.refl b t
  | some l =>
    have := Via.step (b := b) (t := t) (.write (.linkSectors i p)) trivial
    simp only [Topology.step, Topology.write, hl] at this
    cases p with
    | none => exact this
    | some q =>
      obtain ⟨a, c⟩ := q
      dsimp only at this
      rw [if_pos (h l a c hl rfl)] at this
      exact this

theorem closestLoop_site {t : Topology} (it : Inv t) {s : SiteId} {bear r : ℚ} {a : SectorId}
    (h : closestLoop bear r none (t.sectorAz s) = some a) : a.site = s := by
  rcases closestLoop_spec bear (t.sectorAz s) r none with ⟨x, az, e, hm, _⟩ | ⟨e, _⟩
  · rw [h] at e
    cases e
    obtain ⟨sec, hs, hsite, _⟩ := (mem_sectorAz it s _).1 hm
    have e : sec.id = a := it.sector_id _ _ hs
    rw [← e]
    exact hsite
  · rw [h] at e; cases e

theorem via_markAssigned {b : Base} {t : Topology} (it : Inv t) (chan : Option (Dict LinkId Int)) (l : Link) (a c : SectorId) :
    Via b t (t.markAssigned chan l a c).1 := by
  unfold markAssigned
  split
  · exact Via.refl b t
  · split
    · split
      · exact Via.refl b t
      · rename_i n _
        have h1 : Via b t (t.setChannel a n) := via_channel it a n
        have h2 : Via b t ((t.setChannel a n).setChannel c n) := h1.trans (via_channel (h1.inv it) c n)
        have h3 := h2.trans (via_setSectorStatus b _ a .proposed)
        generalize ((t.setChannel a n).setChannel c n).setSectorStatus a .proposed = o at *
        obtain ⟨t1, e⟩ := o
        cases e with
        | some e => exact h3
        | none => exact h3.trans (via_setSectorStatus ..)
    · exact Via.refl b t

theorem via_assignLink {b : Base} {t : Topology} (it : Inv t) (g : Geometry) (force : Bool) (chan : Option (Dict LinkId Int))
    (l : Link) (hl : t.links.get? ⟨l.tx, l.rx⟩ = some l) : Via b t (t.assignLink g force chan l).1 := by
  unfold assignLink
  split
  · split
    · exact Via.refl b t
    · split
      · rename_i a c hb
        have ha : a.site = l.tx := closestLoop_site it (congrArg Prod.fst hb)
        have hc : c.site = l.rx := closestLoop_site it (congrArg Prod.snd hb)
        have h1 : Via b t (t.setLinkSectors l.id (some (a, c))) := by
          refine via_linkSectors _ _ ?_
          intro l' x y h' e
          rw [show l.id = ⟨l.tx, l.rx⟩ from rfl, hl] at h'
          cases h'; cases e
          exact ⟨ha, hc⟩
        have h2 : Via b t ((t.setLinkSectors l.id (some (a, c))).setLinkSectors ⟨l.rx, l.tx⟩ (some (c, a))) := by
          refine h1.trans (via_linkSectors _ _ ?_)
          intro l' x y h' e
          cases e
          have := (h1.inv it).link_id _ _ h'
          exact ⟨hc.trans (congrArg LinkId.tx this), ha.trans (congrArg LinkId.rx this)⟩
        exact h2.trans (via_markAssigned (h2.inv it) ..)
      · split
        · exact Via.refl b t
        · exact via_linkSectors _ _ (fun _ _ _ _ e => by cases e)
  · exact Via.refl b t

theorem via_assignLoop {b : Base} (g : Geometry) (force : Bool) (chan : Option (Dict LinkId Int)) (L : List LinkId) :
    ∀ t : Topology, Inv t → Via b t (t.assignLoop g force chan L).1 := by
  induction L with
  | nil => intro t _; exact Via.refl b t
  | cons i rest ih =>
    intro t it
    unfold assignLoop
    split
    · exact Via.refl b t
    · rename_i l hl
      have h0 := via_assignLink (b := b) it g force chan l (by rw [← it.link_id _ _ hl]; exact hl)
      generalize t.assignLink g force chan l = o at *
      obtain ⟨t1, e⟩ := o
      cases e with
      | some e => exact h0
      | none => exact h0.trans (ih t1 (h0.inv it))

theorem via_setProposedIn {b : Base} (nodes : List (SiteId × Nat)) (L : List SectorId) :
    ∀ t : Topology, Via b t (t.setProposedIn nodes L).1 := by
  induction L with
  | nil => intro t; exact Via.refl b t
  | cons i rest ih =>
    intro t
    unfold setProposedIn
    split
    · exact Via.refl b t
    · split
      · have h0 := via_setSectorStatus b t i .proposed
        generalize t.setSectorStatus i .proposed = o at *
        obtain ⟨t1, e⟩ := o
        cases e with
        | some e => exact h0
        | none => exact h0.trans (ih t1)
      · exact ih t

theorem via_clearInactiveCn {b : Base} {t : Topology} (i : LinkId) : Via b t (t.clearInactiveCn i).1 := by
  unfold clearInactiveCn
  split
  · exact Via.refl b t
  · split
    · exact Via.refl b t
    · split
      · split
        · exact Via.refl b t
        · exact via_linkSectors i none (fun _ _ _ _ e => by cases e)
      · exact Via.refl b t

theorem via_readjust {b : Base} {t : Topology} (hb : b.cut = true) (it : Inv t) (g : Geometry) (best : SiteId → List (List ℚ)) :
    Via b t (t.readjust g best).1 := by
  unfold readjust
  split
  · exact Via.refl b t
  · dsimp only
    split
    · rename_i chan _ _
      have step1 : ∀ L, Via b t (foldOut removeSector t L).1 := fun L =>
        via_foldOut (fun _ => True) (fun _ _ _ i => i) (fun t a _ => Via.step (.removeSector a) hb) L t trivial
      refine via_andThen (step1 _) ?_
      intro t1 h1
      have i1 : Inv t1 := by
        have e := congrArg Prod.fst h1
        dsimp only at e
        rw [← e]
        exact (step1 _).inv it
      have step2 : ∀ L, Via b t1 (foldOut addSector t1 L).1 := fun L =>
        via_foldOut (fun _ => True) (fun _ _ _ i => i) (fun t a _ => Via.step (.addSector a) trivial) L t1 trivial
      refine via_andThen (step2 _) ?_
      intro t2 h2
      have i2 : Inv t2 := by
        have e := congrArg Prod.fst h2
        dsimp only at e
        rw [← e]
        exact (step2 _).inv i1
      have step3 : Via b t2 (foldOut clearInactiveCn t2 t2.links.keys).1 :=
        via_foldOut (fun _ => True) (fun _ _ _ i => i) (fun t a _ => via_clearInactiveCn a) _ t2 trivial
      refine via_andThen step3 ?_
      intro t3 h3
      have i3 : Inv t3 := by
        have := step3.inv i2
        rw [h3] at this
        exact this
      refine via_andThen (via_assignLoop g false (some chan) _ t3 i3) ?_
      intro t4 _
      exact via_setProposedIn _ _ t4
    · exact Via.refl b t

end Topology
end Verif
