import Verif.Props.Kml

/-! # C137: demand sites, folders, and when writing fails -/

namespace Verif
namespace Kml
open Topology Spec

/-! ## Demand -/

theorem demandTop_parts {t : Topology} {f : Top} (h : demandTop t = .ok f) :
    ∃ ms, List.Forall₂ (fun d m => demandMark (demandValues t) d = .ok m) t.demandSites.vals ms ∧
      f = { id := "demand", name := "Demand"
            subs := [{ id := "sites_demand", name := "Demand Sites", marks := ms },
              { id := "conns_demand", name := "Demand Connections"
                marks := t.demandSites.vals.flatMap (connMarks t) }] } := by
  unfold demandTop at h
  cases hm : t.demandSites.vals.mapM (demandMark (demandValues t)) with
  | error e => rw [hm] at h; cases h
  | ok ms =>
    rw [hm] at h
    rw [Except.ok.injEq] at h
    exact ⟨ms, mapM_forall₂ _ _ _ hm, h.symm⟩

theorem marksAt_demand {t : Topology} {K : Info} {d : Doc} (h : write t K = .ok d) :
    ∃ f, demandTop t = .ok f ∧ ∀ b, d.marksAt "Demand" b = subMarks [f] b := by
  obtain ⟨a, b, c, e, f, dem, h1, h2, h3, h4, h5, hd, rfl⟩ := write_parts h
  have drop : ∀ {s : StatusType} {fs : List Top}, statusTop t K s = .ok fs → fs.filter (·.name = "Demand") = [] := by
    intro s fs hs
    refine List.filter_eq_nil_iff.2 fun x hx => ?_
    rw [statusTop_name hs x hx]
    cases s <;> decide
  have dd : [dem].filter (·.name = "Demand") = [dem] := by
    obtain ⟨ms, -, rfl⟩ := demandTop_parts hd
    rfl
  refine ⟨dem, hd, fun x => ?_⟩
  unfold Doc.marksAt subMarks
  simp only [List.filter_append, drop h1, drop h2, drop h3, drop h4, drop h5, dd, List.filter_nil, List.nil_append]

theorem mem_demandValues {t : Topology} {x : ℚ} : x ∈ demandValues t ↔ ∃ d ∈ t.demandSites.vals, d.demand.getD 0 = x := by
  unfold demandValues
  rw [List.mem_dedup, List.mem_map]

theorem one_value {t : Topology}
    (h : ∀ e ∈ t.demandSites.vals, ∀ f ∈ t.demandSites.vals, e.demand.getD 0 = f.demand.getD 0) :
    ¬ (demandValues t).length > 1 := by
  intro hl
  have nd : (demandValues t).Nodup := List.nodup_dedup _
  match hv : demandValues t with
  | [] => rw [hv] at hl; simp at hl
  | [a] => rw [hv] at hl; simp at hl
  | a :: b :: l =>
    rw [hv] at nd
    have ha : a ∈ demandValues t := by rw [hv]; simp
    have hb : b ∈ demandValues t := by rw [hv]; simp
    obtain ⟨d, hd, rfl⟩ := mem_demandValues.1 ha
    obtain ⟨e, he, rfl⟩ := mem_demandValues.1 hb
    have := h d hd e he
    rw [List.nodup_cons] at nd
    exact nd.1 (by simp [this])

theorem more_values {t : Topology} {d e : DemandSite} (hd : d ∈ t.demandSites.vals) (he : e ∈ t.demandSites.vals)
    (h : d.demand.getD 0 ≠ e.demand.getD 0) : (demandValues t).length > 1 := by
  have h1 : d.demand.getD 0 ∈ demandValues t := mem_demandValues.2 ⟨d, hd, rfl⟩
  have h2 : e.demand.getD 0 ∈ demandValues t := mem_demandValues.2 ⟨e, he, rfl⟩
  match hv : demandValues t with
  | [] => rw [hv] at h1; cases h1
  | [a] =>
    rw [hv, List.mem_singleton] at h1 h2
    exact absurd (h1.trans h2.symm) h
  | a :: b :: l => simp

theorem max_values {t : Topology} {M : ℚ} (h1 : ∃ e ∈ t.demandSites.vals, e.demand.getD 0 = M)
    (h2 : ∀ e ∈ t.demandSites.vals, e.demand.getD 0 ≤ M) : maxOf (demandValues t) = M := by
  obtain ⟨e, he, rfl⟩ := h1
  have m : e.demand.getD 0 ∈ demandValues t := mem_demandValues.2 ⟨e, he, rfl⟩
  obtain ⟨s1, s2⟩ := maxOf_spec (List.ne_nil_of_mem m)
  obtain ⟨f, hf, hf'⟩ := mem_demandValues.1 s1
  refine le_antisymm ?_ (s2 _ m)
  rw [← hf']
  exact h2 f hf

theorem scale_thirds (x M : ℚ) (hx : 0 ≤ x) (hM : 0 < M) :
    (if truncate (x / M * 3) ≥ 3 then (2 : Int) else truncate (x / M * 3)) =
      if 3 * x < M then 0 else if 3 * x < 2 * M then 1 else min 2 (truncate (x / M * 3)) := by
  have e : x / M * 3 = 3 * x / M := by ring
  have ht : truncate (x / M * 3) = ⌊3 * x / M⌋ := by
    unfold truncate
    rw [e, if_neg]
    exact not_lt.2 (div_nonneg (by linarith) hM.le)
  rw [ht]
  split
  · rename_i h
    have h : (3 : ℚ) ≤ 3 * x / M := by
      have := Int.le_floor.1 h
      simpa using this
    rw [le_div_iff₀ hM] at h
    rw [if_neg (by linarith), if_neg (by linarith)]
    have : (3 : Int) ≤ ⌊3 * x / M⌋ := Int.le_floor.2 (by rw [le_div_iff₀ hM]; push_cast; linarith)
    omega
  · rename_i h
    split
    · rename_i h1
      rw [Int.floor_eq_iff]
      constructor
      · rw [le_div_iff₀ hM]; push_cast; linarith
      · rw [div_lt_iff₀ hM]; push_cast; linarith
    · rename_i h1
      split
      · rename_i h2
        rw [Int.floor_eq_iff]
        constructor
        · rw [le_div_iff₀ hM]; push_cast; linarith
        · rw [div_lt_iff₀ hM]; push_cast; linarith
      · omega

theorem demandMark_shows {t : Topology} {d : DemandSite} {m : Mark} (hd : d ∈ t.demandSites.vals)
    (h : demandMark (demandValues t) d = .ok m) : ShowsDemand t d m := by
  unfold demandMark at h
  cases hs : demandScale (demandValues t) d with
  | error e => rw [hs] at h; cases h
  | ok n =>
    rw [hs] at h
    rw [Except.ok.injEq] at h
    rw [← h]
    refine ⟨rfl, fun x => ?_, fun same => ?_, fun x M hx h0 hM ⟨e, he, heM⟩ hmax ⟨f, hf, hfM⟩ => ?_⟩
    · have k1 : ("site_demand" = "site_type") = False := by decide
      have k2 : ("site_demand" = "status") = False := by decide
      simp only [List.mem_cons, Prod.mk.injEq, k1, k2, false_and, or_false, true_and, List.not_mem_nil]
      cases d.demand with
      | none => simp
      | some y => simp [eq_comm]
    · unfold demandScale at hs
      rw [if_neg (one_value same)] at hs
      cases hs
      rfl
    · have hmx : maxOf (demandValues t) = M := max_values ⟨e, he, by rw [heM]; rfl⟩ hmax
      have hl : (demandValues t).length > 1 := more_values he hf (by rw [heM]; exact fun h => hfM h.symm)
      unfold demandScale at hs
      rw [if_pos hl, hx] at hs
      dsimp only at hs
      rw [hmx, if_neg hM.ne'] at hs
      have hn : n = if truncate (x / M * 3) ≥ 3 then 2 else truncate (x / M * 3) := by
        split at hs <;> (cases hs; simp_all)
      rw [scale_thirds x M h0 hM] at hn
      dsimp only
      by_cases c1 : 3 * x < M
      · rw [if_pos c1] at hn ⊢; rw [hn]; rfl
      · rw [if_neg c1] at hn ⊢
        by_cases c2 : 3 * x < 2 * M
        · rw [if_pos c2] at hn ⊢; rw [hn]; rfl
        · rw [if_neg c2] at hn ⊢
          have : (2 : Int) ≤ truncate (x / M * 3) := by
            unfold truncate
            rw [if_neg (not_lt.2 (mul_nonneg (div_nonneg h0 hM.le) (by norm_num)))]
            refine Int.le_floor.2 ?_
            have e : x / M * 3 = 3 * x / M := by ring
            rw [e, le_div_iff₀ hM]; push_cast; linarith
          rw [hn, min_eq_left this]
          rfl

/-- **C137.** The folder of the demand sites shows every demand site once, with its place, demand and shade. -/
theorem C137_demand (ops : List Op) (K : Info) (d : Doc) (h : write (run {} ops) K = .ok d) :
    List.Forall₂ (ShowsDemand (run {} ops)) (run {} ops).demandSites.vals (d.marksAt "Demand" "Demand Sites") := by
  generalize run {} ops = t at *
  obtain ⟨f, h1, h2⟩ := marksAt_demand h
  obtain ⟨ms, hm, rfl⟩ := demandTop_parts h1
  rw [h2]
  have e : subMarks [{ id := "demand", name := "Demand"
                       subs := [{ id := "sites_demand", name := "Demand Sites", marks := ms },
                         { id := "conns_demand", name := "Demand Connections"
                           marks := t.demandSites.vals.flatMap (connMarks t) }] }] "Demand Sites" = ms := by
    simp [subMarks]
  rw [e]
  have key : ∀ {ds : List DemandSite} {ms : List Mark},
      List.Forall₂ (fun d m => demandMark (demandValues t) d = .ok m) ds ms → (∀ x ∈ ds, x ∈ t.demandSites.vals) →
      List.Forall₂ (ShowsDemand t) ds ms := by
    intro ds ms h
    induction h with
    | nil => intro _; exact .nil
    | cons hab _ ih => intro hx; exact .cons (demandMark_shows (hx _ (by simp)) hab) (ih fun x h => hx x (by simp [h]))
  exact key hm fun _ h => h

/-- **C137.** The folder of the demand connections shows exactly the lines from demand sites to the sites in use that
serve them; none twice if no site is listed twice. -/
theorem C137_connections (ops : List Op) (K : Info) (d : Doc) (h : write (run {} ops) K = .ok d) :
    ∃ ps : List (DemandSite × Site),
      (∀ p, p ∈ ps ↔ (run {} ops).demandSites.get? p.1.id = some p.1 ∧ p.2.id ∈ p.1.connected ∧
        (run {} ops).sites.get? p.2.id = some p.2 ∧ InNetwork p.2.status) ∧
      ((∀ x ∈ (run {} ops).demandSites.vals, x.connected.Nodup) → ps.Nodup) ∧
      List.Forall₂ ShowsConn ps (d.marksAt "Demand" "Demand Connections") := by
  have inv := Inv.empty.run ops
  generalize run {} ops = t at *
  obtain ⟨f, h1, h2⟩ := marksAt_demand h
  obtain ⟨ms, hm, rfl⟩ := demandTop_parts h1
  rw [h2]
  have e : subMarks [{ id := "demand", name := "Demand"
                       subs := [{ id := "sites_demand", name := "Demand Sites", marks := ms },
                         { id := "conns_demand", name := "Demand Connections"
                           marks := t.demandSites.vals.flatMap (connMarks t) }] }] "Demand Connections" =
      t.demandSites.vals.flatMap (connMarks t) := by
    simp [subMarks]
  rw [e]
  have look : ∀ {i : SiteId} {x : Site}, t.sites.get? i = some x → x.id = i := fun h => inv.site_id _ _ h
  refine ⟨t.demandSites.vals.flatMap fun d => d.connected.filterMap fun s =>
    match t.sites.get? s with | none => none | some x => if x.status.active then some (d, x) else none, ?_, ?_, ?_⟩
  · rintro ⟨d, s⟩
    rw [List.mem_flatMap]
    have hv : d ∈ t.demandSites.vals ↔ t.demandSites.get? d.id = some d := by
      constructor
      · intro hs
        obtain ⟨⟨i, s⟩, hi, rfl⟩ := List.mem_map.1 hs
        have hg := (Dict.mem_iff_get? inv.nd_demand _ _).1 hi
        have := inv.demand_id _ _ hg
        dsimp only
        rw [this]; exact hg
      · intro hs
        exact List.mem_map.2 ⟨_, (Dict.mem_iff_get? inv.nd_demand _ _).2 hs, rfl⟩
    constructor
    · rintro ⟨d', hd, hm⟩
      obtain ⟨i, hi, hx⟩ := List.mem_filterMap.1 hm
      cases hg : t.sites.get? i with
      | none => rw [hg] at hx; cases hx
      | some x =>
        rw [hg] at hx
        dsimp only at hx
        split at hx
        · rename_i ha
          cases hx
          have hid := look hg
          refine ⟨hv.1 hd, by rw [hid]; exact hi, by rw [hid]; exact hg, (active_iff _).1 ha⟩
        · cases hx
    · rintro ⟨hd, hc, hs, ha⟩
      refine ⟨d, hv.2 hd, List.mem_filterMap.2 ⟨_, hc, ?_⟩⟩
      dsimp only at hs ha ⊢
      rw [hs]
      dsimp only
      rw [if_pos ((active_iff _).2 ha)]
  · intro hnd
    rw [List.nodup_flatMap]
    constructor
    · intro d hd
      refine List.Nodup.filterMap ?_ (hnd d hd)
      intro i j p hi hj
      have get : ∀ i, p ∈ (match t.sites.get? i with
          | none => none | some x => if x.status.active then some (d, x) else none) → t.sites.get? i = some p.2 := by
        intro i hi
        cases hg : t.sites.get? i with
        | none => rw [hg] at hi; cases hi
        | some x =>
          rw [hg] at hi
          dsimp only at hi
          split at hi
          · cases hi; rfl
          · cases hi
      rw [← look (get i hi), ← look (get j hj)]
    · have nd : t.demandSites.vals.Nodup :=
        Dict.nodup_vals_of_inj inv.nd_demand DemandSite.id fun id s hs => (inv.demand_id id s hs).symm
      refine nd.imp_of_mem ?_
      intro a b _ _ hab
      have first : ∀ (d : DemandSite) (p : DemandSite × Site), p ∈ (d.connected.filterMap fun s =>
          match t.sites.get? s with | none => none | some x => if x.status.active then some (d, x) else none) →
          p.1 = d := by
        intro d p hp
        obtain ⟨i, -, hx⟩ := List.mem_filterMap.1 hp
        split at hx
        · cases hx
        · split at hx
          · cases hx; rfl
          · cases hx
      intro p hp hq
      exact hab ((first a p hp).symm.trans (first b p hq))
  · generalize t.demandSites.vals = ds
    induction ds with
    | nil => exact .nil
    | cons d ds ih =>
      rw [List.flatMap_cons, List.flatMap_cons]
      refine List.rel_append ?_ ih
      unfold connMarks
      generalize d.connected = cs
      induction cs with
      | nil => exact .nil
      | cons c cs ihc =>
        cases hg : t.sites.get? c with
        | none => rw [List.filterMap_cons, List.filterMap_cons, hg]; exact ihc
        | some x =>
          by_cases ha : x.status.active
          · rw [List.filterMap_cons, List.filterMap_cons, hg]
            dsimp only
            rw [if_pos ha, if_pos ha]
            exact .cons ⟨rfl, rfl⟩ ihc
          · rw [List.filterMap_cons, List.filterMap_cons, hg]
            dsimp only
            rw [if_neg ha, if_neg ha]
            exact ihc

/-! ## Folders -/

theorem groupOn_nodup {α κ : Type} [DecidableEq κ] (key : α → κ) (r : κ → Nat) (inj : Function.Injective r) (l : List α)
    (h : l.Pairwise fun a b => r (key a) ≤ r (key b)) : ((groupOn key l).map (·.1)).Nodup := by
  rw [List.Nodup, List.pairwise_map]
  refine (groupOn_sorted key r inj l h).imp fun {a b} hab he => ?_
  rw [he] at hab
  exact lt_irrefl _ hab

theorem forall₂_map_names {α : Type} {L : List (LinkType × List Link)} {M : List Sub} {P : LinkType × List Link → Sub → Prop}
    (h : List.Forall₂ P L M) (hn : ∀ g s, P g s → s.name = g.1.str ++ " Links") :
    M.map (·.name) = (L.map (·.1)).map (·.str ++ " Links") := by
  induction h with
  | nil => rfl
  | cons hab _ ih => simp only [List.map_cons, ih, hn _ _ hab]

theorem orderLinks_ne {t : Topology} {K : Info} {g : List Link} (h : g ≠ []) : orderLinks t K g ≠ [] := by
  intro e
  have := (orderLinks_perm t K g).length_eq
  rw [e] at this
  exact h (List.length_eq_zero_iff.1 this.symm)

/-- **C137.** The folders of the file: one for each status that some site or link has, visible for what is proposed or
cannot be reached, and in it one for each type, none empty; and one for the demand. -/
theorem C137_folders (ops : List Op) (K : Info) (d : Doc) (h : write (run {} ops) K = .ok d) :
    (d.tops.map (·.name)).Nodup ∧
    (∀ st : StatusType, st.str ∈ d.tops.map (·.name) ↔
      (∃ s, (run {} ops).sites.get? s.id = some s ∧ s.status = st) ∨
      ∃ l, (run {} ops).links.get? ⟨l.tx, l.rx⟩ = some l ∧ l.status = st) ∧
    ∀ f ∈ d.tops, (f.subs.map (·.name)).Nodup ∧
      (f.name = "Demand" ∧ f.vis = 0 ∨ ∃ st : StatusType, f.name = st.str ∧ (f.vis = 1 ↔ Visible st) ∧
        ∀ s ∈ f.subs, s.marks ≠ [] ∧ s.vis = f.vis ∧
          ((∃ ty : SiteType, s.name = ty.str ++ " Sites") ∨ ∃ ty : LinkType, s.name = ty.str ++ " Links")) := by
  have inv := Inv.empty.run ops
  generalize run {} ops = t at *
  obtain ⟨a, b, c, e, f, dem, h1, h2, h3, h4, h5, hd, rfl⟩ := write_parts h
  obtain ⟨ms, -, rfl⟩ := demandTop_parts hd
  have siteIn : ∀ s, s ∈ t.sites.vals ↔ t.sites.get? s.id = some s := by
    intro s
    constructor
    · intro hs
      obtain ⟨⟨i, s⟩, hi, rfl⟩ := List.mem_map.1 hs
      have hg := (Dict.mem_iff_get? inv.nd_sites _ _).1 hi
      have := inv.site_id _ _ hg
      dsimp only
      rw [this]; exact hg
    · intro hs
      exact List.mem_map.2 ⟨_, (Dict.mem_iff_get? inv.nd_sites _ _).2 hs, rfl⟩
  classical
  have names : ∀ {st fs}, statusTop t K st = .ok fs → fs.map (·.name) = if (∃ s, t.sites.get? s.id = some s ∧
      s.status = st) ∨ ∃ l, t.links.get? ⟨l.tx, l.rx⟩ = some l ∧ l.status = st then [st.str] else [] := by
    intro st fs hs
    have em1 : sitesOf t K st = [] ↔ ¬ ∃ s, t.sites.get? s.id = some s ∧ s.status = st := by
      rw [← List.length_eq_zero_iff, (sitesOf_perm t K st).length_eq, List.length_eq_zero_iff, List.filter_eq_nil_iff]
      constructor
      · rintro hx ⟨s, h1, h2⟩
        exact hx s ((siteIn s).2 h1) (by simpa using h2)
      · intro hx s h1 h2
        exact hx ⟨s, (siteIn s).1 h1, by simpa using h2⟩
    have em2 : linksOf t st = [] ↔ ¬ ∃ l, t.links.get? ⟨l.tx, l.rx⟩ = some l ∧ l.status = st := by
      rw [← List.length_eq_zero_iff, (linksOf_perm t st).length_eq, List.length_eq_zero_iff, List.filter_eq_nil_iff]
      constructor
      · rintro hx ⟨s, h1, h2⟩
        exact hx s ((mem_vals_iff inv).2 h1) (by simpa using h2)
      · intro hx s h1 h2
        exact hx ⟨s, (mem_vals_iff inv).1 h1, by simpa using h2⟩
    rcases statusTop_ok hs with ⟨rfl, ha, hb⟩ | ⟨f, ls, rfl, -, hn, hne, -⟩
    · rw [if_neg]
      · rfl
      · rintro (hx | hx)
        · exact em1.1 ha hx
        · exact em2.1 hb hx
    · rw [if_pos]
      · simp [hn]
      · rw [em1, em2] at hne
        by_contra hc
        exact hne (not_or.1 hc)
  refine ⟨?_, ?_, ?_⟩
  · simp only [List.map_append, names h1, names h2, names h3, names h4, names h5, List.map_nil, List.map_cons]
    refine List.Nodup.sublist (l₂ := ["PROPOSED", "EXISTING", "CANDIDATE", "UNAVAILABLE", "UNREACHABLE", "Demand"]) ?_
      (by decide)
    have sub : ∀ (P : Prop) [Decidable P] (x : String) (l m : List String), l.Sublist m →
        ((if P then [x] else []) ++ l).Sublist (x :: m) := by
      intro P _ x l m hlm
      split
      · exact hlm.cons₂ x
      · exact hlm.cons x
    simp only [List.append_assoc]
    exact sub _ _ _ _ (sub _ _ _ _ (sub _ _ _ _ (sub _ _ _ _ (sub _ _ _ _ (by simp)))))
  · intro st
    have other : ∀ (P : Prop) [Decidable P] (x y : String), x ≠ y → x ∉ (if P then [y] else []) := by
      intro P _ x y hxy
      split <;> simp [hxy]
    simp only [List.map_append, names h1, names h2, names h3, names h4, names h5, List.map_nil, List.map_cons,
      List.mem_append, List.mem_singleton, List.not_mem_nil, or_false]
    cases st
    all_goals
      simp only [StatusType.str, ite_eq_right_iff, List.mem_ite_nil_right, List.mem_singleton]
      simp
  · intro g hg
    have one : ∀ {st fs}, statusTop t K st = .ok fs → g ∈ fs → (g.subs.map (·.name)).Nodup ∧
        ∃ st : StatusType, g.name = st.str ∧ (g.vis = 1 ↔ Visible st) ∧
        ∀ s ∈ g.subs, s.marks ≠ [] ∧ s.vis = g.vis ∧
          ((∃ ty : SiteType, s.name = ty.str ++ " Sites") ∨ ∃ ty : LinkType, s.name = ty.str ++ " Links") := by
      intro st fs hs hgf
      rcases statusTop_ok hs with ⟨rfl, -⟩ | ⟨f, ls, rfl, hv, hn, -, hsub, hl⟩
      · cases hgf
      rw [List.mem_singleton] at hgf
      subst hgf
      refine ⟨?_, st, hn, ?_, ?_⟩
      · rw [hsub, List.map_append, List.map_map, forall₂_map_names (α := Unit) hl fun g s h => (linkSub_ok h).1]
        have e1 : (fun s : Sub => s.name) ∘ siteSub K st = (fun ty : SiteType => ty.str ++ " Sites") ∘ (·.1) := rfl
        rw [e1, ← List.map_map]
        refine List.Nodup.append ?_ ?_ ?_
        · refine (groupOn_nodup _ siteRank siteRank_inj _ ?_).map fun a b => siteName_inj.1
          refine (sitesOf_sorted t K st).imp ?_
          rintro a b (h | h)
          · exact h.le
          · exact h.1.le
        · exact (groupOn_nodup _ linkRank linkRank_inj _ (linksOf_sorted t st)).map fun a b => linkName_inj.1
        · intro x hx hy
          obtain ⟨ty, -, rfl⟩ := List.mem_map.1 hx
          obtain ⟨ty', -, he⟩ := List.mem_map.1 hy
          exact siteName_ne he.symm
      · rw [hv]; unfold visibility Visible; cases st <;> simp
      · intro s hs
        rw [hsub, List.mem_append] at hs
        rcases hs with hs | hs
        · obtain ⟨g', hg', rfl⟩ := List.mem_map.1 hs
          refine ⟨?_, by rw [hv]; rfl, .inl ⟨g'.1, rfl⟩⟩
          have := (groupOn_key _ _ g' hg').1
          simpa [siteSub] using this
        · obtain ⟨g', hg', hs'⟩ := forall₂_mem_right hl hs
          obtain ⟨k1, k2⟩ := linkSub_ok hs'
          refine ⟨?_, by rw [hv]; exact linkSub_vis hs', .inr ⟨g'.1, k1⟩⟩
          intro he
          rw [he] at k2
          exact orderLinks_ne (groupOn_key _ _ g' hg').1 (List.forall₂_nil_right_iff.1 k2)
    simp only [List.mem_append, List.mem_singleton, List.not_mem_nil, or_false] at hg
    rcases hg with (hg | hg | hg | hg | hg) | rfl
    · exact ⟨(one h1 hg).1, .inr (one h1 hg).2⟩
    · exact ⟨(one h2 hg).1, .inr (one h2 hg).2⟩
    · exact ⟨(one h3 hg).1, .inr (one h3 hg).2⟩
    · exact ⟨(one h4 hg).1, .inr (one h4 hg).2⟩
    · exact ⟨(one h5 hg).1, .inr (one h5 hg).2⟩
    · exact ⟨by simp, .inl ⟨rfl, rfl⟩⟩

/-! ## When writing fails -/

theorem demandTop_ok {t : Topology} : (∃ f, demandTop t = .ok f) ↔ DemandShown t := by
  have e1 : (∃ f, demandTop t = .ok f) ↔ ∀ d ∈ t.demandSites.vals, ∃ n, demandScale (demandValues t) d = .ok n := by
    have e2 : ∀ d, (∃ m, demandMark (demandValues t) d = .ok m) ↔ ∃ n, demandScale (demandValues t) d = .ok n := by
      intro d
      unfold demandMark
      cases demandScale (demandValues t) d with
      | error e => simp
      | ok n => simp
    constructor
    · rintro ⟨f, hf⟩ d hd
      obtain ⟨ms, hm, -⟩ := demandTop_parts hf
      obtain ⟨m, -, hdm⟩ := forall₂_mem_left hm hd
      exact (e2 d).1 ⟨m, hdm⟩
    · intro h
      obtain ⟨ms, hm⟩ := mapM_all (demandMark (demandValues t)) t.demandSites.vals fun d hd => (e2 d).2 (h d hd)
      unfold demandTop
      rw [hm]
      exact ⟨_, rfl⟩
  rw [e1]
  constructor
  · intro h
    by_cases hl : (demandValues t).length > 1
    · have given : ∀ d ∈ t.demandSites.vals, d.demand ≠ none ∧ maxOf (demandValues t) ≠ 0 := by
        intro d hd
        obtain ⟨n, hn⟩ := h d hd
        unfold demandScale at hn
        rw [if_pos hl] at hn
        cases hx : d.demand with
        | none => rw [hx] at hn; cases hn
        | some x =>
          rw [hx] at hn
          dsimp only at hn
          split at hn
          · cases hn
          · rename_i hz; exact ⟨by simp, hz⟩
      refine .inr ⟨fun d hd => (given d hd).1, ?_⟩
      have hne : demandValues t ≠ [] := by intro he; rw [he] at hl; simp at hl
      obtain ⟨s1, s2⟩ := maxOf_spec hne
      obtain ⟨d, hd, hdm⟩ := mem_demandValues.1 s1
      obtain ⟨g1, g2⟩ := given d hd
      obtain ⟨x, hx⟩ := Option.ne_none_iff_exists'.1 g1
      rw [hx] at hdm
      refine ⟨d, hd, x, hx, ?_, fun e he y hy => ?_⟩
      · rw [← hdm] at g2; exact g2
      · have := s2 (e.demand.getD 0) (mem_demandValues.2 ⟨e, he, rfl⟩)
        rw [hy, ← hdm] at this
        exact this
    · refine .inl fun d hd e he => ?_
      by_contra hne
      exact hl (more_values hd he hne)
  · rintro (h | ⟨h1, d, hd, x, hx, h0, hmax⟩) e he
    · unfold demandScale
      rw [if_neg (one_value h)]
      exact ⟨_, rfl⟩
    · unfold demandScale
      split
      · obtain ⟨y, hy⟩ := Option.ne_none_iff_exists'.1 (h1 e he)
        rw [hy]
        dsimp only
        have : maxOf (demandValues t) = x := by
          refine max_values ⟨d, hd, by rw [hx]; rfl⟩ fun f hf => ?_
          obtain ⟨z, hz⟩ := Option.ne_none_iff_exists'.1 (h1 f hf)
          rw [hz]
          exact hmax f hf z hz
        rw [this, if_neg h0]
        split <;> exact ⟨_, rfl⟩
      · exact ⟨_, rfl⟩

theorem linkMark_ok {t : Topology} (inv : Inv t) (K : Info) {l : Link} (hl : t.links.get? ⟨l.tx, l.rx⟩ = some l) :
    (∃ m, linkMark t K l = .ok m) ↔
      (∀ a b, t.sites.get? l.tx = some a → t.sites.get? l.rx = some b → (a.alt.isSome ↔ b.alt.isSome)) ∧
      (InNetwork l.status → SameChannel t l) := by
  obtain ⟨a, ha⟩ := inv.link_tx _ _ hl
  obtain ⟨b, hb⟩ := inv.link_rx _ _ hl
  have hr : ∃ r, t.getLinkBySiteIds l.rx l.tx = .ok r := by
    unfold getLinkBySiteIds
    rw [if_pos]
    · exact ⟨_, rfl⟩
    · simp [Dict.has, ha, hb]
  obtain ⟨r, hr⟩ := hr
  rw [← active_iff, ← linkChannelE_ok]
  unfold linkMark
  rw [ha, hb]
  dsimp only
  have e : (∀ a' b', some a = some a' → some b = some b' → (a'.alt.isSome ↔ b'.alt.isSome)) ↔
      altMode a.alt = altMode b.alt := by
    rw [altMode_eq]
    constructor
    · intro h; exact h a b rfl rfl
    · rintro h _ _ ⟨⟩ ⟨⟩; exact h
  rw [e]
  by_cases hm : altMode a.alt = altMode b.alt
  · rw [if_neg (not_not.2 hm)]
    cases hc : t.linkChannelE l with
    | error e => simp
    | ok c => rw [hr]; simp [hm]
  · rw [if_pos hm]
    simp [hm]

/-- **C137.** The file is written exactly if the two ends of every link both have or both lack an altitude, the two
sectors of every link in use have the same channel, and the demand can be shaded; otherwise an exception is raised. -/
theorem C137_raises_exactly (ops : List Op) (K : Info) :
    (∃ d, write (run {} ops) K = .ok d) ↔
      (∀ l, (run {} ops).links.get? ⟨l.tx, l.rx⟩ = some l →
        (∀ a b, (run {} ops).sites.get? l.tx = some a → (run {} ops).sites.get? l.rx = some b →
          (a.alt.isSome ↔ b.alt.isSome)) ∧ (InNetwork l.status → SameChannel (run {} ops) l)) ∧
      DemandShown (run {} ops) := by
  have inv := Inv.empty.run ops
  generalize run {} ops = t at *
  constructor
  · rintro ⟨d, h⟩
    refine ⟨fun l hl => ?_, ?_⟩
    · rw [← linkMark_ok inv K hl]
      obtain ⟨fs, h1, -⟩ := marksAt_status h l.status
      have hf := link_marks h1 (t.linkType l)
      have hmem : l ∈ orderLinks t K ((linksOf t l.status).filter (t.linkType · = t.linkType l)) := by
        rw [(orderLinks_perm t K _).mem_iff, List.mem_filter, (linksOf_perm t l.status).mem_iff, List.mem_filter,
          mem_vals_iff inv]
        simp [hl]
      obtain ⟨m, -, hm⟩ := forall₂_mem_left hf hmem
      exact ⟨m, hm⟩
    · rw [← demandTop_ok]
      obtain ⟨f, hf, -⟩ := marksAt_demand h
      exact ⟨f, hf⟩
  · rintro ⟨h1, h2⟩
    have h1 : ∀ l ∈ t.links.vals, ∃ m, linkMark t K l = .ok m := fun l hl =>
      (linkMark_ok inv K ((mem_vals_iff inv).1 hl)).2 (h1 l ((mem_vals_iff inv).1 hl))
    have top : ∀ st ∈ allStatus, ∃ fs, statusTop t K st = .ok fs := by
      intro st _
      have subs : ∀ g ∈ groupOn t.linkType (linksOf t st), ∃ s, linkSub t K st g = .ok s := by
        intro g hg
        obtain ⟨ms, hm⟩ := mapM_all (linkMark t K) (orderLinks t K g.2) fun l hl => by
          have := groupOn_mem _ _ hg ((orderLinks_perm t K _).mem_iff.1 hl)
          exact h1 l (List.mem_filter.1 ((linksOf_perm t st).mem_iff.1 this)).1
        unfold linkSub
        rw [hm]
        exact ⟨_, rfl⟩
      obtain ⟨ls, hm⟩ := mapM_all (linkSub t K st) _ subs
      unfold statusTop
      rw [hm]
      split <;> exact ⟨_, rfl⟩
    obtain ⟨tops, hm⟩ := mapM_all (statusTop t K) _ top
    obtain ⟨f, hf⟩ := demandTop_ok.2 h2
    unfold write
    rw [hm, hf]
    exact ⟨_, rfl⟩

end Kml
end Verif
