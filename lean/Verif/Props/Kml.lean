import Verif.Lemmas.Kml

/-! # C137: what the KML file shows -/

namespace Verif
namespace Kml
open Topology Spec

/-- The placemarks of the folders named `b` within some folders. -/
def subMarks (fs : List Top) (b : String) : List Mark :=
  fs.flatMap fun f => (f.subs.filter (·.name = b)).flatMap (·.marks)

theorem write_parts {t : Topology} {K : Info} {d : Doc} (h : write t K = .ok d) :
    ∃ a b c e f dem, statusTop t K .proposed = .ok a ∧ statusTop t K .existing = .ok b ∧
      statusTop t K .candidate = .ok c ∧ statusTop t K .unavailable = .ok e ∧ statusTop t K .unreachable = .ok f ∧
      demandTop t = .ok dem ∧
      d = { title := if K.title = "" then "topology" else K.title, styles := styleIds
            tops := a ++ (b ++ (c ++ (e ++ (f ++ [])))) ++ [dem] } := by
  unfold write at h
  cases hm : allStatus.mapM (statusTop t K) with
  | error e => rw [hm] at h; cases h
  | ok tops =>
    rw [hm] at h
    cases hd : demandTop t with
    | error e => rw [hd] at h; cases h
    | ok dem =>
      rw [hd] at h
      have hf := mapM_forall₂ _ _ _ hm
      unfold allStatus at hf
      rcases hf with _ | ⟨h1, hf⟩
      rcases hf with _ | ⟨h2, hf⟩
      rcases hf with _ | ⟨h3, hf⟩
      rcases hf with _ | ⟨h4, hf⟩
      rcases hf with _ | ⟨h5, hf⟩
      cases hf
      refine ⟨_, _, _, _, _, dem, h1, h2, h3, h4, h5, rfl, ?_⟩
      rw [Except.ok.injEq] at h
      rw [← h]
      rfl

theorem siteName_inj {a b : SiteType} : a.str ++ " Sites" = b.str ++ " Sites" ↔ a = b := by
  cases a <;> cases b <;> decide

theorem linkName_inj {a b : LinkType} : a.str ++ " Links" = b.str ++ " Links" ↔ a = b := by
  cases a <;> cases b <;> decide

theorem siteName_ne {a : SiteType} {b : LinkType} : a.str ++ " Sites" ≠ b.str ++ " Links" := by
  cases a <;> cases b <;> decide

theorem linkSub_ok {t : Topology} {K : Info} {st : StatusType} {g : LinkType × List Link} {s : Sub}
    (h : linkSub t K st g = .ok s) : s.name = g.1.str ++ " Links" ∧
      List.Forall₂ (fun l m => linkMark t K l = .ok m) (orderLinks t K g.2) s.marks := by
  unfold linkSub at h
  cases hm : (orderLinks t K g.2).mapM (linkMark t K) with
  | error e => rw [hm] at h; cases h
  | ok ms =>
    rw [hm] at h
    rw [Except.ok.injEq] at h
    rw [← h]
    exact ⟨rfl, mapM_forall₂ _ _ _ hm⟩

theorem linkSub_vis {t : Topology} {K : Info} {st : StatusType} {g : LinkType × List Link} {s : Sub}
    (h : linkSub t K st g = .ok s) : s.vis = visibility st := by
  unfold linkSub at h
  split at h
  · cases h
  · rw [Except.ok.injEq] at h
    rw [← h]

theorem forall₂_mem_left {α β : Type} {P : α → β → Prop} {L : List α} {M : List β} (h : List.Forall₂ P L M) {a : α}
    (ha : a ∈ L) : ∃ b ∈ M, P a b := by
  obtain ⟨b, hb, hab⟩ := forall₂_mem_right h.flip ha
  exact ⟨b, hb, hab⟩

theorem mapM_all {α β : Type} (f : α → Except Err β) (L : List α) (h : ∀ a ∈ L, ∃ y, f a = .ok y) :
    ∃ ys, L.mapM f = .ok ys := by
  obtain ⟨ys, h1, -⟩ := mapM_exists f (fun _ _ => True) L fun a ha => by
    obtain ⟨y, hy⟩ := h a ha; exact ⟨y, hy, trivial⟩
  exact ⟨ys, h1⟩

theorem statusTop_ok {t : Topology} {K : Info} {st : StatusType} {fs : List Top} (h : statusTop t K st = .ok fs) :
    fs = [] ∧ sitesOf t K st = [] ∧ linksOf t st = [] ∨
    ∃ f ls, fs = [f] ∧ f.vis = visibility st ∧ f.name = st.str ∧ ¬ (sitesOf t K st = [] ∧ linksOf t st = []) ∧
      f.subs = (groupOn (·.siteType) (sitesOf t K st)).map (siteSub K st) ++ ls ∧
      List.Forall₂ (fun g s => linkSub t K st g = .ok s) (groupOn t.linkType (linksOf t st)) ls := by
  unfold statusTop at h
  split at h
  · rename_i he
    rw [List.length_eq_zero_iff, List.length_eq_zero_iff] at he
    cases h
    exact .inl ⟨rfl, he.1, he.2⟩
  · rename_i he
    rw [List.length_eq_zero_iff, List.length_eq_zero_iff] at he
    cases hm : (groupOn t.linkType (linksOf t st)).mapM (linkSub t K st) with
    | error e => rw [hm] at h; cases h
    | ok ls =>
      rw [hm] at h
      rw [Except.ok.injEq] at h
      exact .inr ⟨_, ls, h.symm, rfl, rfl, he, rfl, mapM_forall₂ _ _ _ hm⟩

theorem statusTop_name {t : Topology} {K : Info} {st : StatusType} {fs : List Top} (h : statusTop t K st = .ok fs) :
    ∀ f ∈ fs, f.name = st.str := by
  rcases statusTop_ok h with ⟨rfl, -⟩ | ⟨f, ls, rfl, -, hn, -⟩
  · intro f hf; cases hf
  · intro g hg; rw [List.mem_singleton] at hg; rw [hg, hn]

theorem marksAt_status {t : Topology} {K : Info} {d : Doc} (h : write t K = .ok d) (st : StatusType) :
    ∃ fs, statusTop t K st = .ok fs ∧ ∀ b, d.marksAt st.str b = subMarks fs b := by
  obtain ⟨a, b, c, e, f, dem, h1, h2, h3, h4, h5, hd, rfl⟩ := write_parts h
  have dn : dem.name = "Demand" := by
    unfold demandTop at hd
    split at hd
    · cases hd
    · rw [Except.ok.injEq] at hd; rw [← hd]
  have keep : ∀ {s : StatusType} {fs : List Top}, statusTop t K s = .ok fs → ∀ s' : StatusType,
      fs.filter (·.name = s'.str) = if s = s' then fs else [] := by
    intro s fs hs s'
    split
    · rename_i hss
      exact List.filter_eq_self.2 fun x hx => by simpa using hss ▸ statusTop_name hs x hx
    · rename_i hss
      refine List.filter_eq_nil_iff.2 fun x hx => ?_
      rw [statusTop_name hs x hx]
      revert hss
      cases s <;> cases s' <;> decide
  have dd : [dem].filter (·.name = st.str) = [] := by
    refine List.filter_eq_nil_iff.2 fun x hx => ?_
    rw [List.mem_singleton.1 hx, dn]
    cases st <;> decide
  cases st
  all_goals
    refine ⟨_, by assumption, fun x => ?_⟩
    unfold Doc.marksAt subMarks
    simp only [List.filter_append, keep h1, keep h2, keep h3, keep h4, keep h5, dd, List.filter_nil]
    simp

/-- The placemarks of the sites of a status and type. -/
theorem site_marks {t : Topology} {K : Info} {st : StatusType} {fs : List Top} (h : statusTop t K st = .ok fs)
    (ty : SiteType) :
    subMarks fs (ty.str ++ " Sites") = ((sitesOf t K st).filter (·.siteType = ty)).map (siteMark K) := by
  rcases statusTop_ok h with ⟨rfl, hs, -⟩ | ⟨f, ls, rfl, -, -, -, hsub, hl⟩
  · rw [hs]; rfl
  · unfold subMarks
    rw [List.flatMap_cons, List.flatMap_nil, List.append_nil, hsub, List.filter_append]
    have e1 : ls.filter (·.name = ty.str ++ " Sites") = [] := by
      refine List.filter_eq_nil_iff.2 fun x hx => ?_
      obtain ⟨g, -, hg⟩ := forall₂_mem_right hl hx
      rw [(linkSub_ok hg).1]
      simpa using siteName_ne.symm
    rw [e1, List.append_nil, ← groupOn_filter (·.siteType) (sitesOf t K st) ty, List.filter_map]
    have e2 : (fun g : SiteType × List Site => decide ((siteSub K st g).name = ty.str ++ " Sites")) =
        fun g => decide (g.1 = ty) := by
      funext g
      exact decide_eq_decide.2 siteName_inj
    simp only [Function.comp_def, e2]
    generalize (groupOn (·.siteType) (sitesOf t K st)).filter (fun g => decide (g.1 = ty)) = gs
    induction gs with
    | nil => rfl
    | cons g gs ih => rw [List.map_cons, List.flatMap_cons, ih, List.flatMap_cons, List.map_append]; rfl

theorem forall₂_filter_flat {α β γ : Type} {P : α → β → Prop} {p : α → Bool} {q : β → Bool} {L : List α} {M : List β}
    (h : List.Forall₂ P L M) (hp : ∀ a b, P a b → p a = q b) : List.Forall₂ P (L.filter p) (M.filter q) := by
  induction h with
  | nil => exact .nil
  | @cons a b L M hab _ ih =>
    have e := hp a b hab
    cases hq : q b with
    | true => rw [List.filter_cons_of_pos (e.trans hq), List.filter_cons_of_pos hq]; exact .cons hab ih
    | false =>
      rw [List.filter_cons_of_neg (by rw [e, hq]; simp), List.filter_cons_of_neg (by rw [hq]; simp)]; exact ih

/-- The placemarks of the links of a status and type. -/
theorem link_marks {t : Topology} {K : Info} {st : StatusType} {fs : List Top} (h : statusTop t K st = .ok fs)
    (ty : LinkType) :
    List.Forall₂ (fun l m => linkMark t K l = .ok m)
      (orderLinks t K ((linksOf t st).filter (t.linkType · = ty))) (subMarks fs (ty.str ++ " Links")) := by
  rcases statusTop_ok h with ⟨rfl, -, hs⟩ | ⟨f, ls, rfl, -, -, -, hsub, hl⟩
  · rw [hs]; exact .nil
  · unfold subMarks
    rw [List.flatMap_cons, List.flatMap_nil, List.append_nil, hsub, List.filter_append]
    have e1 : ((groupOn (·.siteType) (sitesOf t K st)).map (siteSub K st)).filter (·.name = ty.str ++ " Links") = [] := by
      refine List.filter_eq_nil_iff.2 fun x hx => ?_
      obtain ⟨g, -, rfl⟩ := List.mem_map.1 hx
      simp only [decide_eq_true_eq]
      exact siteName_ne
    rw [e1, List.nil_append]
    have hf : List.Forall₂ (fun g s => linkSub t K st g = .ok s)
        ((groupOn t.linkType (linksOf t st)).filter (·.1 = ty)) (ls.filter (·.name = ty.str ++ " Links")) := by
      refine forall₂_filter_flat (γ := Unit) hl fun g s hg => ?_
      rw [(linkSub_ok hg).1]
      exact decide_eq_decide.2 linkName_inj.symm
    rcases groupOn_one t.linkType linkRank linkRank_inj _ (linksOf_sorted t st) ty with ⟨h1, h2⟩ | h1
    · rw [h1] at hf
      rw [List.forall₂_nil_left_iff.1 hf, h2]
      exact .nil
    · rw [h1] at hf
      generalize ls.filter (·.name = ty.str ++ " Links") = ms at hf
      rcases hf with _ | ⟨hg, hf⟩
      cases hf
      rw [List.flatMap_cons, List.flatMap_nil, List.append_nil]
      exact (linkSub_ok hg).2

theorem says_escape {m : Mark} {k s : String} (h : (k, Val.text (escape s)) ∈ m.data) : Says m k s :=
  ⟨_, h, readText_escape s⟩

theorem siteMark_shows (K : Info) (s : Site) : ShowsSite K s (siteMark K s) where
  name := readText_escape _
  coords := rfl
  mode := by unfold siteMark altMode; cases s.alt <;> rfl
  typ := says_escape (by simp [siteMark])
  status := says_escape (by simp [siteMark])
  sku := says_escape (by simp [siteMark])
  loc := says_escape (by simp [siteMark])
  subs := by simp [siteMark]

theorem altMode_eq {a b : Option ℚ} : altMode a = altMode b ↔ (a.isSome ↔ b.isSome) := by
  cases a <;> cases b <;> simp [altMode]

theorem linkMark_shows {t : Topology} {K : Info} {l : Link} {m : Mark} (h : linkMark t K l = .ok m) :
    ShowsLink t K l m := by
  unfold linkMark at h
  cases ha : t.sites.get? l.tx with
  | none => rw [ha] at h; cases h
  | some a =>
    cases hb : t.sites.get? l.rx with
    | none => rw [ha, hb] at h; cases h
    | some b =>
      rw [ha, hb] at h
      dsimp only at h
      split at h
      · cases h
      rename_i hm
      rw [not_not] at hm
      cases hc : t.linkChannelE l with
      | error e => rw [hc] at h; cases h
      | ok c =>
        rw [hc] at h
        dsimp only at h
        cases hr : t.getLinkBySiteIds l.rx l.tx with
        | error e => rw [hr] at h; cases h
        | ok r =>
          rw [hr] at h
          rw [Except.ok.injEq] at h
          rw [← h]
          refine ⟨rfl, ⟨a, b, ha, hb, rfl, altMode_eq.1 hm, ?_⟩, says_escape (by simp), says_escape (by simp),
            says_escape (by simp), says_escape (by simp), fun n => ?_⟩
          · dsimp only
            unfold altMode
            cases a.alt <;> rfl
          · have hv := linkChannelE_val hc n
            have e1 : (("Channel", Val.int n) ∈ [("Link Type", Val.text (escape (t.linkType l).str)),
                ("Tx Site Name", .text (escape (K.name l.tx))), ("Rx Site Name", .text (escape (K.name l.rx))),
                ("Status", .text (escape l.status.str)), ("Confidence Level", orNA (l.confidence.map K.round)),
                ("Channel", channelVal c)]) ↔ channelLabel c = some (n : Int) := by
              simp only [List.mem_cons, Prod.mk.injEq, List.not_mem_nil, or_false]
              have k1 : ("Channel" = "Link Type") = False := by decide
              have k2 : ("Channel" = "Tx Site Name") = False := by decide
              have k3 : ("Channel" = "Rx Site Name") = False := by decide
              have k4 : ("Channel" = "Status") = False := by decide
              have k5 : ("Channel" = "Confidence Level") = False := by decide
              simp only [k1, k2, k3, k4, k5, false_and, false_or, true_and]
              unfold channelVal channelLabel
              split
              · rename_i hc0
                simp only [Val.int.injEq, Option.some.injEq]
                omega
              · simp
            rw [e1, hv]
            constructor
            · rintro ⟨h1, a, b, x, h2, h3, h4, -⟩; exact ⟨h1, a, b, x, h2, h3, h4⟩
            · rintro ⟨h1, a, b, x, h2, h3, h4⟩; exact ⟨h1, a, b, x, h2, h3, h4, by omega⟩

/-- **C137.** The folder of a status and a type of sites shows exactly the sites of that status and type, each once, in
the order of their names. -/
theorem C137_sites (ops : List Op) (K : Info) (d : Doc) (h : write (run {} ops) K = .ok d) (st : StatusType)
    (ty : SiteType) :
    ∃ xs : List Site, xs.Nodup ∧
      (∀ s, s ∈ xs ↔ (run {} ops).sites.get? s.id = some s ∧ s.status = st ∧ s.siteType = ty) ∧
      xs.Pairwise (fun a b => K.name a.id ≤ K.name b.id) ∧
      List.Forall₂ (ShowsSite K) xs (d.marksAt st.str (ty.str ++ " Sites")) := by
  have inv := Inv.empty.run ops
  generalize run {} ops = t at *
  obtain ⟨fs, h1, h2⟩ := marksAt_status h st
  refine ⟨(sitesOf t K st).filter (·.siteType = ty), ?_, ?_, ?_, ?_⟩
  · have nd : t.sites.vals.Nodup :=
      Dict.nodup_vals_of_inj inv.nd_sites Site.id fun id s hs => (inv.site_id id s hs).symm
    exact (((sitesOf_perm t K st).nodup_iff).2 (nd.filter _)).filter _
  · intro s
    rw [List.mem_filter, (sitesOf_perm t K st).mem_iff, List.mem_filter]
    simp only [decide_eq_true_eq]
    have : s ∈ t.sites.vals ↔ t.sites.get? s.id = some s := by
      constructor
      · intro hs
        obtain ⟨⟨i, s⟩, hi, rfl⟩ := List.mem_map.1 hs
        have hg := (Dict.mem_iff_get? inv.nd_sites _ _).1 hi
        have := inv.site_id _ _ hg
        dsimp only
        rw [this]; exact hg
      · intro hs
        exact List.mem_map.2 ⟨_, (Dict.mem_iff_get? inv.nd_sites _ _).2 hs, rfl⟩
    rw [this]
    tauto
  · refine List.Pairwise.imp_of_mem ?_ ((sitesOf_sorted t K st).filter _)
    intro a b ha hb hab
    have ha := (List.mem_filter.1 ha).2
    have hb := (List.mem_filter.1 hb).2
    simp only [decide_eq_true_eq] at ha hb
    rw [ha, hb] at hab
    rcases hab with hab | hab
    · exact absurd hab (lt_irrefl _)
    · exact not_lt.1 hab.2
  · rw [h2, site_marks h1]
    generalize (sitesOf t K st).filter (·.siteType = ty) = xs
    induction xs with
    | nil => exact .nil
    | cons x xs ih => exact .cons (siteMark_shows K x) ih

/-- **C137.** The folder of a status and a type of links shows exactly the links of that status and type, each once.
Links between the same places follow each other, the busiest first. -/
theorem C137_links (ops : List Op) (K : Info) (d : Doc) (h : write (run {} ops) K = .ok d) (st : StatusType)
    (ty : LinkType) :
    ∃ xs : List Link, xs.Nodup ∧
      (∀ l, l ∈ xs ↔ (run {} ops).links.get? ⟨l.tx, l.rx⟩ = some l ∧ l.status = st ∧ (run {} ops).linkType l = ty) ∧
      xs.Pairwise (fun a b => (run {} ops).linkHash a < (run {} ops).linkHash b ∨
        (run {} ops).linkHash a = (run {} ops).linkHash b ∧ K.util ⟨b.tx, b.rx⟩ ≤ K.util ⟨a.tx, a.rx⟩) ∧
      List.Forall₂ (ShowsLink (run {} ops) K) xs (d.marksAt st.str (ty.str ++ " Links")) := by
  have inv := Inv.empty.run ops
  generalize run {} ops = t at *
  obtain ⟨fs, h1, h2⟩ := marksAt_status h st
  refine ⟨orderLinks t K ((linksOf t st).filter (t.linkType · = ty)), ?_, ?_, orderLinks_sorted t K _, ?_⟩
  · refine ((orderLinks_perm t K _).nodup_iff).2 (List.Nodup.filter _ ?_)
    exact ((linksOf_perm t st).nodup_iff).2 ((vals_nodup inv).filter _)
  · intro l
    rw [(orderLinks_perm t K _).mem_iff, List.mem_filter, (linksOf_perm t st).mem_iff, List.mem_filter,
      mem_vals_iff inv]
    simp only [decide_eq_true_eq]
    tauto
  · rw [h2]
    exact (link_marks h1 ty).imp fun l m hm => linkMark_shows hm

end Kml
end Verif
