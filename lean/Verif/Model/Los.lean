import Verif.Base
import Verif.Model.Enums
import Mathlib.Data.Rat.Defs
import Mathlib.Algebra.Order.Field.Rat
import Mathlib.Data.List.Perm.Basic

/-!
# Candidate pairs, batches and picked sites of the LOS phase

`terragraph_planner/los/core.py` and `los/helper.py`. Sites are referred to by their position in the list of all
sites, as in the code. The confidence of a pair is a parameter here; `Verif.Model.LosGeom` has the validator.
-/

namespace Verif

/-- `CandidateLOS`, `common/structs.py:20-23`. -/
structure CandidateLos where
  site1 : Nat
  site2 : Nat
  both : Bool
  deriving DecidableEq, Repr

/-- `BI_DIRECTIONAL_LINKS`, `los/constants.py:13-21`. -/
def biLinks : List (SiteType × SiteType) := [(.pop, .dn), (.dn, .dn), (.dn, .pop)]

/-- `DIRECTED_LINKS`, `los/constants.py:33-36`. -/
def directedLinks : List (SiteType × SiteType) := [(.pop, .cn), (.dn, .cn)]

/-- The candidate for one pair of sites, `los/helper.py:287-297`. -/
def candidateOf (types : List SiteType) (i j : Nat) : List CandidateLos :=
  match types[i]?, types[j]? with
  | some a, some b =>
    if biLinks.contains (a, b) then [⟨i, j, true⟩]
    else if directedLinks.contains (a, b) then [⟨i, j, false⟩]
    else if directedLinks.contains (b, a) then [⟨j, i, false⟩]
    else []
  | _, _ => []

/-- The candidate links of `get_los_topology`, `los/helper.py:282-297`. `types` are the types of all sites, of
which the first `fresh` are input or detected ones and the others those of the base topology. -/
def losCandidates (types : List SiteType) (fresh : Nat) : List CandidateLos :=
  (List.range fresh).flatMap fun i =>
    ((List.range types.length).filter fun j => decide (i + 1 ≤ j)).flatMap fun j => candidateOf types i j

/-- `LOSSite`, `topology_models/site.py:249-258`. -/
structure LosSite where
  x : ℚ
  y : ℚ
  alt : Option ℚ
  loc : LocationType := .unknown
  building : Option Int := none
  deriving DecidableEq, Repr

/-- `(site.utm_x, site.utm_y, site.altitude)`, `los/helper.py:559-560`. -/
def LosSite.key (s : LosSite) : ℚ × ℚ × Option ℚ := (s.x, s.y, s.alt)

/-- The key of a pair in `memoized_calculations`. -/
abbrev MemoKey := (ℚ × ℚ × Option ℚ) × (ℚ × ℚ × Option ℚ)

/-- `ValidLOS`, `common/structs.py:52-55`. -/
structure ValidLos (K : Type) where
  tx : Nat
  rx : Nat
  confidence : K
  deriving DecidableEq, Repr

variable {K : Type}

/-- The lookup in the memo, `los/helper.py:561-567`: the confidence and the memo afterwards. -/
def memoConfidence (conf : LosSite → LosSite → K) (memo : Dict MemoKey K) (a b : LosSite) : K × Dict MemoKey K :=
  match memo.get? (a.key, b.key) with
  | some c => (c, memo)
  | none => match memo.get? (b.key, a.key) with
    | some c => (c, memo)
    | none => (conf a b, memo.set (a.key, b.key) (conf a b))

/-- The links for a candidate with confidence `c`, `los/helper.py:569-578`; `pos` is `confidence > 0`. -/
def validLinks (pos : K → Bool) (l : CandidateLos) (c : K) : List (ValidLos K) :=
  if pos c then ⟨l.site1, l.site2, c⟩ :: (if l.both then [⟨l.site2, l.site1, c⟩] else []) else []

/-- The loop of `compute_los_batch`, `los/helper.py:554-579`. Positions outside the list do not occur, they are
skipped here. -/
def losBatch (conf : LosSite → LosSite → K) (pos : K → Bool) (sites : List LosSite) :
    Dict MemoKey K → List CandidateLos → List (ValidLos K)
  | _, [] => []
  | memo, l :: rest =>
    match sites[l.site1]?, sites[l.site2]? with
    | some a, some b =>
      validLinks pos l (memoConfidence conf memo a b).1
        ++ losBatch conf pos sites (memoConfidence conf memo a b).2 rest
    | _, _ => losBatch conf pos sites memo rest

/-- The batches, `los/core.py:343-352`; `size` is `BATCH_SIZE`. -/
def losBatches (size : Nat) (ls : List CandidateLos) : List (List CandidateLos) :=
  (List.range ((ls.length + size - 1) / size)).map fun i =>
    (ls.take (min ((i + 1) * size) ls.length)).drop (i * size)

/-- `compute_los`, `los/core.py:292-360`, for a given list of candidates. -/
def computeLos (conf : LosSite → LosSite → K) (pos : K → Bool) (size : Nat) (sites : List LosSite)
    (ls : List CandidateLos) : List (ValidLos K) :=
  (losBatches size ls).flatMap (losBatch conf pos sites [])

/-- The sets of `get_site_connectable_status`, `los/helper.py:688-691`. -/
structure Status4 where
  connected : List Nat := []
  unconnected : List Nat := []
  connectable : List Nat := []
  other : List Nat := []
  deriving DecidableEq, Repr

/-- The loop over the neighbours of a site, `los/helper.py:706-713`; with the sites to explore. -/
def exploreStep : Status4 × List Nat → List Nat → Status4 × List Nat
  | S, [] => S
  | (S, q), r :: rest =>
    if S.unconnected.contains r then
      exploreStep ({ S with unconnected := S.unconnected.filter (· ≠ r), connected := r :: S.connected }, q ++ [r]) rest
    else if S.other.contains r then
      exploreStep ({ S with other := S.other.filter (· ≠ r), connectable := r :: S.connectable }, q) rest
    else exploreStep (S, q) rest

/-- The BFS, `los/helper.py:703-713`, for at most `fuel` sites. -/
def explore (rx : List (List Nat)) : Nat → Status4 × List Nat → Status4 × List Nat
  | 0, S => S
  | _ + 1, (S, []) => (S, [])
  | n + 1, (S, t :: q) => explore rx n (exploreStep (S, q) ((rx[t]?).getD []))

/-- `get_site_connectable_status`, `los/helper.py:657-720`. Each site is explored at most once, so that the number
of sites suffices as fuel. -/
def connectableStatus (types : List SiteType) (rx : List (List Nat)) (picked : List Nat) : Status4 :=
  let pops := (List.range types.length).filter fun i => types[i]? = some .pop && picked.contains i
  let S : Status4 :=
    { connected := pops
      unconnected := picked.dedup.filter fun i => !pops.contains i
      connectable := []
      other := (List.range types.length).filter fun i => !picked.contains i }
  (explore rx types.length (S, pops)).1

/-- The best potential DN for a CN, `los/helper.py:772-790`: the first of the most unconnected CNs among its
neighbours, with these. -/
def bestDn (rx : List (List Nat)) (cns : List Nat) : Option Nat × List Nat → List Nat → Option Nat × List Nat
  | b, [] => b
  | b, d :: rest =>
    let ns := ((rx[d]?).getD []).filter fun r => cns.contains r
    bestDn rx cns (if ns.length > b.2.length then (some d, ns) else b) rest

/-- The update of the neighbours of a selected DN, `los/helper.py:801-807`. -/
def coverStep : Status4 → List Nat → Status4
  | S, [] => S
  | S, r :: rest =>
    if S.other.contains r then
      coverStep { S with other := S.other.filter (· ≠ r), connectable := r :: S.connectable } rest
    else if S.unconnected.contains r then
      coverStep { S with unconnected := S.unconnected.filter (· ≠ r), connected := r :: S.connected } rest
    else coverStep S rest

/-- The loop of `select_additional_dns`, `los/helper.py:760-809`, with the sites selected so far in reverse order
and the unconnected CNs. -/
def selectLoop (rx tx : List (List Nat)) : Nat → Status4 → List Nat → List Nat → List (Nat × Nat) → List Nat
  | 0, _, _, acc, _ => acc.reverse
  | _ + 1, _, _, acc, [] => acc.reverse
  | n + 1, S, cns, acc, (c, tries) :: q =>
    if cns.contains c then
      match bestDn rx cns (none, []) (((tx[c]?).getD []).filter fun d => S.connectable.contains d) with
      | (some d, ns) =>
        selectLoop rx tx n
          (coverStep { S with connected := d :: S.connected, connectable := S.connectable.filter (· ≠ d) }
            ((rx[d]?).getD []))
          (cns.filter fun r => !ns.contains r) (d :: acc) q
      | (none, _) =>
        if tries < 3 then selectLoop rx tx n S cns acc (q ++ [(c, tries + 1)]) else selectLoop rx tx n S cns acc q
    else selectLoop rx tx n S cns acc q

/-- `select_additional_dns`, `los/helper.py:717-811`. `order` is the order in which the set of unconnected CNs is
iterated. Each CN is tried at most three times, so that three times their number suffices as fuel. -/
def additionalDns (order : List Nat → List Nat) (types : List SiteType) (rx tx : List (List Nat))
    (picked : List Nat) : List Nat :=
  let S := connectableStatus types rx picked
  let cns := S.unconnected.filter fun i => types[i]? = some .cn
  selectLoop rx tx (3 * cns.length + 1) S cns [] ((order cns).map fun c => (c, 1))

end Verif
