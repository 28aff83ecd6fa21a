import Verif.Model.Los

/-!
# The sites picked on each building

`pick_best_sites_per_building`, `terragraph_planner/los/helper.py:582-654`.
-/

namespace Verif

variable {K : Type}

/-- The building of a detected site; user input has none or the unknown one, `los/helper.py:614-615`. -/
def onBuilding (b : Option Int) : Option Int :=
  match b with
  | some k => if k > -1 then some k else none
  | none => none

/-- `building_to_sites`, `los/helper.py:612-619`, from position `i`. -/
def groupByBuilding : Nat → List (Option Int) → Dict Int (List Nat) → Dict Int (List Nat)
  | _, [], D => D
  | i, b :: rest, D =>
    match onBuilding b with
    | some k => groupByBuilding (i + 1) rest (D.set k ((D.get? k).getD [] ++ [i]))
    | none => groupByBuilding (i + 1) rest D

/-- The sites without building, `los/helper.py:617-619`, from position `i`. -/
def withoutBuilding : Nat → List (Option Int) → List Nat
  | _, [] => []
  | i, b :: rest => match onBuilding b with
    | some _ => withoutBuilding (i + 1) rest
    | none => i :: withoutBuilding (i + 1) rest

/-- The lists that `pick_best_sites_per_building` updates. -/
structure PickState (K : Type) where
  types : List SiteType
  buildings : List (Option Int)
  rx : List (List Nat)
  tx : List (List Nat)
  conf : Dict (Nat × Nat) K
  picked : List Nat
  /-- The sites of which the appended ones are copies, `los/helper.py:629-641`. -/
  origin : List Nat

/-- The first of a list sorted stably by decreasing value, `los/helper.py:622-624`. -/
def firstMax (f : Nat → Nat) : Nat → List Nat → Nat
  | i, [] => i
  | i, j :: rest => if f j > f i then firstMax f j rest else firstMax f i rest

/-- The loop over the transmitters of the new CN, `los/helper.py:646-650`. -/
def linkCn (dn cn : Nat) : List Nat → List (List Nat) × Dict (Nat × Nat) K →
    Except Err (List (List Nat) × Dict (Nat × Nat) K)
  | [], S => .ok S
  | t :: rest, (rx, conf) =>
    match conf.get? (dn, t) with
    | none => .error .keyError
    | some c => linkCn dn cn rest (rx.modify t (· ++ [cn]), conf.set (t, cn) c)

/-- The loop body for a building, `los/helper.py:621-652`. The list of sites on a building is never empty. -/
def pickOne (dnDeployment : Bool) (S : PickState K) (k : Int) : List Nat → Except Err (PickState K)
  | [] => .ok S
  | i :: rest =>
    let dn := firstMax (fun j => ((S.rx[j]?).getD []).length) i rest
    let cn := S.types.length
    match linkCn dn cn ((S.tx[dn]?).getD []) (S.rx ++ [[]], S.conf) with
    | .error e => .error e
    | .ok (rx, conf) => .ok
      { types := S.types ++ [.cn]
        buildings := S.buildings ++ [some k]
        rx := rx
        tx := S.tx ++ [(S.tx[dn]?).getD []]
        conf := conf
        picked := S.picked ++ (if dnDeployment then [dn] else []) ++ [cn]
        origin := S.origin ++ [dn] }

/-- The loop over the buildings, `los/helper.py:621-652`. -/
def pickAll (dnDeployment : Bool) : PickState K → Dict Int (List Nat) → Except Err (PickState K)
  | S, [] => .ok S
  | S, (k, L) :: rest => match pickOne dnDeployment S k L with
    | .error e => .error e
    | .ok S1 => pickAll dnDeployment S1 rest

/-- `pick_best_sites_per_building`, `los/helper.py:582-654`. -/
def pickBest (dnDeployment : Bool) (types : List SiteType) (buildings : List (Option Int)) (rx tx : List (List Nat))
    (conf : Dict (Nat × Nat) K) : Except Err (PickState K) :=
  pickAll dnDeployment ⟨types, buildings, rx, tx, conf, withoutBuilding 0 buildings, []⟩ (groupByBuilding 0 buildings [])

/-- The neighbours and the confidences of the LOS result, `los/core.py:402-409`. -/
def losNeighbors : List (ValidLos K) → List (List Nat) × List (List Nat) × Dict (Nat × Nat) K →
    List (List Nat) × List (List Nat) × Dict (Nat × Nat) K
  | [], S => S
  | l :: rest, (rx, tx, conf) =>
    losNeighbors rest (rx.modify l.tx (· ++ [l.rx]), tx.modify l.rx (· ++ [l.tx]), conf.set (l.tx, l.rx) l.confidence)

/-- The site selection of `build_candidate_topology`, `los/core.py:399-428`: the updated lists and the picked and
additional sites. `order` is as in `additionalDns`. -/
def selectSites (order : List Nat → List Nat) (detection dnDeployment : Bool) (types : List SiteType)
    (buildings : List (Option Int)) (links : List (ValidLos K)) : Except Err (PickState K) :=
  let N := losNeighbors links (types.map fun _ => [], types.map fun _ => [], [])
  if detection then
    match pickBest dnDeployment types buildings N.1 N.2.1 N.2.2 with
    | .error e => .error e
    | .ok S => .ok { S with picked := S.picked ++ additionalDns order S.types S.rx S.tx S.picked }
  else .ok ⟨types, buildings, N.1, N.2.1, N.2.2, List.range types.length, []⟩

end Verif
