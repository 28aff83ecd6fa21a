import Verif.Model.LosBuild
import Verif.Model.LosPick
import Verif.Model.LosInput

/-!
# The LOS phase: `los/core.py:89-165, 363-437`

The sites that were read or detected, with their places, are given; the confidence of a pair of places and the
distances and angles between sites are parameters.
-/

namespace Verif
open Topology

/-- A site of the list of all sites, `los/helper.py:278`: one given by the user or in the base topology, or one that
was detected on a roof, with the sites it stands for as a DN and, copied, as a CN (`los/helper.py:626-640`,
`building_group.py:157-171`). -/
inductive LosPoint
  | given (s : Site) (place : LosSite)
  | detected (dn cn : Device → Site) (place : LosSite)

namespace LosPoint

/-- Where it is. -/
def place : LosPoint → LosSite
  | given _ p => p
  | detected _ _ p => p

/-- Its type; detected sites are DNs at first. -/
def typ : LosPoint → SiteType
  | given s _ => s.siteType
  | detected _ _ _ => .dn

/-- As an entry of the list of sites. -/
def item : LosPoint → LosItem
  | given s _ => .given s
  | detected dn _ _ => .detected .dn dn

/-- Its copy as a CN; only detected sites are copied. -/
def copy : LosPoint → LosItem
  | given s _ => .given s
  | detected _ cn _ => .detected .cn cn

end LosPoint

/-- `pre_los_check`, `los/helper.py:82-112`; `detection` is whether building outlines are given. -/
def preLosCheck (detection : Bool) (D : DetectCfg) (dnDeployment : Bool) (devs : List Device) : Option Err :=
  if detection && (D.centre || D.corners || D.highest) then
    if !devs.any (fun d => d.deviceType == .cn) then some .los
    else if dnDeployment && !devs.any (fun d => d.deviceType == .dn) then some .los
    else none
  else none

/-- `all_sites`, `los/helper.py:276-278`. -/
def losPoints (fresh : List LosPoint) (base : Topology) (place : Site → LosSite) : List LosPoint :=
  fresh ++ base.sites.vals.map fun s => .given s (place s)

/-- The lines of sight found, `los/core.py:140-153`; `BATCH_SIZE = 1000`. -/
def losFound (conf : LosSite → LosSite → ℚ) (fresh : List LosPoint) (base : Topology) (place : Site → LosSite) :
    List (ValidLos ℚ) :=
  computeLos conf (fun c => decide (0 < c)) 1000 ((losPoints fresh base place).map LosPoint.place)
    (losCandidates ((losPoints fresh base place).map LosPoint.typ) fresh.length)

/-- `build_candidate_topology`, `los/core.py:367-437`. The confidences in `P` are replaced by those found. -/
def buildCandidates (P : LosLimits) (order : List Nat → List Nat) (detection dnDeployment : Bool) (devs : List Device)
    (points : List LosPoint) (base : Topology) (links : List (ValidLos ℚ)) : Except Err Topology :=
  match selectSites order detection dnDeployment (points.map LosPoint.typ) (points.map fun p => p.place.building)
      links with
  | .error e => .error e
  | .ok S => constructLos { P with conf := S.conf } devs base
      (points.map LosPoint.item ++ S.origin.filterMap fun o => points[o]?.map LosPoint.copy) S.rx S.picked

/-- `generate_candidate_topology`, `los/core.py:89-165`, from the sites `fresh` read or detected and the base topology.
The check is the first step, before the files are read. -/
def generateCandidates (conf : LosSite → LosSite → ℚ) (P : LosLimits) (order : List Nat → List Nat)
    (detection dnDeployment : Bool) (D : DetectCfg) (devs : List Device) (fresh : List LosPoint) (base : Topology)
    (place : Site → LosSite) : Except Err Topology :=
  match preLosCheck detection D dnDeployment devs with
  | some e => .error e
  | none => buildCandidates P order detection dnDeployment devs (losPoints fresh base place) base
      (losFound conf fresh base place)

end Verif
