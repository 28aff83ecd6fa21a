import Verif.Model.NxReport
import Mathlib.Data.List.Sort
import Mathlib.Data.Prod.Lex
import Mathlib.Algebra.Order.Ring.Rat
import Mathlib.Data.String.Basic

/-!
# The availability simulation

`terragraph_planner/optimization/topology_availability.py`. Times are exact rationals, the random
times to failure and repair are given.
-/

namespace Verif

/-- `_FAILED`, `_REPAIRED`, `_SIM_END`, `topology_availability.py:83-85`. -/
inductive EvKind
  | failed | repaired | simEnd
  deriving DecidableEq, Repr

/-- The number of the kind. -/
def EvKind.rank : EvKind → Nat
  | .failed => 0
  | .repaired => 1
  | .simEnd => 2

/-- An event; the key of the end is `("", "")`, here `none`. -/
structure Ev where
  time : ℚ
  key : Option GEdge
  kind : EvKind
  deriving DecidableEq, Repr

/-- The tuple `(time, (u, v), kind)` by which the heap orders events. -/
def Ev.tuple (e : Ev) : ℚ ×ₗ String ×ₗ String ×ₗ Nat :=
  toLex (e.time, toLex ((e.key.map (·.1.str)).getD "", toLex ((e.key.map (·.2.str)).getD "", e.kind.rank)))

/-- Comparison of tuples. -/
def Ev.le (a b : Ev) : Prop := a.tuple ≤ b.tuple

instance : DecidableRel Ev.le := fun a b => inferInstanceAs (Decidable (a.tuple ≤ b.tuple))

/-- The times of failure and repair of one link, `topology_availability.py:107-115`, for given times to
failure and to repair; the list is taken to be long enough. -/
def outages (sim : ℚ) : ℚ → List (ℚ × ℚ) → List (ℚ × ℚ)
  | _, [] => []
  | curr, (ttf, ttr) :: rest =>
    if curr < sim then (curr + ttf, curr + ttf + ttr) :: outages sim (curr + ttf + ttr) rest else []

/-- The events pushed for the link `k`, `topology_availability.py:109-115`. -/
def linkEvents (k : GEdge) : List (ℚ × ℚ) → List Ev
  | [] => []
  | (f, r) :: rest => ⟨f, some k, .failed⟩ :: ⟨r, some k, .repaired⟩ :: linkEvents k rest

namespace Graph

/-- The links that can fail, `topology_availability.py:91-104,117`: keys of wireless backhaul edges, each
once. Raises if one has no reverse edge. -/
def failing (G : Graph) : List GEdge → List (GEdge × EdgeAttr) → Except Err (List GEdge)
  | done, [] => .ok done
  | done, ((u, v), a) :: rest =>
    if a.kind ≠ some (.link .wirelessBackhaul) then G.failing done rest
    else if done.contains (sortedEdge u v) then G.failing done rest
    else if G.hasEdge v u then G.failing (done ++ [sortedEdge u v]) rest
    else .error .optimizer

/-- All events in the order in which the heap yields them, `topology_availability.py:86-117,133`. -/
def events (sim : ℚ) (draws : GEdge → List (ℚ × ℚ)) (L : List GEdge) : List Ev :=
  (⟨sim, none, .simEnd⟩ :: L.flatMap fun k => linkEvents k (outages sim 0 (draws k))).insertionSort Ev.le

/-- What the simulation keeps. -/
structure SimState where
  graph : Graph
  last : ℚ := 0
  demand : Dict GNode ℚ
  link : Dict GEdge ℚ
  missing : List GEdge := []

/-- Add the time since the last event to all that is up, `topology_availability.py:139-150`. -/
def SimState.advance (s : SimState) (sim : ℚ) (e : Ev) (S : List GNode) : SimState :=
  let dT := (e.time - s.last) / sim
  { s with
    demand := s.demand.map fun x => (x.1, if S.contains x.1 then x.2 + dT else x.2)
    link := s.link.map fun x => (x.1, if s.missing.contains x.1 then x.2 else x.2 + dT)
    last := e.time }

/-- Carry out an event, `topology_availability.py:153-171`. -/
def SimState.change (s : SimState) (k : GEdge) : EvKind → Except Err SimState
  | .repaired =>
    if s.missing.contains k then
      .ok { s with graph := (s.graph.addEdge k.1 k.2 {}).addEdge k.2 k.1 {}, missing := s.missing.erase k }
    else .error .optimizer
  | _ =>
    match s.graph.removeEdge k.1 k.2 with
    | .error e => .error e
    | .ok G1 =>
      match G1.removeEdge k.2 k.1 with
      | .error e => .error e
      | .ok G2 =>
        if s.missing.contains k then .error .optimizer
        else .ok { s with graph := G2, missing := k :: s.missing }

/-- The main loop, `topology_availability.py:127-195`. `late n` says whether the time limit is exceeded
after `n` more events. -/
def simulate (sim : ℚ) : (Nat → Bool) → SimState → List Ev → Except Err SimState
  | _, s, [] => .ok s
  | late, s, e :: rest =>
    if sim < e.time then .error .optimizer
    else match s.graph.descendants with
      | .error x => .error x
      | .ok S =>
        let s1 := s.advance sim e S
        match e.key, e.kind with
        | _, .simEnd => .ok s1
        | none, _ => .error .planner
        | some k, kind =>
          match s1.change k kind with
          | .error x => .error x
          | .ok s2 =>
            if late 0 then
              if e.time = 0 ∧ s2.demand ≠ [] then .error .zeroDivision
              else .ok { s2 with demand := s2.demand.map fun x => (x.1, x.2 * sim / e.time) }
            else simulate sim (fun n => late (n + 1)) s2 rest

/-- `compute_availability`, `topology_availability.py:29-198`; `percent` is `link_availability`, which
apart from the check only shapes the random times. The result is the availability of each demand site and
of each link. -/
def availability (G : Graph) (percent sim : ℚ) (draws : GEdge → List (ℚ × ℚ)) (late : Nat → Bool) :
    Except Err (Dict GNode ℚ × Dict GEdge ℚ) :=
  if ¬ (0 ≤ percent ∧ percent ≤ 100) then .error .optimizer
  else if ¬ 0 < sim then .error .optimizer
  else match G.connectedDemands with
    | .error e => .error e
    | .ok C =>
      match G.failing [] G.edges with
      | .error e => .error e
      | .ok L =>
        match simulate sim late { graph := G, demand := C.map (·, 0), link := L.map (·, 0) }
            (events sim draws L) with
        | .error e => .error e
        | .ok s => .ok (s.demand, s.link)

end Graph

/-- The availability part of `analyze`, `topology_report.py:105-141`: the simulation runs on the graph
that `disjoint_paths` leaves (the failure reports work on copies). -/
def reportAvailability (t : Topology) (cost : Link → Option Nat) (paths : Paths) (percent sim : ℚ)
    (draws : GEdge → List (ℚ × ℚ)) (late : Nat → Bool) : Except Err (Dict GNode ℚ × Dict GEdge ℚ) :=
  match disjointPaths t paths (t.buildDigraph StatusType.active cost) with
  | .error e => .error e
  | .ok (G, _) => G.availability percent sim draws late

end Verif
