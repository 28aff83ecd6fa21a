import Verif.Model.Extract

/-!
# Loop pruning, `network_optimization.py:895-988`

`_prune_loop` recurses and contains a `while`; the model takes fuel and answers
`none` when it runs out. Flows are exact rationals.
-/

namespace Verif
namespace Plan

/-- The mutable state: `flows` and the locations with `is_loop_free[loc]`, the
latest first. -/
structure PruneState where
  flow : Arc → ℚ
  free : List Loc

/-- `flows[(i, j)] -= r`. -/
def PruneState.reduce (s : PruneState) (e : Arc) (r : ℚ) : PruneState :=
  { s with flow := fun e' => if e' = e then s.flow e - r else s.flow e' }

/-- `is_loop_free[i] = True`. -/
def PruneState.setFree (s : PruneState) (i : Loc) : PruneState :=
  { s with free := if i ∈ s.free then s.free else i :: s.free }

/-- What remains to be done by one activation of `_prune_loop`. -/
inductive PruneTask
  /-- Calling `_prune_loop(i, min_flows)`. -/
  | call (i : Loc) (mins : Dict Loc ℚ)
  /-- The iterations of the `for` loop of `_prune_loop(i, min_flows)` for `js`, and the return. -/
  | edges (i : Loc) (mins : Dict Loc ℚ) (js : List Loc)
  /-- The next recursive call in the `while` loop, lines 932 and 972, then the
  iterations for `js`. -/
  | search (i : Loc) (mins : Dict Loc ℚ) (js : List Loc) (j : Loc) (latest : Dict Loc ℚ)

/-- `{loc: min(min_flows[loc], q) for loc in min_flows}`, lines 919-922 and 967-970. -/
def capMins (mins : Dict Loc ℚ) (q : ℚ) : Dict Loc ℚ := mins.map fun e => (e.1, min e.2 q)

/-- `_prune_loop`, `network_optimization.py:909-977`. `succ` is `i_to_j_map`. The
answer `none` inside the pair is `(None, inf)`. -/
def pruneLoop (succ : Loc → List Loc) : Nat → PruneTask → PruneState →
    Option (PruneState × Option (Loc × ℚ))
  | 0, _, _ => none
  | n + 1, .call i mins, s => pruneLoop succ n (.edges i mins (succ i)) s
  | _ + 1, .edges i _ [], s => some (s.setFree i, none)
  | n + 1, .edges i mins (j :: js), s =>
    if eps < s.flow (i, j) ∧ j ∉ s.free then
      let latest := (capMins mins (s.flow (i, j))).set i (s.flow (i, j))
      if mins.has j then
        let r := (latest.get? j).getD 0
        some (s.reduce (i, j) r, some (j, r))
      else pruneLoop succ n (.search i mins js j latest) s
    else pruneLoop succ n (.edges i mins js) s
  | n + 1, .search i mins js j latest, s =>
    match pruneLoop succ n (.call j latest) s with
    | none => none
    | some (s, none) => pruneLoop succ n (.edges i mins js) s
    | some (s, some (k, r)) =>
      let s := s.reduce (i, j) r
      if k ≠ i then some (s, some (k, r))
      else if |s.flow (i, j)| < eps ∨ j ∈ s.free then pruneLoop succ n (.edges i mins js) s
      else pruneLoop succ n (.search i mins js j (capMins latest (s.flow (i, j)))) s

/-- `while not is_loop_free[loc]: _prune_loop(loc, {})`, lines 981-982. -/
def pruneAt (succ : Loc → List Loc) : Nat → Loc → PruneState → Option PruneState
  | 0, _, _ => none
  | n + 1, l, s =>
    if l ∈ s.free then some s
    else (pruneLoop succ n (.call l []) s).bind fun r => pruneAt succ n l r.1

/-- `for loc in is_loop_free`, line 980. -/
def pruneAll (succ : Loc → List Loc) (n : Nat) : List Loc → PruneState → Option PruneState
  | [], s => some s
  | l :: ls, s => (pruneAt succ n l s).bind fun s => pruneAll succ n ls s

/-- `prune_loops(flows)` for a graph with the given locations and links. All
links have an entry in `flows`, in the order of `links`. -/
def pruneFlows (n : Nat) (locs : List Loc) (arcs : List Arc) (f : Arc → ℚ) : Option (Arc → ℚ) :=
  (pruneAll (fun i => (arcs.filter fun e => e.1 = i).map (·.2)) n locs ⟨f, []⟩).map (·.flow)

end Plan
end Verif
