import Verif.Model.Ilp
import Mathlib.Logic.Relation

/-! # What loop pruning should do -/

namespace Verif.Spec

/-- Flow into `v` minus flow out of `v`. -/
def netFlow (arcs : List Arc) (f : Arc → ℚ) (v : Loc) : ℚ :=
  ((arcs.filter fun e => e.2 = v).map f).sum - ((arcs.filter fun e => e.1 = v).map f).sum

/-- There is a link from `a` to `b` carrying more than `q`. -/
def Hot (arcs : List Arc) (f : Arc → ℚ) (q : ℚ) (a b : Loc) : Prop :=
  (a, b) ∈ arcs ∧ q < f (a, b)

/-- No directed cycle of links each carrying more than `q`. -/
def NoLoop (arcs : List Arc) (f : Arc → ℚ) (q : ℚ) : Prop :=
  ∀ v, ¬ Relation.TransGen (Hot arcs f q) v v

end Verif.Spec
