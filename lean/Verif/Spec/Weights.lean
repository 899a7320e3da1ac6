import Verif.Spec.Solver

/-!
# What the weights of level 1 are for
-/

namespace Tsid.Spec

variable {K : Type} [Field K]

/-- The level in which the entries of the name `n` have the weight `w`. -/
def reweigh (n : String) (w : K) (l : Level K) : Level K := l.map fun q => (if q.2.name = n then w else q.1, q.2)

/-- The level with all weights multiplied by `k`. -/
def scale (k : K) (l : Level K) : Level K := l.map fun q => (k * q.1, q.2)

/-- Squared error of the entries of the name `n`. -/
def taskError (n : String) (l : Level K) (x : Nat → K) : K :=
  ((l.filter fun q => q.2.name = n).map fun q => sqResidual q.2 x).sum

/-- What the other entries and the regularisation cost. -/
def otherCost (n : String) (nVar : Nat) (reg : Bool) (l : Level K) (x : Nat → K) : K :=
  target nVar reg (l.filter fun q => q.2.name ≠ n) x

end Tsid.Spec
