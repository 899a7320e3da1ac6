import Verif.Model.SolverSettings

/-!
# Specification of settings, statuses and factory
-/

namespace Tsid.Spec

open Settings Status Factory

/-- Last value selected from a list of calls, or a default. -/
def lastOf {O A : Type} (sel : O → Option A) (d : A) (ops : List O) : A := (ops.filterMap sel).getLast?.getD d

/-- Settings of ProxQP that a user expects after some calls: the last value given to each setter, starting from
`d`. -/
def proxExpected {K : Type} (d : ProxOpts K) (ops : List (ProxOp K)) : ProxOpts K where
  maxIter := lastOf (fun | .maxIter k => some k | _ => none) d.maxIter ops
  muIn := lastOf (fun | .muIn v => some v | _ => none) d.muIn ops
  muEq := lastOf (fun | .muEq v => some v | _ => none) d.muEq ops
  rho := lastOf (fun | .rho v => some v | _ => none) d.rho ops
  epsAbs := lastOf (fun | .epsAbs v => some v | _ => none) d.epsAbs ops
  epsRel := lastOf (fun | .epsRel v => some v | _ => none) d.epsRel ops
  verbose := lastOf (fun | .verbose b => some b | _ => none) d.verbose ops

/-- Settings of OSQP that a user expects after some calls. -/
def osqpExpected {K : Type} (d : OsqpOpts K) (ops : List (OsqpOp K)) : OsqpOpts K where
  maxIter := lastOf (fun | .maxIter k => some k | _ => none) d.maxIter ops
  sigma := lastOf (fun | .sigma v => some v | _ => none) d.sigma ops
  alpha := lastOf (fun | .alpha v => some v | _ => none) d.alpha ops
  rho := lastOf (fun | .rho v => some v | _ => none) d.rho ops
  epsAbs := lastOf (fun | .epsAbs v => some v | _ => none) d.epsAbs ops
  epsRel := lastOf (fun | .epsRel v => some v | _ => none) d.epsRel ops
  verbose := lastOf (fun | .verbose b => some b | _ => none) d.verbose ops

/-- Every return code after which the status is `HQP_STATUS_OPTIMAL`, whatever came before, means success. -/
def OptimalOnlyIf {C : Type} (f : C → HQPStatus → HQPStatus) (success : C → Prop) : Prop :=
  ∀ (s : HQPStatus) (h : List (Option C)) (c : C), after f s (h ++ [some c]) = .optimal → success c

/-- The class that implements a solver type. -/
def Implements : SolverClass → SolverType → Prop
  | .SolverHQuadProg, .eiquadprog => True
  | .SolverHQuadProgFast, .eiquadprogFast => True
  | .SolverHQuadProgRT _ _ _, .eiquadprogRt => True
  | .SolverHQpmad, .qpmad => True
  | .SolverProxQP, .proxqp => True
  | .SolverOSQP, .osqp => True
  | _, _ => False

end Tsid.Spec
