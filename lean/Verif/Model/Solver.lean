import Verif.Model.Constraint

/-!
# Solver back-ends: assembly of the quadratic program

Model of `retrieveQPData` and `resize` of the back-ends
(`/repo/src/solvers/solver-HQP-eiquadprog.cpp`, `solver-HQP-eiquadprog-fast.cpp`, `solver-HQP-qpmad.cpp`,
`solver-proxqp.cpp`, `solver-osqp.cpp`, and `solve` of `/repo/include/tsid/solvers/solver-HQP-eiquadprog-rt.hxx`).

* The external solvers are not modelled, only the data handed to them and the way their status is used.
* Memory obtained by Eigen's `resize` is uninitialised: its contents are the argument `fresh`, over which all
  theorems quantify.
* `unsigned int` counters do not overflow.
* The branch `ELIMINATE_EQUALITY_CONSTRAINTS` (`solver-HQP-eiquadprog.cpp` 133-205, not compiled by default) is left
  out, as are printed messages and profiling.
-/

namespace Tsid

/-- `ConstraintLevel` (`include/tsid/solvers/fwd.hpp` 93-95); a shared pointer is the constraint it points to at the
time of the call. -/
abbrev Level (K : Type) := List (K × Constraint K)

/-- `HQPData` (`include/tsid/solvers/fwd.hpp` 99). -/
abbrev HQPData (K : Type) := List (Level K)

/-- `v.segment(i0, n) = b`; `none` when the sizes do not agree. -/
def Vec.setSeg {K : Type} (v : Vec K) (i0 n : Nat) (b : Vec K) : Option (Vec K) :=
  if b.size = n ∧ i0 + n ≤ v.size then
    some ⟨v.size, fun i => if i0 ≤ i ∧ i < i0 + n then b (i - i0) else v i⟩
  else none

/-- `if (p) m.resize(r, c);` -/
def Mat.resizeIf {K : Type} (p : Prop) [Decidable p] (fresh : Nat → Nat → K) (m : Mat K) (r c : Nat) : Mat K :=
  if p then ⟨r, c, fresh⟩ else m

/-- `if (p) v.resize(n);` -/
def Vec.resizeIf {K : Type} (p : Prop) [Decidable p] (fresh : Nat → Nat → K) (v : Vec K) (n : Nat) : Vec K :=
  if p then ⟨n, fresh n⟩ else v

/-- Matrix with arbitrary contents (`m.resize(r, c)`). -/
def Mat.fresh {K : Type} (fresh : Nat → Nat → K) (r c : Nat) : Mat K := ⟨r, c, fresh⟩

/-- Vector with arbitrary contents (`v.resize(n)`). -/
def Vec.fresh {K : Type} (fresh : Nat → Nat → K) (n : Nat) : Vec K := ⟨n, fresh n⟩

namespace Solver

open Finset

variable {K : Type} [Field K]

/-- `DEFAULT_HESSIAN_REGULARIZATION` (`include/tsid/solvers/fwd.hpp` 28). -/
def defaultReg : K := 1 / 10 ^ 8

/-- Block of `rows` rows and `n` columns set by `setIdentity()`. -/
def identityRows (r n : Nat) : Mat K := ⟨r, n, fun i j => if i = j then 1 else 0⟩

/-! ## State of a back-end -/

/-- Members of a back-end: sizes, constraint data (type `R`), Hessian and gradient.  `m_n`, `m_neq`, `m_nin`,
`m_qpData` (`solver-qpData.hpp` 9-39); `SolverHQpmad` only keeps `m_nc = neq + nin`, held in `nin`. -/
structure State (K R : Type) where
  n : Nat
  neq : Nat
  nin : Nat
  rows : R
  H : Mat K
  g : Vec K

/-- What distinguishes the back-ends inside `retrieveQPData`. -/
structure Backend (K R : Type) where
  /-- statements before the sizes are computed -/
  pre : Level K → R → R
  /-- numbers of equality and inequality rows -/
  count : Level K → Nat × Nat
  /-- `resize(n, neq, nin)` -/
  resize : (Nat → Nat → K) → Bool → State K R → Nat → Nat → Nat → Res (State K R) Unit
  /-- statements between `resize` and the loop -/
  start : R → R
  /-- body of the loop over the constraints of level 0 (`m_n` is the first argument) -/
  put : Nat → R → Constraint K → Option R
  /-- is the regularisation added to the Hessian? -/
  reg : Bool → Bool

/-- Number of equality and inequality rows: `solver-HQP-eiquadprog.cpp` 75-83, `-fast.cpp` 84-92,
`solver-proxqp.cpp` 97-105, `solver-osqp.cpp` 108-116, `-rt.hxx` 72-80. -/
def count : Level K → Nat × Nat
  | [] => (0, 0)
  | (_, c) :: l =>
    if c.kind = .equality then ((count l).1 + c.rows, (count l).2) else ((count l).1, (count l).2 + c.rows)

/-- Loop over the constraints of level 0: `solver-HQP-eiquadprog.cpp` 88-111 and the same loop in the others. -/
def putAll {R : Type} (B : Backend K R) (n : Nat) : Level K → R → Option R
  | [], r => some r
  | (_, c) :: l, r => match B.put n r c with
    | some r' => putAll B n l r'
    | none => none

/-- Loop over the constraints of level 1: `solver-HQP-eiquadprog.cpp` 119-129, `-fast.cpp` 133-148,
`solver-HQP-qpmad.cpp` 122-132, `solver-proxqp.cpp` 141-156, `solver-osqp.cpp` 153-168, `-rt.hxx` 115-127.
The state is the pair of Hessian and gradient. -/
def costLoop : Level K → Mat K × Vec K → Res (Mat K × Vec K) Unit
  | [], s => .ok s ()
  | (w, c) :: l, s =>
    if c.kind ≠ .equality then .throw s
    else if c.mat.cols = s.1.rows ∧ c.mat.cols = s.1.cols ∧ c.mat.cols = s.2.size ∧ c.vec.size = c.mat.rows then
      costLoop l
        (⟨s.1.rows, s.1.cols, fun i j => s.1 i j + w * ∑ k ∈ range c.mat.rows, c.mat k i * c.mat k j⟩,
         ⟨s.2.size, fun i => s.2 i - w * ∑ k ∈ range c.mat.rows, c.mat k i * c.vec k⟩)
    else .ub

/-- `H.diagonal() += reg`: `solver-HQP-eiquadprog.cpp` 130, `-fast.cpp` 150-153, `solver-HQP-qpmad.cpp` 133,
`solver-proxqp.cpp` 158-161, `solver-osqp.cpp` 170-173, `-rt.hxx` 128. -/
def regularise (b : Bool) (H : Mat K) : Mat K :=
  if b then ⟨H.rows, H.cols, fun i j => H i j + if i = j then defaultReg else 0⟩ else H

/-- Second half of `retrieveQPData`, the cost: `solver-HQP-eiquadprog.cpp` 115-131 and the same statements in the
others. -/
def cost {R : Type} (B : Backend K R) (hessianReg : Bool) (l : Option (Level K)) (s : State K R) :
    Res (State K R) Unit :=
  match l with
  | none => .ok s ()
  | some l =>
    match costLoop l (Mat.zero s.H.rows s.H.cols, Vec.zero s.g.size) with
    | .ok (H, g) _ => .ok { s with H := regularise (B.reg hessianReg) H, g := g } ()
    | .throw (H, g) => .throw { s with H := H, g := g }
    | .abort => .abort
    | .ub => .ub

/-- `retrieveQPData(problemData, hessianRegularization)`: `solver-HQP-eiquadprog.cpp` 63-131, `-fast.cpp` 72-155,
`solver-HQP-qpmad.cpp` 63-135, `solver-proxqp.cpp` 84-163, `solver-osqp.cpp` 95-175, `-rt.hxx` 62-129.
`problemData[0]` of an empty problem is an out-of-bounds access; `assert(n == constr->cols())` fails in a build
without `NDEBUG` when the constraints of level 0 have different numbers of columns. -/
def retrieve {R : Type} (B : Backend K R) (fresh : Nat → Nat → K) (ndebug : Bool) (s : State K R) (p : HQPData K)
    (hessianReg : Bool) : Res (State K R) Unit :=
  if 2 < p.length then .throw s
  else match p with
    | [] => .ub
    | l0 :: ls =>
      let s1 := { s with rows := B.pre l0 s.rows }
      match l0 with
      | [] => match B.resize fresh ndebug s1 s1.n 0 0 with
        | .ok s2 _ => cost B hessianReg ls.head? s2
        | e => e
      | (_, c0) :: _ =>
        if !ndebug && l0.any (fun q => q.2.cols ≠ c0.cols) then .abort
        else match B.resize fresh ndebug s1 c0.cols (B.count l0).1 (B.count l0).2 with
          | .ok s2 _ => match putAll B s2.n l0 (B.start s2.rows) with
            | some r => cost B hessianReg ls.head? { s2 with rows := r }
            | none => .ub
          | e => e

/-! ## eiquadprog and eiquadprog-fast -/

/-- Constraint data `CE x + ce0 = 0`, `CI x + ci0 >= 0`, with the loop counters `i_eq` and `i_in`
(`solver-qpData.hpp` 9-20, 32-39; `solver-HQP-eiquadprog.cpp` 87). -/
structure EiqRows (K : Type) where
  CE : Mat K
  ce0 : Vec K
  CI : Mat K
  ci0 : Vec K
  iEq : Nat := 0
  iIn : Nat := 0

/-- `SolverHQuadProg::resize` 27-61, `SolverHQuadProgFast::resize` 31-70. -/
def Eiq.resize (fresh : Nat → Nat → K) (_ : Bool) (s : State K (EiqRows K)) (n neq nin : Nat) :
    Res (State K (EiqRows K)) Unit :=
  .ok ⟨n, neq, nin,
    { s.rows with
      CE := s.rows.CE.resizeIf (n ≠ s.n ∨ neq ≠ s.neq) fresh neq n
      ce0 := s.rows.ce0.resizeIf (n ≠ s.n ∨ neq ≠ s.neq) fresh neq
      CI := s.rows.CI.resizeIf (n ≠ s.n ∨ nin ≠ s.nin) fresh (2 * nin) n
      ci0 := s.rows.ci0.resizeIf (n ≠ s.n ∨ nin ≠ s.nin) fresh (2 * nin) },
    s.H.resizeIf (n ≠ s.n) fresh n n,
    s.g.resizeIf (n ≠ s.n) fresh n⟩ ()

/-- The four statements that write a two-sided constraint: `solver-HQP-eiquadprog.cpp` 96-101 and 103-109. -/
def Eiq.putPair (r : EiqRows K) (k : Nat) (A A' : Mat K) (lb ub : Vec K) : Option (EiqRows K) :=
  match r.CI.setRows r.iIn k A, r.ci0.setSeg r.iIn k lb.neg with
  | some CI, some ci0 =>
    match CI.setRows (r.iIn + k) k A', ci0.setSeg (r.iIn + k) k ub with
    | some CI, some ci0 => some { r with CI := CI, ci0 := ci0, iIn := r.iIn + k + k }
    | _, _ => none
  | _, _ => none

/-- Body of the loop over level 0: `solver-HQP-eiquadprog.cpp` 90-110, `-fast.cpp` 99-120. -/
def Eiq.put (n : Nat) (r : EiqRows K) (c : Constraint K) : Option (EiqRows K) :=
  match c.kind with
  | .equality =>
    match r.CE.setRows r.iEq c.rows c.mat, r.ce0.setSeg r.iEq c.rows c.vec.neg with
    | some CE, some ce0 => some { r with CE := CE, ce0 := ce0, iEq := r.iEq + c.rows }
    | _, _ => none
  | .inequality => Eiq.putPair r c.rows c.mat c.mat.neg c.lb c.ub
  | .bound => Eiq.putPair r c.rows (identityRows c.rows r.CI.cols) (Mat.identity n).neg c.lb c.ub

/-- `SolverHQuadProg`: the regularisation is always added (`solver-HQP-eiquadprog.cpp` 130). -/
def eiq : Backend K (EiqRows K) where
  pre := fun _ r => r
  count := count
  resize := Eiq.resize
  start := fun r => { r with iEq := 0, iIn := 0 }
  put := Eiq.put
  reg := fun _ => true

/-- `SolverHQuadProgFast`: the regularisation is added on request (`solver-HQP-eiquadprog-fast.cpp` 150-153; the
default request is `true`, `solver-HQP-eiquadprog-fast.hpp` 50). -/
def fast : Backend K (EiqRows K) := { eiq with reg := id }

/-- A new `SolverHQuadProg` or `SolverHQuadProgFast`: `solver-HQP-eiquadprog.cpp` 15-21, `-fast.cpp` 19-25. -/
def Eiq.init : State K (EiqRows K) :=
  ⟨0, 0, 0, ⟨Mat.zero 0 0, Vec.zero 0, Mat.zero 0 0, Vec.zero 0, 0, 0⟩, Mat.zero 0 0, Vec.zero 0⟩

/-! ## eiquadprog-rt -/

/-- `SolverHQuadProgRT::resize` (`-rt.hxx` 39-49): asserts that the sizes are the template arguments, which `m_n`,
`m_neq`, `m_nin` hold since the constructor; a build with `NDEBUG` only prints a message. -/
def Rt.resize (_ : Nat → Nat → K) (ndebug : Bool) (s : State K (EiqRows K)) (n neq nin : Nat) :
    Res (State K (EiqRows K)) Unit :=
  if n = s.n ∧ neq = s.neq ∧ nin = s.nin then .ok s () else if ndebug then .ok s () else .abort

/-- `SolverHQuadProgRT<nVars, nEqCon, nIneqCon>`: `solve` 62-129, which is `retrieveQPData` of the others with
another `resize`. -/
def rt : Backend K (EiqRows K) := { eiq with resize := Rt.resize }

/-- A new `SolverHQuadProgRT<nVars, nEqCon, nIneqCon>` (`-rt.hxx` 23-31, `-rt.hpp` 75-83): the matrices have a fixed
size and are not initialised. -/
def Rt.init (fresh : Nat → Nat → K) (nVars nEqCon nIneqCon : Nat) : State K (EiqRows K) :=
  ⟨nVars, nEqCon, nIneqCon,
    ⟨Mat.fresh fresh nEqCon nVars, Vec.fresh fresh nEqCon, Mat.fresh fresh (2 * nIneqCon) nVars,
      Vec.fresh fresh (2 * nIneqCon), 0, 0⟩,
    Mat.fresh fresh nVars nVars, Vec.fresh fresh nVars⟩

/-! ## ProxQP -/

/-- Constraint data of ProxQP: `CE`, `ce0`, and `ci_lb <= CI x <= ci_ub` (`solver-qpData.hpp` 9-30). -/
structure ProxRows (K : Type) where
  CE : Mat K
  ce0 : Vec K
  CI : Mat K
  lb : Vec K
  ub : Vec K
  iEq : Nat := 0
  iIn : Nat := 0

/-- `SolverProxQP::resize` 34-67 (the settings, 69-81, are modelled in `Verif.Model.SolverSettings`). -/
def Prox.resize (fresh : Nat → Nat → K) (_ : Bool) (s : State K (ProxRows K)) (n neq nin : Nat) :
    Res (State K (ProxRows K)) Unit :=
  .ok ⟨n, neq, nin,
    { s.rows with
      CE := s.rows.CE.resizeIf (n ≠ s.n ∨ neq ≠ s.neq) fresh neq n
      ce0 := s.rows.ce0.resizeIf (n ≠ s.n ∨ neq ≠ s.neq) fresh neq
      CI := s.rows.CI.resizeIf (n ≠ s.n ∨ nin ≠ s.nin) fresh nin n
      lb := s.rows.lb.resizeIf (n ≠ s.n ∨ nin ≠ s.nin) fresh nin
      ub := s.rows.ub.resizeIf (n ≠ s.n ∨ nin ≠ s.nin) fresh nin },
    s.H.resizeIf (n ≠ s.n) fresh n n,
    s.g.resizeIf (n ≠ s.n) fresh n⟩ ()

/-- The three statements that write a two-sided constraint: `solver-proxqp.cpp` 118-121, 123-126. -/
def Prox.putPair (r : ProxRows K) (k : Nat) (A : Mat K) (lb ub : Vec K) : Option (ProxRows K) :=
  match r.CI.setRows r.iIn k A, r.lb.setSeg r.iIn k lb, r.ub.setSeg r.iIn k ub with
  | some CI, some lb, some ub => some { r with CI := CI, lb := lb, ub := ub, iIn := r.iIn + k }
  | _, _, _ => none

/-- Body of the loop over level 0: `solver-proxqp.cpp` 112-127. -/
def Prox.put (_ : Nat) (r : ProxRows K) (c : Constraint K) : Option (ProxRows K) :=
  match c.kind with
  | .equality =>
    match r.CE.setRows r.iEq c.rows c.mat, r.ce0.setSeg r.iEq c.rows c.vec with
    | some CE, some ce0 => some { r with CE := CE, ce0 := ce0, iEq := r.iEq + c.rows }
    | _, _ => none
  | .inequality => Prox.putPair r c.rows c.mat c.lb c.ub
  | .bound => Prox.putPair r c.rows (identityRows c.rows r.CI.cols) c.lb c.ub

/-- `SolverProxQP`; the default of `hessianRegularization` is `false` (`solver-proxqp.hpp` 58). -/
def prox : Backend K (ProxRows K) where
  pre := fun _ r => r
  count := count
  resize := Prox.resize
  start := fun r => { r with iEq := 0, iIn := 0 }
  put := Prox.put
  reg := id

/-- A new `SolverProxQP` (`solver-proxqp.cpp` 14-28). -/
def Prox.init : State K (ProxRows K) :=
  ⟨0, 0, 0, ⟨Mat.zero 0 0, Vec.zero 0, Mat.zero 0 0, Vec.zero 0, Vec.zero 0, 0, 0⟩, Mat.zero 0 0, Vec.zero 0⟩

/-! ## OSQP -/

/-- Constraint data of OSQP: `ci_lb <= CI x <= ci_ub` (`solver-qpData.hpp` 22-30). -/
structure OsqpRows (K : Type) where
  CI : Mat K
  lb : Vec K
  ub : Vec K
  iIn : Nat := 0

/-- `SolverOSQP::resize` 48-69 (the settings, 71-92, are modelled in `Verif.Model.SolverSettings`). -/
def Osqp.resize (fresh : Nat → Nat → K) (_ : Bool) (s : State K (OsqpRows K)) (n neq nin : Nat) :
    Res (State K (OsqpRows K)) Unit :=
  .ok ⟨n, neq, nin,
    { s.rows with
      CI := s.rows.CI.resizeIf ((n ≠ s.n ∨ nin ≠ s.nin) ∨ n ≠ s.n ∨ neq ≠ s.neq) fresh (nin + neq) n
      lb := s.rows.lb.resizeIf ((n ≠ s.n ∨ nin ≠ s.nin) ∨ n ≠ s.n ∨ neq ≠ s.neq) fresh (nin + neq)
      ub := s.rows.ub.resizeIf ((n ≠ s.n ∨ nin ≠ s.nin) ∨ n ≠ s.n ∨ neq ≠ s.neq) fresh (nin + neq) },
    s.H.resizeIf (n ≠ s.n) fresh n n,
    s.g.resizeIf (n ≠ s.n) fresh n⟩ ()

/-- The statements that write a constraint: `solver-osqp.cpp` 125-128, 130-133, 135-138. -/
def Osqp.putPair (r : OsqpRows K) (k : Nat) (A : Mat K) (lb ub : Vec K) : Option (OsqpRows K) :=
  match r.CI.setRows r.iIn k A, r.lb.setSeg r.iIn k lb, r.ub.setSeg r.iIn k ub with
  | some CI, some lb, some ub => some { r with CI := CI, lb := lb, ub := ub, iIn := r.iIn + k }
  | _, _, _ => none

/-- Body of the loop over level 0: `solver-osqp.cpp` 123-139. -/
def Osqp.put (_ : Nat) (r : OsqpRows K) (c : Constraint K) : Option (OsqpRows K) :=
  match c.kind with
  | .equality => Osqp.putPair r c.rows c.mat c.vec c.vec
  | .inequality => Osqp.putPair r c.rows c.mat c.lb c.ub
  | .bound => Osqp.putPair r c.rows (identityRows c.rows r.CI.cols) c.lb c.ub

/-- `SolverOSQP`; the default of `hessianRegularization` is `false` (`solver-osqp.hpp` 55). -/
def osqp : Backend K (OsqpRows K) where
  pre := fun _ r => r
  count := count
  resize := Osqp.resize
  start := fun r => { r with iIn := 0 }
  put := Osqp.put
  reg := id

/-- A new `SolverOSQP` (`solver-osqp.cpp` 14-27). -/
def Osqp.init : State K (OsqpRows K) :=
  ⟨0, 0, 0, ⟨Mat.zero 0 0, Vec.zero 0, Vec.zero 0, 0⟩, Mat.zero 0 0, Vec.zero 0⟩

/-! ## qpmad -/

/-- `std::numeric_limits<double>::min()`: the smallest *positive* normal number. -/
def dblMin : K := 1 / 2 ^ 1022

/-- `std::numeric_limits<double>::max()`. -/
def dblMax : K := (2 ^ 53 - 1) * 2 ^ 971

/-- Constraint data of qpmad: `cl <= C x <= cu`, and `lb <= x <= ub` when `m_has_bounds` (`solver-HQP-qpmad.hpp`
52-60). -/
structure MadRows (K : Type) where
  C : Mat K
  cl : Vec K
  cu : Vec K
  lb : Vec K
  ub : Vec K
  hasBounds : Bool
  i : Nat := 0

/-- Number of equality and inequality rows; bounds are not counted: `solver-HQP-qpmad.cpp` 76-86. -/
def Mad.count : Level K → Nat × Nat
  | [] => (0, 0)
  | (_, c) :: l => match c.kind with
    | .equality => ((Mad.count l).1 + c.rows, (Mad.count l).2)
    | .inequality => ((Mad.count l).1, (Mad.count l).2 + c.rows)
    | .bound => Mad.count l

/-- `SolverHQpmad::resize` 30-61. -/
def Mad.resize (fresh : Nat → Nat → K) (_ : Bool) (s : State K (MadRows K)) (n neq nin : Nat) :
    Res (State K (MadRows K)) Unit :=
  .ok ⟨n, 0, neq + nin,
    { s.rows with
      C := s.rows.C.resizeIf (n ≠ s.n ∨ neq + nin ≠ s.nin) fresh (neq + nin) n
      cl := s.rows.cl.resizeIf (n ≠ s.n ∨ neq + nin ≠ s.nin) fresh (neq + nin)
      cu := s.rows.cu.resizeIf (n ≠ s.n ∨ neq + nin ≠ s.nin) fresh (neq + nin)
      lb := s.rows.lb.resizeIf (n ≠ s.n ∧ s.rows.hasBounds = true) fresh n
      ub := s.rows.ub.resizeIf (n ≠ s.n ∧ s.rows.hasBounds = true) fresh n },
    s.H.resizeIf (n ≠ s.n) fresh n n,
    s.g.resizeIf (n ≠ s.n) fresh n⟩ ()

/-- The statements that write a constraint: `solver-HQP-qpmad.cpp` 100-103, 105-108. -/
def Mad.putPair (r : MadRows K) (k : Nat) (A : Mat K) (lb ub : Vec K) : Option (MadRows K) :=
  match r.C.setRows r.i k A, r.cl.setSeg r.i k lb, r.cu.setSeg r.i k ub with
  | some C, some cl, some cu => some { r with C := C, cl := cl, cu := cu, i := r.i + k }
  | _, _, _ => none

/-- Body of the loop over level 0: `solver-HQP-qpmad.cpp` 98-113. -/
def Mad.put [LinearOrder K] (_ : Nat) (r : MadRows K) (c : Constraint K) : Option (MadRows K) :=
  match c.kind with
  | .equality => Mad.putPair r c.rows c.mat c.vec c.vec
  | .inequality => Mad.putPair r c.rows c.mat c.lb c.ub
  | .bound =>
    if r.lb.size = c.lb.size ∧ r.ub.size = c.ub.size then
      some { r with
        lb := ⟨r.lb.size, fun i => max (r.lb i) (c.lb i)⟩
        ub := ⟨r.ub.size, fun i => min (r.ub i) (c.ub i)⟩ }
    else none

/-- `SolverHQpmad`: `solver-HQP-qpmad.cpp` 71, 84-85 (`m_has_bounds`), 90-93 (initial bounds), 133 (the
regularisation is always added). -/
def mad [LinearOrder K] : Backend K (MadRows K) where
  pre := fun l r => { r with hasBounds := l.any fun q => q.2.kind = .bound }
  count := Mad.count
  resize := Mad.resize
  start := fun r => if r.hasBounds then
      { r with
        i := 0
        lb := ⟨r.lb.size, fun _ => dblMin⟩
        ub := ⟨r.ub.size, fun _ => dblMax⟩ }
    else { r with i := 0 }
  put := Mad.put
  reg := fun _ => true

/-- A new `SolverHQpmad` (`solver-HQP-qpmad.cpp` 19-24); `m_has_bounds` is not initialised. -/
def Mad.init (hasBounds : Bool) : State K (MadRows K) :=
  ⟨0, 0, 0, ⟨Mat.zero 0 0, Vec.zero 0, Vec.zero 0, Vec.zero 0, Vec.zero 0, hasBounds, 0⟩, Mat.zero 0 0, Vec.zero 0⟩

end Solver

end Tsid
