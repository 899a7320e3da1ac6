import Verif.Model.JointTasks
import Verif.Model.SE3Utils

/-!
# Constant trajectories

`/repo/src/trajectories/trajectory-euclidian.cpp`, `/repo/src/trajectories/trajectory-se3.cpp`.  The state of a trajectory
is its member `m_sample` (`/repo/include/tsid/trajectories/trajectory-base.hpp` 94); the member `m_M` of
`TrajectorySE3Constant` is never used.
-/

namespace Tsid

variable {K : Type}

/-- Queries: `operator()(t)`, `computeNext()`, `getLastSample()`, `getLastSample(sample)`, whose argument held
`old` before. -/
inductive TrajQuery (K : Type) where
  | at (t : K)
  | next
  | last
  | lastInto (old : Sample K)

/-- The sample a query delivers: `trajectory-euclidian.cpp` 29-40, `trajectory-se3.cpp` 37-47,
`trajectory-base.hpp` 86. -/
def TrajQuery.answer (m : Sample K) : TrajQuery K → Sample K
  | .at _ => m
  | .next => m
  | .last => m
  | .lastInto _ => m

/-- `has_trajectory_ended()`: `trajectory-euclidian.cpp` 42, `trajectory-se3.cpp` 50. -/
def trajEnded (_ : Sample K) : Bool := true

namespace EuclidianConstant
variable [Zero K]

/-- `setReference(ref)`: `trajectory-euclidian.cpp` 20-23. -/
def setReference (_ : Sample K) (r : Vec K) : Sample K :=
  let m := Sample.zero r.size r.size
  { m with pos := r }

/-- Constructor without reference: `trajectory-euclidian.cpp` 10-12 (`TrajectorySample(0)`). -/
def new : Sample K := Sample.zero 0 0

/-- Constructor with a reference: `trajectory-euclidian.cpp` 14-18. -/
def newWith (r : Vec K) : Sample K := setReference new r

/-- `size()`: `trajectory-euclidian.cpp` 25-27. -/
def size (m : Sample K) : Nat := m.pos.size

/-- The calls a user can make. -/
inductive Op (K : Type) where
  | setReference (r : Vec K)
  | query (q : TrajQuery K)

/-- One call, with the sample it delivers. -/
def step (m : Sample K) : Op K → Res (Sample K) (Option (Sample K))
  | .setReference r => .ok (setReference m r) none
  | .query q => .ok m (some (q.answer m))

end EuclidianConstant

namespace SE3Constant
variable [Field K]

/-- `setReference(M)`: `trajectory-se3.cpp` 29-35. -/
def setReference (_ : Sample K) (M : SE3 K) : Res (Sample K) Unit :=
  let m : Sample K := Sample.zero 12 6
  match M.toVector m.pos with
  | some p => .ok { m with pos := p } ()
  | none => .throw m

/-- Constructor without reference: `trajectory-se3.cpp` 13-16. -/
def new : Sample K := Sample.zero 12 6

/-- Constructor with a reference: `trajectory-se3.cpp` 18-26. -/
def newWith (M : SE3 K) : Res (Sample K) Unit := setReference new M

/-- `size()`: `trajectory-se3.cpp` 28. -/
def size (_ : Sample K) : Nat := 6

/-- The calls a user can make. -/
inductive Op (K : Type) where
  | setReference (M : SE3 K)
  | query (q : TrajQuery K)

/-- One call, with the sample it delivers. -/
def step (m : Sample K) : Op K → Res (Sample K) (Option (Sample K))
  | .setReference M =>
    match setReference m M with
    | .ok m' _ => .ok m' none
    | .throw m' => .throw m'
    | .abort => .abort
    | .ub => .ub
  | .query q => .ok m (some (q.answer m))

end SE3Constant

end Tsid
