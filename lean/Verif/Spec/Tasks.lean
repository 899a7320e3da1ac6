import Verif.Spec.Constraint
import Verif.Model.Mask

/-!
# What masks select

A mask has one entry per joint, 1 for the joints a task acts on and 0 for the others
(`/repo/include/tsid/tasks/task-motion.hpp`, and the messages of the checks in `setMask`).
-/

namespace Tsid.Spec

variable {K : Type}

/-- A mask of the right size with entries 0 and 1 only. -/
def ValidMask [Zero K] [One K] (na : Nat) (m : Vec K) : Prop := m.size = na ∧ ∀ i, i < na → m i = 0 ∨ m i = 1

/-- The mask selects joint `i`. -/
def Selects [One K] (m : Vec K) (i : Nat) : Prop := i < m.size ∧ m i = 1

/-- Number of joints selected among the first `n`. -/
def countSelected [One K] [DecidableEq K] (m : Vec K) : Nat → Nat
  | 0 => 0
  | n + 1 => countSelected m n + (if m n = 1 then 1 else 0)

end Tsid.Spec
