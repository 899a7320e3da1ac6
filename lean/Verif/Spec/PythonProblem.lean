import Verif.Model.PythonProblem

/-!
# Problems put together by hand: what the text of the program says
-/

namespace Tsid.Spec

open Python

variable {K : Type}

/-- The call makes a constraint: sizes agree. -/
def Maker.Fits : Maker K → Prop
  | .eq _ A b => A.rows = b.size
  | .ineq _ A lb ub => A.rows = lb.size ∧ A.rows = ub.size
  | .bound _ lb ub => lb.size = ub.size
  | _ => True

instance (m : Maker K) : Decidable (Maker.Fits m) := by cases m <;> simp only [Maker.Fits] <;> infer_instance

/-- The constraints that the program makes, in order. -/
def makers (ops : List (HandCall K)) : List (Maker K) :=
  ops.filterMap fun
    | .make m => if Maker.Fits m then some m else none
    | _ => none

/-- The number of levels that the program makes. -/
def levelsMade (ops : List (HandCall K)) : Nat := ops.countP fun | .newLevel => true | _ => false

/-- The number of problems that the program makes. -/
def problemsMade (ops : List (HandCall K)) : Nat := ops.countP fun | .newProblem => true | _ => false

/-- The variables that a call uses exist after the calls `pre`. -/
def Known (pre : List (HandCall K)) : HandCall K → Prop
  | .set i _ => i < (makers pre).length
  | .append l _ i => l < levelsMade pre ∧ i < (makers pre).length
  | .appendLevel d l => d < problemsMade pre ∧ l < levelsMade pre
  | .resize d _ => d < problemsMade pre
  | _ => True

/-- The program uses no variable before it exists. -/
def Scoped (ops : List (HandCall K)) : Prop := ∀ pre o post, ops = pre ++ o :: post → Known pre o

/-- The weights and constraints appended to level `l`, in order. -/
def levelText (l : Nat) (ops : List (HandCall K)) : List (K × Nat) :=
  ops.filterMap fun
    | .append l' w i => if l' = l then some (w, i) else none
    | _ => none

/-- The levels appended to problem `d` by the calls `ops` that follow the calls `past`: each as it was at that moment. -/
def problemTextFrom (d : Nat) (past : List (HandCall K)) : List (HandCall K) → List (List (K × Nat))
  | [] => []
  | .appendLevel d' l :: os =>
    if d' = d then levelText l past :: problemTextFrom d (past ++ [.appendLevel d' l]) os
    else problemTextFrom d (past ++ [.appendLevel d' l]) os
  | o :: os => problemTextFrom d (past ++ [o]) os

/-- The levels appended to problem `d`. -/
def problemText (d : Nat) (ops : List (HandCall K)) : List (List (K × Nat)) := problemTextFrom d [] ops

/-- The calls on constraint `i`. -/
def conCalls (i : Nat) (ops : List (HandCall K)) : List (ConCall K) :=
  ops.filterMap fun
    | .set j u => if j = i then some u else none
    | _ => none

/-- The name given to a constructor. -/
def Maker.name : Maker K → String
  | .eq n _ _ | .ineq n _ _ _ | .bound n _ _ | .eqZero n _ _ | .ineqZero n _ _ | .boundZero n _ => n

/-- The class of the new object. -/
def Maker.kind : Maker K → Kind
  | .eq _ _ _ | .eqZero _ _ _ => .equality
  | .ineq _ _ _ _ | .ineqZero _ _ _ => .inequality
  | .bound _ _ _ | .boundZero _ _ => .bound

/-- The matrix of the new object. -/
def Maker.matrix [Zero K] [One K] : Maker K → Mat K
  | .eq _ A _ | .ineq _ A _ _ => A
  | .bound _ lb _ => Mat.identity lb.size
  | .eqZero _ r c | .ineqZero _ r c => Mat.zero r c
  | .boundZero _ n => Mat.identity n

/-- The right-hand side of a new equality. -/
def Maker.vector [Zero K] : Maker K → Vec K
  | .eq _ _ b => b
  | .eqZero _ r _ => Vec.zero r
  | _ => Vec.zero 0

/-- The lower bound of a new inequality or bound. -/
def Maker.lower [Zero K] : Maker K → Vec K
  | .ineq _ _ lb _ | .bound _ lb _ => lb
  | .ineqZero _ r _ | .boundZero _ r => Vec.zero r
  | _ => Vec.zero 0

/-- The upper bound of a new inequality or bound. -/
def Maker.upper [Zero K] : Maker K → Vec K
  | .ineq _ _ _ ub | .bound _ _ ub => ub
  | .ineqZero _ r _ | .boundZero _ r => Vec.zero r
  | _ => Vec.zero 0

/-- The last element of a list, or a default. -/
def lastOr {α : Type} (a : α) (l : List α) : α := l.getLast?.getD a

/-- What constraint `c`, made by `m` and changed by `calls` (without `resize`), contains: of every member the value last
accepted.  Matrices of another size are refused, and so is every matrix of a bound; members of another class are not
changed. -/
structure Holding [Zero K] [One K] (m : Maker K) (calls : List (ConCall K)) (c : Constraint K) : Prop where
  name : c.name = Maker.name m
  kind : c.kind = Maker.kind m
  matrix : c.mat = lastOr (Maker.matrix m) (calls.filterMap fun
    | .setMatrix A =>
      if Maker.kind m ≠ .bound ∧ A.rows = (Maker.matrix m).rows ∧ A.cols = (Maker.matrix m).cols then some A else none
    | _ => none)
  vector : c.vec = lastOr (Maker.vector m) (calls.filterMap fun
    | .setVector b => if Maker.kind m = .equality then some b else none
    | _ => none)
  lower : c.lb = lastOr (Maker.lower m) (calls.filterMap fun
    | .setLowerBound b => if Maker.kind m ≠ .equality then some b else none
    | _ => none)
  upper : c.ub = lastOr (Maker.upper m) (calls.filterMap fun
    | .setUpperBound b => if Maker.kind m ≠ .equality then some b else none
    | _ => none)

/-- The program does not resize constraint `i`. -/
def NeverResized (i : Nat) (ops : List (HandCall K)) : Prop := ∀ r c, .resize r c ∉ conCalls i ops

/-- The levels that a solver gets are those of the text: the same weights in the same order, with constraints that contain
what was last set. -/
def Delivered [Zero K] [One K] (ops : List (HandCall K)) (text : List (List (K × Nat))) (p : List (Level K)) : Prop :=
  List.Forall₂ (List.Forall₂ fun e q => q.1 = e.1 ∧ ∃ m, (makers ops)[e.2]? = some m ∧ Holding m (conCalls e.2 ops) q.2) text p

/-- The sizes that the program gives to the constraint made by `m` agree, with `n` variables. -/
def Fitting [Zero K] [One K] (n : Nat) (m : Maker K) (calls : List (ConCall K)) : Prop :=
  (Maker.matrix m).cols = n ∧ ∀ u ∈ calls, match u with
    | .setVector b => Maker.kind m = .equality → b.size = (Maker.matrix m).rows
    | .setLowerBound b | .setUpperBound b => Maker.kind m ≠ .equality → b.size = (Maker.matrix m).rows
    | _ => True

/-- The call is meant for the class: vectors for equalities, limits for the two others. -/
def ConCall.Suits (m : Maker K) : ConCall K → Prop
  | .setVector _ => Maker.kind m = .equality
  | .setLowerBound _ | .setUpperBound _ => Maker.kind m ≠ .equality
  | _ => True

/-- Every call of the text on a constraint is meant for its class. -/
def AllSuit (ops : List (HandCall K)) : Prop :=
  ∀ pre i u post, ops = pre ++ .set i u :: post → ∀ m, (makers pre)[i]? = some m → ConCall.Suits m u

end Tsid.Spec
