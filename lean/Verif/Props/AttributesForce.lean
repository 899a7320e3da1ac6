import Verif.Lemmas.Attributes
import Verif.Model.Sqrt

/-!
# C95: reading the settings of force tasks, contacts, robots and samples
-/

set_option linter.unusedSectionVars false

namespace Tsid
open Spec.Attributes

variable {K : Type}

section
variable [Field K]

/-! ## Force tracking -/

theorem force_compute_same {s s' : ForceTask K} {gen : Mat K} {c : Constraint K} (h : s.compute gen = .ok s' c) :
    s'.kp = s.kp ∧ s'.kd = s.kd ∧ s'.ki = s.ki ∧ s'.leak = s.leak ∧ s'.ref = s.ref ∧ s'.fext = s.fext := by
  unfold ForceTask.compute at h
  simp only at h
  split at h <;> cases h
  exact ⟨rfl, rfl, rfl, rfl, rfl, rfl⟩

theorem force_read_same {X : Reader} {s s' : ForceTask K}
    (h : s'.kp = s.kp ∧ s'.kd = s.kd ∧ s'.ki = s.ki ∧ s'.leak = s.leak ∧ s'.ref = s.ref ∧ s'.fext = s.fext)
    (a : ForceAttr) : ForceTask.read X s' a = ForceTask.read X s a := by
  obtain ⟨h1, h2, h3, h4, h5, h6⟩ := h
  cases a <;> cases X <;> simp only [ForceTask.read, h1, h2, h3, h4, h5, h6]

theorem force_readStep (a : ForceAttr) :
    ReadStep (fun _ => True) (fun _ => True) (ForceTask.step (K := K)) (force a) (fun s => ForceTask.read .cpp s a) := by
  intro s o _ _
  cases o with
  | setKp k =>
    constructor
    · intro s' u h
      simp only [ForceTask.step] at h
      split at h <;> cases h
      cases a <;> exact ⟨trivial, rfl⟩
    · intro s' h
      simp only [ForceTask.step] at h
      split at h <;> cases h
      exact ⟨trivial, rfl⟩
  | setKd k =>
    constructor
    · intro s' u h
      simp only [ForceTask.step] at h
      split at h <;> cases h
      cases a <;> exact ⟨trivial, rfl⟩
    · intro s' h
      simp only [ForceTask.step] at h
      split at h <;> cases h
      exact ⟨trivial, rfl⟩
  | setKi k =>
    constructor
    · intro s' u h
      simp only [ForceTask.step] at h
      split at h <;> cases h
      cases a <;> exact ⟨trivial, rfl⟩
    · intro s' h
      simp only [ForceTask.step] at h
      split at h <;> cases h
      exact ⟨trivial, rfl⟩
  | setLeakRate l =>
    constructor
    · intro s' u h; cases h; cases a <;> exact ⟨trivial, rfl⟩
    · intro s' h; cases h
  | setAssociatedContact c n =>
    constructor
    · intro s' u h; cases h; cases a <;> exact ⟨trivial, rfl⟩
    · intro s' h; cases h
  | setReference r =>
    constructor
    · intro s' u h; cases h; cases a <;> exact ⟨trivial, rfl⟩
    · intro s' h; cases h
  | setExternalForce f =>
    constructor
    · intro s' u h; cases h; cases a <;> exact ⟨trivial, rfl⟩
    · intro s' h; cases h
  | compute gen =>
    constructor
    · intro s' u h
      simp only [ForceTask.step] at h
      split at h <;> cases h
      rename_i hc
      have := force_read_same (X := .cpp) (force_compute_same hc) a
      cases a <;> exact ⟨trivial, this⟩
    · intro s' h
      simp only [ForceTask.step] at h
      split at h <;> cases h
  | compute5 gen names =>
    constructor
    · intro s' u h
      simp only [ForceTask.step] at h
      split at h <;> cases h
      rename_i hc
      unfold ForceTask.compute5 at hc
      split at hc
      · split at hc
        · have := force_read_same (X := .cpp) (force_compute_same hc) a
          cases a <;> exact ⟨trivial, this⟩
        · cases hc; cases a <;> exact ⟨trivial, rfl⟩
      · cases hc; cases a <;> exact ⟨trivial, rfl⟩
    · intro s' h
      simp only [ForceTask.step] at h
      split at h <;> cases h

/-- C95, `TaskContactForceEquality`: the getters of C++ return what was last accepted. -/
theorem C95_force (name : String) (dt : K) (contact : Nat) (cname : String) (a : ForceAttr) :
    Reads (fun _ => True) (ForceTask.step (K := K)) (force a) (fun s => ForceTask.read .cpp s a)
      (ForceTask.new name dt contact cname) (forceInitial a) := by
  refine reads_of (force_readStep a) trivial ?_
  cases a
  · rfl
  · rfl
  · rfl
  · rfl
  · show Reading.value [(Vec.zero 6 : Vec K).toList, (Vec.zero 6 : Vec K).toList, (Vec.zero 6 : Vec K).toList] = _
    rw [toList_zero]; rfl
  · show Reading.value [(Vec.zero 6 : Vec K).toList, (Vec.zero 6 : Vec K).toList, (Vec.zero 6 : Vec K).toList] = _
    rw [toList_zero]; rfl

/-- C95: the Python attributes `Kp`, `Kd` and `getLeakRate` agree with C++. -/
theorem C95_force_python (name : String) (dt : K) (contact : Nat) (cname : String) {a : ForceAttr}
    (ha : a = .kp ∨ a = .kd ∨ a = .leak) :
    Reads (fun _ => True) (ForceTask.step (K := K)) (force a) (fun s => ForceTask.read .python s a)
      (ForceTask.new name dt contact cname) (forceInitial a) := by
  have hc := C95_force name dt contact cname a
  rcases ha with rfl | rfl | rfl <;> exact hc

/-- C95, finding: the Python attribute `Ki` returns the derivative gain last accepted. -/
theorem C95_force_python_Ki (name : String) (dt : K) (contact : Nat) (cname : String) :
    Reads (fun _ => True) (ForceTask.step (K := K)) (force .kd) (fun s => ForceTask.read .python s .ki)
      (ForceTask.new name dt contact cname) (forceInitial .kd) :=
  C95_force name dt contact cname .kd

/-- C95, finding: the Python attribute `Ki` is not the integral gain. -/
theorem C95_force_python_Ki_wrong (name : String) (dt : K) (contact : Nat) (cname : String) (v : List (List K)) :
    ¬ Reads (fun _ => True) (ForceTask.step (K := K)) (force .ki) (fun s => ForceTask.read .python s .ki)
      (ForceTask.new name dt contact cname) v := by
  intro h
  have := h [.setKi ⟨6, fun _ => 1⟩] (fun _ _ => trivial)
    { ForceTask.new name dt contact cname with ki := ⟨6, fun _ => 1⟩ } rfl
  have hl : (lastAccepted (ForceTask.step (K := K)) (force .ki) v (ForceTask.new name dt contact cname)
      [.setKi ⟨6, fun _ => 1⟩]) = [[1, 1, 1, 1, 1, 1]] := rfl
  rw [hl] at this
  injection this with this
  injection this with this
  cases this

/-! ## Centre of pressure -/

theorem cop_compute_same {g : Nat → Nat → K} {s s' : CopTask K} {cs : List (CopContact K)} {c : Constraint K}
    (h : s.compute g cs = .ok s' c) : s'.ref = s.ref := by
  unfold CopTask.compute at h
  split at h
  · simp only at h
    split at h <;> cases h
    rfl
  · cases h

/-- C95, `TaskCopEquality`: `getReference()` returns the reference last accepted. -/
theorem C95_cop (name : String) :
    Reads (fun _ => True) (CopTask.step (K := K)) cop (CopTask.read .cpp) (CopTask.new name) [[0, 0, 0]] := by
  refine reads_of (I := fun _ => True) ?_ trivial rfl
  intro s o _ _
  cases o with
  | setReference p =>
    constructor
    · intro s' u h; cases h; exact ⟨trivial, rfl⟩
    · intro s' h; cases h
  | setContactNormal n =>
    constructor
    · intro s' u h; cases h; exact ⟨trivial, rfl⟩
    · intro s' h; cases h
  | setContactList =>
    constructor
    · intro s' u h; cases h; exact ⟨trivial, rfl⟩
    · intro s' h; cases h
  | compute g cs =>
    constructor
    · intro s' u h
      simp only [CopTask.step] at h
      split at h <;> cases h
      rename_i hc
      exact ⟨trivial, congrArg Reading.v3 (cop_compute_same hc)⟩
    · intro s' h
      simp only [CopTask.step] at h
      split at h <;> cases h
  | compute5 g cs =>
    constructor
    · intro s' u h
      simp only [CopTask.step] at h
      split at h <;> cases h
      rename_i hc
      exact ⟨trivial, congrArg Reading.v3 ((cop_compute_same hc).trans rfl)⟩
    · intro s' h
      simp only [CopTask.step] at h
      split at h <;> cases h

/-! ## Measured wrench -/

/-- C95, `Measured6Dwrench`: `getMeasuredContactForce()` returns the wrench last set. -/
theorem C95_measured (X : Reader) (nv : Nat) (supp : Nat → Bool) :
    Reads (fun _ => True) (Measured6D.stepRes (K := K)) wrench (Measured6D.read X) (Measured6D.new nv supp)
      [[0, 0, 0, 0, 0, 0]] := by
  refine reads_of (I := fun _ => True) ?_ trivial rfl
  intro s o _ _
  constructor
  · intro s' u h
    cases h
    cases o <;> exact ⟨trivial, rfl⟩
  · intro s' h; cases h

/-! ## Motors -/

/-- C95, `RobotWrapper`: `rotor_inertias()` and `gear_ratios()` return what was last accepted. -/
theorem C95_robot (X : Reader) {nv : Nat} {root : RootJoint} {r : Robot K} (h : Robot.new nv root = some r) (gear : Bool) :
    Reads (fun _ => True) (Robot.step (K := K)) (motors gear) (fun r => Robot.read X r gear) r
      [List.replicate r.na 0] := by
  refine reads_of (I := fun _ => True) ?_ trivial ?_
  · intro s o _ _
    cases o with
    | setRotor v =>
      constructor
      · intro s' u h
        simp only [Robot.step, Robot.setRotor] at h
        split at h <;> try cases h
        rename_i hc
        split at hc <;> cases hc
        cases gear <;> exact ⟨trivial, rfl⟩
      · intro s' h
        simp only [Robot.step, Robot.setRotor] at h
        split at h <;> try cases h
        rename_i hc
        split at hc <;> cases hc
        exact ⟨trivial, rfl⟩
    | setGear v =>
      constructor
      · intro s' u h
        simp only [Robot.step, Robot.setGear] at h
        split at h <;> try cases h
        rename_i hc
        split at hc <;> cases hc
        cases gear <;> exact ⟨trivial, rfl⟩
      · intro s' h
        simp only [Robot.step, Robot.setGear] at h
        split at h <;> try cases h
        rename_i hc
        split at hc <;> cases hc
        exact ⟨trivial, rfl⟩
    | mass M =>
      constructor
      · intro s' u h; cases h; cases gear <;> exact ⟨trivial, rfl⟩
      · intro s' h; cases h
  · unfold Robot.new at h
    cases root with
    | fixedBase =>
      cases h
      cases gear <;> exact congrArg (fun l => Reading.value [l]) (toList_zero _)
    | floatingBase =>
      simp only at h
      split at h <;> cases h
      cases gear <;> exact congrArg (fun l => Reading.value [l]) (toList_zero _)

/-! ## Samples -/

theorem sample_cpp_readStep (X : Reader) (a : SampleAttr) :
    ReadStep (fun _ => True) (fun _ => True) (Sample.stepCpp (K := K)) (sample a) (fun s => Sample.read X s a) := by
  intro s o _ _
  cases o with
  | setValue v =>
    constructor
    · intro s' u h; cases h; cases a <;> exact ⟨trivial, rfl⟩
    · intro s' h; cases h
  | setDerivative v =>
    constructor
    · intro s' u h; cases h; cases a <;> exact ⟨trivial, rfl⟩
    · intro s' h; cases h
  | setSecond v =>
    constructor
    · intro s' u h; cases h; cases a <;> exact ⟨trivial, rfl⟩
    · intro s' h; cases h
  | setPose M =>
    constructor
    · intro s' u h; cases h
    · intro s' h; cases h
  | resize n d =>
    constructor
    · intro s' u h; cases h
      refine ⟨trivial, ?_⟩
      cases a <;> exact congrArg (fun l => Reading.value [l]) (toList_zero _)
    · intro s' h; cases h

/-- C95, `TrajectorySample` in C++: the getters return what was last set. -/
theorem C95_sample (n d : Nat) (a : SampleAttr) :
    Reads (fun _ => True) (Sample.stepCpp (K := K)) (sample a) (fun s => Sample.read .cpp s a) (Sample.zero n d)
      (sampleInitial n d a) :=
  reads_of (sample_cpp_readStep .cpp a) trivial
    (by cases a <;> exact congrArg (fun l => Reading.value [l]) (toList_zero _))

/-- C95, `TrajectorySample` in Python: the getters return what was last accepted, in every build. -/
theorem C95_sample_python (nd : Bool) (n d : Nat) (a : SampleAttr) :
    Reads (fun _ => True) (Sample.stepPython (K := K) nd) (sample a) (fun s => Sample.read .python s a) (Sample.zero n d)
      (sampleInitial n d a) := by
  refine reads_of (I := fun _ => True) ?_ trivial
    (by cases a <;> exact congrArg (fun l => Reading.value [l]) (toList_zero _))
  intro s o _ _
  cases o with
  | setValue v =>
    constructor
    · intro s' u h
      simp only [Sample.stepPython] at h
      split at h <;> cases h
      cases a <;> exact ⟨trivial, rfl⟩
    · intro s' h
      simp only [Sample.stepPython] at h
      split at h <;> cases h
  | setDerivative v =>
    constructor
    · intro s' u h
      simp only [Sample.stepPython] at h
      split at h <;> cases h
      cases a <;> exact ⟨trivial, rfl⟩
    · intro s' h
      simp only [Sample.stepPython] at h
      split at h <;> cases h
  | setSecond v =>
    constructor
    · intro s' u h
      simp only [Sample.stepPython] at h
      split at h <;> cases h
      cases a <;> exact ⟨trivial, rfl⟩
    · intro s' h
      simp only [Sample.stepPython] at h
      split at h <;> cases h
  | setPose M =>
    constructor
    · intro s' u h
      simp only [Sample.stepPython] at h
      split at h
      · rename_i p hp
        cases h
        refine ⟨trivial, ?_⟩
        cases a <;> try rfl
        exact congrArg (fun l => Reading.value [l]) (toVector_coeffs hp)
      · split at h <;> cases h
    · intro s' h
      simp only [Sample.stepPython] at h
      split at h
      · cases h
      · split at h <;> cases h
        exact ⟨trivial, rfl⟩
  | resize n d =>
    constructor
    · intro s' u h; cases h
      refine ⟨trivial, ?_⟩
      cases a <;> exact congrArg (fun l => Reading.value [l]) (toList_zero _)
    · intro s' h; cases h

/-- The sizes of the value and of the derivatives: those of the last `resize`, or of the constructor. -/
def sampleSizes : Nat × Nat → List (Sample.Op K) → Nat × Nat
  | nd, [] => nd
  | _, .resize n d :: os => sampleSizes (n, d) os
  | nd, _ :: os => sampleSizes nd os

theorem sample_sizes {n d : Nat} : ∀ (ops : List (Sample.Op K)) (s0 s : Sample K), s0.pos.size = n → s0.vel.size = d →
    s0.acc.size = d → runOps (Sample.stepPython (K := K) false) s0 ops = some s →
    s.pos.size = (sampleSizes (n, d) ops).1 ∧ s.vel.size = (sampleSizes (n, d) ops).2 ∧
      s.acc.size = (sampleSizes (n, d) ops).2 := by
  intro ops
  induction ops generalizing n d with
  | nil => intro s0 s h1 h2 h3 h; cases h; exact ⟨h1, h2, h3⟩
  | cons o os ih =>
    intro s0 s h1 h2 h3 h
    cases o with
    | resize n' d' => exact ih (n := n') (d := d') _ s rfl rfl rfl h
    | setValue v =>
      by_cases hv : s0.pos.size = v.size
      · simp only [runOps, Sample.stepPython, hv, true_or, if_true, Res.state?] at h
        exact ih { s0 with pos := v } s (hv.symm.trans h1) h2 h3 h
      · simp only [runOps, Sample.stepPython, hv, Bool.false_eq_true, or_false, if_false, Res.state?] at h
        cases h
    | setDerivative v =>
      by_cases hv : s0.vel.size = v.size
      · simp only [runOps, Sample.stepPython, hv, true_or, if_true, Res.state?] at h
        exact ih { s0 with vel := v } s h1 (hv.symm.trans h2) h3 h
      · simp only [runOps, Sample.stepPython, hv, Bool.false_eq_true, or_false, if_false, Res.state?] at h
        cases h
    | setSecond v =>
      by_cases hv : s0.acc.size = v.size
      · simp only [runOps, Sample.stepPython, hv, true_or, if_true, Res.state?] at h
        exact ih { s0 with acc := v } s h1 h2 (hv.symm.trans h3) h
      · simp only [runOps, Sample.stepPython, hv, Bool.false_eq_true, or_false, if_false, Res.state?] at h
        cases h
    | setPose M =>
      cases hp : M.toVector s0.pos with
      | none =>
        simp only [runOps, Sample.stepPython, hp, Bool.false_eq_true, if_false, Res.state?] at h
        cases h
      | some p =>
        simp only [runOps, Sample.stepPython, hp, Res.state?] at h
        have e : p.size = s0.pos.size := by
          unfold SE3.toVector at hp
          split at hp
          · rename_i h12; cases hp; exact h12.symm
          · cases hp
        exact ih { s0 with pos := p } s (e.trans h1) h2 h3 h

/-- C95, which arguments a sample accepts in Python: in a debug build a setter returns if its argument has the size that was
chosen at construction or by the last `resize`, and stops the program otherwise. -/
theorem C95_sample_python_sizes {n d : Nat} {ops : List (Sample.Op K)} {s : Sample K}
    (h : runOps (Sample.stepPython (K := K) false) (Sample.zero n d) ops = some s) :
    (∀ v, Sample.stepPython false s (.setValue v) =
      if v.size = (sampleSizes (n, d) ops).1 then .ok { s with pos := v } () else .abort) ∧
    (∀ v, Sample.stepPython false s (.setDerivative v) =
      if v.size = (sampleSizes (n, d) ops).2 then .ok { s with vel := v } () else .abort) ∧
    (∀ v, Sample.stepPython false s (.setSecond v) =
      if v.size = (sampleSizes (n, d) ops).2 then .ok { s with acc := v } () else .abort) ∧
    ∀ M, (∃ s', Sample.stepPython false s (.setPose M) = .ok s' ()) ↔ (sampleSizes (n, d) ops).1 = 12 := by
  obtain ⟨h1, h2, h3⟩ := sample_sizes (n := n) (d := d) ops _ s rfl rfl rfl h
  refine ⟨fun v => ?_, fun v => ?_, fun v => ?_, fun M => ?_⟩
  · simp only [Sample.stepPython, h1, Bool.false_eq_true, or_false, eq_comm]
  · simp only [Sample.stepPython, h2, Bool.false_eq_true, or_false, eq_comm]
  · simp only [Sample.stepPython, h3, Bool.false_eq_true, or_false, eq_comm]
  · simp only [Sample.stepPython, SE3.toVector, ← h1]
    by_cases e : s.pos.size = 12 <;> simp [e]

end

/-! ## Contacts -/

section
open Formulation
variable [Field K] [LinearOrder K] [HasSqrt K]

theorem ineq_same (c : Contact K) :
    (Contact.updateForceInequality c).fMin = c.fMin ∧ (Contact.updateForceInequality c).fMax = c.fMax := by
  unfold Contact.updateForceInequality
  split <;> exact ⟨rfl, rfl⟩

theorem gen_same (c : Contact K) :
    (Contact.updateForceGenerator c).fMin = c.fMin ∧ (Contact.updateForceGenerator c).fMax = c.fMax := by
  unfold Contact.updateForceGenerator
  split <;> exact ⟨rfl, rfl⟩

theorem reg_same (c : Contact K) :
    (Contact.updateForceReg c).fMin = c.fMin ∧ (Contact.updateForceReg c).fMax = c.fMax := by
  unfold Contact.updateForceReg
  split <;> exact ⟨rfl, rfl⟩

/-- One setter of a contact: what becomes of the two limits. -/
theorem applySet_limits (c : Contact K) (u : ContactSet K) :
    (∀ c' x, applySet c u = .ok c' x → c'.fMin = (match u with | .fMin m => m | _ => c.fMin) ∧
      c'.fMax = (match u with | .fMax m => m | _ => c.fMax)) ∧
    (∀ c', applySet c u = .throw c' → c'.fMin = c.fMin ∧ c'.fMax = c.fMax) := by
  cases u with
  | points P =>
    simp only [applySet, Contact.setContactPoints]
    constructor
    · intro c' x h
      split at h
      · split at h <;> try cases h
        split at h <;> cases h
        exact gen_same _
      · cases h
    · intro c' h
      split at h
      · split at h
        · split at h <;> cases h
          exact ⟨rfl, rfl⟩
        · cases h; exact ⟨rfl, rfl⟩
      · cases h
  | normal n =>
    simp only [applySet, Contact.setContactNormal]
    constructor
    · intro c' x h
      split at h
      · cases h; exact ⟨rfl, rfl⟩
      · split at h <;> cases h
        exact ineq_same _
    · intro c' h
      split at h
      · cases h
      · split at h <;> cases h
        exact ⟨rfl, rfl⟩
  | friction mu =>
    simp only [applySet, Contact.setFrictionCoefficient]
    constructor
    · intro c' x h
      split at h
      · cases h; exact ⟨rfl, rfl⟩
      · split at h <;> cases h
        exact ineq_same _
    · intro c' h
      split at h
      · cases h
      · split at h <;> cases h
        exact ⟨rfl, rfl⟩
  | fMin m =>
    simp only [applySet, Contact.setMinNormalForce]
    constructor
    · intro c' x h
      split at h
      · cases h; exact ineq_same _
      · split at h <;> cases h
        exact ⟨rfl, rfl⟩
    · intro c' h
      split at h
      · cases h
      · split at h <;> cases h
        exact ⟨rfl, rfl⟩
  | fMax m =>
    simp only [applySet, Contact.setMaxNormalForce]
    constructor
    · intro c' x h
      split at h
      · cases h; exact ineq_same _
      · split at h <;> cases h
        exact ⟨rfl, rfl⟩
    · intro c' h
      split at h
      · cases h
      · split at h <;> cases h
        exact ⟨rfl, rfl⟩
  | forceRef f =>
    simp only [applySet, Contact.setForceReference]
    constructor
    · intro c' x h
      split at h <;> split at h <;> cases h
      all_goals exact reg_same _
    · intro c' h
      split at h <;> split at h <;> cases h
      exact ⟨rfl, rfl⟩
  | regWeights w =>
    simp only [applySet, Contact.setRegularizationWeights]
    constructor
    · intro c' x h
      split at h <;> cases h
      exact reg_same _
    · intro c' h
      split at h <;> cases h

/-- C95, contacts of all three kinds: `getMinNormalForce()` and `getMaxNormalForce()` return the limits last accepted,
at first those given to the constructor. -/
theorem C95_contact (X : Reader) (name : String) (kind : ContactKind) (points : Nat → V3 K) (normal : V3 K)
    (mu fMin fMax : K) (max : Bool) :
    Reads (fun _ => True) (applySet (K := K)) (normalForce max) (fun c => Contact.read X c max)
      (Contact.new name kind points normal mu fMin fMax) [[if max then fMax else fMin]] := by
  refine reads_of (I := fun _ => True) ?_ trivial ?_
  · intro c u _ _
    obtain ⟨h1, h2⟩ := applySet_limits c u
    constructor
    · intro c' x h
      obtain ⟨e1, e2⟩ := h1 c' x h
      refine ⟨trivial, ?_⟩
      cases max <;> cases u <;> simp only [Contact.read, normalForce, Bool.false_eq_true, if_true, if_false] <;>
        simp only [e1, e2, Reading.num]
    · intro c' h
      obtain ⟨e1, e2⟩ := h2 c' h
      refine ⟨trivial, ?_⟩
      cases max <;> simp only [Contact.read, e1, e2]
  · have hn : (Contact.new name kind points normal mu fMin fMax).fMin = fMin ∧
        (Contact.new name kind points normal mu fMin fMax).fMax = fMax := by
      unfold Contact.new
      simp only
      rw [(reg_same _).1, (reg_same _).2, (ineq_same _).1, (ineq_same _).2, (gen_same _).1, (gen_same _).2]
      exact ⟨rfl, rfl⟩
    cases max <;> simp only [Contact.read, hn, Reading.num] <;> rfl

end

/-! ## Examples -/

/-- Three different gains. -/
def attrForceOps : List (ForceTask.Op ℚ) :=
  [.setKp ⟨6, fun _ => 1⟩, .setKd ⟨6, fun _ => 2⟩, .setKi ⟨6, fun _ => 3⟩, .setKi ⟨5, fun _ => 4⟩, .setLeakRate (1 / 10),
    .compute (Mat.zero 6 12)]

/-- What is read from a force task after a history of calls. -/
def attrForce (R : Reader) (a : ForceAttr) (ops : List (ForceTask.Op ℚ)) : Option (List (List ℚ)) :=
  (runOps (ForceTask.step (K := ℚ)) (ForceTask.new "force" (1 / 100) 0 "foot") ops).bind fun s =>
    match ForceTask.read R s a with
    | .value l => some l
    | _ => none

example : attrForce .cpp .ki attrForceOps = some [[3, 3, 3, 3, 3, 3]] := by decide +kernel
example : attrForce .python .ki attrForceOps = some [[2, 2, 2, 2, 2, 2]] := by decide +kernel
example : attrForce .python .leak attrForceOps = some [[1 / 10]] := by decide +kernel

/-- A pose given to a sample for joints is refused, one given to a sample for poses is stored. -/
example : (runOps (Sample.stepPython (K := ℚ) true) (Sample.zero 2 2) [.setPose SE3.one, .setDerivative ⟨2, fun _ => 5⟩]).map
    (fun s => (s.pos.toList, s.vel.toList)) = some ([0, 0], [5, 5]) := by decide +kernel
example : (runOps (Sample.stepPython (K := ℚ) true) (Sample.zero 2 2) [.resize 12 6, .setPose ⟨⟨⟨0, 1, 0⟩, ⟨-1, 0, 0⟩, ⟨0, 0, 1⟩⟩, ⟨7, 8, 9⟩⟩]).map
    (fun s => s.pos.toList) = some [7, 8, 9, 0, 1, 0, -1, 0, 0, 0, 0, 1] := by decide +kernel

example : (runOps (Sample.stepPython (K := ℚ) false) (Sample.zero 2 2)
    [.setValue ⟨2, fun _ => 1⟩, .resize 12 6, .setDerivative ⟨6, fun _ => 1⟩]).isSome = true ∧
    sampleSizes (K := ℚ) (2, 2) [.setValue ⟨2, fun _ => 1⟩, .resize 12 6, .setDerivative ⟨6, fun _ => 1⟩] = (12, 6) := by
  decide +kernel

/-- Rotor inertias of a robot with two motors: a vector of another size is refused. -/
example : ((Robot.new (K := ℚ) 8 .floatingBase).bind fun r =>
    runOps (Robot.step (K := ℚ)) r [.setRotor ⟨2, fun _ => 3⟩, .setGear ⟨8, fun _ => 4⟩]).map
    (fun r => (r.rotor.toList, r.gear.toList)) = some ([3, 3], [0, 0]) := by decide +kernel

/-- Limits of the normal force: the maximum below the minimum is refused. -/
example : (runOps (Formulation.applySet (K := ℚ))
    (Contact.new "foot" .point (fun _ => 0) ⟨0, 0, 1⟩ 1 1 100) [.fMin 5, .fMax 4, .friction 2, .fMax 50]).map
    (fun c => (c.fMin, c.fMax)) = some (5, 50) := by decide +kernel

end Tsid
