import Verif.Spec.ProgramRun
import Verif.Props.ProgramProgress

/-!
# C91: a well-typed program never runs into undefined behaviour
-/

set_option linter.unusedSectionVars false

namespace Tsid.Props

open Spec Finset Formulation Program

variable {K : Type} [Field K] [LinearOrder K] [FloorRing K] [HasSqrt K]

/-! ## One call on an object -/

theorem last_step {σ op α : Type} {step : σ → op → Res σ α} {s0 s s' : σ} {l : List op} {o : op}
    (h1 : runOps step s0 l = some s) (h2 : runOps step s0 (l ++ [o]) = some s') : ∃ s', (step s o).state? = some s' := by
  rw [runOps_append, h1] at h2
  simp only [Option.bind_some, runOps] at h2
  cases hs : (step s o).state? with
  | none => rw [hs] at h2; cases h2
  | some s2 => exact ⟨s2, rfl⟩

theorem lift_some {σ α : Type} {f : σ → TaskObj K} {r : Res σ α} (h : ∃ s', r.state? = some s') :
    ∃ o', (TaskObj.lift f r).state? = some o' := by
  obtain ⟨s', h⟩ := h
  cases r <;> first | exact ⟨_, rfl⟩ | cases h

theorem liftMotion_some {σ α : Type} {f : σ → ContactMotion K} {r : Res σ α} (h : ∃ s', r.state? = some s') :
    ∃ o', (ContactMotion.lift f r).state? = some o' := by
  obtain ⟨s', h⟩ := h
  cases r <;> first | exact ⟨_, rfl⟩ | cases h

theorem capture_answers (s : CaptureTask K) {nv : Nat} {g dt : K} {p : CaptureSettings K} (hi : CaptureInv nv g dt p s)
    (o : CaptureTask.Op K) : ∃ s', (s.step o).state? = some s' := by
  cases o with
  | setX lo hi => simp only [CaptureTask.step]; split <;> exact ⟨_, rfl⟩
  | setY lo hi => simp only [CaptureTask.step]; split <;> exact ⟨_, rfl⟩
  | setMargin x y => exact ⟨_, rfl⟩
  | compute k =>
    obtain ⟨s', c, e1, -⟩ := capture_compute hi k
    exact ⟨s', by simp only [CaptureTask.step, e1, Res.state?]⟩

theorem posture_answers [IsStrictOrderedRing K] {R : PostureRobot K} (hR : RobotOk R) {p : PostureSettings K} {s : Posture K} (hi : Posture.Inv R p s)
    {o : Posture.Op K} (hg : PostureSettings.GoodMask R.na o) (hv : ∀ q v, o = .compute q v → v.size = R.nv) :
    ∃ s', (s.step R o).state? = some s' := by
  cases o with
  | setMask m =>
    simp only [Posture.step, Posture.setMask]
    by_cases hsz : m.size = R.na
    · obtain ⟨m', h1, h2⟩ := maskInv_setMask (w := fun _ => (1 : K)) (s := s.m) (cols := R.nv) (off := R.nv - R.na)
        (by have := hR.na; omega) (hg hsz) hi.m.kind
      rw [h1]
      exact ⟨_, rfl⟩
    · rw [setMask_size hsz]
      exact ⟨_, rfl⟩
  | setKp k => simp only [Posture.step, Posture.setKp]; split <;> exact ⟨_, rfl⟩
  | setKd k => simp only [Posture.step, Posture.setKd]; split <;> exact ⟨_, rfl⟩
  | setReference r =>
    simp only [Posture.step, Posture.setReference]
    split
    · split
      · split <;> exact ⟨_, rfl⟩
      · exact ⟨_, rfl⟩
    · exact ⟨_, rfl⟩
  | compute q v =>
    obtain ⟨s1, c, h1, -⟩ := Posture.compute_ok (q := q) hi hR.na hR.nqa hR.diff (hv q v rfl)
    exact ⟨s1, by simp only [Posture.step, h1, Res.state?]⟩

theorem jointBounds_answers {nv na : Nat} {p : BoundSettings K} {s : JointBounds K} (hi : BoundsInv nv na p s)
    {o : JointBounds.Op K} (hv : ∀ v, o = .compute v → na ≤ v.size) : ∃ s', (s.step o).state? = some s' := by
  cases o with
  | setTimeStep dt => simp only [JointBounds.step, JointBounds.setTimeStep]; split <;> exact ⟨_, rfl⟩
  | setVelocityBounds l u =>
    simp only [JointBounds.step, JointBounds.setVelocityBounds]
    split
    · split <;> exact ⟨_, rfl⟩
    · exact ⟨_, rfl⟩
  | setAccelerationBounds l u =>
    simp only [JointBounds.step, JointBounds.setAccelerationBounds]
    split
    · split <;> exact ⟨_, rfl⟩
    · exact ⟨_, rfl⟩
  | setMask m => exact ⟨_, rfl⟩
  | compute v =>
    simp only [JointBounds.step, JointBounds.compute]
    rw [if_pos (by rw [hi.naEq]; exact hv v rfl)]
    exact ⟨_, rfl⟩

theorem posVelAcc_answers [IsStrictOrderedRing K] [LawfulSqrt K] {nv na : Nat} (hna : na ≤ nv) {p : LimitSettings K} {s : PosVelAcc K}
    (hi : PosVelAcc.LimInv nv na p s) {o : PosVelAcc.Op K} (hg : GoodMask na o)
    (hv : ∀ q v, o = .compute q v → na ≤ q.size ∧ na ≤ v.size) : ∃ s', (s.step o).state? = some s' := by
  cases o with
  | setTimeStep dt => simp only [PosVelAcc.step, PosVelAcc.setTimeStep]; split <;> exact ⟨_, rfl⟩
  | setPositionBounds l u =>
    simp only [PosVelAcc.step, PosVelAcc.setPositionBounds]
    split
    · split <;> exact ⟨_, rfl⟩
    · exact ⟨_, rfl⟩
  | setVelocityBounds u => simp only [PosVelAcc.step, PosVelAcc.setVelocityBounds]; split <;> exact ⟨_, rfl⟩
  | setAccelerationBounds u => simp only [PosVelAcc.step, PosVelAcc.setAccelerationBounds]; split <;> exact ⟨_, rfl⟩
  | setImposeBounds a b c d => exact ⟨_, rfl⟩
  | setMask m =>
    simp only [PosVelAcc.step, PosVelAcc.setMask, hi.nvEq, hi.naEq]
    by_cases h1 : m.size = na
    · rw [setMask_ok (s := s.m) (w := fun _ => 1) (cols := nv) (off := nv - na) (hg h1) (by omega)
        (by rw [hi.kind]; simp)]
      exact ⟨_, rfl⟩
    · rw [setMask_size h1]
      exact ⟨_, rfl⟩
  | compute q v =>
    obtain ⟨h1, h2⟩ := hv q v rfl
    simp only [PosVelAcc.step]
    rw [PosVelAcc.compute_ok (by rw [hi.naEq]; exact h1) (by rw [hi.naEq]; exact h2)]
    exact ⟨_, rfl⟩

theorem force_answers (s : ForceTask K) {o : ForceTask.Op K} (h1 : ∀ gen, o ≠ .compute gen)
    (h2 : ∀ gen names, o ≠ .compute5 gen names) : ∃ s', (s.step o).state? = some s' := by
  cases o with
  | setKp k => simp only [ForceTask.step]; split <;> exact ⟨_, rfl⟩
  | setKd k => simp only [ForceTask.step]; split <;> exact ⟨_, rfl⟩
  | setKi k => simp only [ForceTask.step]; split <;> exact ⟨_, rfl⟩
  | compute gen => exact absurd rfl (h1 gen)
  | compute5 gen names => exact absurd rfl (h2 gen names)
  | _ => exact ⟨_, rfl⟩

theorem cop_answers (s : CopTask K) {o : CopTask.Op K} (h1 : ∀ g cs, o ≠ .compute g cs)
    (h2 : ∀ g cs, o ≠ .compute5 g cs) : ∃ s', (s.step o).state? = some s' := by
  cases o with
  | compute g cs => exact absurd rfl (h1 g cs)
  | compute5 g cs => exact absurd rfl (h2 g cs)
  | _ => exact ⟨_, rfl⟩

variable [IsStrictOrderedRing K] [LawfulSqrt K]

/-- An accepted call on a task returns or throws. -/
theorem task_answers {E : Program.Env K} (hR : RobotOk E.robot) {name : String} {d : TaskDecl K} {o0 o1 : TaskObj K}
    {hist : List (TaskCall K)} (hb : d.Built E.robot name o0)
    (hr : runOps (TaskObj.call E) o0 hist = some o1) (hg : ∀ c ∈ hist, GoodCall E.robot c)
    {c : TaskCall K} (ha : d.Accepts E.robot c) : ∃ o2, (o1.call E c).state? = some o2 := by
  cases d with
  | se3 fr =>
    obtain ⟨g, s0, h0, rfl⟩ := hb
    obtain ⟨s, rfl, hr'⟩ := unwrap (wrap := TaskObj.se3 fr) (st := SE3Task.step E.log3) (get := se3?) (fun s c => by cases c <;> rfl) hr
    obtain ⟨s1, e1, hi⟩ := SE3Task.inv_new (K := K) (g := g) (name := name) (nv := E.robot.nv)
    rw [e1] at h0; cases h0
    obtain ⟨s2, e2, hi⟩ := SE3Task.inv_run (log3 := E.log3) hi
      (good_filter hg (get := se3?) (Q := FrameSettings.Good) (fun c o h h' => by cases c <;> cases h; exact h'))
    rw [hr'] at e2
    cases e2
    cases c with
    | se3 o =>
      obtain ⟨s', e, -⟩ := SE3Task.inv_step (log3 := E.log3) hi (o := o) ha
      exact lift_some ⟨s', e⟩
    | _ => exact ha.elim
  | twoFrames f1 f2 =>
    obtain ⟨g, s0, h0, rfl⟩ := hb
    obtain ⟨s, rfl, hr'⟩ := unwrap (wrap := TaskObj.twoFrames f1 f2) (st := TwoFrames.step E.ndebug E.log3) (get := pair?) (fun s c => by cases c <;> rfl) hr
    obtain ⟨s1, e1, hi⟩ := TwoFrames.inv_new (K := K) (g := g) (name := name) (nv := E.robot.nv)
    rw [e1] at h0; cases h0
    obtain ⟨s2, e2, hi⟩ := TwoFrames.inv_run (ndebug := E.ndebug) (log3 := E.log3) hi
      (good_filter hg (get := pair?) (Q := PairSettings.Good) (fun c o h h' => by cases c <;> cases h; exact h'))
    rw [hr'] at e2
    cases e2
    cases c with
    | twoFrames o =>
      obtain ⟨s', e, -⟩ := TwoFrames.inv_step (ndebug := E.ndebug) (log3 := E.log3) hi (o := o) ha
      exact lift_some ⟨s', e⟩
    | _ => exact ha.elim
  | com =>
    obtain ⟨g, s0, h0, rfl⟩ := hb
    obtain ⟨s, rfl, hr'⟩ := unwrap (wrap := TaskObj.com) (st := ComTask.step) (get := com?) (fun s c => by cases c <;> rfl) hr
    obtain ⟨s1, e1, hi⟩ := ComTask.inv_new (K := K) (g := g) (name := name) (nv := E.robot.nv)
    rw [e1] at h0; cases h0
    obtain ⟨s2, e2, hi⟩ := ComTask.inv_run hi
      (good_filter hg (get := com?) (Q := ComSettings.Good) (fun c o h h' => by cases c <;> cases h; exact h'))
    rw [hr'] at e2
    cases e2
    cases c with
    | com o =>
      obtain ⟨s', e, -⟩ := ComTask.inv_step hi (o := o) ha
      exact lift_some ⟨s', e⟩
    | _ => exact ha.elim
  | am =>
    obtain ⟨g, rfl⟩ := hb
    obtain ⟨s, rfl, hr'⟩ := unwrap (wrap := TaskObj.am) (st := AmTask.step) (get := am?) (fun s c => by cases c <;> rfl) hr
    obtain ⟨s2, e2, hi⟩ := AmTask.inv_run (AmTask.inv_new (g := g) (name := name))
      (good_filter hg (get := am?) (Q := AmSettings.Good E.robot.nv) (fun c o h h' => by cases c <;> cases h; exact h'))
    rw [hr'] at e2
    cases e2
    cases c with
    | am o =>
      obtain ⟨s', e, -⟩ := AmTask.inv_step hi (o := o) ha
      exact lift_some ⟨s', e⟩
    | _ => exact ha.elim
  | capture gravity dt =>
    obtain ⟨dr, rfl⟩ := hb
    obtain ⟨s, rfl, hr'⟩ := unwrap (wrap := TaskObj.capture) (st := CaptureTask.step) (get := capture?) (fun s c => by cases c <;> rfl) hr
    have h0 : CaptureInv E.robot.nv gravity.norm dt CaptureSettings.fresh
        (CaptureTask.new name E.robot.nv gravity dt dr) := ⟨rfl, rfl, rfl, rfl, rfl, rfl, rfl, rfl, rfl⟩
    obtain ⟨s2, e2, hi⟩ := capture_run (hist.filterMap capture?) h0
    rw [hr'] at e2
    cases e2
    cases c with
    | capture o => exact lift_some (capture_answers s hi o)
    | _ => exact ha.elim
  | posture =>
    obtain ⟨s0, h0, rfl⟩ := hb
    obtain ⟨s, rfl, hr'⟩ := unwrap (wrap := TaskObj.posture) (st := Posture.step E.robot) (get := posture?) (fun s c => by cases c <;> rfl) hr
    obtain ⟨s1, e1, hi⟩ := Posture.inv_new (R := E.robot) (name := name) hR.na
    rw [e1] at h0; cases h0
    have hi := Posture.inv_run hR.na hR.nqa hR.diff hi
      (good_filter hg (get := posture?) (Q := PostureSettings.GoodMask E.robot.na) (fun c o h h' => by cases c <;> cases h; exact h'.1))
      (fun q v h => (good_filter hg (get := posture?) (Q := fun o => ∀ q v, o = Posture.Op.compute q v → v.size = E.robot.nv) (fun c o h h' => by cases c <;> cases h; exact h'.2)) _ h q v rfl)
      hr'
    cases c with
    | posture o => exact lift_some (posture_answers hR hi ha.1 ha.2)
    | _ => exact ha.elim
  | jointBounds dt =>
    obtain ⟨s0, h0, rfl⟩ := hb
    obtain ⟨s, rfl, hr'⟩ := unwrap (wrap := TaskObj.jointBounds) (st := JointBounds.step) (get := jointBounds?) (fun s c => by cases c <;> rfl) hr
    have hi := boundsInv_run (boundsInv_new h0) hr'
    cases c with
    | jointBounds o => exact lift_some (jointBounds_answers hi ha)
    | _ => exact ha.elim
  | posVelAcc dt =>
    obtain ⟨s0, h0, rfl⟩ := hb
    obtain ⟨s, rfl, hr'⟩ := unwrap (wrap := TaskObj.posVelAcc) (st := PosVelAcc.step) (get := posVelAcc?) (fun s c => by cases c <;> rfl) hr
    have hgm : ∀ o ∈ hist.filterMap posVelAcc?, GoodMask E.robot.na o :=
      (good_filter hg (get := posVelAcc?) (Q := GoodMask E.robot.na) (fun c o h h' => by cases c <;> cases h; exact h'.1))
    have hi := PosVelAcc.limInv_run hR.na (PosVelAcc.limInv_new hR.na h0).1 hgm hr'
    cases c with
    | posVelAcc o => exact lift_some (posVelAcc_answers hR.na hi ha.1 ha.2.2)
    | _ => exact ha.elim
  | actBounds =>
    obtain ⟨s0, h0, rfl⟩ := hb
    obtain ⟨s, rfl, hr'⟩ := unwrap (wrap := TaskObj.actBounds) (st := ActBounds.step E.robot.na) (get := actBounds?) (fun s c => by cases c <;> rfl) hr
    obtain ⟨s1, e1, hi⟩ := ActBounds.inv_new (K := K) (name := name) (na := E.robot.na)
    rw [e1] at h0; cases h0
    obtain ⟨s2, e2, hi⟩ := ActBounds.inv_run hi
      (good_filter hg (get := actBounds?) (Q := TorqueLimits.GoodMask E.robot.na) (fun c o h h' => by cases c <;> cases h; exact h'))
    rw [hr'] at e2
    cases e2
    cases c with
    | actBounds o =>
      obtain ⟨s', e, -⟩ := ActBounds.inv_step hi (o := o) ha
      exact lift_some ⟨s', e⟩
    | _ => exact ha.elim
  | actEq =>
    obtain ⟨s0, h0, rfl⟩ := hb
    obtain ⟨s, rfl, hr'⟩ := unwrap (wrap := TaskObj.actEq) (st := ActEq.step E.robot.na) (get := actEq?) (fun s c => by cases c <;> rfl) hr
    obtain ⟨s1, e1, hi⟩ := ActEq.inv_new (K := K) (name := name) (na := E.robot.na)
    rw [e1] at h0; cases h0
    obtain ⟨s2, e2, hi⟩ := ActEq.inv_run hi
      (good_filter hg (get := actEq?) (Q := TorqueSettings.GoodMask E.robot.na) (fun c o h h' => by cases c <;> cases h; exact h'))
    rw [hr'] at e2
    cases e2
    cases c with
    | actEq o =>
      obtain ⟨s', e, -⟩ := ActEq.inv_step hi (o := o) ha
      exact lift_some ⟨s', e⟩
    | _ => exact ha.elim
  | force dt contact cname =>
    cases hb
    obtain ⟨s, rfl, hr'⟩ := unwrap (wrap := TaskObj.force) (st := ForceTask.step) (get := force?) (fun s c => by cases c <;> rfl) hr
    cases c with
    | force o => exact lift_some (force_answers s ha.2.1 ha.2.2)
    | _ => exact ha.elim
  | cop =>
    cases hb
    obtain ⟨s, rfl, hr'⟩ := unwrap (wrap := TaskObj.cop) (st := CopTask.step) (get := cop?) (fun s c => by cases c <;> rfl) hr
    cases c with
    | cop o => exact lift_some (cop_answers s ha.1 ha.2)
    | _ => exact ha.elim

/-- An accepted call on a force task can be `setAssociatedContact`. -/
theorem associate_answers {E : Program.Env K} {name : String} {dt : K} {contact : Nat} {cname : String} {o1 : TaskObj K}
    {hist : List (TaskCall K)} (hr : runOps (TaskObj.call E) (.force (ForceTask.new name dt contact cname)) hist = some o1)
    (cid : Nat) (n : String) : ∃ o2, o1.call E (.force (.setAssociatedContact cid n)) = .ok o2 () := by
  obtain ⟨s, rfl, hr'⟩ := unwrap (wrap := TaskObj.force) (st := ForceTask.step) (get := force?) (fun s c => by cases c <;> rfl) hr
  exact ⟨_, rfl⟩

/-- An accepted call is a good one. -/
theorem accepts_good {R : PostureRobot K} {d : TaskDecl K} {c : TaskCall K} (h : d.Accepts R c) : GoodCall R c := by
  cases d <;> cases c <;> first | exact h.elim | exact h | trivial | exact ⟨h.1, h.2.1⟩

theorem accepts_associate {R : PostureRobot K} {d : TaskDecl K} {c : TaskCall K} (h : d.Accepts R c) :
    isAssociate c = false := by
  cases c with
  | force o =>
    cases d with
    | force =>
      cases o with
      | setAssociatedContact c n => exact absurd rfl (h.1 c n)
      | _ => rfl
    | _ => exact h.elim
  | _ => rfl

/-- A frame at rest in the origin. -/
def restFrame : FrameKin K := ⟨SE3.one, 0, 0, fun _ => 0⟩

theorem restFrame_rot : (restFrame : FrameKin K).pose.rot.Orthogonal := by
  refine ⟨?_, ?_⟩ <;> simp [restFrame, SE3.one, M3.mul, M3.one, M3.transpose, M3.mulVec]

/-- An accepted call on the motion task of a contact returns or throws. -/
theorem contact_answers {E : Program.Env K} {name : String} {d : ContactDecl} {m0 m1 : ContactMotion K}
    {hist calls : List (ContactCall K)} (hb : d.Built E.robot.nv name m0)
    (hr : runOps (ContactMotion.call E) m0 hist = some m1)
    (hg : ∀ c ∈ calls, GoodContactCall c) (hm : ∀ c ∈ hist, c ∈ calls ∨ isMotionCycle c = true)
    {c : ContactCall K} (ha : d.Accepts c) : ∃ m2, (m1.call E c).state? = some m2 := by
  cases d with
  | point fr =>
    obtain ⟨g, g', s0, h0, rfl⟩ := hb
    obtain ⟨s, rfl, hr'⟩ := unwrapMotion (wrap := ContactMotion.point fr) (st := PointMotion.step E.log3)
      (get := pointAll fr) (fun s c => by
        cases c with
        | point o =>
          simp only [ContactMotion.call, pointAll]
          cases PointMotion.step E.log3 s o <;> rfl
        | computeMotion w =>
          simp only [ContactMotion.call, pointAll, PointMotion.step, SE3Task.step]
          cases SE3Task.compute E.log3 s (w.frame fr) <;> rfl
        | _ => rfl) hr
    have key : ∀ o, ∃ s', (PointMotion.step E.log3 s o).state? = some s' := by
      intro o
      obtain ⟨s1, s', c, e1, -⟩ := C27_point (log3 := E.log3) (os := hist.filterMap (pointAll fr) ++ [o]) h0 restFrame
        restFrame_rot
      exact last_step hr' e1
    cases c with
    | point o => exact liftMotion_some (key o)
    | computeMotion w =>
      obtain ⟨s', hs⟩ := key (.compute (w.frame fr))
      refine liftMotion_some ?_
      simp only [PointMotion.step, SE3Task.step] at hs
      cases hc : SE3Task.compute E.log3 s (w.frame fr) <;> rw [hc] at hs <;> first | exact ⟨_, rfl⟩ | cases hs
    | _ => exact ha.elim
  | sixD fr =>
    obtain ⟨g, s0, h0, rfl⟩ := hb
    obtain ⟨s, rfl, hr'⟩ := unwrapMotion (wrap := ContactMotion.sixD fr) (st := SE3Task.step E.log3)
      (get := sixDAll fr) (fun s c => by
        cases c with
        | setKp k =>
          simp only [ContactMotion.call, sixDAll, SE3Task.step]
          cases s.setKp k <;> rfl
        | setKd k =>
          simp only [ContactMotion.call, sixDAll, SE3Task.step]
          cases s.setKd k <;> rfl
        | setReference M =>
          simp only [ContactMotion.call, sixDAll, SE3Task.step]
          cases s.setReferencePose M <;> rfl
        | computeMotion w =>
          simp only [ContactMotion.call, sixDAll, SE3Task.step]
          cases SE3Task.compute E.log3 s (w.frame fr) <;> rfl
        | _ => rfl) hr
    have hgood : ∀ o ∈ hist.filterMap (sixDAll fr), FrameSettings.Good o := by
      intro o ho
      obtain ⟨c, -, hc⟩ := List.mem_filterMap.1 ho
      cases c <;> cases hc <;> trivial
    obtain ⟨s1, e1, hi⟩ := SE3Task.inv_new (K := K) (g := g) (name := name) (nv := E.robot.nv)
    rw [e1] at h0; cases h0
    obtain ⟨s2, e2, hi⟩ := SE3Task.inv_run (log3 := E.log3) hi hgood
    rw [hr'] at e2
    cases e2
    cases c with
    | setKp k =>
      obtain ⟨s', e, -⟩ := SE3Task.inv_step (log3 := E.log3) hi (o := .setKp k) trivial
      exact liftMotion_some ⟨s', e⟩
    | setKd k =>
      obtain ⟨s', e, -⟩ := SE3Task.inv_step (log3 := E.log3) hi (o := .setKd k) trivial
      exact liftMotion_some ⟨s', e⟩
    | setReference M =>
      obtain ⟨s', e, -⟩ := SE3Task.inv_step (log3 := E.log3) hi (o := .setReferencePose M) trivial
      exact liftMotion_some ⟨s', e⟩
    | computeMotion w =>
      obtain ⟨s', c, hc, -⟩ := SE3Task.compute_ok (log3 := E.log3) hi (w.frame fr)
      exact liftMotion_some ⟨s', by rw [hc]; rfl⟩
    | _ => exact ha.elim
  | pair f1 f2 =>
    obtain ⟨g, g', s0, h0, rfl⟩ := hb
    obtain ⟨s, rfl, hr'⟩ := unwrapMotion (wrap := ContactMotion.pair f1 f2) (st := PairMotion.step E.ndebug E.log3)
      (get := pairAll f1 f2) (fun s c => by
        cases c with
        | pair o =>
          simp only [ContactMotion.call, pairAll]
          cases PairMotion.step E.ndebug E.log3 s o <;> rfl
        | computeMotion w =>
          simp only [ContactMotion.call, pairAll, PairMotion.step, TwoFrames.step]
          cases TwoFrames.compute E.log3 s (w.frame f1) (w.frame f2) <;> rfl
        | _ => rfl) hr
    have hgood : ∀ o ∈ hist.filterMap (pairAll f1 f2), PairGains.Good o := by
      intro o ho
      obtain ⟨c, hc, hcc⟩ := List.mem_filterMap.1 ho
      rcases hm c hc with h | h
      · cases c <;> cases hcc
        · exact hg _ h
        · trivial
      · cases c <;> cases h
        cases hcc
        trivial
    have key : ∀ o, PairGains.Good o → ∃ s', (PairMotion.step E.ndebug E.log3 s o).state? = some s' := by
      intro o ho
      obtain ⟨s1, s', c, e1, -⟩ := C27_two_frames (ndebug := E.ndebug) (log3 := E.log3)
        (os := hist.filterMap (pairAll f1 f2) ++ [o]) h0 (by
          intro o' h'
          rcases List.mem_append.1 h' with h' | h'
          · exact hgood o' h'
          · rw [List.mem_singleton.1 h']; exact ho) restFrame restFrame restFrame_rot
      exact last_step hr' e1
    cases c with
    | pair o => exact liftMotion_some (key o ha)
    | computeMotion w =>
      obtain ⟨s', hs⟩ := key (.compute (w.frame f1) (w.frame f2)) trivial
      refine liftMotion_some ?_
      simp only [PairMotion.step, TwoFrames.step] at hs
      cases hc : TwoFrames.compute E.log3 s (w.frame f1) (w.frame f2) <;> rw [hc] at hs <;> first | exact ⟨_, rfl⟩ | cases hs
    | _ => exact ha.elim

theorem contact_accepts_good {d : ContactDecl} {c : ContactCall K} (h : d.Accepts c) : GoodContactCall c := by
  cases d <;> cases c <;> first | exact h.elim | exact h

/-- The class of a measured force. -/
def isWrench : MeasuredObj K → Bool
  | .wrench _ _ => true
  | .force _ _ => false

theorem isWrench_compute (w : Snapshot K) (m : MeasuredObj K) (n : Nat) :
    isWrench ((MeasuredObj.compute w)^[n] m) = isWrench m := by
  induction n generalizing m with
  | zero => rfl
  | succ n ih => rw [Function.iterate_succ_apply, ih]; cases m <;> rfl

theorem isWrench_run : ∀ {l : List (MeasuredCall K)} {m m' : MeasuredObj K},
    runOps MeasuredObj.call m l = some m' → isWrench m' = isWrench m
  | [], m, m', h => by cases h; rfl
  | c :: l, m, m', h => by
    simp only [runOps] at h
    split at h
    · cases h
    · next m1 h1 =>
      rw [isWrench_run h]
      cases m <;> cases c <;> cases h1 <;> rfl

theorem isWrench_program {E : Program.Env K} : ∀ {ops : List (Program.Op K)} {s s' : Program.State K},
    Program.run E s ops = some s' → ∀ mid, isWrench (s'.measured mid) = isWrench (s.measured mid)
  | [], s, s', h, mid => by cases h; rfl
  | o :: os, s, s', h, mid => by
    simp only [Program.run] at h
    split at h
    · next s1 hs =>
      rw [isWrench_program h]
      rcases Program.step_measured hs mid with h1 | ⟨-, w, n, h1⟩
      · exact isWrench_run h1
      · rw [h1, isWrench_compute]
    · cases h

/-- An accepted call on a measured force returns. -/
theorem measured_answers {nv : Nat} {d : MeasuredDecl} {m0 m1 : MeasuredObj K} (hb : d.Built nv m0)
    (hr : isWrench m1 = isWrench m0) {c : MeasuredCall K} (ha : d.Accepts c) : ∃ m2, (m1.call c).state? = some m2 := by
  cases d <;> cases hb <;> cases m1 <;> cases hr <;> cases c <;> first | exact ⟨_, rfl⟩ | exact ha.elim

/-! ## One call on the formulation -/

/-- Neither undefined behaviour nor, in a release build, an abort. -/
def Safe {σ α : Type} (nd : Bool) (r : Res σ α) : Prop :=
  r.isUB = false ∧ (nd = true → ∃ s, r.state? = some s)

theorem safe_of_state {σ α : Type} {nd : Bool} {r : Res σ α} (h : ∃ s, r.state? = some s) : Safe nd r := by
  obtain ⟨s, h⟩ := h
  cases r <;> first | exact ⟨rfl, fun _ => ⟨_, rfl⟩⟩ | cases h

theorem safe_void {σ α : Type} {nd : Bool} {r : Res σ α} (h : Safe nd r) : Safe nd (void r) := by
  cases r with
  | ok s a => exact safe_of_state ⟨s, rfl⟩
  | throw s => exact safe_of_state ⟨s, rfl⟩
  | abort => exact ⟨rfl, fun hn => (by obtain ⟨s, h⟩ := h.2 hn; cases h)⟩
  | ub => exact absurd h.1 (by simp [Res.isUB])

theorem removeTask_safe {nd : Bool} {W : World} {s : Tsid.State K} {n : String} : Safe nd (removeTask nd W s n) := by
  unfold removeTask
  dsimp only
  cases nd with
  | true =>
    simp only [Bool.not_true, Bool.and_false, Bool.false_eq_true, if_false]
    apply safe_of_state
    split
    · exact ⟨_, rfl⟩
    · split
      · exact ⟨_, rfl⟩
      · split <;> exact ⟨_, rfl⟩
  | false =>
    refine ⟨?_, fun h => (by cases h)⟩
    split
    · rfl
    · split
      · rfl
      · split
        · rfl
        · split <;> rfl

theorem removeContactNow_safe {nd : Bool} {s : Tsid.State K} {n : String} : Safe nd (removeContactNow nd s n) := by
  refine ⟨removeContactNow_not_ub, ?_⟩
  rintro rfl
  unfold removeContactNow
  dsimp only
  rw [if_neg (by simp), if_neg (by simp)]
  split <;> exact ⟨_, rfl⟩

theorem removeRigidContact_safe {nd : Bool} {s : Tsid.State K} {n : String} {dur : K} :
    Safe nd (removeRigidContact nd s n dur) := by
  unfold removeRigidContact
  split
  · apply safe_of_state
    split
    · exact ⟨_, rfl⟩
    · dsimp only
      split <;> exact ⟨_, rfl⟩
  · exact removeContactNow_safe

theorem runTransitions_safe : ∀ (l pre : List (Transition K)) (s : Tsid.State K),
    ∃ s', (runTransitions true pre l s).state? = some s'
  | [], pre, s => ⟨s, rfl⟩
  | tr :: rest, pre, s => by
    unfold runTransitions
    rw [if_neg (by simp)]
    split
    · have h1 : ∃ c', ((s.contactObj tr.cid).setMaxNormalForce (interpolate tr s.t)).state? = some c' := by
        unfold Contact.setMaxNormalForce
        split
        · exact ⟨_, rfl⟩
        · split <;> exact ⟨_, rfl⟩
      obtain ⟨c', h1⟩ := h1
      cases h2 : (s.contactObj tr.cid).setMaxNormalForce (interpolate tr s.t) with
      | ok c b => exact runTransitions_safe rest _ _
      | throw c => exact ⟨_, rfl⟩
      | abort => rw [h2] at h1; cases h1
      | ub => rw [h2] at h1; cases h1
    · obtain ⟨s', h1⟩ := (removeContactNow_safe (nd := true) (s := s) (n := (s.contactObj tr.cid).name)).2 rfl
      cases h2 : removeContactNow true s (s.contactObj tr.cid).name with
      | ok c b => exact ⟨_, rfl⟩
      | throw c => exact ⟨_, rfl⟩
      | abort => rw [h2] at h1; cases h1
      | ub => rw [h2] at h1; cases h1

theorem applySet_answers {c : Contact K} {k : ContactKind} (hk : c.kind = k) {u : ContactSet K} (h : Takes k u) :
    ∃ c', (applySet c u).state? = some c' := by
  subst hk
  cases u with
  | points P =>
    have hk : c.kind = .sixD := h
    simp only [applySet, Contact.setContactPoints, hk]
    split
    · split <;> exact ⟨_, rfl⟩
    · exact ⟨_, rfl⟩
  | normal n =>
    simp only [applySet, Contact.setContactNormal]
    split
    · exact ⟨_, rfl⟩
    · split <;> exact ⟨_, rfl⟩
  | friction mu =>
    simp only [applySet, Contact.setFrictionCoefficient]
    split
    · exact ⟨_, rfl⟩
    · split <;> exact ⟨_, rfl⟩
  | fMin m =>
    simp only [applySet, Contact.setMinNormalForce]
    split
    · exact ⟨_, rfl⟩
    · split <;> exact ⟨_, rfl⟩
  | fMax m =>
    simp only [applySet, Contact.setMaxNormalForce]
    split
    · exact ⟨_, rfl⟩
    · split <;> exact ⟨_, rfl⟩
  | forceRef f =>
    simp only [applySet, Contact.setForceReference]
    simp only [Takes] at h
    cases hk : c.kind <;> simp only [hk] at h ⊢ <;> simp only [reduceCtorEq, false_or, true_or, Contact.kindRegRows] at h
    all_goals first | (rw [if_pos h]; exact ⟨_, rfl⟩) | (split <;> exact ⟨_, rfl⟩)
  | regWeights w =>
    simp only [applySet, Contact.setRegularizationWeights]
    rw [if_pos (show w.size = Contact.kindRegRows c.kind from h)]
    exact ⟨_, rfl⟩

/-- An allowed call on the formulation. -/
theorem form_safe {E : Program.Env K} {W W' : World} {S : Setup K} {ops : List (Program.Op K)} {s0 : Program.State K}
    (h : GoodProgram E W S ops s0) {o : Formulation.Op K} (hm : S.MayCall E W ops o) :
    Safe E.ndebug (Formulation.step E.ndebug W' s0.form o) := by
  obtain ⟨ht, hno⟩ := program_tidy h
  obtain ⟨hi, hn, L, hL, -⟩ := tidy_impl ht
  have hlen := hi.pre.len
  have add : ∀ {tid w p}, p < 2 → ∃ x, addTask W' s0.form tid w p = some x := by
    intro tid w p hp
    cases ha : addTask W' s0.form tid w p with
    | none => have := (addTask_none_iff hlen).1 ha; omega
    | some x => exact ⟨x, rfl⟩
  cases o with
  | addMotionTask tid w p dur =>
    obtain ⟨x, hx⟩ := add (tid := tid) (w := w) hm.2
    simp only [Formulation.step, addMotionTask, hx]
    apply safe_void
    apply safe_of_state
    split
    · split <;> exact ⟨_, rfl⟩
    · exact ⟨_, rfl⟩
  | addForceTask tid w p dur =>
    obtain ⟨x, hx⟩ := add (tid := tid) (w := w) hm.2
    simp only [Formulation.step, addForceTask, hx]
    apply safe_void
    apply safe_of_state
    split
    · split <;> exact ⟨_, rfl⟩
    · exact ⟨_, rfl⟩
  | addActuationTask tid w p dur =>
    obtain ⟨x, hx⟩ := add (tid := tid) (w := w) hm.2
    simp only [Formulation.step, addActuationTask, hx]
    apply safe_void
    apply safe_of_state
    split
    · split <;> exact ⟨_, rfl⟩
    · exact ⟨_, rfl⟩
  | updateTaskWeight n w =>
    simp only [Formulation.step, updateTaskWeight]
    apply safe_void
    apply safe_of_state
    split <;> exact ⟨_, rfl⟩
  | addRigidContact cid wf wm p =>
    have hp : p < 2 := hm
    simp only [Formulation.step, addRigidContact]
    apply safe_void
    apply safe_of_state
    simp only [pushLevel, resizeHqpData, hlen, if_pos hp, List.length_modify, Nat.zero_lt_two, Nat.one_lt_two, if_true]
    exact ⟨_, rfl⟩
  | updateRigidContactWeights n wf wm =>
    simp only [Formulation.step, updateRigidContactWeights]
    apply safe_void
    apply safe_of_state
    split <;> exact ⟨_, rfl⟩
  | addMeasuredForce m => exact safe_of_state ⟨_, rfl⟩
  | removeMeasuredForce n =>
    simp only [Formulation.step, removeMeasuredForce]
    apply safe_void
    apply safe_of_state
    first | exact ⟨_, rfl⟩ | (split <;> exact ⟨_, rfl⟩)
  | removeTask n => exact safe_void removeTask_safe
  | removeRigidContact n dur => exact safe_void removeRigidContact_safe
  | removeFromHqpData n => exact safe_of_state ⟨_, rfl⟩
  | resizeHqpData => exact safe_of_state ⟨_, rfl⟩
  | compute cy t => exact hm.elim
  | decode x =>
    have hk : s0.form.k = nForces s0.form.contactObj (s0.form.contacts.map ContactLevel.cid) := by
      obtain ⟨hk, -⟩ := tiled_offset _ _ _ _ hi.tiled (contact_cids_nodup hL.coh)
      rw [hk, Nat.zero_add]
    have hc := contact_cids hL.coh
    rw [hL.items] at hc
    have hkinds : ∀ c, (s0.form.contactObj c).nForce = (S.obj c).nForce := by
      intro c
      have : (s0.form.contactObj c).kind = (S.obj c).kind := congrFun hn.kinds c
      unfold Contact.nForce
      rw [this]
    have hk2 : s0.form.k = nForces S.obj ((S.registered E W ops).items.filterMap Item.cid?) := by
      rw [hk, ← hc]
      simp only [nForces, hkinds]
      rfl
    have hrob : s0.form.robot = S.robot := run_robot _ _ _ ht.run
    have hnv : s0.form.nv = S.robot.nv := by rw [← hi.pre.rnv, hrob]
    have hx : S.robot.nv + nForces S.obj ((S.registered E W ops).items.filterMap Item.cid?) ≤ x.size := hm
    simp only [Formulation.step, decodeSolution]
    rw [if_pos (⟨by omega, by omega⟩ : s0.form.nv ≤ x.size ∧ s0.form.k ≤ x.size)]
    apply safe_of_state
    cases s0.form.decoded <;> exact ⟨_, rfl⟩
  | setContact cid u =>
    obtain ⟨c', h1⟩ := applySet_answers (c := s0.form.contactObj cid) (congrFun hn.kinds cid) (u := u) hm
    simp only [Formulation.step]
    apply safe_of_state
    cases h2 : applySet (s0.form.contactObj cid) u <;> rw [h2] at h1 <;> first | exact ⟨_, rfl⟩ | cases h1
  | setAssociated tid n => exact hm.elim

/-! ## One call of a program -/

theorem family_class {R : PostureRobot K} {name : String} {d : TaskDecl K} {o : TaskObj K} (h : d.Built R name o) :
    o.isMotion = (d.family == .motion) ∧ o.isForce = (d.family == .force) ∧
      o.isActuation = (d.family == .actuation) := by
  cases d with
  | am => obtain ⟨g, rfl⟩ := h; exact ⟨rfl, rfl, rfl⟩
  | capture => obtain ⟨g, rfl⟩ := h; exact ⟨rfl, rfl, rfl⟩
  | force => cases h; exact ⟨rfl, rfl, rfl⟩
  | cop => cases h; exact ⟨rfl, rfl, rfl⟩
  | posture => obtain ⟨s, -, rfl⟩ := h; exact ⟨rfl, rfl, rfl⟩
  | jointBounds => obtain ⟨s, -, rfl⟩ := h; exact ⟨rfl, rfl, rfl⟩
  | posVelAcc => obtain ⟨s, -, rfl⟩ := h; exact ⟨rfl, rfl, rfl⟩
  | actBounds => obtain ⟨s, -, rfl⟩ := h; exact ⟨rfl, rfl, rfl⟩
  | actEq => obtain ⟨s, -, rfl⟩ := h; exact ⟨rfl, rfl, rfl⟩
  | se3 => obtain ⟨g, s, -, rfl⟩ := h; exact ⟨rfl, rfl, rfl⟩
  | twoFrames => obtain ⟨g, s, -, rfl⟩ := h; exact ⟨rfl, rfl, rfl⟩
  | com => obtain ⟨g, s, -, rfl⟩ := h; exact ⟨rfl, rfl, rfl⟩

theorem cycle_safe {E : Program.Env K} {w : Snapshot K} {t : K} {s : Program.State K}
    (h : (Program.compute E w t s).isUB = false) : Safe E.ndebug (Program.compute E w t s) := by
  refine ⟨h, fun hnd => ?_⟩
  obtain ⟨f, hf⟩ := runTransitions_safe s.form.trans [] { s.form with t := t }
  unfold Program.compute at h ⊢
  rw [hnd] at h ⊢
  cases hr : runTransitions true [] s.form.trans { s.form with t := t } with
  | throw => exact ⟨_, rfl⟩
  | abort => rw [hr] at hf; cases hf
  | ub => rw [hr] at hf; cases hf
  | ok f u =>
    rw [hr] at h
    dsimp only at h ⊢
    cases ho : computeObjects E w f s with
    | none => rw [ho] at h; cases h
    | some s' =>
      rw [ho] at h
      dsimp only at h ⊢
      cases ha : assemble (Program.cycle w s') f with
      | none => rw [ha] at h; cases h
      | some f' => exact ⟨_, rfl⟩

/-- A call that may follow a good program. -/
theorem step_safe {E : Program.Env K} {W : World} {S : Setup K} {ops : List (Program.Op K)} {s0 : Program.State K}
    (h : GoodProgram E W S ops s0) {o : Program.Op K} (hm : S.May E W ops o) : Safe E.ndebug (Program.step E s0 o) := by
  have hR : RobotOk E.robot := ⟨by rw [h.na, h.nv]; exact h.motors, h.nqa, h.difference⟩
  cases o with
  | task tid c =>
    have ha : (S.decl tid).Accepts E.robot c := hm
    obtain ⟨o2, e⟩ := task_answers hR (h.built tid) (Program.run_task h.run tid) (history_good h tid) ha
    simp only [Program.step, accepts_associate ha, Bool.false_eq_true, if_false]
    apply safe_of_state
    cases hc : (s0.task tid).call E c <;> rw [hc] at e <;> first | exact ⟨_, rfl⟩ | cases e
  | associate tid cid n =>
    obtain ⟨⟨dt, c, n', hd⟩, hn⟩ := hm
    have hb := h.built tid
    rw [hd] at hb
    have hr := Program.run_task h.run tid
    have hb' : S.start.task tid = .force (ForceTask.new (E.name tid) dt c n') := hb
    rw [hb'] at hr
    obtain ⟨o2, e⟩ := associate_answers hr cid n
    obtain ⟨ht, -⟩ := program_tidy h
    obtain ⟨-, hnm, -⟩ := tidy_impl ht
    have hname : (s0.form.contactObj cid).name = n := (congrFun hnm.names cid).trans hn
    simp only [Program.step, hname, if_true, e]
    exact safe_of_state ⟨_, rfl⟩
  | motion cid c =>
    obtain ⟨l, e1, e2, -⟩ := Program.run_motion h.run cid
    have hb := h.builtContact cid
    rw [← h.nv] at hb
    obtain ⟨m2, e⟩ := contact_answers hb e1 (h.contactArgs cid) e2 (c := c) hm
    simp only [Program.step]
    apply safe_of_state
    cases hc : (s0.motion cid).call E c <;> rw [hc] at e <;> first | exact ⟨_, rfl⟩ | cases e
  | measured mid c =>
    obtain ⟨m2, e⟩ := measured_answers (h.builtMeasured mid) (isWrench_program h.run mid) (c := c) hm
    simp only [Program.step]
    apply safe_of_state
    cases hc : (s0.measured mid).call c <;> rw [hc] at e <;> first | exact ⟨_, rfl⟩ | cases e
  | form o =>
    have hs := form_safe (W' := Program.world E s0) h (o := o) hm
    have hty : Program.typed s0 o = true := by
      have cls := fun tid => TaskObj.run_class (Program.run_task h.run tid)
      have fam := fun tid => family_class (h.built tid)
      cases o with
      | addMotionTask tid w p dur =>
        have : (S.decl tid).family = .motion := hm.1
        exact (cls tid).1.trans ((fam tid).1.trans (by rw [this]; rfl))
      | addForceTask tid w p dur =>
        have : (S.decl tid).family = .force := hm.1
        exact (cls tid).2.1.trans ((fam tid).2.1.trans (by rw [this]; rfl))
      | addActuationTask tid w p dur =>
        have : (S.decl tid).family = .actuation := hm.1
        exact (cls tid).2.2.trans ((fam tid).2.2.trans (by rw [this]; rfl))
      | compute cy t => exact hm.elim
      | setAssociated tid n => exact hm.elim
      | _ => rfl
    simp only [Program.step, hty, if_true]
    cases hf : Formulation.step E.ndebug (Program.world E s0) s0.form o with
    | ok f u => exact safe_of_state ⟨_, rfl⟩
    | throw f => exact safe_of_state ⟨_, rfl⟩
    | abort => exact ⟨rfl, fun hn => (by obtain ⟨f, e⟩ := hs.2 hn; rw [hf] at e; cases e)⟩
    | ub => have := hs.1; rw [hf] at this; cases this
  | compute w t => exact cycle_safe (C88_partial h hm.1 hm.2)

/-! ## Whole programs -/

theorem everyCall_append {E : Program.Env K} {G : Program.State K → Program.Op K → Prop} :
    ∀ {l l' : List (Program.Op K)} {s s' : Program.State K}, Program.run E s l = some s' →
      (EveryCall E G s (l ++ l') ↔ EveryCall E G s l ∧ EveryCall E G s' l')
  | [], l', s, s', h => by cases h; simp [EveryCall]
  | o :: os, l', s, s', h => by
    simp only [Program.run] at h
    split at h
    · next s1 hs =>
      simp only [List.cons_append, EveryCall, hs]
      rw [everyCall_append h, and_assoc]
    · cases h

theorem program_append {E : Program.Env K} : ∀ {l l' : List (Program.Op K)} {s s' : Program.State K},
    Program.run E s l = some s' → Program.run E s (l ++ l') = Program.run E s' l'
  | [], l', s, s', h => by cases h; rfl
  | o :: os, l', s, s', h => by
    simp only [Program.run] at h
    split at h
    · next s1 hs =>
      simp only [List.cons_append, Program.run, hs]
      exact program_append h
    · cases h

theorem taskCalls_append (tid : Nat) : ∀ (l l' : List (Program.Op K)),
    taskCalls tid (l ++ l') = taskCalls tid l ++ taskCalls tid l'
  | [], l' => rfl
  | o :: os, l' => by
    cases o <;> simp only [List.cons_append, taskCalls, taskCalls_append tid os l'] <;> split <;> rfl

theorem contactCalls_append (cid : Nat) : ∀ (l l' : List (Program.Op K)),
    contactCalls cid (l ++ l') = contactCalls cid l ++ contactCalls cid l'
  | [], l' => rfl
  | o :: os, l' => by
    cases o <;> simp only [List.cons_append, contactCalls, contactCalls_append cid os l'] <;> split <;> rfl

theorem snapshots_append : ∀ (l l' : List (Program.Op K)), snapshots (l ++ l') = snapshots l ++ snapshots l'
  | [], l' => rfl
  | o :: os, l' => by
    cases o <;> simp only [List.cons_append, snapshots, snapshots_append os l']

/-- A good program and one more call. -/
theorem good_snoc {E : Program.Env K} {W : World} {S : Setup K} {ops : List (Program.Op K)} {s0 s1 : Program.State K}
    (h : GoodProgram E W S ops s0) {o : Program.Op K} (hm : S.May E W ops o) (ho : Orderly E W s0 o)
    (hs : (Program.step E s0 o).state? = some s1) : GoodProgram E W S (ops ++ [o]) s1 where
  names := h.names
  mfNames := h.mfNames
  hygienic := h.hygienic
  nv := h.nv
  na := h.na
  motors := h.motors
  nqa := h.nqa
  difference := h.difference
  contacts := h.contacts
  built := h.built
  builtContact := h.builtContact
  builtMeasured := h.builtMeasured
  run := by rw [program_append h.run]; simp only [Program.run, hs]
  orderly := by rw [everyCall_append h.run]; exact ⟨h.orderly, by simp only [EveryCall, hs]; exact ⟨ho, trivial⟩⟩
  args := by
    intro tid c hc
    rw [taskCalls_append, List.mem_append] at hc
    rcases hc with hc | hc
    · exact h.args tid c hc
    · cases o with
      | task i c' =>
        simp only [taskCalls] at hc
        split at hc
        · rw [List.mem_singleton.1 hc]; exact accepts_good (d := S.decl i) hm
        · cases hc
      | associate i cid n =>
        simp only [taskCalls] at hc
        split at hc
        · rw [List.mem_singleton.1 hc]; trivial
        · cases hc
      | _ => cases hc
  contactArgs := by
    intro cid c hc
    rw [contactCalls_append, List.mem_append] at hc
    rcases hc with hc | hc
    · exact h.contactArgs cid c hc
    · cases o with
      | motion i c' =>
        simp only [contactCalls] at hc
        split at hc
        · rw [List.mem_singleton.1 hc]; exact contact_accepts_good (d := S.cdecl i) hm
        · cases hc
      | _ => cases hc
  cycles := by
    intro w hw
    rw [snapshots_append, List.mem_append] at hw
    rcases hw with hw | hw
    · exact h.cycles w hw
    · cases o with
      | compute w' t => rw [List.mem_singleton.1 hw]; exact hm.1
      | _ => cases hw

theorem start_good {E : Program.Env K} {W : World} {S : Setup K} {ops : List (Program.Op K)}
    (h : WellTyped E W S ops) : GoodProgram E W S [] S.start where
  names := h.names
  mfNames := h.mfNames
  hygienic := h.hygienic
  nv := h.nv
  na := h.na
  motors := h.motors
  nqa := h.nqa
  difference := h.difference
  contacts := h.contacts
  built := h.built
  builtContact := h.builtContact
  builtMeasured := h.builtMeasured
  run := rfl
  orderly := trivial
  args := fun _ _ h => (by cases h)
  contactArgs := fun _ _ h => (by cases h)
  cycles := fun _ h => (by cases h)

/-- The rest of a well-typed program. -/
theorem rest_safe {E : Program.Env K} {W : World} {S : Setup K} : ∀ {post pre : List (Program.Op K)} {s0 : Program.State K},
    GoodProgram E W S pre s0 → EveryCall E (Orderly E W) s0 post →
    (∀ p o q, post = p ++ o :: q → S.May E W (pre ++ p) o) →
    EveryCall E (fun s o => (Program.step E s o).isUB = false) s0 post ∧
      (E.ndebug = true → ∃ s, GoodProgram E W S (pre ++ post) s)
  | [], pre, s0, h, _, _ => ⟨trivial, fun _ => ⟨s0, by rw [List.append_nil]; exact h⟩⟩
  | o :: os, pre, s0, h, ho, hm => by
    have hmo := hm [] o os rfl
    rw [List.append_nil] at hmo
    have safe := step_safe h hmo
    cases hs : (Program.step E s0 o).state? with
    | none =>
      refine ⟨⟨safe.1, by rw [hs]; trivial⟩, fun hn => ?_⟩
      obtain ⟨s, e⟩ := safe.2 hn
      rw [hs] at e
      cases e
    | some s1 =>
      have ho2 := ho.2
      rw [hs] at ho2
      obtain ⟨h1, h2⟩ := rest_safe (good_snoc h hmo ho.1 hs) ho2 (by
        intro p o' q e
        have := hm (o :: p) o' q (by rw [e]; rfl)
        simpa using this)
      refine ⟨⟨safe.1, by rw [hs]; exact h1⟩, fun hn => ?_⟩
      obtain ⟨s, e⟩ := h2 hn
      exact ⟨s, by simpa using e⟩

/-- **C91.** No call of a well-typed program has undefined behaviour. -/
theorem C91_no_ub {E : Program.Env K} {W : World} {S : Setup K} {ops : List (Program.Op K)} (h : WellTyped E W S ops) :
    EveryCall E (fun s o => (Program.step E s o).isUB = false) S.start ops :=
  (rest_safe (start_good h) h.orderly fun p o q e => h.may p o q e).1

/-- **C91, run.** In a release build a well-typed program runs to its end, every call returning or throwing, and is a
good program (C87, C88, C89, C90). -/
theorem C91_runs {E : Program.Env K} {W : World} {S : Setup K} {ops : List (Program.Op K)} (h : WellTyped E W S ops)
    (hn : E.ndebug = true) : ∃ s, Program.run E S.start ops = some s ∧ GoodProgram E W S ops s := by
  obtain ⟨s, hs⟩ := (rest_safe (start_good h) h.orderly fun p o q e => h.may p o q e).2 hn
  exact ⟨s, hs.run, hs⟩

theorem split_cons {α : Type} {P : List α → α → Prop} {a : α} {l : List α} (h1 : P [] a)
    (h2 : ∀ pre o post, l = pre ++ o :: post → P (a :: pre) o) : ∀ pre o post, a :: l = pre ++ o :: post → P pre o := by
  intro pre o post e
  cases pre with
  | nil => cases e; exact h1
  | cons b pre => cases e; exact h2 pre o post rfl

namespace ArmDemo

/-- The arm runs a cycle after the calls that set it up. -/
theorem wellTyped : WellTyped env world setup (ops ++ [.compute snap 0]) where
  names := good.names
  mfNames := good.mfNames
  hygienic := good.hygienic
  nv := good.nv
  na := good.na
  motors := good.motors
  nqa := good.nqa
  difference := good.difference
  contacts := good.contacts
  built := good.built
  builtContact := good.builtContact
  builtMeasured := good.builtMeasured
  orderly := by
    rw [everyCall_append good.run]
    refine ⟨good.orderly, trivial, ?_⟩
    split <;> trivial
  may := by
    refine split_cons trivial <| split_cons ?_ <| split_cons trivial <| split_cons trivial <|
      split_cons ⟨rfl, Nat.one_lt_two⟩ <| split_cons Nat.zero_lt_two <| split_cons ⟨rfl, Nat.zero_lt_two⟩ <|
      split_cons trivial <| split_cons ⟨snapOk, mayCycle⟩ ?_
    · rintro v ⟨⟩
    · intro pre o post e
      cases pre <;> cases e

/-- The arm in a release build. -/
noncomputable def release : Program.Env ℝ := { env with ndebug := true }

/-- Setters and registrations in a release build. -/
theorem wellTyped_release : WellTyped release world setup (ops.take 5) where
  names := good.names
  mfNames := good.mfNames
  hygienic := good.hygienic
  nv := good.nv
  na := good.na
  motors := good.motors
  nqa := good.nqa
  difference := good.difference
  contacts := good.contacts
  built := good.built
  builtContact := good.builtContact
  builtMeasured := good.builtMeasured
  orderly := by
    have e1 : Program.step release setup.start (.task 0 (.am (.setKp ⟨3, fun _ => 2⟩))) =
      .ok ⟨f0, tasks1, setup.motion, setup.measured⟩ () := rfl
    have e2 : Program.step release ⟨f0, tasks1, setup.motion, setup.measured⟩
      (.task 1 (.jointBounds (.setAccelerationBounds ⟨3, fun _ => -1⟩ ⟨3, fun _ => 1⟩))) =
      .ok ⟨f0, tasks2, setup.motion, setup.measured⟩ () := rfl
    have e3 : Program.step release ⟨f0, tasks2, setup.motion, setup.measured⟩
      (.motion 0 (.point (.setKp (fun _ => 0) ⟨3, fun _ => 5⟩))) =
      .ok ⟨f0, tasks2, motions1, setup.measured⟩ () := rfl
    have e4 : Program.step release ⟨f0, tasks2, motions1, setup.measured⟩ (.measured 0 (.force (.setForce ⟨0, 0, 2⟩))) =
      .ok ⟨f0, tasks2, motions1, pushes1⟩ () := rfl
    simp only [ops, List.take, EveryCall, e1, e2, e3, e4, Res.state?]
    refine ⟨trivial, trivial, trivial, trivial, ⟨?_, rfl⟩, ?_⟩
    · intro tl htl; cases htl
    · split <;> trivial
  may := by
    refine split_cons trivial <| split_cons ?_ <| split_cons trivial <| split_cons trivial <|
      split_cons ⟨rfl, Nat.one_lt_two⟩ ?_
    · rintro v ⟨⟩
    · intro pre o post e
      cases pre <;> cases e

end ArmDemo

example : EveryCall ArmDemo.env (fun s o => (Program.step ArmDemo.env s o).isUB = false) ArmDemo.setup.start
    (ArmDemo.ops ++ [.compute ArmDemo.snap 0]) :=
  C91_no_ub ArmDemo.wellTyped

example : ∃ s, Program.run ArmDemo.release ArmDemo.setup.start (ArmDemo.ops.take 5) = some s ∧
    GoodProgram ArmDemo.release ArmDemo.world ArmDemo.setup (ArmDemo.ops.take 5) s :=
  C91_runs ArmDemo.wellTyped_release rfl

end Tsid.Props
