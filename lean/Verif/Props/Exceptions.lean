import Verif.Spec.Exceptions
import Verif.Props.Static

/-!
# C109: which calls of a program end with an exception
-/

set_option linter.unusedSectionVars false

namespace Tsid.Props

open Spec Finset Formulation Program

variable {K : Type} [Field K] [LinearOrder K] [FloorRing K] [HasSqrt K]

theorem lift_threw {σ α : Type} {f : σ → TaskObj K} {r : Res σ α} : (TaskObj.lift f r).threw = r.threw := by
  cases r <;> rfl

theorem liftMotion_threw {σ α : Type} {f : σ → ContactMotion K} {r : Res σ α} :
    (ContactMotion.lift f r).threw = r.threw := by
  cases r <;> rfl

theorem ite_threw {σ α : Type} {c : Prop} [Decidable c] {s s' : σ} {a : α} :
    (if c then (.ok s a : Res σ α) else .throw s').threw = true ↔ ¬ c := by
  split <;> simp_all [Res.threw]

theorem rows_silent {g : Nat → K} {n : Nat} {s : CartRows K} {m : Vec K} : (s.setMask g n m).threw = false := by
  unfold CartRows.setMask
  dsimp only
  split
  · rfl
  · split <;> rfl

theorem pose_silent {s : SE3Task K} {M : SE3 K} : (s.setReferencePose M).threw = false := by
  unfold SE3Task.setReferencePose SE3.toVector SE3Task.setReference
  simp [Sample.zero, Vec.zero, Res.threw]

variable [IsStrictOrderedRing K] [LawfulSqrt K]

/-- An accepted call on a task ends with an exception exactly when the task refuses it. -/
theorem task_throws {E : Program.Env K} (hR : RobotOk E.robot) {name : String} {d : TaskDecl K} {o0 o1 : TaskObj K}
    {hist calls : List (TaskCall K)} (hb : d.Built E.robot name o0)
    (hr : runOps (TaskObj.call E) o0 hist = some o1) (hg : ∀ c ∈ hist, GoodCall E.robot c)
    (hf : SameText calls hist) {c : TaskCall K} (ha : d.Accepts E.robot c) :
    (o1.call E c).threw = true ↔ d.Refuses E.robot calls c := by
  cases d with
  | se3 fr =>
    obtain ⟨g, s0, h0, rfl⟩ := hb
    obtain ⟨s, rfl, hr'⟩ := unwrap (wrap := TaskObj.se3 fr) (st := SE3Task.step E.log3) (get := se3?) (fun s c => by cases c <;> rfl) hr
    obtain ⟨s1, e1, hi⟩ := SE3Task.inv_new (K := K) (g := g) (name := name) (nv := E.robot.nv)
    rw [e1] at h0; cases h0
    obtain ⟨s2, e2, hi⟩ := SE3Task.inv_run (log3 := E.log3) hi
      (good_filter hg (get := se3?) (Q := FrameSettings.Good) (fun c o h h' => by cases c <;> cases h; exact h'))
    rw [hr'] at e2
    cases e2
    cases c with
    | se3 o =>
      show (TaskObj.lift _ _).threw = true ↔ _
      rw [lift_threw]
      cases o with
      | setMask g m =>
        refine iff_of_false ?_ id
        have := rows_silent (g := g) (n := s.nv) (s := s.rows) (m := m)
        simp only [SE3Task.step, SE3Task.setMask]
        revert this
        cases s.rows.setMask g s.nv m <;> simp [Res.threw]
      | setKp k => exact ite_threw
      | setKd k => exact ite_threw
      | setReference r =>
        have h' : r.pos.size = 12 → r.vel.size = 6 ∧ r.acc.size = 6 := ha
        simp only [SE3Task.step, SE3Task.setReference, TaskDecl.Refuses]
        split
        · next hp => rw [if_pos (h' hp)]; simp [Res.threw, hp]
        · next hp => simp [Res.threw, hp]
      | setReferencePose M =>
        refine iff_of_false ?_ id
        show ¬ (s.setReferencePose M).threw = true
        rw [pose_silent]; simp
      | useLocalFrame b => exact iff_of_false (by simp [SE3Task.step, Res.threw]) id
      | compute k =>
        obtain ⟨s', c, hc, -⟩ := SE3Task.compute_ok (log3 := E.log3) hi k
        exact iff_of_false (by simp [SE3Task.step, hc, Res.threw]) id
    | _ => exact ha.elim
  | twoFrames f1 f2 =>
    obtain ⟨g, s0, h0, rfl⟩ := hb
    obtain ⟨s, rfl, hr'⟩ := unwrap (wrap := TaskObj.twoFrames f1 f2) (st := TwoFrames.step E.ndebug E.log3) (get := pair?) (fun s c => by cases c <;> rfl) hr
    obtain ⟨s1, e1, hi⟩ := TwoFrames.inv_new (K := K) (g := g) (name := name) (nv := E.robot.nv)
    rw [e1] at h0; cases h0
    obtain ⟨s2, e2, hi⟩ := TwoFrames.inv_run (ndebug := E.ndebug) (log3 := E.log3) hi
      (good_filter hg (get := pair?) (Q := PairSettings.Good) (fun c o h h' => by cases c <;> cases h; exact h'))
    rw [hr'] at e2
    cases e2
    cases c with
    | twoFrames o =>
      show (TaskObj.lift _ _).threw = true ↔ _
      rw [lift_threw]
      refine iff_of_false ?_ id
      cases o with
      | setMask g m =>
        have := rows_silent (g := g) (n := s.nv) (s := s.rows) (m := m)
        simp only [TwoFrames.step, TwoFrames.setMask]
        revert this
        cases s.rows.setMask g s.nv m <;> simp [Res.threw]
      | setKp k =>
        simp only [TwoFrames.step, TwoFrames.setKp]
        split
        · simp [Res.threw]
        · split <;> simp [Res.threw]
      | setKd k =>
        simp only [TwoFrames.step, TwoFrames.setKd]
        split
        · simp [Res.threw]
        · split <;> simp [Res.threw]
      | compute k1 k2 =>
        simp only [TwoFrames.step]
        obtain ⟨s', c, hc, -⟩ := TwoFrames.compute_ok (log3 := E.log3) hi k1 k2
        rw [hc]; simp [Res.threw]
    | _ => exact ha.elim
  | com =>
    obtain ⟨g, s0, h0, rfl⟩ := hb
    obtain ⟨s, rfl, hr'⟩ := unwrap (wrap := TaskObj.com) (st := ComTask.step) (get := com?) (fun s c => by cases c <;> rfl) hr
    obtain ⟨s1, e1, hi⟩ := ComTask.inv_new (K := K) (g := g) (name := name) (nv := E.robot.nv)
    rw [e1] at h0; cases h0
    obtain ⟨s2, e2, hi⟩ := ComTask.inv_run hi
      (good_filter hg (get := com?) (Q := ComSettings.Good) (fun c o h h' => by cases c <;> cases h; exact h'))
    rw [hr'] at e2
    cases e2
    cases c with
    | com o =>
      show (TaskObj.lift _ _).threw = true ↔ _
      rw [lift_threw]
      cases o with
      | setMask g m =>
        have := rows_silent (g := g) (n := s.nv) (s := s.rows) (m := m)
        simp only [ComTask.step, ComTask.setMask, TaskDecl.Refuses]
        split
        · next hm =>
          revert this
          cases s.rows.setMask g s.nv m <;> simp [Res.threw, hm]
        · next hm => simp [Res.threw, hm]
      | setKp k => exact ite_threw
      | setKd k => exact ite_threw
      | setReference r => exact iff_of_false (by simp [ComTask.step, Res.threw]) id
      | compute k =>
        obtain ⟨s', c, hc, -⟩ := ComTask.compute_ok hi k
        exact iff_of_false (by simp [ComTask.step, hc, Res.threw]) id
    | _ => exact ha.elim
  | am =>
    obtain ⟨g, rfl⟩ := hb
    obtain ⟨s, rfl, hr'⟩ := unwrap (wrap := TaskObj.am) (st := AmTask.step) (get := am?) (fun s c => by cases c <;> rfl) hr
    obtain ⟨s2, e2, hi⟩ := AmTask.inv_run (AmTask.inv_new (g := g) (name := name))
      (good_filter hg (get := am?) (Q := AmSettings.Good E.robot.nv) (fun c o h h' => by cases c <;> cases h; exact h'))
    rw [hr'] at e2
    cases e2
    cases c with
    | am o =>
      show (TaskObj.lift _ _).threw = true ↔ _
      rw [lift_threw]
      cases o with
      | setMask m => exact iff_of_false (by simp [AmTask.step, Res.threw]) id
      | setKp k => exact ite_threw
      | setKd k => exact ite_threw
      | setReference r => exact iff_of_false (by simp [AmTask.step, Res.threw]) id
      | compute v A h =>
        obtain ⟨s', c, hc, -⟩ := AmTask.compute_ok hi h ha.1 ha.2.1 ha.2.2
        exact iff_of_false (by simp [AmTask.step, hc, Res.threw]) id
    | _ => exact ha.elim
  | capture gravity dt =>
    obtain ⟨dr, rfl⟩ := hb
    obtain ⟨s, rfl, hr'⟩ := unwrap (wrap := TaskObj.capture) (st := CaptureTask.step) (get := capture?) (fun s c => by cases c <;> rfl) hr
    have h0 : CaptureInv E.robot.nv gravity.norm dt CaptureSettings.fresh
        (CaptureTask.new name E.robot.nv gravity dt dr) := ⟨rfl, rfl, rfl, rfl, rfl, rfl, rfl, rfl, rfl⟩
    obtain ⟨s2, e2, hi⟩ := capture_run (hist.filterMap capture?) h0
    rw [hr'] at e2
    cases e2
    cases c with
    | capture o =>
      show (TaskObj.lift _ _).threw = true ↔ _
      rw [lift_threw]
      cases o with
      | setX lo hi => exact ite_threw.trans not_le
      | setY lo hi => exact ite_threw.trans not_le
      | setMargin x y => exact iff_of_false (by simp [CaptureTask.step, Res.threw]) id
      | compute k =>
        obtain ⟨s', c, e1, -⟩ := capture_compute hi k
        exact iff_of_false (by simp [CaptureTask.step, e1, Res.threw]) id
    | _ => exact ha.elim
  | posture =>
    obtain ⟨s0, h0, rfl⟩ := hb
    obtain ⟨s, rfl, hr'⟩ := unwrap (wrap := TaskObj.posture) (st := Posture.step E.robot) (get := posture?) (fun s c => by cases c <;> rfl) hr
    obtain ⟨s1, e1, hi⟩ := Posture.inv_new (R := E.robot) (name := name) hR.na
    rw [e1] at h0; cases h0
    have hi := Posture.inv_run hR.na hR.nqa hR.diff hi
      (good_filter hg (get := posture?) (Q := PostureSettings.GoodMask E.robot.na) (fun c o h h' => by cases c <;> cases h; exact h'.1))
      (fun q v h => (good_filter hg (get := posture?) (Q := fun o => ∀ q v, o = Posture.Op.compute q v → v.size = E.robot.nv) (fun c o h h' => by cases c <;> cases h; exact h'.2)) _ h q v rfl)
      hr'
    cases c with
    | posture o =>
      show (TaskObj.lift _ _).threw = true ↔ _
      rw [lift_threw]
      cases o with
      | setMask m =>
        simp only [Posture.step, Posture.setMask, TaskDecl.Refuses]
        by_cases hsz : m.size = E.robot.na
        · obtain ⟨m', h1, h2⟩ := maskInv_setMask (w := fun _ => (1 : K)) (s := s.m) (cols := E.robot.nv)
            (off := E.robot.nv - E.robot.na) (by have := hR.na; omega) (ha.1 hsz) hi.m.kind
          rw [h1]
          simp [Res.threw, hsz]
        · rw [setMask_size hsz]
          simp [Res.threw, hsz]
      | setKp k => exact ite_threw
      | setKd k => exact ite_threw
      | setReference r =>
        simp only [Posture.step, Posture.setReference, TaskDecl.Refuses]
        repeat' split
        all_goals simp_all [Res.threw]
      | compute q v =>
        obtain ⟨s1, c, h1, -⟩ := Posture.compute_ok (q := q) hi hR.na hR.nqa hR.diff (ha.2 q v rfl)
        exact iff_of_false (by simp [Posture.step, h1, Res.threw]) id
    | _ => exact ha.elim
  | jointBounds dt =>
    obtain ⟨s0, h0, rfl⟩ := hb
    obtain ⟨s, rfl, hr'⟩ := unwrap (wrap := TaskObj.jointBounds) (st := JointBounds.step) (get := jointBounds?) (fun s c => by cases c <;> rfl) hr
    have hi := boundsInv_run (boundsInv_new h0) hr'
    cases c with
    | jointBounds o =>
      show (TaskObj.lift _ _).threw = true ↔ _
      rw [lift_threw]
      cases o with
      | setTimeStep dt => exact ite_threw.trans not_lt
      | setVelocityBounds l u =>
        simp only [JointBounds.step, JointBounds.setVelocityBounds, TaskDecl.Refuses, hi.naEq]
        repeat' split
        all_goals simp_all [Res.threw]
      | setAccelerationBounds l u =>
        simp only [JointBounds.step, JointBounds.setAccelerationBounds, TaskDecl.Refuses, hi.naEq]
        repeat' split
        all_goals simp_all [Res.threw]
      | setMask m => exact iff_of_false (by simp [JointBounds.step, Res.threw]) id
      | compute v =>
        refine iff_of_false ?_ id
        simp only [JointBounds.step, JointBounds.compute]
        rw [if_pos (by rw [hi.naEq]; exact ha v rfl)]
        simp [Res.threw]
    | _ => exact ha.elim
  | posVelAcc dt =>
    obtain ⟨s0, h0, rfl⟩ := hb
    obtain ⟨s, rfl, hr'⟩ := unwrap (wrap := TaskObj.posVelAcc) (st := PosVelAcc.step) (get := posVelAcc?) (fun s c => by cases c <;> rfl) hr
    have hgm : ∀ o ∈ hist.filterMap posVelAcc?, GoodMask E.robot.na o :=
      (good_filter hg (get := posVelAcc?) (Q := GoodMask E.robot.na) (fun c o h h' => by cases c <;> cases h; exact h'.1))
    have hi := PosVelAcc.limInv_run hR.na (PosVelAcc.limInv_new hR.na h0).1 hgm hr'
    cases c with
    | posVelAcc o =>
      show (TaskObj.lift _ _).threw = true ↔ _
      rw [lift_threw]
      cases o with
      | setTimeStep dt => exact ite_threw.trans not_lt
      | setPositionBounds l u =>
        simp only [PosVelAcc.step, PosVelAcc.setPositionBounds, TaskDecl.Refuses, hi.naEq]
        repeat' split
        all_goals simp_all [Res.threw]
      | setVelocityBounds u =>
        simp only [PosVelAcc.step, PosVelAcc.setVelocityBounds, TaskDecl.Refuses, hi.naEq]
        exact ite_threw
      | setAccelerationBounds u =>
        simp only [PosVelAcc.step, PosVelAcc.setAccelerationBounds, TaskDecl.Refuses, hi.naEq]
        exact ite_threw
      | setImposeBounds a b c d => exact iff_of_false (by simp [PosVelAcc.step, Res.threw]) id
      | setMask m =>
        simp only [PosVelAcc.step, PosVelAcc.setMask, hi.nvEq, hi.naEq, TaskDecl.Refuses]
        by_cases h1 : m.size = E.robot.na
        · rw [setMask_ok (s := s.m) (w := fun _ => 1) (cols := E.robot.nv) (off := E.robot.nv - E.robot.na) (ha.1 h1)
            (by have := hR.na; omega) (by rw [hi.kind]; simp)]
          simp [Res.threw, h1]
        · rw [setMask_size h1]
          simp [Res.threw, h1]
      | compute q v =>
        obtain ⟨h1, h2⟩ := ha.2.2 q v rfl
        refine iff_of_false ?_ id
        simp only [PosVelAcc.step]
        rw [PosVelAcc.compute_ok (by rw [hi.naEq]; exact h1) (by rw [hi.naEq]; exact h2)]
        simp [Res.threw]
    | _ => exact ha.elim
  | actBounds =>
    obtain ⟨s0, h0, rfl⟩ := hb
    obtain ⟨s, rfl, hr'⟩ := unwrap (wrap := TaskObj.actBounds) (st := ActBounds.step E.robot.na) (get := actBounds?) (fun s c => by cases c <;> rfl) hr
    obtain ⟨s1, e1, hi⟩ := ActBounds.inv_new (K := K) (name := name) (na := E.robot.na)
    rw [e1] at h0; cases h0
    obtain ⟨s2, e2, hi⟩ := ActBounds.inv_run hi
      (good_filter hg (get := actBounds?) (Q := TorqueLimits.GoodMask E.robot.na) (fun c o h h' => by cases c <;> cases h; exact h'))
    rw [hr'] at e2
    cases e2
    rw [same_settings hf (after := fun p o => TorqueLimits.after E.robot.na p o)
      (afterAll := fun p os => TorqueLimits.afterAll E.robot.na p os) (fun _ => rfl)
      (fun _ _ _ => rfl) (fun p c o h1 h2 => by cases c <;> cases h2; cases o <;> first | rfl | cases h1)] at hi
    cases c with
    | actBounds o =>
      show (TaskObj.lift _ _).threw = true ↔ _
      rw [lift_threw]
      cases o with
      | mask m =>
        simp only [ActBounds.step, TaskDecl.Refuses]
        by_cases hsz : m.size = E.robot.na
        · obtain ⟨s', h1, -⟩ := ActBounds.setMask_adm hi.kind (ha hsz)
          rw [h1]
          simp [Res.threw, hsz]
        · unfold ActBounds.setMask
          rw [setMask_size hsz]
          simp [Res.threw, hsz]
      | setBounds l u =>
        simp only [ActBounds.step, ActBounds.setBounds, TaskDecl.Refuses]
        generalize TorqueLimits.afterAll E.robot.na (TorqueLimits.fresh E.robot.na) (calls.filterMap actBounds?) = p at *
        have hdim : s.dim = ((countSelected p.mask E.robot.na : Nat) : Int) := by
          unfold Masked.dim
          rw [hi.mask, trunc_sum_mask hi.adm, length_sel]
        simp only [hdim, Nat.cast_inj]
        repeat' split
        all_goals simp_all [Res.threw]
    | _ => exact ha.elim
  | actEq =>
    obtain ⟨s0, h0, rfl⟩ := hb
    obtain ⟨s, rfl, hr'⟩ := unwrap (wrap := TaskObj.actEq) (st := ActEq.step E.robot.na) (get := actEq?) (fun s c => by cases c <;> rfl) hr
    obtain ⟨s1, e1, hi⟩ := ActEq.inv_new (K := K) (name := name) (na := E.robot.na)
    rw [e1] at h0; cases h0
    obtain ⟨s2, e2, hi⟩ := ActEq.inv_run hi
      (good_filter hg (get := actEq?) (Q := TorqueSettings.GoodMask E.robot.na) (fun c o h h' => by cases c <;> cases h; exact h'))
    rw [hr'] at e2
    cases e2
    cases c with
    | actEq o =>
      show (TaskObj.lift _ _).threw = true ↔ _
      rw [lift_threw]
      generalize TorqueSettings.afterAll E.robot.na (TorqueSettings.fresh E.robot.na) (hist.filterMap actEq?) = p at *
      cases o with
      | mask m =>
        simp only [ActEq.step, TaskDecl.Refuses]
        by_cases hsz : m.size = E.robot.na
        · obtain ⟨s', h1, h2⟩ := ActEq.setMask_adm (p := p) hi.ref hi.weights hi.m.kind (ha hsz)
          rw [h1]
          simp [Res.threw, hsz]
        · unfold ActEq.setMask
          rw [setMask_size hsz]
          simp [Res.threw, hsz]
      | setReference r =>
        simp only [ActEq.step, ActEq.setReference, TaskDecl.Refuses]
        by_cases hsz : r.size = E.robot.na
        · obtain ⟨s', h1, h2⟩ := ActEq.refill_ok (na := E.robot.na) (p := { p with ref := r }) (s := { s with ref := r }) rfl
            hi.weights hi.m
          rw [if_pos hsz, h1]
          simp [Res.threw, hsz]
        · rw [if_neg hsz]
          simp [Res.threw, hsz]
      | setWeights w =>
        simp only [ActEq.step, ActEq.setWeights, TaskDecl.Refuses]
        by_cases hsz : w.size = E.robot.na
        · have hr : s.m.axes.length ≤ s.m.con.mat.rows := by rw [hi.m.axes, hi.m.mat]; simp [selMat]
          obtain ⟨s', h1, h2⟩ := ActEq.refill_ok (na := E.robot.na) (p := { p with weights := w })
            (s := { s with weights := w, m := { s.m with con := { s.m.con with
              mat := ActEq.reweigh w.get s.m.axes s.m.con.mat } } }) hi.ref rfl
            ⟨hi.m.mask, hi.m.adm, hi.m.axes, hi.m.kind, by simp only [hi.m.axes, hi.m.mat]; exact ActEq.reweigh_selMat _ _,
              hi.m.size⟩
          rw [if_pos hsz, if_pos hr, h1]
          simp [Res.threw, hsz]
        · rw [if_neg hsz]
          simp [Res.threw, hsz]
    | _ => exact ha.elim
  | force dt contact cname =>
    cases hb
    obtain ⟨s, rfl, hr'⟩ := unwrap (wrap := TaskObj.force) (st := ForceTask.step) (get := force?) (fun s c => by cases c <;> rfl) hr
    cases c with
    | force o =>
      show (TaskObj.lift _ _).threw = true ↔ _
      rw [lift_threw]
      cases o with
      | setKp k => exact ite_threw
      | setKd k => exact ite_threw
      | setKi k => exact ite_threw
      | compute gen => exact absurd rfl (ha.2.1 gen)
      | compute5 gen names => exact absurd rfl (ha.2.2 gen names)
      | _ => exact iff_of_false (by simp [ForceTask.step, Res.threw]) id
    | _ => exact ha.elim
  | cop =>
    cases hb
    obtain ⟨s, rfl, hr'⟩ := unwrap (wrap := TaskObj.cop) (st := CopTask.step) (get := cop?) (fun s c => by cases c <;> rfl) hr
    cases c with
    | cop o =>
      show (TaskObj.lift _ _).threw = true ↔ _
      rw [lift_threw]
      cases o with
      | compute g cs => exact absurd rfl (ha.1 g cs)
      | compute5 g cs => exact absurd rfl (ha.2 g cs)
      | _ => exact iff_of_false (by simp [CopTask.step, Res.threw]) id
    | _ => exact ha.elim

theorem two_silent {log3 : M3 K → V3 K} {s : TwoFrames K} {k1 k2 : FrameKin K} :
    (s.compute log3 k1 k2).threw = false := by
  unfold TwoFrames.compute
  split
  · split <;> rfl
  · rfl

/-- An accepted call on the motion task of a contact ends with an exception exactly when it is refused. -/
theorem contact_throws {E : Program.Env K} {name : String} {d : ContactDecl} {m0 m1 : ContactMotion K}
    {hist : List (ContactCall K)} (hb : d.Built E.robot.nv name m0)
    (hr : runOps (ContactMotion.call E) m0 hist = some m1)
    {c : ContactCall K} (ha : d.Accepts c) : (m1.call E c).threw = true ↔ d.Refuses c := by
  cases d with
  | point fr =>
    obtain ⟨g, g', s0, h0, rfl⟩ := hb
    obtain ⟨s, rfl, hr'⟩ := unwrapMotion (wrap := ContactMotion.point fr) (st := PointMotion.step E.log3)
      (get := pointAll fr) (fun s c => by
        cases c with
        | point o =>
          simp only [ContactMotion.call, pointAll]
          cases PointMotion.step E.log3 s o <;> rfl
        | computeMotion w =>
          simp only [ContactMotion.call, pointAll, PointMotion.step, SE3Task.step]
          cases SE3Task.compute E.log3 s (w.frame fr) <;> rfl
        | _ => rfl) hr
    obtain ⟨s1, p, e1, hi, -⟩ := PointMotion.inv_run (log3 := E.log3) (os := hist.filterMap (pointAll fr)) h0
    rw [hr'] at e1
    cases e1
    cases c with
    | point o =>
      show (ContactMotion.lift _ _).threw = true ↔ _
      rw [liftMotion_threw]
      cases o with
      | setKp g k =>
        simp only [PointMotion.step, ContactDecl.Refuses, SE3Task.setKp]
        by_cases hk : k.size = 3
        · rw [if_pos hk, if_pos (show (gains6 g k).size = 6 from rfl)]; simp [Res.threw, hk]
        · rw [if_neg hk]; simp [Res.threw, hk]
      | setKd g k =>
        simp only [PointMotion.step, ContactDecl.Refuses, SE3Task.setKd]
        by_cases hk : k.size = 3
        · rw [if_pos hk, if_pos (show (gains6 g k).size = 6 from rfl)]; simp [Res.threw, hk]
        · rw [if_neg hk]; simp [Res.threw, hk]
      | setReference M =>
        refine iff_of_false ?_ id
        show ¬ (s.setReferencePose M).threw = true
        rw [pose_silent]; simp
      | useLocalFrame b => exact iff_of_false (by simp [PointMotion.step, Res.threw]) id
      | compute k =>
        obtain ⟨s', c, hc, -⟩ := SE3Task.compute_ok (log3 := E.log3) hi k
        exact iff_of_false (by simp [PointMotion.step, SE3Task.step, hc, Res.threw]) id
    | computeMotion w =>
      show (ContactMotion.lift _ _).threw = true ↔ _
      rw [liftMotion_threw]
      obtain ⟨s', c, hc, -⟩ := SE3Task.compute_ok (log3 := E.log3) hi (w.frame fr)
      exact iff_of_false (by simp [hc, Res.threw]) id
    | _ => exact ha.elim
  | sixD fr =>
    obtain ⟨g, s0, h0, rfl⟩ := hb
    obtain ⟨s, rfl, hr'⟩ := unwrapMotion (wrap := ContactMotion.sixD fr) (st := SE3Task.step E.log3)
      (get := sixDAll fr) (fun s c => by
        cases c with
        | setKp k =>
          simp only [ContactMotion.call, sixDAll, SE3Task.step]
          cases s.setKp k <;> rfl
        | setKd k =>
          simp only [ContactMotion.call, sixDAll, SE3Task.step]
          cases s.setKd k <;> rfl
        | setReference M =>
          simp only [ContactMotion.call, sixDAll, SE3Task.step]
          cases s.setReferencePose M <;> rfl
        | computeMotion w =>
          simp only [ContactMotion.call, sixDAll, SE3Task.step]
          cases SE3Task.compute E.log3 s (w.frame fr) <;> rfl
        | _ => rfl) hr
    have hgood : ∀ o ∈ hist.filterMap (sixDAll fr), FrameSettings.Good o := by
      intro o ho
      obtain ⟨c, -, hc⟩ := List.mem_filterMap.1 ho
      cases c <;> cases hc <;> trivial
    obtain ⟨s1, e1, hi⟩ := SE3Task.inv_new (K := K) (g := g) (name := name) (nv := E.robot.nv)
    rw [e1] at h0; cases h0
    obtain ⟨s2, e2, hi⟩ := SE3Task.inv_run (log3 := E.log3) hi hgood
    rw [hr'] at e2
    cases e2
    cases c with
    | setKp k =>
      show (ContactMotion.lift _ _).threw = true ↔ _
      rw [liftMotion_threw]
      exact ite_threw
    | setKd k =>
      show (ContactMotion.lift _ _).threw = true ↔ _
      rw [liftMotion_threw]
      exact ite_threw
    | setReference M =>
      refine iff_of_false ?_ id
      simp only [ContactMotion.call, liftMotion_threw, pose_silent]
      simp
    | computeMotion w =>
      show (ContactMotion.lift _ _).threw = true ↔ _
      rw [liftMotion_threw]
      obtain ⟨s', c, hc, -⟩ := SE3Task.compute_ok (log3 := E.log3) hi (w.frame fr)
      exact iff_of_false (by simp [hc, Res.threw]) id
    | _ => exact ha.elim
  | pair f1 f2 =>
    obtain ⟨g, g', s0, h0, rfl⟩ := hb
    obtain ⟨s, rfl, hr'⟩ := unwrapMotion (wrap := ContactMotion.pair f1 f2) (st := PairMotion.step E.ndebug E.log3)
      (get := pairAll f1 f2) (fun s c => by
        cases c with
        | pair o =>
          simp only [ContactMotion.call, pairAll]
          cases PairMotion.step E.ndebug E.log3 s o <;> rfl
        | computeMotion w =>
          simp only [ContactMotion.call, pairAll, PairMotion.step, TwoFrames.step]
          cases TwoFrames.compute E.log3 s (w.frame f1) (w.frame f2) <;> rfl
        | _ => rfl) hr
    have quiet : ∀ k1 k2, (TwoFrames.compute E.log3 s k1 k2).threw = false := fun k1 k2 => two_silent
    cases c with
    | pair o =>
      show (ContactMotion.lift _ _).threw = true ↔ _
      rw [liftMotion_threw]
      refine iff_of_false ?_ id
      cases o with
      | setKp g k =>
        simp only [PairMotion.step, TwoFrames.setKp]
        repeat' split
        all_goals simp [Res.threw]
      | setKd g k =>
        simp only [PairMotion.step, TwoFrames.setKd]
        repeat' split
        all_goals simp [Res.threw]
      | compute k1 k2 =>
        have := quiet k1 k2
        simp only [PairMotion.step, TwoFrames.step]
        revert this
        cases TwoFrames.compute E.log3 s k1 k2 <;> simp [Res.threw]
    | computeMotion w =>
      show (ContactMotion.lift _ _).threw = true ↔ _
      rw [liftMotion_threw]
      refine iff_of_false ?_ id
      rw [quiet]
      simp
    | _ => exact ha.elim

/-- A contact ends a call with an exception exactly when it refuses it. -/
theorem applySet_throws {c : Contact K} {kind : ContactKind} {p : ForceLimits K} (hk : c.kind = kind)
    (h1 : c.fMin = p.fMin) (h2 : c.fMax = p.fMax) {u : ContactSet K} (hu : Takes kind u) :
    (applySet c u).threw = true ↔ p.Refuses kind u := by
  subst hk
  cases u with
  | points P =>
    have hs : c.kind = .sixD := hu
    simp only [applySet, Contact.setContactPoints, hs, ForceLimits.Refuses]
    repeat' split
    all_goals simp_all [void, Res.threw]
  | normal n =>
    simp only [applySet, Contact.setContactNormal, ForceLimits.Refuses]
    repeat' split
    all_goals simp_all [void, Res.threw]
  | friction mu =>
    simp only [applySet, Contact.setFrictionCoefficient, ForceLimits.Refuses]
    repeat' split
    all_goals simp_all [void, Res.threw]
  | fMin m =>
    simp only [applySet, Contact.setMinNormalForce, ForceLimits.Refuses]
    split
    · next hk => simp [void, Res.threw, hk]
    · next hk =>
      have hk' : c.kind ≠ .twoFrames := fun e => hk e
      rw [h2]
      split
      · next hm => simp [void, Res.threw, hk', not_le.2 hm.1, not_lt.2 hm.2]
      · next hm =>
        simp only [void, Res.threw, true_iff]
        refine ⟨hk', ?_⟩
        by_contra hcon
        push Not at hcon
        exact hm hcon
  | fMax m =>
    simp only [applySet, Contact.setMaxNormalForce, ForceLimits.Refuses]
    repeat' split
    all_goals simp_all [void, Res.threw]
  | forceRef f =>
    simp only [applySet, Contact.setForceReference, ForceLimits.Refuses]
    repeat' split
    all_goals simp_all [void, Res.threw]
  | regWeights w =>
    simp only [applySet, Contact.setRegularizationWeights, ForceLimits.Refuses]
    repeat' split
    all_goals simp_all [Res.threw]

/-- Adding a task throws for a negative weight or duration, whatever happened before. -/
theorem add_throws (nd : Bool) (W : World) (f : Tsid.State K) (tid p : Nat) (w d : K) :
    ((Formulation.step nd W f (.addMotionTask tid w p d)).threw = true ↔ w < 0 ∨ d < 0) ∧
    ((Formulation.step nd W f (.addForceTask tid w p d)).threw = true ↔ w < 0 ∨ d < 0) ∧
    ((Formulation.step nd W f (.addActuationTask tid w p d)).threw = true ↔ w < 0 ∨ d < 0) := by
  refine ⟨?_, ?_, ?_⟩
  · simp only [Formulation.step, addMotionTask]
    split
    · split
      · split <;> simp [void, Res.threw, *]
      · simp_all [void, Res.threw]
    · simp_all [void, Res.threw]
  · simp only [Formulation.step, addForceTask]
    split
    · split
      · split <;> simp [void, Res.threw, *]
      · simp_all [void, Res.threw]
    · simp_all [void, Res.threw]
  · simp only [Formulation.step, addActuationTask]
    split
    · split
      · split <;> simp [void, Res.threw, *]
      · simp_all [void, Res.threw]
    · simp_all [void, Res.threw]

section
variable {E : Program.Env K} {W : World} {S : Setup K} {ops : List (Program.Op K)} {s0 : Program.State K}

/-- After a checked text, the limits of a contact object are those of the text. -/
theorem reading_limits (h : Reading E W S ops s0) (hn : NoGradualRemoval ops) (c : Nat) :
    HasLimits true (s0.form.contactObj c) (S.obj c).kind (S.limitsOf ops c) := by
  obtain ⟨ht, -⟩ := program_tidy h.good
  unfold Setup.limitsOf
  rw [← setsOf_text h.good.run]
  exact (run_limits (q := true) (cid := c) (kind := (S.obj c).kind) _ _ _ (ForceLimits.of (S.obj c))
    (fun _ => abrupt_text hn) (fun _ => rfl) ⟨rfl, rfl, rfl, fun _ => ⟨rfl, rfl⟩⟩ ht.run).1

theorem reading_throws (hD : Declared E W S) (h : Reading E W S ops s0) (hn : NoGradualRemoval ops) {o : Program.Op K}
    (hf : S.Fine E W ops o) : (Program.step E s0 o).threw = true ↔ S.Refuses E ops o := by
  have hm := fine_may hD h hf
  have ho := fine_orderly h hf
  have hg := h.good
  have hR : RobotOk E.robot := ⟨by rw [hg.nv, hg.na]; exact hg.motors, hg.nqa, hg.difference⟩
  cases o with
  | task tid c =>
    have ha : (S.decl tid).Accepts E.robot c := hm
    have key := task_throws hR (hg.built tid) (Program.run_task hg.run tid) (history_good hg tid)
      (fun σ F hF p => Program.fold_history hF hg.run p) (calls := taskCalls tid ops) ha
    refine Iff.trans ?_ key
    simp only [Program.step, accepts_associate ha, Bool.false_eq_true, if_false]
    cases (s0.task tid).call E c <;> simp [Res.threw]
  | associate tid cid n =>
    refine iff_of_false ?_ id
    simp only [Program.step]
    repeat' split
    all_goals simp [Res.threw]
  | motion cid c =>
    obtain ⟨l, e1, e2, -⟩ := Program.run_motion hg.run cid
    have hb := hg.builtContact cid
    rw [← hg.nv] at hb
    refine Iff.trans ?_ (contact_throws hb e1 (c := c) hm)
    simp only [Program.step]
    cases (s0.motion cid).call E c <;> simp [Res.threw]
  | measured mid c =>
    refine iff_of_false ?_ id
    have : ((s0.measured mid).call c).threw = false := by
      unfold MeasuredObj.call
      split <;> rfl
    simp only [Program.step]
    revert this
    cases (s0.measured mid).call c <;> simp [Res.threw]
  | form o =>
    have hs : (Program.step E s0 (.form o)).threw = true ↔
        Program.typed s0 o = true ∧ (Formulation.step E.ndebug W s0.form o).threw = true := by
      simp only [Program.step]
      rw [Program.step_world hg.names hg.mfNames ho.2 E.ndebug]
      split
      · next hty =>
        rw [hty]
        cases Formulation.step E.ndebug W s0.form o <;> simp [Res.threw]
      · next hty => simp [hty, Res.threw]
    rw [hs]
    have hty : Program.typed s0 o = true := by
      have hstep := (step_safe hg hm).1
      by_contra hno
      simp only [Program.step, if_neg hno] at hstep
      cases hstep
    simp only [hty, true_and]
    have quiet : ∀ {r : Res (Tsid.State K) Bool}, r.threw = false → ¬ (void r).threw = true := by
      intro r hr
      cases r <;> simp_all [void, Res.threw]
    cases o with
    | addMotionTask tid w p d => exact (add_throws _ _ _ tid p w d).1
    | addForceTask tid w p d => exact (add_throws _ _ _ tid p w d).2.1
    | addActuationTask tid w p d => exact (add_throws _ _ _ tid p w d).2.2
    | setContact cid u =>
      obtain ⟨k1, k2, k3, k4⟩ := reading_limits h hn cid
      obtain ⟨k5, k6⟩ := k4 rfl
      refine Iff.trans ?_ (applySet_throws k1 k5 k6 hm)
      simp only [Formulation.step]
      cases applySet (s0.form.contactObj cid) u <;> simp [Res.threw]
    | removeRigidContact n d =>
      refine iff_of_false ?_ id
      simp only [Formulation.step, removeRigidContact, if_neg (not_lt.2 hf.1)]
      cases hr : removeContactNow E.ndebug s0.form n with
      | throw s => exact absurd hr removeContactNow_not_throw
      | _ => simp [void, Res.threw]
    | removeTask n =>
      refine iff_of_false ?_ id
      simp only [Formulation.step, removeTask]
      repeat' split
      all_goals simp [void, Res.threw]
    | updateTaskWeight n w =>
      refine iff_of_false ?_ id
      simp only [Formulation.step, updateTaskWeight]
      repeat' split
      all_goals simp [void, Res.threw]
    | addRigidContact cid wf wm p =>
      refine iff_of_false ?_ id
      simp only [Formulation.step, addRigidContact]
      repeat' split
      all_goals simp [void, Res.threw]
    | updateRigidContactWeights n wf wm =>
      refine iff_of_false ?_ id
      simp only [Formulation.step, updateRigidContactWeights]
      repeat' split
      all_goals simp [void, Res.threw]
    | addMeasuredForce mid =>
      refine iff_of_false ?_ id
      simp only [Formulation.step, addMeasuredForce]
      repeat' split
      all_goals simp [void, Res.threw]
    | removeMeasuredForce n =>
      refine iff_of_false ?_ id
      simp only [Formulation.step, removeMeasuredForce]
      repeat' split
      all_goals simp [void, Res.threw]
    | decode x =>
      refine iff_of_false ?_ id
      simp only [Formulation.step]
      split <;> simp [Res.threw]
    | resizeHqpData => exact iff_of_false (by simp [Formulation.step, Res.threw]) id
    | removeFromHqpData n => exact hf.elim
    | compute cy t => exact hf.elim
    | setAssociated tid n => exact hf.elim
  | compute w t =>
    obtain ⟨s, e⟩ := C92_returns hg hm.1 hm.2 hn
    refine iff_of_false ?_ id
    show ¬ (Program.compute E w t s0).threw = true
    rw [e]; simp [Res.threw]

/-- **C109.** Every call of a checked program ends with an exception exactly when the text says that it is refused; otherwise
it returns. -/
theorem C109_throws (hD : Declared E W S) {pre post : List (Program.Op K)} {o : Program.Op K}
    (hc : Checked E W S (pre ++ o :: post)) :
    ∃ s0, Program.run E S.start pre = some s0 ∧ ((Program.step E s0 o).threw = true ↔ S.Refuses E pre o) ∧
      (¬ S.Refuses E pre o → ∃ s1, Program.step E s0 o = .ok s1 ()) := by
  have hc' : Checked E W S pre := fun p o' q e => hc p o' (q ++ o :: post) (by rw [e]; simp)
  obtain ⟨s0, h⟩ := reading_run hD hc'
  have hf := hc pre o post rfl
  have key := reading_throws hD h (checked_abrupt hc') hf
  refine ⟨s0, h.good.run, key, fun hno => ?_⟩
  obtain ⟨s1, e, -⟩ := reading_snoc hD h (checked_abrupt hc') hf
  cases hs : Program.step E s0 o with
  | ok s u => exact ⟨s, rfl⟩
  | throw s => rw [hs] at key; exact absurd (key.1 rfl) hno
  | abort => rw [hs] at e; cases e
  | ub => rw [hs] at e; cases e

theorem uncaught_append {s : Program.State K} : ∀ {a b : List (Program.Op K)},
    uncaught E s (a ++ b) = (uncaught E s a).bind fun s' => uncaught E s' b := by
  intro a
  induction a generalizing s with
  | nil => intro b; rfl
  | cons o a ih =>
    intro b
    simp only [List.cons_append, uncaught]
    cases Program.step E s o <;> first | exact ih | rfl

theorem uncaught_run {s' : Program.State K} : ∀ {a : List (Program.Op K)} {s : Program.State K},
    uncaught E s a = some s' → Program.run E s a = some s'
  | [], s, h => h
  | o :: a, s, h => by
    simp only [uncaught] at h
    simp only [Program.run]
    cases hs : Program.step E s o with
    | ok s1 u => rw [hs] at h; exact uncaught_run h
    | _ => rw [hs] at h; cases h

/-- **C109, whole programs.** A checked program in which exceptions are not caught comes to its end exactly when no call of
the text is refused; it ends in the same state. -/
theorem C109_uncaught (hD : Declared E W S) (hc : Checked E W S ops) :
    ((∃ s, uncaught E S.start ops = some s) ↔ Unrefused E S ops) ∧
      (Unrefused E S ops → uncaught E S.start ops = Program.run E S.start ops) := by
  have fwd : ∀ ops, Checked E W S ops → Unrefused E S ops → ∃ s, uncaught E S.start ops = some s := by
    intro ops
    induction ops using List.reverseRecOn with
    | nil => exact fun _ _ => ⟨_, rfl⟩
    | append_singleton ops o ih =>
      intro hc hu
      obtain ⟨s, e⟩ := ih (fun pre o' post e => hc pre o' (post ++ [o]) (by rw [e]; simp))
        (fun pre o' post e => hu pre o' (post ++ [o]) (by rw [e]; simp))
      obtain ⟨s0, e0, -, h1⟩ := C109_throws hD (pre := ops) (o := o) (post := []) hc
      rw [uncaught_run e] at e0
      cases e0
      obtain ⟨s1, e1⟩ := h1 (hu ops o [] rfl)
      exact ⟨s1, by rw [uncaught_append, e]; simp only [Option.bind_some, uncaught, e1]⟩
  refine ⟨⟨?_, fwd ops hc⟩, fun hu => ?_⟩
  · rintro ⟨s, e⟩ pre o post rfl hr
    rw [uncaught_append] at e
    cases hp : uncaught E S.start pre with
    | none => rw [hp] at e; cases e
    | some s1 =>
      rw [hp] at e
      obtain ⟨s0, e0, h1, -⟩ := C109_throws hD hc
      rw [uncaught_run hp] at e0
      cases e0
      have ht := h1.2 hr
      simp only [Option.bind_some, uncaught] at e
      cases hs : Program.step E s1 o with
      | ok => rw [hs] at ht; cases ht
      | _ => rw [hs] at e; cases e
  · obtain ⟨s, e⟩ := fwd ops hc hu
    rw [e, uncaught_run e]

end

end Tsid.Props
