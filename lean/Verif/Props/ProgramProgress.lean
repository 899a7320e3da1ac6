import Verif.Spec.ProgramProgress
import Verif.Props.Program
import Verif.Props.Sizes

/-!
# C88: a control cycle of a whole program has no undefined behaviour
-/

set_option linter.unusedSectionVars false

namespace Tsid.Props

open Spec Finset Formulation Program

variable {K : Type} [Field K] [LinearOrder K] [FloorRing K] [HasSqrt K]

theorem each_some {α : Type} {f : α → Option α} : ∀ {is : List Nat} {o : Nat → α}, is.Nodup →
    (∀ i ∈ is, ∃ a, f (o i) = some a) → ∃ o', Program.each f is o = some o'
  | [], o, _, _ => ⟨o, rfl⟩
  | i :: is, o, hn, h => by
    obtain ⟨a, ha⟩ := h i List.mem_cons_self
    rw [List.nodup_cons] at hn
    simp only [Program.each, ha]
    refine each_some hn.2 fun j hj => ?_
    rw [Function.update_of_ne (fun e => hn.1 (by rw [← e]; exact hj))]
    exact h j (List.mem_cons_of_mem _ hj)

theorem each_total {α : Type} (f : α → α) : ∀ (is : List Nat) (o : Nat → α),
    ∃ o', Program.each (fun a => some (f a)) is o = some o'
  | [], o => ⟨o, rfl⟩
  | i :: is, o => each_total f is _

/-! ## Readiness of a force task does not depend on the cycles -/

/-- Forget the errors of the past. -/
def forget (p : ForceSettings K) : ForceSettings K := { p with past := [] }

theorem forget_after (p : ForceSettings K) (o : ForceTask.Op K) : forget ((forget p).after o) = forget (p.after o) := by
  cases o <;> simp only [ForceSettings.after] <;> first
    | rfl
    | (split <;> split <;> first | rfl | contradiction)
    | (split <;> rfl)

/-- A call without the cycles. -/
def settle (p : ForceSettings K) : TaskCall K → ForceSettings K
  | .force (.compute5 _ _) => p
  | .force o => forget (p.after o)
  | _ => p

theorem forget_afterAll : ∀ (l : List (TaskCall K)) (p : ForceSettings K),
    forget (p.afterAll (l.filterMap force?)) = l.foldl settle (forget p)
  | [], p => rfl
  | c :: l, p => by
    cases c with
    | force o =>
      rw [List.filterMap_cons, List.foldl_cons]
      simp only [force?, ForceSettings.afterAll]
      rw [forget_afterAll l, ← forget_after]
      congr 1
      cases o <;> first | rfl | skip
      simp only [ForceSettings.after, settle]
      split <;> rfl
    | _ => exact forget_afterAll l p

theorem ready_text {calls hist : List (TaskCall K)} (h : SameText calls hist) (p : ForceSettings K)
    (hr : (p.afterAll (calls.filterMap force?)).Ready) : (p.afterAll (hist.filterMap force?)).Ready := by
  have e : forget (p.afterAll (hist.filterMap force?)) = forget (p.afterAll (calls.filterMap force?)) := by
    rw [forget_afterAll, forget_afterAll]
    refine h _ _ ?_ _
    intro p c hc
    cases c with
    | force o => cases o <;> first | rfl | cases hc
    | _ => rfl
  have : (forget (p.afterAll (hist.filterMap force?))).Ready := by rw [e]; exact hr
  exact this

/-! ## Every task -/

/-- The number of variables of a task. -/
def cols (R : PostureRobot K) (x : TaskObj.Ctx K) (calls : List (TaskCall K)) : TaskDecl K → Nat
  | .actBounds | .actEq => R.na
  | .force _ c _ => (x.obj (lastContact (calls.filterMap force?) c)).nForce
  | .cop => nForces x.obj (x.contacts.map ContactLevel.cid)
  | _ => R.nv

theorem fits_rows {n cols : Nat} {m : Vec K} {s : CartRows K} (h : CartRows.Inv n cols m s) :
    FitsOn .equality (countSelected m n) cols s.con := by
  refine ⟨h.kind, ?_, h.rows, h.cols⟩
  simp only [WellFormed, h.kind, h.vec, h.rows]

theorem fits_mask [IsStrictOrderedRing K] {na cols off : Nat} {w : Nat → K} {m : Vec K} {s : Masked K} (h : MaskInv na cols off w m s) :
    FitsOn .equality (countSelected m na) cols s.con := by
  refine ⟨h.kind, ?_, ?_, ?_⟩
  · simp only [WellFormed, h.kind, h.size, h.mat, selMat]
  · rw [h.mat]; exact length_sel _ _
  · rw [h.mat]; rfl

theorem count_full {m : Vec K} : ∀ {n : Nat}, (∀ i, i < n → m i = 1) → countSelected m n = n
  | 0, _ => rfl
  | n + 1, h => by
    rw [countSelected, count_full fun i hi => h i (by omega), if_pos (h n (by omega))]

variable [IsStrictOrderedRing K] [LawfulSqrt K]

/-- In a cycle, a task can be computed, and its constraint has the kind and the sizes that the text says. -/
theorem task_fits {E : Program.Env K} (hR : RobotOk E.robot) {name : String} {d : TaskDecl K} {o0 o1 : TaskObj K}
    {x : TaskObj.Ctx K} {hist calls : List (TaskCall K)} (hb : d.Built E.robot name o0)
    (hr : runOps (TaskObj.call E) o0 hist = some o1) (hg : ∀ c ∈ hist, GoodCall E.robot c)
    (hf : SameText calls hist) (hw : SnapshotOk E.robot.nv x.w) (hq : E.robot.na ≤ x.w.q.size) (hst : Stacked 0 x.cop)
    (hsh : ∀ cid, (x.obj cid).Shaped)
    (hs : d.Supported E.robot x.obj (x.contacts.map ContactLevel.cid) calls) :
    ∃ o2, o1.compute E x = some o2 ∧ FitsOn d.kind (d.rows E.robot calls) (cols E.robot x calls d) o2.con := by
  unfold TaskObj.compute
  cases d with
  | se3 fr =>
    obtain ⟨g, s0, h0, rfl⟩ := hb
    obtain ⟨s, rfl, hr'⟩ := unwrap (wrap := TaskObj.se3 fr) (st := SE3Task.step E.log3) (get := se3?) (fun s c => by cases c <;> rfl) hr
    obtain ⟨s1, e1, hi⟩ := SE3Task.inv_new (K := K) (g := g) (name := name) (nv := E.robot.nv)
    rw [e1] at h0; cases h0
    obtain ⟨s2, e2, hi⟩ := SE3Task.inv_run (log3 := E.log3) hi
      (good_filter hg (get := se3?) (Q := FrameSettings.Good) (fun c o h h' => by cases c <;> cases h; exact h'))
    rw [hr'] at e2
    cases e2
    obtain ⟨s', c, hc, hi', rfl, -⟩ := SE3Task.compute_ok (log3 := E.log3) hi (x.w.frame fr)
    rw [same_settings hf (after := FrameSettings.after) (afterAll := FrameSettings.afterAll) (fun _ => rfl)
      (fun _ _ _ => rfl) (fun p c o h1 h2 => by cases c <;> cases h2; cases o <;> first | rfl | cases h1)] at hi'
    refine ⟨.se3 fr s', ?_, fits_rows hi'.rows⟩
    simp only [TaskObj.cycleCall, TaskObj.call, SE3Task.step, hc, TaskObj.lift]
  | twoFrames f1 f2 =>
    obtain ⟨g, s0, h0, rfl⟩ := hb
    obtain ⟨s, rfl, hr'⟩ := unwrap (wrap := TaskObj.twoFrames f1 f2) (st := TwoFrames.step E.ndebug E.log3) (get := pair?) (fun s c => by cases c <;> rfl) hr
    obtain ⟨s1, e1, hi⟩ := TwoFrames.inv_new (K := K) (g := g) (name := name) (nv := E.robot.nv)
    rw [e1] at h0; cases h0
    obtain ⟨s2, e2, hi⟩ := TwoFrames.inv_run (ndebug := E.ndebug) (log3 := E.log3) hi
      (good_filter hg (get := pair?) (Q := PairSettings.Good) (fun c o h h' => by cases c <;> cases h; exact h'))
    rw [hr'] at e2
    cases e2
    obtain ⟨s', c, hc, hi', rfl, -⟩ := TwoFrames.compute_ok (log3 := E.log3) hi (x.w.frame f1) (x.w.frame f2)
    rw [same_settings hf (after := PairSettings.after) (afterAll := PairSettings.afterAll) (fun _ => rfl)
      (fun _ _ _ => rfl) (fun p c o h1 h2 => by cases c <;> cases h2; cases o <;> first | rfl | cases h1)] at hi'
    refine ⟨.twoFrames f1 f2 s', ?_, fits_rows hi'.rows⟩
    simp only [TaskObj.cycleCall, TaskObj.call, TwoFrames.step, hc, TaskObj.lift]
  | com =>
    obtain ⟨g, s0, h0, rfl⟩ := hb
    obtain ⟨s, rfl, hr'⟩ := unwrap (wrap := TaskObj.com) (st := ComTask.step) (get := com?) (fun s c => by cases c <;> rfl) hr
    obtain ⟨s1, e1, hi⟩ := ComTask.inv_new (K := K) (g := g) (name := name) (nv := E.robot.nv)
    rw [e1] at h0; cases h0
    obtain ⟨s2, e2, hi⟩ := ComTask.inv_run hi
      (good_filter hg (get := com?) (Q := ComSettings.Good) (fun c o h h' => by cases c <;> cases h; exact h'))
    rw [hr'] at e2
    cases e2
    obtain ⟨s', c, hc, hi', rfl, -⟩ := ComTask.compute_ok hi x.w.com
    rw [same_settings hf (after := ComSettings.after) (afterAll := ComSettings.afterAll) (fun _ => rfl)
      (fun _ _ _ => rfl) (fun p c o h1 h2 => by cases c <;> cases h2; cases o <;> first | rfl | cases h1)] at hi'
    refine ⟨.com s', ?_, fits_rows hi'.rows⟩
    simp only [TaskObj.cycleCall, TaskObj.call, ComTask.step, hc, TaskObj.lift]
  | am =>
    obtain ⟨g, rfl⟩ := hb
    obtain ⟨s, rfl, hr'⟩ := unwrap (wrap := TaskObj.am) (st := AmTask.step) (get := am?) (fun s c => by cases c <;> rfl) hr
    obtain ⟨s2, e2, hi⟩ := AmTask.inv_run (AmTask.inv_new (g := g) (name := name))
      (good_filter hg (get := am?) (Q := AmSettings.Good E.robot.nv) (fun c o h h' => by cases c <;> cases h; exact h'))
    rw [hr'] at e2
    cases e2
    obtain ⟨s', c, hc, hi', rfl, -, hsz, -⟩ := AmTask.compute_ok hi x.w.dh hw.v hw.agRows hw.agCols
    refine ⟨.am s', ?_, hi'.kind, ?_, hi'.rows, hi'.cols⟩
    · simp only [TaskObj.cycleCall, TaskObj.call, AmTask.step, hc, TaskObj.lift]
    · simp only [WellFormed, TaskObj.con, hi'.kind, hsz, hi'.rows]
  | capture gravity dt =>
    obtain ⟨dr, rfl⟩ := hb
    obtain ⟨s, rfl, hr'⟩ := unwrap (wrap := TaskObj.capture) (st := CaptureTask.step) (get := capture?) (fun s c => by cases c <;> rfl) hr
    have h0 : CaptureInv E.robot.nv gravity.norm dt CaptureSettings.fresh
        (CaptureTask.new name E.robot.nv gravity dt dr) := ⟨rfl, rfl, rfl, rfl, rfl, rfl, rfl, rfl, rfl⟩
    obtain ⟨s2, e2, hi⟩ := capture_run (hist.filterMap capture?) h0
    rw [hr'] at e2
    cases e2
    obtain ⟨s', c, e1, -, k1, k2, k3, k4, -⟩ := capture_compute hi x.w.com
    have e3 : s.step (.compute x.w.com) = .ok s' (some c) := by simp only [CaptureTask.step, e1]
    refine ⟨.capture s', ?_, ?_⟩
    · simp only [TaskObj.cycleCall, TaskObj.call, e3, TaskObj.lift]
    · simp only [TaskObj.con, capture_con e3]
      exact ⟨k1, by simp only [WellFormed, k1, k2, k3, k4, and_self], by rw [k2]; rfl, by rw [k2]; rfl⟩
  | posture =>
    obtain ⟨s0, h0, rfl⟩ := hb
    obtain ⟨s, rfl, hr'⟩ := unwrap (wrap := TaskObj.posture) (st := Posture.step E.robot) (get := posture?) (fun s c => by cases c <;> rfl) hr
    obtain ⟨s1, e1, hi⟩ := Posture.inv_new (R := E.robot) (name := name) hR.na
    rw [e1] at h0; cases h0
    have hi := Posture.inv_run hR.na hR.nqa hR.diff hi
      (good_filter hg (get := posture?) (Q := PostureSettings.GoodMask E.robot.na) (fun c o h h' => by cases c <;> cases h; exact h'.1))
      (fun q v h => (good_filter hg (get := posture?) (Q := fun o => ∀ q v, o = Posture.Op.compute q v → v.size = E.robot.nv) (fun c o h h' => by cases c <;> cases h; exact h'.2)) _ h q v rfl)
      hr'
    obtain ⟨s', c, hc, hi', rfl, -⟩ := Posture.compute_ok (q := x.w.q) hi hR.na hR.nqa hR.diff hw.v
    rw [same_settings hf (after := fun p o => PostureSettings.after E.robot p o)
      (afterAll := fun p os => PostureSettings.afterAll E.robot p os) (fun _ => rfl)
      (fun _ _ _ => rfl) (fun p c o h1 h2 => by cases c <;> cases h2; cases o <;> first | rfl | cases h1)] at hi'
    refine ⟨.posture s', ?_, fits_mask hi'.m⟩
    simp only [TaskObj.cycleCall, TaskObj.call, Posture.step, hc, TaskObj.lift]
  | jointBounds dt =>
    obtain ⟨s0, h0, rfl⟩ := hb
    obtain ⟨s, rfl, hr'⟩ := unwrap (wrap := TaskObj.jointBounds) (st := JointBounds.step) (get := jointBounds?) (fun s c => by cases c <;> rfl) hr
    have hi := boundsInv_run (boundsInv_new h0) hr'
    obtain ⟨s', c, e2, -⟩ := C28_bounds hR.na h0 hr' x.w.v hw.v
    have hi' := boundsInv_compute hi e2
    refine ⟨.jointBounds s', ?_, hi'.kind, ?_, ?_, ?_⟩
    · simp only [TaskObj.cycleCall, TaskObj.call, JointBounds.step, e2, TaskObj.lift]
    · simp only [WellFormed, TaskObj.con, hi'.kind, hi'.lbSize, hi'.ubSize, hi'.mat, Mat.identity, and_self]
    · simp only [TaskObj.con, hi'.mat]; rfl
    · simp only [TaskObj.con, hi'.mat]; rfl
  | posVelAcc dt =>
    obtain ⟨s0, h0, rfl⟩ := hb
    obtain ⟨s, rfl, hr'⟩ := unwrap (wrap := TaskObj.posVelAcc) (st := PosVelAcc.step) (get := posVelAcc?) (fun s c => by cases c <;> rfl) hr
    have hgm : ∀ o ∈ hist.filterMap posVelAcc?, GoodMask E.robot.na o :=
      (good_filter hg (get := posVelAcc?) (Q := GoodMask E.robot.na) (fun c o h h' => by cases c <;> cases h; exact h'.1))
    have hi := PosVelAcc.limInv_run hR.na (PosVelAcc.limInv_new hR.na h0).1 hgm hr'
    rw [same_settings hf (after := fun p o => LimitSettings.after E.robot.na p o)
        (afterAll := fun p os => LimitSettings.afterAll (K := K) E.robot.na p os) (fun _ => rfl)
        (g := posVelAcc?)
        (fun _ _ _ => rfl) (fun p c o h1 h2 => by cases c <;> cases h2; cases o <;> first | rfl | cases h1)] at hi
    have hl : (sel ((LimitSettings.fresh (K := K) E.robot.na).afterAll E.robot.na (calls.filterMap posVelAcc?)).mask
        (List.range E.robot.na)).length = E.robot.na := by
      rw [length_sel]; exact count_full hs
    have e2 := PosVelAcc.compute_ok (s := s) (q := x.w.q) (v := x.w.v) (by rw [hi.naEq]; exact hq)
      (by rw [hi.naEq, hw.v]; exact hR.na)
    refine ⟨_, by simp only [TaskObj.cycleCall, TaskObj.call, PosVelAcc.step, e2, TaskObj.lift]; rfl, ?_⟩
    refine ⟨hi.kind, ?_, ?_, ?_⟩
    · simp only [WellFormed, TaskObj.con, hi.kind, hi.mat, selMat, hl]
      exact ⟨hi.naEq, hi.naEq⟩
    · simp only [TaskObj.con, hi.mat, selMat, hl]; rfl
    · simp only [TaskObj.con, hi.mat, selMat]; rfl
  | actBounds =>
    obtain ⟨s0, h0, rfl⟩ := hb
    obtain ⟨s, rfl, hr'⟩ := unwrap (wrap := TaskObj.actBounds) (st := ActBounds.step E.robot.na) (get := actBounds?) (fun s c => by cases c <;> rfl) hr
    obtain ⟨s1, e1, hi⟩ := ActBounds.inv_new (K := K) (name := name) (na := E.robot.na)
    rw [e1] at h0; cases h0
    obtain ⟨s2, e2, hi⟩ := ActBounds.inv_run hi
      (good_filter hg (get := actBounds?) (Q := TorqueLimits.GoodMask E.robot.na) (fun c o h h' => by cases c <;> cases h; exact h'))
    rw [hr'] at e2
    cases e2
    rw [same_settings hf (after := fun p o => TorqueLimits.after E.robot.na p o)
      (afterAll := fun p os => TorqueLimits.afterAll E.robot.na p os) (fun _ => rfl)
      (fun _ _ _ => rfl) (fun p c o h1 h2 => by cases c <;> cases h2; cases o <;> first | rfl | cases h1)] at hi
    refine ⟨.actBounds s, rfl, hi.kind, ?_, ?_, ?_⟩
    · simp only [WellFormed, TaskObj.con, hi.kind, hi.mat, selMat, length_sel, hi.lb, hi.ub, hi.lbSize, hi.ubSize, and_self]
    · simp only [TaskObj.con, hi.mat, selMat, length_sel]; rfl
    · simp only [TaskObj.con, hi.mat, selMat]; rfl
  | actEq =>
    obtain ⟨s0, h0, rfl⟩ := hb
    obtain ⟨s, rfl, hr'⟩ := unwrap (wrap := TaskObj.actEq) (st := ActEq.step E.robot.na) (get := actEq?) (fun s c => by cases c <;> rfl) hr
    obtain ⟨s1, e1, hi⟩ := ActEq.inv_new (K := K) (name := name) (na := E.robot.na)
    rw [e1] at h0; cases h0
    obtain ⟨s2, e2, hi⟩ := ActEq.inv_run hi
      (good_filter hg (get := actEq?) (Q := TorqueSettings.GoodMask E.robot.na) (fun c o h h' => by cases c <;> cases h; exact h'))
    rw [hr'] at e2
    cases e2
    rw [same_settings hf (after := fun p o => TorqueSettings.after E.robot.na p o)
      (afterAll := fun p os => TorqueSettings.afterAll E.robot.na p os) (fun _ => rfl)
      (fun _ _ _ => rfl) (fun p c o h1 h2 => by cases c <;> cases h2; cases o <;> first | rfl | cases h1)] at hi
    exact ⟨.actEq s, rfl, fits_mask hi.m⟩
  | force dt contact cname =>
    cases hb
    obtain ⟨s, rfl, hr'⟩ := unwrap (wrap := TaskObj.force) (st := ForceTask.step) (get := force?) (fun s c => by cases c <;> rfl) hr
    have hi := track_run_some (track_new name dt contact cname) hr'
    obtain ⟨hc1, hc2⟩ := force_contact hr'
    have hs1 := same_settings hf (g := force?) (after := fun p o => lastContact [o] p)
      (afterAll := fun p os => lastContact os p) (fun _ => rfl)
      (fun p o os => by cases o <;> rfl) (fun p c o h1 h2 => by cases c <;> cases h2; cases o <;> first | rfl | cases h1)
      contact
    have hs2 := same_settings hf (g := force?) (after := fun p o => lastName [o] p)
      (afterAll := fun p os => lastName os p) (fun _ => rfl)
      (fun p o os => by cases o <;> rfl) (fun p c o h1 h2 => by cases c <;> cases h2; cases o <;> first | rfl | cases h1)
      cname
    have hcn : s.cname = lastName (calls.filterMap force?) cname := by rw [← hs2]; exact hc2
    have hcc : s.contact = lastContact (calls.filterMap force?) contact := by rw [← hs1]; exact hc1
    obtain ⟨n1, n2, n3, n4, n5⟩ := hs
    rw [← hcn] at n1 n3
    rw [← hcc] at n2 n3 n4
    have hmem : s.cname ∈ x.names := by
      obtain ⟨cl, h1, h2⟩ := List.mem_map.1 n2
      refine List.mem_map.2 ⟨cl, h1, ?_⟩
      rw [← n3, h2]
    obtain ⟨s', c, e1, rfl, -, e4, e5, e6, -⟩ := track_compute hi (ready_text hf _ n5) (x.obj s.contact).forceGen
    refine ⟨.force s', ?_, e4, ?_, ?_, ?_⟩
    · simp only [TaskObj.cycleCall, TaskObj.call, ForceTask.step, ForceTask.compute5, n1, hmem, ne_eq, not_false_eq_true,
        if_true, e1, TaskObj.lift]
    · have h1 := (hsh s.contact).genRows
      rw [n4] at h1
      simp only [WellFormed, TaskObj.con, e4, e5, e6, h1, Contact.kindMotion]
    · have h1 := (hsh s.contact).genRows
      rw [n4] at h1
      simp only [TaskObj.con, e5, h1]; rfl
    · simp only [TaskObj.con, e5, (hsh s.contact).genCols, cols, ← hcc]; rfl
  | cop =>
    cases hb
    obtain ⟨s, rfl, hr'⟩ := unwrap (wrap := TaskObj.cop) (st := CopTask.step) (get := cop?) (fun s c => by cases c <;> rfl) hr
    have hk : ∀ c ∈ x.cop, c.contact.kind ≠ .twoFrames := by
      intro c hc
      obtain ⟨cl, h1, rfl⟩ := List.mem_map.1 hc
      exact hs cl.cid (List.mem_map_of_mem h1)
    obtain ⟨s1, c, e3, k1, k2, k3, k4, -⟩ := C40_partial hr' x.w.garbage x.cop hst hk (fun _ => M3.one)
      (fun c _ => by simp [M3.mulVec, M3.transpose, M3.one])
    refine ⟨.cop s1, ?_, ?_⟩
    · simp only [TaskObj.cycleCall, TaskObj.call, e3, TaskObj.lift]
    · simp only [TaskObj.con, cop_con5 e3]
      refine ⟨k1, ?_, k2, ?_⟩
      · simp only [WellFormed, k1, k2, k4]
      · rw [k3]
        simp only [cols, nForces, TaskObj.Ctx.cop, List.map_map]
        rfl

/-! ## Every contact -/

/-- In a cycle, the motion task of a contact can be computed, and its constraint has the size of the contact. -/
theorem contact_fits {E : Program.Env K} {name : String} {d : ContactDecl} {m0 m1 : ContactMotion K} {w : Snapshot K}
    {hist calls : List (ContactCall K)} (hb : d.Built E.robot.nv name m0)
    (hr : runOps (ContactMotion.call E) m0 hist = some m1)
    (hg : ∀ c ∈ calls, GoodContactCall c) (hm : ∀ c ∈ hist, c ∈ calls ∨ isMotionCycle c = true)
    (hw : SnapshotOk E.robot.nv w) :
    ∃ m2, m1.compute E w = some m2 ∧ FitsOn .equality (Contact.kindMotion d.kind) E.robot.nv m2.con := by
  unfold ContactMotion.compute
  cases d with
  | point fr =>
    obtain ⟨g, g', s0, h0, rfl⟩ := hb
    obtain ⟨s, rfl, hr'⟩ := unwrapMotion (wrap := ContactMotion.point fr) (st := PointMotion.step E.log3)
      (get := pointAll fr) (fun s c => by
        cases c with
        | point o =>
          simp only [ContactMotion.call, pointAll]
          cases PointMotion.step E.log3 s o <;> rfl
        | computeMotion w =>
          simp only [ContactMotion.call, pointAll, PointMotion.step, SE3Task.step]
          cases SE3Task.compute E.log3 s (w.frame fr) <;> rfl
        | _ => rfl) hr
    obtain ⟨s1, s', c, e1, e2, k1, e3, e6, e7, -⟩ := C27_point (log3 := E.log3) (os := hist.filterMap (pointAll fr)) h0
      (w.frame fr) (hw.rot fr)
    rw [hr'] at e1
    cases e1
    refine ⟨.point fr s', ?_, ?_⟩
    · simp only [ContactMotion.call, e2, ContactMotion.lift]
    · simp only [ContactMotion.con, se3_con e2]
      simp only [Constraint.cols, e3] at e7
      exact ⟨e3, k1, e6, e7⟩
  | sixD fr =>
    obtain ⟨g, s0, h0, rfl⟩ := hb
    obtain ⟨s, rfl, hr'⟩ := unwrapMotion (wrap := ContactMotion.sixD fr) (st := SE3Task.step E.log3)
      (get := sixDAll fr) (fun s c => by
        cases c with
        | setKp k =>
          simp only [ContactMotion.call, sixDAll, SE3Task.step]
          cases s.setKp k <;> rfl
        | setKd k =>
          simp only [ContactMotion.call, sixDAll, SE3Task.step]
          cases s.setKd k <;> rfl
        | setReference M =>
          simp only [ContactMotion.call, sixDAll, SE3Task.step]
          cases s.setReferencePose M <;> rfl
        | computeMotion w =>
          simp only [ContactMotion.call, sixDAll, SE3Task.step]
          cases SE3Task.compute E.log3 s (w.frame fr) <;> rfl
        | _ => rfl) hr
    have hgood : ∀ o ∈ hist.filterMap (sixDAll fr), FrameSettings.Good o := by
      intro o ho
      obtain ⟨c, -, hc⟩ := List.mem_filterMap.1 ho
      cases c <;> cases hc <;> trivial
    obtain ⟨s1, e1, hi⟩ := SE3Task.inv_new (K := K) (g := g) (name := name) (nv := E.robot.nv)
    rw [e1] at h0; cases h0
    obtain ⟨s2, e2, hi⟩ := SE3Task.inv_run (log3 := E.log3) hi hgood
    rw [hr'] at e2
    cases e2
    obtain ⟨s', c, hc, hi', rfl, -⟩ := SE3Task.compute_ok (log3 := E.log3) hi (w.frame fr)
    have hmask : ∀ (l : List (ContactCall K)) (p : FrameSettings K),
        (p.afterAll (l.filterMap (sixDAll fr))).mask = p.mask := by
      intro l
      induction l with
      | nil => intro p; rfl
      | cons a l ih =>
        intro p
        cases a with
        | setKp k => exact (ih _).trans (by simp only [FrameSettings.after]; split <;> rfl)
        | setKd k => exact (ih _).trans (by simp only [FrameSettings.after]; split <;> rfl)
        | setReference M => exact (ih _).trans rfl
        | computeMotion w => exact (ih _).trans rfl
        | _ => exact ih p
    have hrows := hi'.rows
    rw [hmask] at hrows
    have hcnt : countSelected (FrameSettings.fresh (K := K)).mask 6 = 6 := count_full fun i _ => rfl
    refine ⟨.sixD fr s', ?_, ?_⟩
    · simp only [ContactMotion.call, hc, ContactMotion.lift]
    · have := fits_rows hrows
      rw [hcnt] at this
      exact this
  | pair f1 f2 =>
    obtain ⟨g, g', s0, h0, rfl⟩ := hb
    obtain ⟨s, rfl, hr'⟩ := unwrapMotion (wrap := ContactMotion.pair f1 f2) (st := PairMotion.step E.ndebug E.log3)
      (get := pairAll f1 f2) (fun s c => by
        cases c with
        | pair o =>
          simp only [ContactMotion.call, pairAll]
          cases PairMotion.step E.ndebug E.log3 s o <;> rfl
        | computeMotion w =>
          simp only [ContactMotion.call, pairAll, PairMotion.step, TwoFrames.step]
          cases TwoFrames.compute E.log3 s (w.frame f1) (w.frame f2) <;> rfl
        | _ => rfl) hr
    have hgood : ∀ o ∈ hist.filterMap (pairAll f1 f2), PairGains.Good o := by
      intro o ho
      obtain ⟨c, hc, hcc⟩ := List.mem_filterMap.1 ho
      rcases hm c hc with h | h
      · cases c <;> cases hcc
        · exact hg _ h
        · trivial
      · cases c <;> cases h
        cases hcc
        trivial
    obtain ⟨s1, s', c, e1, e2, k1, e6, e7, -⟩ := C27_two_frames (ndebug := E.ndebug) (log3 := E.log3) h0 hgood
      (w.frame f1) (w.frame f2) (hw.rot f1)
    rw [hr'] at e1
    cases e1
    have e3 : c.kind = .equality := (pair_compute_kind e2).trans (pair_kind hr' (pair_new_kind h0))
    refine ⟨.pair f1 f2 s', ?_, ?_⟩
    · simp only [ContactMotion.call, e2, ContactMotion.lift]
    · simp only [ContactMotion.con, pair_con e2]
      simp only [Constraint.cols, e3] at e7
      exact ⟨e3, k1, e6, e7⟩

/-! ## The cycle -/

/-- The conditions of a task only concern names and classes of contacts. -/
theorem supported_congr {R : PostureRobot K} {obj obj' : Nat → Contact K} {cids : List Nat} {calls : List (TaskCall K)}
    (h1 : ∀ c, (obj' c).name = (obj c).name) (h2 : ∀ c, (obj' c).kind = (obj c).kind) {d : TaskDecl K}
    (h : d.Supported R obj cids calls) : d.Supported R obj' cids calls := by
  cases d <;> first | exact h | skip
  · simp only [TaskDecl.Supported, h1, h2] at h ⊢; exact h
  · simp only [TaskDecl.Supported, h2] at h ⊢; exact h

/-- The variables of a task depend on its family. -/
theorem cols_family {R : PostureRobot K} {name : String} {d : TaskDecl K} {o : TaskObj K} (x : TaskObj.Ctx K)
    (calls : List (TaskCall K)) (h : d.Built R name o) :
    (o.isMotion = true → cols R x calls d = R.nv) ∧ (o.isActuation = true → cols R x calls d = R.na) ∧
    (o.isForce = true → d = .cop ∧ o = .cop (CopTask.new name) ∨
      ∃ dt c n, d = .force dt c n ∧ o = .force (ForceTask.new name dt c n)) := by
  cases d with
  | am => obtain ⟨g, rfl⟩ := h; exact ⟨fun _ => rfl, fun h => (by cases h), fun h => (by cases h)⟩
  | capture => obtain ⟨g, rfl⟩ := h; exact ⟨fun _ => rfl, fun h => (by cases h), fun h => (by cases h)⟩
  | force dt c n => cases h; exact ⟨fun h => (by cases h), fun h => (by cases h), fun _ => .inr ⟨dt, c, n, rfl, rfl⟩⟩
  | cop => cases h; exact ⟨fun h => (by cases h), fun h => (by cases h), fun _ => .inl ⟨rfl, rfl⟩⟩
  | posture => obtain ⟨s, -, rfl⟩ := h; exact ⟨fun _ => rfl, fun h => (by cases h), fun h => (by cases h)⟩
  | jointBounds => obtain ⟨s, -, rfl⟩ := h; exact ⟨fun _ => rfl, fun h => (by cases h), fun h => (by cases h)⟩
  | posVelAcc => obtain ⟨s, -, rfl⟩ := h; exact ⟨fun _ => rfl, fun h => (by cases h), fun h => (by cases h)⟩
  | actBounds => obtain ⟨s, -, rfl⟩ := h; exact ⟨fun h => (by cases h), fun _ => rfl, fun h => (by cases h)⟩
  | actEq => obtain ⟨s, -, rfl⟩ := h; exact ⟨fun h => (by cases h), fun _ => rfl, fun h => (by cases h)⟩
  | _ => obtain ⟨g, s, -, rfl⟩ := h; exact ⟨fun _ => rfl, fun h => (by cases h), fun h => (by cases h)⟩

/-- The name of the contact of a force task is the one of the text. -/
theorem force_assoc {E : Program.Env K} {s s' : Program.State K} {ops : List (Program.Op K)} {tid : Nat} {name : String}
    {dt : K} {c : Nat} {n : String} (h : Program.run E s ops = some s') (h0 : s.task tid = .force (ForceTask.new name dt c n)) :
    (s'.task tid).assoc = lastName ((taskCalls tid ops).filterMap force?) n := by
  have hr := Program.run_task h tid
  rw [h0] at hr
  obtain ⟨s2, e2, e3⟩ := Program.unwrap (wrap := TaskObj.force) (st := ForceTask.step) (get := force?)
    (fun s c => by cases c <;> rfl) hr
  rw [e2]
  show s2.cname = _
  rw [(force_contact e3).2]
  exact same_settings (fun σ F hF p => Program.fold_history hF h p) (g := force?)
    (after := fun p o => lastName [o] p)
    (afterAll := fun p os => lastName os p) (fun _ => rfl)
    (fun p o os => by cases o <;> rfl)
    (fun p c o h1 h2 => by cases c <;> cases h2; cases o <;> first | rfl | cases h1) n

theorem cop_assoc {E : Program.Env K} {s s' : Program.State K} {ops : List (Program.Op K)} {tid : Nat} {name : String}
    (h : Program.run E s ops = some s') (h0 : s.task tid = .cop (CopTask.new name)) : (s'.task tid).assoc = "" := by
  have hr := Program.run_task h tid
  rw [h0] at hr
  obtain ⟨s2, e2, -⟩ := Program.unwrap (wrap := TaskObj.cop) (st := CopTask.step) (get := cop?)
    (fun s c => by cases c <;> rfl) hr
  rw [e2]
  rfl

/-- After the transitions of a cycle every registered object can be computed, and what it hands over has the announced
kind and size. -/
theorem program_fits {E : Program.Env K} {W : World} {S : Setup K} {ops : List (Program.Op K)} {s0 : Program.State K}
    (h : GoodProgram E W S ops s0) {w : Snapshot K} {t : K} (hw : SnapshotOk E.robot.nv w)
    (hm : MayCycle E W S ops w t) {f : Tsid.State K} {u : Unit}
    (hr : runTransitions E.ndebug [] s0.form.trans { s0.form with t := t } = .ok f u) :
    ∃ ta mo me, Program.computeObjects E w f s0 = some ⟨f, ta, mo, me⟩ ∧ (∀ m ∈ f.measured, (me m).tau.size = f.nv) ∧
      ∀ it ∈ (S.registry E W ops t).items, it.Fits W f.contactObj f.assoc f.nv (f.nv - f.nu)
        ((S.registry E W ops t).items.filterMap Item.cid?) (Program.cycle w ⟨f, ta, mo, me⟩) := by
  obtain ⟨ht, hno⟩ := program_tidy h
  obtain ⟨hi, hn, L, hL, -⟩ := tidy_impl ht
  have hrob : s0.form.robot = S.robot := run_robot _ _ _ ht.run
  obtain ⟨hi1, n1, e1, e2, e3, L', hc, hL'⟩ := transitions_impl ht.hygienic hi hL hr
  have hcn : cnames s0.form = fun c => (S.obj c).name := hn.names
  have hnames : ∀ c, (f.contactObj c).name = (S.obj c).name := fun c => congrFun (n1.names.trans hn.names) c
  have hkinds : ∀ c, (f.contactObj c).kind = (S.obj c).kind := fun c => congrFun (n1.kinds.trans hn.kinds) c
  have hnv : f.nv = S.robot.nv := by rw [← hi1.pre.rnv, e3, hrob]
  have hna : f.nv - f.nu = S.robot.na := by rw [← hi1.pre.rna, e3, hrob]
  have hitems : L'.map Prod.fst = (S.registry E W ops t).items := by rw [hL', hcn]; rfl
  have hR : RobotOk E.robot := ⟨by rw [h.nv, h.na]; exact h.motors, h.nqa, h.difference⟩
  have hnodup : (computed f).Nodup := computed_nodup hc
  have hcids : (S.registry E W ops t).items.filterMap Item.cid? = f.contacts.map ContactLevel.cid := by
    rw [← hitems]; exact contact_cids hc
  have hcnd : (f.contacts.map ContactLevel.cid).Nodup := contact_cids_nodup hc
  -- the tasks
  have task : ∀ tid ∈ computed f, ∃ o2, (s0.task tid).compute E (ctx E w f) = some o2 ∧
      FitsOn (S.decl tid).kind ((S.decl tid).rows E.robot (taskCalls tid ops))
        (cols E.robot (ctx E w f) (taskCalls tid ops) (S.decl tid)) o2.con := by
    intro tid hmem
    refine task_fits hR (h.built tid) (Program.run_task h.run tid) (history_good h tid)
      (fun σ F hF p => Program.fold_history hF h.run p) (x := ctx E w f) hw hm.q ?_ (fun cid => hi1.pre.shaped cid) ?_
    · exact stacked_of_tiled _ _ _ _ _ hi1.tiled
    · refine supported_congr hnames hkinds ?_
      unfold computed at hmem
      rw [hc.motions, hc.forces, hc.acts, (computed_perm L').mem_iff] at hmem
      obtain ⟨⟨it, a, b, c⟩, q1, q2⟩ := List.mem_filterMap.1 hmem
      cases it with
      | contact => cases q2
      | task fam i p k =>
        simp only [tidOf, Option.some.injEq] at q2
        subst q2
        have : Item.task fam i p k ∈ (S.registry E W ops t).items := by
          rw [← hitems]; exact List.mem_map.2 ⟨_, q1, rfl⟩
        have := hm.supported fam i p k this
        rw [hcids] at this
        exact this
  -- the contacts
  have contact : ∀ cid ∈ f.contacts.map ContactLevel.cid, ∃ m2, (s0.motion cid).compute E w = some m2 ∧
      FitsOn .equality (Contact.kindMotion (S.cdecl cid).kind) E.robot.nv m2.con := by
    intro cid _
    obtain ⟨l, r1, r2, -⟩ := Program.run_motion h.run cid
    have hb := h.builtContact cid
    rw [← h.nv] at hb
    exact contact_fits hb r1 (h.contactArgs cid) r2 hw
  obtain ⟨mo, hmo⟩ := each_some (f := ContactMotion.compute E w) (o := s0.motion) hcnd
    (fun cid hc => let ⟨m2, h1, _⟩ := contact cid hc; ⟨m2, h1⟩)
  obtain ⟨me, hme⟩ := each_total (MeasuredObj.compute w) f.measured s0.measured
  obtain ⟨ta, hta⟩ := each_some (f := TaskObj.compute E (ctx E w f)) (o := s0.task) hnodup
    (fun tid hc => let ⟨m2, h1, _⟩ := task tid hc; ⟨m2, h1⟩)
  have hobj : Program.computeObjects E w f s0 = some ⟨f, ta, mo, me⟩ := by
    unfold Program.computeObjects
    rw [hmo]
    simp only
    rw [hme]
    simp only
    have : Program.each (TaskObj.compute E ⟨w, f.contacts, f.contactObj, fun cid => (w.frame (E.contactFrame cid)).pose⟩)
        ((f.motions ++ (f.forces ++ f.acts)).map TaskLevel.tid) s0.task = some ta := hta
    rw [this]
  refine ⟨ta, mo, me, hobj, ?_, ?_⟩
  · intro m hmem
    have e := Program.iter_measured _ _ _ (each_iter hme m)
    obtain ⟨n, hn⟩ : ∃ n, f.measured.count m = n + 1 :=
      ⟨f.measured.count m - 1, by have := List.count_pos_iff.2 hmem; omega⟩
    rw [hn] at e
    have := measured_contributes (E := E) (w := w) (s := S.start) (h.builtMeasured m) h.run n
    show (me m).tau.size = f.nv
    rw [e, hnv]
    cases hd : S.mdecl m with
    | wrench fr supp => rw [hd] at this; exact this.1
    | force fr supp => rw [hd] at this; exact this.1
  · rw [hcids]
    intro it hit'
    have hit : it ∈ L'.map Prod.fst := by rw [hitems]; exact hit'
    cases it with
    | contact cid p wm wf =>
      have hmem : cid ∈ f.contacts.map ContactLevel.cid := by
        rw [← hcids]; exact List.mem_filterMap.2 ⟨_, hit', rfl⟩
      obtain ⟨m2, h1, h2⟩ := contact cid hmem
      have h3 := each_once hmo hcnd hmem
      rw [h1] at h3
      cases h3
      rw [hm.classes, ← hkinds, h.nv, ← hnv] at h2
      exact h2
    | task fam tid p k =>
      have hmem := mem_computed hc hit
      obtain ⟨o2, h1, h2⟩ := task tid hmem
      have h3 := each_once hta hnodup hmem
      rw [h1] at h3
      cases h3
      obtain ⟨k1, k2⟩ := hm.announced fam tid p k hit'
      rw [← k1, ← k2] at h2
      have hcl := Program.registered_class h.run hit'
      have hb := h.built tid
      have hsup := hm.supported fam tid p k hit'
      have linked := Program.run_linked h.run (fun tid => rfl) tid
      rw [hcids] at hsup
      obtain ⟨g1, g2, g3⟩ := cols_family (ctx E w f) (taskCalls tid ops) hb
      cases fam with
      | motion =>
        rw [g1 hcl, h.nv, ← hnv] at h2
        exact h2
      | actuation =>
        rw [g2 hcl, h.na, ← hna] at h2
        exact h2
      | force =>
        rcases g3 hcl with ⟨hd, ho⟩ | ⟨dt, c, n, hd, ho⟩
        · left
          rw [hd] at h2
          refine ⟨?_, h2⟩
          rw [e2, linked]
          exact cop_assoc h.run ho
        · right
          rw [hd] at h2 hsup
          obtain ⟨x1, x2, x3, -⟩ := hsup
          have ha : f.assoc tid = lastName ((taskCalls tid ops).filterMap force?) n := by
            rw [e2, linked]; exact force_assoc h.run ho
          exact ⟨by rw [ha]; exact x1, _, x2, by rw [ha, hnames]; exact x3, h2⟩

/-- **C88 (partial).** After any orderly program, `computeProblemData` has no undefined behaviour: every registered object
can be computed, and every block that the formulation writes lies inside its matrix, provided that masks were not changed
to another number of rows while their task was registered, and that force tasks keep a registered surface contact.
Missing: as in C87, and the conditions of `MayCycle`, without which the cycle does fail (`C87_mask_after_add`,
`C70_orphaned_force_task`). -/
theorem C88_partial {E : Program.Env K} {W : World} {S : Setup K} {ops : List (Program.Op K)} {s0 : Program.State K}
    (h : GoodProgram E W S ops s0) {w : Snapshot K} {t : K} (hw : SnapshotOk E.robot.nv w)
    (hm : MayCycle E W S ops w t) : (Program.compute E w t s0).isUB = false := by
  obtain ⟨ht, hno⟩ := program_tidy h
  obtain ⟨hi, hn, L, hL, -⟩ := tidy_impl ht
  have hrob : s0.form.robot = S.robot := run_robot _ _ _ ht.run
  have hnu := runTransitions_not_ub (nd := E.ndebug) s0.form.trans [] { s0.form with t := t }
  unfold Program.compute
  cases hr : runTransitions E.ndebug [] s0.form.trans { s0.form with t := t } with
  | throw => rfl
  | abort => rfl
  | ub => rw [hr] at hnu; exact hnu
  | ok f u =>
    obtain ⟨hi1, n1, e1, e2, e3, L', hc, hL'⟩ := transitions_impl ht.hygienic hi hL hr
    have hcn : cnames s0.form = fun c => (S.obj c).name := hn.names
    have hnv : f.nv = S.robot.nv := by rw [← hi1.pre.rnv, e3, hrob]
    have hitems : L'.map Prod.fst = (S.registry E W ops t).items := by rw [hL', hcn]; rfl
    obtain ⟨ta, mo, me, hobj, hme, hfit⟩ := program_fits h hw hm hr
    have key : (assemble (Program.cycle w ⟨f, ta, mo, me⟩) f).isSome := by
      refine assemble_fits hi1 hc ?_ hme ?_
      · rw [hnv, ← h.nv]; exact ⟨hw.mRows, hw.mCols, hw.nle⟩
      · rw [hitems]; exact hfit
    obtain ⟨f', hf'⟩ := Option.isSome_iff_exists.1 key
    simp only [hobj, hf']
    rfl

namespace ArmDemo

/-- The arm meets the conditions of a cycle. -/
theorem mayCycle : MayCycle env world setup ops snap 0 where
  q := le_refl 3
  classes := fun _ => rfl
  announced := by
    intro fam tid p k h
    rw [items] at h
    simp only [List.mem_cons, List.not_mem_nil, or_false, reduceCtorEq, false_or, Item.task.injEq] at h
    rcases h with ⟨-, rfl, -⟩ | ⟨-, rfl, -⟩ <;> exact ⟨rfl, rfl⟩
  supported := by
    intro fam tid p k h
    rw [items] at h
    simp only [List.mem_cons, List.not_mem_nil, or_false, reduceCtorEq, false_or, Item.task.injEq] at h
    rcases h with ⟨-, rfl, -⟩ | ⟨-, rfl, -⟩ <;> exact trivial

/-- So does the state of the robot. -/
theorem snapOk : SnapshotOk env.robot.nv snap := ⟨rfl, rfl, rfl, rfl, rfl, rfl, fun _ => by
    refine ⟨?_, ?_⟩ <;> simp [snap, tip, SE3.one, M3.mul, M3.one, M3.transpose, M3.mulVec]⟩

end ArmDemo

example : (Program.compute ArmDemo.env ArmDemo.snap 0 ⟨ArmDemo.f4, ArmDemo.tasks2, ArmDemo.motions1, ArmDemo.pushes1⟩).isUB
    = false :=
  C88_partial ArmDemo.good ArmDemo.snapOk ArmDemo.mayCycle

end Tsid.Props
