import Verif.Spec.ProgramCost
import Verif.Props.ProgramProgress
import Verif.Props.Contact
import Verif.Lemmas.ProgramReg

/-!
# C89: the cost of a solution
-/

set_option linter.unusedSectionVars false

namespace Tsid.Props

open Spec Finset Formulation

variable {K : Type} [Field K] [LinearOrder K] [FloorRing K] [HasSqrt K]

/-! ## Squared residuals -/

theorem sum_selected {m : Vec K} {r e : Nat → K} (h : ∀ i, Selects m i → r (countSelected m i) = e i) :
    ∀ n, n ≤ m.size → ∑ k ∈ range (countSelected m n), r k * r k = ∑ i ∈ range n, if m i = 1 then e i ^ 2 else 0
  | 0, _ => by simp [countSelected]
  | n + 1, hn => by
    rw [sum_range_succ, ← sum_selected h n (by omega)]
    simp only [countSelected]
    by_cases h1 : m n = 1
    · rw [if_pos h1, if_pos h1, sum_range_succ, h n ⟨by omega, h1⟩, sq]
    · rw [if_neg h1, if_neg h1, Nat.add_zero, add_zero]

/-- The squared residual of a task with a mask. -/
theorem sq_selected {c : Constraint K} {m : Vec K} {n : Nat} {y e : Nat → K} (hn : m.size = n)
    (hr : c.mat.rows = countSelected m n)
    (h : ∀ i, Selects m i → Spec.residual c y (countSelected m i) = e i) : sqResidual c y = selected m e := by
  unfold sqResidual selected
  rw [hr, hn]
  exact sum_selected h n (by omega)

/-- The squared residual of a task without a mask. -/
theorem sq_rows {c : Constraint K} {n : Nat} {y e : Nat → K} (hr : c.mat.rows = n)
    (h : ∀ i, i < n → Spec.residual c y i = e i) : sqResidual c y = ∑ i ∈ range n, e i ^ 2 := by
  unfold sqResidual
  rw [hr]
  refine sum_congr rfl fun i hi => ?_
  rw [h i (mem_range.1 hi), sq]

/-- Residuals of an equality with the matrix of a mask. -/
theorem residual_sel {na cols off : Nat} {w : Nat → K} {m : Vec K} {c : Constraint K} (hcol : off + na ≤ cols)
    (hm : c.mat = selMat (sel m (List.range na)).length cols off w (sel m (List.range na))) (x : Nat → K) {i : Nat}
    (hlt : i < na) (h1 : m i = 1) :
    Spec.residual c x (countSelected m i) = w i * x (off + i) - c.vec (countSelected m i) := by
  unfold Spec.residual
  rw [hm, row_selMat (na := na) (fun i hi => (mem_sel.1 hi).1) hcol x (getElem?_sel hlt h1)]

/-- Entries that say the same have the same squared residual. -/
theorem sq_same {d c : Constraint K} {x y : Nat → K} (h : SaysSame d x c y) (hk : c.kind = .equality) :
    sqResidual d x = sqResidual c y := by
  obtain ⟨-, h2, h3⟩ := h.2 hk
  unfold sqResidual
  rw [h2] at h3 ⊢
  refine sum_congr rfl fun i hi => ?_
  rw [h3 i (mem_range.1 hi)]

variable [IsStrictOrderedRing K] [LawfulSqrt K]

/-- The error of a task in a cycle is the squared residual of its constraint. -/
theorem task_error {E : Program.Env K} (hR : RobotOk E.robot) {name : String} {d : TaskDecl K} {o0 o1 o2 : TaskObj K}
    {x : TaskObj.Ctx K} {hist calls : List (TaskCall K)} (hb : d.Built E.robot name o0)
    (hr : runOps (TaskObj.call E) o0 hist = some o1) (hg : ∀ c ∈ hist, GoodCall E.robot c)
    (hf : SameText calls hist) (hw : SnapshotOk E.robot.nv x.w) (hst : Stacked 0 x.cop)
    (hnm : ∀ dt contact cname, d = .force dt contact cname →
      lastName (calls.filterMap force?) cname ≠ "" ∧ lastName (calls.filterMap force?) cname ∈ x.names)
    (hc : o1.compute E x = some o2) (hd : d.kind = .equality) :
    o2.con.kind = .equality ∧ ∀ y, sqResidual o2.con y = d.Error E x calls hist y := by
  unfold TaskObj.compute at hc
  cases d with
  | se3 fr =>
    obtain ⟨g, s0, h0, rfl⟩ := hb
    obtain ⟨s, rfl, hr'⟩ := Program.unwrap (wrap := TaskObj.se3 fr) (st := SE3Task.step E.log3) (get := se3?) (fun s c => by cases c <;> rfl) hr
    have hgood := good_filter hg (get := se3?) (Q := FrameSettings.Good) (fun c o h h' => by cases c <;> cases h; exact h')
    obtain ⟨s1, s', c, e1, e2, e3, e4, -, e5⟩ := C37_se3_rows (log3 := E.log3) h0 hgood (x.w.frame fr) (hw.rot fr)
    rw [hr'] at e1
    cases e1
    have hsz : ((FrameSettings.fresh (K := K)).afterAll (hist.filterMap se3?)).mask.size = 6 := by
      obtain ⟨s2, e6, hi⟩ := SE3Task.inv_new (K := K) (g := g) (name := name) (nv := E.robot.nv)
      rw [e6] at h0; cases h0
      obtain ⟨s3, -, hi⟩ := SE3Task.inv_run (log3 := E.log3) hi hgood
      exact hi.rows.adm.1
    simp only [TaskObj.cycleCall, TaskObj.call, SE3Task.step, e2, TaskObj.lift, Option.some.injEq] at hc
    subst hc
    simp only [TaskObj.con, se3_con e2]
    rw [same_settings hf (after := FrameSettings.after) (afterAll := FrameSettings.afterAll) (fun _ => rfl)
      (fun _ _ _ => rfl) (fun p c o h1 h2 => by cases c <;> cases h2; cases o <;> first | rfl | cases h1)] at e4 e5 hsz
    exact ⟨e3, fun y => sq_selected hsz e4 (e5 y)⟩
  | twoFrames f1 f2 =>
    obtain ⟨g, s0, h0, rfl⟩ := hb
    obtain ⟨s, rfl, hr'⟩ := Program.unwrap (wrap := TaskObj.twoFrames f1 f2) (st := TwoFrames.step E.ndebug E.log3) (get := pair?) (fun s c => by cases c <;> rfl) hr
    have hgood := good_filter hg (get := pair?) (Q := PairSettings.Good) (fun c o h h' => by cases c <;> cases h; exact h')
    obtain ⟨s1, s', c, e1, e2, e3, e4, -, e5⟩ := C37_two_frames_rows (ndebug := E.ndebug) (log3 := E.log3) h0 hgood
      (x.w.frame f1) (x.w.frame f2) (hw.rot f1)
    rw [hr'] at e1
    cases e1
    have hsz : ((PairSettings.fresh (K := K)).afterAll (hist.filterMap pair?)).mask.size = 6 := by
      obtain ⟨s2, e6, hi⟩ := TwoFrames.inv_new (K := K) (g := g) (name := name) (nv := E.robot.nv)
      rw [e6] at h0; cases h0
      obtain ⟨s3, -, hi⟩ := TwoFrames.inv_run (ndebug := E.ndebug) (log3 := E.log3) hi hgood
      exact hi.rows.adm.1
    simp only [TaskObj.cycleCall, TaskObj.call, TwoFrames.step, e2, TaskObj.lift, Option.some.injEq] at hc
    subst hc
    simp only [TaskObj.con, pair_con e2]
    rw [same_settings hf (after := PairSettings.after) (afterAll := PairSettings.afterAll) (fun _ => rfl)
      (fun _ _ _ => rfl) (fun p c o h1 h2 => by cases c <;> cases h2; cases o <;> first | rfl | cases h1)] at e4 e5 hsz
    exact ⟨e3, fun y => sq_selected hsz e4 (e5 y)⟩
  | com =>
    obtain ⟨g, s0, h0, rfl⟩ := hb
    obtain ⟨s, rfl, hr'⟩ := Program.unwrap (wrap := TaskObj.com) (st := ComTask.step) (get := com?) (fun s c => by cases c <;> rfl) hr
    have hgood := good_filter hg (get := com?) (Q := ComSettings.Good) (fun c o h h' => by cases c <;> cases h; exact h')
    obtain ⟨s1, s', c, e1, e2, e3, e4, -, e5⟩ := C37_com_rows h0 hgood x.w.com
    rw [hr'] at e1
    cases e1
    have hsz : ((ComSettings.fresh (K := K)).afterAll (hist.filterMap com?)).mask.size = 3 := by
      obtain ⟨s2, e6, hi⟩ := ComTask.inv_new (K := K) (g := g) (name := name) (nv := E.robot.nv)
      rw [e6] at h0; cases h0
      obtain ⟨s3, -, hi⟩ := ComTask.inv_run hi hgood
      exact hi.rows.adm.1
    simp only [TaskObj.cycleCall, TaskObj.call, ComTask.step, e2, TaskObj.lift, Option.some.injEq] at hc
    subst hc
    simp only [TaskObj.con, com_con e2]
    rw [same_settings hf (after := ComSettings.after) (afterAll := ComSettings.afterAll) (fun _ => rfl)
      (fun _ _ _ => rfl) (fun p c o h1 h2 => by cases c <;> cases h2; cases o <;> first | rfl | cases h1)] at e4 e5 hsz
    exact ⟨e3, fun y => sq_selected hsz e4 (e5 y)⟩
  | am =>
    obtain ⟨g, rfl⟩ := hb
    obtain ⟨s, rfl, hr'⟩ := Program.unwrap (wrap := TaskObj.am) (st := AmTask.step) (get := am?) (fun s c => by cases c <;> rfl) hr
    obtain ⟨s1, s', c, e1, e2, e3, e4, -, e5⟩ := C37_am_rows (g := g) (name := name)
      (good_filter hg (get := am?) (Q := AmSettings.Good E.robot.nv) (fun c o h h' => by cases c <;> cases h; exact h')) x.w.dh hw.v hw.agRows hw.agCols
    rw [hr'] at e1
    cases e1
    simp only [TaskObj.cycleCall, TaskObj.call, AmTask.step, e2, TaskObj.lift, Option.some.injEq] at hc
    subst hc
    simp only [TaskObj.con, am_con e2]
    rw [same_settings hf (after := AmSettings.after) (afterAll := AmSettings.afterAll) (fun _ => rfl)
      (fun _ _ _ => rfl) (fun p c o h1 h2 => by cases c <;> cases h2; cases o <;> first | rfl | cases h1)] at e5
    exact ⟨e3, fun y => sq_rows e4 (e5 y)⟩
  | capture gravity dt => cases hd
  | posture =>
    obtain ⟨s0, h0, rfl⟩ := hb
    obtain ⟨s, rfl, hr'⟩ := Program.unwrap (wrap := TaskObj.posture) (st := Posture.step E.robot) (get := posture?) (fun s c => by cases c <;> rfl) hr
    have hgm := good_filter hg (get := posture?) (Q := PostureSettings.GoodMask E.robot.na) (fun c o h h' => by cases c <;> cases h; exact h'.1)
    have hgv : ∀ q v, Posture.Op.compute q v ∈ hist.filterMap posture? → v.size = E.robot.nv :=
      fun q v h => (good_filter hg (get := posture?) (Q := fun o => ∀ q v, o = Posture.Op.compute q v → v.size = E.robot.nv) (fun c o h h' => by cases c <;> cases h; exact h'.2)) _ h q v rfl
    obtain ⟨s2, e6, hi⟩ := Posture.inv_new (R := E.robot) (name := name) hR.na
    rw [e6] at h0; cases h0
    have hi := Posture.inv_run hR.na hR.nqa hR.diff hi hgm hgv hr'
    obtain ⟨s', c, e2, hi', e3, -, -, e5⟩ := Posture.compute_ok (q := x.w.q) hi hR.na hR.nqa hR.diff hw.v
    simp only [TaskObj.cycleCall, TaskObj.call, Posture.step, e2, TaskObj.lift, Option.some.injEq] at hc
    subst hc
    simp only [TaskObj.con, posture_con e2]
    have hm := hi'.m
    rw [same_settings hf (after := fun p o => PostureSettings.after E.robot p o)
      (afterAll := fun p os => PostureSettings.afterAll E.robot p os) (fun _ => rfl)
      (fun _ _ _ => rfl) (fun p c o h1 h2 => by cases c <;> cases h2; cases o <;> first | rfl | cases h1)] at hm e5
    have hna := hR.na
    refine ⟨e3 ▸ hm.kind, fun y => sq_selected hm.adm.1 (by rw [← e3, hm.mat]; exact length_sel _ _) fun i hs => ?_⟩
    have hlt : i < E.robot.na := by rw [← hm.adm.1]; exact hs.1
    rw [residual_sel (by omega) (e3 ▸ hm.mat) y hlt hs.2, e5 i hlt hs.2, one_mul]
  | jointBounds dt => cases hd
  | posVelAcc dt => cases hd
  | actBounds => cases hd
  | actEq =>
    obtain ⟨s0, h0, rfl⟩ := hb
    obtain ⟨s, rfl, hr'⟩ := Program.unwrap (wrap := TaskObj.actEq) (st := ActEq.step E.robot.na) (get := actEq?) (fun s c => by cases c <;> rfl) hr
    have hgm := good_filter hg (get := actEq?) (Q := TorqueSettings.GoodMask E.robot.na) (fun c o h h' => by cases c <;> cases h; exact h')
    obtain ⟨s1, e1, hi⟩ := ActEq.inv_new (K := K) (name := name) (na := E.robot.na)
    rw [e1] at h0; cases h0
    obtain ⟨s2, e6, hi⟩ := ActEq.inv_run hi hgm
    rw [hr'] at e6
    cases e6
    simp only [TaskObj.cycleCall, Option.some.injEq] at hc
    subst hc
    rw [same_settings hf (after := fun p o => TorqueSettings.after E.robot.na p o)
      (afterAll := fun p os => TorqueSettings.afterAll E.robot.na p os) (fun _ => rfl)
      (fun _ _ _ => rfl) (fun p c o h1 h2 => by cases c <;> cases h2; cases o <;> first | rfl | cases h1)] at hi
    refine ⟨hi.m.kind, fun y => ?_⟩
    show sqResidual s.m.con y = _
    refine sq_selected hi.m.adm.1 (by rw [hi.m.mat]; exact length_sel _ _) fun i hs => ?_
    have hlt : i < E.robot.na := by rw [← hi.m.adm.1]; exact hs.1
    rw [residual_sel (by omega) hi.m.mat y hlt hs.2, hi.vec i hlt hs.2, Nat.zero_add]
    ring
  | force dt contact cname =>
    cases hb
    obtain ⟨s, rfl, hr'⟩ := Program.unwrap (wrap := TaskObj.force) (st := ForceTask.step) (get := force?) (fun s c => by cases c <;> rfl) hr
    have hi := track_run_some (track_new name dt contact cname) hr'
    obtain ⟨hc1, hc2⟩ := force_contact hr'
    have hs1 := same_settings hf (g := force?) (after := fun p o => lastContact [o] p)
      (afterAll := fun p os => lastContact os p) (fun _ => rfl)
      (fun p o os => by cases o <;> rfl) (fun p c o h1 h2 => by cases c <;> cases h2; cases o <;> first | rfl | cases h1)
      contact
    have hs2 := same_settings hf (g := force?) (after := fun p o => lastName [o] p)
      (afterAll := fun p os => lastName os p) (fun _ => rfl)
      (fun p o os => by cases o <;> rfl) (fun p c o h1 h2 => by cases c <;> cases h2; cases o <;> first | rfl | cases h1)
      cname
    obtain ⟨hn1, hn2⟩ := hnm dt contact cname rfl
    have hcn : s.cname = lastName (calls.filterMap force?) cname := by rw [← hs2]; exact hc2
    have hcc : s.contact = lastContact (calls.filterMap force?) contact := by rw [← hs1]; exact hc1
    rw [← hcn] at hn1 hn2
    simp only [TaskObj.cycleCall, TaskObj.call, ForceTask.step, ForceTask.compute5, hn1, hn2, ne_eq, not_false_eq_true,
      if_true] at hc
    cases hcomp : s.compute (x.obj s.contact).forceGen with
    | ok s' c =>
      obtain ⟨s1, c1, e1, e2, -, e4, e5, e6, e7⟩ := track_compute hi (track_compute_some hi hcomp) (x.obj s.contact).forceGen
      rw [hcomp] at e1
      cases e1
      simp only [hcomp, TaskObj.lift, Option.some.injEq] at hc
      subst hc
      simp only [TaskObj.con, e2]
      refine ⟨e4, fun y => ?_⟩
      simp only [TaskDecl.Error]
      rw [← hcc]
      refine sq_rows (by rw [e5]) fun i _ => ?_
      simp only [Spec.residual, row, e5, e7]
    | throw s' => simp [hcomp, TaskObj.lift] at hc
    | abort => simp [hcomp, TaskObj.lift] at hc
    | ub => simp [hcomp, TaskObj.lift] at hc
  | cop =>
    cases hb
    obtain ⟨s, rfl, hr'⟩ := Program.unwrap (wrap := TaskObj.cop) (st := CopTask.step) (get := cop?) (fun s c => by cases c <;> rfl) hr
    have hi := copInv_run _ (p := CopSettings.fresh) (s := CopTask.new name) ⟨rfl, rfl, rfl, rfl, rfl⟩ hr'
    simp only [TaskObj.cycleCall, TaskObj.call] at hc
    split at hc
    · next o2' u hl =>
      cases hc
      obtain ⟨s', a, e2, rfl⟩ := lift_ok hl
      have hss := same_settings hf (g := cop?) (after := CopSettings.after)
        (afterAll := CopSettings.afterAll) (fun _ => rfl)
        (fun _ _ _ => rfl) (fun p c o h1 h2 => by cases c <;> cases h2; cases o <;> first | rfl | cases h1)
        (CopSettings.fresh (K := K))
      rw [hss] at hi
      simp only [CopTask.step, CopTask.compute, if_true] at e2
      split at e2
      · next hcomp =>
        split at hcomp
        · cases hcomp
          cases e2
          refine ⟨hi.kind, fun y => ?_⟩
          simp only [TaskDecl.Error, TaskObj.con]
          refine sq_rows rfl fun i hi3 => ?_
          have hsum := writeContacts_sum s.ref s.normal y i x.cop 0
            (if s.con.mat.rows = 3 ∧ s.con.mat.cols = (x.cop.map fun c => c.contact.nForce).sum then s.con.mat.get
              else x.w.garbage) hst
          simp only [Nat.zero_add] at hsum
          rw [hi.ref, hi.normal] at hsum
          simp only [Spec.residual, hi.vec, Vec.zero, sub_zero, row]
          rw [hi.ref, hi.normal, ← hsum]
          rfl
        · cases hcomp
      · cases e2
    · cases hc

/-- The same for the motion of a contact. -/
theorem contact_error {E : Program.Env K} {name : String} {d : ContactDecl} {m0 m1 m2 : ContactMotion K}
    {w : Snapshot K} {hist calls : List (ContactCall K)} (hb : d.Built E.robot.nv name m0)
    (hr : runOps (ContactMotion.call E) m0 hist = some m1)
    (hg : ∀ c ∈ calls, GoodContactCall c) (hm : ∀ c ∈ hist, c ∈ calls ∨ Program.isMotionCycle c = true)
    (hf : ∀ (σ : Type) (F : σ → ContactCall K → σ), (∀ p c, Program.isMotionCycle c = true → F p c = p) →
      ∀ p, hist.foldl F p = calls.foldl F p)
    (hw : SnapshotOk E.robot.nv w) (hc : m1.compute E w = some m2) :
    m2.con.kind = .equality ∧ ∀ y, sqResidual m2.con y = d.Error E w calls y := by
  unfold ContactMotion.compute at hc
  cases d with
  | point fr =>
    obtain ⟨g, g', s0, h0, rfl⟩ := hb
    obtain ⟨s, rfl, hr'⟩ := Program.unwrapMotion (wrap := ContactMotion.point fr) (st := PointMotion.step E.log3)
      (get := pointAll fr) (fun s c => by
        cases c with
        | point o =>
          simp only [ContactMotion.call, pointAll]
          cases PointMotion.step E.log3 s o <;> rfl
        | computeMotion w =>
          simp only [ContactMotion.call, pointAll, PointMotion.step, SE3Task.step]
          cases SE3Task.compute E.log3 s (w.frame fr) <;> rfl
        | _ => rfl) hr
    obtain ⟨s1, s', c, e1, e2, -, e3, e6, -, -, -, e8⟩ := C27_point (log3 := E.log3) (os := hist.filterMap (pointAll fr)) h0
      (w.frame fr) (hw.rot fr)
    rw [hr'] at e1
    cases e1
    simp only [ContactMotion.call, e2, ContactMotion.lift, Option.some.injEq] at hc
    subst hc
    simp only [ContactMotion.con, se3_con e2]
    rw [same_contact hf (g' := point?) (after := PointSettings.after) (afterAll := PointSettings.afterAll) (fun _ => rfl)
      (fun _ _ _ => rfl) (fun c h => by cases c <;> first | rfl | cases h)
      (fun p c o h1 h2 => by cases c <;> cases h1; cases h2; rfl) (fun c h => by cases c <;> first | rfl | cases h)] at e8
    exact ⟨e3, fun y => sq_rows e6 (e8 y)⟩
  | sixD fr =>
    obtain ⟨g, s0, h0, rfl⟩ := hb
    obtain ⟨s, rfl, hr'⟩ := Program.unwrapMotion (wrap := ContactMotion.sixD fr) (st := SE3Task.step E.log3)
      (get := sixDAll fr) (fun s c => by
        cases c with
        | setKp k =>
          simp only [ContactMotion.call, sixDAll, SE3Task.step]
          cases s.setKp k <;> rfl
        | setKd k =>
          simp only [ContactMotion.call, sixDAll, SE3Task.step]
          cases s.setKd k <;> rfl
        | setReference M =>
          simp only [ContactMotion.call, sixDAll, SE3Task.step]
          cases s.setReferencePose M <;> rfl
        | computeMotion w =>
          simp only [ContactMotion.call, sixDAll, SE3Task.step]
          cases SE3Task.compute E.log3 s (w.frame fr) <;> rfl
        | _ => rfl) hr
    have hgood : ∀ o ∈ hist.filterMap (sixDAll fr), FrameSettings.Good o := by
      intro o ho
      obtain ⟨c, -, hc⟩ := List.mem_filterMap.1 ho
      cases c <;> cases hc <;> trivial
    obtain ⟨s1, s', c, e1, e2, e3, e6, e7, e8⟩ := C37_se3_rows (log3 := E.log3) h0 hgood (w.frame fr) (hw.rot fr)
    rw [hr'] at e1
    cases e1
    simp only [ContactMotion.call, e2, ContactMotion.lift, Option.some.injEq] at hc
    subst hc
    simp only [ContactMotion.con, se3_con e2]
    rw [same_contact hf (g' := sixD?) (after := FrameSettings.after) (afterAll := FrameSettings.afterAll) (fun _ => rfl)
      (fun _ _ _ => rfl) (fun c h => by cases c <;> first | rfl | cases h)
      (fun p c o h1 h2 => by cases c <;> cases h1; cases h2; rfl) (fun c h => by cases c <;> first | rfl | cases h)] at e6 e8
    have hmask : ∀ (l : List (ContactCall K)) (p : FrameSettings K), (p.afterAll (l.filterMap sixD?)).mask = p.mask := by
      intro l
      induction l with
      | nil => intro p; rfl
      | cons a l ih =>
        intro p
        cases a with
        | setKp k => exact (ih _).trans (by simp only [FrameSettings.after]; split <;> rfl)
        | setKd k => exact (ih _).trans (by simp only [FrameSettings.after]; split <;> rfl)
        | setReference M => exact (ih _).trans rfl
        | _ => exact ih p
    have hcnt : ∀ i, countSelected (FrameSettings.fresh (K := K)).mask i = i := by
      intro i
      induction i with
      | zero => rfl
      | succ i ih =>
        show countSelected _ i + (if (1 : K) = 1 then 1 else 0) = _
        rw [ih, if_pos rfl]
    rw [hmask] at e6 e8
    simp only [hcnt] at e6 e8
    exact ⟨e3, fun y => sq_rows e6 fun i hi => e8 y i ⟨hi, rfl⟩⟩
  | pair f1 f2 =>
    obtain ⟨g, g', s0, h0, rfl⟩ := hb
    obtain ⟨s, rfl, hr'⟩ := Program.unwrapMotion (wrap := ContactMotion.pair f1 f2) (st := PairMotion.step E.ndebug E.log3)
      (get := pairAll f1 f2) (fun s c => by
        cases c with
        | pair o =>
          simp only [ContactMotion.call, pairAll]
          cases PairMotion.step E.ndebug E.log3 s o <;> rfl
        | computeMotion w =>
          simp only [ContactMotion.call, pairAll, PairMotion.step, TwoFrames.step]
          cases TwoFrames.compute E.log3 s (w.frame f1) (w.frame f2) <;> rfl
        | _ => rfl) hr
    have hgood : ∀ o ∈ hist.filterMap (pairAll f1 f2), PairGains.Good o := by
      intro o ho
      obtain ⟨c, hc, hcc⟩ := List.mem_filterMap.1 ho
      rcases hm c hc with h | h
      · cases c <;> cases hcc
        · exact hg _ h
        · trivial
      · cases c <;> cases h
        cases hcc
        trivial
    obtain ⟨s1, s', c, e1, e2, -, e6, -, -, e8⟩ := C27_two_frames (ndebug := E.ndebug) (log3 := E.log3) h0 hgood
      (w.frame f1) (w.frame f2) (hw.rot f1)
    rw [hr'] at e1
    cases e1
    simp only [ContactMotion.call, e2, ContactMotion.lift, Option.some.injEq] at hc
    subst hc
    simp only [ContactMotion.con, pair_con e2]
    have e3 : c.kind = .equality := (pair_compute_kind e2).trans (pair_kind hr' (pair_new_kind h0))
    rw [same_contact hf (g' := gains?) (after := PairGains.after) (afterAll := PairGains.afterAll) (fun _ => rfl)
      (fun _ _ _ => rfl) (fun c h => by cases c <;> first | rfl | cases h)
      (fun p c o h1 h2 => by cases c <;> cases h1; cases h2; rfl) (fun c h => by cases c <;> first | rfl | cases h)] at e8
    exact ⟨e3, fun y => sq_rows e6 (e8 y)⟩

/-- The squared residual of the regularisation of a contact. -/
theorem reg_error {c : Contact K} {kind : ContactKind} {r : RegSettings K} (h : HasReg c kind r) :
    c.forceReg.kind = .equality ∧ ∀ f, sqResidual c.forceReg f = r.Error kind f := by
  obtain ⟨p, hp, h1, h2, h3, h4⟩ := h
  have hrows : c.forceReg.mat.rows = if kind = .sixD then 6 else 3 := by rw [hp.reg]; cases kind <;> rfl
  refine ⟨by rw [hp.reg]; cases kind <;> rfl, fun f => ?_⟩
  unfold RegSettings.Error
  refine sq_rows hrows fun i hi => ?_
  rw [reg_residual hp f (by rw [hrows]; exact hi), h1, h2, h4]

/-- The settings of the regularisation in a cycle are those of the text. -/
theorem reg_text {E : Program.Env K} {W : World} {S : Setup K} {ops : List (Program.Op K)} {s0 s : Program.State K}
    (h : GoodProgram E W S ops s0) {w : Snapshot K} {t : K} (hc : Program.compute E w t s0 = .ok s ()) (cid : Nat) :
    HasReg (s.form.contactObj cid) (S.obj cid).kind
      ((RegSettings.of (S.obj cid)).afterAll (S.obj cid).kind (contactSets cid ops)) := by
  obtain ⟨ht, -⟩ := program_tidy h
  rw [← setsOf_text h.run]
  refine compute_reg (run_reg _ _ _ _ ?_ ht.run) (by rw [Program.compute_form hc]; rfl)
  obtain ⟨name, kind, points, normal, mu, fMin, fMax, e⟩ := h.contacts cid
  show HasReg (S.obj cid) _ _
  rw [e]
  refine ⟨newParams kind points normal mu fMin fMax, ?_, ?_⟩
  · have := holds_new name kind points normal mu fMin fMax
    rw [this.name, this.kind]
    exact this
  · cases kind <;> exact ⟨rfl, rfl, rfl, rfl⟩

/-- The cost of a level, object by object. -/
theorem sum_items {f : K × Nat → K} {g : Item K → K} : ∀ (L : List (LItem K)),
    (∀ y ∈ L, ((ents 1 y).map f).sum = g y.1) → ((L.flatMap (ents 1)).map f).sum = ((L.map Prod.fst).map g).sum
  | [], _ => rfl
  | y :: L, h => by
    simp only [List.flatMap_cons, List.map_append, List.sum_append, List.map_cons, List.sum_cons]
    rw [sum_items L fun y hy => h y (List.mem_cons_of_mem _ hy), h y List.mem_cons_self]

/-- **C89 (partial).** After any orderly program the cost that the second level of the problem assigns to a vector is half
the weighted sum of the squared errors that the text of the program describes: for every registered task of priority 1
the difference between what the decoded accelerations, forces or torques achieve on the selected axes and the law with
the gains and references last set, for every registered contact the motion error (at priority 1) and the weighted
difference between its wrench and the reference force last set; the weights are those of the registrations.
Missing: as in C87; tasks of priority 1 are equalities (the back-ends refuse others), and force tasks keep a registered
contact; the wrench of a surface contact is the one of the points at the last refresh (`C26_stale`). -/
theorem C89_partial {E : Program.Env K} {W : World} {S : Setup K} {ops : List (Program.Op K)} {s0 s : Program.State K}
    (h : GoodProgram E W S ops s0) {w : Snapshot K} {t : K} (hw : SnapshotOk E.robot.nv w)
    (hc : Program.compute E w t s0 = .ok s ()) {l0 l1 : Level K} (hp : problem s.form = [l0, l1])
    (heq : ∀ fam tid k, .task fam tid 1 k ∈ (S.registry E W ops t).items → (S.decl tid).kind = .equality)
    (hfo : ∀ tid k dt contact cname, .task .force tid 1 k ∈ (S.registry E W ops t).items →
      S.decl tid = .force dt contact cname → lastName ((taskCalls tid ops).filterMap force?) cname ≠ "" ∧
      ∃ cid ∈ (S.registry E W ops t).items.filterMap Item.cid?,
        (S.obj cid).name = lastName ((taskCalls tid ops).filterMap force?) cname)
    {x : Vec K} (hx : x.size = nVar s.form) :
    ∃ d : Decoded K,
      d.From s.form x (((S.registry E W ops t).items.filterMap Item.cid?).map fun c => (S.obj c).name) ∧
      lsqCost l1 x = S.cost E W ops w t s d := by
  have hregs := fun cid => reg_error (reg_text h hc cid)
  obtain ⟨ht, hno⟩ := program_tidy h
  have hform := Program.compute_form hc
  obtain ⟨f, s1, f', hf, hs, ha, rfl⟩ := Program.compute_ok hc
  have hcy : cycleOf E w t s0 = Program.cycle w s1 := by simp only [cycleOf, hf, hs]
  obtain ⟨-, hmot, hmea, htask⟩ := Program.computeObjects_some hs
  rw [hcy] at hform
  have hre : Reachable E.ndebug W s0.form :=
    ⟨S.robot, S.obj, fun tid => (S.task tid).assoc, _, ht.motors, ht.built, ht.run⟩
  obtain ⟨hrob, hnv, hnu, hasc, hmeas, hnames, hkinds, hnd, L, hcoh, hitems⟩ := cycle_end ht hform
  have hsz : CycleSizes f'.nv (Program.cycle w s1) := by
    rw [hnv, ← h.nv]; exact ⟨hw.mRows, hw.mCols, hw.nle⟩
  obtain ⟨q1, q2, q3, q4, q5⟩ := assemble_lists ha
  obtain ⟨hinv, -⟩ := tidy_impl ht
  obtain ⟨-, -, -, -, -, hinvs, -⟩ := compute_spec hinv hform
  have hitems' : (S.registry E W ops t).items = L.map Prod.fst := hitems.symm
  have hctx : ctx E w f' = ctx E w f := by simp only [ctx, q2, q3]
  have hR : RobotOk E.robot := ⟨by rw [h.nv, h.na]; exact h.motors, h.nqa, h.difference⟩
  have hnodup : (computed f).Nodup := by rw [← q1]; exact computed_nodup hcoh
  have hcids : (S.registry E W ops t).items.filterMap Item.cid? = f'.contacts.map ContactLevel.cid := by
    rw [hitems']; exact contact_cids hcoh
  have hcnd : (f.contacts.map ContactLevel.cid).Nodup := by rw [← q2]; exact contact_cids_nodup hcoh
  have linked := Program.run_linked h.run (fun tid => rfl)
  have hasc' : ∀ tid, f'.assoc tid = (s0.task tid).assoc := fun tid => (congrFun hasc tid).trans (linked tid)
  -- what is decoded
  obtain ⟨dv, fo, tau, g1, g2, g3, -⟩ := C01_equations_of_motion hre hform hsz x hx
  have gof : ∀ cl ∈ f'.contacts, ∃ fc, (getContactForcesOf f' (f'.contactObj cl.cid).name x).val? = some fc ∧
      (cl.reg ∈ hqpIds f'.hqp → SaysSame (f'.heap cl.reg) x (f'.contactObj cl.cid).forceReg fc) ∧
      (((Program.cycle w s1).contactMotion cl.cid).kind = .equality →
        SaysSame (f'.heap cl.motion) x ((Program.cycle w s1).contactMotion cl.cid) dv) := by
    intro cl hcl
    obtain ⟨fc, dv', a1, a2, -, a4, a5⟩ := C04_contact_entries hre hform hsz hnd x hx cl hcl
    rw [g1] at a2
    cases a2
    exact ⟨fc, a1, a4, a5⟩
  let d : Decoded K := ⟨dv, fo, tau, fun n => ((getContactForcesOf f' n x).val?).getD (Vec.zero 0)⟩
  have hof : ∀ n fc, (getContactForcesOf f' n x).val? = some fc → d.of n = fc := by
    intro n fc hn
    show ((getContactForcesOf f' n x).val?).getD (Vec.zero 0) = fc
    rw [hn]; rfl
  refine ⟨d, ⟨g1, g2, g3, ?_⟩, ?_⟩
  · intro n hn
    rw [hcids, List.map_map] at hn
    obtain ⟨cl, hcl, rfl⟩ := List.mem_map.1 hn
    obtain ⟨fc, a1, -⟩ := gof cl hcl
    rw [hnames] at a1
    show (getContactForcesOf f' (S.obj cl.cid).name x).val? = some (d.of (S.obj cl.cid).name)
    rw [hof _ _ a1]
    exact a1
  -- one task
  have task : ∀ tid, tid ∈ computed f → (S.decl tid).kind = .equality →
      (∀ dt contact cname, S.decl tid = .force dt contact cname →
        lastName ((taskCalls tid ops).filterMap force?) cname ≠ "" ∧
        lastName ((taskCalls tid ops).filterMap force?) cname ∈ (ctx E w f').names) →
      (s1.task tid).con.kind = .equality ∧
      ∀ y, sqResidual (s1.task tid).con y = (S.decl tid).Error E (ctx E w f') (taskCalls tid ops)
        (history E S.start ops tid) y := by
    intro tid hm hk hnm
    refine task_error hR (h.built tid) (Program.run_task h.run tid) (history_good h tid)
      (fun σ F hF p => Program.fold_history hF h.run p) (x := ctx E w f') hw ?_ hnm ?_ hk
    · exact stacked_of_tiled _ _ _ _ _ hinvs.tiled
    · rw [hctx]; exact each_once htask hnodup hm
  have noForce : ∀ tid, (S.task tid).isForce = false → ∀ dt contact cname, S.decl tid = .force dt contact cname → False := by
    intro tid hcl dt contact cname hd
    have hb := h.built tid
    rw [hd] at hb
    simp only [TaskDecl.Built] at hb
    rw [hb] at hcl
    cases hcl
  -- the levels
  have hl1 : l1 = (L.flatMap (ents 1)).map fun e => (e.1, f'.heap e.2) := by
    have : problem f' = [(1, f'.heap f'.baseId) :: (L.flatMap (ents 0)).map (fun e => (e.1, f'.heap e.2)),
        (L.flatMap (ents 1)).map (fun e => (e.1, f'.heap e.2))] := by
      unfold problem
      rw [hcoh.hqp]
      rfl
    rw [hp] at this
    injection this with _ this
    injection this
  have hid : ∀ {e : K × Nat}, e ∈ L.flatMap (ents 1) → e.2 ∈ hqpIds f'.hqp := by
    intro e he
    rw [hcoh.hqp]
    exact mem_hqpIds.2 ⟨_, List.mem_cons_of_mem _ (List.mem_cons_self ..), e, he, rfl⟩
  unfold lsqCost Setup.cost
  rw [hl1, hitems', List.map_map]
  congr 1
  refine sum_items L ?_
  rintro ⟨it, a, b, c⟩ hy
  have hin : it ∈ (S.registry E W ops t).items := by rw [hitems']; exact List.mem_map.2 ⟨_, hy, rfl⟩
  cases it with
  | task fam tid p k =>
    by_cases hp1 : p = 1
    swap
    · simp only [ents, if_neg hp1, List.map_nil, List.sum_nil, Setup.penalty]
    subst hp1
    have hident : a ∈ hqpIds f'.hqp := hid (e := (k, a)) (List.mem_flatMap.2 ⟨_, hy, by simp [ents]⟩)
    have hcl := Program.registered_class h.run hin
    have hmem : tid ∈ computed f := by rw [← q1]; exact mem_computed hcoh (hitems' ▸ hin)
    simp only [ents, if_true, List.map_cons, List.map_nil, List.sum_cons, List.sum_nil, add_zero, Function.comp_apply,
      Setup.penalty]
    cases fam with
    | motion =>
      have hne : (S.task tid).isForce = false := by
        revert hcl
        cases S.task tid <;> intro hcl <;> first | rfl | cases hcl
      obtain ⟨t1, t2⟩ := task tid hmem (heq _ _ _ hin) (fun dt c n hd => (noForce tid hne dt c n hd).elim)
      have htl : (⟨tid, 1, a⟩ : TaskLevel) ∈ f'.motions := by
        rw [hcoh.motions]; exact List.mem_filterMap.2 ⟨_, hy, by simp [taskOf]⟩
      obtain ⟨dv', b1, -, b2⟩ := C03_motion_tasks hre hform hsz x hx _ htl (fun hk => by
        rw [show (Program.cycle w s1).motionOut tid = (s1.task tid).con from rfl, t1] at hk; cases hk)
      rw [g1] at b1
      cases b1
      show k * sqResidual (f'.heap a) x = k * _
      rw [sq_same b2 t1]
      exact congrArg _ (t2 dv)
    | actuation =>
      have hne : (S.task tid).isForce = false := by
        revert hcl
        cases S.task tid <;> intro hcl <;> first | rfl | cases hcl
      obtain ⟨t1, t2⟩ := task tid hmem (heq _ _ _ hin) (fun dt c n hd => (noForce tid hne dt c n hd).elim)
      have htl : (⟨tid, 1, a⟩ : TaskLevel) ∈ f'.acts := by
        rw [hcoh.acts]; exact List.mem_filterMap.2 ⟨_, hy, by simp [taskOf]⟩
      obtain ⟨tau', b1, -, b2⟩ := C02_actuation_tasks hre hform hsz x hx _ htl hident
      rw [g3] at b1
      cases b1
      show k * sqResidual (f'.heap a) x = k * _
      rw [sq_same b2 t1]
      exact congrArg _ (t2 tau)
    | force =>
      have htl : (⟨tid, 1, a⟩ : TaskLevel) ∈ f'.forces := by
        rw [hcoh.forces]; exact List.mem_filterMap.2 ⟨_, hy, by simp [taskOf]⟩
      have hsays := C05_force_tasks_partial ht.motors ht.built ht.run hno hform hsz x hx _ htl hident
      obtain ⟨-, -, g3'⟩ := cols_family (ctx E w f) (taskCalls tid ops) (h.built tid)
      rcases g3' hcl with ⟨hd, ho⟩ | ⟨dt, c, n, hd, ho⟩
      · obtain ⟨t1, t2⟩ := task tid hmem (heq _ _ _ hin) (fun dt c n hd' => by rw [hd] at hd'; cases hd')
        have ha0 : f'.assoc tid = "" := by rw [hasc' tid]; exact cop_assoc h.run ho
        obtain ⟨fo', b1, b2⟩ := hsays.2 ha0 (fun hk => by
          rw [show (Program.cycle w s1).forceOut tid = (s1.task tid).con from rfl, t1] at hk; cases hk)
        rw [g2] at b1
        cases b1
        have e := sq_same b2 t1
        show k * sqResidual (f'.heap a) x = _
        rw [e]
        have := t2 fo
        rw [hd] at this ⊢
        exact congrArg _ this
      · obtain ⟨hn, cid, hcid, hcn⟩ := hfo tid k dt c n hin hd
        rw [hcids] at hcid
        obtain ⟨cl, hcl', rfl⟩ := List.mem_map.1 hcid
        have hname : (f'.contactObj cl.cid).name = lastName ((taskCalls tid ops).filterMap force?) n :=
          (hnames cl.cid).trans hcn
        obtain ⟨t1, t2⟩ := task tid hmem (heq _ _ _ hin) (fun dt' c' n' hd' => by
          rw [hd] at hd'
          cases hd'
          exact ⟨hn, by rw [← hname]; exact List.mem_map.2 ⟨cl, hcl', rfl⟩⟩)
        have ha0 : f'.assoc tid = lastName ((taskCalls tid ops).filterMap force?) n := by
          rw [hasc' tid]; exact force_assoc h.run ho
        have hfind := find_contact hnd hcl'
        rw [hname, ← ha0] at hfind
        obtain ⟨fc, b1, b2⟩ := hsays.1 cl (by rw [ha0]; exact hn) hfind (fun hk => by
          rw [show (Program.cycle w s1).forceOut tid = (s1.task tid).con from rfl, t1] at hk; cases hk)
        have e := sq_same b2 t1
        show k * sqResidual (f'.heap a) x = _
        rw [e]
        have := t2 fc
        rw [ha0] at b1
        rw [hd] at this ⊢
        dsimp only
        rw [hof _ _ b1]
        exact congrArg _ this
  | contact cid p wm wf =>
    have hmem : cid ∈ f.contacts.map ContactLevel.cid := by
      rw [← q2, ← hcids]; exact List.mem_filterMap.2 ⟨_, hin, rfl⟩
    obtain ⟨l, r1, r2, r3⟩ := Program.run_motion h.run cid
    have hb := h.builtContact cid
    rw [← h.nv] at hb
    obtain ⟨k1, k2⟩ := contact_error hb r1 (h.contactArgs cid) r2 r3 hw (each_once hmot hcnd hmem)
    have hst : (cid, a, b, c) ∈ f'.contacts.map strip := by
      rw [hcoh.contacts]
      exact List.mem_filterMap.2 ⟨_, hy, rfl⟩
    obtain ⟨cl, hcl, e⟩ := List.mem_map.1 hst
    simp only [strip, Prod.mk.injEq] at e
    obtain ⟨rfl, rfl, rfl, rfl⟩ := e
    obtain ⟨fc, a1, a2, a3⟩ := gof cl hcl
    have hident : cl.reg ∈ hqpIds f'.hqp := hid (e := (wf, cl.reg)) (List.mem_flatMap.2 ⟨_, hy, by simp [ents]⟩)
    obtain ⟨j1, j2⟩ := hregs cl.cid
    have e1 := sq_same (a2 hident) j1
    have e2 := sq_same (a3 k1) k1
    rw [hnames] at a1
    simp only [Setup.penalty, hof _ _ a1]
    rw [← j2 fc]
    have e3 := k2 dv
    show _ = (if p = 1 then wm * (S.cdecl cl.cid).Error E w (contactCalls cl.cid ops) dv else 0) + wf * _
    rw [← e3]
    by_cases hp1 : p = 1
    · simp only [ents, if_pos hp1, List.map_append, List.map_cons, List.map_nil, List.sum_append, List.sum_cons,
        List.sum_nil, add_zero, Function.comp_apply, if_true, one_ne_zero, if_false]
      rw [e1, e2]
      rfl
    · simp only [ents, if_neg hp1, List.map_append, List.map_cons, List.map_nil, List.sum_append, List.sum_cons,
        List.sum_nil, add_zero, zero_add, Function.comp_apply, if_true, one_ne_zero, if_false]
      rw [e1]

namespace ArmDemo

/-- The tasks of priority 1 of the arm are equalities. -/
theorem equalities : ∀ fam tid k, .task fam tid 1 k ∈ (setup.registry env world ops 0).items →
    (setup.decl tid).kind = .equality := by
  intro fam tid k h
  rw [items] at h
  simp only [List.mem_cons, List.not_mem_nil, or_false, reduceCtorEq, false_or, Item.task.injEq] at h
  rcases h with ⟨-, rfl, -⟩ | ⟨-, -, h, -⟩
  · rfl
  · cases h

/-- It has no force tasks. -/
theorem noForces : ∀ tid k dt contact cname, .task .force tid 1 k ∈ (setup.registry env world ops 0).items →
    setup.decl tid = .force dt contact cname → lastName ((taskCalls tid ops).filterMap force?) cname ≠ "" ∧
    ∃ cid ∈ (setup.registry env world ops 0).items.filterMap Item.cid?,
      (setup.obj cid).name = lastName ((taskCalls tid ops).filterMap force?) cname := by
  intro tid k dt contact cname h
  rw [items] at h
  simp only [List.mem_cons, List.not_mem_nil, or_false, reduceCtorEq, false_or, Item.task.injEq, false_and] at h

/-- The hypotheses of C89 can be met; the cost is a sum over three objects. -/
example : ∃ s0 s l0 l1, GoodProgram env world setup ops s0 ∧ SnapshotOk env.robot.nv snap ∧
    Program.compute env snap 0 s0 = .ok s () ∧ problem s.form = [l0, l1] ∧ resting.size = nVar s.form ∧
    ∃ d : Decoded ℝ, d.From s.form resting ["tip"] ∧
      lsqCost l1 resting = 1 / 2 * (setup.penalty env ops snap s d (.task .motion 0 1 2) +
        (setup.penalty env ops snap s d (.contact 0 0 1 1) + setup.penalty env ops snap s d (.task .motion 1 0 1))) := by
  obtain ⟨m, f, hm, ha, hc⟩ := computes
  obtain ⟨l0, l1, h1, h2, h3⟩ := feasible hm ha
  obtain ⟨d, h4, h5⟩ := C89_partial good snapOk hc h1 equalities noForces h2
  rw [items] at h4
  refine ⟨_, _, l0, l1, good, snapOk, hc, h1, h2, d, h4, ?_⟩
  rw [h5]
  unfold Setup.cost
  rw [items]
  simp only [List.map_cons, List.map_nil, List.sum_cons, List.sum_nil, add_zero]

end ArmDemo

end Tsid.Props
