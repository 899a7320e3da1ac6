import Verif.Lemmas.ProgramForm
import Verif.Props.Cartesian
import Verif.Props.CartesianMore
import Verif.Props.Posture
import Verif.Props.JointBounds
import Verif.Props.PosVelAcc
import Verif.Props.ForceTasks
import Verif.Props.ForceTracking
import Verif.Props.MeasuredForce

/-!
# Whole programs: what the constraint of a task says in a cycle
-/

set_option linter.unusedSectionVars false

namespace Tsid.Props

open Spec Finset Program

variable {K : Type} [Field K] [LinearOrder K] [FloorRing K] [HasSqrt K]

/-! ## `compute` returns a reference to the member -/

theorem se3_con {log3 : M3 K → V3 K} {s s' : SE3Task K} {k : FrameKin K} {c : Constraint K}
    (h : s.compute log3 k = .ok s' c) : s'.rows.con = c := by
  unfold SE3Task.compute at h
  split at h
  · split at h
    · split at h
      · cases h; rfl
      · cases h
    · cases h
  · cases h
  · cases h

theorem pair_con {log3 : M3 K → V3 K} {s s' : TwoFrames K} {k1 k2 : FrameKin K} {c : Constraint K}
    (h : s.compute log3 k1 k2 = .ok s' c) : s'.rows.con = c := by
  unfold TwoFrames.compute at h
  split at h
  · split at h
    · cases h; rfl
    · cases h
  · cases h

theorem com_con {s s' : ComTask K} {k : ComKin K} {c : Constraint K} (h : s.compute k = .ok s' c) : s'.rows.con = c := by
  unfold ComTask.compute at h
  split at h
  · split at h
    · cases h; rfl
    · cases h
  · cases h

theorem am_con {s s' : AmTask K} {v : Vec K} {A : Mat K} {d : V3 K} {c : Constraint K} (h : s.compute v A d = .ok s' c) :
    s'.con = c := by
  unfold AmTask.compute at h
  split at h
  · dsimp only at h
    split at h
    · split at h
      · cases h; rfl
      · cases h
    · cases h
    · cases h
  · cases h

theorem posture_con {R : PostureRobot K} {s s' : Posture K} {q v : Vec K} {c : Constraint K}
    (h : s.compute R q v = .ok s' c) : s'.m.con = c := by
  unfold Posture.compute at h
  split at h
  · dsimp only at h
    split at h
    · split at h
      · cases h; rfl
      · cases h
    · cases h
  · cases h

theorem jointBounds_con {s s' : JointBounds K} {v : Vec K} {c : Constraint K} (h : s.compute v = .ok s' c) :
    s'.con = c := by
  unfold JointBounds.compute at h
  split at h
  · cases h; rfl
  · cases h

theorem posVelAcc_con {s s' : PosVelAcc K} {q v : Vec K} {c : Constraint K} (h : s.compute q v = .ok s' c) :
    s'.m.con = c := by
  unfold PosVelAcc.compute at h
  split at h
  · cases h; rfl
  · cases h

theorem cop_con {g : Nat → Nat → K} {s s' : CopTask K} {cs : List (CopContact K)} {c : Constraint K}
    (h : s.compute g cs = .ok s' c) : s'.con = c := by
  unfold CopTask.compute at h
  split at h
  · dsimp only at h
    split at h
    · cases h; rfl
    · cases h
  · cases h

theorem cop_con5 {g : Nat → Nat → K} {s s' : CopTask K} {cs : List (CopContact K)} {c : Constraint K}
    (h : s.step (.compute5 g cs) = .ok s' (some c)) : s'.con = c := by
  simp only [CopTask.step] at h
  split at h
  · next hc => cases h; exact cop_con hc
  · cases h

theorem capture_con {s s' : CaptureTask K} {k : ComKin K} {c : Constraint K}
    (h : s.step (.compute k) = .ok s' (some c)) : s'.con = c := by
  simp only [CaptureTask.step] at h
  split at h
  · next hc =>
    cases h
    unfold CaptureTask.compute at hc
    dsimp only at hc
    split at hc
    · cases hc; rfl
    · cases hc
  · cases h
  · cases h
  · cases h

/-! ## Kinds -/

theorem runOps_inv {σ op α : Type} {st : σ → op → Res σ α} {P : σ → Prop}
    (hP : ∀ s o s', P s → (st s o).state? = some s' → P s') : ∀ {os : List op} {s s' : σ}, runOps st s os = some s' →
    P s → P s'
  | [], s, s', h, hp => by cases h; exact hp
  | o :: os, s, s', h, hp => by
    simp only [runOps] at h
    split at h
    · cases h
    · next s1 hs => exact runOps_inv hP h (hP _ _ _ hp hs)

theorem capture_kind {os : List (CaptureTask.Op K)} {s s' : CaptureTask K} (h : runOps CaptureTask.step s os = some s')
    (hk : s.con.kind = .inequality) : s'.con.kind = .inequality := by
  refine runOps_inv (P := fun s : CaptureTask K => s.con.kind = .inequality) ?_ h hk
  intro s o s' hk hs
  cases o with
  | setX lo hi => simp only [CaptureTask.step] at hs; split at hs <;> cases hs <;> exact hk
  | setY lo hi => simp only [CaptureTask.step] at hs; split at hs <;> cases hs <;> exact hk
  | setMargin x y => simp only [CaptureTask.step] at hs; cases hs; exact hk
  | compute k =>
    simp only [CaptureTask.step, CaptureTask.compute, Constraint.setMatrix] at hs
    by_cases h1 : s.con.mat.cols = s.nv
    · by_cases h2 : s.con.mat.rows = 2
      · simp only [h1, h2, if_true] at hs; cases hs; exact hk
      · simp only [h1, h2, if_true, if_false] at hs; cases hs; exact hk
    · simp only [h1, if_false] at hs; cases hs; exact hk

theorem cop_kind {os : List (CopTask.Op K)} {s s' : CopTask K} (h : runOps CopTask.step s os = some s')
    (hk : s.con.kind = .equality) : s'.con.kind = .equality := by
  refine runOps_inv (P := fun s : CopTask K => s.con.kind = .equality) ?_ h hk
  intro s o s' hk hs
  have hc : ∀ {g : Nat → Nat → K} {s s' : CopTask K} {cs : List (CopContact K)} {c : Constraint K},
      s.compute g cs = .ok s' c → s.con.kind = .equality → s'.con.kind = .equality := by
    intro g s s' cs c h hk
    unfold CopTask.compute at h
    split at h
    · dsimp only at h
      split at h
      · cases h; exact hk
      · cases h
    · cases h
  cases o with
  | setReference p => cases hs; exact hk
  | setContactNormal n => cases hs; exact hk
  | setContactList => cases hs; exact hk
  | compute g cs =>
    simp only [CopTask.step] at hs
    split at hs
    · next e => cases hs; exact hc e hk
    · cases hs
  | compute5 g cs =>
    simp only [CopTask.step] at hs
    split at hs
    · next e => cases hs; exact hc e hk
    · cases hs

/-! ## Force tracking: a history that has succeeded -/

theorem track_compute_some {dt : K} {p : ForceSettings K} {s s' : ForceTask K} {c : Constraint K} (hi : TrackInv dt p s)
    {gen : Mat K} (h : s.compute gen = .ok s' c) : p.Ready := by
  unfold ForceTask.compute at h
  dsimp only at h
  split at h
  · next hc =>
    obtain ⟨h1, h2, h3, h4, h5, h6, h7⟩ := hc
    rw [hi.intSize] at h7
    rw [← h7] at h1 h2 h3 h4 h5 h6
    rw [hi.fext] at h1 h6
    rw [hi.ref] at h5 h7
    rw [hi.kp] at h2
    rw [hi.kd] at h3
    rw [hi.ki] at h4
    exact ⟨h2, h3, h4, h7.symm, h5, h1, h6⟩
  · cases h

theorem track_step_some {dt : K} {p : ForceSettings K} {s s' : ForceTask K} (hi : TrackInv dt p s) {o : ForceTask.Op K}
    (h : (s.step o).state? = some s') : TrackInv dt (p.after o) s' := by
  have key : (match (generalizing := false) o with
      | .compute _ => p.Ready
      | .compute5 _ names => p.cname ≠ "" ∧ p.cname ∈ names → p.Ready
      | _ => True) := by
    cases o with
    | compute gen =>
      simp only [ForceTask.step] at h
      split at h
      · next hc => exact track_compute_some hi hc
      · cases h
    | compute5 gen names =>
      intro hn
      simp only [ForceTask.step, ForceTask.compute5, hi.cname] at h
      rw [if_pos hn.1, if_pos hn.2] at h
      split at h
      · next hc => exact track_compute_some hi hc
      · cases h
    | _ => trivial
  obtain ⟨s1, e, hi'⟩ := track_step hi o key
  rw [e] at h
  cases h
  exact hi'

theorem track_run_some {dt : K} : ∀ {os : List (ForceTask.Op K)} {p : ForceSettings K} {s s' : ForceTask K},
    TrackInv dt p s → runOps ForceTask.step s os = some s' → TrackInv dt (p.afterAll os) s'
  | [], p, s, s', hi, h => by cases h; exact hi
  | o :: os, p, s, s', hi, h => by
    simp only [runOps] at h
    split at h
    · cases h
    · next s1 hs =>
      have := track_run_some (track_step_some hi hs) h
      exact this

/-- The contact of a force task and its name. -/
theorem force_contact : ∀ {os : List (ForceTask.Op K)} {s s' : ForceTask K}, runOps ForceTask.step s os = some s' →
    s'.contact = lastContact os s.contact ∧ s'.cname = lastName os s.cname
  | [], s, s', h => by cases h; exact ⟨rfl, rfl⟩
  | o :: os, s, s', h => by
    simp only [runOps] at h
    split at h
    · cases h
    · next s1 hs =>
      obtain ⟨h1, h2⟩ := force_contact h
      have hc : ∀ {gen : Mat K} {s s1 : ForceTask K} {c : Constraint K}, s.compute gen = .ok s1 c →
          s1.contact = s.contact ∧ s1.cname = s.cname := by
        intro gen s s1 c h
        unfold ForceTask.compute at h
        dsimp only at h
        split at h
        · cases h; exact ⟨rfl, rfl⟩
        · cases h
      rw [h1, h2]
      cases o with
      | setAssociatedContact c n => cases hs; exact ⟨rfl, rfl⟩
      | compute gen =>
        simp only [ForceTask.step] at hs
        split at hs
        · next e => cases hs; rw [(hc e).1, (hc e).2]; exact ⟨rfl, rfl⟩
        · cases hs
      | compute5 gen names =>
        simp only [ForceTask.step, ForceTask.compute5] at hs
        split at hs
        · next e =>
          cases hs
          split at e
          · split at e
            · rw [(hc e).1, (hc e).2]; exact ⟨rfl, rfl⟩
            · cases e; exact ⟨rfl, rfl⟩
          · cases e; exact ⟨rfl, rfl⟩
        · cases hs
      | setKp k => simp only [ForceTask.step] at hs; split at hs <;> cases hs <;> exact ⟨rfl, rfl⟩
      | setKd k => simp only [ForceTask.step] at hs; split at hs <;> cases hs <;> exact ⟨rfl, rfl⟩
      | setKi k => simp only [ForceTask.step] at hs; split at hs <;> cases hs <;> exact ⟨rfl, rfl⟩
      | setLeakRate l => cases hs; exact ⟨rfl, rfl⟩
      | setReference r => cases hs; exact ⟨rfl, rfl⟩
      | setExternalForce f => cases hs; exact ⟨rfl, rfl⟩

/-! ## The law of each class -/

theorem lift_ok {σ α : Type} {f : σ → TaskObj K} {r : Res σ α} {o : TaskObj K} {u : Unit}
    (h : TaskObj.lift f r = .ok o u) : ∃ s a, r = .ok s a ∧ o = f s := by
  cases r with
  | ok s a => simp only [TaskObj.lift] at h; cases h; exact ⟨s, a, rfl, rfl⟩
  | throw s => cases h
  | abort => cases h
  | ub => cases h

/-- The settings of the text are those of the history, if cycles do not change them. -/
def SameText (calls hist : List (TaskCall K)) : Prop :=
  ∀ (σ : Type) (F : σ → TaskCall K → σ), (∀ p c, isCycle c = true → F p c = p) → ∀ p, hist.foldl F p = calls.foldl F p

theorem same_settings {calls hist : List (TaskCall K)} (h : SameText calls hist) {σ op : Type} {after : σ → op → σ}
    {afterAll : σ → List op → σ} (h0 : ∀ p, afterAll p [] = p)
    (h1 : ∀ p o os, afterAll p (o :: os) = afterAll (after p o) os) {g : TaskCall K → Option op}
    (hg : ∀ p c o, isCycle c = true → g c = some o → after p o = p) (p : σ) :
    afterAll p (hist.filterMap g) = afterAll p (calls.filterMap g) := by
  rw [fold_filterMap h0 h1, fold_filterMap h0 h1]
  refine h _ _ ?_ p
  intro p c hc
  cases hgc : g c with
  | none => rfl
  | some o => exact hg p c o hc hgc

/-- A good call of one class. -/
theorem good_filter {R : PostureRobot K} {hist : List (TaskCall K)} {op : Type} {get : TaskCall K → Option op}
    {Q : op → Prop} (hg : ∀ c ∈ hist, GoodCall R c) (hq : ∀ c o, get c = some o → GoodCall R c → Q o) :
    ∀ o ∈ hist.filterMap get, Q o := by
  intro o ho
  obtain ⟨c, hc, hgc⟩ := List.mem_filterMap.1 ho
  exact hq c o hgc (hg c hc)

theorem cols_bound {c : Constraint K} {n : Nat} (h : c.cols = n) : c.kind = .bound → c.lb.size = n := by
  intro hk
  unfold Constraint.cols at h
  rw [hk] at h
  exact h

variable [IsStrictOrderedRing K] [LawfulSqrt K]

/-- After a cycle, whoever satisfies the constraint of a task satisfies what the text of the program demands. -/
theorem task_demands {E : Program.Env K} (hR : RobotOk E.robot) {name : String} {d : TaskDecl K} {o0 o1 o2 : TaskObj K}
    {x : TaskObj.Ctx K} {hist calls : List (TaskCall K)} (hb : d.Built E.robot name o0)
    (hr : runOps (TaskObj.call E) o0 hist = some o1) (hg : ∀ c ∈ hist, GoodCall E.robot c)
    (hf : SameText calls hist) (hw : SnapshotOk E.robot.nv x.w) (hst : Stacked 0 x.cop)
    (hnm : ∀ dt contact cname, d = .force dt contact cname →
      lastName (calls.filterMap force?) cname ≠ "" ∧ lastName (calls.filterMap force?) cname ∈ x.names)
    (hc : o1.compute E x = some o2) :
    (o2.isActuation = false → o2.con.kind = .bound → o2.con.lb.size = E.robot.nv) ∧
    (o2.isForce = true → o2.con.kind = .equality) ∧ ∀ y, Sat o2.con y → d.Demands E x calls hist o2 y := by
  unfold TaskObj.compute at hc
  cases d with
  | se3 fr =>
    obtain ⟨g, s0, h0, rfl⟩ := hb
    obtain ⟨s, rfl, hr'⟩ := unwrap (wrap := TaskObj.se3 fr) (st := SE3Task.step E.log3) (get := se3?) (fun s c => by cases c <;> rfl) hr
    obtain ⟨s1, s', c, e1, e2, -, e4, e5⟩ := C37_se3 (log3 := E.log3) h0
      (good_filter hg (get := se3?) (Q := FrameSettings.Good) (fun c o h h' => by cases c <;> cases h; exact h')) (x.w.frame fr) (hw.rot fr)
    rw [hr'] at e1
    cases e1
    simp only [TaskObj.cycleCall, TaskObj.call, SE3Task.step, e2, TaskObj.lift, Option.some.injEq] at hc
    subst hc
    simp only [TaskObj.con, se3_con e2]
    refine ⟨fun _ => cols_bound e4, (fun h => by cases h), fun y hy => ?_⟩
    rw [e5] at hy
    rw [same_settings hf (after := FrameSettings.after) (afterAll := FrameSettings.afterAll) (fun _ => rfl)
      (fun _ _ _ => rfl) (fun p c o h1 h2 => by cases c <;> cases h2; cases o <;> first | rfl | cases h1)] at hy
    exact hy
  | twoFrames f1 f2 =>
    obtain ⟨g, s0, h0, rfl⟩ := hb
    obtain ⟨s, rfl, hr'⟩ := unwrap (wrap := TaskObj.twoFrames f1 f2) (st := TwoFrames.step E.ndebug E.log3) (get := pair?) (fun s c => by cases c <;> rfl) hr
    obtain ⟨s1, s', c, e1, e2, -, e4, e5⟩ := C37_two_frames (ndebug := E.ndebug) (log3 := E.log3) h0
      (good_filter hg (get := pair?) (Q := PairSettings.Good) (fun c o h h' => by cases c <;> cases h; exact h')) (x.w.frame f1) (x.w.frame f2) (hw.rot f1)
    rw [hr'] at e1
    cases e1
    simp only [TaskObj.cycleCall, TaskObj.call, TwoFrames.step, e2, TaskObj.lift, Option.some.injEq] at hc
    subst hc
    simp only [TaskObj.con, pair_con e2]
    refine ⟨fun _ => cols_bound e4, (fun h => by cases h), fun y hy => ?_⟩
    rw [e5] at hy
    rw [same_settings hf (after := PairSettings.after) (afterAll := PairSettings.afterAll) (fun _ => rfl)
      (fun _ _ _ => rfl) (fun p c o h1 h2 => by cases c <;> cases h2; cases o <;> first | rfl | cases h1)] at hy
    exact hy
  | com =>
    obtain ⟨g, s0, h0, rfl⟩ := hb
    obtain ⟨s, rfl, hr'⟩ := unwrap (wrap := TaskObj.com) (st := ComTask.step) (get := com?) (fun s c => by cases c <;> rfl) hr
    obtain ⟨s1, s', c, e1, e2, -, e4, e5⟩ := C37_com h0
      (good_filter hg (get := com?) (Q := ComSettings.Good) (fun c o h h' => by cases c <;> cases h; exact h')) x.w.com
    rw [hr'] at e1
    cases e1
    simp only [TaskObj.cycleCall, TaskObj.call, ComTask.step, e2, TaskObj.lift, Option.some.injEq] at hc
    subst hc
    simp only [TaskObj.con, com_con e2]
    refine ⟨fun _ => cols_bound e4, (fun h => by cases h), fun y hy => ?_⟩
    rw [e5] at hy
    rw [same_settings hf (after := ComSettings.after) (afterAll := ComSettings.afterAll) (fun _ => rfl)
      (fun _ _ _ => rfl) (fun p c o h1 h2 => by cases c <;> cases h2; cases o <;> first | rfl | cases h1)] at hy
    exact hy
  | am =>
    obtain ⟨g, rfl⟩ := hb
    obtain ⟨s, rfl, hr'⟩ := unwrap (wrap := TaskObj.am) (st := AmTask.step) (get := am?) (fun s c => by cases c <;> rfl) hr
    obtain ⟨s1, s', c, e1, e2, -, e4, e5⟩ := C37_am_partial (g := g) (name := name)
      (good_filter hg (get := am?) (Q := AmSettings.Good E.robot.nv) (fun c o h h' => by cases c <;> cases h; exact h')) x.w.dh hw.v hw.agRows hw.agCols
    rw [hr'] at e1
    cases e1
    simp only [TaskObj.cycleCall, TaskObj.call, AmTask.step, e2, TaskObj.lift, Option.some.injEq] at hc
    subst hc
    simp only [TaskObj.con, am_con e2]
    refine ⟨fun _ => cols_bound e4, (fun h => by cases h), fun y hy => ?_⟩
    rw [e5] at hy
    rw [same_settings hf (after := AmSettings.after) (afterAll := AmSettings.afterAll) (fun _ => rfl)
      (fun _ _ _ => rfl) (fun p c o h1 h2 => by cases c <;> cases h2; cases o <;> first | rfl | cases h1)] at hy
    exact hy
  | capture gravity dt =>
    obtain ⟨dr, rfl⟩ := hb
    obtain ⟨s, rfl, hr'⟩ := unwrap (wrap := TaskObj.capture) (st := CaptureTask.step) (get := capture?) (fun s c => by cases c <;> rfl) hr
    simp only [TaskObj.cycleCall, TaskObj.call] at hc
    split at hc
    · next o2' u hl =>
      cases hc
      obtain ⟨s', a, e2, rfl⟩ := lift_ok hl
      have hk : s'.con.kind = .inequality :=
        capture_kind (os := [.compute x.w.com]) (s := s) (by simp only [runOps, e2, Res.state?])
          (capture_kind hr' rfl)
      refine ⟨fun _ h => (by simp only [TaskObj.con, hk] at h; cases h), (fun h => by cases h), fun y hy hdt hgr hz w hw1 hw2 => ?_⟩
      obtain ⟨s1, s2, c, e1, e3, -, -, e5⟩ := C42_capture (name := name) (nv := E.robot.nv) (d := dr)
        (hist.filterMap capture?) hdt hgr x.w.com hz w hw1 hw2
      rw [hr'] at e1
      cases e1
      rw [e2] at e3
      cases e3
      have hy' : Sat c y := by rw [← capture_con e2]; exact hy
      replace hy' := (e5 y).1 hy'
      rw [same_settings hf (after := CaptureSettings.after) (afterAll := CaptureSettings.afterAll) (fun _ => rfl)
        (fun _ _ _ => rfl) (fun p c o h1 h2 => by cases c <;> cases h2; cases o <;> first | rfl | cases h1)] at hy'
      exact hy'
    · cases hc
  | posture =>
    obtain ⟨s0, h0, rfl⟩ := hb
    obtain ⟨s, rfl, hr'⟩ := unwrap (wrap := TaskObj.posture) (st := Posture.step E.robot) (get := posture?) (fun s c => by cases c <;> rfl) hr
    obtain ⟨s', c, e2, -, e4, e5⟩ := C36_posture_partial hR h0 hr'
      (good_filter hg (get := posture?) (Q := PostureSettings.GoodMask E.robot.na) (fun c o h h' => by cases c <;> cases h; exact h'.1))
      (fun q v h => (good_filter hg (get := posture?) (Q := fun o => ∀ q v, o = Posture.Op.compute q v → v.size = E.robot.nv) (fun c o h h' => by cases c <;> cases h; exact h'.2)) _ h q v rfl)
      x.w.q x.w.v hw.v
    simp only [TaskObj.cycleCall, TaskObj.call, Posture.step, e2, TaskObj.lift, Option.some.injEq] at hc
    subst hc
    simp only [TaskObj.con, posture_con e2]
    refine ⟨fun _ => cols_bound e4, (fun h => by cases h), fun y hy => ?_⟩
    rw [e5] at hy
    rw [same_settings hf (after := fun p o => PostureSettings.after E.robot p o)
      (afterAll := fun p os => PostureSettings.afterAll E.robot p os) (fun _ => rfl)
      (fun _ _ _ => rfl) (fun p c o h1 h2 => by cases c <;> cases h2; cases o <;> first | rfl | cases h1)] at hy
    exact hy
  | jointBounds dt =>
    obtain ⟨s0, h0, rfl⟩ := hb
    obtain ⟨s, rfl, hr'⟩ := unwrap (wrap := TaskObj.jointBounds) (st := JointBounds.step) (get := jointBounds?) (fun s c => by cases c <;> rfl) hr
    obtain ⟨s', c, e2, -, e4, e5⟩ := C28_bounds hR.na h0 hr' x.w.v hw.v
    simp only [TaskObj.cycleCall, TaskObj.call, JointBounds.step, e2, TaskObj.lift, Option.some.injEq] at hc
    subst hc
    simp only [TaskObj.con, jointBounds_con e2]
    refine ⟨fun _ => cols_bound e4, (fun h => by cases h), fun y hy => ?_⟩
    rw [e5] at hy
    rw [same_settings hf (after := fun p o => BoundSettings.after E.robot.na p o)
      (afterAll := fun p os => BoundSettings.afterAll E.robot.na p os) (fun _ => rfl)
      (fun _ _ _ => rfl) (fun p c o h1 h2 => by cases c <;> cases h2; cases o <;> first | rfl | cases h1)] at hy
    exact hy
  | posVelAcc dt =>
    obtain ⟨s0, h0, rfl⟩ := hb
    obtain ⟨s, rfl, hr'⟩ := unwrap (wrap := TaskObj.posVelAcc) (st := PosVelAcc.step) (get := posVelAcc?) (fun s c => by cases c <;> rfl) hr
    have hgm : ∀ o ∈ hist.filterMap posVelAcc?, GoodMask E.robot.na o :=
      (good_filter hg (get := posVelAcc?) (Q := GoodMask E.robot.na) (fun c o h h' => by cases c <;> cases h; exact h'.1))
    have hgt : ∀ o ∈ hist.filterMap posVelAcc?, KeepsTimeStep o :=
      (good_filter hg (get := posVelAcc?) (Q := KeepsTimeStep) (fun c o h h' => by cases c <;> cases h; exact h'.2))
    have hi := PosVelAcc.limInv_run hR.na (PosVelAcc.limInv_new hR.na h0).1 hgm hr'
    simp only [TaskObj.cycleCall, TaskObj.call] at hc
    split at hc
    · next o2' u hl =>
      cases hc
      obtain ⟨s', a, e2, rfl⟩ := lift_ok hl
      have e2' : (s.step (.compute x.w.q x.w.v)).state? = some s' := by rw [e2]; rfl
      obtain ⟨-, -, c, e3⟩ := PosVelAcc.step_compute e2'
      have hk := (PosVelAcc.limInv_step hR.na hi (o := .compute x.w.q x.w.v) trivial e2').kind
      refine ⟨fun _ h => (by simp only [TaskObj.con, hk] at h; cases h), (fun h => by cases h), fun y hy => ?_⟩
      simp only [TaskObj.con, posVelAcc_con e3] at hy
      simp only [TaskDecl.Demands]
      intro hfull j hj hcomp
      have hss := same_settings hf (after := fun p o => LimitSettings.after E.robot.na p o)
        (afterAll := fun p os => LimitSettings.afterAll (K := K) E.robot.na p os) (fun _ => rfl)
        (g := posVelAcc?)
        (fun _ _ _ => rfl) (fun p c o h1 h2 => by cases c <;> cases h2; cases o <;> first | rfl | cases h1)
        (LimitSettings.fresh E.robot.na)
      have := C31_imposed hR.na h0 hr' hgm hgt (by rw [hss]; exact hfull) hw.v e3 hy hj (hcomp s' rfl)
      dsimp only at this
      rw [hss] at this
      exact this
    · cases hc
  | actBounds =>
    obtain ⟨s0, h0, rfl⟩ := hb
    obtain ⟨s, rfl, hr'⟩ := unwrap (wrap := TaskObj.actBounds) (st := ActBounds.step E.robot.na) (get := actBounds?) (fun s c => by cases c <;> rfl) hr
    obtain ⟨s1, e1, -, e4, e5⟩ := C43_bounds_partial h0
      (good_filter hg (get := actBounds?) (Q := TorqueLimits.GoodMask E.robot.na) (fun c o h h' => by cases c <;> cases h; exact h'))
    rw [hr'] at e1
    cases e1
    simp only [TaskObj.cycleCall, Option.some.injEq] at hc
    subst hc
    refine ⟨fun h => (by cases h), (fun h => by cases h), fun y hy => ?_⟩
    have hy' : Sat (ActBounds.compute s) y := hy
    rw [e5] at hy'
    rw [same_settings hf (after := fun p o => TorqueLimits.after E.robot.na p o)
      (afterAll := fun p os => TorqueLimits.afterAll E.robot.na p os) (fun _ => rfl)
      (fun _ _ _ => rfl) (fun p c o h1 h2 => by cases c <;> cases h2; cases o <;> first | rfl | cases h1)] at hy'
    exact hy'
  | actEq =>
    obtain ⟨s0, h0, rfl⟩ := hb
    obtain ⟨s, rfl, hr'⟩ := unwrap (wrap := TaskObj.actEq) (st := ActEq.step E.robot.na) (get := actEq?) (fun s c => by cases c <;> rfl) hr
    obtain ⟨s1, e1, -, e4, e5⟩ := C43_equality_partial h0
      (good_filter hg (get := actEq?) (Q := TorqueSettings.GoodMask E.robot.na) (fun c o h h' => by cases c <;> cases h; exact h'))
    rw [hr'] at e1
    cases e1
    simp only [TaskObj.cycleCall, Option.some.injEq] at hc
    subst hc
    refine ⟨fun h => (by cases h), (fun h => by cases h), fun y hy => ?_⟩
    have hy' : Sat s.compute y := hy
    rw [e5] at hy'
    rw [same_settings hf (after := fun p o => TorqueSettings.after E.robot.na p o)
      (afterAll := fun p os => TorqueSettings.afterAll E.robot.na p os) (fun _ => rfl)
      (fun _ _ _ => rfl) (fun p c o h1 h2 => by cases c <;> cases h2; cases o <;> first | rfl | cases h1)] at hy'
    exact hy'
  | force dt contact cname =>
    cases hb
    obtain ⟨s, rfl, hr'⟩ := unwrap (wrap := TaskObj.force) (st := ForceTask.step) (get := force?) (fun s c => by cases c <;> rfl) hr
    have hi := track_run_some (track_new name dt contact cname) hr'
    obtain ⟨hc1, hc2⟩ := force_contact hr'
    have hs1 := same_settings hf (g := force?) (after := fun p o => lastContact [o] p)
      (afterAll := fun p os => lastContact os p) (fun _ => rfl)
      (fun p o os => by cases o <;> rfl) (fun p c o h1 h2 => by cases c <;> cases h2; cases o <;> first | rfl | cases h1)
      contact
    have hs2 := same_settings hf (g := force?) (after := fun p o => lastName [o] p)
      (afterAll := fun p os => lastName os p) (fun _ => rfl)
      (fun p o os => by cases o <;> rfl) (fun p c o h1 h2 => by cases c <;> cases h2; cases o <;> first | rfl | cases h1)
      cname
    obtain ⟨hn1, hn2⟩ := hnm dt contact cname rfl
    have hcn : s.cname = lastName (calls.filterMap force?) cname := by rw [← hs2]; exact hc2
    have hcc : s.contact = lastContact (calls.filterMap force?) contact := by rw [← hs1]; exact hc1
    rw [← hcn] at hn1 hn2
    simp only [TaskObj.cycleCall, TaskObj.call, ForceTask.step, ForceTask.compute5, hn1, hn2, ne_eq, not_false_eq_true,
      if_true] at hc
    cases hcomp : s.compute (x.obj s.contact).forceGen with
    | ok s' c =>
      obtain ⟨s1, c1, e1, e2, -, e4, e5, e6, e7⟩ := track_compute hi (track_compute_some hi hcomp) (x.obj s.contact).forceGen
      rw [hcomp] at e1
      cases e1
      simp only [hcomp, TaskObj.lift, Option.some.injEq] at hc
      subst hc
      simp only [TaskObj.con, e2]
      refine ⟨fun _ h => (by rw [e4] at h; cases h), fun _ => e4, fun y hy => ?_⟩
      simp only [TaskDecl.Demands]
      intro i hi'
      rw [← hcc] at hi' ⊢
      rw [← e7]
      simp only [Sat, e4, e5, row] at hy
      exact hy i hi'
    | throw s' => simp [hcomp, TaskObj.lift] at hc
    | abort => simp [hcomp, TaskObj.lift] at hc
    | ub => simp [hcomp, TaskObj.lift] at hc
  | cop =>
    cases hb
    obtain ⟨s, rfl, hr'⟩ := unwrap (wrap := TaskObj.cop) (st := CopTask.step) (get := cop?) (fun s c => by cases c <;> rfl) hr
    simp only [TaskObj.cycleCall, TaskObj.call] at hc
    split at hc
    · next o2' u hl =>
      cases hc
      obtain ⟨s', a, e2, rfl⟩ := lift_ok hl
      have hk : s'.con.kind = .equality := by
        refine cop_kind (os := [.compute5 x.w.garbage x.cop]) (s := s) (by simp only [runOps, e2, Res.state?]) ?_
        exact cop_kind hr' rfl
      refine ⟨fun _ h => (by simp only [TaskObj.con, hk] at h; cases h), fun _ => hk, fun y hy => ?_⟩
      have hss := same_settings hf (g := cop?) (after := CopSettings.after)
        (afterAll := CopSettings.afterAll) (fun _ => rfl)
        (fun _ _ _ => rfl) (fun p c o h1 h2 => by cases c <;> cases h2; cases o <;> first | rfl | cases h1)
        (CopSettings.fresh (K := K))
      simp only [TaskDecl.Demands]
      intro axes hk hax
      rw [← hss] at hax ⊢
      obtain ⟨s1, c, e3, -, -, -, -, e8⟩ := C40_partial hr' x.w.garbage x.cop hst hk axes hax
      rw [e2] at e3
      cases e3
      have hy' : Sat c y := by rw [← cop_con5 e2]; exact hy
      obtain ⟨e9, e10⟩ := e8 y
      exact ⟨e9.1 hy', fun ht => (e10 ht).1 hy'⟩
    · cases hc

end Tsid.Props
