import Verif.Spec.Static
import Verif.Lemmas.ConName
import Verif.Props.Builds
import Verif.Props.ControlLoop

/-!
# Programs that can be checked by reading them
-/

set_option linter.unusedSectionVars false

namespace Tsid.Props

open Spec Finset Formulation Program

variable {K : Type} [Field K] [LinearOrder K] [FloorRing K] [HasSqrt K] [IsStrictOrderedRing K] [LawfulSqrt K]

/-! ## Name, kind and rows of a task between cycles -/

theorem built_name {R : PostureRobot K} {name : String} {d : TaskDecl K} {o : TaskObj K} (h : d.Built R name o) :
    o.con.name = name := by
  cases d with
  | se3 fr =>
    obtain ⟨g, s, h, rfl⟩ := h
    exact SE3Task.setMask_keeps (s := SE3Task.pre g name R.nv) (by
      simp only [SE3Task.new, if_true] at h; rw [h]; rfl)
  | twoFrames f1 f2 =>
    obtain ⟨g, s, h, rfl⟩ := h
    unfold TwoFrames.new at h
    have e := TwoFrames.setMask_keeps (s' := s) (by rw [h]; rfl)
    exact e
  | com =>
    obtain ⟨g, s, h, rfl⟩ := h
    unfold ComTask.new at h
    have e := ComTask.setMask_keeps (s' := s) (by rw [h]; rfl)
    exact e
  | am => obtain ⟨g, rfl⟩ := h; rfl
  | capture gravity dt => obtain ⟨d, rfl⟩ := h; rfl
  | posture =>
    obtain ⟨s, h, rfl⟩ := h
    unfold Posture.new at h
    have e := Posture.setMask_keeps (s' := s) (by rw [h]; rfl)
    exact e
  | jointBounds dt =>
    obtain ⟨s, h, rfl⟩ := h
    unfold JointBounds.new at h
    split at h <;> cases h
    rfl
  | posVelAcc dt =>
    obtain ⟨s, h, rfl⟩ := h
    unfold PosVelAcc.new at h
    split at h
    · split at h
      · rename_i s1 u hs
        cases h
        have e := PosVelAcc.setMask_keeps (s' := s1) (by rw [hs]; rfl)
        exact e
      · cases h
    · cases h
  | actBounds =>
    obtain ⟨s, h, rfl⟩ := h
    unfold ActBounds.new ActBounds.setMask at h
    have e := Masked.setMask_keeps (s' := s) (by rw [h]; rfl)
    exact e
  | actEq =>
    obtain ⟨s, h, rfl⟩ := h
    unfold ActEq.new at h
    have e := ActEq.setMask_keeps (s' := s) (by rw [h]; rfl)
    exact e
  | force dt c n => cases h; rfl
  | cop => cases h; rfl

theorem shape_rows {n cols : Nat} {m : Vec K} {s : CartRows K} (h : CartRows.Inv n cols m s) :
    s.con.kind = .equality ∧ s.con.rows = countSelected m n := by
  refine ⟨h.kind, ?_⟩
  simp only [Constraint.rows, h.kind, h.rows]

theorem shape_mask {na cols off : Nat} {w : Nat → K} {m : Vec K} {s : Masked K} (h : MaskInv na cols off w m s) :
    s.con.kind = .equality ∧ s.con.rows = countSelected m na := by
  refine ⟨h.kind, ?_⟩
  simp only [Constraint.rows, h.kind, h.mat]
  exact length_sel _ _

theorem cop_shape {s s' : CopTask K} {o : CopTask.Op K} (h : (s.step o).state? = some s')
    (hs : s.con.kind = .equality ∧ s.con.mat.rows = 3) : s'.con.kind = .equality ∧ s'.con.mat.rows = 3 := by
  cases o <;> simp only [CopTask.step] at h
  case compute =>
    simp only [CopTask.compute] at h
    split at h <;> first | (cases h; done) | skip
    rename_i hc
    (repeat' split at hc) <;> cases hc <;> cases h <;> exact ⟨hs.1, rfl⟩
  case compute5 =>
    simp only [CopTask.compute] at h
    split at h <;> first | (cases h; done) | skip
    rename_i hc
    (repeat' split at hc) <;> cases hc <;> cases h <;> exact ⟨hs.1, rfl⟩
  all_goals cases h; exact hs

theorem cop_shapes : ∀ {os : List (CopTask.Op K)} {s s' : CopTask K}, runOps CopTask.step s os = some s' →
    s.con.kind = .equality ∧ s.con.mat.rows = 3 → s'.con.kind = .equality ∧ s'.con.mat.rows = 3
  | [], s, s', h, hs => by cases h; exact hs
  | o :: os, s, s', h, hs => by
    simp only [runOps] at h
    split at h
    · cases h
    · next s1 h1 => exact cop_shapes h (cop_shape h1 hs)

/-- The task is not a force task. -/
def NoForce : TaskDecl K → Prop
  | .force _ _ _ => False
  | _ => True

/-- Between the cycles the constraint of a task has the kind and the number of rows that the text says. -/
theorem task_shape {E : Program.Env K} (hR : RobotOk E.robot) {name : String} {d : TaskDecl K} {o0 o1 : TaskObj K}
    {hist calls : List (TaskCall K)} (hb : d.Built E.robot name o0)
    (hr : runOps (TaskObj.call E) o0 hist = some o1) (hg : ∀ c ∈ hist, GoodCall E.robot c)
    (hf : SameText calls hist) (hs : d.Whole E.robot calls) (hnf : NoForce d) :
    o1.con.kind = d.kind ∧ o1.con.rows = d.rows E.robot calls := by
  cases d with
  | se3 fr =>
    obtain ⟨g, s0, h0, rfl⟩ := hb
    obtain ⟨s, rfl, hr'⟩ := unwrap (wrap := TaskObj.se3 fr) (st := SE3Task.step E.log3) (get := se3?) (fun s c => by cases c <;> rfl) hr
    obtain ⟨s1, e1, hi⟩ := SE3Task.inv_new (K := K) (g := g) (name := name) (nv := E.robot.nv)
    rw [e1] at h0; cases h0
    obtain ⟨s2, e2, hi⟩ := SE3Task.inv_run (log3 := E.log3) hi
      (good_filter hg (get := se3?) (Q := FrameSettings.Good) (fun c o h h' => by cases c <;> cases h; exact h'))
    rw [hr'] at e2
    cases e2
    rw [same_settings hf (after := FrameSettings.after) (afterAll := FrameSettings.afterAll) (fun _ => rfl)
      (fun _ _ _ => rfl) (fun p c o h1 h2 => by cases c <;> cases h2; cases o <;> first | rfl | cases h1)] at hi
    exact shape_rows hi.rows
  | twoFrames f1 f2 =>
    obtain ⟨g, s0, h0, rfl⟩ := hb
    obtain ⟨s, rfl, hr'⟩ := unwrap (wrap := TaskObj.twoFrames f1 f2) (st := TwoFrames.step E.ndebug E.log3) (get := pair?) (fun s c => by cases c <;> rfl) hr
    obtain ⟨s1, e1, hi⟩ := TwoFrames.inv_new (K := K) (g := g) (name := name) (nv := E.robot.nv)
    rw [e1] at h0; cases h0
    obtain ⟨s2, e2, hi⟩ := TwoFrames.inv_run (ndebug := E.ndebug) (log3 := E.log3) hi
      (good_filter hg (get := pair?) (Q := PairSettings.Good) (fun c o h h' => by cases c <;> cases h; exact h'))
    rw [hr'] at e2
    cases e2
    rw [same_settings hf (after := PairSettings.after) (afterAll := PairSettings.afterAll) (fun _ => rfl)
      (fun _ _ _ => rfl) (fun p c o h1 h2 => by cases c <;> cases h2; cases o <;> first | rfl | cases h1)] at hi
    exact shape_rows hi.rows
  | com =>
    obtain ⟨g, s0, h0, rfl⟩ := hb
    obtain ⟨s, rfl, hr'⟩ := unwrap (wrap := TaskObj.com) (st := ComTask.step) (get := com?) (fun s c => by cases c <;> rfl) hr
    obtain ⟨s1, e1, hi⟩ := ComTask.inv_new (K := K) (g := g) (name := name) (nv := E.robot.nv)
    rw [e1] at h0; cases h0
    obtain ⟨s2, e2, hi⟩ := ComTask.inv_run hi
      (good_filter hg (get := com?) (Q := ComSettings.Good) (fun c o h h' => by cases c <;> cases h; exact h'))
    rw [hr'] at e2
    cases e2
    rw [same_settings hf (after := ComSettings.after) (afterAll := ComSettings.afterAll) (fun _ => rfl)
      (fun _ _ _ => rfl) (fun p c o h1 h2 => by cases c <;> cases h2; cases o <;> first | rfl | cases h1)] at hi
    exact shape_rows hi.rows
  | posture =>
    obtain ⟨s0, h0, rfl⟩ := hb
    obtain ⟨s, rfl, hr'⟩ := unwrap (wrap := TaskObj.posture) (st := Posture.step E.robot) (get := posture?) (fun s c => by cases c <;> rfl) hr
    obtain ⟨s1, e1, hi⟩ := Posture.inv_new (R := E.robot) (name := name) hR.na
    rw [e1] at h0; cases h0
    have hi := Posture.inv_run hR.na hR.nqa hR.diff hi
      (good_filter hg (get := posture?) (Q := PostureSettings.GoodMask E.robot.na) (fun c o h h' => by cases c <;> cases h; exact h'.1))
      (fun q v h => (good_filter hg (get := posture?) (Q := fun o => ∀ q v, o = Posture.Op.compute q v → v.size = E.robot.nv) (fun c o h h' => by cases c <;> cases h; exact h'.2)) _ h q v rfl)
      hr'
    rw [same_settings hf (after := fun p o => PostureSettings.after E.robot p o)
      (afterAll := fun p os => PostureSettings.afterAll E.robot p os) (fun _ => rfl)
      (fun _ _ _ => rfl) (fun p c o h1 h2 => by cases c <;> cases h2; cases o <;> first | rfl | cases h1)] at hi
    exact shape_mask hi.m
  | am =>
    obtain ⟨g, rfl⟩ := hb
    obtain ⟨s, rfl, hr'⟩ := unwrap (wrap := TaskObj.am) (st := AmTask.step) (get := am?) (fun s c => by cases c <;> rfl) hr
    obtain ⟨s2, e2, hi⟩ := AmTask.inv_run (AmTask.inv_new (g := g) (name := name))
      (good_filter hg (get := am?) (Q := AmSettings.Good E.robot.nv) (fun c o h h' => by cases c <;> cases h; exact h'))
    rw [hr'] at e2
    cases e2
    exact ⟨hi.kind, by simp only [TaskObj.con, Constraint.rows, hi.kind, hi.rows]; rfl⟩
  | capture gravity dt =>
    obtain ⟨dr, rfl⟩ := hb
    obtain ⟨s, rfl, hr'⟩ := unwrap (wrap := TaskObj.capture) (st := CaptureTask.step) (get := capture?) (fun s c => by cases c <;> rfl) hr
    have h0 : CaptureInv E.robot.nv gravity.norm dt CaptureSettings.fresh
        (CaptureTask.new name E.robot.nv gravity dt dr) := ⟨rfl, rfl, rfl, rfl, rfl, rfl, rfl, rfl, rfl⟩
    obtain ⟨s2, e2, hi⟩ := capture_run (hist.filterMap capture?) h0
    rw [hr'] at e2
    cases e2
    exact ⟨hi.kind, by simp only [TaskObj.con, Constraint.rows, hi.kind, hi.rows]; rfl⟩
  | jointBounds dt =>
    obtain ⟨s0, h0, rfl⟩ := hb
    obtain ⟨s, rfl, hr'⟩ := unwrap (wrap := TaskObj.jointBounds) (st := JointBounds.step) (get := jointBounds?) (fun s c => by cases c <;> rfl) hr
    have hi := boundsInv_run (boundsInv_new h0) hr'
    exact ⟨hi.kind, by simp only [TaskObj.con, Constraint.rows, hi.kind, hi.lbSize]; rfl⟩
  | posVelAcc dt =>
    obtain ⟨s0, h0, rfl⟩ := hb
    obtain ⟨s, rfl, hr'⟩ := unwrap (wrap := TaskObj.posVelAcc) (st := PosVelAcc.step) (get := posVelAcc?) (fun s c => by cases c <;> rfl) hr
    have hgm : ∀ o ∈ hist.filterMap posVelAcc?, GoodMask E.robot.na o :=
      (good_filter hg (get := posVelAcc?) (Q := GoodMask E.robot.na) (fun c o h h' => by cases c <;> cases h; exact h'.1))
    have hi := PosVelAcc.limInv_run hR.na (PosVelAcc.limInv_new hR.na h0).1 hgm hr'
    rw [same_settings hf (after := fun p o => LimitSettings.after E.robot.na p o)
        (afterAll := fun p os => LimitSettings.afterAll (K := K) E.robot.na p os) (fun _ => rfl)
        (g := posVelAcc?)
        (fun _ _ _ => rfl) (fun p c o h1 h2 => by cases c <;> cases h2; cases o <;> first | rfl | cases h1)] at hi
    have hl : (sel ((LimitSettings.fresh (K := K) E.robot.na).afterAll E.robot.na (calls.filterMap posVelAcc?)).mask
        (List.range E.robot.na)).length = E.robot.na := by
      rw [length_sel]; exact count_full hs
    refine ⟨hi.kind, ?_⟩
    simp only [TaskObj.con, Constraint.rows, hi.kind, hi.mat, selMat, hl]
    rfl
  | actBounds =>
    obtain ⟨s0, h0, rfl⟩ := hb
    obtain ⟨s, rfl, hr'⟩ := unwrap (wrap := TaskObj.actBounds) (st := ActBounds.step E.robot.na) (get := actBounds?) (fun s c => by cases c <;> rfl) hr
    obtain ⟨s1, e1, hi⟩ := ActBounds.inv_new (K := K) (name := name) (na := E.robot.na)
    rw [e1] at h0; cases h0
    obtain ⟨s2, e2, hi⟩ := ActBounds.inv_run hi
      (good_filter hg (get := actBounds?) (Q := TorqueLimits.GoodMask E.robot.na) (fun c o h h' => by cases c <;> cases h; exact h'))
    rw [hr'] at e2
    cases e2
    rw [same_settings hf (after := fun p o => TorqueLimits.after E.robot.na p o)
      (afterAll := fun p os => TorqueLimits.afterAll E.robot.na p os) (fun _ => rfl)
      (fun _ _ _ => rfl) (fun p c o h1 h2 => by cases c <;> cases h2; cases o <;> first | rfl | cases h1)] at hi
    refine ⟨hi.kind, ?_⟩
    simp only [TaskObj.con, Constraint.rows, hi.kind, hi.mat, selMat, length_sel]
    rfl
  | actEq =>
    obtain ⟨s0, h0, rfl⟩ := hb
    obtain ⟨s, rfl, hr'⟩ := unwrap (wrap := TaskObj.actEq) (st := ActEq.step E.robot.na) (get := actEq?) (fun s c => by cases c <;> rfl) hr
    obtain ⟨s1, e1, hi⟩ := ActEq.inv_new (K := K) (name := name) (na := E.robot.na)
    rw [e1] at h0; cases h0
    obtain ⟨s2, e2, hi⟩ := ActEq.inv_run hi
      (good_filter hg (get := actEq?) (Q := TorqueSettings.GoodMask E.robot.na) (fun c o h h' => by cases c <;> cases h; exact h'))
    rw [hr'] at e2
    cases e2
    rw [same_settings hf (after := fun p o => TorqueSettings.after E.robot.na p o)
      (afterAll := fun p os => TorqueSettings.afterAll E.robot.na p os) (fun _ => rfl)
      (fun _ _ _ => rfl) (fun p c o h1 h2 => by cases c <;> cases h2; cases o <;> first | rfl | cases h1)] at hi
    exact shape_mask hi.m
  | force dt contact cname => exact hnf.elim
  | cop =>
    cases hb
    obtain ⟨s, rfl, hr'⟩ := unwrap (wrap := TaskObj.cop) (st := CopTask.step) (get := cop?) (fun s c => by cases c <;> rfl) hr
    obtain ⟨h1, h2⟩ := cop_shapes hr' ⟨rfl, rfl⟩
    exact ⟨h1, by simp only [TaskObj.con, Constraint.rows, h1, h2]; rfl⟩

/-! ## Force tasks -/

/-- The constraint of a force task: six equations. -/
def Six (o : TaskObj K) : Prop := o.con.kind = .equality ∧ o.con.mat.rows = 6

theorem six_call {E : Program.Env K} {R : PostureRobot K} {dt : K} {c : Nat} {n : String} {o o' : TaskObj K} {k : TaskCall K}
    (ha : (TaskDecl.force dt c n).Accepts R k ∨ ∃ cid m, k = .force (.setAssociatedContact cid m))
    (h : (o.call E k).state? = some o') (hs : Six o) : Six o' := by
  cases k with
  | force f =>
    cases o <;> simp only [TaskObj.call] at h <;> first | (cases h; done) | skip
    obtain ⟨s', e, rfl⟩ := TaskObj.lift_state h
    cases f with
    | compute gen =>
      rcases ha with ha | ⟨_, _, e⟩
      · exact absurd rfl (ha.2.1 gen)
      · cases e
    | compute5 gen names =>
      rcases ha with ha | ⟨_, _, e⟩
      · exact absurd rfl (ha.2.2 gen names)
      · cases e
    | _ =>
      simp only [ForceTask.step] at e
      (repeat' split at e) <;> cases e <;> exact hs
  | _ =>
    rcases ha with ha | ⟨_, _, e⟩
    · exact ha.elim
    · cases e

theorem mem_items {W : World} {s : Tsid.State K} {L : List (LItem K)} (hc : Coh W s L) {tid : Nat}
    (hm : tid ∈ computed s) : ∃ fam p k, Item.task fam tid p k ∈ L.map Prod.fst := by
  unfold computed at hm
  rw [hc.motions, hc.forces, hc.acts, (computed_perm L).mem_iff] at hm
  obtain ⟨⟨it, a, b, c⟩, q1, q2⟩ := List.mem_filterMap.1 hm
  cases it with
  | contact => cases q2
  | task fam i p k =>
    simp only [tidOf, Option.some.injEq] at q2
    subst q2
    exact ⟨fam, p, k, List.mem_map.2 ⟨_, q1, rfl⟩⟩

theorem six_cycle {E : Program.Env K} {W : World} {S : Setup K} {ops : List (Program.Op K)} {s0 s : Program.State K}
    (h : GoodProgram E W S ops s0) {w : Snapshot K} {t : K} (hw : SnapshotOk E.robot.nv w)
    (hm : MayCycle E W S ops w t) (hc : Program.compute E w t s0 = .ok s ()) {tid : Nat} {dt : K} {c : Nat} {n : String}
    (hd : S.decl tid = .force dt c n) (hs : Six (s0.task tid)) : Six (s.task tid) := by
  obtain ⟨ht, -⟩ := program_tidy h
  obtain ⟨hi, hn, L, hL, -⟩ := tidy_impl ht
  unfold Program.compute at hc
  cases hr : runTransitions E.ndebug [] s0.form.trans { s0.form with t := t } with
  | throw => rw [hr] at hc; cases hc
  | abort => rw [hr] at hc; cases hc
  | ub => rw [hr] at hc; cases hc
  | ok f u =>
    obtain ⟨hi1, n1, e1, e2, e3, L', hcoh, hL'⟩ := transitions_impl ht.hygienic hi hL hr
    have hcn : cnames s0.form = fun c => (S.obj c).name := hn.names
    have hitems : L'.map Prod.fst = (S.registry E W ops t).items := by rw [hL', hcn]; rfl
    obtain ⟨ta, mo, me, hobj, -, hfit⟩ := program_fits h hw hm hr
    rw [hr] at hc
    simp only [hobj] at hc
    split at hc
    · cases hc
      by_cases hmem : tid ∈ computed f
      · obtain ⟨fam, p, k, hit⟩ := mem_items hcoh hmem
        rw [hitems] at hit
        have hf := hfit _ hit
        obtain ⟨k1, k2⟩ := hm.announced fam tid p k hit
        rw [hd] at k1 k2
        have key : ∀ m, FitsOn (W.task tid).kind (W.task tid).rows m (ta tid).con → Six (ta tid) := by
          rintro m ⟨q1, -, q3, -⟩
          exact ⟨q1.trans k1, q3.trans k2⟩
        cases fam with
        | motion => exact key _ hf
        | actuation => exact key _ hf
        | force =>
          rcases hf with ⟨-, hf⟩ | ⟨-, cid, -, -, hf⟩
          · exact key _ hf
          · exact key _ hf
      · unfold Program.computeObjects at hobj
        split at hobj
        · cases hobj
        · split at hobj
          · cases hobj
          · split at hobj
            · cases hobj
            · rename_i he
              cases hobj
              have := each_iter he tid
              rw [show List.count tid (List.map TaskLevel.tid (f.motions ++ (f.forces ++ f.acts))) = 0 from
                List.count_eq_zero_of_not_mem hmem] at this
              simp only [iterO, Option.some.injEq] at this
              show Six (ta tid)
              rw [← this]
              exact hs
    · cases hc

/-! ## One call -/

theorem refused_threw (nd : Bool) (W : World) (nm : Nat → String) (f : Tsid.State K) (r : Registry K)
    {o : Formulation.Op K} (h1 : ∀ cy t, o ≠ .compute cy t) (h2 : ∀ n d, o = .removeRigidContact n d → d ≤ 0) :
    r.next W nm (Formulation.step nd W f o).threw o = r.next W nm (refused o) o := by
  cases o with
  | addMotionTask tid w p d =>
    have : (Formulation.step nd W f (.addMotionTask tid w p d)).threw = refused (.addMotionTask tid w p d) := by
      simp only [Formulation.step, addMotionTask, refused]
      split
      · split
        · split <;> simp [void, Res.threw, *]
        · simp_all [void, Res.threw]
      · simp_all [void, Res.threw]
    rw [this]
  | addForceTask tid w p d =>
    have : (Formulation.step nd W f (.addForceTask tid w p d)).threw = refused (.addForceTask tid w p d) := by
      simp only [Formulation.step, addForceTask, refused]
      split
      · split
        · split <;> simp [void, Res.threw, *]
        · simp_all [void, Res.threw]
      · simp_all [void, Res.threw]
    rw [this]
  | addActuationTask tid w p d =>
    have : (Formulation.step nd W f (.addActuationTask tid w p d)).threw = refused (.addActuationTask tid w p d) := by
      simp only [Formulation.step, addActuationTask, refused]
      split
      · split
        · split <;> simp [void, Res.threw, *]
        · simp_all [void, Res.threw]
      · simp_all [void, Res.threw]
    rw [this]
  | removeRigidContact n d =>
    have : (Formulation.step nd W f (.removeRigidContact n d)).threw = false := by
      simp only [Formulation.step, removeRigidContact, if_neg (not_lt.2 (h2 n d rfl)), removeContactNow]
      split
      · rfl
      · split
        · rfl
        · split <;> rfl
    rw [this]
    rfl
  | compute cy t => exact absurd rfl (h1 cy t)
  | _ => rfl

section
variable {E : Program.Env K} {W : World} {S : Setup K} {ops : List (Program.Op K)} {s0 : Program.State K}

theorem noted_snoc (o : Program.Op K) :
    S.noted W (ops ++ [o]) = (S.noted W ops).read W (fun c => (S.obj c).name) o := by
  unfold Setup.noted Registry.readAll
  rw [List.foldl_append]
  rfl

theorem breaking_read {nm : Nat → String} {r : Registry K} (hr : r.breaking = []) {o : Program.Op K}
    (h : ∀ n d, o = .form (.removeRigidContact n d) → d ≤ 0) (h2 : ∀ cy t, o ≠ .form (.compute cy t)) :
    (r.read W nm o).breaking = [] := by
  cases o with
  | form f =>
    cases f with
    | removeRigidContact n d =>
      have hd := h n d rfl
      simp only [Registry.read, Registry.next, refused, if_neg (not_lt.2 hd)]
      exact hr
    | compute cy t => exact absurd rfl (h2 cy t)
    | addMotionTask | addForceTask | addActuationTask =>
      simp only [Registry.read, Registry.next]
      split <;> exact hr
    | _ => exact hr
  | _ => exact hr

/-- What the induction carries. -/
structure Reading (E : Program.Env K) (W : World) (S : Setup K) (ops : List (Program.Op K)) (s : Program.State K) :
    Prop where
  good : GoodProgram E W S ops s
  typed : WellTyped E W S ops
  registered : S.registered E W ops = S.noted W ops
  breaking : (S.noted W ops).breaking = []
  six : ∀ tid dt c n, S.decl tid = .force dt c n → Six (s.task tid)

theorem reading_registry (h : Reading E W S ops s0) (t : K) :
    S.registry E W ops t = { S.noted W ops with time := t } := by
  have : S.registry E W ops t = (S.registered E W ops).expire (fun c => (S.obj c).name) t := rfl
  rw [this, h.registered]
  unfold Registry.expire
  simp only [h.breaking, List.find?_nil]

/-- A call that may follow the text may follow the program. -/
theorem fine_may (hD : Declared E W S) (h : Reading E W S ops s0) {o : Program.Op K} (hf : S.Fine E W ops o) :
    S.May E W ops o := by
  cases o with
  | task tid c => exact hf
  | associate tid cid n => exact ⟨hf.1, hf.2.1⟩
  | motion cid c => exact hf
  | measured mid c => exact hf
  | form o =>
    cases o with
    | addMotionTask tid w p d => exact ⟨hf.family, hf.level⟩
    | addForceTask tid w p d => exact ⟨hf.family, hf.level⟩
    | addActuationTask tid w p d => exact ⟨hf.family, hf.level⟩
    | addRigidContact cid wf wm p => exact hf.1
    | setContact cid u => exact hf
    | decode x =>
      show S.robot.nv + nForces S.obj ((S.registered E W ops).items.filterMap Item.cid?) ≤ x.size
      rw [h.registered]; exact hf
    | compute | setAssociated => exact hf.elim
    | _ => trivial
  | compute w t =>
    obtain ⟨h1, h2, h3⟩ := hf
    refine ⟨h1, h2, hD.classes, ?_, ?_⟩
    · rw [reading_registry h]
      exact fun fam tid p k hm => ⟨(h3 fam tid p k hm).1, (h3 fam tid p k hm).2.1⟩
    · rw [reading_registry h]
      exact fun fam tid p k hm => (h3 fam tid p k hm).2.2

/-- The constraint of a task that may be added is as announced. -/
theorem addable_announced (h : Reading E W S ops s0) {fam : Family} {tid p : Nat} (ha : S.Addable E W ops fam tid p) :
    (Program.world E s0).task tid = W.task tid := by
  have hg := h.good
  have hR : RobotOk E.robot := ⟨by rw [hg.nv, hg.na]; exact hg.motors, hg.nqa, hg.difference⟩
  have hname : (s0.task tid).con.name = E.name tid :=
    (TaskObj.run_keeps (Program.run_task hg.run tid)).trans (built_name (hg.built tid))
  have hshape : (s0.task tid).con.kind = (S.decl tid).kind ∧
      (s0.task tid).con.rows = (S.decl tid).rows E.robot (taskCalls tid ops) := by
    by_cases hd : NoForce (S.decl tid)
    · exact task_shape hR (hg.built tid) (Program.run_task hg.run tid) (history_good hg tid)
        (fun σ F hF p => Program.fold_history hF hg.run p) ha.whole hd
    · cases e : S.decl tid with
      | force dt c n =>
        obtain ⟨h1, h2⟩ := h.six tid dt c n e
        exact ⟨h1, by simp only [Constraint.rows, h1, h2]; rfl⟩
      | _ => rw [e] at hd; exact absurd trivial hd
  have e1 := hg.names tid
  have e2 := (hg.hygienic tid).1
  have e3 := ha.kind
  have e4 := ha.rows
  simp only [Program.world, hname, hshape.1, hshape.2]
  rw [← e3, ← e4, ← e1]
  conv_lhs => rw [show (W.task tid).name = (W.task tid).name from rfl]
  cases hw : W.task tid
  rw [hw] at e2
  simp_all

theorem fine_orderly (h : Reading E W S ops s0) {o : Program.Op K} (hf : S.Fine E W ops o) : Orderly E W s0 o := by
  obtain ⟨ht, -⟩ := program_tidy h.good
  obtain ⟨hi, hn, L, hL, -⟩ := tidy_impl ht
  have hL : Impl W s0.form (S.registered E W ops) L := hL
  have hitems : L.map Prod.fst = (S.noted W ops).items := by rw [hL.items, h.registered]
  have fresh : ∀ tid, ¬ (S.noted W ops).hasTask W (W.task tid).name →
      ∀ tl ∈ s0.form.motions ++ (s0.form.forces ++ s0.form.acts), (W.task tl.tid).name ≠ (W.task tid).name := by
    intro tid hno tl htl e
    obtain ⟨fam, p, k, hm⟩ := mem_items hL.coh (tid := tl.tid) (List.mem_map_of_mem htl)
    rw [hitems] at hm
    exact hno ⟨_, hm, by simp [Item.isTask, e]⟩
  cases o with
  | task tid c => trivial
  | associate tid cid n =>
    right
    intro tl htl e
    obtain ⟨fam, p, k, hm⟩ := mem_items hL.coh (tid := tl.tid) (List.mem_map_of_mem (by simp [htl]))
    rw [hitems, e] at hm
    exact hf.2.2 fam p k hm
  | motion cid c => trivial
  | measured mid c => trivial
  | form o =>
    cases o with
    | addMotionTask tid w p d => exact ⟨fresh tid hf.fresh, addable_announced h hf⟩
    | addForceTask tid w p d => exact ⟨fresh tid hf.fresh, addable_announced h hf⟩
    | addActuationTask tid w p d => exact ⟨fresh tid hf.fresh, addable_announced h hf⟩
    | addRigidContact cid wf wm p =>
      refine ⟨?_, trivial⟩
      intro cl hcl e
      have hcid : cl.cid ∈ (L.map Prod.fst).filterMap Item.cid? := by
        rw [contact_cids hL.coh]; exact List.mem_map_of_mem hcl
      rw [hitems] at hcid
      obtain ⟨it, q1, q2⟩ := List.mem_filterMap.1 hcid
      have hnames : ∀ c, (s0.form.contactObj c).name = (S.obj c).name := fun c => congrFun hn.names c
      rw [hnames, hnames] at e
      cases it with
      | task => cases q2
      | contact c p' a b =>
        simp only [Item.cid?, Option.some.injEq] at q2
        subst q2
        exact hf.2 ⟨_, q1, by simp [Item.isContact, e]⟩
    | removeTask n => exact ⟨hf.1, trivial⟩
    | removeFromHqpData n => exact hf.elim
    | compute => exact hf.elim
    | setAssociated => exact hf.elim
    | _ => exact ⟨trivial, trivial⟩
  | compute w t => trivial

/-- A call that may follow the text does not stop a debug build. -/
theorem fine_not_fails (h : Reading E W S ops s0) (hd : E.ndebug = false) {o : Program.Op K} (hf : S.Fine E W ops o) :
    ¬ S.fails E W ops o := by
  have hst := program_story h.good
  obtain ⟨ht, -⟩ := program_tidy h.good
  obtain ⟨hi, hn, L, hL, -⟩ := tidy_impl ht
  have hL : Impl W s0.form (S.registered E W ops) L := hL
  have hfade : (S.story E W ops).fading = [] := by
    have hb := hL.breaking
    rw [h.registered, h.breaking, hst.trans] at hb
    simpa using hb
  have cycle : ∀ t, ¬ (S.story E W ops).fails (fun c => (S.obj c).kind) (fun c => (S.obj c).name)
      (S.registered E W ops) t := by
    rintro t ⟨pre, p, post, e, -⟩
    rw [hfade] at e
    simp at e
  cases o with
  | form f =>
    cases f with
    | removeTask n =>
      intro q
      exact q (by rw [h.registered]; exact hf.2 hd)
    | removeRigidContact n dur =>
      intro q
      exact q.2 (by rw [h.registered]; exact hf.2 hd)
    | compute cy t => exact hf.elim
    | _ => exact id
  | compute w t => exact cycle t
  | _ => exact id

theorem registered_snoc (h : GoodProgram E W S ops s0) (o : Program.Op K) :
    S.registered E W (ops ++ [o]) = (S.registered E W ops).after W (fun c => (S.obj c).name)
      (outcomes E.ndebug W s0.form (formCall E s0 o)) := by
  obtain ⟨ht, -⟩ := program_tidy h
  unfold Setup.registered registrations Registry.after
  rw [formCalls_snoc h.run, outcomes_append _ _ _ _ ht.run, List.foldl_append]

theorem registered_form (h : GoodProgram E W S ops s0) {o : Program.Op K} {f : Formulation.Op K}
    (e : formCall E s0 o = [f]) : S.registered E W (ops ++ [o]) =
      (S.registered E W ops).next W (fun c => (S.obj c).name) (Formulation.step E.ndebug W s0.form f).threw f := by
  rw [registered_snoc h, e]
  simp only [outcomes, Registry.after, List.foldl_cons]
  split <;> rfl

theorem checked_abrupt (hc : Checked E W S ops) : NoGradualRemoval ops := by
  intro n dur hm
  obtain ⟨pre, post, e⟩ := List.append_of_mem hm
  exact not_lt.2 (hc pre _ post e).1

/-- One more call. -/
theorem reading_snoc (hD : Declared E W S) (h : Reading E W S ops s0) (hn : NoGradualRemoval ops) {o : Program.Op K}
    (hf : S.Fine E W ops o) : ∃ s1, (Program.step E s0 o).state? = some s1 ∧ Reading E W S (ops ++ [o]) s1 := by
  have hm := fine_may hD h hf
  have ho := fine_orderly h hf
  have safe := step_safe h.good hm
  have hs : ∃ s1, (Program.step E s0 o).state? = some s1 := by
    cases hs : Program.step E s0 o with
    | ok s1 u => exact ⟨s1, rfl⟩
    | throw s1 => exact ⟨s1, rfl⟩
    | ub => have := safe.1; rw [hs] at this; cases this
    | abort =>
      cases hd : E.ndebug with
      | true =>
        obtain ⟨s1, e⟩ := safe.2 hd
        rw [hs] at e
        cases e
      | false => exact absurd ((C103_stops h.good hd hm ho).1 hs) (fine_not_fails h hd hf)
  obtain ⟨s1, hs⟩ := hs
  refine ⟨s1, hs, good_snoc h.good hm ho hs, wellTyped_snoc h.typed h.good.run hm ho, ?_, ?_, ?_⟩
  · rw [noted_snoc]
    cases o with
    | form f =>
      rw [registered_form h.good (o := .form f) (f := f) rfl, h.registered]
      refine refused_threw _ _ _ _ _ ?_ ?_
      · rintro cy t rfl; exact hf
      · rintro n d rfl; exact hf.1
    | associate tid cid n =>
      rw [registered_form h.good (o := .associate tid cid n) (f := .setAssociated tid n) rfl, h.registered]
      rfl
    | compute w t =>
      obtain ⟨s, hc⟩ := C92_returns h.good hm.1 hm.2 hn
      rw [registered_cycle h.good hc, reading_registry h]
      rfl
    | task | motion | measured =>
      rw [registered_snoc h.good, h.registered]
      rfl
  · rw [noted_snoc]
    refine breaking_read h.breaking ?_ ?_
    · rintro n d rfl; exact hf.1
    · rintro cy t rfl; exact hf
  · intro tid dt c n hd
    have h6 := h.six tid dt c n hd
    cases o with
    | task i k =>
      simp only [Program.step] at hs
      split at hs
      · cases hs
      · have upd : ∀ ob, ((s0.task i).call E k).state? = some ob → Six (Function.update s0.task i ob tid) := by
          intro ob hob
          by_cases hi : tid = i
          · subst hi
            rw [Function.update_self]
            have ha : (S.decl tid).Accepts E.robot k := hf
            rw [hd] at ha
            exact six_call (.inl ha) hob h6
          · rw [Function.update_of_ne hi]; exact h6
        split at hs
        · rename_i ob u hob; cases hs; exact upd ob (by rw [hob]; rfl)
        · rename_i ob hob; cases hs; exact upd ob (by rw [hob]; rfl)
        · cases hs
        · cases hs
    | associate i cid m =>
      simp only [Program.step] at hs
      split at hs
      · split at hs
        · rename_i ob u hob
          cases hs
          show Six (Function.update s0.task i ob tid)
          by_cases hi : tid = i
          · subst hi
            rw [Function.update_self]
            exact six_call (R := E.robot) (dt := dt) (c := c) (n := n) (.inr ⟨cid, m, rfl⟩) (by rw [hob]; rfl) h6
          · rw [Function.update_of_ne hi]; exact h6
        · cases hs
      · cases hs
    | motion | measured =>
      simp only [Program.step] at hs
      split at hs <;> cases hs <;> exact h6
    | form f =>
      simp only [Program.step] at hs
      split at hs
      · split at hs <;> cases hs <;> exact h6
      · cases hs
    | compute w t =>
      obtain ⟨s, hc⟩ := C92_returns h.good hm.1 hm.2 hn
      simp only [Program.step, hc, Res.state?, Option.some.injEq] at hs
      subst hs
      exact six_cycle h.good hm.1 hm.2 hc hd h6

theorem reading_start (hD : Declared E W S) : Reading E W S [] S.start := by
  have ht : WellTyped E W S [] := ⟨hD.names, hD.mfNames, hD.hygienic, hD.nv, hD.na, hD.motors, hD.nqa, hD.difference,
    hD.contacts, hD.built, hD.builtContact, hD.builtMeasured, trivial, fun pre o post e => (by simp at e)⟩
  refine ⟨start_good ht, ht, rfl, rfl, ?_⟩
  intro tid dt c n hd
  have hb := hD.built tid
  rw [hd] at hb
  have hb : S.start.task tid = .force (ForceTask.new (E.name tid) dt c n) := hb
  rw [hb]
  exact ⟨rfl, rfl⟩

theorem reading_run (hD : Declared E W S) : ∀ {ops : List (Program.Op K)}, Checked E W S ops →
    ∃ s, Reading E W S ops s := by
  intro ops
  induction ops using List.reverseRecOn with
  | nil => exact fun _ => ⟨_, reading_start hD⟩
  | append_singleton ops o ih =>
    intro hc
    have hc' : Checked E W S ops := fun pre o' post e => hc pre o' (post ++ [o]) (by rw [e]; simp)
    obtain ⟨s0, h⟩ := ih hc'
    obtain ⟨s1, -, h1⟩ := reading_snoc hD h (checked_abrupt hc') (hc ops o [] rfl)
    exact ⟨s1, h1⟩

/-- **C107.** A program whose text passes the check runs to its end, in a release build and in a debug build; it is
well-typed and orderly, and what is registered after it is what the text says. -/
theorem C107_runs (hD : Declared E W S) (hc : Checked E W S ops) :
    ∃ s, Program.run E S.start ops = some s ∧ GoodProgram E W S ops s ∧ WellTyped E W S ops ∧
      S.registered E W ops = S.noted W ops := by
  obtain ⟨s, h⟩ := reading_run hD hc
  exact ⟨s, h.good.run, h.good, h.typed, h.registered⟩

/-- **C107, cycles.** Every control cycle of a checked program returns: none has undefined behaviour, throws or stops at an
assertion. -/
theorem C107_cycles (hD : Declared E W S) {pre post : List (Program.Op K)} {w : Snapshot K} {t : K}
    (hc : Checked E W S (pre ++ .compute w t :: post)) :
    ∃ s0 s1, Program.run E S.start pre = some s0 ∧ Program.step E s0 (.compute w t) = .ok s1 () := by
  have hc' : Checked E W S pre := fun p o q e => hc p o (q ++ .compute w t :: post) (by rw [e]; simp)
  obtain ⟨s0, h⟩ := reading_run hD hc'
  have hm := fine_may hD h (hc pre _ post rfl)
  obtain ⟨s, e⟩ := C92_returns h.good hm.1 hm.2 (checked_abrupt hc')
  exact ⟨s0, s, h.good.run, e⟩

/-- **C107, with the solver (partial).** After every cycle of a checked program, every back-end whose external solver keeps
its promises and succeeds delivers a solution that obeys the text of the program, and nothing that obeys the text has a
smaller objective.  All hypotheses are about the text.  Missing: as in `C92_best_partial`. -/
theorem C107_best_partial (hD : Declared E W S) {pre post : List (Program.Op K)} {w : Snapshot K} {t : K}
    (hc : Checked E W S (pre ++ .compute w t :: post))
    (hu : ∀ fam tid k, .task fam tid 0 k ∈ (S.noted W pre).items → (S.decl tid).Upright w)
    (heq : ∀ fam tid k, .task fam tid 1 k ∈ (S.noted W pre).items → (S.decl tid).kind = .equality)
    (b : Bool) (t0 : Status.HQPStatus) (i : Int) (v : Solve.Objective K) :
    ∃ s, Program.run E S.start (pre ++ [.compute w t]) = some s ∧
      DeliversBest Solve.eiq (Solve.Eiq.init t0 i v) EiqSat (fun a => ∃ w, a.objective = .num w) true E W S pre w t s ∧
      DeliversBest Solve.fast (Solve.Eiq.init t0 i v) EiqSat (fun a => a.code = .optimal) true E W S pre w t s ∧
      (∀ fresh freshI neq nin, (problem s.form).head?.map Solver.count = some (neq, nin) →
        DeliversBest Solve.rt (Solve.Rt.init fresh freshI (nVar s.form) neq nin t0 i v) EiqSat
          (fun a => a.code = .optimal) true E W S pre w t s) ∧
      DeliversBest Solve.prox (Solve.Prox.init t0 i v) ProxSat (fun a => a.code = .solved) false E W S pre w t s ∧
      DeliversBest Solve.osqp (Solve.Osqp.init t0 i v) OsqpSat (fun a => a.code = .solved) false E W S pre w t s ∧
      DeliversBest Solve.mad (Solve.Mad.init b t0 i v) MadSat (fun a => a.code = .ok) true E W S pre w t s := by
  have hc' : Checked E W S pre := fun p o q e => hc p o (q ++ .compute w t :: post) (by rw [e]; simp)
  obtain ⟨s0, h⟩ := reading_run hD hc'
  have hm := fine_may hD h (hc pre _ post rfl)
  obtain ⟨s, e⟩ := C92_returns h.good hm.1 hm.2 (checked_abrupt hc')
  have hr : Program.run E S.start (pre ++ [.compute w t]) = some s := by
    have hg := good_snoc h.good hm (fine_orderly h (hc pre _ post rfl)) (s1 := s) (by simp only [Program.step, e]; rfl)
    exact hg.run
  refine ⟨s, hr, C92_best_partial h.good hm.1 hm.2 e ?_ ?_ b t0 i v⟩
  · rw [reading_registry h]; exact hu
  · rw [reading_registry h]; exact heq

end

namespace ArmDemo

theorem declared : Declared env world setup where
  names := good.names
  mfNames := good.mfNames
  hygienic := good.hygienic
  nv := good.nv
  na := good.na
  motors := good.motors
  nqa := good.nqa
  difference := good.difference
  contacts := good.contacts
  classes := fun _ => rfl
  built := good.built
  builtContact := good.builtContact
  builtMeasured := good.builtMeasured

/-- The text of the arm, two cycles, and the removal of the contact between them. -/
noncomputable def long : List (Program.Op ℝ) :=
  ops ++ [.compute snap 0, .form (.removeRigidContact "tip" 0), .compute snap 1]

theorem tip_name (c : Nat) : (setup.obj c).name = "tip" := rfl

theorem one_not_neg : ¬ ((1 : ℝ) < 0) := by norm_num

theorem two_not_neg : ¬ ((2 : ℝ) < 0) := by norm_num

/-- Before the first task. -/
theorem noted_none : (setup.noted world (ops.take 4)).items = [] := rfl

/-- Before the contact. -/
theorem noted_one : (setup.noted world (ops.take 5)).items = [.task .motion 0 1 2] := by
  simp [Setup.noted, Registry.readAll, ops, Registry.read, Registry.next, refused, Registry.empty, two_not_neg]

/-- Before the second task. -/
theorem noted_two : (setup.noted world (ops.take 6)).items = [.task .motion 0 1 2, .contact 0 0 1 1] := by
  simp [Setup.noted, Registry.readAll, ops, Registry.read, Registry.next, refused, Registry.empty, two_not_neg]

/-- Before the first cycle. -/
theorem noted_ops : (setup.noted world ops).items = [.task .motion 0 1 2, .contact 0 0 1 1, .task .motion 1 0 1] := by
  simp [Setup.noted, Registry.readAll, ops, Registry.read, Registry.next, refused, Registry.empty, two_not_neg, one_not_neg]

/-- Before the removal. -/
theorem noted_cycle : (setup.noted world (ops ++ [.compute snap 0])).items =
    [.task .motion 0 1 2, .contact 0 0 1 1, .task .motion 1 0 1] := by
  rw [noted_snoc]
  exact noted_ops

/-- Before the last cycle. -/
theorem noted_removed : (setup.noted world ((ops ++ [.compute snap 0]) ++ [.form (.removeRigidContact "tip" 0)])).items =
    [.task .motion 0 1 2, .task .motion 1 0 1] := by
  rw [noted_snoc]
  simp only [Registry.read, Registry.next, refused, lt_irrefl, if_false, Registry.dropContact, noted_cycle, tip_name]
  rfl

theorem fine_cycle {l : List (Program.Op ℝ)} (hi : ∀ it ∈ (setup.noted world l).items,
    it = .task .motion 0 1 2 ∨ it = .contact 0 0 1 1 ∨ it = .task .motion 1 0 1) (t : ℝ) :
    setup.Fine env world l (.compute snap t) := by
  refine ⟨snapOk, le_refl 3, ?_⟩
  intro fam tid p k hm
  rcases hi _ hm with e | e | e <;> cases e <;> exact ⟨rfl, rfl, trivial⟩

/-- The text passes the check. -/
theorem checked : Checked env world setup long := by
  refine split_cons trivial <| split_cons ?_ <| split_cons trivial <| split_cons trivial <| split_cons ?_ <|
    split_cons ?_ <| split_cons ?_ <| split_cons trivial <| split_cons ?_ <| split_cons ?_ <| split_cons ?_ ?_
  · rintro v ⟨⟩
  · refine ⟨rfl, Nat.one_lt_two, ?_, rfl, rfl, trivial⟩
    rintro ⟨it, hm, -⟩
    cases (noted_none ▸ hm : it ∈ ([] : List (Item ℝ)))
  · refine ⟨Nat.zero_lt_two, ?_⟩
    rintro ⟨it, hm, h⟩
    have hm : it ∈ (setup.noted world (ops.take 5)).items := hm
    rw [noted_one, List.mem_singleton] at hm
    subst hm
    cases h
  · refine ⟨rfl, Nat.zero_lt_two, ?_, rfl, rfl, trivial⟩
    rintro ⟨it, hm, h⟩
    have hm : it ∈ (setup.noted world (ops.take 6)).items := hm
    rw [noted_two] at hm
    simp only [List.mem_cons, List.not_mem_nil, or_false] at hm
    rcases hm with rfl | rfl <;> simp [Item.isTask, world] at h
  · refine fine_cycle (l := ops) ?_ 0
    rw [noted_ops]; simp
  · refine ⟨le_refl _, fun _ => ⟨.contact 0 0 1 1, ?_, ?_⟩⟩
    · show _ ∈ (setup.noted world (ops ++ [.compute snap 0])).items
      rw [noted_cycle]; simp
    · simp [Item.isContact, tip_name]
  · refine fine_cycle (l := (ops ++ [.compute snap 0]) ++ [.form (.removeRigidContact "tip" 0)]) ?_ 1
    rw [noted_removed]; simp
  · intro pre o post e
    cases pre <;> cases e

end ArmDemo

example : ∃ s, Program.run ArmDemo.env ArmDemo.setup.start ArmDemo.long = some s :=
  let ⟨s, h, _⟩ := C107_runs ArmDemo.declared ArmDemo.checked
  ⟨s, h⟩

/-- After the first cycle of the arm the promises about the solution hold. -/
example (b : Bool) (t0 : Status.HQPStatus) (i : Int) (v : Solve.Objective ℝ) :
    ∃ s, Program.run ArmDemo.env ArmDemo.setup.start (ArmDemo.ops ++ [.compute ArmDemo.snap 0]) = some s ∧
      DeliversBest Solve.mad (Solve.Mad.init b t0 i v) MadSat (fun a => a.code = .ok) true ArmDemo.env ArmDemo.world
        ArmDemo.setup ArmDemo.ops ArmDemo.snap 0 s := by
  obtain ⟨s, h1, -, -, -, -, -, h2⟩ := C107_best_partial ArmDemo.declared
    (pre := ArmDemo.ops) (w := ArmDemo.snap) (t := 0) (post := [.form (.removeRigidContact "tip" 0), .compute ArmDemo.snap 1])
    ArmDemo.checked
    (by
      rw [ArmDemo.noted_ops]
      intro fam tid k hm
      simp only [List.mem_cons, List.not_mem_nil, or_false, reduceCtorEq, false_or, Item.task.injEq] at hm
      rcases hm with ⟨-, -, h, -⟩ | ⟨-, rfl, -⟩
      · cases h
      · trivial)
    (by
      rw [ArmDemo.noted_ops]
      intro fam tid k hm
      simp only [List.mem_cons, List.not_mem_nil, or_false, reduceCtorEq, false_or, Item.task.injEq] at hm
      rcases hm with ⟨-, rfl, -⟩ | ⟨-, -, h, -⟩
      · rfl
      · cases h) b t0 i v
  exact ⟨s, h1, h2⟩

end Tsid.Props
