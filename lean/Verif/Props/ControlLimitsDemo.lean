import Verif.Props.ControlLimits

/-!
# C94: a hinge that swings between its limits

A control loop that meets the hypotheses of the theorems of C94: position limits ±2, velocity limit 3, acceleration
limit 2, time step 1/2; in every period of one second the hinge moves out, turns and comes back.
-/

set_option linter.unusedSectionVars false

namespace Tsid.Props

open Spec Filter Formulation Finset

namespace SwingDemo

open HingeDemo (hinge robot contacts touch touch_new)

noncomputable def env : Program.Env ℝ := ⟨true, fun _ => 0, hinge, fun _ => "limits", fun _ => "push", fun _ => 0⟩

def world : World := ⟨fun _ => ⟨"limits", "limits", .inequality, 1⟩, fun _ => "push"⟩

/-- The task after its constructor. -/
noncomputable def task0 : PosVelAcc ℝ :=
  { PosVelAcc.pre "limits" 1 1 (1 / 2) with
    m := ⟨⟨1, fun _ => 1⟩, [some 0],
      { Constraint.mkIneq "limits" 1 1 with
        mat := (Mat.zero 1 1).set 0 0 1, lb := ⟨1, fun _ => -big⟩, ub := ⟨1, fun _ => big⟩ }⟩ }

theorem task_new : PosVelAcc.new "limits" 1 1 (1 / 2 : ℝ) = some task0 := by
  have h1 : Tsid.trunc (Vec.sum (⟨1, fun _ => 1⟩ : Vec ℝ)) = 1 := by
    have : Vec.sum (⟨1, fun _ => 1⟩ : Vec ℝ) = ((1 : ℕ) : ℝ) := by simp [Vec.sum]
    rw [this, ArmDemo.trunc_nat]; rfl
  have h2 : maskLoop (⟨1, fun _ => 1⟩ : Vec ℝ) 0 (fun _ => 1) [0] (Mat.zero 1 1) [none] 0 =
      .ok [some 0] ((Mat.zero 1 1).set 0 0 1) := by
    simp only [maskLoop]
    rw [if_neg one_ne_zero, if_pos trivial, if_pos ⟨by decide, by decide⟩]
    rfl
  have e1 : maskLoop (⟨1, fun _ => 1⟩ : Vec ℝ) (1 - 1) (fun _ => 1) (List.range 1) (Mat.zero (1 : Int).toNat 1)
      (resizeAxes (PosVelAcc.pre "limits" 1 1 (1 / 2 : ℝ)).m.axes (1 : Int).toNat) 0 =
      .ok [some 0] ((Mat.zero 1 1).set 0 0 1) := h2
  have e2 : ∃ c, Masked.setMask 1 1 (1 - 1) (fun _ => 1) (PosVelAcc.pre "limits" 1 1 (1 / 2 : ℝ)).m ⟨1, fun _ => 1⟩ =
      .ok ⟨⟨1, fun _ => 1⟩, [some 0], c⟩ () ∧
      { c with ub := ⟨1, fun _ => big⟩, lb := ⟨1, fun _ => -big⟩ } = task0.m.con := by
    unfold Masked.setMask
    rw [if_pos rfl]
    dsimp only
    rw [h1, if_neg (by decide), e1]
    exact ⟨_, rfl, rfl⟩
  obtain ⟨c, e2, e3⟩ := e2
  unfold PosVelAcc.new PosVelAcc.setMask
  have e4 : Masked.setMask (PosVelAcc.pre "limits" 1 1 (1 / 2 : ℝ)).na (PosVelAcc.pre "limits" 1 1 (1 / 2 : ℝ)).nv
      ((PosVelAcc.pre "limits" 1 1 (1 / 2 : ℝ)).nv - (PosVelAcc.pre "limits" 1 1 (1 / 2 : ℝ)).na) (fun _ => 1)
      (PosVelAcc.pre "limits" 1 1 (1 / 2 : ℝ)).m ⟨1, fun _ => 1⟩ = .ok ⟨⟨1, fun _ => 1⟩, [some 0], c⟩ () := e2
  rw [if_pos (by norm_num), e4]
  have e5 : task0 = { PosVelAcc.pre "limits" 1 1 (1 / 2) with
      m := ⟨⟨1, fun _ => 1⟩, [some 0], task0.m.con⟩ } := rfl
  rw [e5, ← e3]

noncomputable def setup : Setup ℝ :=
  { robot := robot
    obj := contacts
    decl := fun _ => .posVelAcc (1 / 2)
    cdecl := fun _ => .point 0
    mdecl := fun _ => .force 0 fun _ => true
    task := fun _ => .posVelAcc task0
    motion := fun _ => .point 0 touch
    measured := fun _ => .force 0 (Measured3D.new 1 fun _ => true) }

noncomputable def call1 : TaskCall ℝ := .posVelAcc (.setPositionBounds ⟨1, fun _ => -2⟩ ⟨1, fun _ => 2⟩)
noncomputable def call2 : TaskCall ℝ := .posVelAcc (.setVelocityBounds ⟨1, fun _ => 3⟩)
noncomputable def call3 : TaskCall ℝ := .posVelAcc (.setAccelerationBounds ⟨1, fun _ => 2⟩)

noncomputable def ops : List (Program.Op ℝ) :=
  [.task 0 call1, .task 0 call2, .task 0 call3, .form (.addMotionTask 0 1 0 0)]

noncomputable def obj1 : PosVelAcc ℝ :=
  { task0 with qMin := ⟨1, fun _ => -2⟩, qMax := ⟨1, fun _ => 2⟩, impPos := true, impVia := true }
noncomputable def obj2 : PosVelAcc ℝ := { obj1 with dqMax := ⟨1, fun _ => 3⟩, impVel := true }
noncomputable def obj3 : PosVelAcc ℝ := { obj2 with ddqMax := ⟨1, fun _ => 2⟩, impAcc := true }

noncomputable def tasks1 : Nat → TaskObj ℝ := Function.update setup.task 0 (.posVelAcc obj1)
noncomputable def tasks2 : Nat → TaskObj ℝ := Function.update tasks1 0 (.posVelAcc obj2)
noncomputable def tasks3 : Nat → TaskObj ℝ := Function.update tasks2 0 (.posVelAcc obj3)

noncomputable def f0 : Tsid.State ℝ := Formulation.init robot contacts fun tid => (setup.task tid).assoc
noncomputable def f1 : Tsid.State ℝ := ArmDemo.added world f0 0 1 0

theorem step1 : Program.step env setup.start (.task 0 call1) = .ok ⟨f0, tasks1, setup.motion, setup.measured⟩ () := rfl
theorem step2 : Program.step env ⟨f0, tasks1, setup.motion, setup.measured⟩ (.task 0 call2) =
    .ok ⟨f0, tasks2, setup.motion, setup.measured⟩ () := rfl
theorem step3 : Program.step env ⟨f0, tasks2, setup.motion, setup.measured⟩ (.task 0 call3) =
    .ok ⟨f0, tasks3, setup.motion, setup.measured⟩ () := rfl
theorem form1 : Formulation.step true world f0 (.addMotionTask 0 1 0 0) = .ok f1 () :=
  ArmDemo.added_step (by norm_num) rfl
theorem task_of (f : Tsid.State ℝ) :
    (Program.world env ⟨f, tasks3, setup.motion, setup.measured⟩).task 0 = world.task 0 := rfl
theorem step4 : Program.step env ⟨f0, tasks3, setup.motion, setup.measured⟩ (.form (.addMotionTask 0 1 0 0)) =
    .ok ⟨f1, tasks3, setup.motion, setup.measured⟩ () := by
  have := ArmDemo.added_step (W := Program.world env ⟨f0, tasks3, setup.motion, setup.measured⟩) (s := f0) (tid := 0)
    (w := 1) (p := 0) (by norm_num) rfl
  rw [ArmDemo.added_task (task_of f0)] at this
  exact ArmDemo.step_form rfl this

theorem hygienic : Hygienic world := fun _ =>
  ⟨rfl, Demo.freeName_spec (show Demo.freeName "limits" = true by decide +kernel)⟩

theorem typed : WellTyped env world setup ops where
  names := fun _ => rfl
  mfNames := rfl
  hygienic := hygienic
  nv := rfl
  na := rfl
  motors := le_refl _
  nqa := le_refl _
  difference := fun _ _ => rfl
  contacts := fun _ => ⟨"tip", .point, fun _ => 0, ⟨0, 0, 1⟩, 1 / 2, 0, 40, rfl⟩
  built := fun _ => ⟨task0, task_new, rfl⟩
  builtContact := fun _ => ⟨fun _ => 0, fun _ => 0, touch, touch_new, rfl⟩
  builtMeasured := fun _ => rfl
  orderly := by
    simp only [ops, EveryCall, step1, step2, step3, step4, Res.state?]
    refine ⟨trivial, trivial, trivial, ⟨?_, rfl⟩, trivial⟩
    intro tl htl; cases htl
  may := by
    refine split_cons ?_ <| split_cons ?_ <| split_cons ?_ <| split_cons ⟨rfl, Nat.zero_lt_two⟩ ?_
    · exact ⟨trivial, trivial, fun q v e => (by cases e)⟩
    · exact ⟨trivial, trivial, fun q v e => (by cases e)⟩
    · exact ⟨trivial, trivial, fun q v e => (by cases e)⟩
    · intro pre o post e
      cases pre <;> cases e

theorem calls : formCalls env setup.start ops = [.addMotionTask 0 1 0 0] := by
  simp only [ops, formCalls, formCall, step1, step2, step3, step4, Res.state?]
  rfl

theorem registered : setup.registered env world ops = ⟨[.task .motion 0 0 1], [], 0, []⟩ := by
  unfold Setup.registered
  rw [calls]
  unfold registrations
  have : outcomes true world f0 [.addMotionTask 0 1 0 0] = [(.addMotionTask 0 1 0 0, false)] := by
    simp only [outcomes, form1, Res.state?, Res.threw]
  rw [show init setup.robot setup.obj (fun tid => (setup.task tid).assoc) = f0 from rfl,
    show env.ndebug = true from rfl, this]
  rfl

/-- The velocity at the beginning of each period. -/
noncomputable def speed (n : ℕ) : ℝ := (-1) ^ n

theorem speed_abs (n : ℕ) : |speed n| = 1 := by simp [speed, abs_pow]

noncomputable def snap (n : ℕ) : Snapshot ℝ :=
  { q := ⟨1, fun _ => 0⟩, v := ⟨1, fun _ => speed n⟩, M := Mat.identity 1, nle := Vec.zero 1
    frame := fun _ => ⟨SE3.one, 0, 0, fun _ => 0⟩
    com := ⟨0, 0, 0, fun _ => 0⟩
    Ag := ⟨6, 1, fun _ _ => 0⟩
    dh := 0
    garbage := fun _ _ => 0 }

/-- One cycle per second. -/
noncomputable def loop : Loop ℝ :=
  { calls := fun n => if n = 0 then ops else []
    robot := snap
    time := fun n => n }

/-- The acceleration in each period. -/
noncomputable def acc (n : ℕ) : Vec ℝ := ⟨1, fun _ => -2 * speed n⟩

theorem snapOk (n : ℕ) : SnapshotOk env.robot.nv (snap n) :=
  ⟨rfl, rfl, rfl, rfl, rfl, rfl, fun _ => ArmDemo.snapOk.rot 0⟩

theorem items (t : ℝ) : (setup.registry env world ops t).items = [.task .motion 0 0 1] := by
  change (Registry.expire _ (setup.registered env world ops) t).items = _
  rw [registered]
  rfl

theorem mayCycle (n : ℕ) : MayCycle env world setup ops (snap n) (loop.time n) where
  q := le_refl 1
  classes := fun _ => rfl
  announced := by
    intro fam tid p k h
    rw [items] at h
    cases List.mem_singleton.1 h
    exact ⟨rfl, rfl⟩
  supported := by
    intro fam tid p k h
    rw [items] at h
    cases List.mem_singleton.1 h
    intro i _
    rfl

theorem loop_typed : loop.Typed env world setup ∧ ∀ n,
    (setup.registry env world (loop.text n) (loop.time n)).items = [.task .motion 0 0 1] ∧
    ∀ tid, taskCalls tid (loop.text n) = taskCalls tid ops := by
  obtain ⟨h1, h2⟩ := C93_steady (L := loop) (E := env) (W := world) (S := setup) rfl typed
    (by intro n dur h; simp [loop, ops] at h) (by rw [show loop.calls 0 = ops from rfl, registered])
    (fun n => by simp [loop]) snapOk mayCycle
  refine ⟨h1, fun n => ⟨?_, (h2 n).2.1⟩⟩
  rw [(h2 n).1, show loop.calls 0 = ops from rfl, registered]

noncomputable def limits : LimitSettings ℝ :=
  ⟨⟨1, fun _ => 1⟩, ⟨1, fun _ => -2⟩, ⟨1, fun _ => 2⟩, ⟨1, fun _ => 3⟩, ⟨1, fun _ => 2⟩, true, true, true, true⟩

/-- The settings of the task in every cycle. -/
theorem settings (n : ℕ) : limitsOf env.robot.na 0 (loop.text n) = limits := by
  unfold limitsOf
  rw [(loop_typed.2 n).2]
  rfl

theorem complete : limits.Complete env.robot.na := ⟨fun _ _ => rfl, rfl, rfl, rfl, rfl⟩

theorem roomy : ∀ j, j < env.robot.na → Roomy (2 * (1 / 2)) (limits.qMin j) (limits.qMax j) (limits.dqMax j)
    (limits.ddqMax j) := by
  intro j _
  show Roomy (2 * (1 / 2) : ℝ) (-2) 2 3 2
  unfold Roomy
  norm_num

/-- States not far from the middle that are not fast are viable. -/
theorem viable_near {x y : ℝ} (hx : |x| ≤ 1 / 4) (hy : |y| ≤ 1) : ViableState (-2) 2 3 2 x y := by
  rw [abs_le] at hx hy
  refine ⟨⟨by linarith, by linarith⟩, abs_le.2 ⟨by linarith, by linarith⟩, Or.inr fun t ht => ?_, Or.inr fun t ht => ?_⟩
  · unfold posAt
    nlinarith [sq_nonneg (t - 1 / 2), mul_nonneg ht (by linarith : 0 ≤ 1 - y)]
  · unfold posAt
    nlinarith [sq_nonneg (t - 1 / 2), mul_nonneg ht (by linarith : 0 ≤ 1 + y)]

theorem viable (n : ℕ) : AllViable 1 env.robot.nv env.robot.na limits (snap n).q (snap n).v := by
  intro j _
  exact viable_near (x := 0) (by norm_num) (speed_abs n).le

theorem safe (n : ℕ) : SafeFor (2 * (1 / 2)) (-2) 2 3 2 0 (speed n) (-2 * speed n) := by
  refine ⟨by rw [abs_mul, speed_abs]; norm_num, fun t h0 h1 => viable_near ?_ ?_⟩
  · have e : posAt 0 (speed n) (-2 * speed n) t = speed n * (t * (1 - t)) := by unfold posAt; ring
    rw [e, abs_mul, speed_abs, one_mul, abs_of_nonneg (mul_nonneg h0 (by linarith))]
    nlinarith [sq_nonneg (t - 1 / 2)]
  · have e : velAt (speed n) (-2 * speed n) t = speed n * (1 - 2 * t) := by unfold velAt; ring
    rw [e, abs_mul, speed_abs, one_mul, abs_le]
    constructor <;> linarith

theorem only (n : ℕ) : setup.Only env world (loop.text n) (loop.time n) 0 := by
  obtain ⟨hi, -⟩ := loop_typed.2 n
  refine ⟨⟨1, by rw [hi]; exact List.mem_singleton.2 rfl⟩, fun fam i k hk => ?_, fun cid p wm wf hk => ?_⟩
  · rw [hi] at hk
    cases List.mem_singleton.1 hk
    exact ⟨rfl, rfl⟩
  · rw [hi] at hk
    cases List.mem_singleton.1 hk

theorem soft (n : ℕ) : setup.SoftEqualities env world (loop.text n) (loop.time n) := by
  intro fam tid k hk
  rw [(loop_typed.2 n).1] at hk
  cases List.mem_singleton.1 hk

/-- The accelerations of the motion satisfy the first level of every problem. -/
theorem loop_runs : loop.Runs env world setup acc ∧ loop.Tries env world setup acc := by
  have key : ∀ n, ∃ s0 s l0 l1, ∃ x : Vec ℝ, GoodProgram env world setup (loop.text n) s0 ∧
      SnapshotOk env.robot.nv (loop.robot n) ∧ MayCycle env world setup (loop.text n) (loop.robot n) (loop.time n) ∧
      Program.compute env (loop.robot n) (loop.time n) s0 = .ok s () ∧ problem s.form = [l0, l1] ∧ x.size = nVar s.form ∧
      Feasible l0 x ∧ (getAccelerations s.form x).val? = some (acc n) := by
    intro n
    obtain ⟨s0, s, hg, hw, hm, hc⟩ := typed_cycle loop_typed.1 rfl n
    obtain ⟨hi, -⟩ := loop_typed.2 n
    obtain ⟨l0, l1, hp, -, -⟩ := program_admissible hg hw hm hc (soft n)
    have hx : ({ size := nVar s.form, get := fun _ => -2 * speed n } : Vec ℝ).size = nVar s.form := rfl
    obtain ⟨d, hd, -⟩ := C89_partial hg hw hc hp (soft n) (force_contacts hm) hx
    obtain ⟨hdz, hdv, hdyn⟩ := actuated_dynamics hg rfl hw hc hx hd
    refine ⟨s0, s, l0, l1, _, hg, hw, hm, hc, hp, hx, ?_, ?_⟩
    · refine (C92_partial hg hw hm hc (fun _ _ _ _ => trivial) hp hx hd).2 ⟨hdyn, ?_, ?_, ?_⟩
      · intro fam tid k hk
        have hk' := hk
        rw [hi] at hk'
        cases List.mem_singleton.1 hk'
        have := C94_asks hg hw hc hk (dt := 1 / 2) rfl (by rw [settings]; exact complete) (by rw [settings]; exact roomy)
          (by rw [settings]; exact viable n) (ctx env (loop.robot n) s.form) (taskCalls 0 (loop.text n))
          (history env setup.start (loop.text n) 0) d.dv.get
        refine this.2 fun j hj => ?_
        rw [settings, hdv]
        exact safe n
      · intro cid wm wf hk
        rw [hi] at hk
        cases List.mem_singleton.1 hk
      · intro cid p wm wf hk
        rw [hi] at hk
        cases List.mem_singleton.1 hk
    · rw [hd.dv]
      have e : ∀ v : Vec ℝ, v.size = 1 → (v.get = fun _ => -2 * speed n) → v = acc n := by
        rintro ⟨k, g⟩ rfl rfl
        rfl
      rw [e d.dv hdz hdv]
  constructor
  · intro n
    obtain ⟨s0, s, l0, l1, x, h1, h2, h3, h4, h5, h6, h7, h8⟩ := key n
    exact ⟨s0, s, l0, l1, x, h1, h2, h4, h5, h6, h7, h8⟩
  · intro n
    obtain ⟨s0, s, l0, l1, x, h1, h2, h3, h4, h5, h6, h7, h8⟩ := key n
    exact ⟨s0, s, l0, l1, x, h1, h2, h3, h4, h5, h6, fun _ => h7, h8⟩

theorem moves (n : ℕ) : MovesTo 1 env.robot.nv env.robot.na 1 (loop.robot n).q (loop.robot n).v (acc n).get
    (loop.robot (n + 1)).q (loop.robot (n + 1)).v := by
  intro j _
  constructor
  · show (0 : ℝ) = posAt 0 (speed n) (-2 * speed n) 1
    unfold posAt
    ring
  · show speed (n + 1) = velAt (speed n) (-2 * speed n) 1
    unfold velAt speed
    rw [pow_succ]
    ring

/-- The hypotheses of `C94_forever_partial` are met: the hinge is inside its limits at every instant of every period. -/
example (n : ℕ) (t : ℝ) (h0 : 0 ≤ t) (h1 : t ≤ 1) :
    ViableState (-2) 2 3 2 (posAt 0 (speed n) (-2 * speed n) t) (velAt (speed n) (-2 * speed n) t) :=
  ((C94_forever_partial loop_runs.1 (tid := 0) (fun n => (only n).1) (dt := 1 / 2) rfl settings complete roomy (fun _ => rfl)
    (viable 0) (d := fun _ => 1) (fun _ => ⟨by norm_num, by norm_num⟩) moves n).2 0 Nat.zero_lt_one).2 t h0 h1

/-- Those of `C94_alone_partial` as well. -/
example : loop.Runs env world setup acc :=
  (C94_alone_partial loop_runs.2 rfl (tid := 0) only soft (dt := 1 / 2) rfl settings complete roomy (fun _ => rfl)
    (viable 0) (d := fun _ => 1) (fun _ => ⟨by norm_num, by norm_num⟩) moves).1

end SwingDemo

/-! ## Velocity limits -/

namespace BoundsDemo

open HingeDemo (hinge robot contacts touch touch_new)
open SwingDemo (speed speed_abs snap acc)

noncomputable def env : Program.Env ℝ := ⟨true, fun _ => 0, hinge, fun _ => "bounds", fun _ => "push", fun _ => 0⟩

def world : World := ⟨fun _ => ⟨"bounds", "bounds", .bound, 1⟩, fun _ => "push"⟩

/-- The task after its constructor. -/
noncomputable def task0 : JointBounds ℝ :=
  { nv := 1, na := 1, dt := 1
    vLb := ⟨1, fun _ => -big⟩, vUb := ⟨1, fun _ => big⟩
    aLb := ⟨1, fun _ => -big⟩, aUb := ⟨1, fun _ => big⟩
    con := { Constraint.mkBound "bounds" 1 with
      lb := ⟨1, fun i => if i < 1 - 1 then -big else 0⟩
      ub := ⟨1, fun i => if i < 1 - 1 then big else 0⟩ } }

theorem task_new : JointBounds.new "bounds" 1 1 (1 : ℝ) = some task0 := by
  unfold JointBounds.new
  rw [if_pos one_pos]
  rfl

noncomputable def setup : Setup ℝ :=
  { robot := robot
    obj := contacts
    decl := fun _ => .jointBounds 1
    cdecl := fun _ => .point 0
    mdecl := fun _ => .force 0 fun _ => true
    task := fun _ => .jointBounds task0
    motion := fun _ => .point 0 touch
    measured := fun _ => .force 0 (Measured3D.new 1 fun _ => true) }

noncomputable def call1 : TaskCall ℝ := .jointBounds (.setVelocityBounds ⟨1, fun _ => -1⟩ ⟨1, fun _ => 1⟩)
noncomputable def call2 : TaskCall ℝ := .jointBounds (.setAccelerationBounds ⟨1, fun _ => -2⟩ ⟨1, fun _ => 2⟩)

noncomputable def ops : List (Program.Op ℝ) := [.task 0 call1, .task 0 call2, .form (.addMotionTask 0 1 0 0)]

noncomputable def obj1 : JointBounds ℝ := { task0 with vLb := ⟨1, fun _ => -1⟩, vUb := ⟨1, fun _ => 1⟩ }
noncomputable def obj2 : JointBounds ℝ := { obj1 with aLb := ⟨1, fun _ => -2⟩, aUb := ⟨1, fun _ => 2⟩ }

noncomputable def tasks1 : Nat → TaskObj ℝ := Function.update setup.task 0 (.jointBounds obj1)
noncomputable def tasks2 : Nat → TaskObj ℝ := Function.update tasks1 0 (.jointBounds obj2)

noncomputable def f0 : Tsid.State ℝ := Formulation.init robot contacts fun tid => (setup.task tid).assoc
noncomputable def f1 : Tsid.State ℝ := ArmDemo.added world f0 0 1 0

theorem step1 : Program.step env setup.start (.task 0 call1) = .ok ⟨f0, tasks1, setup.motion, setup.measured⟩ () := rfl
theorem step2 : Program.step env ⟨f0, tasks1, setup.motion, setup.measured⟩ (.task 0 call2) =
    .ok ⟨f0, tasks2, setup.motion, setup.measured⟩ () := rfl
theorem form1 : Formulation.step true world f0 (.addMotionTask 0 1 0 0) = .ok f1 () :=
  ArmDemo.added_step (by norm_num) rfl
theorem task_of (f : Tsid.State ℝ) :
    (Program.world env ⟨f, tasks2, setup.motion, setup.measured⟩).task 0 = world.task 0 := rfl
theorem step3 : Program.step env ⟨f0, tasks2, setup.motion, setup.measured⟩ (.form (.addMotionTask 0 1 0 0)) =
    .ok ⟨f1, tasks2, setup.motion, setup.measured⟩ () := by
  have := ArmDemo.added_step (W := Program.world env ⟨f0, tasks2, setup.motion, setup.measured⟩) (s := f0) (tid := 0)
    (w := 1) (p := 0) (by norm_num) rfl
  rw [ArmDemo.added_task (task_of f0)] at this
  exact ArmDemo.step_form rfl this

theorem hygienic : Hygienic world := fun _ =>
  ⟨rfl, Demo.freeName_spec (show Demo.freeName "bounds" = true by decide +kernel)⟩

theorem typed : WellTyped env world setup ops where
  names := fun _ => rfl
  mfNames := rfl
  hygienic := hygienic
  nv := rfl
  na := rfl
  motors := le_refl _
  nqa := le_refl _
  difference := fun _ _ => rfl
  contacts := fun _ => ⟨"tip", .point, fun _ => 0, ⟨0, 0, 1⟩, 1 / 2, 0, 40, rfl⟩
  built := fun _ => ⟨task0, task_new, rfl⟩
  builtContact := fun _ => ⟨fun _ => 0, fun _ => 0, touch, touch_new, rfl⟩
  builtMeasured := fun _ => rfl
  orderly := by
    simp only [ops, EveryCall, step1, step2, step3, Res.state?]
    refine ⟨trivial, trivial, ⟨?_, rfl⟩, trivial⟩
    intro tl htl; cases htl
  may := by
    refine split_cons ?_ <| split_cons ?_ <| split_cons ⟨rfl, Nat.zero_lt_two⟩ ?_
    · exact fun v e => (by cases e)
    · exact fun v e => (by cases e)
    · intro pre o post e
      cases pre <;> cases e

theorem calls : formCalls env setup.start ops = [.addMotionTask 0 1 0 0] := by
  simp only [ops, formCalls, formCall, step1, step2, step3, Res.state?]
  rfl

theorem registered : setup.registered env world ops = ⟨[.task .motion 0 0 1], [], 0, []⟩ := by
  unfold Setup.registered
  rw [calls]
  unfold registrations
  have : outcomes true world f0 [.addMotionTask 0 1 0 0] = [(.addMotionTask 0 1 0 0, false)] := by
    simp only [outcomes, form1, Res.state?, Res.threw]
  rw [show init setup.robot setup.obj (fun tid => (setup.task tid).assoc) = f0 from rfl,
    show env.ndebug = true from rfl, this]
  rfl

noncomputable def loop : Loop ℝ :=
  { calls := fun n => if n = 0 then ops else []
    robot := snap
    time := fun n => n }

theorem snapOk (n : ℕ) : SnapshotOk env.robot.nv (snap n) := SwingDemo.snapOk n

theorem items (t : ℝ) : (setup.registry env world ops t).items = [.task .motion 0 0 1] := by
  change (Registry.expire _ (setup.registered env world ops) t).items = _
  rw [registered]
  rfl

theorem mayCycle (n : ℕ) : MayCycle env world setup ops (snap n) (loop.time n) where
  q := le_refl 1
  classes := fun _ => rfl
  announced := by
    intro fam tid p k h
    rw [items] at h
    cases List.mem_singleton.1 h
    exact ⟨rfl, rfl⟩
  supported := by
    intro fam tid p k h
    rw [items] at h
    cases List.mem_singleton.1 h
    trivial

theorem loop_typed : loop.Typed env world setup ∧ ∀ n,
    (setup.registry env world (loop.text n) (loop.time n)).items = [.task .motion 0 0 1] ∧
    ∀ tid, taskCalls tid (loop.text n) = taskCalls tid ops := by
  obtain ⟨h1, h2⟩ := C93_steady (L := loop) (E := env) (W := world) (S := setup) rfl typed
    (by intro n dur h; simp [loop, ops] at h) (by rw [show loop.calls 0 = ops from rfl, registered])
    (fun n => by simp [loop]) snapOk mayCycle
  refine ⟨h1, fun n => ⟨?_, (h2 n).2.1⟩⟩
  rw [(h2 n).1, show loop.calls 0 = ops from rfl, registered]

/-- The settings of the task in every cycle. -/
theorem settings (n : ℕ) : (BoundSettings.fresh env.robot.na (1 : ℝ)).afterAll env.robot.na
    ((taskCalls 0 (loop.text n)).filterMap jointBounds?) =
    ⟨1, ⟨1, fun _ => -1⟩, ⟨1, fun _ => 1⟩, ⟨1, fun _ => -2⟩, ⟨1, fun _ => 2⟩⟩ := by
  rw [(loop_typed.2 n).2]
  rfl

theorem soft (n : ℕ) : setup.SoftEqualities env world (loop.text n) (loop.time n) := by
  intro fam tid k hk
  rw [(loop_typed.2 n).1] at hk
  cases List.mem_singleton.1 hk

/-- The accelerations of the motion satisfy the first level of every problem. -/
theorem loop_runs : loop.Runs env world setup acc := by
  intro n
  obtain ⟨s0, s, hg, hw, hm, hc⟩ := typed_cycle loop_typed.1 rfl n
  obtain ⟨hi, -⟩ := loop_typed.2 n
  obtain ⟨l0, l1, hp, -, -⟩ := program_admissible hg hw hm hc (soft n)
  have hx : ({ size := nVar s.form, get := fun _ => -2 * speed n } : Vec ℝ).size = nVar s.form := rfl
  obtain ⟨d, hd, -⟩ := C89_partial hg hw hc hp (soft n) (force_contacts hm) hx
  obtain ⟨hdz, hdv, hdyn⟩ := actuated_dynamics hg rfl hw hc hx hd
  refine ⟨s0, s, l0, l1, _, hg, hw, hc, hp, hx, ?_, ?_⟩
  · refine (C92_partial hg hw hm hc (fun _ _ _ _ => trivial) hp hx hd).2 ⟨hdyn, ?_, ?_, ?_⟩
    · intro fam tid k hk
      rw [hi] at hk
      cases List.mem_singleton.1 hk
      show BoundSettings.Respected 1 1 ((BoundSettings.fresh env.robot.na (1 : ℝ)).afterAll env.robot.na
        ((taskCalls 0 (loop.text n)).filterMap jointBounds?)) (snap n).v.get d.dv.get
      rw [settings, hdv]
      have := abs_le.1 (speed_abs n).le
      refine ⟨fun i hi => absurd hi (by omega), fun j _ => ⟨⟨?_, ?_⟩, ?_, ?_⟩⟩
      · show -2 ≤ -2 * speed n
        linarith
      · show -2 * speed n ≤ 2
        linarith
      · show -1 ≤ speed n + 1 * (-2 * speed n)
        linarith
      · show speed n + 1 * (-2 * speed n) ≤ 1
        linarith
    · intro cid wm wf hk
      rw [hi] at hk
      cases List.mem_singleton.1 hk
    · intro cid p wm wf hk
      rw [hi] at hk
      cases List.mem_singleton.1 hk
  · rw [hd.dv]
    have e : ∀ v : Vec ℝ, v.size = 1 → (v.get = fun _ => -2 * speed n) → v = acc n := by
      rintro ⟨k, g⟩ rfl rfl
      rfl
    rw [e d.dv hdz hdv]

/-- The hypotheses of `C94_velocity_partial` are met: the speed of the hinge never exceeds 1. -/
example (n : ℕ) (t : ℝ) (h0 : 0 ≤ t) (h1 : t ≤ 1) : -1 ≤ velAt (speed n) (-2 * speed n) t ∧ velAt (speed n) (-2 * speed n) t ≤ 1 :=
  (C94_velocity_partial loop_runs (tid := 0) (fun n => ⟨1, by rw [(loop_typed.2 n).1]; exact List.mem_singleton.2 rfl⟩)
    (dt := 1) rfl settings one_pos (j := 0) Nat.zero_lt_one (abs_le.1 (speed_abs 0).le) (d := fun _ => 1)
    (fun _ => ⟨zero_le_one, le_rfl⟩) (fun n => (SwingDemo.moves n 0 Nat.zero_lt_one).2) n).2 t h0 h1

end BoundsDemo

end Tsid.Props
