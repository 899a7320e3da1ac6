import Verif.Props.ControlLimitsDemo
import Verif.Props.ProgramText

/-!
# C104: a hinge with a speed limit

A control loop that meets the hypotheses of the theorems of C104: the task of combined joint limits with velocity limit 1
and acceleration limit 2, time step 1/2, and no position limits.
-/

set_option linter.unusedSectionVars false

namespace Tsid.Props

open Spec Filter Formulation Finset

namespace SpeedDemo

open HingeDemo (hinge robot contacts touch touch_new)
open SwingDemo (speed speed_abs snap acc env world task0 task_new setup f0 f1 form1 hygienic snapOk)

noncomputable def call1 : TaskCall ℝ := .posVelAcc (.setVelocityBounds ⟨1, fun _ => 1⟩)
noncomputable def call2 : TaskCall ℝ := .posVelAcc (.setAccelerationBounds ⟨1, fun _ => 2⟩)

noncomputable def ops : List (Program.Op ℝ) := [.task 0 call1, .task 0 call2, .form (.addMotionTask 0 1 0 0)]

noncomputable def obj1 : PosVelAcc ℝ := { task0 with dqMax := ⟨1, fun _ => 1⟩, impVel := true }
noncomputable def obj2 : PosVelAcc ℝ := { obj1 with ddqMax := ⟨1, fun _ => 2⟩, impAcc := true }

noncomputable def tasks1 : Nat → TaskObj ℝ := Function.update setup.task 0 (.posVelAcc obj1)
noncomputable def tasks2 : Nat → TaskObj ℝ := Function.update tasks1 0 (.posVelAcc obj2)

theorem step1 : Program.step env setup.start (.task 0 call1) = .ok ⟨f0, tasks1, setup.motion, setup.measured⟩ () := rfl
theorem step2 : Program.step env ⟨f0, tasks1, setup.motion, setup.measured⟩ (.task 0 call2) =
    .ok ⟨f0, tasks2, setup.motion, setup.measured⟩ () := rfl
theorem task_of (f : Tsid.State ℝ) :
    (Program.world env ⟨f, tasks2, setup.motion, setup.measured⟩).task 0 = world.task 0 := rfl
theorem step3 : Program.step env ⟨f0, tasks2, setup.motion, setup.measured⟩ (.form (.addMotionTask 0 1 0 0)) =
    .ok ⟨f1, tasks2, setup.motion, setup.measured⟩ () := by
  have := ArmDemo.added_step (W := Program.world env ⟨f0, tasks2, setup.motion, setup.measured⟩) (s := f0) (tid := 0)
    (w := 1) (p := 0) (by norm_num) rfl
  rw [ArmDemo.added_task (task_of f0)] at this
  exact ArmDemo.step_form rfl this

theorem typed : WellTyped env world setup ops where
  names := fun _ => rfl
  mfNames := rfl
  hygienic := hygienic
  nv := rfl
  na := rfl
  motors := le_refl _
  nqa := le_refl _
  difference := fun _ _ => rfl
  contacts := fun _ => ⟨"tip", .point, fun _ => 0, ⟨0, 0, 1⟩, 1 / 2, 0, 40, rfl⟩
  built := fun _ => ⟨task0, task_new, rfl⟩
  builtContact := fun _ => ⟨fun _ => 0, fun _ => 0, touch, touch_new, rfl⟩
  builtMeasured := fun _ => rfl
  orderly := by
    simp only [ops, EveryCall, step1, step2, step3, Res.state?]
    refine ⟨trivial, trivial, ⟨?_, rfl⟩, trivial⟩
    intro tl htl; cases htl
  may := by
    refine split_cons ?_ <| split_cons ?_ <| split_cons ⟨rfl, Nat.zero_lt_two⟩ ?_
    · exact ⟨trivial, trivial, fun q v e => (by cases e)⟩
    · exact ⟨trivial, trivial, fun q v e => (by cases e)⟩
    · intro pre o post e
      cases pre <;> cases e

theorem calls : formCalls env setup.start ops = [.addMotionTask 0 1 0 0] := by
  simp only [ops, formCalls, formCall, step1, step2, step3, Res.state?]
  rfl

theorem registered : setup.registered env world ops = ⟨[.task .motion 0 0 1], [], 0, []⟩ := by
  unfold Setup.registered
  rw [calls]
  unfold registrations
  have : outcomes true world f0 [.addMotionTask 0 1 0 0] = [(.addMotionTask 0 1 0 0, false)] := by
    simp only [outcomes, form1, Res.state?, Res.threw]
  rw [show init setup.robot setup.obj (fun tid => (setup.task tid).assoc) = f0 from rfl,
    show env.ndebug = true from rfl, this]
  rfl

noncomputable def loop : Loop ℝ :=
  { calls := fun n => if n = 0 then ops else []
    robot := snap
    time := fun n => n }

theorem items (t : ℝ) : (setup.registry env world ops t).items = [.task .motion 0 0 1] := by
  change (Registry.expire _ (setup.registered env world ops) t).items = _
  rw [registered]
  rfl

theorem mayCycle (n : ℕ) : MayCycle env world setup ops (snap n) (loop.time n) where
  q := le_refl 1
  classes := fun _ => rfl
  announced := by
    intro fam tid p k h
    rw [items] at h
    cases List.mem_singleton.1 h
    exact ⟨rfl, rfl⟩
  supported := by
    intro fam tid p k h
    rw [items] at h
    cases List.mem_singleton.1 h
    intro i _
    rfl

theorem loop_typed : loop.Typed env world setup ∧ ∀ n,
    (setup.registry env world (loop.text n) (loop.time n)).items = [.task .motion 0 0 1] ∧
    ∀ tid, taskCalls tid (loop.text n) = taskCalls tid ops := by
  obtain ⟨h1, h2⟩ := C93_steady (L := loop) (E := env) (W := world) (S := setup) rfl typed
    (by intro n dur h; simp [loop, ops] at h) (by rw [show loop.calls 0 = ops from rfl, registered])
    (fun n => by simp [loop]) snapOk mayCycle
  refine ⟨h1, fun n => ⟨?_, (h2 n).2.1⟩⟩
  rw [(h2 n).1, show loop.calls 0 = ops from rfl, registered]

noncomputable def limits : LimitSettings ℝ :=
  ⟨⟨1, fun _ => 1⟩, ⟨1, fun _ => -10000000000⟩, ⟨1, fun _ => 10000000000⟩, ⟨1, fun _ => 1⟩, ⟨1, fun _ => 2⟩,
    false, true, false, true⟩

/-- The settings of the task in every cycle. -/
theorem settings (n : ℕ) : limitsOf env.robot.na 0 (loop.text n) = limits := by
  unfold limitsOf
  rw [(loop_typed.2 n).2]
  rfl

theorem never (n : ℕ) : ∀ o ∈ (taskCalls 0 (loop.text n)).filterMap posVelAcc?,
    turnsPos env.robot.na o = false ∧ turnsVia env.robot.na o = false := by
  rw [(loop_typed.2 n).2]
  intro o ho
  have : (taskCalls 0 ops).filterMap posVelAcc? = [.setVelocityBounds ⟨1, fun _ => 1⟩, .setAccelerationBounds ⟨1, fun _ => 2⟩] := rfl
  rw [this] at ho
  simp only [List.mem_cons, List.not_mem_nil, or_false] at ho
  rcases ho with rfl | rfl <;> exact ⟨rfl, rfl⟩

/-- To keep the limits of the hinge is to stay below speed 1 with an acceleration of at most 2. -/
theorem keeps_iff (j : Nat) (q dq a : ℝ) : limits.Keeps (2 * (1 / 2)) j q dq a ↔ |dq + a| ≤ 1 ∧ |a| ≤ 2 := by
  have e : velAt dq a (2 * (1 / 2)) = dq + a := by unfold velAt; ring
  constructor
  · rintro ⟨-, h2, -, h4, -⟩
    have h2 := h2 rfl
    rw [e] at h2
    exact ⟨h2, h4 rfl⟩
  · rintro ⟨h2, h4⟩
    refine ⟨fun h => (by cases h), fun _ => ?_, fun h => (by cases h), fun _ => h4, fun _ => ?_⟩
    · rw [e]; exact h2
    · linarith

theorem keepable (j n : Nat) : limits.Keepable (2 * (1 / 2)) j 0 (speed n) :=
  ⟨fun h => (by cases h), fun h => (by cases h), 0, (keeps_iff _ _ _ _).2 ⟨by simp [speed_abs], by simp⟩⟩

theorem soft (n : ℕ) : setup.SoftEqualities env world (loop.text n) (loop.time n) := by
  intro fam tid k hk
  rw [(loop_typed.2 n).1] at hk
  cases List.mem_singleton.1 hk

/-- The limits of the hinge can be kept in every cycle. -/
theorem viable (n : ℕ) : setup.Viable env world (loop.text n) (snap n) (loop.time n) := by
  intro fam tid k dt h e
  rw [(loop_typed.2 n).1] at h
  cases List.mem_singleton.1 h
  cases e
  rw [settings]
  exact ⟨fun _ _ => rfl, ⟨.inr fun o ho => (never n o ho).1, .inr fun o ho => (never n o ho).2⟩, fun j _ => keepable j n⟩

/-- Accelerations against the motion satisfy the first level of every problem. -/
theorem loop_runs_of {c : ℝ} (hc0 : 0 ≤ c) (hc2 : c ≤ 2) : loop.Runs env world setup fun n => ⟨1, fun _ => -c * speed n⟩ := by
  intro n
  obtain ⟨s0, s, hg, hw, hm, hc⟩ := typed_cycle loop_typed.1 rfl n
  obtain ⟨hi, -⟩ := loop_typed.2 n
  obtain ⟨l0, l1, hp, -, -⟩ := program_admissible hg hw hm hc (soft n)
  have hx : ({ size := nVar s.form, get := fun _ => -c * speed n } : Vec ℝ).size = nVar s.form := rfl
  obtain ⟨d, hd, -⟩ := C89_partial hg hw hc hp (soft n) (force_contacts hm) hx
  obtain ⟨hdz, hdv, hdyn⟩ := actuated_dynamics hg rfl hw hc hx hd
  refine ⟨s0, s, l0, l1, _, hg, hw, hc, hp, hx, ?_, ?_⟩
  · refine (C92_partial hg hw hm hc (fun _ _ _ _ => trivial) hp hx hd).2 ⟨hdyn, ?_, ?_, ?_⟩
    · intro fam tid k hk
      have hk' := hk
      rw [hi] at hk'
      cases List.mem_singleton.1 hk'
      obtain ⟨v1, v2, v3⟩ := viable n .motion 0 1 (1 / 2) hk rfl
      refine (C104_asks hg hw hc hk (dt := 1 / 2) rfl v2 v1 v3 (ctx env (loop.robot n) s.form) (taskCalls 0 (loop.text n))
        (history env setup.start (loop.text n) 0) d.dv.get).2 fun j hj => ?_
      rw [settings, hdv]
      refine (keeps_iff _ _ _ _).2 ⟨?_, ?_⟩
      · show |speed n + -c * speed n| ≤ 1
        rw [show speed n + -c * speed n = (1 - c) * speed n by ring, abs_mul, speed_abs, mul_one, abs_le]
        exact ⟨by linarith, by linarith⟩
      · show |-c * speed n| ≤ 2
        rw [abs_mul, speed_abs, abs_neg, abs_of_nonneg hc0, mul_one]; exact hc2
    · intro cid wm wf hk
      rw [hi] at hk
      cases List.mem_singleton.1 hk
    · intro cid p wm wf hk
      rw [hi] at hk
      cases List.mem_singleton.1 hk
  · rw [hd.dv]
    have e : ∀ v : Vec ℝ, v.size = 1 → (v.get = fun _ => -c * speed n) → v = ⟨1, fun _ => -c * speed n⟩ := by
      rintro ⟨k, g⟩ rfl rfl
      rfl
    rw [e d.dv hdz hdv]

/-- The accelerations of the motion satisfy the first level of every problem. -/
theorem loop_runs : loop.Runs env world setup acc := loop_runs_of zero_le_two le_rfl

/-- The hypotheses of `C104_speed_partial` are met: the speed of the hinge never exceeds 1. -/
example (n : ℕ) (t : ℝ) (h0 : 0 ≤ t) (h1 : t ≤ 1) : |velAt (speed n) (-2 * speed n) t| ≤ 1 := by
  have := (C104_speed_partial loop_runs (tid := 0)
    (fun n => ⟨1, by rw [(loop_typed.2 n).1]; exact List.mem_singleton.2 rfl⟩) (dt := 1 / 2) rfl never
    (fun n i _ => by rw [settings]; rfl) (fun n => by rw [settings]; rfl) (j := 0) Nat.zero_lt_one
    (fun n => by rw [settings]; exact zero_le_two) (fun n => by rw [settings, settings])
    (by rw [settings]; exact (speed_abs 0).le) (d := fun _ => 1) (fun _ => ⟨zero_le_one, by norm_num⟩)
    (fun n => (SwingDemo.moves n 0 Nat.zero_lt_one).2) n).2 t h0 h1
  rw [settings] at this
  exact this

/-- What the program of the hinge wants, from its text. -/
example (n : ℕ) (b : Behaviour ℝ) : setup.Wants env world (loop.text n) (snap n) (loop.time n) b .motion 0 ↔
    |speed n + b.dv 0| ≤ 1 ∧ |b.dv 0| ≤ 2 := by
  show (∀ j, j < 1 → (limitsOf env.robot.na 0 (loop.text n)).Keeps (2 * (1 / 2)) j ((snap n).q (1 - 1 + j))
    ((snap n).v (1 - 1 + j)) (b.dv (1 - 1 + j))) ↔ _
  rw [settings]
  constructor
  · intro h
    exact (keeps_iff _ _ _ _).1 (h 0 Nat.zero_lt_one)
  · intro h j hj
    obtain rfl : j = 0 := by omega
    exact (keeps_iff _ _ _ _).2 h

end SpeedDemo

/-- The hinge with all kinds of limits can keep them, too. -/
example (n : ℕ) : SwingDemo.setup.Viable SwingDemo.env SwingDemo.world (SwingDemo.loop.text n) (SwingDemo.snap n)
    (SwingDemo.loop.time n) := by
  intro fam tid k dt h e
  rw [(SwingDemo.loop_typed.2 n).1] at h
  cases List.mem_singleton.1 h
  cases e
  rw [SwingDemo.settings]
  exact ⟨fun _ _ => rfl, ⟨.inl rfl, .inl rfl⟩, fun j hj =>
    C104_viable (by norm_num) SwingDemo.complete (SwingDemo.roomy j hj) (SwingDemo.viable n j hj)⟩

end Tsid.Props
