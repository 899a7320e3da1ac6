import Verif.Props.SoftLoop
import Verif.Props.ControlLoopDemo

/-!
# C106: a hinge with a posture task of priority 1

The back-end regularises, so that the law of the task is not achieved exactly.
-/

set_option linter.unusedSectionVars false

namespace Tsid.Props

open Spec Filter Formulation Finset

/-- Control cycles do not change which measured forces are registered. -/
theorem steady_measured {L : Loop ℝ} {E : Program.Env ℝ} {W : World} {S : Setup ℝ} (hn : E.ndebug = true)
    (ht : L.Typed E W S) (hs : ∀ n, L.calls (n + 1) = []) (n : ℕ) :
    (S.registry E W (L.text n) (L.time n)).measured = (S.registered E W (L.calls 0)).measured := by
  have keep : ∀ ops t, (S.registry E W ops t).measured = (S.registered E W ops).measured := fun ops t => by
    change (Registry.expire _ (S.registered E W ops) t).measured = _
    unfold Registry.expire
    split <;> rfl
  rw [keep]
  induction n with
  | zero => rfl
  | succ n ih =>
    obtain ⟨s0, s, hg, -, -, hc⟩ := typed_cycle ht hn n
    rw [show L.text (n + 1) = L.text n ++ [.compute (L.robot n) (L.time n)] by simp only [Loop.text, hs],
      registered_cycle hg hc, keep, ih]

namespace SoftHingeDemo

open HingeDemo (hinge env world robot setup tasks1 tasks2 f0 task0 touch)

/-- The program of `HingeDemo` with the task at priority 1. -/
noncomputable def ops : List (Program.Op ℝ) :=
  [.task 0 (.posture (.setKp ⟨1, fun _ => 1⟩)), .task 0 (.posture (.setKd ⟨1, fun _ => 1⟩)), .form (.addMotionTask 0 1 1 0)]

noncomputable def f1 : Tsid.State ℝ := ArmDemo.added world f0 0 1 1

theorem form1 : Formulation.step true world f0 (.addMotionTask 0 1 1 0) = .ok f1 () :=
  ArmDemo.added_step (by norm_num) rfl
theorem step3 : Program.step env ⟨f0, tasks2, setup.motion, setup.measured⟩ (.form (.addMotionTask 0 1 1 0)) =
    .ok ⟨f1, tasks2, setup.motion, setup.measured⟩ () := by
  have := ArmDemo.added_step (W := Program.world env ⟨f0, tasks2, setup.motion, setup.measured⟩) (s := f0) (tid := 0)
    (w := 1) (p := 1) (by norm_num) rfl
  rw [ArmDemo.added_task (HingeDemo.task_of f0)] at this
  exact ArmDemo.step_form rfl this

theorem typed : WellTyped env world setup ops where
  names := fun _ => rfl
  mfNames := rfl
  hygienic := HingeDemo.hygienic
  nv := rfl
  na := rfl
  motors := le_refl _
  nqa := le_refl _
  difference := fun _ _ => rfl
  contacts := fun _ => ⟨"tip", .point, fun _ => 0, ⟨0, 0, 1⟩, 1 / 2, 0, 40, rfl⟩
  built := fun _ => ⟨task0, HingeDemo.task_new, rfl⟩
  builtContact := fun _ => ⟨fun _ => 0, fun _ => 0, touch, HingeDemo.touch_new, rfl⟩
  builtMeasured := fun _ => rfl
  orderly := by
    simp only [ops, EveryCall, HingeDemo.step1, HingeDemo.step2, step3, Res.state?]
    refine ⟨trivial, trivial, ⟨?_, rfl⟩, trivial⟩
    intro tl htl; cases htl
  may := by
    refine split_cons ?_ <| split_cons ?_ <| split_cons ⟨rfl, Nat.one_lt_two⟩ ?_
    · exact ⟨trivial, fun q v e => (by cases e)⟩
    · exact ⟨trivial, fun q v e => (by cases e)⟩
    · intro pre o post e
      cases pre <;> cases e

theorem calls : formCalls env setup.start ops = [.addMotionTask 0 1 1 0] := by
  simp only [ops, formCalls, formCall, HingeDemo.step1, HingeDemo.step2, step3, Res.state?]
  rfl

theorem registered : setup.registered env world ops = ⟨[.task .motion 0 1 1], [], 0, []⟩ := by
  unfold Setup.registered
  rw [calls]
  unfold registrations
  have : outcomes true world f0 [.addMotionTask 0 1 1 0] = [(.addMotionTask 0 1 1 0, false)] := by
    simp only [outcomes, form1, Res.state?, Res.threw]
  rw [show init setup.robot setup.obj (fun tid => (setup.task tid).assoc) = f0 from rfl,
    show env.ndebug = true from rfl, this]
  rfl

/-- The acceleration is the one that the regularised law says: a little smaller than the law. -/
noncomputable def share : ℝ := 1 / (1 + Solver.defaultReg)

noncomputable def motion : ℕ → ℝ × ℝ := pdMotion 1 share share 1 0

noncomputable def snap (n : ℕ) : Snapshot ℝ :=
  { q := ⟨1, fun _ => (motion n).1⟩, v := ⟨1, fun _ => (motion n).2⟩, M := Mat.identity 1, nle := Vec.zero 1
    frame := fun _ => ⟨SE3.one, 0, 0, fun _ => 0⟩
    com := ⟨0, 0, 0, fun _ => 0⟩
    Ag := ⟨6, 1, fun _ _ => 0⟩
    dh := 0
    garbage := fun _ _ => 0 }

noncomputable def loop : Loop ℝ :=
  { calls := fun n => if n = 0 then ops else []
    robot := snap
    time := fun n => n }

theorem snapOk (n : ℕ) : SnapshotOk env.robot.nv (snap n) :=
  ⟨rfl, rfl, rfl, rfl, rfl, rfl, fun _ => ArmDemo.snapOk.rot 0⟩

theorem items (t : ℝ) : (setup.registry env world ops t).items = [.task .motion 0 1 1] := by
  change (Registry.expire _ (setup.registered env world ops) t).items = _
  rw [registered]
  rfl

theorem mayCycle (n : ℕ) : MayCycle env world setup ops (snap n) (loop.time n) where
  q := le_refl 1
  classes := fun _ => rfl
  announced := by
    intro fam tid p k h
    rw [items] at h
    cases List.mem_singleton.1 h
    refine ⟨rfl, ?_⟩
    show 1 = 0 + if (1 : ℝ) = 1 then 1 else 0
    rw [if_pos rfl]
  supported := by
    intro fam tid p k h
    rw [items] at h
    cases List.mem_singleton.1 h
    trivial

theorem loop_typed : loop.Typed env world setup ∧ ∀ n,
    ((setup.registry env world (loop.text n) (loop.time n)).items = [.task .motion 0 1 1] ∧
      (setup.registry env world (loop.text n) (loop.time n)).measured = []) ∧
    ∀ tid, taskCalls tid (loop.text n) = taskCalls tid ops := by
  obtain ⟨h1, h2⟩ := C93_steady (L := loop) (E := env) (W := world) (S := setup) rfl typed
    (by intro n dur h; simp [loop, ops] at h) (by rw [show loop.calls 0 = ops from rfl, registered])
    (fun n => by simp [loop]) snapOk mayCycle
  refine ⟨h1, fun n => ⟨⟨?_, ?_⟩, (h2 n).2.1⟩⟩
  · rw [(h2 n).1, show loop.calls 0 = ops from rfl, registered]
  · rw [steady_measured rfl h1 (fun n => by simp [loop]), show loop.calls 0 = ops from rfl, registered]

theorem settings (n : ℕ) : (PostureSettings.fresh hinge).afterAll hinge ((taskCalls 0 (loop.text n)).filterMap posture?) =
    ⟨⟨1, fun _ => 1⟩, ⟨1, fun _ => 1⟩, ⟨1, fun _ => 1⟩, ⟨Vec.zero 1, Vec.zero 1, Vec.zero 1⟩⟩ := by
  rw [(loop_typed.2 n).2]
  rfl

/-- The law of the task. -/
noncomputable def law (n : ℕ) : ℝ := -1 * (motion n).1 - 1 * (motion n).2

theorem law_eq (n : ℕ) : PostureSettings.law hinge ⟨⟨1, fun _ => 1⟩, ⟨1, fun _ => 1⟩, ⟨1, fun _ => 1⟩,
    ⟨Vec.zero 1, Vec.zero 1, Vec.zero 1⟩⟩ (snap n).q (snap n).v 0 = law n := by
  show (0 : ℝ) - 1 * ((motion n).1 - 0) - 1 * ((motion n).2 - 0) = _
  unfold law
  ring

/-- What is minimised. -/
theorem aim_eq (n : ℕ) (b : Behaviour ℝ) : setup.aim env world (loop.text n) (loop.robot n) (loop.time n) true b =
    1 / 2 * (1 * (b.dv 0 - law n) ^ 2) + 1 / 2 * (Solver.defaultReg * b.dv 0 ^ 2) := by
  have hmiss : setup.miss env world (loop.text n) (loop.robot n) (loop.time n) b .motion 0 = (b.dv 0 - law n) ^ 2 := by
    show selected _ _ = _
    rw [show env.robot = hinge from rfl, settings]
    show ∑ i ∈ range 1, (if (1 : ℝ) = 1 then _ else 0) = _
    rw [Finset.sum_range_one, if_pos rfl]
    show (b.dv 0 - PostureSettings.law hinge _ (snap n).q (snap n).v 0) ^ 2 = _
    rw [law_eq]
  unfold Setup.aim Setup.losses Setup.effort Setup.cids
  rw [(loop_typed.2 n).1.1]
  simp only [List.map_cons, List.map_nil, List.sum_cons, List.sum_nil, Setup.loss, if_true, hmiss, List.filterMap_cons,
    List.filterMap_nil, Item.cid?, show setup.robot.nv = 1 from rfl, Finset.sum_range_one, add_zero]

/-- Any acceleration can be had with some torque. -/
noncomputable def moved (a : ℝ) : Behaviour ℝ := ⟨fun _ => a, fun _ => a, fun _ _ => 0⟩

theorem intended (n : ℕ) (a : ℝ) : Intended env world setup (loop.text n) (loop.robot n) (loop.time n) (moved a) where
  dynamics := by
    intro v
    unfold Setup.cids
    rw [(loop_typed.2 n).1.1, (loop_typed.2 n).1.2]
    show ∑ i ∈ range 1, ((∑ j ∈ range 1, setup.robot.mass (Mat.identity 1) i j * a) + 0) * v i =
      ∑ i ∈ range 1, a * v (1 - 1 + i) + 0 + 0
    simp only [Finset.sum_range_one]
    have : setup.robot.mass (Mat.identity 1 : Mat ℝ) 0 0 = 1 := by
      simp [Robot.mass, setup, robot, Mat.identity, Vec.zero]
    rw [this]
    ring
  task := by
    intro fam tid k h
    rw [(loop_typed.2 n).1.1] at h
    cases List.mem_singleton.1 h
  contactMotion := by
    intro cid wm wf h
    rw [(loop_typed.2 n).1.1] at h
    cases List.mem_singleton.1 h
  contactForce := by
    intro cid p wm wf h
    rw [(loop_typed.2 n).1.1] at h
    cases List.mem_singleton.1 h

theorem reg_pos : (0 : ℝ) < Solver.defaultReg := by unfold Solver.defaultReg; positivity

theorem optimal : loop.Optimal env world setup true fun n => moved (share * law n) := by
  refine fun n => ⟨snapOk n, intended n _, fun b' _ => ?_⟩
  rw [aim_eq, aim_eq]
  have hr := reg_pos
  have e : (1 + Solver.defaultReg) * share = 1 := by unfold share; field_simp
  show 1 / 2 * (1 * (share * law n - law n) ^ 2) + 1 / 2 * (Solver.defaultReg * (share * law n) ^ 2) ≤ _
  generalize b'.dv 0 = y
  generalize law n = l
  generalize share = k at *
  generalize (Solver.defaultReg : ℝ) = ρ at *
  have hsq : 0 ≤ (1 + ρ) * (y - k * l) ^ 2 := by positivity
  have h1 : (1 + ρ) * (y - k * l) ^ 2 = ((y - l) ^ 2 + ρ * y ^ 2) - ((k * l - l) ^ 2 + ρ * (k * l) ^ 2) := by
    linear_combination (-2 * l * y + 2 * k * l ^ 2) * e
  linarith

theorem prefers : loop.Prefers env world setup 0 1 := by
  intro n
  rw [(loop_typed.2 n).1.1]
  refine ⟨fun it h => ?_, 1, le_rfl, List.mem_singleton.2 rfl⟩
  rw [List.mem_singleton.1 h]
  exact fun _ => zero_le_one

theorem reconcilable : loop.Reconcilable env world setup true fun n => Solver.defaultReg * law n ^ 2 := by
  refine fun n => ⟨moved (law n), intended n _, ?_⟩
  rw [aim_eq]
  show 2 * (1 / 2 * (1 * (law n - law n) ^ 2) + 1 / 2 * (Solver.defaultReg * law n ^ 2)) ≤ _
  exact le_of_eq (by ring)

/-- The regularisation of the back-end disturbs the hinge by at most `√(10⁻⁸ · law²)`. -/
example : ∃ C r G : ℝ, 0 ≤ r ∧ r < 1 ∧ Forgets C r G
    (fun n => 0 + 0 + (1 + 1 ^ 2 / 2) * √(Solver.defaultReg * law n ^ 2 / 1)) (fun n => (motion n).1 - 0)
    (fun n => (motion n).2 - 0) := by
  obtain ⟨C, r, G, -, r0, r1, -, key⟩ := C106_posture_partial (h := 1) (kp := 1) (kd := 1) (by norm_num) (by norm_num)
    (by norm_num) (by norm_num)
  refine ⟨C, r, G, r0, r1, ?_⟩
  have := key loop env world setup true _ _ (fun _ => 0) (fun _ => 0) 0 0 0 1 optimal reconcilable one_pos prefers rfl
    (fun _ _ => rfl)
    (fun n => by
      simp only [show env.robot = hinge from rfl, settings]
      exact ⟨⟨Nat.zero_lt_one, rfl⟩, trivial, trivial⟩)
    (fun n => by
      have := pdMotion_sampled 1 share share 1 0 n
      show |(motion (n + 1)).1 - ((motion n).1 + 1 * (motion n).2 + 1 ^ 2 / 2 * (share * law n))| ≤ 0 ∧
        |(motion (n + 1)).2 - ((motion n).2 + 1 * (share * law n))| ≤ 0
      have e : share * law n = -share * (motion n).1 - share * (motion n).2 := by unfold law; ring
      rw [e]
      constructor
      · exact le_of_eq (abs_eq_zero.2 (sub_eq_zero.2 this.1))
      · exact le_of_eq (abs_eq_zero.2 (sub_eq_zero.2 this.2)))
    (fun n => by
      simp only [show env.robot = hinge from rfl, settings]
      constructor <;> simp [PostureSettings.target, hinge, Vec.zero])
  simp only [show env.robot = hinge from rfl, settings] at this
  exact this

end SoftHingeDemo

end Tsid.Props
