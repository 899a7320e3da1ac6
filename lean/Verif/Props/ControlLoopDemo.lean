import Verif.Props.ControlLoop

/-!
# C93: a hinge under posture control

A control loop that meets the hypotheses of the theorems of C93.
-/

set_option linter.unusedSectionVars false

namespace Tsid.Props

open Spec Filter Formulation Finset

section
variable {K : Type} [Field K] [LinearOrder K] [IsStrictOrderedRing K] [FloorRing K] [HasSqrt K] [LawfulSqrt K]

/-- If every joint has a motor, any accelerations can be had: the torques are decoded from the equations of motion. -/
theorem actuated_dynamics {E : Program.Env K} {W : World} {S : Setup K} {ops : List (Program.Op K)}
    {s0 s : Program.State K} (h : GoodProgram E W S ops s0) (hna : S.robot.na = S.robot.nv) {w : Snapshot K} {t : K}
    (hw : SnapshotOk E.robot.nv w) (hc : Program.compute E w t s0 = .ok s ()) {x : Vec K} (hx : x.size = nVar s.form)
    {d : Decoded K} {names : List String} (hd : d.From s.form x names) :
    d.dv.size = S.robot.nv ∧ d.dv.get = x.get ∧ EquationsOfMotion S.robot.nv (S.robot.nv - S.robot.na) (S.robot.mass w.M) w.nle
      (((S.registry E W ops t).items.filterMap Item.cid?).map fun c =>
        ((s.motion c).con.mat, (s.form.contactObj c).forceGen))
      ((S.registry E W ops t).measured.map fun m => (s.measured m).tau) d.dv d.f d.tau := by
  obtain ⟨ht, hno⟩ := program_tidy h
  have hform := Program.compute_form hc
  obtain ⟨f, s1, f', hf, hs, ha, rfl⟩ := Program.compute_ok hc
  have hcy : cycleOf E w t s0 = Program.cycle w s1 := by simp only [cycleOf, hf, hs]
  rw [hcy] at hform
  have hre : Reachable E.ndebug W s0.form :=
    ⟨S.robot, S.obj, fun tid => (S.task tid).assoc, _, ht.motors, ht.built, ht.run⟩
  obtain ⟨hrob, hnv, hnu, hasc, hmeas, hnames, hkinds, hnd, L, hcoh, hitems⟩ := cycle_end ht hform
  have hsz : CycleSizes f'.nv (Program.cycle w s1) := by
    rw [hnv, ← h.nv]; exact ⟨hw.mRows, hw.mCols, hw.nle⟩
  have hitems' : (S.registry E W ops t).items = L.map Prod.fst := hitems.symm
  have hmeas' : (S.registry E W ops t).measured =
      (registrations E.ndebug W S.robot S.obj (fun tid => (S.task tid).assoc) (formCalls E S.start ops)).measured := by
    unfold Setup.registry Registry.expire
    split <;> rfl
  have hcids : (S.registry E W ops t).items.filterMap Item.cid? = f'.contacts.map ContactLevel.cid := by
    rw [hitems']; exact contact_cids hcoh
  obtain ⟨dv, fo, tau, of⟩ := d
  obtain ⟨g1, g2, g3, -⟩ := hd
  dsimp only at g1 g2 g3 ⊢
  obtain ⟨s2, hi, -, ha', hA, -, -⟩ := compute_spec (reachable_inv hre) hform
  obtain ⟨s', hdec⟩ := decode_spec hi ha' hsz x hx
  obtain ⟨hk, hr, hrow⟩ := base_row hi ha' x
  have hsat : Sat (f'.heap f'.baseId) x := by
    unfold Sat
    rw [hk]
    intro i hlt
    rw [hr, hnu, hna] at hlt
    omega
  obtain ⟨dv', fo', tau', b1, b2, b3, -, -, -, b4⟩ := C01_equations_of_motion hre hform hsz x hx
  rw [g1] at b1
  rw [g2] at b2
  rw [g3] at b3
  cases b1
  cases b2
  cases b3
  refine and_assoc.1 ⟨?_, ?_⟩
  · have : (getAccelerations f' x).val? = some s'.dv := by simp [getAccelerations, hdec.run, Res.val?]
    rw [g1] at this
    cases this
    exact ⟨hdec.dvSize.trans hnv, funext hdec.dv⟩
  · have := b4.1 hsat
    unfold contactPairs at this
    rw [hnv, hnu, hrob, hmeas] at this
    rw [hcids, List.map_map, hmeas']
    exact this

end

namespace HingeDemo

noncomputable def hinge : PostureRobot ℝ :=
  { nv := 1, na := 1, nqa := 1, neutral := Vec.zero 1, difference := fun a b => ⟨1, fun i => b i - a i⟩ }

noncomputable def env : Program.Env ℝ := ⟨true, fun _ => 0, hinge, fun _ => "posture", fun _ => "push", fun _ => 0⟩

def world : World := ⟨fun _ => ⟨"posture", "posture", .equality, 1⟩, fun _ => "push"⟩

noncomputable def robot : Robot ℝ := ⟨1, 1, Vec.zero 1, Vec.zero 1, Vec.zero 1⟩

noncomputable def contacts : Nat → Contact ℝ := fun _ => Contact.new "tip" .point (fun _ => 0) ⟨0, 0, 1⟩ (1 / 2) 0 40

/-- The posture task after its constructor. -/
noncomputable def task0 : Posture ℝ :=
  { Posture.pre hinge "posture" with
    m := ⟨⟨1, fun _ => 1⟩, [some 0], { Constraint.mkEq "posture" 1 1 with mat := (Mat.zero 1 1).set 0 0 1 }⟩ }

theorem task_new : Posture.new hinge "posture" = .ok task0 () := by
  have h1 : Tsid.trunc (Vec.sum (⟨1, fun _ => 1⟩ : Vec ℝ)) = 1 := by
    have : Vec.sum (⟨1, fun _ => 1⟩ : Vec ℝ) = ((1 : ℕ) : ℝ) := by simp [Vec.sum]
    rw [this, ArmDemo.trunc_nat]; rfl
  have h2 : maskLoop (⟨1, fun _ => 1⟩ : Vec ℝ) 0 (fun _ => 1) [0] (Mat.zero 1 1) [none] 0 =
      .ok [some 0] ((Mat.zero 1 1).set 0 0 1) := by
    simp only [maskLoop]
    rw [if_neg one_ne_zero, if_pos trivial, if_pos ⟨by decide, by decide⟩]
    rfl
  have e1 : maskLoop (⟨1, fun _ => 1⟩ : Vec ℝ) (1 - 1) (fun _ => 1) (List.range 1) (Mat.zero (1 : Int).toNat 1)
      (resizeAxes (Posture.pre hinge "posture").m.axes (1 : Int).toNat) 0 = .ok [some 0] ((Mat.zero 1 1).set 0 0 1) := h2
  have e2 : Masked.setMask 1 1 (1 - 1) (fun _ => 1) (Posture.pre hinge "posture").m (⟨1, fun _ => 1⟩ : Vec ℝ) =
      .ok task0.m () := by
    unfold Masked.setMask
    rw [if_pos rfl]
    dsimp only
    rw [h1, if_neg (by decide), e1]
    rfl
  unfold Posture.new Posture.setMask
  have e3 : Masked.setMask hinge.na hinge.nv (hinge.nv - hinge.na) (fun _ => 1) (Posture.pre hinge "posture").m
      (⟨hinge.na, fun _ => 1⟩ : Vec ℝ) = .ok task0.m () := e2
  rw [e3]
  rfl

/-- The motion task of a contact, which is not used. -/
noncomputable def touch : SE3Task ℝ :=
  { SE3Task.pre (fun _ => 0) "tip" 1 with
    rows := ⟨positionMask, Constraint.mkEq "tip" 3 1, Vec.zero 3, Vec.zero 3, Vec.zero 3, Vec.zero 3⟩ }

theorem touch_new : PointMotion.new (fun _ => 0) (fun _ => 0) "tip" 1 true = .ok touch () := by
  have h6 : Tsid.trunc (Vec.sum (⟨6, fun _ => 1⟩ : Vec ℝ)) = 6 := by
    have : Vec.sum (⟨6, fun _ => 1⟩ : Vec ℝ) = ((6 : ℕ) : ℝ) := by simp [Vec.sum]
    rw [this, ArmDemo.trunc_nat]; rfl
  have h3 : Tsid.trunc (Vec.sum (positionMask : Vec ℝ)) = 3 := by
    have : Vec.sum (positionMask : Vec ℝ) = ((3 : ℕ) : ℝ) := by
      simp only [Vec.sum, positionMask, sum_range_succ, range_zero, sum_empty]; norm_num
    rw [this, ArmDemo.trunc_nat]; rfl
  simp only [PointMotion.new, SE3Task.new, if_true, SE3Task.setMask, CartRows.setMask, h6, h3]
  rfl

noncomputable def setup : Setup ℝ :=
  { robot := robot
    obj := contacts
    decl := fun _ => .posture
    cdecl := fun _ => .point 0
    mdecl := fun _ => .force 0 fun _ => true
    task := fun _ => .posture task0
    motion := fun _ => .point 0 touch
    measured := fun _ => .force 0 (Measured3D.new 1 fun _ => true) }

/-- Both gains are 1; the reference is the one of the constructor, zero. -/
noncomputable def ops : List (Program.Op ℝ) :=
  [.task 0 (.posture (.setKp ⟨1, fun _ => 1⟩)), .task 0 (.posture (.setKd ⟨1, fun _ => 1⟩)), .form (.addMotionTask 0 1 0 0)]

noncomputable def tasks1 : Nat → TaskObj ℝ := Function.update setup.task 0 (.posture { task0 with kp := ⟨1, fun _ => 1⟩ })
noncomputable def tasks2 : Nat → TaskObj ℝ :=
  Function.update tasks1 0 (.posture { task0 with kp := ⟨1, fun _ => 1⟩, kd := ⟨1, fun _ => 1⟩ })

noncomputable def f0 : Tsid.State ℝ := Formulation.init robot contacts fun tid => (setup.task tid).assoc
noncomputable def f1 : Tsid.State ℝ := ArmDemo.added world f0 0 1 0

theorem step1 : Program.step env setup.start (.task 0 (.posture (.setKp ⟨1, fun _ => 1⟩))) =
    .ok ⟨f0, tasks1, setup.motion, setup.measured⟩ () := rfl
theorem step2 : Program.step env ⟨f0, tasks1, setup.motion, setup.measured⟩ (.task 0 (.posture (.setKd ⟨1, fun _ => 1⟩))) =
    .ok ⟨f0, tasks2, setup.motion, setup.measured⟩ () := rfl
theorem form1 : Formulation.step true world f0 (.addMotionTask 0 1 0 0) = .ok f1 () :=
  ArmDemo.added_step (by norm_num) rfl
theorem task_of (f : Tsid.State ℝ) :
    (Program.world env ⟨f, tasks2, setup.motion, setup.measured⟩).task 0 = world.task 0 := rfl
theorem step3 : Program.step env ⟨f0, tasks2, setup.motion, setup.measured⟩ (.form (.addMotionTask 0 1 0 0)) =
    .ok ⟨f1, tasks2, setup.motion, setup.measured⟩ () := by
  have := ArmDemo.added_step (W := Program.world env ⟨f0, tasks2, setup.motion, setup.measured⟩) (s := f0) (tid := 0)
    (w := 1) (p := 0) (by norm_num) rfl
  rw [ArmDemo.added_task (task_of f0)] at this
  exact ArmDemo.step_form rfl this

theorem hygienic : Hygienic world := fun _ =>
  ⟨rfl, Demo.freeName_spec (show Demo.freeName "posture" = true by decide +kernel)⟩

theorem typed : WellTyped env world setup ops where
  names := fun _ => rfl
  mfNames := rfl
  hygienic := hygienic
  nv := rfl
  na := rfl
  motors := le_refl _
  nqa := le_refl _
  difference := fun _ _ => rfl
  contacts := fun _ => ⟨"tip", .point, fun _ => 0, ⟨0, 0, 1⟩, 1 / 2, 0, 40, rfl⟩
  built := fun _ => ⟨task0, task_new, rfl⟩
  builtContact := fun _ => ⟨fun _ => 0, fun _ => 0, touch, touch_new, rfl⟩
  builtMeasured := fun _ => rfl
  orderly := by
    simp only [ops, EveryCall, step1, step2, step3, Res.state?]
    refine ⟨trivial, trivial, ⟨?_, rfl⟩, trivial⟩
    intro tl htl; cases htl
  may := by
    refine split_cons ?_ <| split_cons ?_ <| split_cons ⟨rfl, Nat.zero_lt_two⟩ ?_
    · exact ⟨trivial, fun q v e => (by cases e)⟩
    · exact ⟨trivial, fun q v e => (by cases e)⟩
    · intro pre o post e
      cases pre <;> cases e

theorem calls : formCalls env setup.start ops = [.addMotionTask 0 1 0 0] := by
  simp only [ops, formCalls, formCall, step1, step2, step3, Res.state?]
  rfl

theorem registered : setup.registered env world ops = ⟨[.task .motion 0 0 1], [], 0, []⟩ := by
  unfold Setup.registered
  rw [calls]
  unfold registrations
  have : outcomes true world f0 [.addMotionTask 0 1 0 0] = [(.addMotionTask 0 1 0 0, false)] := by
    simp only [outcomes, form1, Res.state?, Res.threw]
  rw [show init setup.robot setup.obj (fun tid => (setup.task tid).assoc) = f0 from rfl,
    show env.ndebug = true from rfl, this]
  rfl

/-- The hinge starts at angle 1, at rest. -/
noncomputable def motion : ℕ → ℝ × ℝ := pdMotion 1 1 1 1 0

noncomputable def snap (n : ℕ) : Snapshot ℝ :=
  { q := ⟨1, fun _ => (motion n).1⟩, v := ⟨1, fun _ => (motion n).2⟩, M := Mat.identity 1, nle := Vec.zero 1
    frame := fun _ => ⟨SE3.one, 0, 0, fun _ => 0⟩
    com := ⟨0, 0, 0, fun _ => 0⟩
    Ag := ⟨6, 1, fun _ _ => 0⟩
    dh := 0
    garbage := fun _ _ => 0 }

/-- One cycle per second. -/
noncomputable def loop : Loop ℝ :=
  { calls := fun n => if n = 0 then ops else []
    robot := snap
    time := fun n => n }

/-- The acceleration in each period. -/
noncomputable def acc (n : ℕ) : Vec ℝ := ⟨1, fun _ => -1 * (motion n).1 - 1 * (motion n).2⟩

theorem snapOk (n : ℕ) : SnapshotOk env.robot.nv (snap n) :=
  ⟨rfl, rfl, rfl, rfl, rfl, rfl, fun _ => ArmDemo.snapOk.rot 0⟩

theorem items (t : ℝ) : (setup.registry env world ops t).items = [.task .motion 0 0 1] := by
  change (Registry.expire _ (setup.registered env world ops) t).items = _
  rw [registered]
  rfl

theorem mayCycle (n : ℕ) : MayCycle env world setup ops (snap n) (loop.time n) where
  q := le_refl 1
  classes := fun _ => rfl
  announced := by
    intro fam tid p k h
    rw [items] at h
    cases List.mem_singleton.1 h
    refine ⟨rfl, ?_⟩
    show 1 = 0 + if (1 : ℝ) = 1 then 1 else 0
    rw [if_pos rfl]
  supported := by
    intro fam tid p k h
    rw [items] at h
    cases List.mem_singleton.1 h
    trivial

theorem loop_typed : loop.Typed env world setup ∧ ∀ n,
    (setup.registry env world (loop.text n) (loop.time n)).items = [.task .motion 0 0 1] ∧
    ∀ tid, taskCalls tid (loop.text n) = taskCalls tid ops := by
  obtain ⟨h1, h2⟩ := C93_steady (L := loop) (E := env) (W := world) (S := setup) rfl typed
    (by intro n dur h; simp [loop, ops] at h) (by rw [show loop.calls 0 = ops from rfl, registered])
    (fun n => by simp [loop]) snapOk mayCycle
  refine ⟨h1, fun n => ⟨?_, (h2 n).2.1⟩⟩
  rw [(h2 n).1, show loop.calls 0 = ops from rfl, registered]

/-- The settings of the task in every cycle. -/
theorem settings (n : ℕ) : (PostureSettings.fresh hinge).afterAll hinge ((taskCalls 0 (loop.text n)).filterMap posture?) =
    ⟨⟨1, fun _ => 1⟩, ⟨1, fun _ => 1⟩, ⟨1, fun _ => 1⟩, ⟨Vec.zero 1, Vec.zero 1, Vec.zero 1⟩⟩ := by
  rw [(loop_typed.2 n).2]
  rfl

theorem law (n : ℕ) : PostureSettings.law hinge ⟨⟨1, fun _ => 1⟩, ⟨1, fun _ => 1⟩, ⟨1, fun _ => 1⟩,
    ⟨Vec.zero 1, Vec.zero 1, Vec.zero 1⟩⟩ (snap n).q (snap n).v 0 = -1 * (motion n).1 - 1 * (motion n).2 := by
  show (0 : ℝ) - 1 * ((motion n).1 - 0) - 1 * ((motion n).2 - 0) = _
  ring

/-- The accelerations of the motion satisfy the first level of every problem. -/
theorem loop_runs : loop.Runs env world setup acc := by
  intro n
  obtain ⟨s0, s, hg, hw, hm, hc⟩ := typed_cycle loop_typed.1 rfl n
  obtain ⟨hi, -⟩ := loop_typed.2 n
  have heq : ∀ fam tid k, .task fam tid 1 k ∈ (setup.registry env world (loop.text n) (loop.time n)).items →
      (setup.decl tid).kind = .equality := fun _ _ _ _ => rfl
  obtain ⟨l0, l1, hp, -, -⟩ := program_admissible hg hw hm hc heq
  have hx : ({ size := nVar s.form, get := fun _ => -1 * (motion n).1 - 1 * (motion n).2 } : Vec ℝ).size = nVar s.form := rfl
  obtain ⟨d, hd, -⟩ := C89_partial hg hw hc hp heq (force_contacts hm) hx
  obtain ⟨hdz, hdv, hdyn⟩ := actuated_dynamics hg rfl hw hc hx hd
  refine ⟨s0, s, l0, l1, _, hg, hw, hc, hp, hx, ?_, ?_⟩
  · refine (C92_partial hg hw hm hc (fun _ _ _ _ => trivial) hp hx hd).2 ⟨hdyn, ?_, ?_, ?_⟩
    · intro fam tid k hk
      rw [hi] at hk
      cases List.mem_singleton.1 hk
      show selected _ _ = 0
      rw [show env.robot = hinge from rfl, settings]
      show ∑ i ∈ range 1, (if (1 : ℝ) = 1 then _ else 0) = 0
      rw [Finset.sum_range_one, if_pos rfl]
      show (d.dv.get 0 - PostureSettings.law hinge _ (snap n).q (snap n).v 0) ^ 2 = 0
      rw [law, hdv]
      simp
    · intro cid wm wf hk
      rw [hi] at hk
      cases List.mem_singleton.1 hk
    · intro cid p wm wf hk
      rw [hi] at hk
      cases List.mem_singleton.1 hk
  · rw [hd.dv]
    have e : ∀ v : Vec ℝ, v.size = 1 → (v.get = fun _ => -1 * (motion n).1 - 1 * (motion n).2) → v = acc n := by
      rintro ⟨k, g⟩ rfl rfl
      rfl
    rw [e d.dv hdz hdv]

/-- The hinge comes to rest at its reference. -/
example : Tendsto (fun n => (motion n).1) atTop (nhds 0) ∧ Tendsto (fun n => (motion n).2) atTop (nhds 0) := by
  have := C93_posture_partial (h := 1) (kp := 1) (kd := 1) loop_runs (tid := 0)
    (fun n => ⟨1, by rw [(loop_typed.2 n).1]; exact List.mem_singleton.2 rfl⟩) rfl (i := 0) (j := 0) (by norm_num) (by norm_num)
    (by norm_num) (by norm_num) (fun x y => rfl)
    (fun n => by
      simp only [show env.robot = hinge from rfl, settings]
      exact ⟨⟨Nat.zero_lt_one, rfl⟩, trivial, trivial⟩)
    (pdMotion_sampled 1 1 1 1 0)
    (fun n => by
      simp only [show env.robot = hinge from rfl, settings]
      exact ⟨by simp [PostureSettings.target, hinge, Vec.zero], by simp [Vec.zero]⟩)
  simp only [show env.robot = hinge from rfl, settings] at this
  obtain ⟨-, h1, h2⟩ := this
  refine ⟨h1.congr fun n => ?_, h2.congr fun n => ?_⟩
  · show (motion n).1 - 0 = _
    ring
  · show (motion n).2 - 0 = _
    ring

end HingeDemo

end Tsid.Props
