import Verif.Spec.JointControl
import Verif.Props.Manipulator
import Verif.Props.Gripper

/-!
# The exercise on joint space control
-/

set_option linter.unusedSectionVars false

namespace Tsid.Props

open Spec Finset Formulation Program

section
variable {K : Type} [Field K] [LinearOrder K] [FloorRing K] [HasSqrt K] [IsStrictOrderedRing K] [LawfulSqrt K]
variable {cf : JointControl.Conf K} {kin : Vec K → Vec K → Snapshot K} {E : Program.Env K} {W : World}
  {S : Setup K} {ops : List (Program.Op K)} {L : List (Item K)}

theorem joint_snoc (n : Nat) (q v : Vec K) (l : List (JointControl.Step K)) (s : JointControl.Step K) :
    JointControl.text cf kin n q v (l ++ [s]) =
      JointControl.text cf kin n q v l ++ [.task 0 (.posture (.setReference s.ref))] ++ [.compute (kin s.q s.v) s.t] := by
  simp [JointControl.text, JointControl.step]

theorem joint_calls (n : Nat) (q v : Vec K) (l : List (JointControl.Step K)) :
    taskCalls 0 (JointControl.text cf kin n q v l) = [.posture (.setKp (Biped.gain n cf.kp)),
      .posture (.setKd (Biped.damping n cf.kp)), .posture (.setReference (EuclidianConstant.newWith q))] ++
      l.map fun s => .posture (.setReference s.ref) := by
  induction l using List.reverseRecOn with
  | nil => simp [JointControl.text, JointControl.build, taskCalls]
  | append_singleton l s ih => simp [joint_snoc, taskCalls_append, ih, taskCalls]

theorem joint_unmeasured (n : Nat) (q v : Vec K) (l : List (JointControl.Step K)) (m : Nat) :
    .form (.addMeasuredForce m) ∉ JointControl.text cf kin n q v l := by
  induction l using List.reverseRecOn with
  | nil => simp [JointControl.text, JointControl.build]
  | append_singleton l s ih => simp [joint_snoc, ih]

theorem joint_rows (hB : IsJointArm cf kin E W S) (hf : ∀ c ∈ taskCalls 0 ops, MaskFree c) :
    (W.task 0).rows = (S.decl 0).rows E.robot (taskCalls 0 ops) := by
  rw [rows_free hf, hB.rows, hB.posture]
  show _ = countSelected (PostureSettings.fresh E.robot).mask E.robot.na
  rw [show (PostureSettings.fresh E.robot).mask = ⟨E.robot.na, fun _ => 1⟩ from rfl, count_ones]

theorem joint_build (hB : IsJointArm cf kin E W S) {q v : Vec K} (hv : v.size = E.robot.nv) (hq : E.robot.na ≤ q.size) (n : Nat) :
    Upto E W S (JointControl.build cf kin n q v) [.task .motion 0 1 cf.w] := by
  have a0 : Upto E W S ([] ++ [.compute (kin q v) 0]) [] := by
    refine upto_nil.compute ⟨hB.snap q v hv, by rw [hB.config]; exact hq, ?_⟩
    intro fam tid p k hm
    cases hm
  have b1 := a0.task (tid := 0) (c := .posture (.setKp (Biped.gain n cf.kp)))
    (by rw [hB.posture]; exact ⟨trivial, fun _ _ e => (by cases e)⟩)
  have b2 := b1.task (tid := 0) (c := .posture (.setKd (Biped.damping n cf.kp)))
    (by rw [hB.posture]; exact ⟨trivial, fun _ _ e => (by cases e)⟩)
  have b3 := b2.addMotion hB.w (tid := 0) (p := 1)
    { family := by rw [hB.posture]; rfl
      level := Nat.one_lt_two
      fresh := b2.fresh (fun _ hm => by cases hm)
      kind := hB.kind
      rows := joint_rows hB (by
        intro c hm
        simp [taskCalls] at hm
        rcases hm with rfl | rfl <;> trivial)
      whole := by rw [hB.posture]; trivial }
  have b4 := b3.task (tid := 0) (c := .posture (.setReference (EuclidianConstant.newWith q)))
    (by rw [hB.posture]; exact ⟨trivial, fun _ _ e => (by cases e)⟩)
  simp only [List.nil_append, List.cons_append] at b4
  exact b4

theorem joint_ref (hB : IsJointArm cf kin E W S) (h : Upto E W S ops L) (r : Sample K) :
    Upto E W S (ops ++ [.task 0 (.posture (.setReference r))]) L :=
  h.task (tid := 0) (c := .posture (.setReference r)) (by rw [hB.posture]; exact ⟨trivial, fun _ _ e => (by cases e)⟩)

theorem joint_fine (hB : IsJointArm cf kin E W S) {n : Nat} {q v : Vec K} {l : List (JointControl.Step K)} {r : Sample K}
    (h : Upto E W S (JointControl.text cf kin n q v l ++ [.task 0 (.posture (.setReference r))]) [.task .motion 0 1 cf.w])
    {q' v' : Vec K} {t : K} (hv : v'.size = E.robot.nv) (hq : E.robot.na ≤ q'.size) :
    S.Fine E W (JointControl.text cf kin n q v l ++ [.task 0 (.posture (.setReference r))]) (.compute (kin q' v') t) := by
  refine ⟨hB.snap q' v' hv, by rw [hB.config]; exact hq, ?_⟩
  intro fam tid p k hm
  rw [h.items] at hm
  simp at hm
  obtain ⟨-, rfl, -⟩ := hm
  refine ⟨hB.kind, joint_rows hB ?_, by rw [hB.posture]; trivial⟩
  intro c hc
  rw [taskCalls_append, joint_calls] at hc
  simp only [taskCalls, if_true, List.mem_append, List.mem_cons, List.not_mem_nil, or_false, List.mem_map] at hc
  rcases hc with ((rfl | rfl | rfl) | ⟨_, -, rfl⟩) | rfl <;> trivial

theorem joint_upto (hB : IsJointArm cf kin E W S) {q v : Vec K} (hv : v.size = E.robot.nv) (hq : E.robot.na ≤ q.size) (n : Nat)
    {l : List (JointControl.Step K)} (hp : ∀ s ∈ l, ProperJoint E.robot s) :
    Upto E W S (JointControl.text cf kin n q v l) [.task .motion 0 1 cf.w] := by
  induction l using List.reverseRecOn with
  | nil =>
    rw [show JointControl.text cf kin n q v [] = JointControl.build cf kin n q v from List.append_nil _]
    exact joint_build hB hv hq n
  | append_singleton l s ih =>
    have ih := ih fun d hd => hp d (List.mem_append_left _ hd)
    have hs := hp s (List.mem_append_right _ List.mem_cons_self)
    have h1 := joint_ref hB ih s.ref
    rw [joint_snoc]
    exact h1.compute (joint_fine hB h1 hs.speed hs.config)

/-- **C114, the exercise runs.** It passes the check of its text, whatever the solver answers in its loop: it runs without undefined
behaviour, exception or failed assertion of a cycle, and registered is the posture task alone. -/
theorem C114_runs (hB : IsJointArm cf kin E W S) {q v : Vec K} (hv : v.size = E.robot.nv) (hq : E.robot.na ≤ q.size)
    {l : List (JointControl.Step K)} (hp : ∀ s ∈ l, ProperJoint E.robot s) :
    Checked E W S (JointControl.text cf kin E.robot.nv q v l) ∧
    (∃ s, Program.run E S.start (JointControl.text cf kin E.robot.nv q v l) = some s) ∧
    (S.registered E W (JointControl.text cf kin E.robot.nv q v l)).items = [.task .motion 0 1 cf.w] := by
  have hu := joint_upto hB hv hq E.robot.nv hp
  obtain ⟨s, hs, -, -, hr⟩ := C107_runs hB.declared hu.checked
  exact ⟨hu.checked, ⟨s, hs⟩, by rw [hr, hu.items]⟩

theorem joint_refs {R : PostureRobot K} {r : Sample K} (hr : ProperRef R r) (l : List (JointControl.Step K)) :
    ∀ p : PostureSettings K, p.afterAll R (((l.map fun s => (TaskCall.posture (.setReference s.ref) : TaskCall K)) ++
      [TaskCall.posture (.setReference r)]).filterMap posture?) = ⟨p.mask, p.kp, p.kd, r⟩ := by
  induction l with
  | nil =>
    intro p
    show PostureSettings.after R p (.setReference r) = _
    simp only [PostureSettings.after, if_pos (And.intro hr.pos (And.intro hr.vel hr.acc))]
  | cons s l ih =>
    intro p
    refine (ih (p.after R (.setReference s.ref))).trans ?_
    simp only [PostureSettings.after]
    split <;> rfl

variable {q v q' v' : Vec K} {l : List (JointControl.Step K)} {r : Sample K} {t : K} {w : Snapshot K}

/-- **C114, exactly.** In a step of the loop the text asks exactly for this: the equations of motion; as far as possible, the joints
should have the desired accelerations. -/
theorem C114_exact (hB : IsJointArm cf kin E W S) (hv : v.size = E.robot.nv) (hq : E.robot.na ≤ q.size)
    (hp : ∀ s ∈ l, ProperJoint E.robot s) (hr : ProperRef E.robot r) (b : Behaviour K) :
    let ops := JointControl.text cf kin E.robot.nv q v l ++ [.task 0 (.posture (.setReference r))]
    (Intended E W S ops (kin q' v') t b ↔ JointObeys S (kin q' v') b.dv b.tau) ∧
    ∀ reg, S.aim E W ops (kin q' v') t reg b = jointAim reg cf E r (kin q' v') b.dv := by
  have hu := joint_ref hB (joint_upto hB hv hq E.robot.nv hp) r
  obtain ⟨s, hrun⟩ := reading_run hB.declared hu.checked
  have hreg := reading_registry hrun t
  intro ops
  have hops : ops = JointControl.text cf kin E.robot.nv q v l ++ [.task 0 (.posture (.setReference r))] := rfl
  have hitems : (S.registry E W ops t).items = [.task .motion 0 1 cf.w] := by
    rw [hreg]; exact hu.items
  have hmeas : (S.registry E W ops t).measured = [] := by
    rw [hreg]
    refine noted_measured _ fun m hm => ?_
    rcases List.mem_append.1 hm with hm | hm
    · exact joint_unmeasured _ _ _ _ m hm
    · simp at hm
  have hcids : S.cids E W ops t = [] := by
    unfold Setup.cids; rw [hitems]; rfl
  have hfix := hB.fixed
  have hpost : (PostureSettings.fresh E.robot).afterAll E.robot ((taskCalls 0 ops).filterMap posture?) =
      ⟨⟨E.robot.na, fun _ => 1⟩, Biped.gain E.robot.nv cf.kp, Biped.damping E.robot.nv cf.kp, r⟩ := by
    rw [hops, taskCalls_append, joint_calls, List.append_assoc, List.filterMap_append]
    have hz : ∀ (p : PostureSettings K) (a b : List (Posture.Op K)), p.afterAll E.robot (a ++ b) = (p.afterAll E.robot a).afterAll E.robot b := by
      intro p a
      induction a generalizing p with
      | nil => exact fun b => rfl
      | cons o a ih => exact fun b => ih _ b
    rw [hz]
    refine (joint_refs hr l _).trans ?_
    simp only [List.filterMap_cons, List.filterMap_nil, posture?, PostureSettings.afterAll, PostureSettings.after]
    rw [if_pos (show (Biped.gain E.robot.nv cf.kp).size = E.robot.na from hfix),
      if_pos (show (Biped.damping E.robot.nv cf.kp).size = E.robot.na from hfix)]
    split <;> rfl
  have hnv := hB.declared.nv
  have hna := hB.declared.na
  have hbal : S.Balanced E W ops (kin q' v') t b ↔ JointObeys S (kin q' v') b.dv b.tau := by
    unfold Setup.Balanced JointObeys
    rw [hcids, hmeas, ← balance_iff]
    refine forall_congr' fun u => ?_
    simp only [List.map_nil, List.sum_nil, add_zero]
    rw [← hna, ← hfix, hnv, Nat.sub_self]
    simp only [zero_add]
  refine ⟨⟨fun h => hbal.1 h.dynamics, fun h => ⟨hbal.2 h, ?_, ?_, ?_⟩⟩, fun reg => ?_⟩
  · intro fam tid k hm
    rw [hitems] at hm
    simp at hm
  · intro cid wm wf hm
    rw [hitems] at hm
    simp at hm
  · intro cid p wm wf hm
    rw [hitems] at hm
    simp at hm
  · have m1 : S.miss E W ops (kin q' v') t b .motion 0 = ∑ j ∈ range E.robot.nv, (b.dv j - desired cf E r (kin q' v') j) ^ 2 := by
      simp only [Setup.miss, hB.posture, TaskDecl.Error, Behaviour.part, alone, hpost]
      simp only [selected, if_true, PostureSettings.law, PostureSettings.target, hB.joints,
        Nat.sub_self, Nat.not_lt_zero, if_false, Nat.sub_zero]
      rw [← hfix]
      refine sum_congr rfl fun j _ => ?_
      rw [Nat.sub_self, zero_add]
      have hq : (⟨E.robot.nqa, fun i => r.pos i⟩ : Vec K) = r.pos := by
        rw [← hr.pos]
      rw [hq]
      rfl
    have hl : S.losses E W ops (kin q' v') t b = 1 / 2 * (cf.w * ∑ j ∈ range E.robot.nv, (b.dv j - desired cf E r (kin q' v') j) ^ 2) := by
      unfold Setup.losses
      rw [hitems, ← m1]
      simp only [List.map_cons, List.map_nil, List.sum_cons, List.sum_nil, add_zero]
      rfl
    unfold Setup.aim jointAim
    rw [hl]
    unfold Setup.effort
    rw [hcids, ← hnv]
    have hd : (Solver.defaultReg : K) = 1 / 100000000 := by unfold Solver.defaultReg; norm_num
    simp only [List.map_nil, List.sum_nil, add_zero, hd]

/-- **C114, the best behaviour.** There is exactly one: the desired accelerations, up to the factor `share`, and the torques that bring
them about. -/
theorem C114_unique (hB : IsJointArm cf kin E W S) {reg : Bool} (hw : 0 < cf.w) {dv tau : Nat → K} :
    (JointObeys S w dv tau ∧ ∀ dv' tau', JointObeys S w dv' tau' → jointAim reg cf E r w dv ≤ jointAim reg cf E r w dv') ↔
      JointObeys S w dv tau ∧ ∀ j, j < S.robot.nv → dv j = share reg cf * desired cf E r w j := by
  have hnv := hB.declared.nv
  have hpos : (0 : K) < 1 / 100000000 := by norm_num
  obtain ⟨c, hc, hsplit⟩ : ∃ c : K, 0 < c ∧ ∀ a : Nat → K, jointAim reg cf E r w a =
      jointAim reg cf E r w (fun j => share reg cf * desired cf E r w j) +
      c * ∑ j ∈ range E.robot.nv, (a j - share reg cf * desired cf E r w j) ^ 2 := by
    cases reg
    · refine ⟨1 / 2 * cf.w, by linarith, fun a => ?_⟩
      simp only [jointAim, share, Bool.false_eq_true, if_false, one_mul, sub_self]
      simp
      ring
    · refine ⟨1 / 2 * (cf.w + 1 / 100000000), by linarith, fun a => ?_⟩
      simp only [jointAim, share, if_true]
      simp only [mul_sum, ← sum_add_distrib]
      refine sum_congr rfl fun j _ => ?_
      have hne : cf.w + 1 / 100000000 ≠ 0 := by linarith
      generalize desired cf E r w j = d
      generalize hρ : (1 / 100000000 : K) = ρ at hne ⊢
      field_simp
      ring
  constructor
  · rintro ⟨h, hb⟩
    refine ⟨h, fun j hj => ?_⟩
    have h1 := hb _ _ (show JointObeys S w (fun j => share reg cf * desired cf E r w j) _ from fun i _ => rfl)
    rw [hsplit dv] at h1
    have h2 : ∑ j ∈ range E.robot.nv, (dv j - share reg cf * desired cf E r w j) ^ 2 = 0 := by
      refine le_antisymm ?_ (sum_nonneg fun j _ => sq_nonneg _)
      by_contra hne
      have := mul_pos hc (not_le.1 hne)
      linarith
    have := (sum_eq_zero_iff_of_nonneg fun j _ => sq_nonneg _).1 h2 j (mem_range.2 (by rw [hnv]; exact hj))
    exact sub_eq_zero.1 (pow_eq_zero_iff (two_ne_zero) |>.1 this)
  · rintro ⟨h, hd⟩
    refine ⟨h, fun dv' tau' _ => ?_⟩
    rw [hsplit dv, hsplit dv']
    have h2 : ∑ j ∈ range E.robot.nv, (dv j - share reg cf * desired cf E r w j) ^ 2 = 0 :=
      sum_eq_zero fun j hj => by rw [hd j (by rw [← hnv]; exact mem_range.1 hj), sub_self, zero_pow two_ne_zero]
    rw [h2, mul_zero, add_zero]
    exact le_add_of_nonneg_right (mul_nonneg hc.le (sum_nonneg fun j _ => sq_nonneg _))

theorem jointDriven_of {R C : Type} {D : Solve.Driver K R C} {u0 : Solve.Object K R} {Sat : R → (Nat → K) → Prop}
    {Success : Solve.Answer C K → Prop} {reg : Bool} {s : Program.State K} (hB : IsJointArm cf kin E W S) (hw : 0 < cf.w)
    (he : ∀ b, (Intended E W S ops w t b ↔ JointObeys S w b.dv b.tau) ∧
      ∀ reg, S.aim E W ops w t reg b = jointAim reg cf E r w b.dv)
    (h : Fulfils D u0 Sat Success reg E W S ops w t s) : JointDriven D u0 Sat Success reg cf E S r w s := by
  intro hist u h1 h2 fresh freshI engine h3
  obtain ⟨u', e, b, hb, h4⟩ := h hist u h1 h2 fresh freshI engine h3
  refine ⟨u', e, b.dv, b.tau, ⟨hb.dv, ?_⟩, fun hs => ?_⟩
  · have := hb.tau
    rwa [← hB.declared.na, ← hB.fixed, hB.declared.nv] at this
  · obtain ⟨h5, h6, h7⟩ := h4 hs
    refine ⟨h5, (C114_unique hB hw).1 ⟨(he b).1.1 h6, fun dv' tau' ho => ?_⟩⟩
    have := h7 ⟨dv', tau', b.force⟩ ((he ⟨dv', tau', b.force⟩).1.2 ho)
    rwa [(he b).2, (he ⟨dv', tau', b.force⟩).2] at this

/-- **C114, with the solver (partial).** After every control cycle of the loop, every back-end whose external solver keeps its
promises and succeeds delivers the desired accelerations, up to the factor `share`, and the torques that bring them about.
Missing: as in `C99_best_partial`. -/
theorem C114_driven_partial (hB : IsJointArm cf kin E W S) (hw : 0 < cf.w) (hv : v.size = E.robot.nv) (hq : E.robot.na ≤ q.size)
    (hp : ∀ s ∈ l, ProperJoint E.robot s) (hc : ProperJoint E.robot ⟨r, t, q', v'⟩) (hr : ProperRef E.robot r)
    (b : Bool) (t0 : Status.HQPStatus) (i : Int) (x : Solve.Objective K) :
    ∃ s, Program.run E S.start (JointControl.text cf kin E.robot.nv q v (l ++ [⟨r, t, q', v'⟩])) = some s ∧
      JointDriven Solve.eiq (Solve.Eiq.init t0 i x) EiqSat (fun a => ∃ w, a.objective = .num w) true cf E S r (kin q' v') s ∧
      JointDriven Solve.fast (Solve.Eiq.init t0 i x) EiqSat (fun a => a.code = .optimal) true cf E S r (kin q' v') s ∧
      (∀ fresh freshI neq nin, (problem s.form).head?.map Solver.count = some (neq, nin) →
        JointDriven Solve.rt (Solve.Rt.init fresh freshI (nVar s.form) neq nin t0 i x) EiqSat (fun a => a.code = .optimal) true
          cf E S r (kin q' v') s) ∧
      JointDriven Solve.prox (Solve.Prox.init t0 i x) ProxSat (fun a => a.code = .solved) false cf E S r (kin q' v') s ∧
      JointDriven Solve.osqp (Solve.Osqp.init t0 i x) OsqpSat (fun a => a.code = .solved) false cf E S r (kin q' v') s ∧
      JointDriven Solve.mad (Solve.Mad.init b t0 i x) MadSat (fun a => a.code = .ok) true cf E S r (kin q' v') s := by
  have hu := joint_ref hB (joint_upto hB hv hq E.robot.nv hp) r
  have he := C114_exact (t := t) (q' := q') (v' := v') hB hv hq hp hr
  have hf : S.Fine E W _ (.compute (kin q' v') t) := joint_fine hB hu hc.speed hc.config
  obtain ⟨s0, h⟩ := reading_run hB.declared hu.checked
  have hm := fine_may hB.declared h hf
  have hn := checked_abrupt hu.checked
  obtain ⟨s, e⟩ := C92_returns h.good hm.1 hm.2 hn
  have hitems := (congrArg Registry.items (reading_registry h t)).trans hu.items
  obtain ⟨k1, k2, k3, k4, k5, k6⟩ := C99_best_partial h.good hm.1 hm.2 e hn
    (by intro fam tid k hk; rw [hitems] at hk; simp at hk)
    (by
      intro fam tid k dt hk hd
      rw [hitems] at hk
      simp at hk)
    (by
      intro fam tid k hk
      rw [hitems] at hk
      simp at hk
      obtain ⟨-, rfl, -⟩ := hk
      rw [hB.posture]
      rfl) b t0 i x
  refine ⟨s, ?_, jointDriven_of hB hw he k1, jointDriven_of hB hw he k2,
    fun fresh freshI neq nin hh => jointDriven_of hB hw he (k3 fresh freshI neq nin hh), jointDriven_of hB hw he k4,
    jointDriven_of hB hw he k5, jointDriven_of hB hw he k6⟩
  rw [joint_snoc]
  exact (good_snoc h.good hm (fine_orderly h hf) (s1 := s) (by simp only [Program.step, e]; rfl)).run

/-- **C114, exceptions.** The exercise, which catches no exception, comes to its end exactly when the configuration and the references
of the loop have one entry for each joint. -/
theorem C114_exceptions (hB : IsJointArm cf kin E W S) (hv : v.size = E.robot.nv) (hq : E.robot.na ≤ q.size)
    (hp : ∀ s ∈ l, ProperJoint E.robot s) :
    (∃ s, uncaught E S.start (JointControl.text cf kin E.robot.nv q v l) = some s) ↔
      JointSized E.robot q ∧ ∀ s ∈ l, ProperRef E.robot s.ref := by
  have hu := joint_upto hB hv hq E.robot.nv hp
  rw [(C109_uncaught hB.declared hu.checked).1]
  constructor
  · intro h
    have key : ∀ r : Sample K, .task 0 (.posture (.setReference r)) ∈ JointControl.text cf kin E.robot.nv q v l →
        ProperRef E.robot r := by
      intro r hm
      obtain ⟨pre, post, e⟩ := List.append_of_mem hm
      have := h pre _ post e
      change ¬ (S.decl 0).Refuses _ _ _ at this
      rw [hB.posture] at this
      simp only [TaskDecl.Refuses, not_or, not_not] at this
      exact ⟨this.1, this.2.1, this.2.2⟩
    have h0 := key (EuclidianConstant.newWith q) (List.mem_append_left _ (by simp [JointControl.build]))
    exact ⟨⟨h0.pos, h0.vel⟩, fun s hs => key s.ref (List.mem_append_right _ (List.mem_flatMap.2 ⟨s, hs, by simp [JointControl.step]⟩))⟩
  · rintro ⟨hs, hr⟩ pre o post e
    have htask : ∀ c, ¬ TaskDecl.Refuses E.robot (taskCalls 0 pre) .posture c → ¬ S.Refuses E pre (.task 0 c) := by
      intro c h
      show ¬ (S.decl 0).Refuses _ _ _
      rwa [hB.posture]
    have ho : o ∈ JointControl.text cf kin E.robot.nv q v l := by rw [e]; simp
    rcases List.mem_append.1 ho with ho | ho
    · have all : ∀ o ∈ JointControl.build cf kin E.robot.nv q v, ¬ S.Refuses E pre o := by
        simp only [JointControl.build, List.forall_mem_cons]
        refine ⟨id, htask _ (fun h => h hB.fixed), htask _ (fun h => h hB.fixed),
          fun h => h.elim (not_lt.2 hB.w) (lt_irrefl _), htask _ ?_, by simp⟩
        rintro (h | h | h)
        · exact h hs.joints
        · exact h hs.motors
        · exact h hs.motors
      exact all o ho
    · obtain ⟨s, hs', ho⟩ := List.mem_flatMap.1 ho
      simp only [JointControl.step, List.mem_cons, List.not_mem_nil, or_false] at ho
      rcases ho with rfl | rfl
      · refine htask _ ?_
        rintro (h | h | h)
        · exact h (hr s hs').pos
        · exact h (hr s hs').vel
        · exact h (hr s hs').acc
      · exact id

end

end Tsid.Props
