import Verif.Props.Gripper

/-!
# What the gripper demo makes the robot do
-/

set_option linter.unusedSectionVars false

namespace Tsid.Props

open Spec Finset Formulation Program

section
variable {K : Type} [Field K] [LinearOrder K] [FloorRing K] [HasSqrt K] [IsStrictOrderedRing K] [LawfulSqrt K]
variable {cf : Gripper.Conf K} {kin : Vec K → Vec K → Snapshot K} {g : Nat → K} {E : Program.Env K} {W : World}
  {S : Setup K} {ops : List (Program.Op K)}
variable {q v q' v' : Vec K} {l : List (Gripper.Step K)} {r : Sample K} {t : K} {goal : Goal K} {w : Snapshot K}

theorem gripBest_of {R C : Type} {D : Solve.Driver K R C} {u0 : Solve.Object K R} {Sat : R → (Nat → K) → Prop}
    {Success : Solve.Answer C K → Prop} {reg : Bool} {s : Program.State K} (hB : IsGripper cf kin E W S)
    (hc : S.cids E W ops t = [0])
    (he : ∀ b, (Intended E W S ops w t b ↔ GripObeys cf S w b.dv b.tau (b.force 0)) ∧
      ∀ reg, S.aim E W ops w t reg b = gripAim reg cf E q goal w b.dv (b.force 0))
    (h : Fulfils D u0 Sat Success reg E W S ops w t s) : GripBest D u0 Sat Success reg cf E S q goal w s := by
  intro hist u h1 h2 fresh freshI engine h3
  obtain ⟨u', e, b, hb, h4⟩ := h hist u h1 h2 fresh freshI engine h3
  refine ⟨u', e, b.dv, b.tau, b.force 0, ⟨hb.dv, ?_, ?_⟩, fun hs => ?_⟩
  · have := hb.tau
    rwa [← hB.declared.na, ← hB.fixed, hB.declared.nv] at this
  · have := hb.force 0 (by rw [hc]; exact List.mem_cons_self)
    rw [grip_kind hB] at this
    obtain ⟨n, mu, ho⟩ := hB.contact
    rw [ho] at this
    exact this
  · obtain ⟨h5, h6, h7⟩ := h4 hs
    refine ⟨h5, (he b).1.1 h6, fun dv' tau' force' ho => ?_⟩
    have := h7 ⟨dv', tau', fun _ => force'⟩ ((he ⟨dv', tau', fun _ => force'⟩).1.2 ho)
    rwa [(he b).2, (he ⟨dv', tau', fun _ => force'⟩).2] at this

theorem grip_conditions (hB : IsGripper cf kin E W S) (hitems : (S.registry E W ops t).items = gripItems cf) :
    (∀ fam tid k, .task fam tid 0 k ∈ (S.registry E W ops t).items → (S.decl tid).Upright w) ∧ S.Viable E W ops w t ∧
    ∀ fam tid k, .task fam tid 1 k ∈ (S.registry E W ops t).items → (S.decl tid).kind = .equality := by
  refine ⟨fun fam tid k hm => ?_, fun fam tid k dt hm hd => ?_, fun fam tid k hm => ?_⟩
  · rw [hitems] at hm
    exact grip_cases hB (P := fun d => d.Upright w) (grip_item hm).1 trivial trivial trivial
  · rw [hitems] at hm
    revert hd
    exact grip_cases hB (P := fun d => d = .posVelAcc dt → _) (grip_item hm).1 (fun e => by cases e) (fun e => by cases e)
      (fun e => by cases e)
  · rw [hitems] at hm
    have := (grip_item hm).2 rfl
    match tid, this with
    | 0, _ => rw [hB.tip]; rfl
    | 1, _ => rw [hB.posture]; rfl

/-- **C113, with the solver (partial).** After every control cycle of the loop, every back-end whose external solver keeps its
promises and succeeds delivers the best accelerations, torques and contact force that the gripper may have: the laws of mechanics
hold, the passive joints get no torque, torques and force are within their limits, and nothing that does so is closer to what is asked
of fingertip, joints, closure of the chain and force.  Missing: as in `C99_best_partial`. -/
theorem C113_best_partial (hB : IsGripper cf kin E W S) (hv : v.size = E.robot.nv) (hs : GripSized cf E.robot q)
    (hp : ∀ s ∈ l, ProperGrip E.robot s) (hc : ProperGrip E.robot ⟨r, t, q', v'⟩)
    (b : Bool) (t0 : Status.HQPStatus) (i : Int) (x : Solve.Objective K) :
    ∃ s, Program.run E S.start (Gripper.text cf kin g E.robot.nv q v (l ++ [⟨r, t, q', v'⟩])) = some s ∧
      GripBest Solve.eiq (Solve.Eiq.init t0 i x) EiqSat (fun a => ∃ w, a.objective = .num w) true cf E S q
        (sampleGoal r) (kin q' v') s ∧
      GripBest Solve.fast (Solve.Eiq.init t0 i x) EiqSat (fun a => a.code = .optimal) true cf E S q
        (sampleGoal r) (kin q' v') s ∧
      (∀ fresh freshI neq nin, (problem s.form).head?.map Solver.count = some (neq, nin) →
        GripBest Solve.rt (Solve.Rt.init fresh freshI (nVar s.form) neq nin t0 i x) EiqSat (fun a => a.code = .optimal) true
          cf E S q (sampleGoal r) (kin q' v') s) ∧
      GripBest Solve.prox (Solve.Prox.init t0 i x) ProxSat (fun a => a.code = .solved) false cf E S q
        (sampleGoal r) (kin q' v') s ∧
      GripBest Solve.osqp (Solve.Osqp.init t0 i x) OsqpSat (fun a => a.code = .solved) false cf E S q
        (sampleGoal r) (kin q' v') s ∧
      GripBest Solve.mad (Solve.Mad.init b t0 i x) MadSat (fun a => a.code = .ok) true cf E S q
        (sampleGoal r) (kin q' v') s := by
  have hr : r.pos.size = 12 ∧ r.vel.size = 6 ∧ r.acc.size = 6 := ⟨hc.pos, hc.vel, hc.acc⟩
  have hu := grip_refs hB (grip_upto (g := g) hB hv hs.motors.ge E.robot.nv hp) q hr.2
  have he := C113_exact (g := g) (t := t) (q' := q') (v' := v') hB hv hs hp hr
  have hf : S.Fine E W _ (.compute (kin q' v') t) := grip_fine hB hu hc.speed hc.config
  obtain ⟨s0, h⟩ := reading_run hB.declared hu.checked
  have hm := fine_may hB.declared h hf
  have hn := checked_abrupt hu.checked
  obtain ⟨s, e⟩ := C92_returns h.good hm.1 hm.2 hn
  have hitems := (congrArg Registry.items (reading_registry h t)).trans hu.items
  have hcids := (congrArg (List.filterMap Item.cid?) hitems).trans grip_cids
  obtain ⟨c1, c2, c3⟩ := grip_conditions (w := kin q' v') hB hitems
  obtain ⟨k1, k2, k3, k4, k5, k6⟩ := C99_best_partial h.good hm.1 hm.2 e hn c1 c2 c3 b t0 i x
  refine ⟨s, ?_, gripBest_of hB hcids he k1, gripBest_of hB hcids he k2,
    fun fresh freshI neq nin hh => gripBest_of hB hcids he (k3 fresh freshI neq nin hh), gripBest_of hB hcids he k4,
    gripBest_of hB hcids he k5, gripBest_of hB hcids he k6⟩
  rw [grip_snoc]
  exact (good_snoc h.good hm (fine_orderly h hf) (s1 := s) (by simp only [Program.step, e]; rfl)).run

/-! ## The chain -/

/-- **C113, nothing closes the chain.** The contact is registered at the lower priority.  So if a behaviour is admissible, all
accelerations with the same effect on the passive joints, for which the motors are strong enough, are admissible too with the same
contact force: the optimiser may tear the two frames apart while it counts on the force between them. -/
theorem C113_soft {dv tau force : Nat → K} (h : GripObeys cf S w dv tau force) {dv' : Nat → K}
    (hb : ∀ i, i < S.robot.nv → i < 2 → ∑ j ∈ range S.robot.nv, S.robot.mass w.M i j * dv' j =
      ∑ j ∈ range S.robot.nv, S.robot.mass w.M i j * dv j)
    (hm : ∀ i, i < S.robot.nv → 2 ≤ i → |tau i + ∑ j ∈ range S.robot.nv, S.robot.mass w.M i j * (dv' j - dv j)| ≤ cf.effort i) :
    GripObeys cf S w dv' (fun i => tau i + ∑ j ∈ range S.robot.nv, S.robot.mass w.M i j * (dv' j - dv j)) force := by
  have hsub : ∀ i, ∑ j ∈ range S.robot.nv, S.robot.mass w.M i j * (dv' j - dv j) =
      ∑ j ∈ range S.robot.nv, S.robot.mass w.M i j * dv' j - ∑ j ∈ range S.robot.nv, S.robot.mass w.M i j * dv j := by
    intro i
    rw [← sum_sub_distrib]
    exact sum_congr rfl fun j _ => by ring
  refine ⟨fun u => ?_, h.pull, fun i hi h2 => ?_, hm⟩
  · have hd := h.dynamics u
    have e1 : ∑ i ∈ range S.robot.nv, (∑ j ∈ range S.robot.nv, S.robot.mass w.M i j * dv' j + w.nle i) * u i =
        ∑ i ∈ range S.robot.nv, (∑ j ∈ range S.robot.nv, S.robot.mass w.M i j * dv j + w.nle i) * u i +
        ∑ i ∈ range S.robot.nv, (∑ j ∈ range S.robot.nv, S.robot.mass w.M i j * (dv' j - dv j)) * u i := by
      rw [← sum_add_distrib]
      exact sum_congr rfl fun i _ => by rw [hsub]; ring
    rw [e1, hd]
    simp only [add_mul, sum_add_distrib]
    ring
  · show tau i + _ = 0
    rw [h.passive i hi h2, hsub, hb i hi h2, sub_self, add_zero]

/-- **C113, how far the chain opens.** The squared error of the relative acceleration of the two frames in a best behaviour is at most
twice the cost of any behaviour that is admissible. -/
theorem C113_gap (hB : IsGripper cf kin E W S) (hw : 0 ≤ cf.wForceRef) {reg : Bool} {dv force : Nat → K}
    (hbest : ∀ dv' tau' force', GripObeys cf S w dv' tau' force' →
      gripAim reg cf E q goal w dv force ≤ gripAim reg cf E q goal w dv' force')
    {dv' tau' force' : Nat → K} (ho : GripObeys cf S w dv' tau' force') :
    ∑ i ∈ range 3, gapError cf E.robot.nv (w.frame cf.first) (w.frame cf.second) dv i ^ 2 ≤
      2 * gripAim reg cf E q goal w dv' force' := by
  refine le_trans ?_ (mul_le_mul_of_nonneg_left (hbest _ _ _ ho) zero_le_two)
  unfold gripAim gripCost
  have h1 := mul_nonneg hw (sum_nonneg fun i (_ : i ∈ range 3) => sq_nonneg (force i))
  have h2 := mul_nonneg hB.wPosture (sum_nonneg fun j (_ : j ∈ range E.robot.nv) => sq_nonneg (dv j + cf.kpPosture *
    E.robot.difference q w.q j + critical cf.kpPosture * w.v j))
  have h3 := mul_nonneg hB.wEe (sum_nonneg fun i (_ : i ∈ range 6) => sq_nonneg ((⟨⟨6, fun _ => 1⟩, ⟨6, fun _ => cf.kpEe⟩,
    ⟨6, fun _ => critical cf.kpEe⟩, goal.pose, goal.vel, goal.acc, false⟩ : FrameSettings K).achieved E.robot.nv (w.frame cf.tip) dv i -
    (⟨⟨6, fun _ => 1⟩, ⟨6, fun _ => cf.kpEe⟩, ⟨6, fun _ => critical cf.kpEe⟩, goal.pose, goal.vel, goal.acc, false⟩ :
      FrameSettings K).law E.log3 (w.frame cf.tip) i))
  have h4 : 0 ≤ (if reg then 1 / 2 * (Solver.defaultReg * (∑ i ∈ range E.robot.nv, dv i ^ 2 +
      ∑ i ∈ range 3, force i ^ 2)) else (0 : K)) := by
    have := defaultReg_pos (K := K)
    split
    · exact mul_nonneg (by norm_num) (mul_nonneg this.le (add_nonneg (sum_nonneg fun i _ => sq_nonneg _)
        (sum_nonneg fun i _ => sq_nonneg _)))
    · exact le_refl _
  simp only
  linarith

/-! ## Exceptions -/

/-- **C113, exceptions.** The demo, which catches no exception, comes to its end exactly when there is one effort limit for each joint
and, if the loop is entered at all, the configuration has one entry for each joint. -/
theorem C113_exceptions (hB : IsGripper cf kin E W S) (hv : v.size = E.robot.nv) (hq : E.robot.na ≤ q.size)
    (hp : ∀ s ∈ l, ProperGrip E.robot s) :
    (∃ s, uncaught E S.start (Gripper.text cf kin g E.robot.nv q v l) = some s) ↔
      cf.effort.size = E.robot.na ∧ (l ≠ [] → GripSized cf E.robot q) := by
  have hu := grip_upto (g := g) hB hv hq E.robot.nv hp
  rw [(C109_uncaught hB.declared hu.checked).1]
  have tq : ∀ {pre post : List (Program.Op K)} {o : Program.Op K},
      Gripper.text cf kin g E.robot.nv q v l = pre ++ o :: post → ∀ {l u : Vec K},
      S.Refuses E pre (.task 2 (.actBounds (.setBounds l u))) ↔ l.size ≠ E.robot.na ∨ u.size ≠ E.robot.na := by
    intro pre post o e l' u
    have hfree : ∀ c ∈ taskCalls 2 pre, MaskFree c := by
      intro c hc
      refine grip_free (cf := cf) (kin := kin) (g := g) E.robot.nv q v l (by decide) c (tid := 2) ?_
      rw [e, taskCalls_append]
      exact List.mem_append_left _ hc
    show (S.decl 2).Refuses E.robot _ _ ↔ _
    rw [hB.torque]
    simp only [TaskDecl.Refuses]
    rw [torque_masks _ _ hfree, show (TorqueLimits.fresh (K := K) E.robot.na).mask = ⟨E.robot.na, fun _ => 1⟩ from rfl,
      count_ones]
  constructor
  · intro h
    have ht : cf.effort.size = E.robot.na := by
      obtain ⟨pre, post, e⟩ := List.append_of_mem (show .task 2 (.actBounds (.setBounds ⟨(Gripper.tauMax cf).size, fun i =>
        -Gripper.tauMax cf i⟩ (Gripper.tauMax cf))) ∈ Gripper.text cf kin g E.robot.nv q v l from
        List.mem_append_left _ (by simp [Gripper.build]))
      have := h pre _ post e
      rw [tq e] at this
      simp only [not_or, not_not] at this
      exact this.2
    refine ⟨ht, fun hl => ?_⟩
    have hm : .task 1 (.posture (.setReference (EuclidianConstant.newWith q))) ∈ Gripper.text cf kin g E.robot.nv q v l := by
      obtain ⟨s, hs⟩ := List.exists_mem_of_ne_nil l hl
      exact List.mem_append_right _ (List.mem_flatMap.2 ⟨s, hs, by simp [Gripper.step, Gripper.references]⟩)
    obtain ⟨pre, post, e⟩ := List.append_of_mem hm
    have := h pre _ post e
    change ¬ (S.decl 1).Refuses _ _ _ at this
    rw [hB.posture] at this
    simp only [TaskDecl.Refuses, not_or, not_not] at this
    exact ⟨ht, this.1, this.2.1⟩
  · rintro ⟨ht, hs⟩ pre o post e
    have hadd : ∀ {k : K}, 0 ≤ k → ¬ (k < 0 ∨ (0 : K) < 0) := fun hk h => h.elim (not_lt.2 hk) (lt_irrefl _)
    have htask : ∀ tid c d, S.decl tid = d → ¬ d.Refuses E.robot (taskCalls tid pre) c → ¬ S.Refuses E pre (.task tid c) := by
      rintro tid c d rfl h
      exact h
    have hmot : ∀ c, ¬ ContactDecl.Refuses (.pair cf.first cf.second) c → ¬ S.Refuses E pre (.motion 0 c) := by
      intro c h
      show ¬ (S.cdecl 0).Refuses c
      rwa [hB.motion]
    have ho : o ∈ Gripper.text cf kin g E.robot.nv q v l := by rw [e]; simp
    rcases List.mem_append.1 ho with ho | ho
    · have all : ∀ o ∈ Gripper.build cf kin g E.robot.nv q v, ¬ S.Refuses E pre o := by
        simp only [Gripper.build, List.forall_mem_cons]
        refine ⟨id, htask _ _ _ hB.tip id, htask _ _ _ hB.tip (fun h => h rfl), htask _ _ _ hB.tip (fun h => h rfl),
          htask _ _ _ hB.tip (fun h => h rfl), hadd hB.wEe, htask _ _ _ hB.posture (fun h => h hB.fixed),
          htask _ _ _ hB.posture (fun h => h hB.fixed), hadd hB.wPosture, hmot _ id, hmot _ id, id, ?_, hadd zero_le_one, by simp⟩
        rw [tq e]
        exact fun h => h.elim (fun h => h ht) (fun h => h ht)
      exact all o ho
    · obtain ⟨s, hs', ho⟩ := List.mem_flatMap.1 ho
      have hs := hs (List.ne_nil_of_mem hs')
      simp only [Gripper.step, Gripper.references, List.mem_append, List.mem_cons, List.not_mem_nil, or_false] at ho
      rcases ho with (rfl | rfl) | rfl
      · exact htask _ _ _ hB.tip fun h => h (hp s hs').pos
      · refine htask _ _ _ hB.posture ?_
        rintro (h | h | h)
        · exact h hs.joints
        · exact h hs.motors
        · exact h hs.motors
      · exact id

/-! ## The loop -/

theorem gripTime_eq (dt : K) (i : Nat) : Gripper.timeAt dt i = i * dt := by
  induction i with
  | zero => simp [Gripper.timeAt]
  | succ i ih => rw [Gripper.timeAt, ih]; push_cast; ring

/-- **C113, the loop.** The loop of the demo runs without exceptions if the sizes are right, for any number of steps and whatever the
solver answers; step `i` makes the cycle at time `i dt` with the state of that step and asks the fingertip to keep its orientation and
to be on the sinusoid around the shifted initial position. -/
theorem C113_loop (hB : IsGripper cf kin E W S) (hv : v.size = E.robot.nv) (hs : GripSized cf E.robot q) (sn cn : K → K)
    (M : SE3 K) (shift amp twoPiF : V3 K) {qs vs : Nat → Vec K} {N : Nat}
    (hq : ∀ i, i < N → (vs i).size = E.robot.nv ∧ E.robot.na ≤ (qs i).size) :
    (∃ s, uncaught E S.start (Gripper.text cf kin g E.robot.nv q v
      (Gripper.loop (Gripper.wave sn cn (Biped.poseSample M).pos shift amp twoPiF) cf.dt qs vs N)) = some s) ∧
    (Gripper.loop (Gripper.wave sn cn (Biped.poseSample M).pos shift amp twoPiF) cf.dt qs vs N).length = N ∧
    ∀ (i : Nat) (s : Gripper.Step K),
      (Gripper.loop (Gripper.wave sn cn (Biped.poseSample M).pos shift amp twoPiF) cf.dt qs vs N)[i]? = some s →
      s.t = i * cf.dt ∧ s.q = qs i ∧ s.v = vs i ∧ (sampleGoal s.ref).pose.rot = M.rot ∧
      (sampleGoal s.ref).vel.ang = ⟨0, 0, 0⟩ ∧ (sampleGoal s.ref).acc.ang = ⟨0, 0, 0⟩ ∧ ∀ k, k < 3 →
        (sampleGoal s.ref).pose.trans.get k = M.trans.get k + shift.get k + amp.get k * sn (twoPiF.get k * (i * cf.dt)) ∧
        (sampleGoal s.ref).vel.lin.get k = twoPiF.get k * amp.get k * cn (twoPiF.get k * (i * cf.dt)) ∧
        (sampleGoal s.ref).acc.lin.get k = -(twoPiF.get k ^ 2 * amp.get k * sn (twoPiF.get k * (i * cf.dt))) := by
  refine ⟨(C113_exceptions hB hv hs.motors.ge ?_).2 ⟨hs.torque, fun _ => hs⟩, by simp [Gripper.loop], ?_⟩
  · intro s hm
    simp only [Gripper.loop, List.mem_map, List.mem_range] at hm
    obtain ⟨i, hi, rfl⟩ := hm
    exact ⟨rfl, rfl, rfl, (hq i hi).1, (hq i hi).2⟩
  · intro i s h
    simp only [Gripper.loop, List.getElem?_map, Option.map_eq_some_iff] at h
    obtain ⟨j, hj, rfl⟩ := h
    obtain rfl : j = i := by
      rw [List.getElem?_eq_some_iff] at hj
      obtain ⟨_, h⟩ := hj
      simpa using h.symm
    refine ⟨gripTime_eq _ _, rfl, rfl, rfl, rfl, rfl, fun k hk => ?_⟩
    simp only [gripTime_eq]
    match k, hk with
    | 0, _ =>
      refine ⟨rfl, rfl, ?_⟩
      show -(_ * (_ * _)) * _ = _
      ring
    | 1, _ =>
      refine ⟨rfl, rfl, ?_⟩
      show -(_ * (_ * _)) * _ = _
      ring
    | 2, _ =>
      refine ⟨rfl, rfl, ?_⟩
      show -(_ * (_ * _)) * _ = _
      ring

end

/-- **C113, the reference.** Velocity and acceleration of the reference of the fingertip are the derivatives of its position. -/
theorem C113_reference (start : Vec ℝ) (shift amp twoPiF : V3 ℝ) (t : ℝ) {i : Nat} (hi : i < 3) :
    HasDerivAt (fun t => (Gripper.wave Real.sin Real.cos start shift amp twoPiF t).pos i)
      ((Gripper.wave Real.sin Real.cos start shift amp twoPiF t).vel i) t ∧
    HasDerivAt (fun t => (Gripper.wave Real.sin Real.cos start shift amp twoPiF t).vel i)
      ((Gripper.wave Real.sin Real.cos start shift amp twoPiF t).acc i) t := by
  have ph : HasDerivAt (fun t => twoPiF.get i * t) (twoPiF.get i) t := by
    simpa using (hasDerivAt_id t).const_mul (twoPiF.get i)
  simp only [Gripper.wave, if_pos hi]
  constructor
  · exact ((ph.sin.const_mul (amp.get i)).const_add (start i + shift.get i)).congr_deriv (by ring)
  · exact (ph.cos.const_mul (twoPiF.get i * amp.get i)).congr_deriv (by ring)

/-- **C113, existence.** If mechanics and limits can be satisfied at all and the weight of the force is not negative, there is a best
behaviour in the sense of the back-ends that regularise, and its accelerations, torques and contact force are the only best ones. -/
theorem C113_exists {cf : Gripper.Conf ℝ} {kin : Vec ℝ → Vec ℝ → Snapshot ℝ} {g : Nat → ℝ} {E : Program.Env ℝ} {W : World}
    {S : Setup ℝ} {q v q' v' : Vec ℝ} {l : List (Gripper.Step ℝ)} {r : Sample ℝ} {t : ℝ} (hB : IsGripper cf kin E W S)
    (hv : v.size = E.robot.nv) (hs : GripSized cf E.robot q) (hp : ∀ s ∈ l, ProperGrip E.robot s)
    (hc : ProperGrip E.robot ⟨r, t, q', v'⟩) (hw : 0 ≤ cf.wForceRef)
    (hf : ∃ dv tau force, GripObeys cf S (kin q' v') dv tau force) :
    ∃ dv tau force, GripObeys cf S (kin q' v') dv tau force ∧
      (∀ dv' tau' force', GripObeys cf S (kin q' v') dv' tau' force' →
        gripAim true cf E q (sampleGoal r) (kin q' v') dv force ≤
          gripAim true cf E q (sampleGoal r) (kin q' v') dv' force') ∧
      ∀ a ta fa, GripObeys cf S (kin q' v') a ta fa →
        (∀ dv' tau' force', GripObeys cf S (kin q' v') dv' tau' force' →
          gripAim true cf E q (sampleGoal r) (kin q' v') a fa ≤
            gripAim true cf E q (sampleGoal r) (kin q' v') dv' force') →
        (∀ i, i < S.robot.nv → a i = dv i ∧ ta i = tau i) ∧ ∀ i, i < 3 → fa i = force i := by
  have hr : r.pos.size = 12 ∧ r.vel.size = 6 ∧ r.acc.size = 6 := ⟨hc.pos, hc.vel, hc.acc⟩
  have hu := grip_refs hB (grip_upto (g := g) hB hv hs.motors.ge E.robot.nv hp) q hr.2
  have he := C113_exact (g := g) (t := t) (q' := q') (v' := v') hB hv hs hp hr
  have hfine : S.Fine E W _ (.compute (kin q' v') t) := grip_fine hB hu hc.speed hc.config
  obtain ⟨s0, h⟩ := reading_run hB.declared hu.checked
  have hm := fine_may hB.declared h hfine
  have hn := checked_abrupt hu.checked
  obtain ⟨s, e⟩ := C92_returns h.good hm.1 hm.2 hn
  have hitems := (congrArg Registry.items (reading_registry h t)).trans hu.items
  have hcids := (congrArg (List.filterMap Item.cid?) hitems).trans grip_cids
  obtain ⟨c1, c2, c3⟩ := grip_conditions (w := kin q' v') hB hitems
  obtain ⟨dv0, tau0, force0, h0⟩ := hf
  obtain ⟨b, hb, hsame⟩ := C99_exists_partial h.good hm.1 hm.2 e hn c1 c2 c3
    (by
      rw [hitems]
      intro it hit
      simp only [gripItems, List.mem_cons, List.not_mem_nil, or_false] at hit
      rcases hit with rfl | rfl | rfl | rfl
      · exact fun _ => hB.wEe
      · exact fun _ => hB.wPosture
      · exact ⟨fun _ => zero_le_one, hw⟩
      · exact fun _ => zero_le_one)
    ⟨⟨dv0, tau0, fun _ => force0⟩, (he ⟨dv0, tau0, fun _ => force0⟩).1.2 h0⟩
  refine ⟨b.dv, b.tau, b.force 0, (he b).1.1 hb.1, fun dv' tau' force' ho => ?_, fun a ta fa ha ha' => ?_⟩
  · have := hb.2 ⟨dv', tau', fun _ => force'⟩ ((he ⟨dv', tau', fun _ => force'⟩).1.2 ho)
    rwa [(he b).2, (he ⟨dv', tau', fun _ => force'⟩).2] at this
  · obtain ⟨k1, k2, k3⟩ := hsame ⟨a, ta, fun _ => fa⟩ ⟨(he ⟨a, ta, fun _ => fa⟩).1.2 ha, fun b' hb' => by
      rw [(he b').2, (he ⟨a, ta, fun _ => fa⟩).2]
      exact ha' _ _ _ ((he b').1.1 hb')⟩
    refine ⟨fun i hi => ⟨(k1 i hi).symm, (k2 i ?_).symm⟩, fun i hi => ?_⟩
    · rw [← hB.declared.na, ← hB.fixed, hB.declared.nv]
      exact hi
    · refine (k3 0 ?_ i (by rw [grip_kind hB]; exact hi)).symm
      show 0 ∈ List.filterMap Item.cid? _
      rw [hcids]
      exact List.mem_cons_self

end Tsid.Props
