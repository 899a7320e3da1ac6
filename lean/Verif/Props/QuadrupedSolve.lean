import Verif.Props.Quadruped

/-!
# What the quadruped demo makes the robot do
-/

set_option linter.unusedSectionVars false

namespace Tsid.Props

open Spec Finset Formulation Program

section
variable {K : Type} [Field K] [LinearOrder K] [FloorRing K] [HasSqrt K] [IsStrictOrderedRing K] [LawfulSqrt K]
variable {cf : Quadruped.Conf K} {kin : Vec K → Vec K → Snapshot K} {g : Nat → K} {E : Program.Env K} {W : World}
  {S : Setup K} {ops : List (Program.Op K)}
variable {q v q' v' : Vec K} {l : List (Quadruped.Step K)} {r : Sample K} {t : K} {places : Nat → V3 K} {w : Snapshot K}

theorem quadBest_of {R C : Type} {D : Solve.Driver K R C} {u0 : Solve.Object K R} {Sat : R → (Nat → K) → Prop}
    {Success : Solve.Answer C K → Prop} {reg : Bool} {s : Program.State K} (hB : IsQuadruped cf kin E W S)
    (hc : S.cids E W ops t = [0, 1, 2, 3])
    (he : ∀ b, (Intended E W S ops w t b ↔ QuadObeys cf S w b.dv b.tau b.force) ∧
      ∀ reg, S.aim E W ops w t reg b = quadAim reg cf E q places r w b.dv b.force)
    (h : Fulfils D u0 Sat Success reg E W S ops w t s) : QuadBest D u0 Sat Success reg cf E S q places r w s := by
  intro hist u h1 h2 fresh freshI engine h3
  obtain ⟨u', e, b, hb, h4⟩ := h hist u h1 h2 fresh freshI engine h3
  refine ⟨u', e, b.dv, b.tau, b.force, ⟨hb.dv, ?_, fun i hi => ?_⟩, fun hs => ?_⟩
  · have := hb.tau
    have h6 := hB.floating
    rwa [show S.robot.na = S.robot.nv - 6 by rw [← hB.declared.na, ← hB.declared.nv]; omega] at this
  · have := hb.force i (by rw [hc]; simp; omega)
    rwa [quad_name hB hi, quad_kind hB hi] at this
  · obtain ⟨h5, h6, h7⟩ := h4 hs
    refine ⟨h5, (he b).1.1 h6, fun dv' tau' force' ho => ?_⟩
    have := h7 ⟨dv', tau', force'⟩ ((he ⟨dv', tau', force'⟩).1.2 ho)
    rwa [(he b).2, (he ⟨dv', tau', force'⟩).2] at this

theorem quad_conditions (hB : IsQuadruped cf kin E W S) (hitems : (S.registry E W ops t).items = quadItems cf) :
    (∀ fam tid k, .task fam tid 0 k ∈ (S.registry E W ops t).items → (S.decl tid).Upright w) ∧ S.Viable E W ops w t ∧
    ∀ fam tid k, .task fam tid 1 k ∈ (S.registry E W ops t).items → (S.decl tid).kind = .equality := by
  refine ⟨fun fam tid k hm => ?_, fun fam tid k dt hm hd => ?_, fun fam tid k hm => ?_⟩
  · rw [hitems] at hm
    exact absurd (quad_item hm).2 (by decide)
  · rw [hitems] at hm
    exact absurd (quad_item hm).2 (by decide)
  · rw [hitems] at hm
    exact quad_cases hB (P := fun d => d.kind = .equality) (quad_item hm).1 rfl rfl

/-- **C112, with the solver (partial).** After every control cycle of the loop, every back-end whose external solver keeps its
promises and succeeds delivers the best accelerations, torques and contact forces that the quadruped may have: the laws of
mechanics hold, every foot pushes within its limits and the friction pyramid, and nothing that does so is closer to what is asked
of centre of mass, joints, feet and forces.  Missing: as in `C99_best_partial`. -/
theorem C112_best_partial (hB : IsQuadruped cf kin E W S) (hv : v.size = E.robot.nv) (hs : QuadSized E.robot q)
    (hp : ∀ s ∈ l, ProperStep E.robot s) (hc : ProperStep E.robot ⟨r, t, q', v'⟩)
    (b : Bool) (t0 : Status.HQPStatus) (i : Int) (x : Solve.Objective K) :
    ∃ s, Program.run E S.start (Quadruped.text cf kin g E.robot.nv q v (l ++ [⟨r, t, q', v'⟩])) = some s ∧
      QuadBest Solve.eiq (Solve.Eiq.init t0 i x) EiqSat (fun a => ∃ w, a.objective = .num w) true cf E S q
        (feetPlaces cf kin q v) r (kin q' v') s ∧
      QuadBest Solve.fast (Solve.Eiq.init t0 i x) EiqSat (fun a => a.code = .optimal) true cf E S q
        (feetPlaces cf kin q v) r (kin q' v') s ∧
      (∀ fresh freshI neq nin, (problem s.form).head?.map Solver.count = some (neq, nin) →
        QuadBest Solve.rt (Solve.Rt.init fresh freshI (nVar s.form) neq nin t0 i x) EiqSat (fun a => a.code = .optimal) true
          cf E S q (feetPlaces cf kin q v) r (kin q' v') s) ∧
      QuadBest Solve.prox (Solve.Prox.init t0 i x) ProxSat (fun a => a.code = .solved) false cf E S q
        (feetPlaces cf kin q v) r (kin q' v') s ∧
      QuadBest Solve.osqp (Solve.Osqp.init t0 i x) OsqpSat (fun a => a.code = .solved) false cf E S q
        (feetPlaces cf kin q v) r (kin q' v') s ∧
      QuadBest Solve.mad (Solve.Mad.init b t0 i x) MadSat (fun a => a.code = .ok) true cf E S q
        (feetPlaces cf kin q v) r (kin q' v') s := by
  have hr : r.pos.size = 3 ∧ r.vel.size = 3 ∧ r.acc.size = 3 := ⟨hc.pos, hc.vel, hc.acc⟩
  have hq : E.robot.na ≤ q.size := by have := hs.motors; omega
  have hu := quad_refs hB (quad_upto (g := g) hB hv hq E.robot.nv hp) (Quadruped.joints cf kin q v) hr
  have he := C112_exact (g := g) (t := t) (q' := q') (v' := v') hB hv hs hp hr
  have hf : S.Fine E W _ (.compute (kin q' v') t) := quad_fine hB hu hc.speed hc.config
  obtain ⟨s0, h⟩ := reading_run hB.declared hu.checked
  have hm := fine_may hB.declared h hf
  have hn := checked_abrupt hu.checked
  obtain ⟨s, e⟩ := C92_returns h.good hm.1 hm.2 hn
  have hitems := (congrArg Registry.items (reading_registry h t)).trans hu.items
  have hcids := (congrArg (List.filterMap Item.cid?) hitems).trans quad_cids
  obtain ⟨c1, c2, c3⟩ := quad_conditions (w := kin q' v') hB hitems
  obtain ⟨k1, k2, k3, k4, k5, k6⟩ := C99_best_partial h.good hm.1 hm.2 e hn c1 c2 c3 b t0 i x
  refine ⟨s, ?_, quadBest_of hB hcids he k1, quadBest_of hB hcids he k2,
    fun fresh freshI neq nin hh => quadBest_of hB hcids he (k3 fresh freshI neq nin hh), quadBest_of hB hcids he k4,
    quadBest_of hB hcids he k5, quadBest_of hB hcids he k6⟩
  rw [quad_snoc]
  exact (good_snoc h.good hm (fine_orderly h hf) (s1 := s) (by simp only [Program.step, e]; rfl)).run

/-! ## The feet -/

/-- **C112, nothing holds the feet.** The contacts are registered at the lower priority.  So if a behaviour is admissible, all
accelerations with the same effect on the base are admissible too, with the same contact forces: the feet may slide or lift off while
the optimiser counts on their forces. -/
theorem C112_soft (h6 : 6 ≤ S.robot.nv) {dv tau : Nat → K} {force : Nat → Nat → K} (h : QuadObeys cf S w dv tau force)
    {dv' : Nat → K} (hb : ∀ i, i < 6 → ∑ j ∈ range S.robot.nv, S.robot.mass w.M i j * dv' j =
      ∑ j ∈ range S.robot.nv, S.robot.mass w.M i j * dv j) :
    ∃ tau', QuadObeys cf S w dv' tau' force := by
  refine ⟨fun i => tau i + (∑ j ∈ range S.robot.nv, S.robot.mass w.M (6 + i) j * dv' j -
    ∑ j ∈ range S.robot.nv, S.robot.mass w.M (6 + i) j * dv j), ⟨fun u => ?_, h.push, h.friction⟩⟩
  have hd := h.dynamics u
  have hsplit : ∀ F : Nat → K, ∑ i ∈ range S.robot.nv, F i = ∑ i ∈ range 6, F i + ∑ i ∈ range (S.robot.nv - 6), F (6 + i) := by
    intro F
    rw [← sum_range_add, Nat.add_sub_cancel' h6]
  have e1 : ∑ i ∈ range S.robot.nv, (∑ j ∈ range S.robot.nv, S.robot.mass w.M i j * dv' j + w.nle i) * u i =
      ∑ i ∈ range S.robot.nv, (∑ j ∈ range S.robot.nv, S.robot.mass w.M i j * dv j + w.nle i) * u i +
      ∑ i ∈ range (S.robot.nv - 6), (∑ j ∈ range S.robot.nv, S.robot.mass w.M (6 + i) j * dv' j -
        ∑ j ∈ range S.robot.nv, S.robot.mass w.M (6 + i) j * dv j) * u (6 + i) := by
    rw [hsplit (fun i => (∑ j ∈ range S.robot.nv, S.robot.mass w.M i j * dv' j + w.nle i) * u i),
      hsplit (fun i => (∑ j ∈ range S.robot.nv, S.robot.mass w.M i j * dv j + w.nle i) * u i), add_assoc, ← sum_add_distrib]
    congr 1
    · exact sum_congr rfl fun i hi => by rw [hb i (mem_range.1 hi)]
    · exact sum_congr rfl fun i _ => by ring
  rw [e1, hd]
  simp only [add_mul, sum_add_distrib]
  ring

theorem quadAim_feet (hB : IsQuadruped cf kin E W S) (hw : 0 ≤ cf.wForceRef) {reg : Bool} (dv : Nat → K) (force : Nat → Nat → K) :
    ∑ l ∈ range 4, ∑ i ∈ range 3, footError cf E.robot.nv (places l) (w.frame (cf.frame l)) dv i ^ 2 ≤
      2 * quadAim reg cf E q places r w dv force := by
  unfold quadAim quadCost
  rw [sum_add_distrib]
  have h1 : 0 ≤ ∑ l ∈ range 4, cf.wForceRef * (force l 0 ^ 2 + force l 1 ^ 2 + (force l 2 / 1000) ^ 2) :=
    sum_nonneg fun l _ => mul_nonneg hw (by positivity)
  have h2 : 0 ≤ cf.wCom * ∑ i ∈ range 3, ((pointAcc E.robot.nv w.com.jac w.com.drift dv).get i -
      (r.acc i + cf.kpCom * (r.pos i - w.com.pos.get i) + critical cf.kpCom * (r.vel i - w.com.vel.get i))) ^ 2 :=
    mul_nonneg hB.wCom (sum_nonneg fun i _ => sq_nonneg _)
  have h3 : 0 ≤ cf.wPosture * ∑ j ∈ range E.robot.na, (dv (6 + j) + cf.kpPosture * E.robot.difference
      ⟨E.robot.neutral.size, fun i => if i < 7 then E.robot.neutral i else q i⟩ w.q (6 + j) +
        critical cf.kpPosture * w.v (6 + j)) ^ 2 := mul_nonneg hB.wPosture (sum_nonneg fun i _ => sq_nonneg _)
  have h4 : 0 ≤ (if reg then 1 / 2 * (Solver.defaultReg * (∑ i ∈ range E.robot.nv, dv i ^ 2 +
      ∑ l ∈ range 4, ∑ i ∈ range 3, force l i ^ 2)) else (0 : K)) := by
    have := defaultReg_pos (K := K)
    split
    · exact mul_nonneg (by norm_num) (mul_nonneg this.le (add_nonneg (sum_nonneg fun i _ => sq_nonneg _)
        (sum_nonneg fun l _ => sum_nonneg fun i _ => sq_nonneg _)))
    · exact le_refl _
  linarith

/-- **C112, how much the feet move.** The squared errors of the accelerations of the feet in a best behaviour, summed over the feet,
are at most twice the cost of any behaviour that is admissible. -/
theorem C112_feet (hB : IsQuadruped cf kin E W S) (hw : 0 ≤ cf.wForceRef) {reg : Bool} {dv : Nat → K} {force : Nat → Nat → K}
    (hbest : ∀ dv' tau' force', QuadObeys cf S w dv' tau' force' →
      quadAim reg cf E q places r w dv force ≤ quadAim reg cf E q places r w dv' force')
    {dv' tau' : Nat → K} {force' : Nat → Nat → K} (ho : QuadObeys cf S w dv' tau' force') :
    ∑ l ∈ range 4, ∑ i ∈ range 3, footError cf E.robot.nv (places l) (w.frame (cf.frame l)) dv i ^ 2 ≤
      2 * quadAim reg cf E q places r w dv' force' := by
  have h1 := quadAim_feet (places := places) (q := q) (r := r) (w := w) (reg := reg) hB hw dv force
  have h2 := hbest _ _ _ ho
  linarith

/-- The robot rests where it should be: the feet at their places, the centre of mass at its reference, the joints at those of `q`;
nothing moves and nothing should move. -/
structure QuadRests (cf : Quadruped.Conf K) (E : Program.Env K) (q : Vec K) (places : Nat → V3 K) (r : Sample K) (w : Snapshot K) :
    Prop where
  foot : ∀ l, l < 4 → (w.frame (cf.frame l)).pose.trans = places l
  footVel : ∀ l, l < 4 → (w.frame (cf.frame l)).vel = 0
  footDrift : ∀ l, l < 4 → (w.frame (cf.frame l)).drift = 0
  com : ∀ i, i < 3 → w.com.pos.get i = r.pos i
  comVel : ∀ i, i < 3 → w.com.vel.get i = r.vel i
  comDrift : w.com.drift = 0
  acc : ∀ i, i < 3 → r.acc i = 0
  joints : ∀ j, j < E.robot.na → E.robot.difference
    ⟨E.robot.neutral.size, fun i => if i < 7 then E.robot.neutral i else q i⟩ w.q (6 + j) = 0
  jointVel : ∀ j, j < E.robot.na → w.v (6 + j) = 0

/-- **C112, standing.** If the robot rests where it should be and the contact forces `force'` can hold it, then in a best behaviour
without regularisation the squares of the accelerations of the feet sum up to at most the weighted squares of these forces: with
the small weight of the forces the feet hardly accelerate. -/
theorem C112_stand (hB : IsQuadruped cf kin E W S) (hw : 0 ≤ cf.wForceRef) {dv : Nat → K} {force : Nat → Nat → K}
    (hbest : ∀ dv' tau' force', QuadObeys cf S w dv' tau' force' →
      quadAim false cf E q places r w dv force ≤ quadAim false cf E q places r w dv' force')
    (hrest : QuadRests cf E q places r w) {tau' : Nat → K} {force' : Nat → Nat → K}
    (ho : QuadObeys cf S w (fun _ => 0) tau' force') :
    ∑ l ∈ range 4, ∑ i ∈ range 3, (footAcc E.robot.nv (w.frame (cf.frame l)) dv).get i ^ 2 ≤
      cf.wForceRef * ∑ l ∈ range 4, (force' l 0 ^ 2 + force' l 1 ^ 2 + (force' l 2 / 1000) ^ 2) := by
  have gz : ∀ i, (0 : V3 K).get i = 0 := by
    intro i
    rcases i with _ | _ | _ | i <;> rfl
  have mz : ∀ M : M3 K, M.mulVec (0 : V3 K) = 0 := by
    intro M
    simp [M3.mulVec, V3.zero_def]
  have hfe : ∀ l, l < 4 → ∀ a i, footError cf E.robot.nv (places l) (w.frame (cf.frame l)) a i =
      (footAcc E.robot.nv (w.frame (cf.frame l)) a).get i := by
    intro l hl a i
    unfold footError
    rw [hrest.foot l hl, hrest.footVel l hl, show (0 : Motion K).lin = 0 from rfl, mz, gz]
    have : (places l - places l).get i = 0 := by
      rcases i with _ | _ | _ | i
      · exact sub_self _
      · exact sub_self _
      · exact sub_self _
      · rfl
    rw [this]
    ring
  have hz : ∀ l, l < 4 → ∀ i, (footAcc E.robot.nv (w.frame (cf.frame l)) fun _ => 0).get i = 0 := by
    intro l hl i
    unfold footAcc
    have : (motionAcc E.robot.nv (w.frame (cf.frame l)).jac (w.frame (cf.frame l)).drift fun _ => (0 : K)).lin = 0 := by
      rw [hrest.footDrift l hl]
      simp only [motionAcc, mul_zero, sum_const_zero, zero_add]
      rfl
    rw [this, mz, gz]
  have h := C112_feet (places := places) (q := q) (r := r) hB hw hbest ho
  have e : 2 * quadAim false cf E q places r w (fun _ => 0) force' =
      cf.wForceRef * ∑ l ∈ range 4, (force' l 0 ^ 2 + force' l 1 ^ 2 + (force' l 2 / 1000) ^ 2) := by
    unfold quadAim quadCost
    have s1 : ∑ l ∈ range 4, (∑ i ∈ range 3, footError cf E.robot.nv (places l) (w.frame (cf.frame l)) (fun _ => 0) i ^ 2 +
        cf.wForceRef * (force' l 0 ^ 2 + force' l 1 ^ 2 + (force' l 2 / 1000) ^ 2)) =
        cf.wForceRef * ∑ l ∈ range 4, (force' l 0 ^ 2 + force' l 1 ^ 2 + (force' l 2 / 1000) ^ 2) := by
      rw [mul_sum]
      refine sum_congr rfl fun l hl => ?_
      rw [sum_eq_zero fun i _ => by rw [hfe l (mem_range.1 hl), hz l (mem_range.1 hl)]; ring, zero_add]
    have s2 : ∑ i ∈ range 3, ((pointAcc E.robot.nv w.com.jac w.com.drift fun _ => 0).get i -
        (r.acc i + cf.kpCom * (r.pos i - w.com.pos.get i) + critical cf.kpCom * (r.vel i - w.com.vel.get i))) ^ 2 = 0 := by
      refine sum_eq_zero fun i hi => ?_
      have hi := mem_range.1 hi
      have : pointAcc E.robot.nv w.com.jac w.com.drift (fun _ => (0 : K)) = 0 := by
        rw [hrest.comDrift]
        simp only [pointAcc, mul_zero, sum_const_zero, zero_add]
      rw [this, gz, hrest.com i hi, hrest.comVel i hi, hrest.acc i hi]
      ring
    have s3 : ∑ j ∈ range E.robot.na, ((0 : K) + cf.kpPosture * E.robot.difference
        ⟨E.robot.neutral.size, fun i => if i < 7 then E.robot.neutral i else q i⟩ w.q (6 + j) +
          critical cf.kpPosture * w.v (6 + j)) ^ 2 = 0 := by
      refine sum_eq_zero fun j hj => ?_
      rw [hrest.joints j (mem_range.1 hj), hrest.jointVel j (mem_range.1 hj)]
      ring
    rw [s1, s2, s3]
    simp
  rw [e] at h
  refine le_trans (le_of_eq ?_) h
  exact sum_congr rfl fun l hl => sum_congr rfl fun i _ => by rw [hfe l (mem_range.1 hl)]

/-- **C112, on the ground.** The feet should be below their places at the beginning, the first one on the ground; the others are on
the ground too exactly if they were level with it. -/
theorem C112_ground (hl : Lifts cf kin) :
    (feetPlaces cf kin q v 0).z = 0 ∧ ∀ l, l < 4 →
      (feetPlaces cf kin q v l).x = ((kin q v).frame (cf.frame l)).pose.trans.x ∧
      (feetPlaces cf kin q v l).y = ((kin q v).frame (cf.frame l)).pose.trans.y ∧
      ((feetPlaces cf kin q v l).z = 0 ↔
        ((kin q v).frame (cf.frame l)).pose.trans.z = ((kin q v).frame (cf.frame 0)).pose.trans.z) := by
  have h : ∀ l, l < 4 → feetPlaces cf kin q v l = ⟨((kin q v).frame (cf.frame l)).pose.trans.x,
      ((kin q v).frame (cf.frame l)).pose.trans.y,
      ((kin q v).frame (cf.frame l)).pose.trans.z - ((kin q v).frame (cf.frame 0)).pose.trans.z⟩ :=
    fun l hl' => hl q v _ l hl'
  refine ⟨by rw [h 0 (by decide)]; exact sub_self _, fun l hl' => ?_⟩
  rw [h l hl']
  exact ⟨rfl, rfl, sub_eq_zero⟩

/-! ## Exceptions -/

/-- **C112, exceptions.** If the loop is entered at all, the demo, which catches no exception, comes to its end exactly when the
configuration has one entry for each joint after the seven of the base. -/
theorem C112_exceptions (hB : IsQuadruped cf kin E W S) (hv : v.size = E.robot.nv) (hq : E.robot.na ≤ q.size)
    (hp : ∀ s ∈ l, ProperStep E.robot s) :
    (∃ s, uncaught E S.start (Quadruped.text cf kin g E.robot.nv q v l) = some s) ↔ (l ≠ [] → QuadSized E.robot q) := by
  have hu := quad_upto (g := g) hB hv hq E.robot.nv hp
  have hfl := hB.floating
  rw [(C109_uncaught hB.declared hu.checked).1]
  constructor
  · intro h hl
    have hm : .task 1 (.posture (.setReference (EuclidianConstant.newWith (Quadruped.joints cf kin q v)))) ∈
        Quadruped.text cf kin g E.robot.nv q v l := by
      obtain ⟨s, hs⟩ := List.exists_mem_of_ne_nil l hl
      exact List.mem_append_right _ (List.mem_flatMap.2 ⟨s, hs, by simp [Quadruped.step, Quadruped.references]⟩)
    obtain ⟨pre, post, e⟩ := List.append_of_mem hm
    have := h pre _ post e
    change ¬ (S.decl 1).Refuses _ _ _ at this
    rw [hB.posture] at this
    simp only [TaskDecl.Refuses, not_or, not_not] at this
    exact ⟨this.1, this.2.1⟩
  · intro hs pre o post e
    have hadd : ∀ {k : K}, 0 ≤ k → ¬ (k < 0 ∨ (0 : K) < 0) := fun hk h => h.elim (not_lt.2 hk) (lt_irrefl _)
    have htask : ∀ tid c d, S.decl tid = d → ¬ d.Refuses E.robot (taskCalls tid pre) c → ¬ S.Refuses E pre (.task tid c) := by
      rintro tid c d rfl h
      exact h
    have ho : o ∈ Quadruped.text cf kin g E.robot.nv q v l := by rw [e]; simp
    clear e
    rcases List.mem_append.1 ho with ho | ho
    · rcases List.mem_append.1 ho with ho | ho
      · rcases List.mem_append.1 ho with ho | ho
        · rw [List.mem_singleton.1 ho]
          exact id
        · obtain ⟨i, hi, ho⟩ := List.mem_flatMap.1 ho
          have hi := List.mem_range.1 hi
          have hmot : ∀ c, ¬ ContactDecl.Refuses (.point (cf.frame i)) c → ¬ S.Refuses E pre (.motion i c) := by
            intro c h
            show ¬ (S.cdecl i).Refuses c
            rwa [hB.motion i hi]
          simp only [Quadruped.foot, List.mem_cons, List.not_mem_nil, or_false] at ho
          rcases ho with rfl | rfl | rfl | rfl | rfl
          · exact hmot _ fun h => h rfl
          · exact hmot _ fun h => h rfl
          · exact hmot _ id
          · exact hmot _ id
          · exact id
      · simp only [Quadruped.tasks, List.mem_cons, List.not_mem_nil, or_false] at ho
        rcases ho with rfl | rfl | rfl | rfl | rfl | rfl
        · exact htask _ _ _ hB.com fun h => h rfl
        · exact htask _ _ _ hB.com fun h => h rfl
        · exact hadd hB.wCom
        · exact htask _ _ _ hB.posture fun h => h (by show E.robot.nv - 6 = _; omega)
        · exact htask _ _ _ hB.posture fun h => h (by show E.robot.nv - 6 = _; omega)
        · exact hadd hB.wPosture
    · obtain ⟨s, hs', ho⟩ := List.mem_flatMap.1 ho
      have hs := hs (List.ne_nil_of_mem hs')
      simp only [Quadruped.step, Quadruped.references, List.mem_append, List.mem_cons, List.not_mem_nil, or_false] at ho
      rcases ho with (rfl | rfl) | rfl
      · exact htask _ _ _ hB.com id
      · refine htask _ _ _ hB.posture ?_
        rintro (h | h | h)
        · exact h hs.joints
        · exact h hs.motors
        · exact h hs.motors
      · exact id

/-! ## The loop -/

theorem quadTime_eq (dt : K) (i : Nat) : Quadruped.timeAt dt i = i * dt := by
  induction i with
  | zero => simp [Quadruped.timeAt]
  | succ i ih => rw [Quadruped.timeAt, ih]; push_cast; ring

/-- **C112, the loop.** The loop of the demo comes to its end without exceptions if the sizes are right, whatever the solver answers;
step `i` makes the cycle at time `i dt` with the state of that step and asks the centre of mass to be on the sinusoid. -/
theorem C112_loop (hB : IsQuadruped cf kin E W S) (hv : v.size = E.robot.nv) (hs : QuadSized E.robot q) (sn cn : K → K)
    (offset amp twoPiF : V3 K) {qs vs : Nat → Vec K} {N : Nat}
    (hq : ∀ i, i < N → (vs i).size = E.robot.nv ∧ E.robot.na ≤ (qs i).size) :
    (∃ s, uncaught E S.start (Quadruped.text cf kin g E.robot.nv q v
      (Quadruped.loop (Quadruped.wave sn cn offset amp twoPiF) cf.dt qs vs N)) = some s) ∧
    (Quadruped.loop (Quadruped.wave sn cn offset amp twoPiF) cf.dt qs vs N).length = N ∧
    ∀ (i : Nat) (s : Quadruped.Step K), (Quadruped.loop (Quadruped.wave sn cn offset amp twoPiF) cf.dt qs vs N)[i]? = some s →
      s.t = i * cf.dt ∧ s.q = qs i ∧ s.v = vs i ∧ ∀ k, k < 3 →
        s.ref.pos k = offset.get k + amp.get k * sn (twoPiF.get k * (i * cf.dt)) ∧
        s.ref.vel k = twoPiF.get k * amp.get k * cn (twoPiF.get k * (i * cf.dt)) ∧
        s.ref.acc k = -(twoPiF.get k ^ 2 * amp.get k * sn (twoPiF.get k * (i * cf.dt))) := by
  refine ⟨(C112_exceptions hB hv (by have := hs.motors; omega) ?_).2 fun _ => hs, by simp [Quadruped.loop], ?_⟩
  · intro s hm
    simp only [Quadruped.loop, List.mem_map, List.mem_range] at hm
    obtain ⟨i, hi, rfl⟩ := hm
    exact ⟨rfl, rfl, rfl, (hq i hi).1, (hq i hi).2⟩
  · intro i s h
    simp only [Quadruped.loop, List.getElem?_map, Option.map_eq_some_iff] at h
    obtain ⟨j, hj, rfl⟩ := h
    obtain rfl : j = i := by
      rw [List.getElem?_eq_some_iff] at hj
      obtain ⟨_, h⟩ := hj
      simpa using h.symm
    refine ⟨quadTime_eq _ _, rfl, rfl, fun k hk => ?_⟩
    simp only [quadTime_eq]
    refine ⟨rfl, rfl, ?_⟩
    show twoPiF.get k * (twoPiF.get k * amp.get k) * -sn (twoPiF.get k * (j * cf.dt)) = _
    ring

/-- **C112, the closed loop.** Whatever accelerations the solver finds, the demo comes to its end without exceptions if the
configuration has the right size; the velocities add up, and every configuration is integrated with the mean of the velocities
before and after the step. -/
theorem C112_closed (hB : IsQuadruped cf kin E W S) (hv : v.size = E.robot.nv) (hs : QuadSized E.robot q)
    {integrate : Vec K → Vec K → Vec K} (hI : ∀ a u, (integrate a u).size = a.size) (dv : Nat → Vec K) (sn cn : K → K)
    (offset amp twoPiF : V3 K) (N : Nat) :
    let x := Quadruped.states integrate cf.dt (Quadruped.ground cf q (kin q v)) v dv
    (∃ s, uncaught E S.start (Quadruped.text cf kin g E.robot.nv q v
      (Quadruped.loop (Quadruped.wave sn cn offset amp twoPiF) cf.dt (fun i => (x i).1) (fun i => (x i).2) N)) = some s) ∧
    (∀ i k, (x i).2 k = v k + cf.dt * ∑ j ∈ range i, dv j k) ∧
    ∀ i, ∃ u : Vec K, (x (i + 1)).1 = integrate (x i).1 u ∧ u.size = E.robot.nv ∧
      ∀ k, u k = cf.dt * (((x i).2 k + (x (i + 1)).2 k) / 2) := by
  intro x
  have hz : ∀ i, (x i).2.size = E.robot.nv ∧ (x i).1.size = q.size := by
    intro i
    induction i with
    | zero => exact ⟨hv, rfl⟩
    | succ i ih => exact ⟨ih.1, (hI _ _).trans ih.2⟩
  refine ⟨(C112_loop hB hv hs sn cn offset amp twoPiF fun i _ => ⟨(hz i).1, ?_⟩).1, fun i k => ?_, fun i => ?_⟩
  · rw [(hz i).2]
    have := hs.motors
    omega
  · induction i with
    | zero => simp [x, Quadruped.states]
    | succ i ih =>
      rw [sum_range_succ, mul_add, ← add_assoc, ← ih]
      rfl
  · refine ⟨_, rfl, (hz i).1, fun k => ?_⟩
    show cf.dt * ((x i).2 k + 1 / 2 * cf.dt * dv i k) = cf.dt * (((x i).2 k + ((x i).2 k + cf.dt * dv i k)) / 2)
    ring

end

/-- **C112, the reference.** Velocity and acceleration of the reference of the centre of mass are the derivatives of its position. -/
theorem C112_reference (offset amp twoPiF : V3 ℝ) (t : ℝ) (i : Nat) :
    HasDerivAt (fun t => (Quadruped.wave Real.sin Real.cos offset amp twoPiF t).pos i)
      ((Quadruped.wave Real.sin Real.cos offset amp twoPiF t).vel i) t ∧
    HasDerivAt (fun t => (Quadruped.wave Real.sin Real.cos offset amp twoPiF t).vel i)
      ((Quadruped.wave Real.sin Real.cos offset amp twoPiF t).acc i) t := by
  have ph : HasDerivAt (fun t => twoPiF.get i * t) (twoPiF.get i) t := by
    simpa using (hasDerivAt_id t).const_mul (twoPiF.get i)
  constructor
  · exact ((ph.sin.const_mul (amp.get i)).const_add (offset.get i)).congr_deriv (by
      show _ = twoPiF.get i * amp.get i * Real.cos (twoPiF.get i * t)
      ring)
  · exact (ph.cos.const_mul (twoPiF.get i * amp.get i)).congr_deriv (by
      show _ = twoPiF.get i * (twoPiF.get i * amp.get i) * -Real.sin (twoPiF.get i * t)
      ring)

/-- **C112, existence.** If mechanics, limits and friction can be satisfied at all and the weight of the forces is not negative,
there is a best behaviour in the sense of the back-ends that regularise, and its accelerations, torques and contact forces are the
only best ones. -/
theorem C112_exists {cf : Quadruped.Conf ℝ} {kin : Vec ℝ → Vec ℝ → Snapshot ℝ} {g : Nat → ℝ} {E : Program.Env ℝ} {W : World}
    {S : Setup ℝ} {q v q' v' : Vec ℝ} {l : List (Quadruped.Step ℝ)} {r : Sample ℝ} {t : ℝ} (hB : IsQuadruped cf kin E W S)
    (hv : v.size = E.robot.nv) (hs : QuadSized E.robot q) (hp : ∀ s ∈ l, ProperStep E.robot s)
    (hc : ProperStep E.robot ⟨r, t, q', v'⟩) (hw : 0 ≤ cf.wForceRef)
    (hf : ∃ dv tau force, QuadObeys cf S (kin q' v') dv tau force) :
    ∃ dv tau force, QuadObeys cf S (kin q' v') dv tau force ∧
      (∀ dv' tau' force', QuadObeys cf S (kin q' v') dv' tau' force' →
        quadAim true cf E q (feetPlaces cf kin q v) r (kin q' v') dv force ≤
          quadAim true cf E q (feetPlaces cf kin q v) r (kin q' v') dv' force') ∧
      ∀ a ta fa, QuadObeys cf S (kin q' v') a ta fa →
        (∀ dv' tau' force', QuadObeys cf S (kin q' v') dv' tau' force' →
          quadAim true cf E q (feetPlaces cf kin q v) r (kin q' v') a fa ≤
            quadAim true cf E q (feetPlaces cf kin q v) r (kin q' v') dv' force') →
        (∀ i, i < S.robot.nv → a i = dv i) ∧ (∀ i, i < S.robot.nv - 6 → ta i = tau i) ∧
        ∀ k, k < 4 → ∀ i, i < 3 → fa k i = force k i := by
  have hr : r.pos.size = 3 ∧ r.vel.size = 3 ∧ r.acc.size = 3 := ⟨hc.pos, hc.vel, hc.acc⟩
  have hq : E.robot.na ≤ q.size := by have := hs.motors; omega
  have hu := quad_refs hB (quad_upto (g := g) hB hv hq E.robot.nv hp) (Quadruped.joints cf kin q v) hr
  have he := C112_exact (g := g) (t := t) (q' := q') (v' := v') hB hv hs hp hr
  have hfine : S.Fine E W _ (.compute (kin q' v') t) := quad_fine hB hu hc.speed hc.config
  obtain ⟨s0, h⟩ := reading_run hB.declared hu.checked
  have hm := fine_may hB.declared h hfine
  have hn := checked_abrupt hu.checked
  obtain ⟨s, e⟩ := C92_returns h.good hm.1 hm.2 hn
  have hitems := (congrArg Registry.items (reading_registry h t)).trans hu.items
  have hcids := (congrArg (List.filterMap Item.cid?) hitems).trans quad_cids
  obtain ⟨c1, c2, c3⟩ := quad_conditions (w := kin q' v') hB hitems
  obtain ⟨dv0, tau0, force0, h0⟩ := hf
  obtain ⟨b, hb, hsame⟩ := C99_exists_partial h.good hm.1 hm.2 e hn c1 c2 c3
    (by
      rw [hitems]
      intro it hit
      simp only [quadItems, List.mem_append, List.mem_map, List.mem_cons, List.not_mem_nil, or_false] at hit
      rcases hit with ⟨_, -, rfl⟩ | rfl | rfl
      · exact ⟨fun _ => zero_le_one, hw⟩
      · exact fun _ => hB.wCom
      · exact fun _ => hB.wPosture)
    ⟨⟨dv0, tau0, force0⟩, (he ⟨dv0, tau0, force0⟩).1.2 h0⟩
  refine ⟨b.dv, b.tau, b.force, (he b).1.1 hb.1, fun dv' tau' force' ho => ?_, fun a ta fa ha ha' => ?_⟩
  · have := hb.2 ⟨dv', tau', force'⟩ ((he ⟨dv', tau', force'⟩).1.2 ho)
    rwa [(he b).2, (he ⟨dv', tau', force'⟩).2] at this
  · obtain ⟨k1, k2, k3⟩ := hsame ⟨a, ta, fa⟩ ⟨(he ⟨a, ta, fa⟩).1.2 ha, fun b' hb' => by
      rw [(he b').2, (he ⟨a, ta, fa⟩).2]
      exact ha' _ _ _ ((he b').1.1 hb')⟩
    have h6 := hB.floating
    rw [hB.declared.na, hB.declared.nv] at h6
    refine ⟨fun i hi => (k1 i hi).symm, fun i hi => (k2 i (by omega)).symm, fun k hk i hi => ?_⟩
    refine (k3 k ?_ i (by rw [quad_kind hB hk]; exact hi)).symm
    show k ∈ List.filterMap Item.cid? _
    first
      | (rw [hcids]; simp; omega)

/-- **C112, back-ends that regularise agree.** Two such back-ends whose external solvers keep their promises and succeed return the
same accelerations, torques and contact forces, whatever was solved with them before. -/
theorem C112_agree {cf : Quadruped.Conf ℝ} {kin : Vec ℝ → Vec ℝ → Snapshot ℝ} {E : Program.Env ℝ} {W : World}
    {S : Setup ℝ} {q v q' v' : Vec ℝ} {r : Sample ℝ} {t : ℝ} (hB : IsQuadruped cf kin E W S)
    (hv : v.size = E.robot.nv) (hs : QuadSized E.robot q) (hc : ProperStep E.robot ⟨r, t, q', v'⟩) (hw : 0 ≤ cf.wForceRef)
    {s : Program.State ℝ} {R R' C C' : Type} {D : Solve.Driver ℝ R C} {D' : Solve.Driver ℝ R' C'} {u0 : Solve.Object ℝ R}
    {u0' : Solve.Object ℝ R'} {Sat : R → (Nat → ℝ) → Prop} {Sat' : R' → (Nat → ℝ) → Prop} {Success : Solve.Answer C ℝ → Prop}
    {Success' : Solve.Answer C' ℝ → Prop} (f : QuadBest D u0 Sat Success true cf E S q (feetPlaces cf kin q v) r (kin q' v') s)
    (f' : QuadBest D' u0' Sat' Success' true cf E S q (feetPlaces cf kin q v) r (kin q' v') s)
    {hist : List (SolveCall ℝ R C)} {hist' : List (SolveCall ℝ R' C')} {u u1 : Solve.Object ℝ R} {u' u1' : Solve.Object ℝ R'}
    (hh : ∀ c ∈ hist, c.Sized) (hr : solves D E.ndebug u0 hist = some u)
    (hh' : ∀ c ∈ hist', c.Sized) (hr' : solves D' E.ndebug u0' hist' = some u')
    {fresh freshI engine fresh' freshI' engine'} (he : Sound Sat Success engine) (he' : Sound Sat' Success' engine')
    (hs1 : Solve.solve D fresh freshI E.ndebug engine u (problem s.form) = .ok u1 ())
    (hs1' : Solve.solve D' fresh' freshI' E.ndebug engine' u' (problem s.form) = .ok u1' ())
    (ho : Success (engine u1.st (start D fresh freshI u u1)))
    (ho' : Success' (engine' u1'.st (start D' fresh' freshI' u' u1'))) :
    ∃ dv tau force, QuadGives S s.form u1.out.x dv tau force ∧ QuadGives S s.form u1'.out.x dv tau force := by
  obtain ⟨_, e, dv, tau, force, hg, k⟩ := f hist u hh hr fresh freshI engine he
  obtain ⟨_, e', dv', tau', force', hg', k'⟩ := f' hist' u' hh' hr' fresh' freshI' engine' he'
  rw [hs1] at e
  rw [hs1'] at e'
  cases e
  cases e'
  have h1 := k ho
  have h2 := k' ho'
  obtain ⟨a, ta, fa, -, -, hu⟩ := C112_exists (g := fun _ => 0) (l := []) hB hv hs (fun _ h => by cases h) hc hw ⟨_, _, _, h1.2.1⟩
  have u1 := hu _ _ _ h1.2.1 h1.2.2
  have u2 := hu _ _ _ h2.2.1 h2.2.2
  refine ⟨a, ta, fa, ?_, ?_⟩
  · obtain ⟨⟨y, a1, a2, a3⟩, ⟨z, b1, b2, b3⟩, c⟩ := hg
    refine ⟨⟨y, a1, a2, fun i hi => (a3 i hi).trans (u1.1 i hi)⟩, ⟨z, b1, b2, fun i hi => (b3 i hi).trans (u1.2.1 i hi)⟩,
      fun l hl => ?_⟩
    obtain ⟨x, c1, c2, c3⟩ := c l hl
    exact ⟨x, c1, c2, fun i hi => (c3 i hi).trans (u1.2.2 l hl i hi)⟩
  · obtain ⟨⟨y, a1, a2, a3⟩, ⟨z, b1, b2, b3⟩, c⟩ := hg'
    refine ⟨⟨y, a1, a2, fun i hi => (a3 i hi).trans (u2.1 i hi)⟩, ⟨z, b1, b2, fun i hi => (b3 i hi).trans (u2.2.1 i hi)⟩,
      fun l hl => ?_⟩
    obtain ⟨x, c1, c2, c3⟩ := c l hl
    exact ⟨x, c1, c2, fun i hi => (c3 i hi).trans (u2.2.2 l hl i hi)⟩

end Tsid.Props
