import Verif.Props.Manipulator
import Verif.Props.ProgramTextExists

/-!
# The loop of the manipulator never meets a problem without solution

Existence of a best motion of the arm, and what it takes for every step of the loop to have one.
-/

set_option linter.unusedSectionVars false

namespace Tsid.Props

open Spec Finset Formulation Program

section
variable {K : Type} [Field K] [LinearOrder K] [IsStrictOrderedRing K] [FloorRing K] [HasSqrt K] [LawfulSqrt K]
variable {cf : Manipulator.Conf K} {kin : Vec K → Vec K → Snapshot K} {g : Nat → K} {E : Program.Env K} {W : World} {S : Setup K}
variable {q v : Vec K}

/-- **C111, all back-ends agree.** If the posture task has a positive weight, two back-ends with the same regularisation whose
external solvers keep their promises and succeed return the same accelerations and torques, whatever was solved with them
before. -/
theorem C111_agree (hB : IsArm cf kin g E W S) (hw : 0 < cf.wPosture) {reg : Bool} {w : Snapshot K} {goal : Goal K}
    {s : Program.State K} {R R' C C' : Type} {D : Solve.Driver K R C} {D' : Solve.Driver K R' C'} {u0 : Solve.Object K R}
    {u0' : Solve.Object K R'} {Sat : R → (Nat → K) → Prop} {Sat' : R' → (Nat → K) → Prop} {Success : Solve.Answer C K → Prop}
    {Success' : Solve.Answer C' K → Prop} (f : ArmBest D u0 Sat Success reg cf E S q goal w s)
    (f' : ArmBest D' u0' Sat' Success' reg cf E S q goal w s)
    {hist : List (SolveCall K R C)} {hist' : List (SolveCall K R' C')} {u u1 : Solve.Object K R} {u' u1' : Solve.Object K R'}
    (hh : ∀ c ∈ hist, c.Sized) (hr : solves D E.ndebug u0 hist = some u)
    (hh' : ∀ c ∈ hist', c.Sized) (hr' : solves D' E.ndebug u0' hist' = some u')
    {fresh freshI engine fresh' freshI' engine'} (he : Sound Sat Success engine) (he' : Sound Sat' Success' engine')
    (hs : Solve.solve D fresh freshI E.ndebug engine u (problem s.form) = .ok u1 ())
    (hs' : Solve.solve D' fresh' freshI' E.ndebug engine' u' (problem s.form) = .ok u1' ())
    (ho : Success (engine u1.st (start D fresh freshI u u1)))
    (ho' : Success' (engine' u1'.st (start D' fresh' freshI' u' u1'))) :
    ∃ dv tau, Gives S s.form u1.out.x dv tau ∧ Gives S s.form u1'.out.x dv tau := by
  obtain ⟨_, e, dv, tau, hg, k⟩ := f hist u hh hr fresh freshI engine he
  obtain ⟨_, e', dv', tau', hg', k'⟩ := f' hist' u' hh' hr' fresh' freshI' engine' he'
  rw [hs] at e
  rw [hs'] at e'
  cases e
  cases e'
  have h1 := k ho
  have h2 := k' ho'
  have hu := C111_unique hB hw h1.2.1 h2.2.1 h1.2.2 h2.2.2
  refine ⟨dv, tau, hg, ?_⟩
  obtain ⟨⟨y, a1, a2, a3⟩, z, b1, b2, b3⟩ := hg'
  exact ⟨⟨y, a1, a2, fun i hi => (a3 i hi).trans (hu i hi).1.symm⟩, z, b1, b2, fun i hi => (b3 i hi).trans (hu i hi).2.symm⟩

/-- **C111, what can be asked for.** In a state whose velocities are within the limits and whose gravity, Coriolis and
centrifugal forces are within the limits of the motors, the limits can be kept: no acceleration at all is a way. -/
theorem C111_feasible {w : Snapshot K} (hv : 0 < cf.wJoint → ∀ i, i < S.robot.nv → |w.v i| ≤ cf.vMax i)
    (hn : 0 < cf.wTorque → ∀ i, i < S.robot.nv → |w.nle i| ≤ cf.tauMax i) :
    ArmObeys cf S w (fun _ => 0) w.nle.get where
  dynamics := by
    intro i _
    simp
  torque := hn
  speed := by
    intro h i hi
    simpa using hv h i hi

/-- **C111, the loop goes on.** If the robot starts with velocities within the limits, if every step so far had a solution and
the state was integrated with `integrate_dv`, then the next step has a solution too, as long as the motors can hold the arm
against gravity, Coriolis and centrifugal forces. -/
theorem C111_goes_on (hB : IsArm cf kin g E W S) {N : Nat} {qs vs : Nat → Vec K} {integrate : Vec K → Vec K → Vec K}
    {dvs taus : Nat → Vec K}
    (hi : ∀ i, i < N → (qs (i + 1), vs (i + 1)) = Manipulator.integrateDv integrate (qs i) (vs i) (dvs i) cf.dt)
    (ho : ∀ i, i < N → ArmObeys cf S (kin (qs i) (vs i)) (dvs i).get (taus i).get)
    (h0 : 0 < cf.wJoint → ∀ j, j < E.robot.nv → |vs 0 j| ≤ cf.vMax j)
    (hn : 0 < cf.wTorque → ∀ j, j < E.robot.nv → |(kin (qs N) (vs N)).nle j| ≤ cf.tauMax j) :
    ∃ dv tau, ArmObeys cf S (kin (qs N) (vs N)) dv tau := by
  have hnv := hB.declared.nv
  refine ⟨_, _, C111_feasible (fun hw j hj => ?_) fun hw j hj => hn hw j (hnv ▸ hj)⟩
  rw [hB.velocity]
  rcases Nat.eq_zero_or_pos N with rfl | hN
  · exact h0 hw j (hnv ▸ hj)
  · exact (C111_speed hB hi ho).1 hw N hN (le_refl _) j (hnv ▸ hj)

end

/-- **C111, existence.** If the limits can be kept at all, there is a best motion in the sense of the back-ends that regularise,
and its accelerations and torques are the only best ones. -/
theorem C111_exists {cf : Manipulator.Conf ℝ} {kin : Vec ℝ → Vec ℝ → Snapshot ℝ} {g : Nat → ℝ} {E : Program.Env ℝ} {W : World}
    {S : Setup ℝ} {q v q' v' : Vec ℝ} {cs : List (Manipulator.Call ℝ)} {t : ℝ} (hB : IsArm cf kin g E W S)
    (hv : v.size = E.robot.nv) (hs : ArmSized cf E.robot q) (hp : ∀ c ∈ cs, ProperUse E.robot c)
    (hc : ProperUse E.robot (.cycle t q' v')) (hf : ∃ dv tau, ArmObeys cf S (kin q' v') dv tau) :
    ∃ dv tau, ArmObeys cf S (kin q' v') dv tau ∧
      (∀ dv' tau', ArmObeys cf S (kin q' v') dv' tau' →
        armAim true cf E q (eeGoal cs.reverse) (kin q' v') dv ≤ armAim true cf E q (eeGoal cs.reverse) (kin q' v') dv') ∧
      ∀ a ta, ArmObeys cf S (kin q' v') a ta →
        (∀ dv' tau', ArmObeys cf S (kin q' v') dv' tau' →
          armAim true cf E q (eeGoal cs.reverse) (kin q' v') a ≤ armAim true cf E q (eeGoal cs.reverse) (kin q' v') dv') →
        ∀ i, i < S.robot.nv → a i = dv i ∧ ta i = tau i := by
  have hu := arm_upto hB hv hs.motors.ge E.robot.nv hp
  have he := C111_exact (t := t) (q' := q') (v' := v') hB hv hs hp
  obtain ⟨s0, h⟩ := reading_run hB.declared hu.checked
  have hm := fine_may hB.declared h (arm_fine hB hu hc)
  have hn : NoGradualRemoval (Manipulator.text cf kin g E.robot.nv q v cs) := checked_abrupt hu.checked
  obtain ⟨s, e⟩ := C92_returns h.good hm.1 hm.2 hn
  have hitems : (S.registry E W (Manipulator.text cf kin g E.robot.nv q v cs) t).items = armItems cf := by
    rw [reading_registry h t]; exact hu.items
  obtain ⟨dv0, tau0, h0⟩ := hf
  obtain ⟨b, hb, hsame⟩ := C99_exists_partial h.good hm.1 hm.2 e hn
    (by
      intro fam tid k hm
      rw [hitems] at hm
      exact arm_cases hB (P := fun d => d.Upright (kin q' v')) (arm_item hm).1 trivial (fun _ => trivial) trivial fun _ => trivial)
    (by
      intro fam tid k dt hm hd
      rw [hitems] at hm
      revert hd
      exact arm_cases hB (P := fun d => d = .posVelAcc dt → _) (arm_item hm).1 (fun e => by cases e) (fun _ e => by cases e)
        (fun e => by cases e) fun _ e => by cases e)
    (by
      intro fam tid k hm
      rw [hitems] at hm
      have := (arm_item hm).2 rfl
      match tid, this with
      | 0, _ => rw [hB.posture]; rfl
      | 1, _ => rw [hB.ee]; rfl)
    (by
      rw [hitems]
      intro it hit
      unfold armItems at hit
      simp only [List.mem_append, List.mem_cons, List.not_mem_nil, or_false] at hit
      rcases hit with ((rfl | rfl) | hit) | hit
      · exact fun _ => hB.wPosture
      · exact fun _ => hB.wEe
      · split at hit
        · next hw => rw [List.mem_singleton.1 hit]; exact fun _ => hw.le
        · cases hit
      · split at hit
        · next hw => rw [List.mem_singleton.1 hit]; exact fun _ => hw.le
        · cases hit)
    ⟨⟨dv0, tau0, fun _ _ => 0⟩, (he ⟨dv0, tau0, fun _ _ => 0⟩).1.2 h0⟩
  refine ⟨b.dv, b.tau, (he b).1.1 hb.1, fun dv' tau' ho => ?_, fun a ta ha ha' i hi => ?_⟩
  · have := hb.2 ⟨dv', tau', b.force⟩ ((he ⟨dv', tau', b.force⟩).1.2 ho)
    rwa [(he b).2, (he ⟨dv', tau', b.force⟩).2] at this
  · have := hsame ⟨a, ta, b.force⟩ ⟨(he ⟨a, ta, b.force⟩).1.2 ha, fun b' hb' => by
      rw [(he b').2, (he ⟨a, ta, b.force⟩).2]
      exact ha' _ _ ((he b').1.1 hb')⟩
    obtain ⟨k1, k2, -⟩ := this
    refine ⟨(k1 i hi).symm, (k2 i ?_).symm⟩
    rw [← hB.declared.na, ← hB.fixed, hB.declared.nv]
    exact hi

end Tsid.Props
