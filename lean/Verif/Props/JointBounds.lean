import Verif.Lemmas.JointBounds

/-!
# C28: velocity and acceleration bounds of the joints
-/

set_option linter.unusedSectionVars false

namespace Tsid.Props

open Spec Finset

variable {K : Type} [Field K] [LinearOrder K] [IsStrictOrderedRing K]

/-- **C28.** After any history of calls (with arbitrary arguments, exceptions being caught) `compute` succeeds for
every velocity, and an acceleration satisfies the constraint iff every actuated joint is within its acceleration
limits and will be within its velocity limits one time step later, the limits and the time step being those of the
last accepted calls; the floating base is only limited to `1e10`. -/
theorem C28_bounds {name : String} {nv na : Nat} {dt : K} {s0 s : JointBounds K} {os : List (JointBounds.Op K)}
    (hna : na ≤ nv) (h0 : JointBounds.new name nv na dt = some s0) (hr : runOps JointBounds.step s0 os = some s)
    (v : Vec K) (hv : v.size = nv) :
    ∃ s' c, s.compute v = .ok s' c ∧ WellFormed c ∧ c.cols = nv ∧
      ∀ a : Nat → K, Sat c a ↔ ((BoundSettings.fresh na dt).afterAll na os).Respected nv na v.get a := by
  have hi := boundsInv_run (boundsInv_new h0) hr
  generalize (BoundSettings.fresh na dt).afterAll na os = p at hi
  unfold JointBounds.compute
  rw [if_pos (by rw [hi.naEq, hv]; exact hna)]
  refine ⟨_, _, rfl, ?_, ?_, ?_⟩
  · simp [WellFormed, hi.kind, hi.lbSize, hi.ubSize, hi.mat, Mat.identity]
  · simp [Constraint.cols, hi.kind, hi.lbSize]
  intro a
  simp only [Sat, hi.kind, hi.lbSize, hi.nvEq, hi.naEq]
  have hj : ∀ j, j < na → (v.tail na) j = v (nv - na + j) := by
    intro j _; simp [Vec.tail, hv]
  constructor
  · intro h
    refine ⟨fun i hlt => ?_, fun j hlt => ?_⟩
    · have := h i (by omega)
      have hn : ¬ (nv - na ≤ i ∧ i < nv - na + na) := by omega
      simp only [hn, if_false] at this
      rw [(hi.base i hlt).1, (hi.base i hlt).2] at this
      exact abs_le.2 this
    · have := h (nv - na + j) (by omega)
      have hp : nv - na ≤ nv - na + j ∧ nv - na + j < nv - na + na := by omega
      simp only [hp, and_self, if_true, Nat.add_sub_cancel_left, hj j hlt, hi.vLb, hi.vUb, hi.aLb, hi.aUb, hi.dt] at this
      obtain ⟨hl, hu⟩ := this
      have h1 := (max_le_iff.1 hl)
      have h2 := (le_min_iff.1 hu)
      refine ⟨⟨h1.2, h2.2⟩, ?_, ?_⟩
      · have := (div_le_iff₀ hi.pos).1 h1.1; linarith
      · have := (le_div_iff₀ hi.pos).1 h2.1; linarith
  · rintro ⟨hb, hr⟩ i hlt
    by_cases hc : i < nv - na
    · have hn : ¬ (nv - na ≤ i ∧ i < nv - na + na) := by omega
      simp only [hn, if_false]
      rw [(hi.base i hc).1, (hi.base i hc).2]
      exact abs_le.1 (hb i hc)
    · have hp : nv - na ≤ i ∧ i < nv - na + na := by omega
      obtain ⟨j, rfl⟩ : ∃ j, i = nv - na + j := ⟨i - (nv - na), by omega⟩
      have hjn : j < na := by omega
      obtain ⟨⟨ha1, ha2⟩, hv1, hv2⟩ := hr j hjn
      simp only [hp, and_self, if_true, Nat.add_sub_cancel_left, hj j hjn, hi.vLb, hi.vUb, hi.aLb, hi.aUb, hi.dt]
      refine ⟨max_le ?_ ha1, le_min ?_ ha2⟩
      · rw [div_le_iff₀ hi.pos]; linarith
      · rw [le_div_iff₀ hi.pos]; linarith

/-- **C28, construction.** The constructor and `setTimeStep` reject exactly the time steps that are not positive. -/
theorem C28_timestep {name : String} {nv na : Nat} {dt : K} :
    ((JointBounds.new name nv na dt).isSome ↔ 0 < dt) ∧
    ∀ s : JointBounds K, ((s.setTimeStep dt).isThrow = true ↔ ¬ 0 < dt) := by
  constructor
  · unfold JointBounds.new; split <;> simp_all
  · intro s; unfold JointBounds.setTimeStep; split <;> simp_all [Res.isThrow]

/-- A free-flying robot with two joints, velocity limits ±1 and acceleration limits ±5, time step 1/10: a history
with a rejected call. -/
example :
    ((JointBounds.new "b" 8 2 (1/100 : ℚ)).bind fun s0 =>
      (runOps JointBounds.step s0
        [.setTimeStep (1/10), .setVelocityBounds (Vec.ofList [-1, -1]) (Vec.ofList [1, 1]), .setTimeStep 0,
         .setAccelerationBounds (Vec.ofList [-5, -5]) (Vec.ofList [5, 5]),
         .setVelocityBounds (Vec.ofList [0]) (Vec.ofList [0])]).bind fun s =>
      (s.compute (Vec.ofList [0, 0, 0, 0, 0, 0, 1/2, 9/10])).val?.map (fun c => (c.lb.toList, c.ub.toList))) =
      some ([-10000000000, -10000000000, -10000000000, -10000000000, -10000000000, -10000000000, -5, -5],
            [10000000000, 10000000000, 10000000000, 10000000000, 10000000000, 10000000000, 5, 1]) := by
  decide +kernel

end Tsid.Props
