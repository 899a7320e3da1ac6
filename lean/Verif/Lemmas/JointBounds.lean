import Mathlib.Tactic.FieldSimp
import Verif.Lemmas.Mask
import Verif.Spec.JointTasks

/-!
# Invariant of `TaskJointBounds`
-/

set_option linter.unusedSectionVars false

namespace Tsid

open Spec Finset

variable {K : Type} [Field K] [LinearOrder K]

/-- What holds of the task between two calls. -/
structure BoundsInv (nv na : Nat) (p : BoundSettings K) (s : JointBounds K) : Prop where
  nvEq : s.nv = nv
  naEq : s.na = na
  dt : s.dt = p.dt
  pos : 0 < p.dt
  vLb : s.vLb = p.vLb
  vUb : s.vUb = p.vUb
  aLb : s.aLb = p.aLb
  aUb : s.aUb = p.aUb
  kind : s.con.kind = .bound
  lbSize : s.con.lb.size = nv
  ubSize : s.con.ub.size = nv
  mat : s.con.mat = Mat.identity nv
  base : ∀ i, i < nv - na → s.con.lb i = -10000000000 ∧ s.con.ub i = 10000000000

theorem boundsInv_new {name : String} {nv na : Nat} {dt : K} {s : JointBounds K}
    (h : JointBounds.new name nv na dt = some s) : BoundsInv nv na (BoundSettings.fresh na dt) s := by
  unfold JointBounds.new at h
  split at h
  · next hdt =>
    cases h
    refine ⟨rfl, rfl, rfl, hdt, rfl, rfl, rfl, rfl, rfl, rfl, rfl, rfl, ?_⟩
    intro i hi
    simp [hi, big]
  · cases h

theorem boundsInv_compute {nv na : Nat} {p : BoundSettings K} {s s' : JointBounds K} {v : Vec K} {c : Constraint K}
    (hi : BoundsInv nv na p s) (h : s.compute v = .ok s' c) : BoundsInv nv na p s' := by
  unfold JointBounds.compute at h
  split at h
  · cases h
    refine ⟨hi.nvEq, hi.naEq, hi.dt, hi.pos, hi.vLb, hi.vUb, hi.aLb, hi.aUb, hi.kind, hi.lbSize, hi.ubSize, hi.mat, ?_⟩
    intro i hlt
    have : ¬ (s.nv - s.na ≤ i ∧ i < s.nv - s.na + s.na) := by rw [hi.nvEq, hi.naEq]; omega
    simp only [this, if_false]
    exact hi.base i hlt
  · cases h

theorem boundsInv_step {nv na : Nat} {p : BoundSettings K} {s s' : JointBounds K} {o : JointBounds.Op K}
    (hi : BoundsInv nv na p s) (h : (s.step o).state? = some s') : BoundsInv nv na (p.after na o) s' := by
  cases o with
  | setTimeStep dt =>
    simp only [JointBounds.step, JointBounds.setTimeStep, BoundSettings.after] at h ⊢
    split at h <;> next hd =>
      cases h
      simp only [hd, if_true, if_false]
      first
        | exact ⟨hi.nvEq, hi.naEq, rfl, hd, hi.vLb, hi.vUb, hi.aLb, hi.aUb, hi.kind, hi.lbSize, hi.ubSize, hi.mat, hi.base⟩
        | exact hi
  | setVelocityBounds l u =>
    simp only [JointBounds.step, JointBounds.setVelocityBounds, BoundSettings.after, hi.naEq] at h ⊢
    by_cases h1 : l.size = na <;> by_cases h2 : u.size = na <;> simp only [h1, h2, if_true, if_false, and_true,
      and_false, false_and, and_self] at h ⊢ <;> cases h <;> try exact hi
    exact ⟨hi.nvEq, rfl, hi.dt, hi.pos, rfl, rfl, hi.aLb, hi.aUb, hi.kind, hi.lbSize, hi.ubSize, hi.mat, hi.base⟩
  | setAccelerationBounds l u =>
    simp only [JointBounds.step, JointBounds.setAccelerationBounds, BoundSettings.after, hi.naEq] at h ⊢
    by_cases h1 : l.size = na <;> by_cases h2 : u.size = na <;> simp only [h1, h2, if_true, if_false, and_true,
      and_false, false_and, and_self] at h ⊢ <;> cases h <;> try exact hi
    exact ⟨hi.nvEq, rfl, hi.dt, hi.pos, hi.vLb, hi.vUb, rfl, rfl, hi.kind, hi.lbSize, hi.ubSize, hi.mat, hi.base⟩
  | setMask m => cases h; exact hi
  | compute v =>
    simp only [JointBounds.step, BoundSettings.after] at h ⊢
    cases hc : s.compute v with
    | ok s1 c => rw [hc] at h; cases h; exact boundsInv_compute hi hc
    | throw s1 => unfold JointBounds.compute at hc; split at hc <;> cases hc
    | abort => rw [hc] at h; cases h
    | ub => rw [hc] at h; cases h

theorem boundsInv_run {nv na : Nat} : ∀ {os : List (JointBounds.Op K)} {p : BoundSettings K} {s s' : JointBounds K},
    BoundsInv nv na p s → runOps JointBounds.step s os = some s' → BoundsInv nv na (p.afterAll na os) s' := by
  intro os
  induction os with
  | nil => intro p s s' hi h; cases h; exact hi
  | cons o os ih =>
    intro p s s' hi h
    rw [runOps] at h
    cases hs : (s.step o).state? with
    | none => rw [hs] at h; cases h
    | some s1 => rw [hs] at h; exact ih (boundsInv_step hi hs) h

end Tsid
