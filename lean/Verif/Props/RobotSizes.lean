import Verif.Model.RobotSizes

/-!
# C83: sizes of a robot
-/

namespace Tsid.Props

/-- The sizes count the joints with motors, and the base is called fixed when no joint links it to the world. -/
def TrueSizes (m : Mechanism) (s : RobotSizes) : Prop :=
  s.na = ((m.joints.map JointSize.nv).sum : Nat) ∧ s.nqa = ((m.joints.map JointSize.nq).sum : Nat) ∧
    (s.isFixedBase = true ↔ m.base = none)

/-- The base that each constructor takes for granted. -/
def presumed : RobotCtor → Option JointSize
  | .urdf | .modelRoot .fixedBase => none
  | .urdfRoot | .model | .modelRoot .floatingBase => some ⟨7, 6⟩

/-- **C83, partial.** The number of actuated velocities, the number of actuated configuration coordinates and the flag
of the fixed base are right exactly when the base is the one the constructor takes for granted: none for the URDF file
alone and for `FIXED_BASE_SYSTEM`, a free-flyer (7 coordinates, 6 velocities) otherwise.

Missing: every other base (`C83_other_base`), although a constructor accepts any joint as root. -/
theorem C83_sizes_partial (c : RobotCtor) (m : Mechanism) :
    TrueSizes m (RobotSizes.new c m) ↔ m.base = presumed c := by
  obtain ⟨b, js⟩ := m
  have hb : ∀ q v : Nat, (⟨q, v⟩ : JointSize) = ⟨7, 6⟩ ↔ q = 7 ∧ v = 6 := by
    intro q v; rw [JointSize.mk.injEq]
  cases c with
  | urdf => cases b <;> simp [TrueSizes, RobotSizes.new, presumed, Mechanism.nv, Mechanism.nq]
  | urdfRoot =>
    cases b with
    | none => simp [TrueSizes, RobotSizes.new, presumed, Mechanism.nv, Mechanism.nq]
    | some j =>
      obtain ⟨q, v⟩ := j
      simp [TrueSizes, RobotSizes.new, presumed, Mechanism.nv, Mechanism.nq]
      omega
  | model =>
    cases b with
    | none => simp [TrueSizes, RobotSizes.new, presumed, Mechanism.nv, Mechanism.nq]
    | some j =>
      obtain ⟨q, v⟩ := j
      simp [TrueSizes, RobotSizes.new, presumed, Mechanism.nv, Mechanism.nq]
      omega
  | modelRoot r =>
    cases r with
    | fixedBase => cases b <;> simp [TrueSizes, RobotSizes.new, presumed, Mechanism.nv, Mechanism.nq]
    | floatingBase =>
      cases b with
      | none => simp [TrueSizes, RobotSizes.new, presumed, Mechanism.nv, Mechanism.nq]
      | some j =>
        obtain ⟨q, v⟩ := j
        simp [TrueSizes, RobotSizes.new, presumed, Mechanism.nv, Mechanism.nq]
        omega

/-- A robot with a free-flyer and two motors. -/
example : TrueSizes ⟨some ⟨7, 6⟩, [⟨1, 1⟩, ⟨1, 1⟩]⟩ (RobotSizes.new .urdfRoot ⟨some ⟨7, 6⟩, [⟨1, 1⟩, ⟨1, 1⟩]⟩) :=
  (C83_sizes_partial _ _).2 rfl

/-- **C83 is false for every other root joint**: with a root joint of `v` velocities, `6 - v` motors too few (or
`v - 6` too many) are counted. -/
theorem C83_other_base (q v : Nat) (js : List JointSize) (c : RobotCtor) (hc : presumed c = some ⟨7, 6⟩) :
    (RobotSizes.new c ⟨some ⟨q, v⟩, js⟩).na = ((js.map JointSize.nv).sum : Nat) + v - 6 ∧
    (v ≠ 6 → ¬ TrueSizes ⟨some ⟨q, v⟩, js⟩ (RobotSizes.new c ⟨some ⟨q, v⟩, js⟩)) := by
  refine ⟨?_, fun hv h => ?_⟩
  · cases c with
    | urdf => cases hc
    | modelRoot r => cases r with
      | fixedBase => cases hc
      | floatingBase => simp [RobotSizes.new, Mechanism.nv]; omega
    | _ => simp [RobotSizes.new, Mechanism.nv]; omega
  · have := (C83_sizes_partial _ _).1 h
    rw [hc] at this
    injection this with this
    injection this with _ this
    exact hv this

/-- A planar base with two motors: the constructor does not even come back (`m_na` is -1). -/
example : RobotSizes.new .urdfRoot ⟨some ⟨4, 3⟩, [⟨1, 1⟩, ⟨1, 1⟩]⟩ = ⟨-1, -1, false⟩ ∧
    ((RobotSizes.new .urdfRoot ⟨some ⟨4, 3⟩, [⟨1, 1⟩, ⟨1, 1⟩]⟩).init ⟨some ⟨4, 3⟩, [⟨1, 1⟩, ⟨1, 1⟩]⟩ :
      Option (Robot ℚ)).isNone = true := by
  decide +kernel

/-- **C83, the object.** `Robot.new`, from which the other properties start, is the object that the constructors make:
for every constructor and every model, the sizes are those of one of the two root types. -/
theorem C83_object {K : Type} [Zero K] (c : RobotCtor) (m : Mechanism) :
    ((RobotSizes.new c m).init m : Option (Robot K)) =
      Robot.new m.nv (if presumed c = none then .fixedBase else .floatingBase) := by
  have fixed : ((⟨m.nv, m.nq, true⟩ : RobotSizes).init m : Option (Robot K)) = Robot.new m.nv .fixedBase := by
    simp [RobotSizes.init, Robot.new]
  have floating : ((⟨m.nv - 6, m.nq - 7, false⟩ : RobotSizes).init m : Option (Robot K)) =
      Robot.new m.nv .floatingBase := by
    unfold RobotSizes.init Robot.new
    by_cases h : 6 ≤ m.nv
    · have h1 : ((m.nv : Int) - 6).toNat = m.nv - 6 := by omega
      rw [if_pos (by show (0 : Int) ≤ m.nv - 6; omega)]
      simp only [h1, if_pos h]
    · rw [if_neg (by show ¬ (0 : Int) ≤ m.nv - 6; omega)]
      simp only [if_neg h]
  cases c with
  | modelRoot r => cases r with
    | fixedBase => exact fixed
    | floatingBase => exact floating
  | urdf => exact fixed
  | _ => exact floating

end Tsid.Props
