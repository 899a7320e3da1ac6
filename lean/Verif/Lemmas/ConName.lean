import Verif.Model.Program

/-!
# The constraint of a task keeps its name

No call on a task changes the name of its constraint.
-/

set_option linter.unusedSectionVars false

namespace Tsid

variable {K : Type} [Field K] [LinearOrder K] [FloorRing K] [HasSqrt K]

theorem Constraint.resize_keeps {c c' : Constraint K} {m n : Nat} (h : (c.resize m n).state? = some c') :
    c'.name = c.name := by
  unfold Constraint.resize at h
  split at h
  · cases h; rfl
  · cases h; rfl
  · split at h <;> cases h <;> rfl

theorem Constraint.setMatrix_keeps {c c' : Constraint K} {A : Mat K} (h : (c.setMatrix A).state? = some c') :
    c'.name = c.name := by
  unfold Constraint.setMatrix at h
  split at h
  · split at h <;> cases h <;> rfl
  · cases h; rfl

theorem Masked.setMask_keeps {na cols off : Nat} {w : Nat → K} {s s' : Masked K} {m : Vec K}
    (h : (s.setMask na cols off w m).state? = some s') : s'.con.name = s.con.name := by
  unfold Masked.setMask at h
  dsimp only at h
  split at h
  · split at h
    · cases h
    · split at h
      · cases h; rfl
      · split at h
        · next c _ hc =>
          have e1 : c.name = s.con.name := Constraint.resize_keeps (by rw [hc]; rfl)
          split at h
          · next c2 _ hc2 => cases h; exact (Constraint.setMatrix_keeps (by rw [hc2]; rfl)).trans e1
          · next c2 hc2 => cases h; exact (Constraint.setMatrix_keeps (by rw [hc2]; rfl)).trans e1
          · cases h
        · next c hc => cases h; exact Constraint.resize_keeps (by rw [hc]; rfl)
        · cases h
      · cases h
  · cases h; rfl

namespace CartRows

theorem setMask_keeps {g : Nat → K} {cols : Nat} {s s' : CartRows K} {m : Vec K}
    (h : (s.setMask g cols m).state? = some s') : s'.con.name = s.con.name := by
  unfold CartRows.setMask at h
  dsimp only at h
  split at h
  · cases h
  · split at h
    · next c _ hc => cases h; exact Constraint.resize_keeps (c := s.con) (by rw [hc]; rfl)
    · cases h

theorem write_keeps {L : CartLaw K} {s : CartRows K} {idx i : Nat} : (write L s idx i).con.name = s.con.name := rfl

theorem fill_keeps {L : CartLaw K} : ∀ {is : List Nat} {idx : Nat} {s s' : CartRows K}, fill L is idx s = some s' →
    s'.con.name = s.con.name
  | [], _, s, s', h => by cases h; rfl
  | i :: is, idx, s, s', h => by
    simp only [fill] at h
    split at h
    · split at h
      · split at h
        · exact (fill_keeps h).trans write_keeps
        · cases h
      · exact fill_keeps h
    · cases h

theorem setMask_ok {g : Nat → K} {cols : Nat} {s s' : CartRows K} {m : Vec K} {u : Unit}
    (h : s.setMask g cols m = .ok s' u) : s'.con.name = s.con.name := setMask_keeps (by rw [h]; rfl)

theorem setMask_throw {g : Nat → K} {cols : Nat} {s s' : CartRows K} {m : Vec K}
    (h : s.setMask g cols m = .throw s') : s'.con.name = s.con.name := setMask_keeps (by rw [h]; rfl)

end CartRows

theorem Masked.setMask_ok {na cols off : Nat} {w : Nat → K} {s s' : Masked K} {m : Vec K} {u : Unit}
    (h : s.setMask na cols off w m = .ok s' u) : s'.con.name = s.con.name := Masked.setMask_keeps (by rw [h]; rfl)

theorem Masked.setMask_throw {na cols off : Nat} {w : Nat → K} {s s' : Masked K} {m : Vec K}
    (h : s.setMask na cols off w m = .throw s') : s'.con.name = s.con.name := Masked.setMask_keeps (by rw [h]; rfl)

theorem Constraint.setMatrix_ok {c c' : Constraint K} {A : Mat K} {u : Bool} (h : c.setMatrix A = .ok c' u) :
    c'.name = c.name := Constraint.setMatrix_keeps (by rw [h]; rfl)

theorem Constraint.setMatrix_throw {c c' : Constraint K} {A : Mat K} (h : c.setMatrix A = .throw c') :
    c'.name = c.name := Constraint.setMatrix_keeps (by rw [h]; rfl)

theorem Constraint.setVector_ok {c c' : Constraint K} {b : Bool} {v : Vec K} {u : Bool} (h : c.setVector b v = .ok c' u) :
    c'.name = c.name := by
  unfold Constraint.setVector at h
  repeat' split at h
  all_goals first | (cases h; done) | (cases h; rfl)

/-- Try all branches of a step. -/
macro "keeps" h:ident : tactic => `(tactic|
  (repeat' split at $h:ident
   all_goals first
     | (cases $h:ident; done)
     | (cases $h:ident; rfl)
     | (cases $h:ident; dsimp only; first
        | exact CartRows.setMask_ok ‹_›
        | exact CartRows.setMask_throw ‹_›
        | exact CartRows.fill_keeps ‹_›
        | exact Masked.setMask_ok ‹_›
        | exact Masked.setMask_throw ‹_›)))

theorem SE3Task.setReference_keeps {s s' : SE3Task K} {r : Sample K} (h : (s.setReference r).state? = some s') :
    s'.rows.con.name = s.rows.con.name := by
  unfold SE3Task.setReference at h
  keeps h

theorem SE3Task.setMask_keeps {g : Nat → K} {s s' : SE3Task K} {m : Vec K} (h : (s.setMask g m).state? = some s') :
    s'.rows.con.name = s.rows.con.name := by
  unfold SE3Task.setMask at h
  keeps h

theorem SE3Task.step_keeps {log3 : M3 K → V3 K} {s s' : SE3Task K} {o : SE3Task.Op K}
    (h : (s.step log3 o).state? = some s') : s'.rows.con.name = s.rows.con.name := by
  cases o <;> simp only [SE3Task.step] at h
  · exact SE3Task.setMask_keeps h
  · unfold SE3Task.setKp at h; keeps h
  · unfold SE3Task.setKd at h; keeps h
  · exact SE3Task.setReference_keeps h
  · unfold SE3Task.setReferencePose at h
    split at h
    · exact SE3Task.setReference_keeps h
    · cases h; rfl
  · cases h; rfl
  · simp only [SE3Task.compute] at h
    split at h <;> rename_i hc <;> (repeat' split at hc) <;> cases hc <;> cases h <;>
      first | rfl | exact CartRows.fill_keeps ‹_›

theorem TwoFrames.setMask_keeps {g : Nat → K} {s s' : TwoFrames K} {m : Vec K} (h : (s.setMask g m).state? = some s') :
    s'.rows.con.name = s.rows.con.name := by
  unfold TwoFrames.setMask at h
  keeps h

theorem TwoFrames.step_keeps {nd : Bool} {log3 : M3 K → V3 K} {s s' : TwoFrames K} {o : TwoFrames.Op K}
    (h : (s.step nd log3 o).state? = some s') : s'.rows.con.name = s.rows.con.name := by
  cases o <;> simp only [TwoFrames.step] at h
  · exact TwoFrames.setMask_keeps h
  · unfold TwoFrames.setKp at h; keeps h
  · unfold TwoFrames.setKd at h; keeps h
  · simp only [TwoFrames.compute] at h
    split at h <;> rename_i hc <;> (repeat' split at hc) <;> cases hc <;> cases h <;>
      first | rfl | exact CartRows.fill_keeps ‹_›

theorem ComTask.setMask_keeps {g : Nat → K} {s s' : ComTask K} {m : Vec K} (h : (s.setMask g m).state? = some s') :
    s'.rows.con.name = s.rows.con.name := by
  unfold ComTask.setMask at h
  keeps h

theorem ComTask.step_keeps {s s' : ComTask K} {o : ComTask.Op K}
    (h : (s.step o).state? = some s') : s'.rows.con.name = s.rows.con.name := by
  cases o <;> simp only [ComTask.step] at h
  · exact ComTask.setMask_keeps h
  · unfold ComTask.setKp at h; keeps h
  · unfold ComTask.setKd at h; keeps h
  · cases h; rfl
  · simp only [ComTask.compute] at h
    split at h <;> rename_i hc <;> (repeat' split at hc) <;> cases hc <;> cases h <;>
      first | rfl | exact CartRows.fill_keeps ‹_›

theorem AmTask.step_keeps {s s' : AmTask K} {o : AmTask.Op K}
    (h : (s.step o).state? = some s') : s'.con.name = s.con.name := by
  cases o <;> simp only [AmTask.step] at h
  · cases h; rfl
  · unfold AmTask.setKp at h; keeps h
  · unfold AmTask.setKd at h; keeps h
  · cases h; rfl
  · simp only [AmTask.compute] at h
    split at h <;> rename_i hc <;> (repeat' split at hc) <;> cases hc <;> cases h <;> dsimp only <;>
      first
      | exact (Constraint.setVector_ok ‹_›).trans (Constraint.setMatrix_ok ‹_›)
      | exact Constraint.setMatrix_throw ‹_›

theorem CaptureTask.step_keeps {s s' : CaptureTask K} {o : CaptureTask.Op K}
    (h : (s.step o).state? = some s') : s'.con.name = s.con.name := by
  cases o <;> simp only [CaptureTask.step] at h
  · keeps h
  · keeps h
  · cases h; rfl
  · simp only [CaptureTask.compute] at h
    split at h <;> rename_i hc <;> (repeat' split at hc) <;> cases hc <;> cases h <;>
      first | rfl | (rename_i hm; have e := Constraint.setMatrix_ok hm; exact e)

theorem Posture.setMask_keeps {R : PostureRobot K} {s s' : Posture K} {m : Vec K} (h : (s.setMask R m).state? = some s') :
    s'.m.con.name = s.m.con.name := by
  unfold Posture.setMask at h
  keeps h

theorem Posture.step_keeps {R : PostureRobot K} {s s' : Posture K} {o : Posture.Op K}
    (h : (s.step R o).state? = some s') : s'.m.con.name = s.m.con.name := by
  cases o <;> simp only [Posture.step] at h
  · exact Posture.setMask_keeps h
  · unfold Posture.setKp at h; keeps h
  · unfold Posture.setKd at h; keeps h
  · unfold Posture.setReference at h; keeps h
  · simp only [Posture.compute] at h
    split at h <;> rename_i hc <;> (repeat' split at hc) <;> cases hc <;> cases h <;> rfl

theorem JointBounds.step_keeps {s s' : JointBounds K} {o : JointBounds.Op K}
    (h : (s.step o).state? = some s') : s'.con.name = s.con.name := by
  cases o <;> simp only [JointBounds.step] at h
  · unfold JointBounds.setTimeStep at h; keeps h
  · unfold JointBounds.setVelocityBounds at h; keeps h
  · unfold JointBounds.setAccelerationBounds at h; keeps h
  · cases h; rfl
  · simp only [JointBounds.compute] at h
    split at h <;> rename_i hc <;> (repeat' split at hc) <;> cases hc <;> cases h <;> rfl

theorem PosVelAcc.setMask_keeps {s s' : PosVelAcc K} {m : Vec K} (h : (s.setMask m).state? = some s') :
    s'.m.con.name = s.m.con.name := by
  unfold PosVelAcc.setMask at h
  keeps h

theorem PosVelAcc.step_keeps {s s' : PosVelAcc K} {o : PosVelAcc.Op K}
    (h : (s.step o).state? = some s') : s'.m.con.name = s.m.con.name := by
  cases o <;> simp only [PosVelAcc.step] at h
  · unfold PosVelAcc.setTimeStep at h; keeps h
  · unfold PosVelAcc.setPositionBounds at h; keeps h
  · unfold PosVelAcc.setVelocityBounds at h; keeps h
  · unfold PosVelAcc.setAccelerationBounds at h; keeps h
  · cases h; rfl
  · exact PosVelAcc.setMask_keeps h
  · simp only [PosVelAcc.compute] at h
    split at h <;> rename_i hc <;> (repeat' split at hc) <;> cases hc <;> cases h <;> rfl

theorem ActBounds.step_keeps {na : Nat} {s s' : Masked K} {o : ActBounds.Op K}
    (h : (ActBounds.step na s o).state? = some s') : s'.con.name = s.con.name := by
  cases o <;> simp only [ActBounds.step] at h
  · exact Masked.setMask_keeps h
  · unfold ActBounds.setBounds at h; keeps h

theorem ActEq.refill_keeps {na : Nat} {s s' : ActEq K} (h : (ActEq.refill na s).state? = some s') :
    s'.m.con.name = s.m.con.name := by
  unfold ActEq.refill at h
  keeps h

theorem ActEq.setMask_keeps {na : Nat} {s s' : ActEq K} {m : Vec K} (h : (s.setMask na m).state? = some s') :
    s'.m.con.name = s.m.con.name := by
  unfold ActEq.setMask at h
  split at h
  · exact (ActEq.refill_keeps h).trans (Masked.setMask_ok ‹_›)
  · cases h; exact Masked.setMask_throw ‹_›
  · cases h
  · cases h

theorem ActEq.step_keeps {na : Nat} {s s' : ActEq K} {o : ActEq.Op K}
    (h : (ActEq.step na s o).state? = some s') : s'.m.con.name = s.m.con.name := by
  cases o <;> simp only [ActEq.step] at h
  · exact ActEq.setMask_keeps h
  · unfold ActEq.setReference at h
    split at h
    · have e := ActEq.refill_keeps h; exact e
    · cases h; rfl
  · unfold ActEq.setWeights at h
    split at h
    · split at h
      · have e := ActEq.refill_keeps h; exact e
      · cases h
    · cases h; rfl

theorem ForceTask.step_keeps {s s' : ForceTask K} {o : ForceTask.Op K}
    (h : (s.step o).state? = some s') : s'.con.name = s.con.name := by
  cases o <;> simp only [ForceTask.step] at h
  case compute =>
    simp only [ForceTask.compute] at h
    split at h <;> first | (cases h; done) | skip
    rename_i hc
    (repeat' split at hc) <;> cases hc <;> cases h <;> rfl
  case compute5 =>
    simp only [ForceTask.compute5, ForceTask.compute] at h
    split at h <;> first | (cases h; done) | skip
    rename_i hc
    (repeat' split at hc) <;> cases hc <;> cases h <;> rfl
  all_goals keeps h

theorem CopTask.step_keeps {s s' : CopTask K} {o : CopTask.Op K}
    (h : (s.step o).state? = some s') : s'.con.name = s.con.name := by
  cases o <;> simp only [CopTask.step] at h
  case compute =>
    simp only [CopTask.compute] at h
    split at h <;> first | (cases h; done) | skip
    rename_i hc
    (repeat' split at hc) <;> cases hc <;> cases h <;> rfl
  case compute5 =>
    simp only [CopTask.compute] at h
    split at h <;> first | (cases h; done) | skip
    rename_i hc
    (repeat' split at hc) <;> cases hc <;> cases h <;> rfl
  all_goals keeps h

namespace TaskObj

theorem lift_state {σ α : Type} {f : σ → TaskObj K} {r : Res σ α} {o' : TaskObj K} (h : (lift f r).state? = some o') :
    ∃ s', r.state? = some s' ∧ o' = f s' := by
  cases r <;> cases h
  · exact ⟨_, rfl, rfl⟩
  · exact ⟨_, rfl, rfl⟩

/-- No call changes the name of the constraint of a task. -/
theorem call_keeps {E : Program.Env K} {o o' : TaskObj K} {c : TaskCall K} (h : (o.call E c).state? = some o') :
    o'.con.name = o.con.name := by
  cases o <;> cases c <;> simp only [call] at h <;> first | (cases h; done) | skip
  all_goals obtain ⟨s', hs, rfl⟩ := lift_state h
  · exact SE3Task.step_keeps hs
  · exact TwoFrames.step_keeps hs
  · exact ComTask.step_keeps hs
  · exact AmTask.step_keeps hs
  · exact CaptureTask.step_keeps hs
  · exact Posture.step_keeps hs
  · exact JointBounds.step_keeps hs
  · exact PosVelAcc.step_keeps hs
  · exact ActBounds.step_keeps hs
  · exact ActEq.step_keeps hs
  · exact ForceTask.step_keeps hs
  · exact CopTask.step_keeps hs

theorem run_keeps {E : Program.Env K} : ∀ {cs : List (TaskCall K)} {o o' : TaskObj K},
    runOps (call E) o cs = some o' → o'.con.name = o.con.name
  | [], o, o', h => by cases h; rfl
  | c :: cs, o, o', h => by
    simp only [runOps] at h
    split at h
    · cases h
    · rename_i o1 h1
      exact (run_keeps h).trans (call_keeps h1)

end TaskObj

end Tsid
