import Verif.Spec.ControlLimits
import Verif.Props.ControlLoopDemo
import Verif.Props.Feasibility

/-!
# C94: joint limits hold for as long as a control loop runs
-/

set_option linter.unusedSectionVars false

namespace Tsid.Props

open Spec Formulation PosVelAcc

variable {K : Type} [Field K] [LinearOrder K] [IsStrictOrderedRing K] [HasSqrt K] [LawfulSqrt K]

/-- **C94, four limits.** In a viable state the limits of the four kinds allow exactly the accelerations that are safe
during the horizon. -/
theorem C94_four {h qMin qMax V m q dq a : K} (hh : 0 < h) (hm : 0 < m) (hv : ViableState qMin qMax V m q dq) :
    Allows (lowerFour h qMin qMax V m q dq) (upperFour h qMin qMax V m q dq) a ↔ SafeFor h qMin qMax V m q dq a := by
  constructor
  · intro ha
    exact ⟨abs_le.2 ha.2.2.2, fun t h0 h1 => C78_stays_viable hh hm hv ha h0 h1⟩
  · rintro ⟨ha, hs⟩
    obtain ⟨-, e2, e3, e4⟩ := hs h hh.le le_rfl
    rw [abs_le] at e2
    unfold velAt at e2
    refine ⟨C29_needed hh (admits_of_viable hv hm) fun t h0 h1 => (hs t h0 h1).1,
      ⟨fromVia_needed_lower (qMax := qMax) hh hm e4, fromVia_needed (qMin := qMin) hh hm e3⟩, ⟨?_, ?_⟩, abs_le.1 ha⟩
    · show (-V - dq) / h ≤ a
      rw [div_le_iff₀ hh]; linarith [e2.1]
    · show a ≤ (V - dq) / h
      rw [le_div_iff₀ hh]; linarith [e2.2]

variable [FloorRing K]

/-- **C94, one cycle of the task.** In viable states with enough room the constraint of the task allows exactly the
accelerations that are safe for all joints during the horizon. -/
theorem C94_exact {nv na : Nat} {h : K} {p : LimitSettings K} {s s' : PosVelAcc K} {q v : Vec K}
    {c : Constraint K} (hna : na ≤ nv) (hh : 0 < h) (hi : LimInv nv na p s) (ht : TimeInv h s) (hv : v.size = nv)
    (hp : p.Complete na) (hroom : ∀ j, j < na → Roomy h (p.qMin j) (p.qMax j) (p.dqMax j) (p.ddqMax j))
    (hvia : AllViable q.size nv na p q v) (hc : s.compute q v = .ok s' c) (a : Nat → K) :
    Sat c a ↔ ∀ j, j < na → SafeFor h (p.qMin j) (p.qMax j) (p.dqMax j) (p.ddqMax j) (q (q.size - na + j))
      (v (nv - na + j)) (a (nv - na + j)) := by
  rw [full_sat hna hi hp.1 hv hc a]
  refine forall₂_congr fun j hj => ?_
  obtain ⟨e1, e2⟩ := fours_of_compute hi ht hv hp.2 hc j
  have hcomp := C78_compatible hh (hroom j hj) (hvia j hj)
  rw [e1, e2, C31_intersection hcomp, C94_four hh (hroom j hj).1 (hvia j hj)]

/-! ## Limits that were never imposed -/

/-- If position limits, or viability, were never switched on, the bounds that come from them are those of a new task. -/
def Stale (na : Nat) (os : List (PosVelAcc.Op K)) (s : PosVelAcc K) : Prop :=
  (os.any (turnsPos na) = false → ∀ j, s.lbPos j = -10000000000 ∧ s.ubPos j = 10000000000) ∧
  (os.any (turnsVia na) = false → ∀ j, s.lbVia j = -10000000000 ∧ s.ubVia j = 10000000000)

/-- One call that does not switch position limits on. -/
theorem pos_off_step {s s' : PosVelAcc K} {o : PosVelAcc.Op K} (ho : turnsPos s.na o = false)
    (hi : s.impPos = false ∧ ∀ j, s.lbPos j = -10000000000 ∧ s.ubPos j = 10000000000)
    (h : (s.step o).state? = some s') :
    s'.impPos = false ∧ ∀ j, s'.lbPos j = -10000000000 ∧ s'.ubPos j = 10000000000 := by
  cases o with
  | setTimeStep dt => simp only [PosVelAcc.step, setTimeStep] at h; split at h <;> cases h <;> exact hi
  | setPositionBounds l u =>
    simp only [turnsPos, decide_eq_false_iff_not] at ho
    simp only [PosVelAcc.step, setPositionBounds] at h
    split at h
    · split at h
      · exact absurd ⟨‹_›, ‹_›⟩ ho
      · cases h; exact hi
    · cases h; exact hi
  | setVelocityBounds u => simp only [PosVelAcc.step, setVelocityBounds] at h; split at h <;> cases h <;> exact hi
  | setAccelerationBounds u => simp only [PosVelAcc.step, setAccelerationBounds] at h; split at h <;> cases h <;> exact hi
  | setImposeBounds a b c d => cases h; exact ⟨ho, hi.2⟩
  | setMask m =>
    simp only [PosVelAcc.step, PosVelAcc.setMask] at h
    cases hm : s.m.setMask s.na s.nv (s.nv - s.na) (fun _ => 1) m <;> rw [hm] at h <;> cases h <;> exact hi
  | compute q v =>
    obtain ⟨a1, a2, c1, hc1⟩ := step_compute h
    rw [compute_ok a1 a2] at hc1
    cases hc1
    refine ⟨hi.1, ?_⟩
    simpa only [accLimits, hi.1, Bool.false_eq_true, if_false] using hi.2

/-- One call that does not switch viability on. -/
theorem via_off_step {s s' : PosVelAcc K} {o : PosVelAcc.Op K} (ho : turnsVia s.na o = false)
    (hi : s.impVia = false ∧ ∀ j, s.lbVia j = -10000000000 ∧ s.ubVia j = 10000000000)
    (h : (s.step o).state? = some s') :
    s'.impVia = false ∧ ∀ j, s'.lbVia j = -10000000000 ∧ s'.ubVia j = 10000000000 := by
  cases o with
  | setTimeStep dt => simp only [PosVelAcc.step, setTimeStep] at h; split at h <;> cases h <;> exact hi
  | setPositionBounds l u =>
    simp only [turnsVia, decide_eq_false_iff_not] at ho
    simp only [PosVelAcc.step, setPositionBounds] at h
    split at h
    · split at h
      · exact absurd ⟨‹_›, ‹_›⟩ ho
      · cases h; exact hi
    · cases h; exact hi
  | setVelocityBounds u => simp only [PosVelAcc.step, setVelocityBounds] at h; split at h <;> cases h <;> exact hi
  | setAccelerationBounds u => simp only [PosVelAcc.step, setAccelerationBounds] at h; split at h <;> cases h <;> exact hi
  | setImposeBounds a b c d => cases h; exact ⟨ho, hi.2⟩
  | setMask m =>
    simp only [PosVelAcc.step, PosVelAcc.setMask] at h
    cases hm : s.m.setMask s.na s.nv (s.nv - s.na) (fun _ => 1) m <;> rw [hm] at h <;> cases h <;> exact hi
  | compute q v =>
    obtain ⟨a1, a2, c1, hc1⟩ := step_compute h
    rw [compute_ok a1 a2] at hc1
    cases hc1
    refine ⟨hi.1, ?_⟩
    simpa only [accLimits, hi.1, Bool.false_eq_true, if_false] using hi.2

/-- The number of joints does not change. -/
theorem na_step {s s' : PosVelAcc K} {o : PosVelAcc.Op K} (h : (s.step o).state? = some s') : s'.na = s.na := by
  cases o with
  | setTimeStep dt => simp only [PosVelAcc.step, setTimeStep] at h; split at h <;> cases h <;> rfl
  | setPositionBounds l u =>
    simp only [PosVelAcc.step, setPositionBounds] at h
    split at h
    · split at h <;> cases h <;> rfl
    · cases h; rfl
  | setVelocityBounds u => simp only [PosVelAcc.step, setVelocityBounds] at h; split at h <;> cases h <;> rfl
  | setAccelerationBounds u => simp only [PosVelAcc.step, setAccelerationBounds] at h; split at h <;> cases h <;> rfl
  | setImposeBounds a b c d => cases h; rfl
  | setMask m =>
    simp only [PosVelAcc.step, PosVelAcc.setMask] at h
    cases hm : s.m.setMask s.na s.nv (s.nv - s.na) (fun _ => 1) m <;> rw [hm] at h <;> cases h <;> rfl
  | compute q v =>
    obtain ⟨a1, a2, c1, hc1⟩ := step_compute h
    rw [compute_ok a1 a2] at hc1
    cases hc1
    rfl

/-- **C104, never imposed.** As long as no call switches position limits (viability) on, the bounds that come from them
are those of a new task. -/
theorem C104_never {name : String} {nv na : Nat} {dt : K} {s0 s : PosVelAcc K} {os : List (PosVelAcc.Op K)}
    (hna : na ≤ nv) (h0 : PosVelAcc.new name nv na dt = some s0) (hr : runOps PosVelAcc.step s0 os = some s) :
    Stale na os s := by
  have hi := (limInv_new hna h0).1.naEq
  have hp : s0.impPos = false ∧ ∀ j, s0.lbPos j = -10000000000 ∧ s0.ubPos j = 10000000000 := by
    obtain ⟨_, rfl⟩ := new_eq hna h0; exact ⟨rfl, fun j => ⟨rfl, rfl⟩⟩
  have hv : s0.impVia = false ∧ ∀ j, s0.lbVia j = -10000000000 ∧ s0.ubVia j = 10000000000 := by
    obtain ⟨_, rfl⟩ := new_eq hna h0; exact ⟨rfl, fun j => ⟨rfl, rfl⟩⟩
  clear h0
  constructor
  · clear hv
    intro ho
    induction os generalizing s0 with
    | nil => cases hr; exact hp.2
    | cons o os ih =>
      simp only [List.any_cons, Bool.or_eq_false_iff] at ho
      rw [runOps] at hr
      cases e1 : (s0.step o).state? with
      | none => rw [e1] at hr; cases hr
      | some s1 =>
        rw [e1] at hr
        exact ih hr ((na_step e1).trans hi) (pos_off_step (by rw [hi]; exact ho.1) hp e1) ho.2
  · clear hp
    intro ho
    induction os generalizing s0 with
    | nil => cases hr; exact hv.2
    | cons o os ih =>
      simp only [List.any_cons, Bool.or_eq_false_iff] at ho
      rw [runOps] at hr
      cases e1 : (s0.step o).state? with
      | none => rw [e1] at hr; cases hr
      | some s1 =>
        rw [e1] at hr
        exact ih hr ((na_step e1).trans hi) (via_off_step (by rw [hi]; exact ho.1) hv e1) ho.2

/-! ## In a program -/

/-- The object of a limits task in the cycle of a program. -/
theorem limits_of_cycle {E : Program.Env K} {W : World} {S : Setup K} {ops : List (Program.Op K)} {s0 s : Program.State K}
    (h : GoodProgram E W S ops s0) {w : Snapshot K} {t : K} (hw : SnapshotOk E.robot.nv w)
    (hc : Program.compute E w t s0 = .ok s ()) {fam : Family} {tid pr : Nat} {k dt : K}
    (hin : .task fam tid pr k ∈ (S.registry E W ops t).items) (hd : S.decl tid = .posVelAcc dt) :
    0 < dt ∧ E.robot.na ≤ E.robot.nv ∧ ∃ (sp s' : PosVelAcc K) (c : Constraint K),
      LimInv E.robot.nv E.robot.na (limitsOf E.robot.na tid ops) sp ∧ TimeInv (2 * dt) sp ∧
      sp.compute w.q w.v = .ok s' c ∧ s.task tid = .posVelAcc s' ∧ (s.task tid).con = c ∧
      Stale E.robot.na ((taskCalls tid ops).filterMap posVelAcc?) sp := by
  obtain ⟨ht, hno⟩ := program_tidy h
  have hform := Program.compute_form hc
  obtain ⟨f, s1, f', hf, hs, ha, rfl⟩ := Program.compute_ok hc
  have hcy : cycleOf E w t s0 = Program.cycle w s1 := by simp only [cycleOf, hf, hs]
  obtain ⟨-, hmot, hmea, htask⟩ := Program.computeObjects_some hs
  rw [hcy] at hform
  obtain ⟨hrob, hnv, hnu, hasc, hmeas, hnames, hkinds, hnd, L, hcoh, hitems⟩ := cycle_end ht hform
  obtain ⟨q1, q2, q3, q4, q5⟩ := assemble_lists ha
  have hitems' : (S.registry E W ops t).items = L.map Prod.fst := hitems.symm
  have hR : RobotOk E.robot := ⟨by rw [h.nv, h.na]; exact h.motors, h.nqa, h.difference⟩
  have hnodup : (computed f).Nodup := by rw [← q1]; exact computed_nodup hcoh
  have hmem : tid ∈ computed f := by rw [← q1]; exact mem_computed hcoh (hitems' ▸ hin)
  have hcc := each_once htask hnodup hmem
  have hb := h.built tid
  rw [hd] at hb
  obtain ⟨o0, h0, hb⟩ := hb
  have hr := Program.run_task h.run tid
  have hg := history_good h tid
  have hb' : S.start.task tid = .posVelAcc o0 := hb
  rw [hb'] at hr
  obtain ⟨sp, e, hr'⟩ := Program.unwrap (wrap := TaskObj.posVelAcc) (st := PosVelAcc.step) (get := posVelAcc?)
    (fun s c => by cases c <;> rfl) hr
  have hgm : ∀ o ∈ (history E S.start ops tid).filterMap posVelAcc?, GoodMask E.robot.na o :=
    good_filter hg (get := posVelAcc?) (Q := GoodMask E.robot.na) (fun c o h h' => by cases c <;> cases h; exact h'.1)
  have hgt : ∀ o ∈ (history E S.start ops tid).filterMap posVelAcc?, KeepsTimeStep o :=
    good_filter hg (get := posVelAcc?) (Q := KeepsTimeStep) (fun c o h h' => by cases c <;> cases h; exact h'.2)
  obtain ⟨i1, i2, hdt⟩ := limInv_new hR.na h0
  have hi := limInv_run hR.na i1 hgm hr'
  have hti := timeInv_run i2 hgt hr'
  have hss := same_settings (fun σ F hF p => Program.fold_history hF h.run p)
    (calls := taskCalls tid ops) (hist := history E S.start ops tid)
    (after := fun p o => LimitSettings.after E.robot.na p o)
    (afterAll := fun p os => LimitSettings.afterAll (K := K) E.robot.na p os) (fun _ => rfl)
    (g := posVelAcc?)
    (fun _ _ _ => rfl) (fun p c o h1 h2 => by cases c <;> cases h2; cases o <;> first | rfl | cases h1)
    (LimitSettings.fresh E.robot.na)
  rw [hss] at hi
  have hany : ∀ f : PosVelAcc.Op K → Bool, (∀ q v, f (.compute q v) = false) →
      ((history E S.start ops tid).filterMap posVelAcc?).any f = ((taskCalls tid ops).filterMap posVelAcc?).any f := by
    intro f hf
    have := same_settings (fun σ F hF p => Program.fold_history hF h.run p)
      (calls := taskCalls tid ops) (hist := history E S.start ops tid) (after := fun (b : Bool) o => b || f o)
      (afterAll := fun b os => b || os.any f) (fun b => by simp) (g := posVelAcc?)
      (fun b o os => by simp [Bool.or_assoc])
      (fun b c o h1 h2 => by cases c <;> cases h2; cases o <;> first | (cases h1; done) | simp [hf]) false
    simpa using this
  have hst := C104_never hR.na h0 hr'
  have hst : Stale E.robot.na ((taskCalls tid ops).filterMap posVelAcc?) sp :=
    ⟨fun hn j => hst.1 (by rw [hany _ fun _ _ => rfl]; exact hn) j, fun hn j => hst.2 (by rw [hany _ fun _ _ => rfl]; exact hn) j⟩
  refine ⟨hdt, hR.na, ?_⟩
  rw [e] at hcc
  simp only [TaskObj.compute, TaskObj.cycleCall, TaskObj.call] at hcc
  split at hcc
  · next o2' u hl =>
    cases hcc
    obtain ⟨s', a, e2, e3⟩ := lift_ok hl
    have e2' : (sp.step (.compute w.q w.v)).state? = some s' :=
      (congrArg Res.state? e2).trans rfl
    obtain ⟨-, -, c, e4⟩ := PosVelAcc.step_compute e2'
    refine ⟨sp, s', c, hi, hti, e4, e3, ?_, hst⟩
    show (s1.task tid).con = c
    rw [e3]
    simp only [TaskObj.con, posVelAcc_con e4]
  · cases hcc

/-- **C94, in a program.** If the joints are in viable states with enough room, a registered limits task asks exactly for
accelerations that are safe during `2 dt`, for the limits that the text of the program sets. -/
theorem C94_asks {E : Program.Env K} {W : World} {S : Setup K} {ops : List (Program.Op K)} {s0 s : Program.State K}
    (h : GoodProgram E W S ops s0) {w : Snapshot K} {t : K} (hw : SnapshotOk E.robot.nv w)
    (hc : Program.compute E w t s0 = .ok s ()) {fam : Family} {tid pr : Nat} {k dt : K}
    (hin : .task fam tid pr k ∈ (S.registry E W ops t).items) (hd : S.decl tid = .posVelAcc dt) :
    let p := limitsOf E.robot.na tid ops
    p.Complete E.robot.na →
    (∀ j, j < E.robot.na → Roomy (2 * dt) (p.qMin j) (p.qMax j) (p.dqMax j) (p.ddqMax j)) →
    AllViable w.q.size E.robot.nv E.robot.na p w.q w.v →
    ∀ x calls hist y, (S.decl tid).Asks E x calls hist (s.task tid) y ↔
      ∀ j, j < E.robot.na → SafeFor (2 * dt) (p.qMin j) (p.qMax j) (p.dqMax j) (p.ddqMax j)
        (w.q (w.q.size - E.robot.na + j)) (w.v (E.robot.nv - E.robot.na + j)) (y (E.robot.nv - E.robot.na + j)) := by
  intro p hp hroom hvia x calls hist y
  obtain ⟨hdt, hna, sp, s', c, hi, hti, e1, e2, e3, -⟩ := limits_of_cycle h hw hc hin hd
  rw [hd]
  show Sat (s.task tid).con y ↔ _
  rw [e3]
  exact C94_exact hna (by linarith) hi hti hw.v hp hroom hvia e1 y

/-- **C94, there is always a way.** In viable states with enough room some accelerations are safe. -/
theorem C94_exists {h qMin qMax V m q dq : K} (hh : 0 < h) (hr : Roomy h qMin qMax V m)
    (hv : ViableState qMin qMax V m q dq) : ∃ a, SafeFor h qMin qMax V m q dq a := by
  obtain ⟨a, ha⟩ := C78_compatible hh hr hv
  exact ⟨a, (C94_four hh hr.1 hv).1 ha⟩

/-- What a limits task of priority 0 promises in a cycle. -/
theorem safe_of_feasible {E : Program.Env K} {W : World} {S : Setup K} {ops : List (Program.Op K)} {s0 s : Program.State K}
    (h : GoodProgram E W S ops s0) {w : Snapshot K} {t : K} (hw : SnapshotOk E.robot.nv w)
    (hc : Program.compute E w t s0 = .ok s ()) {tid : Nat} {k dt : K}
    (hin : .task .motion tid 0 k ∈ (S.registry E W ops t).items) (hd : S.decl tid = .posVelAcc dt)
    {l0 l1 : Level K} (hpr : problem s.form = [l0, l1]) {x dv : Vec K} (hx : x.size = nVar s.form) (hfe : Feasible l0 x)
    (hdv : (getAccelerations s.form x).val? = some dv) {p : LimitSettings K} (hpt : limitsOf E.robot.na tid ops = p)
    (hp : p.Complete E.robot.na)
    (hroom : ∀ j, j < E.robot.na → Roomy (2 * dt) (p.qMin j) (p.qMax j) (p.dqMax j) (p.ddqMax j))
    (hvia : AllViable w.q.size E.robot.nv E.robot.na p w.q w.v) :
    ∀ j, j < E.robot.na → SafeFor (2 * dt) (p.qMin j) (p.qMax j) (p.dqMax j) (p.ddqMax j)
      (w.q (w.q.size - E.robot.na + j)) (w.v (E.robot.nv - E.robot.na + j)) (dv (E.robot.nv - E.robot.na + j)) := by
  intro j hj
  obtain ⟨hdt, hna, sp, s', c, hi, hti, e1, e2, e3, -⟩ := limits_of_cycle h hw hc hin hd
  have hh : 0 < 2 * dt := by linarith
  obtain ⟨dv', e, hdem⟩ := (C87_partial h hw hc hpr hx hfe).motion tid k hin
  rw [hdv] at e
  cases e
  rw [hd] at hdem
  rw [hpt] at hi
  obtain ⟨f1, f2⟩ := fours_of_compute hi hti hw.v hp.2 e1 j
  have hcomp := C78_compatible hh (hroom j hj) (hvia j hj)
  have hdem' := hdem (by have := hp.1; rw [← hpt] at this; exact this) j hj (by
    intro s'' hs''
    rw [e2] at hs''
    cases hs''
    show ∃ b, Allows (s'.lower (w.v (E.robot.nv - E.robot.na + j)) j) (s'.upper (w.v (E.robot.nv - E.robot.na + j)) j) b
    rw [f1, f2]
    exact hcomp)
  have hpt' : (LimitSettings.fresh (K := K) E.robot.na).afterAll E.robot.na ((taskCalls tid ops).filterMap posVelAcc?) = p := hpt
  rw [hpt'] at hdem'
  obtain ⟨g1, g2, g3, g4⟩ := hdem'
  obtain ⟨p1, p2, p3, p4⟩ := hp.2
  have hm := (hroom j hj).1
  obtain ⟨g3, g3'⟩ := g3 p3 hm.le
  have hv : -p.dqMax j ≤ w.v (E.robot.nv - E.robot.na + j) + dv (E.robot.nv - E.robot.na + j) * (2 * dt) ∧
      w.v (E.robot.nv - E.robot.na + j) + dv (E.robot.nv - E.robot.na + j) * (2 * dt) ≤ p.dqMax j := g2 p2
  rw [← C94_four hh hm (hvia j hj)]
  refine ⟨C29_needed hh (admits_of_viable (hvia j hj) hm) (g1 p1 (admits_of_viable (hvia j hj) hm)),
    ⟨fromVia_needed_lower (qMax := p.qMax j) hh hm g3', fromVia_needed (qMin := p.qMin j) hh hm g3⟩, ⟨?_, ?_⟩, g4 p4⟩
  · show (-p.dqMax j - _) / (2 * dt) ≤ _
    rw [div_le_iff₀ hh]; linarith [hv.1]
  · show _ ≤ (p.dqMax j - _) / (2 * dt)
    rw [le_div_iff₀ hh]; linarith [hv.2]

/-! ## In a loop -/

/-- From one cycle to the next. -/
theorem loop_viable {nq nv na : Nat} {h : K} {p : LimitSettings K} {q v dv : ℕ → Vec K} {d : ℕ → K}
    (hq : ∀ n, (q n).size = nq) (hvia : AllViable nq nv na p (q 0) (v 0))
    (hd : ∀ n, 0 ≤ d n ∧ d n ≤ h) (hmove : ∀ n, MovesTo nq nv na (d n) (q n) (v n) (dv n).get (q (n + 1)) (v (n + 1)))
    (hsafe : ∀ n, AllViable nq nv na p (q n) (v n) → ∀ j, j < na → SafeFor h (p.qMin j) (p.qMax j) (p.dqMax j) (p.ddqMax j)
      (q n (nq - na + j)) (v n (nv - na + j)) (dv n (nv - na + j))) (n : ℕ) :
    AllViable nq nv na p (q n) (v n) ∧ ∀ j, j < na → |dv n (nv - na + j)| ≤ p.ddqMax j ∧ ∀ t, 0 ≤ t → t ≤ d n →
      ViableState (p.qMin j) (p.qMax j) (p.dqMax j) (p.ddqMax j)
        (posAt (q n (nq - na + j)) (v n (nv - na + j)) (dv n (nv - na + j)) t) (velAt (v n (nv - na + j)) (dv n (nv - na + j)) t) := by
  have key : ∀ n, AllViable nq nv na p (q n) (v n) := by
    intro n
    induction n with
    | zero => exact hvia
    | succ n ih =>
      intro j hj
      rw [(hmove n j hj).1, (hmove n j hj).2]
      exact (hsafe n ih j hj).2 (d n) (hd n).1 (hd n).2
  exact ⟨key n, fun j hj => ⟨(hsafe n (key n) j hj).1, fun t h0 h1 => (hsafe n (key n) j hj).2 t h0 (h1.trans (hd n).2)⟩⟩

/-- **C94 (partial).** A control loop holds a task of combined joint limits at priority 0, with all limits imposed on all
joints, enough room, and joints that are in viable states in the beginning; between the cycles, which are at most `2 dt`
apart, the joints move with the accelerations that the solutions prescribe.  Then at every instant of the unlimited run
every joint is inside its position and velocity limits and can be stopped before its position limits, and its
acceleration is within its limits.
Missing: as in C87; the accelerations are realised exactly. -/
theorem C94_forever_partial {L : Loop K} {E : Program.Env K} {W : World} {S : Setup K} {dv : ℕ → Vec K}
    (hr : L.Runs E W S dv) {tid nq : Nat} {dt : K} (ht : L.Holds E W S tid) (hd : S.decl tid = .posVelAcc dt)
    {p : LimitSettings K} (hpt : ∀ n, limitsOf E.robot.na tid (L.text n) = p) (hp : p.Complete E.robot.na)
    (hroom : ∀ j, j < E.robot.na → Roomy (2 * dt) (p.qMin j) (p.qMax j) (p.dqMax j) (p.ddqMax j))
    (hq : ∀ n, (L.robot n).q.size = nq) (hvia : AllViable nq E.robot.nv E.robot.na p (L.robot 0).q (L.robot 0).v)
    {d : ℕ → K} (hdt : ∀ n, 0 ≤ d n ∧ d n ≤ 2 * dt)
    (hmove : ∀ n, MovesTo nq E.robot.nv E.robot.na (d n) (L.robot n).q (L.robot n).v (dv n).get
      (L.robot (n + 1)).q (L.robot (n + 1)).v) (n : ℕ) :
    AllViable nq E.robot.nv E.robot.na p (L.robot n).q (L.robot n).v ∧
    ∀ j, j < E.robot.na → |dv n (E.robot.nv - E.robot.na + j)| ≤ p.ddqMax j ∧ ∀ t, 0 ≤ t → t ≤ d n →
      ViableState (p.qMin j) (p.qMax j) (p.dqMax j) (p.ddqMax j)
        (posAt ((L.robot n).q (nq - E.robot.na + j)) ((L.robot n).v (E.robot.nv - E.robot.na + j))
          (dv n (E.robot.nv - E.robot.na + j)) t)
        (velAt ((L.robot n).v (E.robot.nv - E.robot.na + j)) (dv n (E.robot.nv - E.robot.na + j)) t) := by
  refine loop_viable (h := 2 * dt) (q := fun n => (L.robot n).q) (v := fun n => (L.robot n).v) hq hvia hdt hmove ?_ n
  intro n hv
  obtain ⟨s0, s, l0, l1, x, hg, hw, hc, hpr, hx, hfe, hdv⟩ := hr n
  obtain ⟨k, hk⟩ := ht n
  have := safe_of_feasible hg hw hc hk hd hpr hx hfe hdv (hpt n) hp hroom (by rw [hq n]; exact hv)
  rw [hq n] at this
  exact this

/-! ## Limits alone never make the problem infeasible -/

/-- **C94, no dead end.** If every joint has a motor and the limits task is the only thing of priority 0, then in viable
states with enough room the first level of the problem can be satisfied. -/
theorem C94_feasible {E : Program.Env K} {W : World} {S : Setup K} {ops : List (Program.Op K)} {s0 s : Program.State K}
    (h : GoodProgram E W S ops s0) (hna : S.robot.na = S.robot.nv) {w : Snapshot K} {t : K} (hw : SnapshotOk E.robot.nv w)
    (hm : MayCycle E W S ops w t) (hc : Program.compute E w t s0 = .ok s ()) {tid : Nat} {dt : K}
    (ho : S.Only E W ops t tid) (heq : S.SoftEqualities E W ops t) (hd : S.decl tid = .posVelAcc dt)
    {l0 l1 : Level K} (hpr : problem s.form = [l0, l1]) {p : LimitSettings K} (hpt : limitsOf E.robot.na tid ops = p)
    (hp : p.Complete E.robot.na)
    (hroom : ∀ j, j < E.robot.na → Roomy (2 * dt) (p.qMin j) (p.qMax j) (p.dqMax j) (p.ddqMax j))
    (hvia : AllViable w.q.size E.robot.nv E.robot.na p w.q w.v) :
    ∃ x : Vec K, x.size = nVar s.form ∧ Feasible l0 x := by
  obtain ⟨⟨k, hk⟩, honly, hnc⟩ := ho
  obtain ⟨hdt, -⟩ := limits_of_cycle h hw hc hk hd
  have hh : 0 < 2 * dt := by linarith
  choose! a ha using fun j hj => C94_exists hh (hroom j hj) (hvia j hj)
  have hx : (⟨nVar s.form, fun i => a (i - (E.robot.nv - E.robot.na))⟩ : Vec K).size = nVar s.form := rfl
  obtain ⟨d, hdec, -⟩ := C89_partial h hw hc hpr heq (force_contacts hm) hx
  obtain ⟨hdz, hdv, hdyn⟩ := actuated_dynamics h hna hw hc hx hdec
  refine ⟨_, hx, (C92_partial h hw hm hc ?_ hpr hx hdec).2 ⟨hdyn, ?_, ?_, ?_⟩⟩
  · intro fam i k' hin
    obtain ⟨-, rfl⟩ := honly fam i k' hin
    rw [hd]
    trivial
  · intro fam i k' hin
    obtain ⟨rfl, rfl⟩ := honly fam i k' hin
    have := C94_asks h hw hc hin hd (by rw [hpt]; exact hp) (by rw [hpt]; exact hroom) (by rw [hpt]; exact hvia)
      (ctx E w s.form) (taskCalls i ops) (history E S.start ops i) d.dv.get
    refine this.2 ?_
    rw [hpt, hdv]
    intro j hj
    have := ha j hj
    show SafeFor _ _ _ _ _ _ _ (a (E.robot.nv - E.robot.na + j - (E.robot.nv - E.robot.na)))
    rw [show E.robot.nv - E.robot.na + j - (E.robot.nv - E.robot.na) = j by omega]
    exact this
  · intro cid wm wf hin
    exact absurd hin (hnc cid 0 wm wf)
  · intro cid pr wm wf hin
    exact absurd hin (hnc cid pr wm wf)

/-- **C94, alone (partial).** As `C94_forever_partial`, for robots with a motor on every joint and loops in which the
limits task is the only thing of priority 0 and the solver finds a solution when there is one: then there is one in every
cycle, for ever. -/
theorem C94_alone_partial {L : Loop K} {E : Program.Env K} {W : World} {S : Setup K} {dv : ℕ → Vec K}
    (hr : L.Tries E W S dv) (hna : S.robot.na = S.robot.nv) {tid nq : Nat} {dt : K}
    (ho : ∀ n, S.Only E W (L.text n) (L.time n) tid) (heq : ∀ n, S.SoftEqualities E W (L.text n) (L.time n))
    (hd : S.decl tid = .posVelAcc dt)
    {p : LimitSettings K} (hpt : ∀ n, limitsOf E.robot.na tid (L.text n) = p) (hp : p.Complete E.robot.na)
    (hroom : ∀ j, j < E.robot.na → Roomy (2 * dt) (p.qMin j) (p.qMax j) (p.dqMax j) (p.ddqMax j))
    (hq : ∀ n, (L.robot n).q.size = nq) (hvia : AllViable nq E.robot.nv E.robot.na p (L.robot 0).q (L.robot 0).v)
    {d : ℕ → K} (hdt : ∀ n, 0 ≤ d n ∧ d n ≤ 2 * dt)
    (hmove : ∀ n, MovesTo nq E.robot.nv E.robot.na (d n) (L.robot n).q (L.robot n).v (dv n).get
      (L.robot (n + 1)).q (L.robot (n + 1)).v) :
    L.Runs E W S dv ∧ ∀ n, AllViable nq E.robot.nv E.robot.na p (L.robot n).q (L.robot n).v := by
  have key : ∀ n, AllViable nq E.robot.nv E.robot.na p (L.robot n).q (L.robot n).v →
      ∃ s0 s l0 l1, ∃ x : Vec K, GoodProgram E W S (L.text n) s0 ∧ SnapshotOk E.robot.nv (L.robot n) ∧
        Program.compute E (L.robot n) (L.time n) s0 = .ok s () ∧ problem s.form = [l0, l1] ∧ x.size = nVar s.form ∧
        Feasible l0 x ∧ (getAccelerations s.form x).val? = some (dv n) := by
    intro n hv
    obtain ⟨s0, s, l0, l1, x, hg, hw, hm, hc, hpr, hx, hfe, hdv⟩ := hr n
    exact ⟨s0, s, l0, l1, x, hg, hw, hc, hpr, hx,
      hfe (C94_feasible hg hna hw hm hc (ho n) (heq n) hd hpr (hpt n) hp hroom (by rw [hq n]; exact hv)), hdv⟩
  have all := fun n => (loop_viable (h := 2 * dt) (q := fun n => (L.robot n).q) (v := fun n => (L.robot n).v) hq hvia hdt
    hmove (fun n hv => by
      obtain ⟨s0, s, l0, l1, x, hg, hw, hc, hpr, hx, hfe, hdv⟩ := key n hv
      obtain ⟨⟨k, hk⟩, -⟩ := ho n
      have := safe_of_feasible hg hw hc hk hd hpr hx hfe hdv (hpt n) hp hroom (by rw [hq n]; exact hv)
      rw [hq n] at this
      exact this) n).1
  exact ⟨fun n => key n (all n), all⟩

/-! ## With the solver -/

/-- One back-end. -/
theorem tries_of_attempted {R C : Type} {D : Solve.Driver K R C} {u0 : Solve.Object K R} {Sat : R → (Nat → K) → Prop}
    {Success : Solve.Answer C K → Prop} {reg : Bool} {L : Loop K} {E : Program.Env K} {W : World} {S : Setup K}
    {engine : ℕ → Solver.State K R → Vec K → Solve.Answer C K} {dv : ℕ → Vec K}
    (ht : L.Typed E W S) (hn : E.ndebug = true) (heq : ∀ n, S.SoftEqualities E W (L.text n) (L.time n))
    (he : ∀ n, Sound Sat Success (engine n)) (hs : L.Attempted E S D u0 Success engine dv)
    (hd : ∀ n s0 s l0 l1, Program.run E S.start (L.text n) = some s0 →
      Program.compute E (L.robot n) (L.time n) s0 = .ok s () → problem s.form = [l0, l1] →
      Admissible (nVar s.form) l0 (some l1) → ¬ hasBound l0 →
      ∃ Obj, SolvesProblem D E.ndebug u0 Sat Success (nVar s.form) reg l0 l1 Obj) :
    L.Tries E W S dv := by
  obtain ⟨u, hu0, hu⟩ := hs
  have hist : ∀ n, ∃ hist, (∀ c ∈ hist, c.Sized) ∧ solves D E.ndebug u0 hist = some (u n) := by
    intro n
    induction n with
    | zero => exact ⟨[], by simp, by rw [hu0]; rfl⟩
    | succ n ih =>
      obtain ⟨hist, h1, h2⟩ := ih
      obtain ⟨s0, s, hg, -, -, hc⟩ := typed_cycle ht hn n
      obtain ⟨fresh, freshI, e, -⟩ := hu n s0 s hg.run hc
      refine ⟨hist ++ [.solve fresh freshI (problem s.form) (engine n)], ?_, ?_⟩
      · intro c hc
        rcases List.mem_append.1 hc with hc | hc
        · exact h1 c hc
        · rw [List.mem_singleton.1 hc]; exact (he n).size
      · rw [solves_append h2]
        simp only [solves, SolveCall.run, e, Res.state?]
  intro n
  obtain ⟨s0, s, hg, hw, hm, hc⟩ := typed_cycle ht hn n
  obtain ⟨l0, l1, hp, ha, hb⟩ := program_admissible hg hw hm hc (heq n)
  obtain ⟨fresh, freshI, e, hsucc, hdv⟩ := hu n s0 s hg.run hc
  obtain ⟨hl, h1, h2⟩ := hist n
  obtain ⟨Obj, hsol⟩ := hd n s0 s l0 l1 hg.run hc hp ha hb
  obtain ⟨u', e', -, -, hz, g⟩ := hsol hl (u n) h1 h2 fresh freshI (engine n) (he n)
  rw [← hp, e] at e'
  cases e'
  refine ⟨s0, s, l0, l1, _, hg, hw, hm, hc, hp, hz, fun hy => ?_, hdv⟩
  obtain ⟨⟨-, -, g2⟩, -⟩ := g (hsucc l0 l1 hp hy)
  exact g2.1

/-- **C94, with the solver (partial).** Loops that a controller runs with one of the back-ends, in a release build, are
loops in the sense of `C94_alone_partial`.  Missing: as in C92. -/
theorem C94_attempted_partial {L : Loop K} {E : Program.Env K} {W : World} {S : Setup K} {dv : ℕ → Vec K}
    (ht : L.Typed E W S) (hn : E.ndebug = true) (heq : ∀ n, S.SoftEqualities E W (L.text n) (L.time n))
    (b : Bool) (t0 : Status.HQPStatus) (i : Int) (v : Solve.Objective K) :
    (∀ engine, (∀ n, Sound EiqSat (fun a => ∃ w, a.objective = .num w) (engine n)) →
      L.Attempted E S Solve.eiq (Solve.Eiq.init t0 i v) (fun a => ∃ w, a.objective = .num w) engine dv → L.Tries E W S dv) ∧
    (∀ engine, (∀ n, Sound EiqSat (fun a => a.code = .optimal) (engine n)) →
      L.Attempted E S Solve.fast (Solve.Eiq.init t0 i v) (fun a => a.code = .optimal) engine dv → L.Tries E W S dv) ∧
    (∀ fresh freshI nvar neq nin, (∀ n s0 s, Program.run E S.start (L.text n) = some s0 →
        Program.compute E (L.robot n) (L.time n) s0 = .ok s () →
        nVar s.form = nvar ∧ (problem s.form).head?.map Solver.count = some (neq, nin)) →
      ∀ engine, (∀ n, Sound EiqSat (fun a => a.code = .optimal) (engine n)) →
      L.Attempted E S Solve.rt (Solve.Rt.init fresh freshI nvar neq nin t0 i v) (fun a => a.code = .optimal) engine dv →
      L.Tries E W S dv) ∧
    (∀ engine, (∀ n, Sound ProxSat (fun a => a.code = .solved) (engine n)) →
      L.Attempted E S Solve.prox (Solve.Prox.init t0 i v) (fun a => a.code = .solved) engine dv → L.Tries E W S dv) ∧
    (∀ engine, (∀ n, Sound OsqpSat (fun a => a.code = .solved) (engine n)) →
      L.Attempted E S Solve.osqp (Solve.Osqp.init t0 i v) (fun a => a.code = .solved) engine dv → L.Tries E W S dv) ∧
    (∀ engine, (∀ n, Sound MadSat (fun a => a.code = .ok) (engine n)) →
      L.Attempted E S Solve.mad (Solve.Mad.init b t0 i v) (fun a => a.code = .ok) engine dv → L.Tries E W S dv) := by
  refine ⟨fun engine he hs => ?_, fun engine he hs => ?_, fun fresh freshI nvar neq nin hsz engine he hs => ?_,
    fun engine he hs => ?_, fun engine he hs => ?_, fun engine he hs => ?_⟩
  · exact tries_of_attempted ht hn heq he hs fun n s0 s l0 l1 _ _ _ ha _ => ⟨_, (C85_solves_partial E.ndebug b t0 i v ha).1⟩
  · exact tries_of_attempted ht hn heq he hs fun n s0 s l0 l1 _ _ _ ha _ =>
      ⟨_, (C85_solves_partial E.ndebug b t0 i v ha).2.1⟩
  · refine tries_of_attempted (reg := true) ht hn heq he hs fun n s0 s l0 l1 hr hc hp ha _ => ?_
    have k := (C85_solves_partial E.ndebug b t0 i v ha).2.2.1 fresh freshI
    obtain ⟨e1, e2⟩ := hsz n s0 s hr hc
    rw [hp] at e2
    simp only [List.head?_cons, Option.map_some, Option.some.injEq] at e2
    rw [e2, e1] at k
    rw [e1]
    exact ⟨_, k⟩
  · exact tries_of_attempted ht hn heq he hs fun n s0 s l0 l1 _ _ _ ha _ =>
      ⟨_, (C85_solves_partial E.ndebug b t0 i v ha).2.2.2.1⟩
  · exact tries_of_attempted ht hn heq he hs fun n s0 s l0 l1 _ _ _ ha _ =>
      ⟨_, (C85_solves_partial E.ndebug b t0 i v ha).2.2.2.2.1⟩
  · exact tries_of_attempted ht hn heq he hs fun n s0 s l0 l1 _ _ _ ha hb =>
      ⟨_, (C85_solves_partial E.ndebug b t0 i v ha).2.2.2.2.2 hb⟩

/-! ## Velocity limits -/

/-- **C94, velocity limits (partial).** A control loop holds a joint-bounds task at priority 0; the velocities change
between the cycles with the accelerations that the solutions prescribe, for times of at most the time step of the task.
Then, from velocities within the limits, all velocities are within the limits at every instant, and all accelerations
are within theirs.  Missing: as in `C94_forever_partial`. -/
theorem C94_velocity_partial {L : Loop K} {E : Program.Env K} {W : World} {S : Setup K} {dv : ℕ → Vec K}
    (hr : L.Runs E W S dv) {tid : Nat} {dt : K} (ht : L.Holds E W S tid) (hd : S.decl tid = .jointBounds dt)
    {p : BoundSettings K} (hpt : ∀ n, (BoundSettings.fresh E.robot.na dt).afterAll E.robot.na
      ((taskCalls tid (L.text n)).filterMap jointBounds?) = p) (hpos : 0 < p.dt)
    {j : Nat} (hj : j < E.robot.na) (hin : let v := (L.robot 0).v (E.robot.nv - E.robot.na + j); p.vLb j ≤ v ∧ v ≤ p.vUb j)
    {d : ℕ → K} (hdt : ∀ n, 0 ≤ d n ∧ d n ≤ p.dt)
    (hmove : ∀ n, (L.robot (n + 1)).v (E.robot.nv - E.robot.na + j) =
      velAt ((L.robot n).v (E.robot.nv - E.robot.na + j)) (dv n (E.robot.nv - E.robot.na + j)) (d n)) (n : ℕ) :
    let v := (L.robot n).v (E.robot.nv - E.robot.na + j)
    let a := dv n (E.robot.nv - E.robot.na + j)
    (p.aLb j ≤ a ∧ a ≤ p.aUb j) ∧ ∀ t, 0 ≤ t → t ≤ d n → p.vLb j ≤ velAt v a t ∧ velAt v a t ≤ p.vUb j := by
  have dem : ∀ n, (p.aLb j ≤ dv n (E.robot.nv - E.robot.na + j) ∧ dv n (E.robot.nv - E.robot.na + j) ≤ p.aUb j) ∧
      (p.vLb j ≤ (L.robot n).v (E.robot.nv - E.robot.na + j) + p.dt * dv n (E.robot.nv - E.robot.na + j) ∧
        (L.robot n).v (E.robot.nv - E.robot.na + j) + p.dt * dv n (E.robot.nv - E.robot.na + j) ≤ p.vUb j) := by
    intro n
    obtain ⟨-, f, hist, o, hdem⟩ := loop_demands hr ht n
    rw [hd] at hdem
    simp only [TaskDecl.Demands, hpt n] at hdem
    exact hdem.2 j hj
  have during : ∀ n t, p.vLb j ≤ (L.robot n).v (E.robot.nv - E.robot.na + j) →
      (L.robot n).v (E.robot.nv - E.robot.na + j) ≤ p.vUb j → 0 ≤ t → t ≤ p.dt →
      p.vLb j ≤ velAt ((L.robot n).v (E.robot.nv - E.robot.na + j)) (dv n (E.robot.nv - E.robot.na + j)) t ∧
      velAt ((L.robot n).v (E.robot.nv - E.robot.na + j)) (dv n (E.robot.nv - E.robot.na + j)) t ≤ p.vUb j := by
    intro n t h1 h2 h3 h4
    obtain ⟨-, g1, g2⟩ := dem n
    generalize (L.robot n).v (E.robot.nv - E.robot.na + j) = v at *
    generalize dv n (E.robot.nv - E.robot.na + j) = a at *
    unfold velAt
    constructor
    · have e : p.dt * (v + a * t - p.vLb j) = (p.dt - t) * (v - p.vLb j) + t * (v + p.dt * a - p.vLb j) := by ring
      have : 0 ≤ p.dt * (v + a * t - p.vLb j) := by
        rw [e]
        exact add_nonneg (mul_nonneg (by linarith) (by linarith)) (mul_nonneg h3 (by linarith))
      linarith [nonneg_of_mul_nonneg_right this hpos]
    · have e : p.dt * (p.vUb j - (v + a * t)) = (p.dt - t) * (p.vUb j - v) + t * (p.vUb j - (v + p.dt * a)) := by ring
      have : 0 ≤ p.dt * (p.vUb j - (v + a * t)) := by
        rw [e]
        exact add_nonneg (mul_nonneg (by linarith) (by linarith)) (mul_nonneg h3 (by linarith))
      linarith [nonneg_of_mul_nonneg_right this hpos]
  have key : ∀ n, p.vLb j ≤ (L.robot n).v (E.robot.nv - E.robot.na + j) ∧
      (L.robot n).v (E.robot.nv - E.robot.na + j) ≤ p.vUb j := by
    intro n
    induction n with
    | zero => exact hin
    | succ n ih => rw [hmove n]; exact during n (d n) ih.1 ih.2 (hdt n).1 (hdt n).2
  exact ⟨(dem n).1, fun t h0 h1 => during n t (key n).1 (key n).2 h0 (h1.trans (hdt n).2)⟩

end Tsid.Props
