import Verif.Props.ControlLimits

/-!
# C104: combined joint limits with any kinds of limits imposed
-/

set_option linter.unusedSectionVars false

namespace Tsid.Props

open Spec Formulation PosVelAcc

variable {K : Type} [Field K] [LinearOrder K] [IsStrictOrderedRing K] [FloorRing K] [HasSqrt K] [LawfulSqrt K]

/-- The bounds of the four kinds of one joint after a cycle allow exactly the accelerations that keep the limits. -/
theorem allows_iff {nv na : Nat} {h : K} {p : LimitSettings K} {s s' : PosVelAcc K} {q v : Vec K} {c : Constraint K}
    {os : List (PosVelAcc.Op K)} (hh : 0 < h) (hi : LimInv nv na p s) (ht : TimeInv h s) (hst : Stale na os s)
    (hnever : NeverOff na p os) (hv : v.size = nv) (hc : s.compute q v = .ok s' c) {j : Nat} (a : K)
    (hin : p.impPos = true → Admits (p.qMin j) (p.qMax j) (q (q.size - na + j)) (v (nv - na + j)))
    (hbr : p.impVia = true → 0 < p.ddqMax j) :
    Allows (s'.lower (v (nv - na + j)) j) (s'.upper (v (nv - na + j)) j) a ↔
      p.Keeps h j (q (q.size - na + j)) (v (nv - na + j)) a := by
  have hsz : s.na ≤ q.size ∧ s.na ≤ v.size := by
    by_contra hn
    unfold compute at hc; rw [if_neg hn] at hc; cases hc
  rw [compute_ok hsz.1 hsz.2] at hc
  cases hc
  have hq' : ∀ j, (q.tail s.na) j = q (q.size - na + j) := by intro j; simp [Vec.tail, hi.naEq]
  have hv' : ∀ j, (v.tail s.na) j = v (nv - na + j) := by intro j; simp [Vec.tail, hv, hi.naEq]
  have hany : ∀ {f : PosVelAcc.Op K → Bool}, (∀ o ∈ os, f o = false) → os.any f = false := by
    intro f hf
    rw [List.any_eq_false]
    intro o ho
    rw [hf o ho]; exact Bool.false_ne_true
  generalize hx : q (q.size - na + j) = x at *
  generalize hdx : v (nv - na + j) = dx at *
  have epos : (p.impPos = true ∧ (s.accLimits (q.tail s.na) (v.tail s.na)).lbPos j = (fromPos h (2 / (h * h)) (p.qMin j) (p.qMax j) x dx).1 ∧
      (s.accLimits (q.tail s.na) (v.tail s.na)).ubPos j = (fromPos h (2 / (h * h)) (p.qMin j) (p.qMax j) x dx).2) ∨
      (p.impPos = false ∧ (s.accLimits (q.tail s.na) (v.tail s.na)).lbPos j = -10000000000 ∧
      (s.accLimits (q.tail s.na) (v.tail s.na)).ubPos j = 10000000000) := by
    cases e : p.impPos with
    | true =>
      left
      refine ⟨rfl, ?_, ?_⟩ <;>
        simp only [accLimits, hi.impPos, e, if_true, ht.dt, ht.twoDtSq, hi.qMin, hi.qMax, hq', hv', hx, hdx]
    | false =>
      right
      obtain ⟨h1, h2⟩ := hst.1 (hany (hnever.1.resolve_left (by rw [e]; simp))) j
      refine ⟨rfl, ?_, ?_⟩ <;> simp only [accLimits, hi.impPos, e, Bool.false_eq_true, if_false, h1, h2]
  have evia : (p.impVia = true ∧ (s.accLimits (q.tail s.na) (v.tail s.na)).lbVia j =
        (fromVia h (h * h) (2 * (h * h)) (p.qMin j) (p.qMax j) (p.ddqMax j) x dx).1 ∧
      (s.accLimits (q.tail s.na) (v.tail s.na)).ubVia j =
        (fromVia h (h * h) (2 * (h * h)) (p.qMin j) (p.qMax j) (p.ddqMax j) x dx).2) ∨
      (p.impVia = false ∧ (s.accLimits (q.tail s.na) (v.tail s.na)).lbVia j = -10000000000 ∧
      (s.accLimits (q.tail s.na) (v.tail s.na)).ubVia j = 10000000000) := by
    cases e : p.impVia with
    | true =>
      left
      refine ⟨rfl, ?_, ?_⟩ <;>
        simp only [accLimits, hi.impVia, e, if_true, ht.dt, ht.dtSquare, ht.twoA, hi.qMin, hi.qMax, hi.ddqMax, hq', hv',
          hx, hdx]
    | false =>
      right
      obtain ⟨h1, h2⟩ := hst.2 (hany (hnever.2.resolve_left (by rw [e]; simp))) j
      refine ⟨rfl, ?_, ?_⟩ <;> simp only [accLimits, hi.impVia, e, Bool.false_eq_true, if_false, h1, h2]
  have hlow : PosVelAcc.lower { s.accLimits (q.tail s.na) (v.tail s.na) with
        m := { s.m with con := { s.m.con with
          ub := (s.accLimits (q.tail s.na) (v.tail s.na)).ddqUB
          lb := (s.accLimits (q.tail s.na) (v.tail s.na)).ddqLB } } } dx j =
      ⟨(s.accLimits (q.tail s.na) (v.tail s.na)).lbPos j, (s.accLimits (q.tail s.na) (v.tail s.na)).lbVia j,
        if p.impVel then (-p.dqMax j - dx) / h else -10000000000, if p.impAcc then -p.ddqMax j else -10000000000⟩ := by
    rw [← hi.impVel, ← hi.impAcc, ← hi.dqMax, ← hi.ddqMax, ← ht.dt]; rfl
  have hupp : PosVelAcc.upper { s.accLimits (q.tail s.na) (v.tail s.na) with
        m := { s.m with con := { s.m.con with
          ub := (s.accLimits (q.tail s.na) (v.tail s.na)).ddqUB
          lb := (s.accLimits (q.tail s.na) (v.tail s.na)).ddqLB } } } dx j =
      ⟨(s.accLimits (q.tail s.na) (v.tail s.na)).ubPos j, (s.accLimits (q.tail s.na) (v.tail s.na)).ubVia j,
        if p.impVel then (p.dqMax j - dx) / h else 10000000000, if p.impAcc then p.ddqMax j else 10000000000⟩ := by
    rw [← hi.impVel, ← hi.impAcc, ← hi.dqMax, ← hi.ddqMax, ← ht.dt]; rfl
  rw [hlow, hupp]
  generalize s.accLimits (q.tail s.na) (v.tail s.na) = r at *
  unfold Allows
  show ((r.lbPos j ≤ a ∧ a ≤ r.ubPos j) ∧ (r.lbVia j ≤ a ∧ a ≤ r.ubVia j) ∧ (_ ∧ _) ∧ _ ∧ _) ↔ _
  have kpos : (r.lbPos j ≤ a ∧ a ≤ r.ubPos j) ↔ (p.impPos = true → StaysInside (p.qMin j) (p.qMax j) h x dx a) ∧
      (p.impPos = false → |a| ≤ 10000000000) := by
    rcases epos with ⟨e, e1, e2⟩ | ⟨e, e1, e2⟩ <;> rw [e1, e2]
    · simp only [e, forall_const, reduceCtorEq, false_imp_iff, and_true]
      exact ⟨fun ha => C29_position hh (hin e) ha.1 ha.2, fun ha => C29_needed hh (hin e) ha⟩
    · simp only [e, forall_const, false_imp_iff, true_and, abs_le, Bool.false_eq_true]
  have kvia : (r.lbVia j ≤ a ∧ a ≤ r.ubVia j) ↔
      (p.impVia = true → StoppableAbove (p.qMax j) (p.ddqMax j) (posAt x dx a h) (velAt dx a h) ∧
        StoppableBelow (p.qMin j) (p.ddqMax j) (posAt x dx a h) (velAt dx a h)) ∧
      (p.impVia = false → |a| ≤ 10000000000) := by
    rcases evia with ⟨e, e1, e2⟩ | ⟨e, e1, e2⟩ <;> rw [e1, e2]
    · simp only [e, forall_const, reduceCtorEq, false_imp_iff, and_true]
      exact ⟨fun ha => ⟨C30_viability_upper hh (hbr e).le ha.2, C30_viability_lower hh (hbr e).le ha.1⟩,
        fun ha => ⟨fromVia_needed_lower (qMax := p.qMax j) hh (hbr e) ha.2, fromVia_needed (qMin := p.qMin j) hh (hbr e) ha.1⟩⟩
    · simp only [e, forall_const, false_imp_iff, true_and, abs_le, Bool.false_eq_true]
  have kvel : ((if p.impVel then (-p.dqMax j - dx) / h else -10000000000) ≤ a ∧
      a ≤ (if p.impVel then (p.dqMax j - dx) / h else 10000000000)) ↔
      (p.impVel = true → |velAt dx a h| ≤ p.dqMax j) ∧ (p.impVel = false → |a| ≤ 10000000000) := by
    cases e : p.impVel
    · simp only [forall_const, false_imp_iff, true_and, abs_le, Bool.false_eq_true, if_false]
    · simp only [forall_const, reduceCtorEq, false_imp_iff, and_true, if_true, abs_le, div_le_iff₀ hh, le_div_iff₀ hh,
        velAt]
      constructor <;> rintro ⟨h1, h2⟩ <;> constructor <;> linarith
  have kacc : ((if p.impAcc then -p.ddqMax j else -10000000000) ≤ a ∧
      a ≤ (if p.impAcc then p.ddqMax j else 10000000000)) ↔
      (p.impAcc = true → |a| ≤ p.ddqMax j) ∧ (p.impAcc = false → |a| ≤ 10000000000) := by
    cases e : p.impAcc <;> simp [abs_le]
  rw [kpos, kvia, kvel, kacc]
  constructor
  · rintro ⟨⟨h1, h1'⟩, ⟨h2, h2'⟩, ⟨h3, h3'⟩, h4, h4'⟩
    refine ⟨h1, h3, h2, h4, fun hf => ?_⟩
    rw [Bool.and_eq_false_iff, Bool.and_eq_false_iff, Bool.and_eq_false_iff] at hf
    rcases hf with ((hf | hf) | hf) | hf
    exacts [h1' hf, h3' hf, h2' hf, h4' hf]
  · rintro ⟨h1, h3, h2, h4, hf⟩
    rw [Bool.and_eq_false_iff, Bool.and_eq_false_iff, Bool.and_eq_false_iff] at hf
    exact ⟨⟨h1, fun e => hf (Or.inl (Or.inl (Or.inl e)))⟩, ⟨h2, fun e => hf (Or.inl (Or.inr e))⟩,
      ⟨h3, fun e => hf (Or.inl (Or.inl (Or.inr e)))⟩, h4, fun e => hf (Or.inr e)⟩

/-- **C104, one cycle of the task.** Whatever kinds of limits are imposed: if the limits can be kept, the constraint of the
task allows exactly the accelerations that keep them, provided position limits and viability that are off were never on. -/
theorem C104_exact {nv na : Nat} {h : K} {p : LimitSettings K} {s s' : PosVelAcc K} {q v : Vec K} {c : Constraint K}
    {os : List (PosVelAcc.Op K)} (hna : na ≤ nv) (hh : 0 < h) (hi : LimInv nv na p s) (ht : TimeInv h s)
    (hst : Stale na os s) (hnever : NeverOff na p os) (hv : v.size = nv) (hfull : ∀ i, i < na → p.mask i = 1)
    (hkeep : ∀ j, j < na → p.Keepable h j (q (q.size - na + j)) (v (nv - na + j)))
    (hc : s.compute q v = .ok s' c) (a : Nat → K) :
    Sat c a ↔ ∀ j, j < na → p.Keeps h j (q (q.size - na + j)) (v (nv - na + j)) (a (nv - na + j)) := by
  rw [full_sat hna hi hfull hv hc a]
  refine forall₂_congr fun j hj => ?_
  have hk := hkeep j hj
  have hall := fun a => allows_iff hh hi ht hst hnever hv hc (j := j) a hk.inside hk.brakes
  obtain ⟨b, hb⟩ := hk.possible
  rw [C31_intersection ⟨b, (hall b).2 hb⟩, hall]

/-- **C104, after any calls.** The same after any calls made of a new task. -/
theorem C104_task {name : String} {nv na : Nat} {dt : K} {s0 s s' : PosVelAcc K} {os : List (PosVelAcc.Op K)}
    {q v : Vec K} {c : Constraint K} (hna : na ≤ nv) (h0 : PosVelAcc.new name nv na dt = some s0)
    (hr : runOps PosVelAcc.step s0 os = some s) (hg : ∀ o ∈ os, GoodMask na o) (ht : ∀ o ∈ os, KeepsTimeStep o)
    (hv : v.size = nv) (hc : s.compute q v = .ok s' c) :
    let p := (LimitSettings.fresh (K := K) na).afterAll na os
    NeverOff na p os → (∀ i, i < na → p.mask i = 1) →
    (∀ j, j < na → p.Keepable (2 * dt) j (q (q.size - na + j)) (v (nv - na + j))) →
    ∀ a : Nat → K,
      Sat c a ↔ ∀ j, j < na → p.Keeps (2 * dt) j (q (q.size - na + j)) (v (nv - na + j)) (a (nv - na + j)) := by
  intro p hnever hfull hkeep a
  obtain ⟨hi0, ht0, hdt⟩ := limInv_new hna h0
  exact C104_exact hna (by linarith) (limInv_run hna hi0 hg hr) (timeInv_run ht0 ht hr) (C104_never hna h0 hr) hnever hv
    hfull hkeep hc a

omit [FloorRing K] in
/-- **C104, all kinds.** With all kinds of limits imposed and the joint in a viable state, to keep the limits is to be safe
during the horizon. -/
theorem C104_all {na : Nat} {h : K} {p : LimitSettings K} {j : Nat} {q dq : K} (hh : 0 < h) (hp : p.Complete na)
    (hm : 0 < p.ddqMax j) (hv : ViableState (p.qMin j) (p.qMax j) (p.dqMax j) (p.ddqMax j) q dq) (a : K) :
    p.Keeps h j q dq a ↔ SafeFor h (p.qMin j) (p.qMax j) (p.dqMax j) (p.ddqMax j) q dq a := by
  rw [← C94_four hh hm hv]
  obtain ⟨-, e1, e2, e3, e4⟩ := hp
  have hq := admits_of_viable hv hm
  constructor
  · rintro ⟨h1, h2, h3, h4, -⟩
    obtain ⟨h3, h3'⟩ := h3 e3
    have h2 := abs_le.1 (h2 e2)
    unfold velAt at h2
    refine ⟨C29_needed hh hq (h1 e1), ⟨fromVia_needed_lower (qMax := p.qMax j) hh hm h3',
      fromVia_needed (qMin := p.qMin j) hh hm h3⟩, ⟨?_, ?_⟩, abs_le.1 (h4 e4)⟩
    · show (-p.dqMax j - dq) / h ≤ a
      rw [div_le_iff₀ hh]; linarith [h2.1]
    · show a ≤ (p.dqMax j - dq) / h
      rw [le_div_iff₀ hh]; linarith [h2.2]
  · rintro ⟨h1, h2, h3, h4⟩
    have h3a : (-p.dqMax j - dq) / h ≤ a := h3.1
    have h3b : a ≤ (p.dqMax j - dq) / h := h3.2
    rw [div_le_iff₀ hh] at h3a
    rw [le_div_iff₀ hh] at h3b
    refine ⟨fun _ => C29_position hh hq h1.1 h1.2, fun _ => abs_le.2 ?_,
      fun _ => ⟨C30_viability_upper (qMin := p.qMin j) hh hm.le h2.2,
        C30_viability_lower (qMax := p.qMax j) hh hm.le h2.1⟩, fun _ => abs_le.2 h4,
      fun hf => ?_⟩
    · unfold velAt; constructor <;> linarith
    · simp [e1, e2, e3, e4] at hf

/-- **C104, viable states.** Of a viable state with enough room the limits can be kept. -/
theorem C104_viable {na : Nat} {h : K} {p : LimitSettings K} {j : Nat} {q dq : K} (hh : 0 < h) (hp : p.Complete na)
    (hr : Roomy h (p.qMin j) (p.qMax j) (p.dqMax j) (p.ddqMax j))
    (hv : ViableState (p.qMin j) (p.qMax j) (p.dqMax j) (p.ddqMax j) q dq) : p.Keepable h j q dq := by
  obtain ⟨a, ha⟩ := C78_compatible hh hr hv
  exact ⟨fun _ => admits_of_viable hv hr.1, fun _ => hr.1, a, (C104_all hh hp hr.1 hv a).2 ((C94_four hh hr.1 hv).1 ha)⟩

/-- **C104, in a program.** -/
theorem C104_asks {E : Program.Env K} {W : World} {S : Setup K} {ops : List (Program.Op K)} {s0 s : Program.State K}
    (h : GoodProgram E W S ops s0) {w : Snapshot K} {t : K} (hw : SnapshotOk E.robot.nv w)
    (hc : Program.compute E w t s0 = .ok s ()) {fam : Family} {tid pr : Nat} {k dt : K}
    (hin : .task fam tid pr k ∈ (S.registry E W ops t).items) (hd : S.decl tid = .posVelAcc dt) :
    let p := limitsOf E.robot.na tid ops
    NeverOff E.robot.na p ((taskCalls tid ops).filterMap posVelAcc?) → (∀ i, i < E.robot.na → p.mask i = 1) →
    (∀ j, j < E.robot.na → p.Keepable (2 * dt) j (w.q (w.q.size - E.robot.na + j)) (w.v (E.robot.nv - E.robot.na + j))) →
    ∀ x calls hist y, (S.decl tid).Asks E x calls hist (s.task tid) y ↔
      ∀ j, j < E.robot.na → p.Keeps (2 * dt) j (w.q (w.q.size - E.robot.na + j)) (w.v (E.robot.nv - E.robot.na + j))
        (y (E.robot.nv - E.robot.na + j)) := by
  intro p hnever hfull hkeep x calls hist y
  obtain ⟨hdt, hna, sp, s', c, hi, hti, e1, e2, e3, hst⟩ := limits_of_cycle h hw hc hin hd
  rw [hd]
  show Sat (s.task tid).con y ↔ _
  rw [e3]
  exact C104_exact hna (by linarith) hi hti hst hnever hw.v hfull hkeep e1 y

/-! ## In a loop -/

/-- What a limits task of priority 0 promises in a cycle. -/
theorem kept_of_feasible {E : Program.Env K} {W : World} {S : Setup K} {ops : List (Program.Op K)} {s0 s : Program.State K}
    (h : GoodProgram E W S ops s0) {w : Snapshot K} {t : K} (hw : SnapshotOk E.robot.nv w)
    (hc : Program.compute E w t s0 = .ok s ()) {tid : Nat} {k dt : K}
    (hin : .task .motion tid 0 k ∈ (S.registry E W ops t).items) (hd : S.decl tid = .posVelAcc dt)
    {l0 l1 : Level K} (hpr : problem s.form = [l0, l1]) {x dv : Vec K} (hx : x.size = nVar s.form) (hfe : Feasible l0 x)
    (hdv : (getAccelerations s.form x).val? = some dv) {p : LimitSettings K} (hpt : limitsOf E.robot.na tid ops = p)
    (hnever : NeverOff E.robot.na p ((taskCalls tid ops).filterMap posVelAcc?)) (hfull : ∀ i, i < E.robot.na → p.mask i = 1)
    {j : Nat} (hj : j < E.robot.na)
    (hkeep : p.Keepable (2 * dt) j (w.q (w.q.size - E.robot.na + j)) (w.v (E.robot.nv - E.robot.na + j))) :
    let q := w.q (w.q.size - E.robot.na + j)
    let dq := w.v (E.robot.nv - E.robot.na + j)
    let a := dv (E.robot.nv - E.robot.na + j)
    (p.impPos = true → StaysInside (p.qMin j) (p.qMax j) (2 * dt) q dq a) ∧
    (p.impVel = true → |velAt dq a (2 * dt)| ≤ p.dqMax j) ∧
    (p.impVia = true → StoppableAbove (p.qMax j) (p.ddqMax j) (posAt q dq a (2 * dt)) (velAt dq a (2 * dt)) ∧
      StoppableBelow (p.qMin j) (p.ddqMax j) (posAt q dq a (2 * dt)) (velAt dq a (2 * dt))) ∧
    (p.impAcc = true → |a| ≤ p.ddqMax j) := by
  intro q dq a
  obtain ⟨hdt, hna, sp, s', c, hi, hti, e1, e2, e3, hst⟩ := limits_of_cycle h hw hc hin hd
  have hh : 0 < 2 * dt := by linarith
  obtain ⟨dv', e, hdem⟩ := (C87_partial h hw hc hpr hx hfe).motion tid k hin
  rw [hdv] at e
  cases e
  rw [hd] at hdem
  rw [hpt] at hi
  obtain ⟨b, hb⟩ := hkeep.possible
  have hdem' := hdem (by rw [← hpt] at hfull; exact hfull) j hj (by
    intro s'' hs''
    rw [e2] at hs''
    cases hs''
    exact ⟨b, (allows_iff hh hi hti hst hnever hw.v e1 b hkeep.inside hkeep.brakes).2 hb⟩)
  have hpt' : (LimitSettings.fresh (K := K) E.robot.na).afterAll E.robot.na ((taskCalls tid ops).filterMap posVelAcc?) = p := hpt
  rw [hpt'] at hdem'
  obtain ⟨g1, g2, g3, g4⟩ := hdem'
  exact ⟨fun e => g1 e (hkeep.inside e), fun e => abs_le.2 (g2 e), fun e => g3 e (hkeep.brakes e).le, fun e => abs_le.2 (g4 e)⟩

/-- **C104, in a loop (partial).** A control loop holds a task of combined joint limits at priority 0, no joint being masked
out; position limits and viability that are off were never on.  In every cycle in which the limits of a joint can be kept
they are kept for `2 dt`.  Missing: as in C87. -/
theorem C104_loop_partial {L : Loop K} {E : Program.Env K} {W : World} {S : Setup K} {dv : ℕ → Vec K}
    (hr : L.Runs E W S dv) {tid : Nat} {dt : K} (ht : L.Holds E W S tid) (hd : S.decl tid = .posVelAcc dt) (n : ℕ) :
    let p := limitsOf E.robot.na tid (L.text n)
    NeverOff E.robot.na p ((taskCalls tid (L.text n)).filterMap posVelAcc?) → (∀ i, i < E.robot.na → p.mask i = 1) →
    ∀ j, j < E.robot.na →
    let q := (L.robot n).q ((L.robot n).q.size - E.robot.na + j)
    let dq := (L.robot n).v (E.robot.nv - E.robot.na + j)
    let a := dv n (E.robot.nv - E.robot.na + j)
    p.Keepable (2 * dt) j q dq →
    (p.impPos = true → StaysInside (p.qMin j) (p.qMax j) (2 * dt) q dq a) ∧
    (p.impVel = true → |velAt dq a (2 * dt)| ≤ p.dqMax j) ∧
    (p.impVia = true → StoppableAbove (p.qMax j) (p.ddqMax j) (posAt q dq a (2 * dt)) (velAt dq a (2 * dt)) ∧
      StoppableBelow (p.qMin j) (p.ddqMax j) (posAt q dq a (2 * dt)) (velAt dq a (2 * dt))) ∧
    (p.impAcc = true → |a| ≤ p.ddqMax j) := by
  intro p hnever hfull j hj q dq a hkeep
  obtain ⟨s0, s, l0, l1, x, hg, hw, hc, hpr, hx, hfe, hdv⟩ := hr n
  obtain ⟨k, hk⟩ := ht n
  exact kept_of_feasible hg hw hc hk hd hpr hx hfe hdv rfl hnever hfull hj hkeep

/-- Position limits and viability that no call switches on are off. -/
theorem off_of_never {na tid : Nat} {ops : List (Program.Op K)}
    (hnever : ∀ o ∈ (taskCalls tid ops).filterMap posVelAcc?, turnsPos na o = false ∧ turnsVia na o = false) :
    (limitsOf na tid ops).impPos = false ∧ (limitsOf na tid ops).impVia = false := by
  have key : ∀ (os : List (PosVelAcc.Op K)) (p : LimitSettings K),
      (∀ o ∈ os, turnsPos na o = false ∧ turnsVia na o = false) → p.impPos = false ∧ p.impVia = false →
      (p.afterAll na os).impPos = false ∧ (p.afterAll na os).impVia = false := by
    intro os
    induction os with
    | nil => intro p _ hp; exact hp
    | cons o os ih =>
      intro p ho hp
      refine ih _ (fun o' h' => ho o' (List.mem_cons_of_mem _ h')) ?_
      have ho := ho o List.mem_cons_self
      cases o with
      | setTimeStep dt => exact hp
      | setPositionBounds l u =>
        simp only [turnsPos, decide_eq_false_iff_not] at ho
        simp only [LimitSettings.after]
        rw [if_neg ho.1]; exact hp
      | setVelocityBounds u => simp only [LimitSettings.after]; split <;> exact hp
      | setAccelerationBounds u => simp only [LimitSettings.after]; split <;> exact hp
      | setImposeBounds a b c d => exact ho
      | setMask m => simp only [LimitSettings.after]; split <;> exact hp
      | compute q v => exact hp
  exact key _ _ hnever ⟨rfl, rfl⟩

/-- **C104, speed (partial).** A control loop holds a task of combined joint limits at priority 0 whose position limits were
never set; its velocity limits, and possibly acceleration limits, which may change from cycle to cycle as long as the
velocity limits do not fall, are imposed.  Between the cycles, which are at most `2 dt` apart, the joint moves with the
acceleration that the solutions prescribe.  Then, from a speed within the limit, the speed is within the limit at every
instant of the unlimited run, and the acceleration is within its limit if there is one.  Missing: as in C87; the
accelerations are realised exactly. -/
theorem C104_speed_partial {L : Loop K} {E : Program.Env K} {W : World} {S : Setup K} {dv : ℕ → Vec K}
    (hr : L.Runs E W S dv) {tid : Nat} {dt : K} (ht : L.Holds E W S tid) (hd : S.decl tid = .posVelAcc dt)
    (hnever : ∀ n, ∀ o ∈ (taskCalls tid (L.text n)).filterMap posVelAcc?,
      turnsPos E.robot.na o = false ∧ turnsVia E.robot.na o = false)
    (hfull : ∀ n, ∀ i, i < E.robot.na → (limitsOf E.robot.na tid (L.text n)).mask i = 1)
    (himp : ∀ n, (limitsOf E.robot.na tid (L.text n)).impVel = true) {j : Nat} (hj : j < E.robot.na)
    (hacc : ∀ n, 0 ≤ (limitsOf E.robot.na tid (L.text n)).ddqMax j)
    (hgrow : ∀ n, (limitsOf E.robot.na tid (L.text n)).dqMax j ≤ (limitsOf E.robot.na tid (L.text (n + 1))).dqMax j)
    (hin : |(L.robot 0).v (E.robot.nv - E.robot.na + j)| ≤ (limitsOf E.robot.na tid (L.text 0)).dqMax j)
    {d : ℕ → K} (hdt : ∀ n, 0 ≤ d n ∧ d n ≤ 2 * dt)
    (hmove : ∀ n, (L.robot (n + 1)).v (E.robot.nv - E.robot.na + j) =
      velAt ((L.robot n).v (E.robot.nv - E.robot.na + j)) (dv n (E.robot.nv - E.robot.na + j)) (d n)) (n : ℕ) :
    let p := limitsOf E.robot.na tid (L.text n)
    let v := (L.robot n).v (E.robot.nv - E.robot.na + j)
    let a := dv n (E.robot.nv - E.robot.na + j)
    (p.impAcc = true → |a| ≤ p.ddqMax j) ∧ ∀ t, 0 ≤ t → t ≤ d n → |velAt v a t| ≤ p.dqMax j := by
  have hpos : 0 < dt := by
    obtain ⟨s0, s, l0, l1, x, hg, hw, hc, hpr, hx, hfe, hdv⟩ := hr 0
    obtain ⟨k, hk⟩ := ht 0
    exact (limits_of_cycle hg hw hc hk hd).1
  have hoff := fun n => off_of_never (hnever n)
  have hz : (0 : K) ≤ 10000000000 := by norm_num
  have dem : ∀ n, |(L.robot n).v (E.robot.nv - E.robot.na + j)| ≤ (limitsOf E.robot.na tid (L.text n)).dqMax j →
      |velAt ((L.robot n).v (E.robot.nv - E.robot.na + j)) (dv n (E.robot.nv - E.robot.na + j)) (2 * dt)| ≤
        (limitsOf E.robot.na tid (L.text n)).dqMax j ∧
      ((limitsOf E.robot.na tid (L.text n)).impAcc = true → |dv n (E.robot.nv - E.robot.na + j)| ≤
        (limitsOf E.robot.na tid (L.text n)).ddqMax j) := by
    intro n hv
    obtain ⟨o1, o2⟩ := hoff n
    have := C104_loop_partial hr ht hd n ⟨.inr fun o ho => (hnever n o ho).1, .inr fun o ho => (hnever n o ho).2⟩
      (hfull n) j hj ⟨fun e => absurd (e.symm.trans o1) (by simp), fun e => absurd (e.symm.trans o2) (by simp), 0,
        fun e => absurd (e.symm.trans o1) (by simp), fun _ => by simpa [velAt] using hv,
        fun e => absurd (e.symm.trans o2) (by simp), fun _ => by simpa using hacc n, fun _ => by simpa using hz⟩
    exact ⟨this.2.1 (himp n), this.2.2.2⟩
  have during : ∀ n t, |(L.robot n).v (E.robot.nv - E.robot.na + j)| ≤ (limitsOf E.robot.na tid (L.text n)).dqMax j →
      0 ≤ t → t ≤ 2 * dt →
      |velAt ((L.robot n).v (E.robot.nv - E.robot.na + j)) (dv n (E.robot.nv - E.robot.na + j)) t| ≤
        (limitsOf E.robot.na tid (L.text n)).dqMax j := by
    intro n t hv h3 h4
    have hg := abs_le.1 (dem n hv).1
    rw [abs_le] at hv ⊢
    generalize (L.robot n).v (E.robot.nv - E.robot.na + j) = v at *
    generalize dv n (E.robot.nv - E.robot.na + j) = a at *
    generalize (limitsOf E.robot.na tid (L.text n)).dqMax j = V at *
    have hh : 0 < 2 * dt := by linarith
    generalize 2 * dt = h at *
    unfold velAt at *
    constructor
    · have e : h * (v + a * t + V) = (h - t) * (v + V) + t * (v + a * h + V) := by ring
      have : 0 ≤ h * (v + a * t + V) := by
        rw [e]
        exact add_nonneg (mul_nonneg (by linarith) (by linarith)) (mul_nonneg h3 (by linarith))
      linarith [nonneg_of_mul_nonneg_right this hh]
    · have e : h * (V - (v + a * t)) = (h - t) * (V - v) + t * (V - (v + a * h)) := by ring
      have : 0 ≤ h * (V - (v + a * t)) := by
        rw [e]
        exact add_nonneg (mul_nonneg (by linarith) (by linarith)) (mul_nonneg h3 (by linarith))
      linarith [nonneg_of_mul_nonneg_right this hh]
  have key : ∀ n, |(L.robot n).v (E.robot.nv - E.robot.na + j)| ≤ (limitsOf E.robot.na tid (L.text n)).dqMax j := by
    intro n
    induction n with
    | zero => exact hin
    | succ n ih => rw [hmove n]; exact (during n (d n) ih (hdt n).1 (hdt n).2).trans (hgrow n)
  exact ⟨(dem n (key n)).2, fun t h0 h1 => during n t (key n) h0 (h1.trans (hdt n).2)⟩

end Tsid.Props
