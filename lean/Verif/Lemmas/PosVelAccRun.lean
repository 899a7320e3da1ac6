import Verif.Lemmas.PosVelAcc
import Verif.Spec.PosVelAcc

/-!
# Histories of `TaskJointPosVelAccBounds`
-/

set_option linter.unusedSectionVars false

namespace Tsid

open Spec Finset

variable {K : Type} [Field K] [LinearOrder K] [IsStrictOrderedRing K] [FloorRing K] [HasSqrt K]

namespace PosVelAcc

/-- The lower bounds of the four kinds for joint `j`, read from the state and the current velocity. -/
def lower (s : PosVelAcc K) (dq : K) (j : Nat) : Four K :=
  ⟨s.lbPos j, s.lbVia j, if s.impVel then (-s.dqMax j - dq) / s.dt else -big, if s.impAcc then -s.ddqMax j else -big⟩

/-- The upper bounds of the four kinds for joint `j`. -/
def upper (s : PosVelAcc K) (dq : K) (j : Nat) : Four K :=
  ⟨s.ubPos j, s.ubVia j, if s.impVel then (s.dqMax j - dq) / s.dt else big, if s.impAcc then s.ddqMax j else big⟩

theorem accLimits_bounds (s : PosVelAcc K) (qa dqa : Vec K) (j : Nat) :
    let s' := s.accLimits qa dqa
    (s'.ddqLB j, s'.ddqUB j) = combine (s'.lower (dqa j) j) (s'.upper (dqa j) j) := by
  rfl

/-- What holds of the task between two calls. -/
structure LimInv (nv na : Nat) (p : LimitSettings K) (s : PosVelAcc K) : Prop where
  nvEq : s.nv = nv
  naEq : s.na = na
  mask : s.m.mask = p.mask
  adm : ValidMask na p.mask
  axes : s.m.axes = (sel p.mask (List.range na)).map some
  kind : s.m.con.kind = .inequality
  mat : s.m.con.mat =
    selMat (sel p.mask (List.range na)).length nv (nv - na) (fun _ => 1) (sel p.mask (List.range na))
  qMin : s.qMin = p.qMin
  qMax : s.qMax = p.qMax
  dqMax : s.dqMax = p.dqMax
  ddqMax : s.ddqMax = p.ddqMax
  impPos : s.impPos = p.impPos
  impVel : s.impVel = p.impVel
  impVia : s.impVia = p.impVia
  impAcc : s.impAcc = p.impAcc

/-- The factors derived from the time step fit the horizon `h`. -/
structure TimeInv (h : K) (s : PosVelAcc K) : Prop where
  dt : s.dt = h
  twoDtSq : s.twoDtSq = 2 / (h * h)
  dtSquare : s.dtSquare = h * h
  twoA : s.twoA = 2 * (h * h)

theorem admissible_ones (na : Nat) : ValidMask na (⟨na, fun _ => 1⟩ : Vec K) := ⟨rfl, fun _ _ => Or.inr rfl⟩

theorem new_eq {name : String} {nv na : Nat} {dt : K} {s : PosVelAcc K} (hna : na ≤ nv)
    (h : new name nv na dt = some s) : 0 < dt ∧ s =
      { pre name nv na dt with
        m := ⟨⟨na, fun _ => 1⟩, (sel (⟨na, fun _ => 1⟩ : Vec K) (List.range na)).map some,
          { maskCon (pre name nv na dt).m.con (sel (⟨na, fun _ => 1⟩ : Vec K) (List.range na)).length
              (selMat (sel (⟨na, fun _ => 1⟩ : Vec K) (List.range na)).length nv (nv - na) (fun _ => 1)
                (sel (⟨na, fun _ => 1⟩ : Vec K) (List.range na))) with
            lb := ⟨na, fun _ => -big⟩, ub := ⟨na, fun _ => big⟩ }⟩ } := by
  unfold new at h
  split at h
  · next hdt =>
    have hm := setMask_ok (s := (pre name nv na dt).m) (w := fun _ => 1) (cols := nv) (off := nv - na)
      (admissible_ones na) (by omega) (by simp [pre, Constraint.mkIneq])
    unfold setMask at h
    change (match (match (pre name nv na dt).m.setMask na nv (nv - na) (fun _ => 1) ⟨na, fun _ => 1⟩ with
      | .ok m' _ => Res.ok { pre name nv na dt with m := m' } ()
      | .throw m' => .throw { pre name nv na dt with m := m' }
      | .abort => .abort
      | .ub => .ub) with | .ok s _ => _ | _ => none) = some s at h
    rw [hm] at h
    simp only [Option.some.injEq] at h
    exact ⟨hdt, h.symm⟩
  · cases h

theorem limInv_new {name : String} {nv na : Nat} {dt : K} {s : PosVelAcc K} (hna : na ≤ nv)
    (h : new name nv na dt = some s) : LimInv nv na (LimitSettings.fresh na) s ∧ TimeInv (2 * dt) s ∧ 0 < dt := by
  obtain ⟨hdt, rfl⟩ := new_eq hna h
  exact ⟨⟨rfl, rfl, rfl, admissible_ones na, rfl, rfl, rfl, rfl, rfl, rfl, rfl, rfl, rfl, rfl, rfl⟩,
    ⟨rfl, rfl, rfl, rfl⟩, hdt⟩

theorem compute_ok {s : PosVelAcc K} {q v : Vec K} (h1 : s.na ≤ q.size) (h2 : s.na ≤ v.size) :
    s.compute q v = .ok
      { s.accLimits (q.tail s.na) (v.tail s.na) with
        m := { s.m with con := { s.m.con with
          ub := (s.accLimits (q.tail s.na) (v.tail s.na)).ddqUB
          lb := (s.accLimits (q.tail s.na) (v.tail s.na)).ddqLB } } }
      { s.m.con with
        ub := (s.accLimits (q.tail s.na) (v.tail s.na)).ddqUB
        lb := (s.accLimits (q.tail s.na) (v.tail s.na)).ddqLB } := by
  unfold compute
  rw [if_pos ⟨h1, h2⟩]

theorem step_compute {s s' : PosVelAcc K} {q v : Vec K} (h : (s.step (.compute q v)).state? = some s') :
    s.na ≤ q.size ∧ s.na ≤ v.size ∧ ∃ c, s.compute q v = .ok s' c := by
  by_cases hs : s.na ≤ q.size ∧ s.na ≤ v.size
  · simp only [step, compute_ok hs.1 hs.2] at h
    cases h
    exact ⟨hs.1, hs.2, _, compute_ok hs.1 hs.2⟩
  · have : s.compute q v = .ub := by unfold compute; rw [if_neg hs]
    simp only [step, this] at h
    cases h

theorem limInv_step {nv na : Nat} (hna : na ≤ nv) {p : LimitSettings K} {s s' : PosVelAcc K} {o : Op K}
    (hi : LimInv nv na p s) (hg : GoodMask na o) (h : (s.step o).state? = some s') :
    LimInv nv na (p.after na o) s' := by
  obtain ⟨nvEq, naEq, mask, adm, axes, kind, mat, qMin, qMax, dqMax, ddqMax, impPos, impVel, impVia, impAcc⟩ := hi
  cases o with
  | setTimeStep dt =>
    simp only [step, setTimeStep, LimitSettings.after] at h ⊢
    split at h <;> cases h <;>
      exact ⟨nvEq, naEq, mask, adm, axes, kind, mat, qMin, qMax, dqMax, ddqMax, impPos, impVel, impVia, impAcc⟩
  | setPositionBounds l u =>
    simp only [step, setPositionBounds, LimitSettings.after] at h ⊢
    by_cases h1 : l.size = na <;> by_cases h2 : u.size = na <;>
      simp only [naEq, h1, h2, if_true, if_false, and_true, and_false, and_self, false_and] at h ⊢ <;> cases h <;>
      first
        | exact ⟨nvEq, naEq, mask, adm, axes, kind, mat, qMin, qMax, dqMax, ddqMax, impPos, impVel, impVia, impAcc⟩
        | exact ⟨nvEq, rfl, mask, adm, axes, kind, mat, rfl, rfl, dqMax, ddqMax, rfl, impVel, rfl, impAcc⟩
  | setVelocityBounds u =>
    simp only [step, setVelocityBounds, LimitSettings.after] at h ⊢
    by_cases h1 : u.size = na <;> simp only [naEq, h1, if_true, if_false] at h ⊢ <;> cases h <;>
      first
        | exact ⟨nvEq, naEq, mask, adm, axes, kind, mat, qMin, qMax, dqMax, ddqMax, impPos, impVel, impVia, impAcc⟩
        | exact ⟨nvEq, rfl, mask, adm, axes, kind, mat, qMin, qMax, rfl, ddqMax, impPos, rfl, impVia, impAcc⟩
  | setAccelerationBounds u =>
    simp only [step, setAccelerationBounds, LimitSettings.after] at h ⊢
    by_cases h1 : u.size = na <;> simp only [naEq, h1, if_true, if_false] at h ⊢ <;> cases h <;>
      first
        | exact ⟨nvEq, naEq, mask, adm, axes, kind, mat, qMin, qMax, dqMax, ddqMax, impPos, impVel, impVia, impAcc⟩
        | exact ⟨nvEq, rfl, mask, adm, axes, kind, mat, qMin, qMax, dqMax, rfl, impPos, impVel, impVia, rfl⟩
  | setImposeBounds a b c d =>
    cases h
    exact ⟨nvEq, naEq, mask, adm, axes, kind, mat, qMin, qMax, dqMax, ddqMax, rfl, rfl, rfl, rfl⟩
  | setMask m =>
    simp only [step, setMask, LimitSettings.after, nvEq, naEq] at h ⊢
    by_cases h1 : m.size = na
    · have hm := setMask_ok (s := s.m) (w := fun _ => 1) (cols := nv) (off := nv - na) (hg h1) (by omega)
        (by rw [kind]; simp)
      rw [hm] at h
      cases h
      simp only [h1, if_true]
      refine ⟨rfl, rfl, rfl, hg h1, rfl, ?_, ?_, qMin, qMax, dqMax, ddqMax, impPos, impVel, impVia, impAcc⟩
      · simp [maskCon, kind]
      · simp [maskCon, kind]
    · rw [setMask_size h1] at h
      cases h
      simp only [h1, if_false]
      exact ⟨rfl, rfl, mask, adm, axes, kind, mat, qMin, qMax, dqMax, ddqMax, impPos, impVel, impVia, impAcc⟩
  | compute q v =>
    obtain ⟨h1, h2, c, hc⟩ := step_compute h
    rw [compute_ok h1 h2] at hc
    cases hc
    exact ⟨nvEq, naEq, mask, adm, axes, kind, mat, qMin, qMax, dqMax, ddqMax, impPos, impVel, impVia, impAcc⟩

theorem timeInv_step {t : K} {s s' : PosVelAcc K} {o : Op K}
    (hi : TimeInv t s) (hg : KeepsTimeStep o) (h : (s.step o).state? = some s') : TimeInv t s' := by
  cases o with
  | setTimeStep dt =>
    simp only [step, setTimeStep] at h
    rw [if_neg hg] at h
    cases h; exact hi
  | setPositionBounds l u =>
    simp only [step, setPositionBounds] at h
    split at h
    · split at h <;> cases h <;> exact ⟨hi.dt, hi.twoDtSq, hi.dtSquare, hi.twoA⟩
    · cases h; exact hi
  | setVelocityBounds u =>
    simp only [step, setVelocityBounds] at h
    split at h <;> cases h <;> exact ⟨hi.dt, hi.twoDtSq, hi.dtSquare, hi.twoA⟩
  | setAccelerationBounds u =>
    simp only [step, setAccelerationBounds] at h
    split at h <;> cases h <;> exact ⟨hi.dt, hi.twoDtSq, hi.dtSquare, hi.twoA⟩
  | setImposeBounds a b c d => cases h; exact ⟨hi.dt, hi.twoDtSq, hi.dtSquare, hi.twoA⟩
  | setMask m =>
    simp only [step, setMask] at h
    cases hm : s.m.setMask s.na s.nv (s.nv - s.na) (fun _ => 1) m with
    | ok m' _ => rw [hm] at h; cases h; exact ⟨hi.dt, hi.twoDtSq, hi.dtSquare, hi.twoA⟩
    | throw m' => rw [hm] at h; cases h; exact ⟨hi.dt, hi.twoDtSq, hi.dtSquare, hi.twoA⟩
    | abort => rw [hm] at h; cases h
    | ub => rw [hm] at h; cases h
  | compute q v =>
    obtain ⟨h1, h2, c, hc⟩ := step_compute h
    rw [compute_ok h1 h2] at hc
    cases hc
    exact ⟨hi.dt, hi.twoDtSq, hi.dtSquare, hi.twoA⟩

theorem limInv_run {nv na : Nat} (hna : na ≤ nv) : ∀ {os : List (Op K)} {p : LimitSettings K} {s s' : PosVelAcc K},
    LimInv nv na p s → (∀ o ∈ os, GoodMask na o) → runOps step s os = some s' →
      LimInv nv na (p.afterAll na os) s' := by
  intro os
  induction os with
  | nil => intro p s s' hi _ h; cases h; exact hi
  | cons o os ih =>
    intro p s s' hi hg h
    rw [runOps] at h
    cases hs : (s.step o).state? with
    | none => rw [hs] at h; cases h
    | some s1 =>
      rw [hs] at h
      exact ih (limInv_step hna hi (hg o List.mem_cons_self) hs) (fun o' ho => hg o' (List.mem_cons_of_mem _ ho)) h

theorem timeInv_run {t : K} : ∀ {os : List (Op K)} {s s' : PosVelAcc K},
    TimeInv t s → (∀ o ∈ os, KeepsTimeStep o) → runOps step s os = some s' → TimeInv t s' := by
  intro os
  induction os with
  | nil => intro s s' hi _ h; cases h; exact hi
  | cons o os ih =>
    intro s s' hi hg h
    rw [runOps] at h
    cases hs : (s.step o).state? with
    | none => rw [hs] at h; cases h
    | some s1 =>
      rw [hs] at h
      exact ih (timeInv_step hi (hg o List.mem_cons_self) hs) (fun o' ho => hg o' (List.mem_cons_of_mem _ ho)) h

/-- Every mask selects joint `i` iff its entry is one; a full mask keeps all joints in order. -/
theorem sel_full {na : Nat} {m : Vec K} (h : ∀ i, i < na → m i = 1) : sel m (List.range na) = List.range na := by
  unfold sel
  rw [List.filter_eq_self]
  intro i hi
  simpa using h i (List.mem_range.1 hi)

/-- The constraint computed with an accepted mask: joint `i` is compared with the bounds number `countSelected i`. -/
theorem sat_compute {nv na : Nat} (hna : na ≤ nv) {p : LimitSettings K} {s : PosVelAcc K} (hi : LimInv nv na p s)
    {lb ub : Vec K} (a : Nat → K) :
    Sat { s.m.con with ub := ub, lb := lb } a ↔
      ∀ i, Selects p.mask i →
        lb (countSelected p.mask i) ≤ a (nv - na + i) ∧ a (nv - na + i) ≤ ub (countSelected p.mask i) := by
  have hrow : ∀ k i, (sel p.mask (List.range na))[k]? = some i →
      row (selMat (sel p.mask (List.range na)).length nv (nv - na) (fun _ => (1 : K)) (sel p.mask (List.range na))) a k =
        a (nv - na + i) := by
    intro k i hk
    rw [row_selMat (na := na) (fun i hi => (mem_sel.1 hi).1) (by omega) a hk, one_mul]
  simp only [Sat, hi.kind, hi.mat]
  constructor
  · intro h i hs
    have hlt : i < na := by rw [← hi.adm.1]; exact hs.1
    have hk := getElem?_sel hlt hs.2
    have := h (countSelected p.mask i) (List.getElem?_eq_some_iff.1 hk).1
    rw [hrow _ _ hk] at this
    exact this
  · intro h k hk
    obtain ⟨i, hk'⟩ : ∃ i, (sel p.mask (List.range na))[k]? = some i := ⟨_, List.getElem?_eq_getElem hk⟩
    have hc := row_eq_count hk'
    have ho := of_row hk'
    have := h i ⟨by rw [hi.adm.1]; exact ho.1, ho.2⟩
    rw [hrow _ _ hk', hc]
    exact this

end PosVelAcc

end Tsid
