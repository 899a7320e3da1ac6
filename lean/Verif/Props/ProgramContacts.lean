import Verif.Lemmas.ProgramContacts
import Verif.Props.ProgramTasks

/-!
# Whole programs: what contacts and measured forces contribute in a cycle
-/

set_option linter.unusedSectionVars false

namespace Tsid.Props

open Spec Finset Program

variable {K : Type} [Field K] [LinearOrder K] [FloorRing K] [HasSqrt K]

/-! ## Kinds -/

theorem fill_kind {L : CartLaw K} : ∀ {is : List Nat} {idx : Nat} {s r : CartRows K}, s.fill L is idx = some r →
    r.con.kind = s.con.kind
  | [], idx, s, r, h => by simp only [CartRows.fill, Option.some.injEq] at h; rw [h]
  | i :: is, idx, s, r, h => by
    simp only [CartRows.fill] at h
    split at h
    · split at h
      · split at h
        · exact (fill_kind h).trans rfl
        · cases h
      · exact fill_kind h
    · cases h

theorem pair_kind {ndebug : Bool} {log3 : M3 K → V3 K} {os : List (PairMotion.Op K)} {s s' : TwoFrames K}
    (h : runOps (PairMotion.step ndebug log3) s os = some s') (hk : s.rows.con.kind = .equality) :
    s'.rows.con.kind = .equality := by
  refine runOps_inv (P := fun s : TwoFrames K => s.rows.con.kind = .equality) ?_ h hk
  intro s o s' hk hs
  cases o with
  | setKp g k =>
    simp only [PairMotion.step, TwoFrames.setKp] at hs
    by_cases h : k.size = 3
    · rw [if_pos h, if_pos (by rfl)] at hs; cases hs; exact hk
    · rw [if_neg h] at hs; split at hs <;> cases hs
  | setKd g k =>
    simp only [PairMotion.step, TwoFrames.setKd] at hs
    by_cases h : k.size = 3
    · rw [if_pos h, if_pos (by rfl)] at hs; cases hs; exact hk
    · rw [if_neg h] at hs; split at hs <;> cases hs
  | compute k1 k2 =>
    simp only [PairMotion.step, TwoFrames.step, TwoFrames.compute] at hs
    by_cases h : s.kp.size = 6 ∧ s.kd.size = 6
    · rw [if_pos h] at hs
      cases hf : s.rows.fill (s.law log3 k1 k2) (List.range 6) 0 with
      | none => simp only [hf] at hs; cases hs
      | some r => simp only [hf] at hs; cases hs; exact (fill_kind hf).trans hk
    · rw [if_neg h] at hs; cases hs

theorem pair_new_kind [IsStrictOrderedRing K] {g g' : Nat → K} {name : String} {nv : Nat} {s : TwoFrames K}
    (h : PairMotion.new g g' name nv = .ok s ()) : s.rows.con.kind = .equality := by
  unfold PairMotion.new at h
  obtain ⟨s1, e1, hi⟩ := TwoFrames.inv_new (K := K) (g := g) (name := name) (nv := nv)
  rw [e1] at h
  dsimp only at h
  unfold TwoFrames.setMask at h
  obtain ⟨r, h1, h2⟩ := CartRows.inv_setMask (g := g') (cols := s1.nv) (s := s1.rows) (m := positionMask)
    (n := 6) ⟨rfl, fun i hi => by simp only [positionMask]; split <;> simp⟩ hi.rows.kind
  rw [h1] at h
  cases h
  exact h2.kind

theorem se3_compute_kind {log3 : M3 K → V3 K} {s s' : SE3Task K} {k : FrameKin K} {c : Constraint K}
    (h : s.compute log3 k = .ok s' c) : c.kind = s.rows.con.kind := by
  unfold SE3Task.compute at h
  split at h
  · split at h
    · split at h
      · next hf => cases h; exact fill_kind hf
      · cases h
    · cases h
  · cases h
  · cases h

theorem pair_compute_kind {log3 : M3 K → V3 K} {s s' : TwoFrames K} {k1 k2 : FrameKin K} {c : Constraint K}
    (h : s.compute log3 k1 k2 = .ok s' c) : c.kind = s.rows.con.kind := by
  unfold TwoFrames.compute at h
  split at h
  · split at h
    · next hf => cases h; exact fill_kind hf
    · cases h
  · cases h

/-! ## Contacts -/

/-- The calls on the motion task of a point contact, cycles included. -/
def pointAll (fr : Nat) : ContactCall K → Option (PointMotion.Op K)
  | .point o => some o
  | .computeMotion w => some (.compute (w.frame fr))
  | _ => none

/-- The same for a surface contact. -/
def sixDAll (fr : Nat) : ContactCall K → Option (SE3Task.Op K)
  | .setKp k => some (.setKp k)
  | .setKd k => some (.setKd k)
  | .setReference M => some (.setReferencePose M)
  | .computeMotion w => some (.compute (w.frame fr))
  | _ => none

/-- The same for a contact between two frames. -/
def pairAll (f1 f2 : Nat) : ContactCall K → Option (PairMotion.Op K)
  | .pair o => some o
  | .computeMotion w => some (.compute (w.frame f1) (w.frame f2))
  | _ => none

theorem same_contact {calls hist : List (ContactCall K)}
    (h : ∀ (σ : Type) (F : σ → ContactCall K → σ), (∀ p c, isMotionCycle c = true → F p c = p) →
      ∀ p, hist.foldl F p = calls.foldl F p)
    {σ op : Type} {after : σ → op → σ} {afterAll : σ → List op → σ} (h0 : ∀ p, afterAll p [] = p)
    (h1 : ∀ p o os, afterAll p (o :: os) = afterAll (after p o) os) {g g' : ContactCall K → Option op}
    (hg : ∀ c, isMotionCycle c = false → g c = g' c) (hc : ∀ p c o, isMotionCycle c = true → g c = some o → after p o = p)
    (hc' : ∀ c, isMotionCycle c = true → g' c = none) (p : σ) :
    afterAll p (hist.filterMap g) = afterAll p (calls.filterMap g') := by
  rw [fold_filterMap h0 h1, fold_filterMap h0 h1]
  have e : (fun (p : σ) (c : ContactCall K) => match g c with | some o => after p o | none => p) =
      fun p c => match g' c with | some o => after p o | none => p := by
    funext p c
    cases hm : isMotionCycle c with
    | false => rw [hg c hm]
    | true =>
      rw [hc' c hm]
      cases hgc : g c with
      | none => rfl
      | some o => exact hc p c o hm hgc
  refine (congrArg (fun F => List.foldl F p hist) e).trans (h _ _ ?_ p)
  intro p c hm
  rw [hc' c hm]

variable [IsStrictOrderedRing K] [LawfulSqrt K]

theorem motionAcc_linear (nv : Nat) (jac : Nat → Motion K) (d : Motion K) (a : Nat → K) {i : Nat} (hi : i < 6) :
    (motionAcc nv jac d a).get i - (motionAcc nv jac d 0).get i = (motionAcc nv jac 0 a).get i := by
  have hz : (0 : Motion K).get i = 0 := by
    rcases i with _ | _ | _ | _ | _ | _ | i
    · rfl
    · rfl
    · rfl
    · rfl
    · rfl
    · rfl
    · omega
  rw [motionAcc_get _ _ _ _ hi, motionAcc_get _ _ _ _ hi, motionAcc_get _ _ _ _ hi, hz]
  simp

theorem rotated_linear (R : M3 K) (nv : Nat) (jac : Nat → Motion K) (d : Motion K) (a : Nat → K) {i : Nat} (hi : i < 6) :
    (rotate R (motionAcc nv jac d a)).get i - (rotate R (motionAcc nv jac d 0)).get i =
      (rotate R (motionAcc nv jac 0 a)).get i := by
  have hz : rotate R (0 : Motion K) = 0 := by
    show rotate R ⟨⟨0, 0, 0⟩, ⟨0, 0, 0⟩⟩ = ⟨⟨0, 0, 0⟩, ⟨0, 0, 0⟩⟩
    simp [rotate, M3.mulVec]
  rw [rotate_motionAcc, rotate_motionAcc, rotate_motionAcc, hz]
  exact motionAcc_linear _ _ _ _ hi

theorem frame_linear (p : FrameSettings K) (nv : Nat) (k : FrameKin K) (a : Nat → K) {i : Nat} (hi : i < 6) :
    p.achieved nv k a i - p.achieved nv k 0 i = p.achieved nv { k with drift := 0 } a i := by
  unfold FrameSettings.achieved
  cases p.loc with
  | true => exact motionAcc_linear _ _ _ _ hi
  | false => exact rotated_linear _ _ _ _ _ hi

theorem point_linear (p : PointSettings K) (nv : Nat) (k : FrameKin K) (a : Nat → K) {i : Nat} (hi : i < 3) :
    p.achieved nv k a i - p.achieved nv k 0 i = p.achieved nv { k with drift := 0 } a i := by
  unfold PointSettings.achieved
  cases p.loc with
  | true =>
    simp only [if_true, ← motion_get_lin hi]
    exact motionAcc_linear _ _ _ _ (by omega)
  | false =>
    have h := rotated_linear k.pose.rot nv k.jac k.drift a (i := i) (by omega)
    simp only [motion_get_lin hi, rotate] at h
    exact h

theorem relative_linear (nv : Nat) (k1 k2 : FrameKin K) (a : Nat → K) {i : Nat} (hi : i < 6) :
    relativeAcc nv k1 k2 a i - relativeAcc nv k1 k2 0 i =
      relativeAcc nv { k1 with drift := 0 } { k2 with drift := 0 } a i := by
  unfold relativeAcc
  rw [← rotated_linear k1.pose.rot nv k1.jac k1.drift a hi, ← rotated_linear k2.pose.rot nv k2.jac k2.drift a hi]
  ring

/-- A row of a matrix, from the residuals. -/
theorem row_of_residual {c : Constraint K} {f : (Nat → K) → K} {l : K} {i : Nat}
    (h : ∀ a : Nat → K, Spec.residual c a i = f a - l) (a : Nat → K) : row c.mat a i = f a - f 0 := by
  have h1 := h a
  have h2 := h 0
  have h0 : row c.mat (0 : Nat → K) i = 0 := by simp [row]
  unfold Spec.residual at h1 h2
  rw [h0] at h2
  linear_combination h1 - h2

/-- After a cycle, whoever satisfies the motion constraint of a contact satisfies what the text of the program demands. -/
theorem contact_demands {E : Program.Env K} {name : String} {d : ContactDecl} {m0 m1 m2 : ContactMotion K}
    {w : Snapshot K} {hist calls : List (ContactCall K)} (hb : d.Built E.robot.nv name m0)
    (hr : runOps (ContactMotion.call E) m0 hist = some m1)
    (hg : ∀ c ∈ calls, GoodContactCall c) (hm : ∀ c ∈ hist, c ∈ calls ∨ isMotionCycle c = true)
    (hf : ∀ (σ : Type) (F : σ → ContactCall K → σ), (∀ p c, isMotionCycle c = true → F p c = p) →
      ∀ p, hist.foldl F p = calls.foldl F p)
    (hw : SnapshotOk E.robot.nv w) (hc : m1.compute E w = some m2) :
    m2.con.kind = .equality ∧ d.Moves E w calls m2.con.mat ∧ ∀ y, Sat m2.con y → d.Demands E w calls y := by
  unfold ContactMotion.compute at hc
  cases d with
  | point fr =>
    obtain ⟨g, g', s0, h0, rfl⟩ := hb
    obtain ⟨s, rfl, hr'⟩ := unwrapMotion (wrap := ContactMotion.point fr) (st := PointMotion.step E.log3)
      (get := pointAll fr) (fun s c => by
        cases c with
        | point o =>
          simp only [ContactMotion.call, pointAll]
          cases PointMotion.step E.log3 s o <;> rfl
        | computeMotion w =>
          simp only [ContactMotion.call, pointAll, PointMotion.step, SE3Task.step]
          cases SE3Task.compute E.log3 s (w.frame fr) <;> rfl
        | _ => rfl) hr
    obtain ⟨s1, s', c, e1, e2, -, e3, e6, e7, -, e5, e8⟩ := C27_point (log3 := E.log3) (os := hist.filterMap (pointAll fr)) h0
      (w.frame fr) (hw.rot fr)
    rw [hr'] at e1
    cases e1
    simp only [ContactMotion.call, e2, ContactMotion.lift, Option.some.injEq] at hc
    subst hc
    simp only [ContactMotion.con, se3_con e2]
    simp only [Constraint.cols, e3] at e7
    rw [same_contact hf (g' := point?) (after := PointSettings.after) (afterAll := PointSettings.afterAll) (fun _ => rfl)
      (fun _ _ _ => rfl) (fun c h => by cases c <;> first | rfl | cases h)
      (fun p c o h1 h2 => by cases c <;> cases h1; cases h2; rfl) (fun c h => by cases c <;> first | rfl | cases h)] at e5 e8
    exact ⟨e3, ⟨e6, e7, fun i hi v => (row_of_residual (fun a => e8 a i hi) v).trans (point_linear _ _ _ _ hi)⟩,
      fun y hy => (e5 y).1 hy⟩
  | sixD fr =>
    obtain ⟨g, s0, h0, rfl⟩ := hb
    obtain ⟨s, rfl, hr'⟩ := unwrapMotion (wrap := ContactMotion.sixD fr) (st := SE3Task.step E.log3)
      (get := sixDAll fr) (fun s c => by
        cases c with
        | setKp k =>
          simp only [ContactMotion.call, sixDAll, SE3Task.step]
          cases s.setKp k <;> rfl
        | setKd k =>
          simp only [ContactMotion.call, sixDAll, SE3Task.step]
          cases s.setKd k <;> rfl
        | setReference M =>
          simp only [ContactMotion.call, sixDAll, SE3Task.step]
          cases s.setReferencePose M <;> rfl
        | computeMotion w =>
          simp only [ContactMotion.call, sixDAll, SE3Task.step]
          cases SE3Task.compute E.log3 s (w.frame fr) <;> rfl
        | _ => rfl) hr
    have hgood : ∀ o ∈ hist.filterMap (sixDAll fr), FrameSettings.Good o := by
      intro o ho
      obtain ⟨c, -, hc⟩ := List.mem_filterMap.1 ho
      cases c <;> cases hc <;> trivial
    obtain ⟨s1, s', c, e1, e2, e3, e6, e7, e8⟩ := C37_se3_rows (log3 := E.log3) h0 hgood (w.frame fr) (hw.rot fr)
    rw [hr'] at e1
    cases e1
    simp only [ContactMotion.call, e2, ContactMotion.lift, Option.some.injEq] at hc
    subst hc
    simp only [ContactMotion.con, se3_con e2]
    rw [same_contact hf (g' := sixD?) (after := FrameSettings.after) (afterAll := FrameSettings.afterAll) (fun _ => rfl)
      (fun _ _ _ => rfl) (fun c h => by cases c <;> first | rfl | cases h)
      (fun p c o h1 h2 => by cases c <;> cases h1; cases h2; rfl) (fun c h => by cases c <;> first | rfl | cases h)] at e6 e8
    have hmask : ∀ (l : List (ContactCall K)) (p : FrameSettings K), (p.afterAll (l.filterMap sixD?)).mask = p.mask := by
      intro l
      induction l with
      | nil => intro p; rfl
      | cons a l ih =>
        intro p
        cases a with
        | setKp k => exact (ih _).trans (by simp only [FrameSettings.after]; split <;> rfl)
        | setKd k => exact (ih _).trans (by simp only [FrameSettings.after]; split <;> rfl)
        | setReference M => exact (ih _).trans rfl
        | _ => exact ih p
    have hcnt : ∀ i, countSelected (FrameSettings.fresh (K := K)).mask i = i := by
      intro i
      induction i with
      | zero => rfl
      | succ i ih =>
        show countSelected _ i + (if (1 : K) = 1 then 1 else 0) = _
        rw [ih, if_pos rfl]
    rw [hmask] at e6 e8
    simp only [hcnt] at e6 e8
    have e9 : ∀ (a : Nat → K) (i : Nat), i < 6 → Spec.residual c a i = _ := fun a i hi => e8 a i ⟨hi, rfl⟩
    refine ⟨e3, ⟨e6, e7, fun i hi v => (row_of_residual (fun a => e9 a i hi) v).trans (frame_linear _ _ _ _ hi)⟩,
      fun y hy i hi => ?_⟩
    have h1 := e9 y i hi
    simp only [Sat, e3, e6] at hy
    rw [Spec.residual, hy i hi, sub_self] at h1
    exact sub_eq_zero.1 h1.symm
  | pair f1 f2 =>
    obtain ⟨g, g', s0, h0, rfl⟩ := hb
    obtain ⟨s, rfl, hr'⟩ := unwrapMotion (wrap := ContactMotion.pair f1 f2) (st := PairMotion.step E.ndebug E.log3)
      (get := pairAll f1 f2) (fun s c => by
        cases c with
        | pair o =>
          simp only [ContactMotion.call, pairAll]
          cases PairMotion.step E.ndebug E.log3 s o <;> rfl
        | computeMotion w =>
          simp only [ContactMotion.call, pairAll, PairMotion.step, TwoFrames.step]
          cases TwoFrames.compute E.log3 s (w.frame f1) (w.frame f2) <;> rfl
        | _ => rfl) hr
    have hgood : ∀ o ∈ hist.filterMap (pairAll f1 f2), PairGains.Good o := by
      intro o ho
      obtain ⟨c, hc, hcc⟩ := List.mem_filterMap.1 ho
      rcases hm c hc with h | h
      · cases c <;> cases hcc
        · exact hg _ h
        · trivial
      · cases c <;> cases h
        cases hcc
        trivial
    obtain ⟨s1, s', c, e1, e2, -, e6, e7, e5, e8⟩ := C27_two_frames (ndebug := E.ndebug) (log3 := E.log3) h0 hgood
      (w.frame f1) (w.frame f2) (hw.rot f1)
    rw [hr'] at e1
    cases e1
    simp only [ContactMotion.call, e2, ContactMotion.lift, Option.some.injEq] at hc
    subst hc
    simp only [ContactMotion.con, pair_con e2]
    have e3 : c.kind = .equality := (pair_compute_kind e2).trans (pair_kind hr' (pair_new_kind h0))
    simp only [Constraint.cols, e3] at e7
    rw [same_contact hf (g' := gains?) (after := PairGains.after) (afterAll := PairGains.afterAll) (fun _ => rfl)
      (fun _ _ _ => rfl) (fun c h => by cases c <;> first | rfl | cases h)
      (fun p c o h1 h2 => by cases c <;> cases h1; cases h2; rfl) (fun c h => by cases c <;> first | rfl | cases h)] at e5
    exact ⟨e3, ⟨e6, e7, fun i hi v =>
        (row_of_residual (fun a => e8 a i hi) v).trans (relative_linear _ _ _ _ (by omega))⟩,
      fun y hy => (e5 y).1 hy⟩

/-! ## Measured forces -/

theorem lastWrench_append : ∀ (a b : List (Measured6D.Op K)) (f : Motion K),
    lastWrench (a ++ b) f = lastWrench b (lastWrench a f)
  | [], b, f => rfl
  | o :: a, b, f => by cases o <;> exact lastWrench_append a b _

theorem lastAxes6_append : ∀ (a b : List (Measured6D.Op K)) (f : Bool),
    lastAxes6 (a ++ b) f = lastAxes6 b (lastAxes6 a f)
  | [], b, f => rfl
  | o :: a, b, f => by cases o <;> exact lastAxes6_append a b _

theorem lastForce_append : ∀ (a b : List (Measured3D.Op K)) (f : V3 K),
    lastForce (a ++ b) f = lastForce b (lastForce a f)
  | [], b, f => rfl
  | o :: a, b, f => by cases o <;> exact lastForce_append a b _

theorem lastAxes3_append : ∀ (a b : List (Measured3D.Op K)) (f : Bool),
    lastAxes3 (a ++ b) f = lastAxes3 b (lastAxes3 a f)
  | [], b, f => rfl
  | o :: a, b, f => by cases o <;> exact lastAxes3_append a b _

theorem iterate_wrench {w : Snapshot K} {fr : Nat} : ∀ (n : Nat) (m : Measured6D K),
    (MeasuredObj.compute w)^[n] (.wrench fr m) =
      .wrench fr ((List.replicate n (Measured6D.Op.compute (MeasuredObj.kin w fr))).foldl Measured6D.step m)
  | 0, m => rfl
  | n + 1, m => by
    rw [Function.iterate_succ_apply, List.replicate_succ, List.foldl_cons]
    exact iterate_wrench n _

theorem iterate_force {w : Snapshot K} {fr : Nat} : ∀ (n : Nat) (m : Measured3D K),
    (MeasuredObj.compute w)^[n] (.force fr m) =
      .force fr ((List.replicate n (Measured3D.Op.compute (MeasuredObj.kin w fr))).foldl Measured3D.step m)
  | 0, m => rfl
  | n + 1, m => by
    rw [Function.iterate_succ_apply, List.replicate_succ, List.foldl_cons]
    exact iterate_force n _

/-- The history of a measured wrench. -/
theorem run_wrench {E : Program.Env K} {mid fr : Nat} : ∀ {ops : List (Program.Op K)} {s s' : Program.State K}
    {m : Measured6D K}, Program.run E s ops = some s' → s.measured mid = .wrench fr m →
    ∃ h, s'.measured mid = .wrench fr (h.foldl Measured6D.step m) ∧
      (∀ f, lastWrench h f = lastWrench ((measuredCalls mid ops).filterMap wrench?) f) ∧
      ∀ b, lastAxes6 h b = lastAxes6 ((measuredCalls mid ops).filterMap wrench?) b
  | [], s, s', m, h, hm => by
    simp only [Program.run, Option.some.injEq] at h
    subst h
    exact ⟨[], hm, fun _ => rfl, fun _ => rfl⟩
  | o :: os, s, s', m, h, hm => by
    simp only [Program.run] at h
    split at h
    · next s1 hs =>
      have head : ∃ h1, s1.measured mid = .wrench fr (h1.foldl Measured6D.step m) ∧
          (∀ f, lastWrench h1 f = lastWrench ((measuredCalls mid [o]).filterMap wrench?) f) ∧
          ∀ b, lastAxes6 h1 b = lastAxes6 ((measuredCalls mid [o]).filterMap wrench?) b := by
        rcases step_measured hs mid with h1 | ⟨h1, w, n, h2⟩
        · rw [hm] at h1
          refine ⟨(measuredCalls mid [o]).filterMap wrench?, ?_, fun _ => rfl, fun _ => rfl⟩
          have gen : ∀ (l : List (MeasuredCall K)) (m : Measured6D K) (r : MeasuredObj K),
              runOps MeasuredObj.call (.wrench fr m) l = some r →
              r = .wrench fr ((l.filterMap wrench?).foldl Measured6D.step m) := by
            intro l
            induction l with
            | nil => intro m r h; cases h; rfl
            | cons a l ih =>
              intro m r h
              cases a with
              | wrench o => exact ih _ _ h
              | force o => simp [runOps, MeasuredObj.call, Res.state?] at h
          exact gen _ _ _ h1
        · rw [hm, iterate_wrench] at h2
          refine ⟨_, h2, ?_, ?_⟩
          · intro f
            rw [h1]
            clear h2
            induction n with
            | zero => rfl
            | succ n ih => exact ih
          · intro f
            rw [h1]
            clear h2
            induction n with
            | zero => rfl
            | succ n ih => exact ih
      obtain ⟨h1, a1, a2, a3⟩ := head
      obtain ⟨h2, b1, b2, b3⟩ := run_wrench h a1
      refine ⟨h1 ++ h2, by rw [List.foldl_append]; exact b1, fun f => ?_, fun b => ?_⟩
      · rw [measuredCalls_cons, List.filterMap_append, lastWrench_append, lastWrench_append, a2, b2]
      · rw [measuredCalls_cons, List.filterMap_append, lastAxes6_append, lastAxes6_append, a3, b3]
    · cases h

/-- The history of a measured force. -/
theorem run_force {E : Program.Env K} {mid fr : Nat} : ∀ {ops : List (Program.Op K)} {s s' : Program.State K}
    {m : Measured3D K}, Program.run E s ops = some s' → s.measured mid = .force fr m →
    ∃ h, s'.measured mid = .force fr (h.foldl Measured3D.step m) ∧
      (∀ f, lastForce h f = lastForce ((measuredCalls mid ops).filterMap pointForce?) f) ∧
      ∀ b, lastAxes3 h b = lastAxes3 ((measuredCalls mid ops).filterMap pointForce?) b
  | [], s, s', m, h, hm => by
    simp only [Program.run, Option.some.injEq] at h
    subst h
    exact ⟨[], hm, fun _ => rfl, fun _ => rfl⟩
  | o :: os, s, s', m, h, hm => by
    simp only [Program.run] at h
    split at h
    · next s1 hs =>
      have head : ∃ h1, s1.measured mid = .force fr (h1.foldl Measured3D.step m) ∧
          (∀ f, lastForce h1 f = lastForce ((measuredCalls mid [o]).filterMap pointForce?) f) ∧
          ∀ b, lastAxes3 h1 b = lastAxes3 ((measuredCalls mid [o]).filterMap pointForce?) b := by
        rcases step_measured hs mid with h1 | ⟨h1, w, n, h2⟩
        · rw [hm] at h1
          refine ⟨(measuredCalls mid [o]).filterMap pointForce?, ?_, fun _ => rfl, fun _ => rfl⟩
          have gen : ∀ (l : List (MeasuredCall K)) (m : Measured3D K) (r : MeasuredObj K),
              runOps MeasuredObj.call (.force fr m) l = some r →
              r = .force fr ((l.filterMap pointForce?).foldl Measured3D.step m) := by
            intro l
            induction l with
            | nil => intro m r h; cases h; rfl
            | cons a l ih =>
              intro m r h
              cases a with
              | force o => exact ih _ _ h
              | wrench o => simp [runOps, MeasuredObj.call, Res.state?] at h
          exact gen _ _ _ h1
        · rw [hm, iterate_force] at h2
          refine ⟨_, h2, ?_, ?_⟩
          · intro f
            rw [h1]
            clear h2
            induction n with
            | zero => rfl
            | succ n ih => exact ih
          · intro f
            rw [h1]
            clear h2
            induction n with
            | zero => rfl
            | succ n ih => exact ih
      obtain ⟨h1, a1, a2, a3⟩ := head
      obtain ⟨h2, b1, b2, b3⟩ := run_force h a1
      refine ⟨h1 ++ h2, by rw [List.foldl_append]; exact b1, fun f => ?_, fun b => ?_⟩
      · rw [measuredCalls_cons, List.filterMap_append, lastForce_append, lastForce_append, a2, b2]
      · rw [measuredCalls_cons, List.filterMap_append, lastAxes3_append, lastAxes3_append, a3, b3]
    · cases h

/-- The torques of a measured force that is computed in a cycle, once or several times. -/
theorem measured_contributes {E : Program.Env K} {nv mid : Nat} {d : MeasuredDecl} {ops : List (Program.Op K)}
    {s s' : Program.State K} {w : Snapshot K} (hb : d.Built nv (s.measured mid)) (hr : Program.run E s ops = some s')
    (n : Nat) : d.Contributes nv w (measuredCalls mid ops) ((MeasuredObj.compute w)^[n + 1] (s'.measured mid)).tau := by
  cases d with
  | wrench fr supp =>
    obtain ⟨h, h1, h2, h3⟩ := run_wrench hr hb
    rw [h1, Function.iterate_succ_apply', iterate_wrench, ← List.foldl_append]
    have hp := C76_wrench_power nv supp (h ++ List.replicate n (.compute (MeasuredObj.kin w fr))) (MeasuredObj.kin w fr)
    refine ⟨(hp fun _ => 0).1, fun v => ?_⟩
    have r1 : ∀ f : Motion K, lastWrench (List.replicate n (.compute (MeasuredObj.kin w fr))) f = f := by
      intro f
      clear hp
      induction n with
      | zero => rfl
      | succ n ih => exact ih
    have r2 : ∀ b, lastAxes6 (List.replicate n (Measured6D.Op.compute (MeasuredObj.kin w fr))) b = b := by
      intro f
      clear hp r1
      induction n with
      | zero => rfl
      | succ n ih => exact ih
    have hq := (hp v).2
    rw [lastWrench_append, lastAxes6_append, r1, r2, h2, h3] at hq
    exact hq
  | force fr supp =>
    obtain ⟨h, h1, h2, h3⟩ := run_force hr hb
    rw [h1, Function.iterate_succ_apply', iterate_force, ← List.foldl_append]
    have hp := C76_force_power nv supp (h ++ List.replicate n (.compute (MeasuredObj.kin w fr))) (MeasuredObj.kin w fr)
    refine ⟨(hp fun _ => 0).1, fun v => ?_⟩
    have r1 : ∀ f : V3 K, lastForce (List.replicate n (.compute (MeasuredObj.kin w fr))) f = f := by
      intro f
      clear hp
      induction n with
      | zero => rfl
      | succ n ih => exact ih
    have r2 : ∀ b, lastAxes3 (List.replicate n (Measured3D.Op.compute (MeasuredObj.kin w fr))) b = b := by
      intro f
      clear hp r1
      induction n with
      | zero => rfl
      | succ n ih => exact ih
    have hq := (hp v).2
    rw [lastForce_append, lastAxes3_append, r1, r2, h2, h3] at hq
    exact hq

end Tsid.Props
