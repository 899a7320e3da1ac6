import Verif.Spec.Builds
import Verif.Props.Story
import Verif.Lemmas.RoundTrip
import Verif.Model.PythonProblem
import Verif.Model.Python

/-!
# C103: debug and release builds
-/

set_option linter.unusedSectionVars false

namespace Tsid.Props

open Spec Formulation Finset

variable {K : Type} [Field K] [LinearOrder K] [IsStrictOrderedRing K] [FloorRing K] [HasSqrt K] [LawfulSqrt K]

/-! ## Both builds do the same, or the debug build stops -/

section
omit [IsStrictOrderedRing K] [FloorRing K] [LawfulSqrt K]

theorem same_rfl {σ α : Type} (r : Res σ α) : SameOrStops r r := .inr rfl

theorem same_void {σ α : Type} {d r : Res σ α} (h : SameOrStops d r) : SameOrStops (void d) (void r) := by
  rcases h with rfl | rfl
  · exact .inl rfl
  · exact .inr rfl

theorem same_removeContactNow (s : Tsid.State K) (n : String) :
    SameOrStops (removeContactNow false s n) (removeContactNow true s n) := by
  unfold removeContactNow
  dsimp only
  generalize getTaskPriority s (n ++ "_motion_task") = prio
  generalize removeFromHqpData s (n ++ "_motion_task") = r1
  generalize removeFromHqpData r1.1 (n ++ "_force_constraint") = r2
  generalize removeFromHqpData r2.1 (n ++ "_force_reg_task") = r3
  generalize (r1.2 && r2.2 && r3.2) = b
  by_cases h1 : prio = none
  · rw [if_pos ⟨h1, rfl⟩]; exact .inl rfl
  rw [if_neg (fun h => h1 h.1), if_neg (fun h : prio = none ∧ true = false => absurd h.2 (by simp))]
  cases b
  · rw [if_pos ⟨rfl, rfl⟩]; exact .inl rfl
  · exact .inr (by simp)

theorem same_removeTask (W : World) (s : Tsid.State K) (n : String) :
    SameOrStops (removeTask false W s n) (removeTask true W s n) := by
  unfold removeTask
  dsimp only
  cases h : (removeFromHqpData s n).2
  · exact .inl (by simp)
  · exact .inr (by simp)

theorem same_removeRigidContact (s : Tsid.State K) (n : String) (dur : K) :
    SameOrStops (removeRigidContact false s n dur) (removeRigidContact true s n dur) := by
  unfold removeRigidContact
  split
  · exact same_rfl _
  · exact same_removeContactNow s n

theorem same_runTransitions : ∀ (l pre : List (Transition K)) (s : Tsid.State K),
    SameOrStops (runTransitions false pre l s) (runTransitions true pre l s)
  | [], pre, s => same_rfl _
  | tr :: rest, pre, s => by
    unfold runTransitions
    rw [if_neg (show ¬ (true = false ∧ ¬ tr.tStart ≤ s.t) from fun h => (by cases h.1))]
    split
    · exact .inl rfl
    split
    · split
      · exact same_runTransitions rest _ _
      · exact same_rfl _
      · exact same_rfl _
      · exact same_rfl _
    · rcases same_removeContactNow s (s.contactObj tr.cid).name with h | h
      · rw [h]; exact .inl rfl
      · rw [h]; exact same_rfl _

theorem same_compute (cy : Cycle K) (t : K) (s : Tsid.State K) :
    SameOrStops (computeProblemData false cy t s) (computeProblemData true cy t s) := by
  unfold computeProblemData
  dsimp only
  rcases same_runTransitions s.trans [] { s with t := t } with h | h
  · rw [h]; exact .inl rfl
  · rw [h]; exact same_rfl _

/-- **C103, calls of the formulation.** In every state, reachable or not. -/
theorem C103_formulation (W : World) (s : Tsid.State K) (o : Formulation.Op K) :
    SameOrStops (Formulation.step false W s o) (Formulation.step true W s o) := by
  cases o with
  | removeTask n => exact same_void (same_removeTask W s n)
  | removeRigidContact n dur => exact same_void (same_removeRigidContact s n dur)
  | compute cy t => exact same_compute cy t s
  | _ => exact same_rfl _

/-- **C103, Python.** The methods of the Python interface. -/
theorem C103_python (W : World) (s : Tsid.State K) (c : Python.Call K) :
    SameOrStops (Python.call false W s c) (Python.call true W s c) := by
  have wrap : ∀ {α β : Type} {f : α → β} {d r : Res (Tsid.State K) α}, SameOrStops d r →
      SameOrStops (Python.wrap f d) (Python.wrap f r) := by
    rintro α β f d r (rfl | rfl)
    · exact .inl rfl
    · exact .inr rfl
  cases c with
  | removeTask n b => exact wrap (same_removeTask W s n)
  | removeRigidContact n dur => exact wrap (same_removeRigidContact s n dur)
  | computeProblemData cy t =>
    simp only [Python.call]
    rcases same_compute cy t s with h | h
    · rw [h]; exact .inl rfl
    · rw [h]; exact same_rfl _
  | _ => exact same_rfl _

/-- **C103, constraints made by hand.** -/
theorem C103_hand {s : Python.Hand K} (o : Python.HandCall K) :
    SameOrStops (Python.Hand.step false s o) (Python.Hand.step true s o) := by
  cases o with
  | set i u =>
    simp only [Python.Hand.step]
    split
    swap
    · exact same_rfl _
    have : SameOrStops (u.apply false (s.cons i)) (u.apply true (s.cons i)) := by
      cases u with
      | setMatrix A => exact same_rfl _
      | setVector b => simp only [Python.ConCall.apply, Constraint.setVector]; cases (s.cons i).kind <;> first | exact same_rfl _ | exact .inl rfl
      | setLowerBound b => simp only [Python.ConCall.apply, Constraint.setLowerBound]; cases (s.cons i).kind <;> first | exact same_rfl _ | exact .inl rfl
      | setUpperBound b => simp only [Python.ConCall.apply, Constraint.setUpperBound]; cases (s.cons i).kind <;> first | exact same_rfl _ | exact .inl rfl
      | _ => exact same_rfl _
    rcases this with h | h
    · rw [h]; exact .inl rfl
    · rw [h]; exact same_rfl _
  | _ => exact same_rfl _

end

section
omit [IsStrictOrderedRing K] [LawfulSqrt K]

theorem same_task (E : Program.Env K) (o : TaskObj K) (c : TaskCall K) :
    SameOrStops (o.call (build E false) c) (o.call (build E true) c) := by
  cases o <;> cases c <;> try exact same_rfl _
  next f1 f2 s c =>
  cases c with
  | setKp k =>
    simp only [TaskObj.call, TwoFrames.step, TwoFrames.setKp, build]
    split
    · exact same_rfl _
    · exact .inl rfl
  | setKd k =>
    simp only [TaskObj.call, TwoFrames.step, TwoFrames.setKd, build]
    split
    · exact same_rfl _
    · exact .inl rfl
  | _ => exact same_rfl _

theorem same_motion (E : Program.Env K) (o : ContactMotion K) (c : ContactCall K) :
    SameOrStops (o.call (build E false) c) (o.call (build E true) c) := by
  cases o <;> cases c <;> try exact same_rfl _
  next f1 f2 s c =>
  cases c with
  | setKp g k =>
    simp only [ContactMotion.call, PairMotion.step, TwoFrames.setKp, build]
    split
    · simp only [gains6]; exact same_rfl _
    · exact .inl rfl
  | setKd g k =>
    simp only [ContactMotion.call, PairMotion.step, TwoFrames.setKd, build]
    split
    · simp only [gains6]; exact same_rfl _
    · exact .inl rfl
  | _ => exact same_rfl _

theorem same_taskCompute (E : Program.Env K) (x : TaskObj.Ctx K) (o : TaskObj K) :
    o.compute (build E false) x = o.compute (build E true) x := by
  cases o <;> rfl

theorem same_contactCompute (E : Program.Env K) (w : Snapshot K) (o : ContactMotion K) :
    o.compute (build E false) w = o.compute (build E true) w := by
  cases o <;> rfl

/-- **C103, one call.** Whatever a program calls, in whatever state: a debug build stops at an assertion, or does the same
as a release build. -/
theorem C103_call (E : Program.Env K) (s : Program.State K) (o : Program.Op K) :
    SameOrStops (Program.step (build E false) s o) (Program.step (build E true) s o) := by
  cases o with
  | task tid c =>
    simp only [Program.step]
    split
    · exact same_rfl _
    rcases same_task E (s.task tid) c with h | h
    · rw [h]; exact .inl rfl
    · rw [h]; exact same_rfl _
  | associate tid cid n =>
    simp only [Program.step]
    split
    swap
    · exact same_rfl _
    cases h : s.task tid <;> exact same_rfl _
  | motion cid c =>
    simp only [Program.step]
    rcases same_motion E (s.motion cid) c with h | h
    · rw [h]; exact .inl rfl
    · rw [h]; exact same_rfl _
  | measured mid c => exact same_rfl _
  | form o =>
    simp only [Program.step]
    split
    swap
    · exact same_rfl _
    rcases C103_formulation (Program.world E s) s.form o with h | h
    · rw [show Formulation.step (build E false).ndebug (Program.world (build E false) s) s.form o = _ from h]; exact .inl rfl
    · rw [show Formulation.step (build E false).ndebug (Program.world (build E false) s) s.form o = _ from h]
      exact same_rfl _
  | compute w t =>
    simp only [Program.step, Program.compute]
    rcases same_runTransitions s.form.trans [] { s.form with t := t } with h | h
    · rw [show runTransitions (build E false).ndebug [] s.form.trans { s.form with t := t } = _ from h]; exact .inl rfl
    · rw [show runTransitions (build E false).ndebug [] s.form.trans { s.form with t := t } = _ from h]
      rw [show (build E true).ndebug = true from rfl]
      cases runTransitions true [] s.form.trans { s.form with t := t } with
      | ok f u =>
        have e : Program.computeObjects (build E false) w f s = Program.computeObjects (build E true) w f s := by
          unfold Program.computeObjects
          rw [show ContactMotion.compute (build E false) w = ContactMotion.compute (build E true) w from
            funext (same_contactCompute E w)]
          rw [show TaskObj.compute (build E false) = TaskObj.compute (build E true) from
            funext fun x => funext (same_taskCompute E x)]
          rfl
        dsimp only
        rw [e]
        exact same_rfl _
      | _ => exact same_rfl _

/-- **C103, whole programs.** A program that runs to its end in a debug build runs to its end in a release build, and ends
in the same state. -/
theorem C103_same (E : Program.Env K) : ∀ (ops : List (Program.Op K)) (s s' : Program.State K),
    Program.run (build E false) s ops = some s' → Program.run (build E true) s ops = some s'
  | [], s, s', h => h
  | o :: os, s, s', h => by
    simp only [Program.run] at h ⊢
    rcases C103_call E s o with e | e
    · rw [e] at h; cases h
    · rw [e] at h
      split at h
      · next s1 hs => exact C103_same E os s1 s' h
      · cases h

end

/-! ## Where the assertions are -/

section

variable {W : World}

omit [IsStrictOrderedRing K] [FloorRing K] [LawfulSqrt K] in
theorem has_items {s : Tsid.State K} {r : Registry K} {L : List (LItem K)} (hL : Impl W s r L) (q : Item K → Bool) :
    (∃ x ∈ L, q x.1 = true) ↔ ∃ it ∈ r.items, q it = true := by
  rw [← hL.items]
  constructor
  · rintro ⟨x, h1, h2⟩; exact ⟨x.1, List.mem_map_of_mem h1, h2⟩
  · rintro ⟨it, h1, h2⟩
    obtain ⟨x, hx, rfl⟩ := List.mem_map.1 h1
    exact ⟨x, hx, h2⟩

omit [IsStrictOrderedRing K] [LawfulSqrt K] in
theorem transitions_abort {kind : Nat → ContactKind} {nm : Nat → String} {lim0 : Nat → ForceLimits K} {r : Registry K}
    {L : List (LItem K)} (hw : Hygienic W) :
    ∀ (l on : List (Fading K)) (s : Tsid.State K), Formulation.Inv W s → Coh W s L → L.map Prod.fst = r.items →
    (∀ c, (s.contactObj c).name = nm c) → (∀ c, (s.contactObj c).kind = kind c) →
    (∀ c, ForceLimits.of (s.contactObj c) = fade s.t on lim0 c) →
    (runTransitions false (on.map ofFading) (l.map ofFading) s = .abort ↔
      ∃ pre p post, l = pre ++ p :: post ∧ (∀ q ∈ pre, q.lasts s.t = true ∧ q.fits kind lim0 s.t = true) ∧
        (s.t < p.since ∨ (p.lasts s.t = false ∧ ¬ r.hasContact nm (nm p.cid)))) := by
  intro l
  induction l with
  | nil =>
    intro on s _ _ _ _ _ _
    simp only [List.map_nil, runTransitions]
    constructor
    · intro h; cases h
    · rintro ⟨pre, p, post, e, -⟩
      cases pre <;> cases e
  | cons p ps ih =>
    intro on s hi hc hL hn hk hl
    have split : (∃ pre q post, p :: ps = pre ++ q :: post ∧
        (∀ x ∈ pre, x.lasts s.t = true ∧ x.fits kind lim0 s.t = true) ∧
        (s.t < q.since ∨ (q.lasts s.t = false ∧ ¬ r.hasContact nm (nm q.cid)))) ↔
        (s.t < p.since ∨ (p.lasts s.t = false ∧ ¬ r.hasContact nm (nm p.cid))) ∨
        ((p.lasts s.t = true ∧ p.fits kind lim0 s.t = true) ∧ ∃ pre q post, ps = pre ++ q :: post ∧
          (∀ x ∈ pre, x.lasts s.t = true ∧ x.fits kind lim0 s.t = true) ∧
          (s.t < q.since ∨ (q.lasts s.t = false ∧ ¬ r.hasContact nm (nm q.cid)))) := by
      constructor
      · rintro ⟨pre, q, post, e, h1, h2⟩
        cases pre with
        | nil => cases e; exact .inl h2
        | cons x pre =>
          cases e
          exact .inr ⟨h1 _ List.mem_cons_self, pre, q, post, rfl, fun y hy => h1 y (List.mem_cons_of_mem _ hy), h2⟩
      · rintro (h | ⟨h1, pre, q, post, e, h2, h3⟩)
        · exact ⟨[], p, ps, rfl, fun x hx => (by cases hx), h⟩
        · refine ⟨p :: pre, q, post, by rw [e]; rfl, fun x hx => ?_, h3⟩
          rcases List.mem_cons.1 hx with rfl | hx
          · exact h1
          · exact h2 x hx
    rw [split, List.map_cons]
    unfold runTransitions
    by_cases hs : s.t < p.since
    · rw [if_pos (show false = false ∧ ¬ (ofFading p).tStart ≤ s.t from ⟨rfl, not_le.2 hs⟩)]
      exact iff_of_true rfl (.inl (.inl hs))
    rw [if_neg (show ¬ (false = false ∧ ¬ (ofFading p).tStart ≤ s.t) from fun h => h.2 (not_lt.1 hs))]
    have hfit : p.fits kind lim0 s.t = true ↔ (s.contactObj p.cid).MaxOk (p.limit s.t) := by
      rw [fits_maxOk hk hl, fits_fade]
    by_cases hla : s.t ≤ p.since + p.dur
    · rw [if_pos (show s.t ≤ (ofFading p).tEnd from hla), interpolate_fading]
      have hlast : p.lasts s.t = true := decide_eq_true hla
      by_cases hm : (s.contactObj p.cid).MaxOk (p.limit s.t)
      · have hg := Contact.good_setMaxNormalForce (hi.pre.shaped p.cid) (p.limit s.t)
        rw [Contact.setMax_ok hm] at hg
        obtain ⟨g1, g2⟩ := hg _ rfl
        have hkeep := keeps_updateObj hi p.cid _ g1 g2
        have hnm := updateObj_names g2
        have hc1 : Coh W { s with contactObj := Function.update s.contactObj p.cid ((s.contactObj p.cid).withMax (p.limit s.t)) } L :=
          coh_congr hc rfl rfl rfl rfl rfl rfl hnm.names
        rw [show (ofFading p).cid = p.cid from rfl, Contact.setMax_ok hm]
        dsimp only
        have := ih (on ++ [p]) _ hkeep.1 hc1 hL (fun c => (congrFun hnm.names c).trans (hn c))
          (fun c => (congrFun hnm.kinds c).trans (hk c)) ?_
        · rw [List.map_append] at this
          refine this.trans ?_
          constructor
          · intro h; exact .inr ⟨⟨hlast, hfit.2 hm⟩, h⟩
          · rintro ((h | ⟨h, -⟩) | ⟨-, h⟩)
            · exact absurd h hs
            · rw [hlast] at h; cases h
            · exact h
        · intro c
          rw [fade_append]
          show _ = Function.update (fade s.t on lim0) p.cid _ c
          by_cases e : c = p.cid
          · subst e
            simp only [Function.update_self, limits_withMax, hl]
          · simp only [Function.update_of_ne e]; exact hl c
      · rw [show (ofFading p).cid = p.cid from rfl, Contact.setMax_not hm]
        refine iff_of_false (fun h => (by cases h)) ?_
        rintro ((h | ⟨h, -⟩) | ⟨⟨-, h⟩, -⟩)
        · exact absurd h hs
        · rw [hlast] at h; cases h
        · exact hm (hfit.1 h)
    · rw [if_neg (show ¬ s.t ≤ (ofFading p).tEnd from hla)]
      have hlast : p.lasts s.t = false := decide_eq_false hla
      have hreg : (∃ x ∈ L, x.1.isContact (cnames s) (nm p.cid) = true) ↔ r.hasContact nm (nm p.cid) := by
        rw [show cnames s = nm from funext hn]
        unfold Registry.hasContact
        rw [← hL]
        constructor
        · rintro ⟨x, h1, h2⟩; exact ⟨x.1, List.mem_map_of_mem h1, h2⟩
        · rintro ⟨it, h1, h2⟩
          obtain ⟨x, hx, rfl⟩ := List.mem_map.1 h1
          exact ⟨x, hx, h2⟩
      rw [show (s.contactObj (ofFading p).cid).name = nm p.cid from hn _]
      by_cases hr : r.hasContact nm (nm p.cid)
      · obtain ⟨s1, e⟩ := removeContactNow_ok (nd := false) hw hi hc (hreg.2 hr)
        rw [e]
        refine iff_of_false (fun h => (by cases h)) ?_
        rintro ((h | ⟨-, h⟩) | ⟨⟨h, -⟩, -⟩)
        · exact absurd h hs
        · exact h hr
        · rw [hlast] at h; cases h
      · have e := removeContactNow_missing (nd := false) hw hi hc (fun h => hr (hreg.1 h))
        rw [e]
        exact iff_of_true rfl (.inl (.inr ⟨hlast, hr⟩))

theorem keeps_time {s : Tsid.State K} (hi : Formulation.Inv W s) (t : K) : Formulation.Inv W { s with t := t } :=
  (keeps_misc hi t s.measured s.trans s.decoded s.dv s.f s.tau).1

theorem not_abort_void {σ α : Type} {r : Res σ α} (h : r ≠ .abort) : void r ≠ .abort := by
  cases r <;> first | exact absurd rfl h | exact fun e => (by cases e)

theorem not_abort_of_state {σ α : Type} {r : Res σ α} {s : σ} (h : r.state? = some s) : r ≠ .abort := by
  rintro rfl; cases h

theorem applySet_no_abort (c : Contact K) (u : ContactSet K) : applySet c u ≠ .abort := by
  cases u <;> simp only [applySet]
  · apply not_abort_void; unfold Contact.setContactPoints; repeat' split
    all_goals exact fun e => (by cases e)
  · apply not_abort_void; unfold Contact.setContactNormal; repeat' split
    all_goals exact fun e => (by cases e)
  · apply not_abort_void; unfold Contact.setFrictionCoefficient; repeat' split
    all_goals exact fun e => (by cases e)
  · apply not_abort_void; unfold Contact.setMinNormalForce; repeat' split
    all_goals exact fun e => (by cases e)
  · apply not_abort_void; unfold Contact.setMaxNormalForce; repeat' split
    all_goals exact fun e => (by cases e)
  · unfold Contact.setForceReference; repeat' split
    all_goals exact fun e => (by cases e)
  · unfold Contact.setRegularizationWeights; repeat' split
    all_goals exact fun e => (by cases e)

/-- **C103, calls that never stop.** All calls of the formulation but three contain no assertion that can fail. -/
theorem C103_silent {nd : Bool} {s : Tsid.State K} {o : Formulation.Op K} (h1 : ∀ n, o ≠ .removeTask n)
    (h2 : ∀ n dur, o ≠ .removeRigidContact n dur) (h3 : ∀ cy t, o ≠ .compute cy t) :
    Formulation.step nd W s o ≠ .abort := by
  cases o with
  | addMotionTask tid w p dur =>
    apply not_abort_void; unfold addMotionTask; repeat' split
    all_goals exact fun e => (by cases e)
  | addForceTask tid w p dur =>
    apply not_abort_void; unfold addForceTask; repeat' split
    all_goals exact fun e => (by cases e)
  | addActuationTask tid w p dur =>
    apply not_abort_void; unfold addActuationTask; repeat' split
    all_goals exact fun e => (by cases e)
  | updateTaskWeight n w =>
    apply not_abort_void; unfold updateTaskWeight; repeat' split
    all_goals exact fun e => (by cases e)
  | addRigidContact cid wf wm p =>
    apply not_abort_void; unfold addRigidContact; dsimp only; repeat' split
    all_goals exact fun e => (by cases e)
  | updateRigidContactWeights n wf wm =>
    apply not_abort_void; unfold updateRigidContactWeights; dsimp only; repeat' split
    all_goals exact fun e => (by cases e)
  | addMeasuredForce m => exact fun e => (by cases e)
  | removeMeasuredForce n =>
    apply not_abort_void; unfold removeMeasuredForce; repeat' split
    all_goals exact fun e => (by cases e)
  | removeTask n => exact absurd rfl (h1 n)
  | removeRigidContact n dur => exact absurd rfl (h2 n dur)
  | removeFromHqpData n => exact fun e => (by cases e)
  | resizeHqpData => exact fun e => (by cases e)
  | compute cy t => exact absurd rfl (h3 cy t)
  | decode x =>
    simp only [Formulation.step]
    split
    all_goals exact fun e => (by cases e)
  | setContact cid u =>
    simp only [Formulation.step]
    have := applySet_no_abort (s.contactObj cid) u
    split
    all_goals first | (next h => exact absurd h this) | exact fun e => (by cases e)
  | setAssociated tid n => exact fun e => (by cases e)

variable {E : Program.Env K} {S : Setup K} {ops : List (Program.Op K)} {s0 : Program.State K}

/-- **C103, where.** After an orderly program, the next call stops at an assertion of a debug build exactly when the text
says so: a task or contact is removed that is not registered, or the cycle considers a contact that is being let go since
a time after it, or whose time has run out and that is no longer registered. -/
theorem C103_stops (h : GoodProgram E W S ops s0) (hd : E.ndebug = false) {o : Program.Op K} (hm : S.May E W ops o)
    (ho : Orderly E W s0 o) : Program.step E s0 o = .abort ↔ S.fails E W ops o := by
  have hR : RobotOk E.robot := ⟨by rw [h.na, h.nv]; exact h.motors, h.nqa, h.difference⟩
  obtain ⟨ht, -⟩ := program_tidy h
  obtain ⟨hi, hn, L, hL, -⟩ := tidy_impl ht
  have hL : Impl W s0.form (S.registered E W ops) L := hL
  cases o with
  | task tid c =>
    have ha : (S.decl tid).Accepts E.robot c := hm
    obtain ⟨o2, e⟩ := task_answers hR (h.built tid) (Program.run_task h.run tid) (history_good h tid) ha
    refine iff_of_false ?_ id
    simp only [Program.step, accepts_associate ha, Bool.false_eq_true, if_false]
    cases hc : (s0.task tid).call E c <;> rw [hc] at e <;> first | (cases e; done) | exact fun e => (by cases e)
  | associate tid cid n =>
    refine iff_of_false ?_ id
    simp only [Program.step]
    repeat' split
    all_goals exact fun e => (by cases e)
  | motion cid c =>
    obtain ⟨l, e1, e2, -⟩ := Program.run_motion h.run cid
    have hb := h.builtContact cid
    rw [← h.nv] at hb
    obtain ⟨m2, e⟩ := contact_answers hb e1 (h.contactArgs cid) e2 (c := c) hm
    refine iff_of_false ?_ id
    simp only [Program.step]
    cases hc : (s0.motion cid).call E c <;> rw [hc] at e <;> first | (cases e; done) | exact fun e => (by cases e)
  | measured mid c =>
    obtain ⟨m2, e⟩ := measured_answers (h.builtMeasured mid) (isWrench_program h.run mid) (c := c) hm
    refine iff_of_false ?_ id
    simp only [Program.step]
    cases hc : (s0.measured mid).call c <;> rw [hc] at e <;> first | (cases e; done) | exact fun e => (by cases e)
  | form o =>
    have hs : Program.step E s0 (.form o) = .abort ↔ Program.typed s0 o = true ∧ Formulation.step false W s0.form o = .abort := by
      simp only [Program.step]
      rw [Program.step_world h.names h.mfNames ho.2 E.ndebug, hd]
      split
      · next hty =>
        rw [hty]
        cases Formulation.step false W s0.form o <;> simp
      · next hty => simp [hty]
    rw [hs]
    have quiet : (∀ n, o ≠ .removeTask n) → (∀ n dur, o ≠ .removeRigidContact n dur) → (∀ cy t, o ≠ .compute cy t) →
        ¬ (Program.typed s0 o = true ∧ Formulation.step false W s0.form o = .abort) :=
      fun q1 q2 q3 q => C103_silent q1 q2 q3 q.2
    cases o with
    | removeTask n =>
      rw [show Program.typed s0 (.removeTask n) = true from rfl]
      simp only [true_and, Formulation.step]
      show _ ↔ ¬ (S.registered E W ops).hasTask W n
      unfold Registry.hasTask
      rw [← has_items hL fun it => it.isTask W n]
      by_cases hr : ∃ x ∈ L, x.1.isTask W n = true
      · obtain ⟨s1, e⟩ := removeTask_ok (nd := false) h.hygienic hi hL.coh hr
        rw [e]
        exact iff_of_false (fun e => (by cases e)) (fun q => q hr)
      · rw [removeTask_missing (nd := false) h.hygienic hi hL.coh ho.1 hr]
        exact iff_of_true rfl hr
    | removeRigidContact n dur =>
      rw [show Program.typed s0 (.removeRigidContact n dur) = true from rfl]
      simp only [true_and, Formulation.step]
      show _ ↔ dur ≤ 0 ∧ ¬ (S.registered E W ops).hasContact (fun c => (S.obj c).name) n
      unfold removeRigidContact
      split
      · next hp =>
        refine iff_of_false ?_ fun q => absurd hp (not_lt.2 q.1)
        apply not_abort_void
        split
        · exact fun e => (by cases e)
        · dsimp only
          split <;> exact fun e => (by cases e)
      · next hp =>
        unfold Registry.hasContact
        rw [← has_items hL fun it => it.isContact (fun c => (S.obj c).name) n]
        rw [show (fun c => (S.obj c).name) = cnames s0.form from hn.names.symm]
        by_cases hr : ∃ x ∈ L, x.1.isContact (cnames s0.form) n = true
        · obtain ⟨s1, e⟩ := removeContactNow_ok (nd := false) h.hygienic hi hL.coh hr
          rw [e]
          exact iff_of_false (fun e => (by cases e)) (fun q => q.2 hr)
        · rw [removeContactNow_missing (nd := false) h.hygienic hi hL.coh hr]
          exact iff_of_true rfl ⟨not_lt.1 hp, hr⟩
    | compute cy t => exact hm.elim
    | _ => exact iff_of_false (quiet (fun _ e => (by cases e)) (fun _ _ e => (by cases e)) (fun _ _ e => (by cases e))) id
  | compute w t =>
    have hst := program_story h
    have key := transitions_abort (kind := fun c => (S.obj c).kind) (nm := fun c => (S.obj c).name)
      (lim0 := (S.story E W ops).limits) (r := S.registered E W ops) h.hygienic (S.story E W ops).fading []
      { s0.form with t := t } (keeps_time hi t) (coh_congr hL.coh rfl rfl rfl rfl rfl rfl rfl) hL.items (congrFun hn.names)
      (program_kinds h) hst.limits
    dsimp only at key
    rw [← hst.trans, show ([] : List (Fading K)).map ofFading = [] from rfl] at key
    refine Iff.trans ?_ key
    simp only [Program.step, Program.compute, hd]
    cases hr : runTransitions false [] s0.form.trans { s0.form with t := t } with
    | ok f u =>
      refine iff_of_false ?_ fun e => (by cases e)
      dsimp only
      repeat' split
      all_goals exact fun e => (by cases e)
    | throw f => exact iff_of_false (fun e => (by cases e)) fun e => (by cases e)
    | abort => exact iff_of_true rfl rfl
    | ub => exact iff_of_false (fun e => (by cases e)) fun e => (by cases e)

theorem debug_rest {E : Program.Env K} {W : World} {S : Setup K} (hd : E.ndebug = false) :
    ∀ {post pre : List (Program.Op K)} {s0 : Program.State K},
    GoodProgram E W S pre s0 → EveryCall E (Orderly E W) s0 post →
    (∀ p o q, post = p ++ o :: q → S.May E W (pre ++ p) o) →
    ((∃ s, Program.run E s0 post = some s) ↔ ∀ p o q, post = p ++ o :: q → ¬ S.fails E W (pre ++ p) o)
  | [], pre, s0, h, _, _ => ⟨fun _ p o q e => (by cases p <;> cases e), fun _ => ⟨s0, rfl⟩⟩
  | o :: os, pre, s0, h, ho, hm => by
    have hmo := hm [] o os rfl
    rw [List.append_nil] at hmo
    have safe := step_safe h hmo
    have hst := C103_stops h hd hmo ho.1
    have next : ∀ s1, (Program.step E s0 o).state? = some s1 → Program.step E s0 o ≠ .abort →
        ((∃ s, Program.run E s0 (o :: os) = some s) ↔ ∀ p o' q, o :: os = p ++ o' :: q → ¬ S.fails E W (pre ++ p) o') := by
      intro s1 e1 hna
      have ho2 := ho.2
      rw [e1] at ho2
      have rest := debug_rest hd (good_snoc h hmo ho.1 e1) ho2 (by
        intro p o' q e
        have := hm (o :: p) o' q (by rw [e]; rfl)
        simpa using this)
      simp only [Program.run, e1]
      rw [rest]
      constructor
      · intro r p o' q e
        cases p with
        | nil => cases e; rw [List.append_nil]; exact fun f => hna (hst.2 f)
        | cons x p =>
          cases e
          have := r p o' q rfl
          rwa [List.append_assoc] at this
      · intro r p o' q e
        have := r (o :: p) o' q (by rw [e]; rfl)
        rw [List.append_assoc]
        exact this
    cases hs : Program.step E s0 o with
    | ub => have := safe.1; rw [hs] at this; cases this
    | abort =>
      refine iff_of_false ?_ fun q => ?_
      · rintro ⟨s, e⟩
        simp only [Program.run, hs] at e
        cases e
      · have := q [] o os rfl
        rw [List.append_nil] at this
        exact this (hst.1 hs)
    | ok s1 u =>
      have e1 : (Program.step E s0 o).state? = some s1 := by rw [hs]; rfl
      exact next s1 e1 (by rw [hs]; exact fun e => (by cases e))
    | throw s1 =>
      have e1 : (Program.step E s0 o).state? = some s1 := by rw [hs]; rfl
      exact next s1 e1 (by rw [hs]; exact fun e => (by cases e))

/-- **C103, debug builds.** A well-typed program (C91) runs to its end in a debug build exactly when no call of it fails by
the text. -/
theorem C103_debug {E : Program.Env K} {W : World} {S : Setup K} {ops : List (Program.Op K)} (h : WellTyped E W S ops)
    (hd : E.ndebug = false) :
    (∃ s, Program.run E S.start ops = some s) ↔ ∀ pre o post, ops = pre ++ o :: post → ¬ S.fails E W pre o :=
  debug_rest hd (start_good h) h.orderly fun p o q e => h.may p o q e

end

/-! ## Careful programs -/

section

variable {W : World} {obj : Nat → Contact K}

/-- The contacts that are being let go are registered under different names, and this began before now. -/
structure Held (nm : Nat → String) (r : Registry K) (st : Story K) : Prop where
  since : ∀ p ∈ st.fading, p.since ≤ r.time
  there : ∀ p ∈ st.fading, r.hasContact nm (nm p.cid)
  names : (st.fading.map fun p => nm p.cid).Nodup

theorem isContact_setWeight (nm : Nat → String) (n : String) (w : K) (m : String) (it : Item K) :
    (it.setWeight W nm n w).isContact nm m = it.isContact nm m := by
  cases it <;> rfl

theorem isContact_setContactWeights (nm : Nat → String) (n : String) (wf wm : K) (m : String) (it : Item K) :
    (it.setContactWeights nm n wf wm).isContact nm m = it.isContact nm m := by
  cases it <;> rfl

theorem held_sub {nm : Nat → String} {r r' : Registry K} {st st' : Story K} (h : Held nm r st)
    (hs : st'.fading.Sublist st.fading) (ht : r.time ≤ r'.time)
    (hi : ∀ p ∈ st'.fading, r.hasContact nm (nm p.cid) → r'.hasContact nm (nm p.cid)) : Held nm r' st' :=
  ⟨fun p hp => (h.since p (hs.subset hp)).trans ht, fun p hp => hi p hp (h.there p (hs.subset hp)),
    h.names.sublist (hs.map _)⟩

theorem not_stops {kind : Nat → ContactKind} {st : Story K} {t : K} (h : st.stops kind t = false) :
    match st.fading.drop (st.fading.takeWhile fun p => p.lasts t && p.fits kind st.limits t).length with
    | [] => True
    | p :: _ => p.lasts t = false := by
  split
  · trivial
  · next p ps e =>
    by_contra hl
    rw [Bool.not_eq_false] at hl
    have := stops_iff.2 ⟨p, ps, e, hl⟩
    rw [h] at this; cases this

theorem held_cycle {nm : Nat → String} {kind : Nat → ContactKind} {r : Registry K} {st : Story K} {t : K} {threw : Bool}
    (h : Held nm r st) (ht : r.time ≤ t) (hb : r.breaking = st.fading.map fun p => (p.since + p.dur, p.cid))
    (hx : threw = false → st.stops kind t = false) :
    Held nm (if threw then { r with time := t } else r.expire nm t) (st.cycle kind t) := by
  have happ := List.prefix_iff_eq_append.1 (List.takeWhile_prefix (fun p => p.lasts t && p.fits kind st.limits t) (l := st.fading))
  have hon : ∀ p ∈ st.fading.takeWhile (fun p => p.lasts t && p.fits kind st.limits t), p.lasts t = true := by
    intro p hp
    have := List.all_eq_true.1 (List.all_takeWhile (l := st.fading) (p := fun p => p.lasts t && p.fits kind st.limits t)) p hp
    rw [Bool.and_eq_true] at this
    exact this.1
  have hns : threw = false → _ := fun e => not_stops (hx e)
  unfold Story.cycle
  dsimp only
  generalize st.fading.takeWhile (fun p => p.lasts t && p.fits kind st.limits t) = on at happ hon hns ⊢
  have hnone : (on.map fun p => (p.since + p.dur, p.cid)).find? (fun b => decide (b.1 < t)) = none := by
    rw [List.find?_eq_none]
    intro b hb2
    obtain ⟨p, hp, rfl⟩ := List.mem_map.1 hb2
    have := of_decide_eq_true (hon p hp)
    simpa using this
  cases hd : st.fading.drop on.length with
  | nil =>
    rw [hd, List.append_nil] at happ
    dsimp only
    cases threw with
    | true => exact held_sub h (List.Sublist.refl _) ht fun _ _ q => q
    | false =>
      simp only [Bool.false_eq_true, if_false]
      unfold Registry.expire
      rw [show r.breaking.find? (fun b => decide (b.1 < t)) = none by rw [hb, ← happ]; exact hnone]
      exact held_sub h (List.Sublist.refl _) ht fun _ _ q => q
  | cons p ps =>
    rw [hd] at happ
    dsimp only
    cases threw with
    | true =>
      simp only [if_true]
      split
      · exact held_sub h (List.Sublist.refl _) ht fun _ _ q => q
      · refine held_sub h ?_ ht fun _ _ q => q
        dsimp only
        rw [← happ]
        exact (List.sublist_cons_self p ps).append_left on
    | false =>
      have hl := hns rfl
      rw [hd] at hl
      dsimp only at hl
      simp only [hl, Bool.false_eq_true, if_false]
      unfold Registry.expire
      have hlt : p.since + p.dur < t := by
        have := of_decide_eq_false hl
        exact not_le.1 this
      have hfind : r.breaking.find? (fun b => decide (b.1 < t)) = some (p.since + p.dur, p.cid) := by
        rw [hb, ← happ, List.map_append, List.find?_append, hnone, List.map_cons,
          List.find?_cons_of_pos (by simpa using hlt)]
        rfl
      rw [hfind]
      refine held_sub h ?_ ht ?_
      · dsimp only
        rw [← happ]
        exact (List.sublist_cons_self p ps).append_left on
      · rintro q hq ⟨it, h1, h2⟩
        refine ⟨it, List.mem_filter.2 ⟨h1, ?_⟩, h2⟩
        have hne : nm q.cid ≠ nm p.cid := by
          intro e
          have hn := h.names
          rw [← happ, List.map_append, List.map_cons, List.nodup_middle, List.nodup_cons, ← List.map_append] at hn
          exact hn.1 (e ▸ List.mem_map_of_mem (f := fun p => nm p.cid) hq)
        cases it with
        | task => cases h2
        | contact cid pr a b =>
          have e : nm cid = nm q.cid := by simpa [Item.isContact] using h2
          simp [Item.isContact, e, hne]

theorem held_next {r : Registry K} {st : Story K} {o : Formulation.Op K} {threw : Bool}
    (h : Held (fun c => (obj c).name) r st) (hc : Careful W obj r st o)
    (hb : r.breaking = st.fading.map fun p => (p.since + p.dur, p.cid))
    (hx : ∀ cy t, o = .compute cy t → threw = false → st.stops (fun c => (obj c).kind) t = false) :
    Held (fun c => (obj c).name) (r.next W (fun c => (obj c).name) threw o) (st.next obj r o) := by
  have more : ∀ it, Held (fun c => (obj c).name) { r with items := r.items ++ [it] } st := fun it =>
    held_sub h (List.Sublist.refl _) le_rfl fun p _ ⟨x, h1, h2⟩ => ⟨x, List.mem_append_left _ h1, h2⟩
  cases o with
  | addMotionTask tid w p d => cases threw <;> first | exact h | exact more _
  | addForceTask tid w p d => cases threw <;> first | exact h | exact more _
  | addActuationTask tid w p d => cases threw <;> first | exact h | exact more _
  | updateTaskWeight n w =>
    exact held_sub h (List.Sublist.refl _) le_rfl fun p _ ⟨x, h1, h2⟩ =>
      ⟨_, List.mem_map_of_mem h1, by rw [isContact_setWeight]; exact h2⟩
  | addRigidContact cid wf wm p => exact more _
  | updateRigidContactWeights n wf wm =>
    exact held_sub h (List.Sublist.refl _) le_rfl fun p _ ⟨x, h1, h2⟩ =>
      ⟨_, List.mem_map_of_mem h1, by rw [isContact_setContactWeights]; exact h2⟩
  | addMeasuredForce m => exact held_sub h (List.Sublist.refl _) le_rfl fun _ _ q => q
  | removeMeasuredForce n => exact held_sub h (List.Sublist.refl _) le_rfl fun _ _ q => q
  | removeTask n =>
    refine held_sub h (List.Sublist.refl _) le_rfl ?_
    rintro p - ⟨x, h1, h2⟩
    refine ⟨x, List.mem_filter.2 ⟨h1, ?_⟩, h2⟩
    cases x with
    | task => cases h2
    | contact => rfl
  | removeRigidContact n dur =>
    obtain ⟨-, hne⟩ := hc
    simp only [Story.next, Registry.next]
    by_cases hd : 0 < dur
    · rw [if_pos hd, if_pos hd]
      cases hf : (r.items.filterMap Item.cid?).find? (fun c => (obj c).name == n) with
      | none => cases threw <;> exact h
      | some c =>
        have hcn : (obj c).name = n := by simpa using List.find?_some hf
        have hmem := List.mem_of_find?_eq_some hf
        obtain ⟨it, hit, hic⟩ := List.mem_filterMap.1 hmem
        have key : ∀ r' : Registry K, r'.items = r.items → r'.time = r.time → ∀ top goal,
            Held (fun c => (obj c).name) r' { st with fading := st.fading ++ [⟨c, r.time, dur, top, goal⟩] } := by
          intro r' e1 e2 top goal
          refine ⟨fun p hp => ?_, fun p hp => ?_, ?_⟩
          · rw [e2]
            rcases List.mem_append.1 hp with hp | hp
            · exact h.since p hp
            · rw [List.mem_singleton.1 hp]
          · unfold Registry.hasContact
            rw [e1]
            rcases List.mem_append.1 hp with hp | hp
            · exact h.there p hp
            · rw [List.mem_singleton.1 hp]
              refine ⟨it, hit, ?_⟩
              cases it with
              | task => cases hic
              | contact cid => cases hic; simp [Item.isContact]
          · rw [List.map_append, List.map_singleton, List.nodup_append]
            refine ⟨h.names, List.nodup_singleton _, ?_⟩
            intro a ha b hb2
            rw [List.mem_singleton.1 hb2]
            obtain ⟨p, hp, rfl⟩ := List.mem_map.1 ha
            show (obj p.cid).name ≠ (obj c).name
            rw [hcn]
            exact hne p hp
        cases threw
        · exact key { r with breaking := r.breaking ++ [(r.time + dur, c)] } rfl rfl _ _
        · exact key r rfl rfl _ _
    · rw [if_neg hd, if_neg hd]
      cases threw with
      | true => exact h
      | false =>
        refine held_sub h (List.Sublist.refl _) le_rfl ?_
        rintro p hp ⟨x, h1, h2⟩
        refine ⟨x, List.mem_filter.2 ⟨h1, ?_⟩, h2⟩
        cases x with
        | task => cases h2
        | contact cid pr a b =>
          have e : (obj cid).name = (obj p.cid).name := by simpa [Item.isContact] using h2
          simp [Item.isContact, e, hne p hp]
  | removeFromHqpData n => exact h
  | resizeHqpData => exact h
  | compute cy t => exact held_cycle h hc hb (hx cy t rfl)
  | decode x =>
    simp only [Story.next, Registry.next]
    split
    · exact held_sub h (List.Sublist.refl _) le_rfl fun _ _ q => q
    · exact h
  | setContact c u => exact held_sub h (List.Sublist.refl _) le_rfl fun _ _ q => q
  | setAssociated tid n => exact h

theorem story_after_append : ∀ (a b : List (Formulation.Op K × Bool)) (st : Story K) (r : Registry K),
    st.after obj W r (a ++ b) = (st.after obj W r a).after obj W (r.after W (fun c => (obj c).name) a) b
  | [], _, _, _ => rfl
  | (o, threw) :: a, b, st, r => by
    simp only [List.cons_append, Story.after]
    rw [story_after_append a b]
    rfl

/-- A cycle of the formulation that returns is one that the text does not stop. -/
theorem formulation_returns {nd : Bool} {s : Tsid.State K} {st : Story K} (hk : ∀ c, (s.contactObj c).kind = (obj c).kind)
    (h : Tells s st) {cy : Cycle K} {t : K} {s' : Tsid.State K} (hs : (Formulation.step nd W s (.compute cy t)).state? = some s')
    (hn : (Formulation.step nd W s (.compute cy t)).threw = false) : st.stops (fun c => (obj c).kind) t = false := by
  have key := runTransitions_story (nd := nd) (kind := fun c => (obj c).kind) (lim0 := st.limits) st.fading []
    { s with t := t } hk h.limits h.trans
  dsimp only at key
  rw [← h.trans, show ([] : List (Fading K)).map ofFading = [] from rfl] at key
  simp only [Formulation.step, computeProblemData] at hs hn
  by_contra hst
  rw [Bool.not_eq_false] at hst
  obtain ⟨p, ps, e, hl⟩ := stops_iff.1 hst
  rw [e] at key
  cases hr : runTransitions nd [] s.trans { s with t := t } with
  | ok f u =>
    rw [hr] at key
    dsimp only at key
    rw [key.2.2.1] at hl; cases hl
  | throw f => rw [hr] at hn; cases hn
  | abort => rw [hr] at hs; cases hs
  | ub => rw [hr] at hs; cases hs

end

section

variable {E : Program.Env K} {W : World} {S : Setup K}

theorem held_program {ops : List (Program.Op K)} {s0 s1 : Program.State K} (h : GoodProgram E W S ops s0)
    {o : Program.Op K} (hg : GoodProgram E W S (ops ++ [o]) s1)
    (hs : (Program.step E s0 o).state? = some s1) (hc : S.careful E W ops o)
    (hh : Held (fun c => (S.obj c).name) (S.registered E W ops) (S.story E W ops)) :
    Held (fun c => (S.obj c).name) (S.registered E W (ops ++ [o])) (S.story E W (ops ++ [o])) := by
  obtain ⟨ht, -⟩ := program_tidy h
  obtain ⟨hi, hn, L, hL, -⟩ := tidy_impl ht
  have hL : Impl W s0.form (S.registered E W ops) L := hL
  have hst := program_story h
  have ht1 := (program_tidy hg).1
  have hfc : formCalls E S.start (ops ++ [o]) = formCalls E S.start ops ++ formCall E s0 o := by
    rw [Program.formCalls_append ops [o] _ _ h.run]
    simp only [formCalls, hs, List.append_nil]
  have hout := outcomes_append (nd := E.ndebug) (W := W) (formCalls E S.start ops) (formCall E s0 o) _ _ ht.run
  have e1 : S.registered E W (ops ++ [o]) = (S.registered E W ops).after W (fun c => (S.obj c).name)
      (outcomes E.ndebug W s0.form (formCall E s0 o)) := by
    unfold Setup.registered registrations Registry.after
    rw [hfc, hout, List.foldl_append]
  have e2 : S.story E W (ops ++ [o]) = (S.story E W ops).after S.obj W (S.registered E W ops)
      (outcomes E.ndebug W s0.form (formCall E s0 o)) := by
    unfold Setup.story
    rw [hfc, hout, story_after_append]
    rfl
  have hrun : ∃ s', Formulation.run E.ndebug W s0.form (formCall E s0 o) = some s' := by
    have := ht1.run
    rw [hfc] at this
    obtain ⟨s2, a, b⟩ := run_append_some _ _ _ _ this
    rw [ht.run] at a
    cases a
    exact ⟨_, b⟩
  have hb : (S.registered E W ops).breaking = (S.story E W ops).fading.map fun p => (p.since + p.dur, p.cid) := by
    rw [← hL.breaking, hst.trans, List.map_map]
    rfl
  have one : ∀ f, formCall E s0 o = [f] → Careful W S.obj (S.registered E W ops) (S.story E W ops) f →
      Held (fun c => (S.obj c).name) (S.registered E W (ops ++ [o])) (S.story E W (ops ++ [o])) := by
    intro f ef hcf
    rw [ef] at e1 e2 hrun
    obtain ⟨s', hr⟩ := hrun
    simp only [Formulation.run] at hr
    cases hsf : (Formulation.step E.ndebug W s0.form f).state? with
    | none => rw [hsf] at hr; cases hr
    | some s2 =>
      simp only [outcomes, hsf] at e1 e2
      rw [e1, e2]
      exact held_next hh hcf hb fun cy t e hth => by
        subst e
        exact formulation_returns (program_kinds h) hst hsf hth
  have none : formCall E s0 o = [] →
      Held (fun c => (S.obj c).name) (S.registered E W (ops ++ [o])) (S.story E W (ops ++ [o])) := by
    intro ef
    rw [ef] at e1 e2
    rw [e1, e2]
    exact hh
  cases o with
  | form f => exact one f rfl hc
  | associate tid cid n => exact one _ rfl trivial
  | compute w t => exact one _ rfl hc
  | task tid c => exact none rfl
  | motion cid c => exact none rfl
  | measured mid c => exact none rfl

/-- A careful call does not fail. -/
theorem careful_not_fails {ops : List (Program.Op K)} {o : Program.Op K} (hc : S.careful E W ops o)
    (hh : Held (fun c => (S.obj c).name) (S.registered E W ops) (S.story E W ops)) : ¬ S.fails E W ops o := by
  have cycle : ∀ t, (S.registered E W ops).time ≤ t → ¬ (S.story E W ops).fails (fun c => (S.obj c).kind)
      (fun c => (S.obj c).name) (S.registered E W ops) t := by
    rintro t ht ⟨pre, p, post, e, -, hf⟩
    have hp : p ∈ (S.story E W ops).fading := by rw [e]; simp
    rcases hf with hf | ⟨-, hf⟩
    · exact absurd ((hh.since p hp).trans ht) (not_le.2 hf)
    · exact hf (hh.there p hp)
  cases o with
  | form f =>
    cases f with
    | removeTask n => exact fun q => q hc
    | removeRigidContact n dur => exact fun q => q.2 (hc.1 q.1)
    | compute cy t => exact cycle t hc
    | _ => exact id
  | compute w t => exact cycle t hc
  | _ => exact id

theorem careful_rest (hd : E.ndebug = false) : ∀ {post pre : List (Program.Op K)} {s0 : Program.State K},
    GoodProgram E W S pre s0 → EveryCall E (Orderly E W) s0 post →
    (∀ p o q, post = p ++ o :: q → S.May E W (pre ++ p) o) →
    (∀ p o q, post = p ++ o :: q → S.careful E W (pre ++ p) o) →
    Held (fun c => (S.obj c).name) (S.registered E W pre) (S.story E W pre) →
    ∃ s, GoodProgram E W S (pre ++ post) s
  | [], pre, s0, h, _, _, _, _ => ⟨s0, by rw [List.append_nil]; exact h⟩
  | o :: os, pre, s0, h, ho, hm, hc, hh => by
    have hmo := hm [] o os rfl
    have hco := hc [] o os rfl
    rw [List.append_nil] at hmo hco
    have safe := step_safe h hmo
    have hna : Program.step E s0 o ≠ .abort := fun e => careful_not_fails hco hh ((C103_stops h hd hmo ho.1).1 e)
    have next : ∀ s1, (Program.step E s0 o).state? = some s1 → ∃ s, GoodProgram E W S (pre ++ o :: os) s := by
      intro s1 e1
      have ho2 := ho.2
      rw [e1] at ho2
      have hg := good_snoc h hmo ho.1 e1
      obtain ⟨s, hs⟩ := careful_rest hd hg ho2
        (by intro p o' q e; have := hm (o :: p) o' q (by rw [e]; rfl); simpa using this)
        (by intro p o' q e; have := hc (o :: p) o' q (by rw [e]; rfl); simpa using this)
        (held_program h hg e1 hco hh)
      exact ⟨s, by simpa using hs⟩
    cases hs : Program.step E s0 o with
    | ub => have := safe.1; rw [hs] at this; cases this
    | abort => exact absurd hs hna
    | ok s1 u => exact next s1 (by rw [hs]; rfl)
    | throw s1 => exact next s1 (by rw [hs]; rfl)

/-- **C103, careful programs.** A well-typed program that removes only what is registered, does nothing to a contact while
it is being let go, and whose times do not decrease runs to its end in a debug build. -/
theorem C103_careful {ops : List (Program.Op K)} (h : WellTyped E W S ops) (hd : E.ndebug = false)
    (hc : ∀ pre o post, ops = pre ++ o :: post → S.careful E W pre o) : ∃ s, GoodProgram E W S ops s :=
  careful_rest hd (start_good h) h.orderly (fun p o q e => h.may p o q e) (fun p o q e => hc p o q e)
    ⟨fun p hp => (by cases hp), fun p hp => (by cases hp), List.nodup_nil⟩

end

/-! ## Solvers -/

theorem same_solve {R C : Type} {D : Solve.Driver K R C} (hD : ∀ fresh s n neq nin,
      SameOrStops (D.backend.resize fresh false s n neq nin) (D.backend.resize fresh true s n neq nin))
    (fresh : Nat → Nat → K) (freshI : Nat → Int) (engine : Solver.State K R → Vec K → Solve.Answer C K)
    (s : Solve.Object K R) (p : HQPData K) :
    SameOrStops (Solve.solve D fresh freshI false engine s p) (Solve.solve D fresh freshI true engine s p) := by
  have hr : SameOrStops (Solver.retrieve D.backend fresh false s.st p D.reg)
      (Solver.retrieve D.backend fresh true s.st p D.reg) := by
    unfold Solver.retrieve
    split
    · exact same_rfl _
    · cases p with
      | nil => exact same_rfl _
      | cons l0 ls =>
        cases l0 with
        | nil =>
          dsimp only
          rcases hD fresh { s.st with rows := D.backend.pre [] s.st.rows } s.st.n 0 0 with h | h
          · rw [h]; exact .inl rfl
          · rw [h]; exact .inr rfl
        | cons q l =>
          dsimp only
          by_cases hc : (q :: l).any (fun q' => q'.2.cols ≠ q.2.cols) = true
          · exact .inl (by rw [if_pos (by rw [hc]; rfl)])
          · rw [if_neg (by simpa using hc), if_neg (by simp)]
            rcases hD fresh { s.st with rows := D.backend.pre (q :: l) s.st.rows } q.2.cols (D.backend.count (q :: l)).1
              (D.backend.count (q :: l)).2 with h | h
            · rw [h]; exact .inl rfl
            · rw [h]; exact .inr rfl
  unfold Solve.solve
  rcases hr with hr | hr
  · rw [hr]; exact .inl rfl
  · rw [hr]; exact .inr rfl

/-- **C103, solvers.** What an object of one of the six solver classes hands to the external solver, and what it makes of
the answer, does not depend on the build, unless an assertion of the debug build fails. -/
theorem C103_solve (fresh : Nat → Nat → K) (freshI : Nat → Int) (p : HQPData K) :
    (∀ engine s, SameOrStops (Solve.solve Solve.eiq fresh freshI false engine s p) (Solve.solve Solve.eiq fresh freshI true engine s p)) ∧
    (∀ engine s, SameOrStops (Solve.solve Solve.fast fresh freshI false engine s p) (Solve.solve Solve.fast fresh freshI true engine s p)) ∧
    (∀ engine s, SameOrStops (Solve.solve Solve.rt fresh freshI false engine s p) (Solve.solve Solve.rt fresh freshI true engine s p)) ∧
    (∀ engine s, SameOrStops (Solve.solve Solve.prox fresh freshI false engine s p) (Solve.solve Solve.prox fresh freshI true engine s p)) ∧
    (∀ engine s, SameOrStops (Solve.solve Solve.osqp fresh freshI false engine s p) (Solve.solve Solve.osqp fresh freshI true engine s p)) ∧
    (∀ engine s, SameOrStops (Solve.solve Solve.mad fresh freshI false engine s p) (Solve.solve Solve.mad fresh freshI true engine s p)) := by
  refine ⟨fun _ _ => same_solve (fun _ _ _ _ _ => same_rfl _) _ _ _ _ _, fun _ _ => same_solve (fun _ _ _ _ _ => same_rfl _) _ _ _ _ _,
    fun _ _ => same_solve (fun f s n neq nin => ?_) _ _ _ _ _, fun _ _ => same_solve (fun _ _ _ _ _ => same_rfl _) _ _ _ _ _,
    fun _ _ => same_solve (fun _ _ _ _ _ => same_rfl _) _ _ _ _ _, fun _ _ => same_solve (fun _ _ _ _ _ => same_rfl _) _ _ _ _ _⟩
  show SameOrStops (Solver.Rt.resize f false s n neq nin) (Solver.Rt.resize f true s n neq nin)
  unfold Solver.Rt.resize
  split
  · exact same_rfl _
  · exact .inl rfl

/-! ## Cases -/

namespace ArmDemo

theorem outcomes_ops : outcomes false world f0 fops = [(.addMotionTask 0 2 1 0, false), (.addRigidContact 0 1 1 0, false),
    (.addMotionTask 1 1 0 0, false), (.addMeasuredForce 0, false)] := by
  simp only [fops, outcomes, form1, form2, form3, form4, Res.state?, Res.threw]

theorem registered_ops : setup.registered env world ops = ⟨[.task .motion 0 1 2, .contact 0 0 1 1, .task .motion 1 0 1], [0], 0, []⟩ := by
  unfold Setup.registered
  rw [form_calls]
  unfold registrations
  rw [show init setup.robot setup.obj (fun tid => (setup.task tid).assoc) = f0 from rfl,
    show env.ndebug = false from rfl, outcomes_ops]
  rfl

theorem story_ops : (setup.story env world ops).fading = [] := by
  unfold Setup.story
  rw [form_calls]
  rw [show init setup.robot setup.obj (fun tid => (setup.task tid).assoc) = f0 from rfl,
    show env.ndebug = false from rfl, outcomes_ops]
  rfl

/-- The arm lets go of its contact gradually. -/
noncomputable def letting : List (Program.Op ℝ) := ops ++ [.form (.removeRigidContact "tip" 4)]

theorem wellTyped_letting : WellTyped env world setup letting where
  names := good.names
  mfNames := good.mfNames
  hygienic := good.hygienic
  nv := good.nv
  na := good.na
  motors := good.motors
  nqa := good.nqa
  difference := good.difference
  contacts := good.contacts
  built := good.built
  builtContact := good.builtContact
  builtMeasured := good.builtMeasured
  orderly := by
    unfold letting
    rw [everyCall_append good.run]
    refine ⟨good.orderly, ⟨trivial, trivial⟩, ?_⟩
    split <;> trivial
  may := by
    refine split_cons trivial <| split_cons ?_ <| split_cons trivial <| split_cons trivial <|
      split_cons ⟨rfl, Nat.one_lt_two⟩ <| split_cons Nat.zero_lt_two <| split_cons ⟨rfl, Nat.zero_lt_two⟩ <|
      split_cons trivial <| split_cons trivial ?_
    · rintro v ⟨⟩
    · intro pre o post e
      cases pre <;> cases e

/-- This takes care. -/
example : ∃ s, GoodProgram env world setup letting s := by
  refine C103_careful wellTyped_letting rfl ?_
  refine split_cons trivial <| split_cons trivial <| split_cons trivial <| split_cons trivial <|
      split_cons trivial <| split_cons trivial <| split_cons trivial <|
      split_cons trivial <| split_cons ?_ ?_
  · refine ⟨fun h => absurd h (by norm_num), fun p hp => ?_⟩
    have hp : p ∈ (setup.story env world ops).fading := hp
    rw [story_ops] at hp
    cases hp
  · intro pre o post e
    cases pre <;> cases e

/-- The same program in both builds. -/
example : ∃ s, Program.run env setup.start ops = some s ∧ Program.run release setup.start ops = some s :=
  ⟨_, good.run, C103_same env ops _ _ good.run⟩

end ArmDemo

/-- How a cycle after a history ends: 0 returns, 1 throws, 2 stops at an assertion, 3 undefined behaviour. -/
def ending (nd : Bool) (ops : List (Formulation.Op ℚ)) (t : ℚ) : Option Nat :=
  (Formulation.run nd Demo.world Demo.start ops).map fun s => match computeProblemData nd Demo.cycle t s with
    | .ok _ _ => 0
    | .throw _ => 1
    | .abort => 2
    | .ub => 3

/-- **C103, a contact that is let go twice.** A user who calls the gradual removal of a contact twice stops a debug build at
an assertion in the cycle after the one in which the contact was removed; a release build goes on. -/
theorem C103_twice :
    let ops : List (Formulation.Op ℚ) := [.addRigidContact 2 1 1 0, .compute Demo.cycle 0, .removeRigidContact "toe" 4,
      .removeRigidContact "toe" 4, .compute Demo.cycle 5]
    ending false ops 6 = some 2 ∧ ending true ops 6 = some 0 := by decide +kernel

/-- **C103, a contact that is removed while it is let go.** A user who removes a contact at once although its gradual
removal is under way stops a debug build at an assertion when the time of the gradual removal is over. -/
theorem C103_at_once :
    let ops : List (Formulation.Op ℚ) := [.addRigidContact 2 1 1 0, .compute Demo.cycle 0, .removeRigidContact "toe" 4,
      .removeRigidContact "toe" 0]
    ending false ops 3 = some 0 ∧ ending false ops 5 = some 2 ∧ ending true ops 5 = some 0 := by decide +kernel

/-- **C103, a simulation that starts again.** If the time goes back while a contact is let go, a debug build stops at an
assertion; a release build goes on. -/
theorem C103_back :
    let ops : List (Formulation.Op ℚ) := [.addRigidContact 2 1 1 0, .compute Demo.cycle 7, .removeRigidContact "toe" 4]
    ending false ops 0 = some 2 ∧ ending true ops 0 = some 0 := by decide +kernel

end Tsid.Props
