import Verif.Spec.Gradual
import Verif.Props.Exceptions

/-!
# C110: programs that let contacts go gradually can be checked by reading them
-/

set_option linter.unusedSectionVars false

namespace Tsid.Props

open Spec Finset Formulation Program

variable {K : Type} [Field K] [LinearOrder K] [FloorRing K] [HasSqrt K] [IsStrictOrderedRing K] [LawfulSqrt K]

/-- A gradual removal never throws. -/
theorem gradual_silent (nd : Bool) (W : World) (f : Tsid.State K) (n : String) (d : K) :
    (Formulation.step nd W f (.removeRigidContact n d)).threw = false := by
  simp only [Formulation.step]
  by_cases hd : 0 < d
  · cases hc : f.contacts.find? (fun c => (f.contactObj c.cid).name == n) with
    | none => simp only [removeRigidContact, if_pos hd, hc, void, Res.threw]
    | some c => rw [break_begins hd hc]; rfl
  · simp only [removeRigidContact, if_neg hd]
    cases hr : removeContactNow nd f n with
    | throw s => exact absurd hr removeContactNow_not_throw
    | _ => rfl

theorem note_threw (nd : Bool) (W : World) (nm : Nat → String) (f : Tsid.State K) (r : Registry K)
    {o : Formulation.Op K} (h1 : ∀ cy t, o ≠ .compute cy t) :
    r.next W nm (Formulation.step nd W f o).threw o = r.next W nm (refused o) o := by
  cases o with
  | removeRigidContact n d => rw [gradual_silent]; rfl
  | _ => exact refused_threw nd W nm f r h1 (fun n d e => by cases e)

/-- A cycle of the formulation that does not stop at an assertion throws exactly when the story says so. -/
theorem formulation_threw {W : World} {obj : Nat → Contact K} {nd : Bool} {s : Tsid.State K} {st : Story K}
    (hk : ∀ c, (s.contactObj c).kind = (obj c).kind)
    (h : Tells s st) {cy : Cycle K} {t : K} {s' : Tsid.State K} (hs : (Formulation.step nd W s (.compute cy t)).state? = some s') :
    (Formulation.step nd W s (.compute cy t)).threw = st.stops (fun c => (obj c).kind) t := by
  cases hn : (Formulation.step nd W s (.compute cy t)).threw with
  | false => exact (formulation_returns hk h hs hn).symm
  | true =>
    have key := runTransitions_story (nd := nd) (kind := fun c => (obj c).kind) (lim0 := st.limits) st.fading []
      { s with t := t } hk h.limits h.trans
    dsimp only at key
    rw [← h.trans, show ([] : List (Fading K)).map ofFading = [] from rfl] at key
    simp only [Formulation.step, computeProblemData] at hs hn
    symm
    cases hr : runTransitions nd [] s.trans { s with t := t } with
    | ok f u =>
      rw [hr] at hn
      dsimp only at hn
      split at hn <;> cases hn
    | throw f =>
      rw [hr] at key
      obtain ⟨-, -, -, -, k⟩ := key
      exact stops_iff.2 k
    | abort => rw [hr] at hn; cases hn
    | ub => rw [hr] at hn; cases hn

section
variable {E : Program.Env K} {W : World} {S : Setup K} {ops : List (Program.Op K)} {s0 : Program.State K}

theorem log_snoc (o : Program.Op K) : S.log W (ops ++ [o]) = S.note W (S.log W ops) o := by
  unfold Setup.log
  rw [List.foldl_append]
  rfl

theorem story_snoc (h : GoodProgram E W S ops s0) (o : Program.Op K) :
    S.story E W (ops ++ [o]) = (S.story E W ops).after S.obj W (S.registered E W ops)
      (outcomes E.ndebug W s0.form (formCall E s0 o)) := by
  obtain ⟨ht, -⟩ := program_tidy h
  unfold Setup.story
  rw [formCalls_snoc h.run, outcomes_append _ _ _ _ ht.run, story_after_append]
  rfl

theorem story_form (h : GoodProgram E W S ops s0) {o : Program.Op K} {f : Formulation.Op K}
    (e : formCall E s0 o = [f]) : S.story E W (ops ++ [o]) = (S.story E W ops).next S.obj (S.registered E W ops) f := by
  rw [story_snoc h, e]
  simp only [outcomes]
  split <;> rfl

theorem formulation_call (h : GoodProgram E W S ops s0) {w : Snapshot K} {t : K} {s1 : Program.State K}
    (hg : GoodProgram E W S (ops ++ [.compute w t]) s1) :
    ∃ s2, (Formulation.step E.ndebug W s0.form (.compute (cycleOf E w t s0) t)).state? = some s2 := by
  have h1 := (program_tidy h).1.run
  have h2 := (program_tidy hg).1.run
  rw [formCalls_snoc h.run] at h2
  obtain ⟨s2, a, b⟩ := run_append_some _ _ _ _ h2
  rw [h1] at a
  cases a
  simp only [formCall, Formulation.run] at b
  cases hs : (Formulation.step E.ndebug W s0.form (.compute (cycleOf E w t s0) t)).state? with
  | none => rw [hs] at b; cases b
  | some s3 => exact ⟨s3, rfl⟩

/-- What the induction carries. -/
structure Logged (E : Program.Env K) (W : World) (S : Setup K) (ops : List (Program.Op K)) (s : Program.State K) :
    Prop where
  good : GoodProgram E W S ops s
  typed : WellTyped E W S ops
  registered : S.registered E W ops = (S.log W ops).1
  story : S.story E W ops = (S.log W ops).2
  six : ∀ tid dt c n, S.decl tid = .force dt c n → Six (s.task tid)

theorem logged_registry (h : Logged E W S ops s0) (t : K) :
    S.registry E W ops t = (S.log W ops).1.expire (fun c => (S.obj c).name) t := by
  have : S.registry E W ops t = (S.registered E W ops).expire (fun c => (S.obj c).name) t := rfl
  rw [this, h.registered]

/-- A call that may follow the text may follow the program. -/
theorem passes_may (hD : Declared E W S) (h : Logged E W S ops s0) {o : Program.Op K} (hf : S.Passes E W ops o) :
    S.May E W ops o := by
  cases o with
  | task tid c => exact hf
  | associate tid cid n => exact ⟨hf.1, hf.2.1⟩
  | motion cid c => exact hf
  | measured mid c => exact hf
  | form o =>
    cases o with
    | addMotionTask tid w p d => exact ⟨hf.family, hf.level⟩
    | addForceTask tid w p d => exact ⟨hf.family, hf.level⟩
    | addActuationTask tid w p d => exact ⟨hf.family, hf.level⟩
    | addRigidContact cid wf wm p => exact hf.1
    | setContact cid u => exact hf
    | decode x =>
      show S.robot.nv + nForces S.obj ((S.registered E W ops).items.filterMap Item.cid?) ≤ x.size
      rw [h.registered]; exact hf
    | compute | setAssociated => exact hf.elim
    | _ => trivial
  | compute w t =>
    obtain ⟨h1, h2, h3, -⟩ := hf
    refine ⟨h1, h2, hD.classes, ?_, ?_⟩
    · rw [logged_registry h]
      exact fun fam tid p k hm => ⟨(h3 fam tid p k hm).1, (h3 fam tid p k hm).2.1⟩
    · rw [logged_registry h]
      exact fun fam tid p k hm => (h3 fam tid p k hm).2.2

/-- The constraint of a task that may be added is as announced. -/
theorem joins_announced (h : Logged E W S ops s0) {fam : Family} {tid p : Nat} (ha : S.Joins E W (S.log W ops).1 ops fam tid p) :
    (Program.world E s0).task tid = W.task tid := by
  have hg := h.good
  have hR : RobotOk E.robot := ⟨by rw [hg.nv, hg.na]; exact hg.motors, hg.nqa, hg.difference⟩
  have hname : (s0.task tid).con.name = E.name tid :=
    (TaskObj.run_keeps (Program.run_task hg.run tid)).trans (built_name (hg.built tid))
  have hshape : (s0.task tid).con.kind = (S.decl tid).kind ∧
      (s0.task tid).con.rows = (S.decl tid).rows E.robot (taskCalls tid ops) := by
    by_cases hd : NoForce (S.decl tid)
    · exact task_shape hR (hg.built tid) (Program.run_task hg.run tid) (history_good hg tid)
        (fun σ F hF p => Program.fold_history hF hg.run p) ha.whole hd
    · cases e : S.decl tid with
      | force dt c n =>
        obtain ⟨h1, h2⟩ := h.six tid dt c n e
        exact ⟨h1, by simp only [Constraint.rows, h1, h2]; rfl⟩
      | _ => rw [e] at hd; exact absurd trivial hd
  have e1 := hg.names tid
  have e2 := (hg.hygienic tid).1
  have e3 := ha.kind
  have e4 := ha.rows
  simp only [Program.world, hname, hshape.1, hshape.2]
  rw [← e3, ← e4, ← e1]
  conv_lhs => rw [show (W.task tid).name = (W.task tid).name from rfl]
  cases hw : W.task tid
  rw [hw] at e2
  simp_all

theorem passes_orderly (h : Logged E W S ops s0) {o : Program.Op K} (hf : S.Passes E W ops o) : Orderly E W s0 o := by
  obtain ⟨ht, -⟩ := program_tidy h.good
  obtain ⟨hi, hn, L, hL, -⟩ := tidy_impl ht
  have hL : Impl W s0.form (S.registered E W ops) L := hL
  have hitems : L.map Prod.fst = (S.log W ops).1.items := by rw [hL.items, h.registered]
  have fresh : ∀ tid, ¬ (S.log W ops).1.hasTask W (W.task tid).name →
      ∀ tl ∈ s0.form.motions ++ (s0.form.forces ++ s0.form.acts), (W.task tl.tid).name ≠ (W.task tid).name := by
    intro tid hno tl htl e
    obtain ⟨fam, p, k, hm⟩ := mem_items hL.coh (tid := tl.tid) (List.mem_map_of_mem htl)
    rw [hitems] at hm
    exact hno ⟨_, hm, by simp [Item.isTask, e]⟩
  cases o with
  | task tid c => trivial
  | associate tid cid n =>
    right
    intro tl htl e
    obtain ⟨fam, p, k, hm⟩ := mem_items hL.coh (tid := tl.tid) (List.mem_map_of_mem (by simp [htl]))
    rw [hitems, e] at hm
    exact hf.2.2 fam p k hm
  | motion cid c => trivial
  | measured mid c => trivial
  | form o =>
    cases o with
    | addMotionTask tid w p d => exact ⟨fresh tid hf.fresh, joins_announced h hf⟩
    | addForceTask tid w p d => exact ⟨fresh tid hf.fresh, joins_announced h hf⟩
    | addActuationTask tid w p d => exact ⟨fresh tid hf.fresh, joins_announced h hf⟩
    | addRigidContact cid wf wm p =>
      refine ⟨?_, trivial⟩
      intro cl hcl e
      have hcid : cl.cid ∈ (L.map Prod.fst).filterMap Item.cid? := by
        rw [contact_cids hL.coh]; exact List.mem_map_of_mem hcl
      rw [hitems] at hcid
      obtain ⟨it, q1, q2⟩ := List.mem_filterMap.1 hcid
      have hnames : ∀ c, (s0.form.contactObj c).name = (S.obj c).name := fun c => congrFun hn.names c
      rw [hnames, hnames] at e
      cases it with
      | task => cases q2
      | contact c p' a b =>
        simp only [Item.cid?, Option.some.injEq] at q2
        subst q2
        exact hf.2 ⟨_, q1, by simp [Item.isContact, e]⟩
    | removeTask n => exact ⟨hf.1, trivial⟩
    | removeFromHqpData n => exact hf.elim
    | compute => exact hf.elim
    | setAssociated => exact hf.elim
    | _ => exact ⟨trivial, trivial⟩
  | compute w t => trivial

/-- A call that may follow the text does not stop a debug build. -/
theorem passes_not_fails (h : Logged E W S ops s0) (hd : E.ndebug = false) {o : Program.Op K} (hf : S.Passes E W ops o) :
    ¬ S.fails E W ops o := by
  have hst := program_story h.good
  obtain ⟨ht, -⟩ := program_tidy h.good
  obtain ⟨hi, hn, L, hL, -⟩ := tidy_impl ht
  have hL : Impl W s0.form (S.registered E W ops) L := hL
  have cycle : ∀ t, ¬ (S.log W ops).2.fails (fun c => (S.obj c).kind) (fun c => (S.obj c).name) (S.log W ops).1 t →
      ¬ (S.story E W ops).fails (fun c => (S.obj c).kind) (fun c => (S.obj c).name) (S.registered E W ops) t := by
    intro t ht
    rw [h.registered, h.story]
    exact ht
  cases o with
  | form f =>
    cases f with
    | removeTask n =>
      intro q
      exact q (by rw [h.registered]; exact hf.2 hd)
    | removeRigidContact n dur =>
      intro q
      exact q.2 (by rw [h.registered]; exact hf hd q.1)
    | compute cy t => exact hf.elim
    | _ => exact id
  | compute w t => exact cycle t (hf.2.2.2 hd)
  | _ => exact id

/-- One more call. -/
theorem logged_snoc (hD : Declared E W S) (h : Logged E W S ops s0) {o : Program.Op K}
    (hf : S.Passes E W ops o) : ∃ s1, (Program.step E s0 o).state? = some s1 ∧ Logged E W S (ops ++ [o]) s1 := by
  have hm := passes_may hD h hf
  have ho := passes_orderly h hf
  have safe := step_safe h.good hm
  have hs : ∃ s1, (Program.step E s0 o).state? = some s1 := by
    cases hs : Program.step E s0 o with
    | ok s1 u => exact ⟨s1, rfl⟩
    | throw s1 => exact ⟨s1, rfl⟩
    | ub => have := safe.1; rw [hs] at this; cases this
    | abort =>
      cases hd : E.ndebug with
      | true =>
        obtain ⟨s1, e⟩ := safe.2 hd
        rw [hs] at e
        cases e
      | false => exact absurd ((C103_stops h.good hd hm ho).1 hs) (passes_not_fails h hd hf)
  obtain ⟨s1, hs⟩ := hs
  refine ⟨s1, hs, good_snoc h.good hm ho hs, wellTyped_snoc h.typed h.good.run hm ho, ?_, ?_, ?_⟩
  · rw [log_snoc]
    cases o with
    | form f =>
      rw [registered_form h.good (o := .form f) (f := f) rfl, h.registered]
      refine note_threw _ _ _ _ _ ?_
      rintro cy t rfl; exact hf
    | associate tid cid n =>
      rw [registered_form h.good (o := .associate tid cid n) (f := .setAssociated tid n) rfl, h.registered]
      rfl
    | compute w t =>
      have hret := C102_returns h.good hm.1 hm.2
      rw [h.story] at hret
      cases hc : Program.compute E w t s0 with
      | ok s u =>
        rw [hc] at hret
        rw [registered_cycle h.good hc, logged_registry h]
        simp only [Setup.note, hret, Bool.false_eq_true, if_false]
      | throw s =>
        rw [hc] at hret
        obtain ⟨s2, es⟩ := formulation_call h.good (good_snoc h.good hm ho hs)
        rw [registered_form h.good (o := .compute w t) rfl, formulation_threw (program_kinds h.good) (program_story h.good) es, h.story,
          h.registered]
        simp only [Setup.note, hret, if_true, Registry.next]
      | abort => simp only [Program.step, hc] at hs; cases hs
      | ub => simp only [Program.step, hc] at hs; cases hs
    | task | motion | measured =>
      rw [registered_snoc h.good, h.registered]
      rfl
  · rw [log_snoc]
    cases o with
    | form f => rw [story_form h.good (o := .form f) (f := f) rfl, h.registered, h.story]; rfl
    | associate tid cid n =>
      rw [story_form h.good (o := .associate tid cid n) (f := .setAssociated tid n) rfl, h.story]
      rfl
    | compute w t => rw [story_form h.good (o := .compute w t) rfl, h.story]; rfl
    | task | motion | measured =>
      rw [story_snoc h.good, h.story]
      rfl
  · intro tid dt c n hd
    have h6 := h.six tid dt c n hd
    cases o with
    | task i k =>
      simp only [Program.step] at hs
      split at hs
      · cases hs
      · have upd : ∀ ob, ((s0.task i).call E k).state? = some ob → Six (Function.update s0.task i ob tid) := by
          intro ob hob
          by_cases hi : tid = i
          · subst hi
            rw [Function.update_self]
            have ha : (S.decl tid).Accepts E.robot k := hf
            rw [hd] at ha
            exact six_call (.inl ha) hob h6
          · rw [Function.update_of_ne hi]; exact h6
        split at hs
        · rename_i ob u hob; cases hs; exact upd ob (by rw [hob]; rfl)
        · rename_i ob hob; cases hs; exact upd ob (by rw [hob]; rfl)
        · cases hs
        · cases hs
    | associate i cid m =>
      simp only [Program.step] at hs
      split at hs
      · split at hs
        · rename_i ob u hob
          cases hs
          show Six (Function.update s0.task i ob tid)
          by_cases hi : tid = i
          · subst hi
            rw [Function.update_self]
            exact six_call (R := E.robot) (dt := dt) (c := c) (n := n) (.inr ⟨cid, m, rfl⟩) (by rw [hob]; rfl) h6
          · rw [Function.update_of_ne hi]; exact h6
        · cases hs
      · cases hs
    | motion | measured =>
      simp only [Program.step] at hs
      split at hs <;> cases hs <;> exact h6
    | form f =>
      simp only [Program.step] at hs
      split at hs
      · split at hs <;> cases hs <;> exact h6
      · cases hs
    | compute w t =>
      cases hc : Program.compute E w t s0 with
      | ok s u =>
        simp only [Program.step, hc, Res.state?, Option.some.injEq] at hs
        subst hs
        exact six_cycle h.good hm.1 hm.2 hc hd h6
      | throw s =>
        simp only [Program.step, hc, Res.state?, Option.some.injEq] at hs
        subst hs
        unfold Program.compute at hc
        split at hc
        · split at hc
          · cases hc
          · split at hc <;> cases hc
        · cases hc; exact h6
        · cases hc
        · cases hc
      | abort => simp only [Program.step, hc] at hs; cases hs
      | ub => simp only [Program.step, hc] at hs; cases hs

theorem logged_start (hD : Declared E W S) : Logged E W S [] S.start := by
  have ht : WellTyped E W S [] := ⟨hD.names, hD.mfNames, hD.hygienic, hD.nv, hD.na, hD.motors, hD.nqa, hD.difference,
    hD.contacts, hD.built, hD.builtContact, hD.builtMeasured, trivial, fun pre o post e => (by simp at e)⟩
  refine ⟨start_good ht, ht, rfl, rfl, ?_⟩
  intro tid dt c n hd
  have hb := hD.built tid
  rw [hd] at hb
  have hb : S.start.task tid = .force (ForceTask.new (E.name tid) dt c n) := hb
  rw [hb]
  exact ⟨rfl, rfl⟩

theorem logged_run (hD : Declared E W S) : ∀ {ops : List (Program.Op K)}, Vetted E W S ops →
    ∃ s, Logged E W S ops s := by
  intro ops
  induction ops using List.reverseRecOn with
  | nil => exact fun _ => ⟨_, logged_start hD⟩
  | append_singleton ops o ih =>
    intro hc
    have hc' : Vetted E W S ops := fun pre o' post e => hc pre o' (post ++ [o]) (by rw [e]; simp)
    obtain ⟨s0, h⟩ := ih hc'
    obtain ⟨s1, -, h1⟩ := logged_snoc hD h (hc ops o [] rfl)
    exact ⟨s1, h1⟩


theorem logged_throws (hD : Declared E W S) (h : Logged E W S ops s0) {o : Program.Op K}
    (hf : S.Passes E W ops o) : (Program.step E s0 o).threw = true ↔ S.Declines E W ops o := by
  have hm := passes_may hD h hf
  have ho := passes_orderly h hf
  have hg := h.good
  have hR : RobotOk E.robot := ⟨by rw [hg.nv, hg.na]; exact hg.motors, hg.nqa, hg.difference⟩
  cases o with
  | task tid c =>
    have ha : (S.decl tid).Accepts E.robot c := hm
    have key := task_throws hR (hg.built tid) (Program.run_task hg.run tid) (history_good hg tid)
      (fun σ F hF p => Program.fold_history hF hg.run p) (calls := taskCalls tid ops) ha
    refine Iff.trans ?_ key
    simp only [Program.step, accepts_associate ha, Bool.false_eq_true, if_false]
    cases (s0.task tid).call E c <;> simp [Res.threw]
  | associate tid cid n =>
    refine iff_of_false ?_ id
    simp only [Program.step]
    repeat' split
    all_goals simp [Res.threw]
  | motion cid c =>
    obtain ⟨l, e1, e2, -⟩ := Program.run_motion hg.run cid
    have hb := hg.builtContact cid
    rw [← hg.nv] at hb
    refine Iff.trans ?_ (contact_throws hb e1 (c := c) hm)
    simp only [Program.step]
    cases (s0.motion cid).call E c <;> simp [Res.threw]
  | measured mid c =>
    refine iff_of_false ?_ id
    have : ((s0.measured mid).call c).threw = false := by
      unfold MeasuredObj.call
      split <;> rfl
    simp only [Program.step]
    revert this
    cases (s0.measured mid).call c <;> simp [Res.threw]
  | form o =>
    have hs : (Program.step E s0 (.form o)).threw = true ↔
        Program.typed s0 o = true ∧ (Formulation.step E.ndebug W s0.form o).threw = true := by
      simp only [Program.step]
      rw [Program.step_world hg.names hg.mfNames ho.2 E.ndebug]
      split
      · next hty =>
        rw [hty]
        cases Formulation.step E.ndebug W s0.form o <;> simp [Res.threw]
      · next hty => simp [hty, Res.threw]
    rw [hs]
    have hty : Program.typed s0 o = true := by
      have hstep := (step_safe hg hm).1
      by_contra hno
      simp only [Program.step, if_neg hno] at hstep
      cases hstep
    simp only [hty, true_and]
    have quiet : ∀ {r : Res (Tsid.State K) Bool}, r.threw = false → ¬ (void r).threw = true := by
      intro r hr
      cases r <;> simp_all [void, Res.threw]
    cases o with
    | addMotionTask tid w p d => exact (add_throws _ _ _ tid p w d).1
    | addForceTask tid w p d => exact (add_throws _ _ _ tid p w d).2.1
    | addActuationTask tid w p d => exact (add_throws _ _ _ tid p w d).2.2
    | setContact cid u =>
      have hl := (program_story hg).limits cid
      rw [h.story] at hl
      refine Iff.trans ?_ (applySet_throws (p := (S.log W ops).2.limits cid) (program_kinds hg cid) (by rw [← hl]; rfl)
        (by rw [← hl]; rfl) hm)
      simp only [Formulation.step]
      cases applySet (s0.form.contactObj cid) u <;> simp [Res.threw]
    | removeRigidContact n d =>
      refine iff_of_false ?_ id
      rw [gradual_silent]
      simp
    | removeTask n =>
      refine iff_of_false ?_ id
      simp only [Formulation.step, removeTask]
      repeat' split
      all_goals simp [void, Res.threw]
    | updateTaskWeight n w =>
      refine iff_of_false ?_ id
      simp only [Formulation.step, updateTaskWeight]
      repeat' split
      all_goals simp [void, Res.threw]
    | addRigidContact cid wf wm p =>
      refine iff_of_false ?_ id
      simp only [Formulation.step, addRigidContact]
      repeat' split
      all_goals simp [void, Res.threw]
    | updateRigidContactWeights n wf wm =>
      refine iff_of_false ?_ id
      simp only [Formulation.step, updateRigidContactWeights]
      repeat' split
      all_goals simp [void, Res.threw]
    | addMeasuredForce mid =>
      refine iff_of_false ?_ id
      simp only [Formulation.step, addMeasuredForce]
      repeat' split
      all_goals simp [void, Res.threw]
    | removeMeasuredForce n =>
      refine iff_of_false ?_ id
      simp only [Formulation.step, removeMeasuredForce]
      repeat' split
      all_goals simp [void, Res.threw]
    | decode x =>
      refine iff_of_false ?_ id
      simp only [Formulation.step]
      split <;> simp [Res.threw]
    | resizeHqpData => exact iff_of_false (by simp [Formulation.step, Res.threw]) id
    | removeFromHqpData n => exact hf.elim
    | compute cy t => exact hf.elim
    | setAssociated tid n => exact hf.elim
  | compute w t =>
    have hret := C102_returns hg hm.1 hm.2
    rw [h.story] at hret
    show (Program.compute E w t s0).threw = true ↔ (S.log W ops).2.stops (fun c => (S.obj c).kind) t = true
    obtain ⟨s1, e, -⟩ := logged_snoc hD h hf
    simp only [Program.step] at e
    cases hc : Program.compute E w t s0 with
    | ok s u => rw [hc] at hret; simp only at hret; simp [Res.threw, hret]
    | throw s => rw [hc] at hret; simp only at hret; simp [Res.threw, hret]
    | abort => rw [hc] at e; cases e
    | ub => rw [hc] at e; cases e

/-- **C110.** Every call of a vetted program ends with an exception exactly when the text says that it is refused; otherwise
it returns. -/
theorem C110_throws (hD : Declared E W S) {pre post : List (Program.Op K)} {o : Program.Op K}
    (hc : Vetted E W S (pre ++ o :: post)) :
    ∃ s0, Program.run E S.start pre = some s0 ∧ ((Program.step E s0 o).threw = true ↔ S.Declines E W pre o) ∧
      (¬ S.Declines E W pre o → ∃ s1, Program.step E s0 o = .ok s1 ()) := by
  have hc' : Vetted E W S pre := fun p o' q e => hc p o' (q ++ o :: post) (by rw [e]; simp)
  obtain ⟨s0, h⟩ := logged_run hD hc'
  have hf := hc pre o post rfl
  have key := logged_throws hD h hf
  refine ⟨s0, h.good.run, key, fun hno => ?_⟩
  obtain ⟨s1, e, -⟩ := logged_snoc hD h hf
  cases hs : Program.step E s0 o with
  | ok s u => exact ⟨s, rfl⟩
  | throw s => rw [hs] at key; exact absurd (key.1 rfl) hno
  | abort => rw [hs] at e; cases e
  | ub => rw [hs] at e; cases e

/-- **C110, whole programs.** A vetted program in which exceptions are not caught comes to its end exactly when no call of
the text is refused; it ends in the same state. -/
theorem C110_uncaught (hD : Declared E W S) (hc : Vetted E W S ops) :
    ((∃ s, uncaught E S.start ops = some s) ↔ Undeclined E W S ops) ∧
      (Undeclined E W S ops → uncaught E S.start ops = Program.run E S.start ops) := by
  have fwd : ∀ ops, Vetted E W S ops → Undeclined E W S ops → ∃ s, uncaught E S.start ops = some s := by
    intro ops
    induction ops using List.reverseRecOn with
    | nil => exact fun _ _ => ⟨_, rfl⟩
    | append_singleton ops o ih =>
      intro hc hu
      obtain ⟨s, e⟩ := ih (fun pre o' post e => hc pre o' (post ++ [o]) (by rw [e]; simp))
        (fun pre o' post e => hu pre o' (post ++ [o]) (by rw [e]; simp))
      obtain ⟨s0, e0, -, h1⟩ := C110_throws hD (pre := ops) (o := o) (post := []) hc
      rw [uncaught_run e] at e0
      cases e0
      obtain ⟨s1, e1⟩ := h1 (hu ops o [] rfl)
      exact ⟨s1, by rw [uncaught_append, e]; simp only [Option.bind_some, uncaught, e1]⟩
  refine ⟨⟨?_, fwd ops hc⟩, fun hu => ?_⟩
  · rintro ⟨s, e⟩ pre o post rfl hr
    rw [uncaught_append] at e
    cases hp : uncaught E S.start pre with
    | none => rw [hp] at e; cases e
    | some s1 =>
      rw [hp] at e
      obtain ⟨s0, e0, h1, -⟩ := C110_throws hD hc
      rw [uncaught_run hp] at e0
      cases e0
      have ht := h1.2 hr
      simp only [Option.bind_some, uncaught] at e
      cases hs : Program.step E s1 o with
      | ok => rw [hs] at ht; cases ht
      | _ => rw [hs] at e; cases e
  · obtain ⟨s, e⟩ := fwd ops hc hu
    rw [e, uncaught_run e]

/-- **C110.** A program whose text passes the check, contacts that are let go gradually included, runs to its end, in a release
build and in a debug build; it is well-typed and orderly, and what is registered after it, the limits of contact forces and the
contacts that are still being let go are what the text says. -/
theorem C110_runs (hD : Declared E W S) (hc : Vetted E W S ops) :
    ∃ s, Program.run E S.start ops = some s ∧ GoodProgram E W S ops s ∧ WellTyped E W S ops ∧
      S.registered E W ops = (S.log W ops).1 ∧ S.story E W ops = (S.log W ops).2 := by
  obtain ⟨s, h⟩ := logged_run hD hc
  exact ⟨s, h.good.run, h.good, h.typed, h.registered, h.story⟩

/-- **C110, with the solver (partial).** A cycle of a vetted program that is not refused returns, and every back-end whose
external solver keeps its promises and succeeds then delivers the best of the behaviours that obey the text, with the limits of
contact forces that the text says.  Missing: as in `C102_best_partial`. -/
theorem C110_best_partial (hD : Declared E W S) {pre post : List (Program.Op K)} {w : Snapshot K} {t : K}
    (hc : Vetted E W S (pre ++ .compute w t :: post))
    (hst : (S.log W pre).2.stops (fun c => (S.obj c).kind) t = false)
    (hu : ∀ fam tid k, .task fam tid 0 k ∈ ((S.log W pre).1.expire (fun c => (S.obj c).name) t).items →
      (S.decl tid).Upright w)
    (hv : S.Viable E W pre w t)
    (heq : ∀ fam tid k, .task fam tid 1 k ∈ ((S.log W pre).1.expire (fun c => (S.obj c).name) t).items →
      (S.decl tid).kind = .equality)
    (b : Bool) (st0 : Status.HQPStatus) (i : Int) (v : Solve.Objective K) :
    let lim := ((S.log W pre).2.cycle (fun c => (S.obj c).kind) t).limits
    ∃ s, Program.run E S.start (pre ++ [.compute w t]) = some s ∧
      FulfilsWith lim Solve.eiq (Solve.Eiq.init st0 i v) EiqSat (fun a => ∃ w, a.objective = .num w) true E W S pre w t s ∧
      FulfilsWith lim Solve.fast (Solve.Eiq.init st0 i v) EiqSat (fun a => a.code = .optimal) true E W S pre w t s ∧
      (∀ fresh freshI neq nin, (problem s.form).head?.map Solver.count = some (neq, nin) →
        FulfilsWith lim Solve.rt (Solve.Rt.init fresh freshI (nVar s.form) neq nin st0 i v) EiqSat
          (fun a => a.code = .optimal) true E W S pre w t s) ∧
      FulfilsWith lim Solve.prox (Solve.Prox.init st0 i v) ProxSat (fun a => a.code = .solved) false E W S pre w t s ∧
      FulfilsWith lim Solve.osqp (Solve.Osqp.init st0 i v) OsqpSat (fun a => a.code = .solved) false E W S pre w t s ∧
      FulfilsWith lim Solve.mad (Solve.Mad.init b st0 i v) MadSat (fun a => a.code = .ok) true E W S pre w t s := by
  intro lim
  have hc' : Vetted E W S pre := fun p o q e => hc p o (q ++ .compute w t :: post) (by rw [e]; simp)
  obtain ⟨s0, h⟩ := logged_run hD hc'
  have hf := hc pre _ post rfl
  have hm := passes_may hD h hf
  obtain ⟨s, e, h'⟩ := logged_snoc hD h hf
  have hth := logged_throws hD h hf
  have hlim : S.limitsAt E W pre t = lim := by
    unfold Setup.limitsAt
    rw [h.story]
  simp only [Program.step] at e hth
  cases hcm : Program.compute E w t s0 with
  | ok s1 u =>
    rw [hcm] at e
    cases e
    have key := C102_best_partial h.good hm.1 hm.2 hcm (by rw [logged_registry h]; exact hu) hv
      (by rw [logged_registry h]; exact heq) b st0 i v
    rw [hlim] at key
    exact ⟨s, h'.good.run, key⟩
  | throw s1 =>
    rw [hcm] at hth
    have : (S.log W pre).2.stops (fun c => (S.obj c).kind) t = true := hth.1 rfl
    rw [hst] at this
    cases this
  | abort => rw [hcm] at e; cases e
  | ub => rw [hcm] at e; cases e

/-! ## Programs that remove contacts at once -/

/-- For texts that pass the check of C107 nothing is being let go, and the two readings agree. -/
theorem log_checked : ∀ {ops : List (Program.Op K)}, Checked E W S ops →
    (S.log W ops).1 = S.noted W ops ∧ (S.noted W ops).breaking = [] ∧ (S.log W ops).2.fading = [] := by
  intro ops
  induction ops using List.reverseRecOn with
  | nil => exact fun _ => ⟨rfl, rfl, rfl⟩
  | append_singleton ops o ih =>
    intro hc
    obtain ⟨h1, h2, h3⟩ := ih fun pre o' post e => hc pre o' (post ++ [o]) (by rw [e]; simp)
    have hf := hc ops o [] rfl
    have hb : (S.noted W (ops ++ [o])).breaking = [] := by
      rw [noted_snoc]
      refine breaking_read h2 ?_ ?_
      · rintro n d rfl; exact hf.1
      · rintro cy t rfl; exact hf
    refine ⟨?_, hb, ?_⟩
    · rw [log_snoc, noted_snoc]
      cases o with
      | form f => simp only [Setup.note, Registry.read, h1]
      | compute w t =>
        have hs : (S.log W ops).2.stops (fun c => (S.obj c).kind) t = false := by
          unfold Story.stops
          rw [h3]
          rfl
        simp only [Setup.note, Registry.read, hs, Bool.false_eq_true, if_false, h1]
        unfold Registry.expire
        simp only [h2, List.find?_nil]
      | _ => exact h1
    · rw [log_snoc]
      cases o with
      | form f =>
        cases f with
        | removeRigidContact n d =>
          have hd : ¬ 0 < d := not_lt.2 hf.1
          simp only [Setup.note, Story.next, if_neg hd]
          exact h3
        | decode x =>
          simp only [Setup.note, Story.next]
          split <;> exact h3
        | compute cy t => exact hf.elim
        | _ => exact h3
      | compute w t =>
        simp only [Setup.note, Story.cycle, h3, List.takeWhile_nil, List.length_nil, List.drop_nil]
      | _ => exact h3

/-- **C110, generality.** A text that passes the check of C107 passes this one. -/
theorem C110_checked (hc : Checked E W S ops) : Vetted E W S ops := by
  rintro pre o post rfl
  obtain ⟨h1, h2, h3⟩ := log_checked (E := E) (ops := pre) fun p o' q e => hc p o' (q ++ o :: post) (by rw [e]; simp)
  have hf := hc pre o post rfl
  cases o with
  | task tid c => exact hf
  | associate tid cid n => exact ⟨hf.1, hf.2.1, by rw [h1]; exact hf.2.2⟩
  | motion cid c => exact hf
  | measured mid c => exact hf
  | form f =>
    cases f with
    | addMotionTask tid w p d => exact ⟨hf.family, hf.level, by rw [h1]; exact hf.fresh, hf.kind, hf.rows, hf.whole⟩
    | addForceTask tid w p d => exact ⟨hf.family, hf.level, by rw [h1]; exact hf.fresh, hf.kind, hf.rows, hf.whole⟩
    | addActuationTask tid w p d => exact ⟨hf.family, hf.level, by rw [h1]; exact hf.fresh, hf.kind, hf.rows, hf.whole⟩
    | addRigidContact cid wf wm p => exact ⟨hf.1, by rw [h1]; exact hf.2⟩
    | removeTask n => exact ⟨hf.1, by rw [h1]; exact hf.2⟩
    | removeRigidContact n d => exact fun hd _ => (by rw [h1]; exact hf.2 hd)
    | setContact cid u => exact hf
    | decode x =>
      show _ ≤ x.size
      rw [h1]; exact hf
    | removeFromHqpData | compute | setAssociated => exact hf.elim
    | _ => trivial
  | compute w t =>
    have he : (S.log W pre).1.expire (fun c => (S.obj c).name) t = { S.noted W pre with time := t } := by
      rw [h1]
      unfold Registry.expire
      simp only [h2, List.find?_nil]
    refine ⟨hf.1, hf.2.1, by rw [he]; exact hf.2.2, ?_⟩
    rintro - ⟨p, q, r, e, -⟩
    rw [h3] at e
    simp at e

end

end Tsid.Props
