import Verif.Spec.Story
import Verif.Lemmas.Story
import Verif.Props.Release

/-!
# C102: any number of gradual removals
-/

set_option linter.unusedSectionVars false

namespace Tsid.Props

open Spec Formulation Finset

variable {K : Type} [Field K] [LinearOrder K] [IsStrictOrderedRing K] [FloorRing K] [HasSqrt K] [LawfulSqrt K]

/-! ## What the cycles of a story do -/

theorem takeWhile_all {α : Type} {q : α → Bool} : ∀ {l : List α}, (∀ a ∈ l, q a = true) → l.takeWhile q = l
  | [], _ => rfl
  | a :: l, h => by
    rw [List.takeWhile_cons_of_pos (h a List.mem_cons_self), takeWhile_all fun b hb => h b (List.mem_cons_of_mem _ hb)]

section

variable {kind : Nat → ContactKind} {st : Story K} {t : K}

omit [LawfulSqrt K] [HasSqrt K] [FloorRing K] in
/-- The limits of a cycle in which no time has run out. -/
theorem C102_window (hl : ∀ p ∈ st.fading, p.lasts t = true) (hf : ∀ p ∈ st.fading, p.fits kind st.limits t = true)
    (hn : (st.fading.map Fading.cid).Nodup) :
    (∀ p ∈ st.fading, (st.cycle kind t).limits p.cid = { st.limits p.cid with fMax := p.limit t }) ∧
    (∀ c, (∀ p ∈ st.fading, p.cid ≠ c) → (st.cycle kind t).limits c = st.limits c) ∧
    (st.cycle kind t).fading = st.fading := by
  have hon : (st.fading.takeWhile fun p => p.lasts t && p.fits kind st.limits t) = st.fading := by
    exact takeWhile_all fun p hp => by rw [hl p hp, hf p hp]; rfl
  have hc : st.cycle kind t = { st with limits := fade t st.fading st.limits, unread := true } := by
    unfold Story.cycle
    dsimp only
    rw [hon, List.drop_length]
  have key : ∀ (l : List (Fading K)) (lim : Nat → ForceLimits K), (l.map Fading.cid).Nodup →
      (∀ p ∈ l, fade t l lim p.cid = { lim p.cid with fMax := p.limit t }) ∧
      (∀ c, (∀ p ∈ l, p.cid ≠ c) → fade t l lim c = lim c) := by
    intro l
    induction l with
    | nil => intro lim _; exact ⟨fun p hp => (by cases hp), fun c _ => rfl⟩
    | cons q l ih =>
      intro lim hn
      rw [List.map_cons, List.nodup_cons] at hn
      obtain ⟨k1, k2⟩ := ih (Function.update lim q.cid { lim q.cid with fMax := q.limit t }) hn.2
      have hne : ∀ p ∈ l, p.cid ≠ q.cid := fun p hp e => hn.1 (e ▸ List.mem_map_of_mem hp)
      refine ⟨fun p hp => ?_, fun c hc => ?_⟩
      · rcases List.mem_cons.1 hp with rfl | hp
        · rw [show fade t (p :: l) lim = fade t l _ from rfl, k2 _ hne, Function.update_self]
        · rw [show fade t (q :: l) lim = fade t l _ from rfl, k1 p hp, Function.update_of_ne (hne p hp)]
      · rw [show fade t (q :: l) lim = fade t l _ from rfl, k2 c fun p hp => hc p (List.mem_cons_of_mem _ hp),
          Function.update_of_ne (Ne.symm (hc q List.mem_cons_self))]
  rw [hc]
  exact ⟨(key _ _ hn).1, (key _ _ hn).2, rfl⟩

omit [LawfulSqrt K] [HasSqrt K] [FloorRing K] [IsStrictOrderedRing K] in
/-- When the time of all contacts that are being let go has run out, a cycle lets the first one go, and the limits of all
others stay as they were: a robot that lets go of `n` contacts at once is rid of them after `n` cycles. -/
theorem C102_queue {p : Fading K} {ps : List (Fading K)} (hf : st.fading = p :: ps) (ho : p.lasts t = false) :
    st.cycle kind t = { st with fading := ps, unread := true } := by
  unfold Story.cycle
  dsimp only
  rw [hf, List.takeWhile_cons_of_neg (by rw [ho]; simp)]
  simp only [List.length_nil, List.drop_zero, ho, List.nil_append]
  rfl

theorem stops_iff : st.stops kind t = true ↔ ∃ p ps,
    st.fading.drop (st.fading.takeWhile fun p => p.lasts t && p.fits kind st.limits t).length = p :: ps ∧
      p.lasts t = true := by
  unfold Story.stops
  generalize st.limits = lim
  induction st.fading with
  | nil => simp
  | cons p ps ih =>
    cases h1 : p.lasts t with
    | false =>
      rw [List.takeWhile_cons_of_neg (by simp [h1]), List.takeWhile_cons_of_neg (by simp [h1])]
      simp [h1]
    | true =>
      cases h2 : p.fits kind lim t with
      | false =>
        rw [List.takeWhile_cons_of_pos (by simpa using h1), List.takeWhile_cons_of_neg (by simp [h1, h2])]
        simp [h1, h2]
      | true =>
        rw [List.takeWhile_cons_of_pos (by simpa using h1), List.takeWhile_cons_of_pos (by simp [h1, h2])]
        simp only [List.all_cons, h2, Bool.true_and, List.length_cons, List.drop_succ_cons]
        exact ih

end

/-! ## Programs -/

section

variable {E : Program.Env K} {W : World} {S : Setup K} {ops : List (Program.Op K)} {s0 s : Program.State K}
  {w : Snapshot K} {t : K}

theorem program_story (h : GoodProgram E W S ops s0) : Tells s0.form (S.story E W ops) :=
  tidy_story (program_tidy h).1

theorem program_kinds (h : GoodProgram E W S ops s0) (c : Nat) : (s0.form.contactObj c).kind = (S.obj c).kind := by
  obtain ⟨-, hn, -⟩ := tidy_impl (program_tidy h).1
  exact congrFun hn.kinds c

/-- **C102, limits.** Whatever an orderly program does, gradual removals of any number of contacts included: in the next
cycle the limits of contact forces are those of the story that the text tells. -/
theorem C102_limits (h : GoodProgram E W S ops s0) (hc : Program.compute E w t s0 = .ok s ()) (c : Nat) :
    ForceLimits.of (s.form.contactObj c) = S.limitsAt E W ops t c :=
  (compute_story (nd := E.ndebug) (program_kinds h) (program_story h)
    (by rw [Program.compute_form hc]; rfl)).limits c

/-- **C102 (partial).** What the problem that is handed to the solver says about a vector is what the text of the program
says about the behaviour that is decoded from it, whatever contacts are being removed gradually.  This has C99 and C100 as
special cases.  Missing: as in C92; the limits that tasks of combined joint limits at priority 0 impose can be kept
(`Viable`). -/
theorem C102_exact_partial (h : GoodProgram E W S ops s0) (hw : SnapshotOk E.robot.nv w)
    (hm : MayCycle E W S ops w t) (hc : Program.compute E w t s0 = .ok s ())
    (hu : ∀ fam tid k, .task fam tid 0 k ∈ (S.registry E W ops t).items → (S.decl tid).Upright w)
    (hv : S.Viable E W ops w t)
    (heq : ∀ fam tid k, .task fam tid 1 k ∈ (S.registry E W ops t).items → (S.decl tid).kind = .equality)
    {l0 l1 : Level K} (hp : problem s.form = [l0, l1]) {x : Vec K} (hx : x.size = nVar s.form) {b : Behaviour K}
    (hb : b.Decodes E W S ops t s.form x) :
    (Feasible l0 x ↔ IntendedWith (S.limitsAt E W ops t) E W S ops w t b) ∧
    lsqCost l1 x = S.losses E W ops w t b ∧ sqNorm (nVar s.form) x = S.effort E W ops t b :=
  exact_with h hw hm hc (fun c _ => C102_limits h hc c) hu hv heq hp hx hb

/-- **C102, with the solver (partial).** Whenever the external solver keeps its promises and succeeds, the getters return
the best of the behaviours that obey the text and the limits of the story.  Missing: as in `C102_exact_partial` and
C90. -/
theorem C102_best_partial (h : GoodProgram E W S ops s0) (hw : SnapshotOk E.robot.nv w)
    (hm : MayCycle E W S ops w t) (hc : Program.compute E w t s0 = .ok s ())
    (hu : ∀ fam tid k, .task fam tid 0 k ∈ (S.registry E W ops t).items → (S.decl tid).Upright w)
    (hv : S.Viable E W ops w t)
    (heq : ∀ fam tid k, .task fam tid 1 k ∈ (S.registry E W ops t).items → (S.decl tid).kind = .equality)
    (b : Bool) (st0 : Status.HQPStatus) (i : Int) (v : Solve.Objective K) :
    let lim := S.limitsAt E W ops t
    FulfilsWith lim Solve.eiq (Solve.Eiq.init st0 i v) EiqSat (fun a => ∃ w, a.objective = .num w) true E W S ops w t s ∧
    FulfilsWith lim Solve.fast (Solve.Eiq.init st0 i v) EiqSat (fun a => a.code = .optimal) true E W S ops w t s ∧
    (∀ fresh freshI neq nin, (problem s.form).head?.map Solver.count = some (neq, nin) →
      FulfilsWith lim Solve.rt (Solve.Rt.init fresh freshI (nVar s.form) neq nin st0 i v) EiqSat (fun a => a.code = .optimal)
        true E W S ops w t s) ∧
    FulfilsWith lim Solve.prox (Solve.Prox.init st0 i v) ProxSat (fun a => a.code = .solved) false E W S ops w t s ∧
    FulfilsWith lim Solve.osqp (Solve.Osqp.init st0 i v) OsqpSat (fun a => a.code = .solved) false E W S ops w t s ∧
    FulfilsWith lim Solve.mad (Solve.Mad.init b st0 i v) MadSat (fun a => a.code = .ok) true E W S ops w t s := by
  intro lim
  obtain ⟨l0, l1, hp, ha, hb⟩ := program_admissible h hw hm hc heq
  have hx := fun (x : Vec K) (hx : x.size = nVar s.form) => C99_decodes h hw hm hc hx
  have hd := fun (x : Vec K) (b : Behaviour K) (hx : x.size = nVar s.form) (hb : b.Decodes E W S ops t s.form x) =>
    C102_exact_partial h hw hm hc hu hv heq hp hx hb
  have he := fun (b : Behaviour K) (hb : IntendedWith lim E W S ops w t b) => C99_every h hw hm hc hb.dynamics
  obtain ⟨k1, k2, k3, k4, k5, k6⟩ := C85_solves_partial E.ndebug b st0 i v ha
  refine ⟨fulfils_of hp hx hd he k1, fulfils_of hp hx hd he k2, fun fresh freshI neq nin hcnt => ?_,
    fulfils_of hp hx hd he k4, fulfils_of hp hx hd he k5, fulfils_of hp hx hd he (k6 hb)⟩
  rw [hp] at hcnt
  simp only [List.head?_cons, Option.map_some, Option.some.injEq] at hcnt
  have := k3 fresh freshI
  rw [hcnt] at this
  exact fulfils_of hp hx hd he this

theorem runTransitions_abort {nd : Bool} : ∀ (l pre : List (Transition K)) (s : Tsid.State K),
    runTransitions nd pre l s = .abort → nd = false := by
  intro l
  induction l with
  | nil => intro pre s h; simp only [runTransitions] at h; cases h
  | cons tr rest ih =>
    intro pre s h
    unfold runTransitions at h
    split at h
    · next hn => exact hn.1
    split at h
    · cases hm : (s.contactObj tr.cid).setMaxNormalForce (interpolate tr s.t) with
      | ok c b => rw [hm] at h; exact ih _ _ h
      | throw c => rw [hm] at h; cases h
      | abort =>
        by_cases hk : (s.contactObj tr.cid).MaxOk (interpolate tr s.t)
        · rw [Contact.setMax_ok hk] at hm; cases hm
        · rw [Contact.setMax_not hk] at hm; cases hm
      | ub =>
        by_cases hk : (s.contactObj tr.cid).MaxOk (interpolate tr s.t)
        · rw [Contact.setMax_ok hk] at hm; cases hm
        · rw [Contact.setMax_not hk] at hm; cases hm
    · cases hr : removeContactNow nd s (s.contactObj tr.cid).name with
      | ok s1 b => rw [hr] at h; cases h
      | throw s1 => exact absurd hr removeContactNow_not_throw
      | abort =>
        unfold removeContactNow at hr
        dsimp only at hr
        split at hr
        · next hn => exact hn.2
        split at hr
        · next hn => exact hn.1
        split at hr <;> cases hr
      | ub => rw [hr] at h; cases h

/-- **C102, exceptions.** The next cycle returns, or it stops with an exception exactly when the limit of a contact that
is being let go would fall below the minimum (before a contact is gone), or a debug build stops at an assertion. -/
theorem C102_returns (h : GoodProgram E W S ops s0) (hw : SnapshotOk E.robot.nv w) (hm : MayCycle E W S ops w t) :
    match Program.compute E w t s0 with
    | .ok _ _ => (S.story E W ops).stops (fun c => (S.obj c).kind) t = false
    | .throw _ => (S.story E W ops).stops (fun c => (S.obj c).kind) t = true
    | .abort => E.ndebug = false
    | .ub => False := by
  have hub := C88_partial h hw hm
  have hst := program_story h
  have key := runTransitions_story (nd := E.ndebug) (kind := fun c => (S.obj c).kind) (lim0 := (S.story E W ops).limits)
    (S.story E W ops).fading [] { s0.form with t := t } (program_kinds h) hst.limits hst.trans
  dsimp only at key
  rw [List.nil_append, ← hst.trans, show ([] : List (Fading K)).map ofFading = [] from rfl] at key
  unfold Program.compute at hub ⊢
  cases hr : runTransitions E.ndebug [] s0.form.trans { s0.form with t := t } with
  | ok f u =>
    rw [hr] at key hub
    obtain ⟨-, -, k3⟩ := key
    have hno : (S.story E W ops).stops (fun c => (S.obj c).kind) t = false := by
      rw [Bool.eq_false_iff, ne_eq, stops_iff]
      rintro ⟨p, ps, e1, e2⟩
      rw [e1] at k3
      rw [k3.1] at e2
      cases e2
    dsimp only at hub ⊢
    split at hub
    · cases hub
    · split at hub
      · exact hno
      · cases hub
  | throw f =>
    rw [hr] at key
    obtain ⟨-, -, -, -, k⟩ := key
    exact stops_iff.2 k
  | abort => exact runTransitions_abort _ _ _ hr
  | ub => rw [hr] at hub; cases hub

/-- **C102, no gradual removals.** Without gradual removals the limits are those of the text, as in C99. -/
theorem C102_plain (h : GoodProgram E W S ops s0) (hn : NoGradualRemoval ops) (t : K) :
    S.limitsAt E W ops t = S.limitsOf ops := by
  have hst := program_story h
  obtain ⟨ht, -⟩ := program_tidy h
  have hlim : ∀ c, HasLimits true (s0.form.contactObj c) (S.obj c).kind (S.limitsOf ops c) ∧ s0.form.trans = [] := by
    intro c
    unfold Setup.limitsOf
    rw [← setsOf_text h.run]
    obtain ⟨k1, k2⟩ := run_limits (q := true) (cid := c) (kind := (S.obj c).kind) _ _ _ (ForceLimits.of (S.obj c))
      (fun _ => abrupt_text hn) (fun _ => rfl) ⟨rfl, rfl, rfl, fun _ => ⟨rfl, rfl⟩⟩ ht.run
    exact ⟨k1, k2 rfl⟩
  have hf : (S.story E W ops).fading = [] := by
    have := hst.trans
    rw [(hlim 0).2] at this
    exact List.map_eq_nil_iff.1 this.symm
  funext c
  unfold Setup.limitsAt Story.cycle
  dsimp only
  rw [hf]
  show (S.story E W ops).limits c = _
  rw [← hst.limits c]
  obtain ⟨⟨-, h1, h2, h3⟩, -⟩ := hlim c
  obtain ⟨h4, h5⟩ := h3 rfl
  unfold ForceLimits.of
  rw [h1, h2, h4, h5]

/-- **C102, where the line begins.** If the program lets a contact go right after it has read the solution of a cycle, the
limit begins at the normal force in that solution. -/
theorem C102_pushing {pre : List (Program.Op K)} {w0 : Snapshot K} {t0 : K} {x0 : Vec K} {b0 : Behaviour K}
    {sp sc : Program.State K} (h : GoodProgram E W S (pre ++ [.compute w0 t0, .form (.decode x0)]) s0)
    (hsp : Program.run E S.start pre = some sp) (hm : MayCycle E W S pre w0 t0)
    (hc : Program.compute E w0 t0 sp = .ok sc ()) (hx : x0.size = nVar sc.form)
    (hb : b0.Decodes E W S pre t0 sc.form x0) {c : Nat} (hcid : c ∈ S.cids E W pre t0) :
    let st := S.story E W (pre ++ [.compute w0 t0, .form (.decode x0)])
    st.normalForce S.obj ((S.registered E W (pre ++ [.compute w0 t0, .form (.decode x0)])).items.filterMap Item.cid?) c =
      if (S.obj c).kind = .twoFrames then 0 else S.pushing pre b0 c := by
  intro st
  have hg := good_prefix h hsp
  have hw0 : SnapshotOk E.robot.nv w0 := h.cycles w0 (by rw [snapshots_append]; exact List.mem_append_right _ List.mem_cons_self)
  have F := facts hg hw0 hm hc
  have hform := Program.compute_form hc
  obtain ⟨ht, -⟩ := program_tidy hg
  have hst0 : (Program.step E sp (.compute w0 t0)).state? = some sc := by simp only [Program.step, hc]; rfl
  have hrun := h.run
  rw [Program.run_append _ _ _ _ hsp] at hrun
  simp only [Program.run, hst0] at hrun
  split at hrun
  swap
  · cases hrun
  next s1 hst1 =>
  cases hrun
  have hd1 : decodeSolution sc.form x0 = some s0.form := by
    simp only [Program.step] at hst1
    split at hst1
    · cases hdec : decodeSolution sc.form x0 with
      | none => simp only [Formulation.step, hdec] at hst1; cases hst1
      | some f => simp only [Formulation.step, hdec] at hst1; cases hst1; rfl
    · cases hst1
  obtain ⟨f1, f2, f3⟩ := decode_frame hd1
  rw [F.cids] at hcid
  obtain ⟨cl, hcl, rfl⟩ := List.mem_map.1 hcid
  obtain ⟨-, -, -, -, -, -, -, hnd, -, hcoh, -⟩ := cycle_end ht hform
  have hfind : sc.form.contacts.find? (fun c => (sc.form.contactObj c.cid).name == (sc.form.contactObj cl.cid).name) = some cl :=
    find_contact hnd hcl
  have hre : Reachable E.ndebug W sp.form :=
    ⟨S.robot, S.obj, fun tid => (S.task tid).assoc, _, ht.motors, ht.built, ht.run⟩
  obtain ⟨f', r1, r2⟩ := C14_break_force_partial (dur := 1) hre hform hx hd1 one_pos hfind
  rw [break_begins one_pos (by rw [f1, f2]; exact hfind)] at r1
  cases r1
  dsimp only at r2
  rw [f3] at r2
  have r3 := List.append_cancel_left r2
  rw [List.cons.injEq] at r3
  have hbf : breakForce s0.form cl = normalForce (sc.form.contactObj cl.cid) fun i => x0 (sc.form.nv + cl.index + i) :=
    congrArg Transition.fStart r3.1
  obtain ⟨hi, -, L, hL, -⟩ := tidy_impl (program_tidy h).1
  have := breakForce_story hi hL (program_kinds h) (program_story h) (cl := cl) (by rw [f2]; exact hcl)
  refine this.symm.trans (hbf.trans ?_)
  obtain ⟨d, hd, hr, -⟩ := F.decode x0 hx
  have A := agrees_of F hd hr hb
  have hnv : sc.form.nv = S.robot.nv := by have := F.nVar; unfold Formulation.nVar at this; omega
  have hf : ∀ i, i < Contact.kindForce (S.obj cl.cid).kind → x0 (sc.form.nv + cl.index + i) = b0.force cl.cid i :=
    fun i hi => by rw [hnv, ← hr.of cl hcl, A.of cl hcl i hi]
  have hnormal : (sc.form.contactObj cl.cid).normal = (S.limitsOf pre cl.cid).normal :=
    (limits_text hg hc (q := false) (fun e => (by cases e)) cl.cid).2.1
  unfold normalForce Setup.pushing
  rw [F.kinds, hnormal]
  have hcorner : ∀ j, 3 * j + 2 < Contact.kindForce (S.obj cl.cid).kind →
      cornerForce (fun i => x0 (sc.form.nv + cl.index + i)) j = cornerForce (b0.force cl.cid) j := by
    intro j hj
    unfold cornerForce
    dsimp only
    rw [hf _ (by omega), hf _ (by omega), hf _ hj]
  cases hkk : (S.obj cl.cid).kind with
  | twoFrames => rw [if_pos rfl]
  | point =>
    rw [if_neg (by decide), show nPoints .point = 1 from rfl]
    simp only [sum_range_succ, range_zero, sum_empty, zero_add]
    rw [hcorner 0 (by rw [hkk]; decide)]
  | sixD =>
    rw [if_neg (by decide), show nPoints .sixD = 4 from rfl]
    simp only [sum_range_succ, range_zero, sum_empty, zero_add]
    rw [hcorner 0 (by rw [hkk]; decide), hcorner 1 (by rw [hkk]; decide), hcorner 2 (by rw [hkk]; decide),
      hcorner 3 (by rw [hkk]; decide)]

end

omit [LawfulSqrt K] in
/-- The same below programs: after any tidy history of the formulation, whatever the tasks compute. -/
theorem C102_formulation {nd : Bool} {W : World} {robot : Robot K} {obj : Nat → Contact K} {assoc : Nat → String}
    {ops : List (Formulation.Op K)} {cy : Cycle K} {t : K} {s0 s : State K} (h : TidyRun nd W robot obj assoc ops s0)
    (hc : computeProblemData nd cy t s0 = .ok s ()) (c : Nat) :
    ForceLimits.of (s.contactObj c) =
      (((Story.begin obj).after obj W Registry.empty (outcomes nd W (init robot obj assoc) ops)).cycle
        (fun c => (obj c).kind) t).limits c := by
  obtain ⟨-, hn, -⟩ := tidy_impl h
  exact (compute_story (nd := nd) (congrFun hn.kinds) (tidy_story h) (by rw [hc]; rfl)).limits c

/-! ## Two contacts at once -/

/-- "toe" (limits 1 and 10) and "sole" (limits 1 and 40) are let go at time 0, the sole more slowly. -/
def bothGo : List (Formulation.Op ℚ) :=
  [.addRigidContact 2 1 1 0, .addRigidContact 3 1 1 0, .compute Demo.cycle 0, .decode ⟨23, fun _ => 5⟩,
    .removeRigidContact "toe" 4, .removeRigidContact "sole" 8]

/-- The story that this text tells. -/
def bothTold : Story ℚ :=
  (Story.begin Demo.contacts).after Demo.contacts Demo.world Registry.empty
    (outcomes false Demo.world (init Demo.robot Demo.contacts Demo.assoc) bothGo)

/-- Both are being let go, from the forces in the solution. -/
example : bothTold.fading.map (fun p => (p.cid, p.since, p.dur, p.top, p.goal)) =
    [(2, 0, 4, 5, 1 + 1 / 1000), (3, 0, 8, 20, 1 + 1 / 1000)] := by decide +kernel

/-- Halfway through both maxima have fallen, along different lines; this is what the state says. -/
example : ∃ s0 s : State ℚ,
    TidyRun false Demo.world Demo.robot Demo.contacts Demo.assoc bothGo s0 ∧
    computeProblemData false Demo.cycle 2 s0 = .ok s () ∧
    (s.contactObj 2).fMax = 5 + (1 / 2) * (1 + 1 / 1000 - 5) ∧ (s.contactObj 3).fMax = 20 + (1 / 4) * (1 + 1 / 1000 - 20) := by
  obtain ⟨s0, s, h, hc, -⟩ := Demo.tidyCycle_exists (ops := bothGo) (cy := Demo.cycle) (t := 2)
    (p := fun _ _ => true) (by decide +kernel)
  refine ⟨s0, s, h, hc, ?_, ?_⟩
  · refine (congrArg ForceLimits.fMax (C102_formulation h hc 2)).trans ?_
    show ((bothTold.cycle _ 2).limits 2).fMax = _
    decide +kernel
  · refine (congrArg ForceLimits.fMax (C102_formulation h hc 3)).trans ?_
    show ((bothTold.cycle _ 2).limits 3).fMax = _
    decide +kernel

/-- In the cycle in which the toe is gone the limit of the sole, which is let go until time 8, does not fall: at time 6 it
is still what it was at time 2 (and what remains of the toe's own limit is its last value). -/
theorem C102_waits : ∃ s0 s : State ℚ,
    TidyRun false Demo.world Demo.robot Demo.contacts Demo.assoc
      (bothGo ++ [.compute Demo.cycle 2]) s0 ∧
    computeProblemData false Demo.cycle 6 s0 = .ok s () ∧ s.contacts.map ContactLevel.cid = [3] ∧
    (s.contactObj 3).fMax = 20 + (1 / 4) * (1 + 1 / 1000 - 20) ∧ (s.contactObj 3).fMax ≠ 20 + (3 / 4) * (1 + 1 / 1000 - 20) := by
  obtain ⟨s0, s, h, hc, hp⟩ := Demo.tidyCycle_exists (ops := bothGo ++ [.compute Demo.cycle 2])
    (cy := Demo.cycle) (t := 6)
    (p := fun _ s => decide (s.contacts.map ContactLevel.cid = [3])) (by decide +kernel)
  have e : (s.contactObj 3).fMax = 20 + (1 / 4) * (1 + 1 / 1000 - 20) := by
    refine (congrArg ForceLimits.fMax (C102_formulation h hc 3)).trans ?_
    show ((Story.cycle _ ((Story.begin Demo.contacts).after Demo.contacts Demo.world Registry.empty
      (outcomes false Demo.world (init Demo.robot Demo.contacts Demo.assoc)
        (bothGo ++ [.compute Demo.cycle 2]))) 6).limits 3).fMax = _
    decide +kernel
  exact ⟨s0, s, h, hc, of_decide_eq_true hp, e, by rw [e]; norm_num⟩

/-- A limit that would fall below the minimum stops the cycle: the minimum of the sole is raised to 30 afterwards. -/
example : (((Story.begin Demo.contacts).after Demo.contacts Demo.world Registry.empty
    (outcomes false Demo.world (init Demo.robot Demo.contacts Demo.assoc)
      (bothGo ++ [.setContact 3 (.fMin 30)]))).stops (fun c => (Demo.contacts c).kind) 2) = true := by
  decide +kernel

namespace ArmDemo

/-- The hypotheses can be met by a program of the real arm that lets go gradually: every cycle until the end returns, its
limits are those of the story, and the story does not stop. -/
example : ∃ b0 s3, GoodProgram env world setup (releaseText ops snap 0 resting "tip" 4 []) s3 ∧
    LetsGo env world setup ops snap 0 resting b0 "tip" 0 4 [] ∧
    ∀ t, 0 ≤ t → t ≤ 4 →
      (setup.story env world (releaseText ops snap 0 resting "tip" 4 [])).stops (fun c => (setup.obj c).kind) t = false ∧
      ∃ s, Program.compute env snap t s3 = .ok s () ∧ ∀ c, ForceLimits.of (s.form.contactObj c) =
        setup.limitsAt env world (releaseText ops snap 0 resting "tip" 4 []) t c := by
  obtain ⟨sp, b0, hg, hi, L⟩ := lets_go
  obtain ⟨s3, h3, hm⟩ := C100_starts hg snapOk L
  refine ⟨b0, s3, h3, L, fun t h1 h2 => ?_⟩
  have h2' : t ≤ 0 + 4 := by linarith
  have hmc := (hm t h2').2 snap (le_refl 3)
  obtain ⟨s, hs⟩ := C100_returns h3 L hi snapOk hmc h1 h2'
  have := C102_returns h3 snapOk hmc
  rw [hs] at this
  exact ⟨this, s, hs, C102_limits h3 hs⟩

end ArmDemo

end Tsid.Props
