import Verif.Spec.ProgramExact
import Verif.Props.ProgramSolve
import Verif.Props.ProgramRun
import Verif.Lemmas.ProgramLimits

/-!
# C92: the first level of the problem is what the text of the program asks for
-/

set_option linter.unusedSectionVars false

namespace Tsid.Props

open Spec Finset Formulation

variable {K : Type} [Field K] [LinearOrder K] [FloorRing K] [HasSqrt K] [IsStrictOrderedRing K] [LawfulSqrt K]

/-- An equality holds exactly when its squared residual vanishes. -/
theorem sat_zero {c : Constraint K} (hk : c.kind = .equality) (y : Nat → K) : Sat c y ↔ sqResidual c y = 0 := by
  unfold Sat sqResidual
  rw [hk]
  dsimp only
  rw [sum_eq_zero_iff_of_nonneg fun i _ => mul_self_nonneg _]
  simp only [mem_range, mul_self_eq_zero, Spec.residual, sub_eq_zero]

/-- The force constraint of a contact object says that the limits are respected. -/
theorem sat_limits {c : Contact K} (hd : ∃ p, Holds c.name c.kind c p) (f : Nat → K) :
    Sat c.forceIneq f ↔ (ForceLimits.of c).Respected c.kind f := by
  obtain ⟨p, hp⟩ := hd
  rw [hp.ineq]
  unfold ForceLimits.Respected ForceLimits.of
  rw [hp.normal, hp.mu, hp.fMin, hp.fMax]
  cases hk : c.kind with
  | point =>
    exact Contact.sat_friction (np := 1) (n := p.normal) (mu := p.mu) (fMin := p.fMin) (fMax := p.fMax) f
  | sixD =>
    exact Contact.sat_friction (np := 4) (n := p.normal) (mu := p.mu) (fMin := p.fMin) (fMax := p.fMax) f
  | twoFrames =>
    dsimp only
    have e : ∀ i, i < 3 → row (Mat.identity 3) f i = f i := by
      intro i hi
      unfold row
      show ∑ j ∈ range 3, (if i = j then (1 : K) else 0) * f j = f i
      rw [sum_eq_single i]
      · simp
      · intro j _ hj; simp [Ne.symm hj]
      · intro hh; exact absurd (mem_range.2 hi) hh
    show (∀ i, i < 3 → p.fMin ≤ row (Mat.identity 3) f i ∧ row (Mat.identity 3) f i ≤ p.fMax) ↔ _
    exact ⟨fun h i hi => by rw [← e i hi]; exact h i hi, fun h i hi => by rw [e i hi]; exact h i hi⟩

/-- After a cycle the constraint of a task says exactly what the text of the program asks for. -/
theorem task_asks {E : Program.Env K} (hR : RobotOk E.robot) {name : String} {d : TaskDecl K} {o0 o1 o2 : TaskObj K}
    {x : TaskObj.Ctx K} {hist calls : List (TaskCall K)} (hb : d.Built E.robot name o0)
    (hr : runOps (TaskObj.call E) o0 hist = some o1) (hg : ∀ c ∈ hist, GoodCall E.robot c)
    (hf : SameText calls hist) (hw : SnapshotOk E.robot.nv x.w) (hst : Stacked 0 x.cop)
    (hnm : ∀ dt contact cname, d = .force dt contact cname →
      lastName (calls.filterMap force?) cname ≠ "" ∧ lastName (calls.filterMap force?) cname ∈ x.names)
    (hc : o1.compute E x = some o2) (hu : d.Upright x.w) (y : Nat → K) :
    Sat o2.con y ↔ d.Asks E x calls hist o2 y := by
  have heq : d.kind = .equality → (Sat o2.con y ↔ d.Error E x calls hist y = 0) := by
    intro hk
    obtain ⟨h1, h2⟩ := task_error hR hb hr hg hf hw hst hnm hc hk
    rw [sat_zero h1, h2]
  have hdem := task_demands hR hb hr hg hf hw hst hnm hc
  cases d with
  | posVelAcc dt => exact Iff.rfl
  | capture gravity dt =>
    refine ⟨hdem.2.2 y, fun hy => ?_⟩
    unfold TaskObj.compute at hc
    obtain ⟨hdt, hgr, hz⟩ := hu
    obtain ⟨dr, rfl⟩ := hb
    obtain ⟨s, rfl, hr'⟩ := Program.unwrap (wrap := TaskObj.capture) (st := CaptureTask.step) (get := capture?) (fun s c => by cases c <;> rfl) hr
    simp only [TaskObj.cycleCall, TaskObj.call] at hc
    split at hc
    · next o2' u hl =>
      cases hc
      obtain ⟨s', a, e2, rfl⟩ := lift_ok hl
      have hq : (0 : K) < gravity.norm / x.w.com.pos.z := div_pos hgr hz
      have hw2 : (sqrt (gravity.norm / x.w.com.pos.z)) ^ 2 = gravity.norm / x.w.com.pos.z := by
        rw [sq]; exact LawfulSqrt.sq_sqrt _ hq.le
      have hw1 : 0 < sqrt (gravity.norm / x.w.com.pos.z) := by
        refine lt_of_le_of_ne (LawfulSqrt.sqrt_nonneg _) fun h0 => ?_
        rw [← h0] at hw2
        rw [sq, mul_zero] at hw2
        exact hq.ne hw2
      obtain ⟨s1, s2, c, e1, e3, -, -, e5⟩ := C42_capture (name := name) (nv := E.robot.nv) (d := dr)
        (hist.filterMap capture?) hdt hgr x.w.com hz _ hw1 hw2
      rw [hr'] at e1
      cases e1
      rw [e2] at e3
      cases e3
      show Sat s'.con y
      rw [capture_con e2]
      refine (e5 y).2 ?_
      have hy' := hy hdt hgr hz _ hw1 hw2
      rw [same_settings hf (after := CaptureSettings.after) (afterAll := CaptureSettings.afterAll) (fun _ => rfl)
        (fun _ _ _ => rfl) (fun p c o h1 h2 => by cases c <;> cases h2; cases o <;> first | rfl | cases h1)]
      exact hy'
    · cases hc
  | jointBounds dt =>
    refine ⟨hdem.2.2 y, fun hy => ?_⟩
    unfold TaskObj.compute at hc
    obtain ⟨s0, h0, rfl⟩ := hb
    obtain ⟨s, rfl, hr'⟩ := Program.unwrap (wrap := TaskObj.jointBounds) (st := JointBounds.step) (get := jointBounds?) (fun s c => by cases c <;> rfl) hr
    obtain ⟨s', c, e2, -, e4, e5⟩ := C28_bounds hR.na h0 hr' x.w.v hw.v
    simp only [TaskObj.cycleCall, TaskObj.call, JointBounds.step, e2, TaskObj.lift, Option.some.injEq] at hc
    subst hc
    simp only [TaskObj.con, jointBounds_con e2]
    rw [e5]
    rw [same_settings hf (after := fun p o => BoundSettings.after E.robot.na p o)
      (afterAll := fun p os => BoundSettings.afterAll E.robot.na p os) (fun _ => rfl)
      (fun _ _ _ => rfl) (fun p c o h1 h2 => by cases c <;> cases h2; cases o <;> first | rfl | cases h1)]
    exact hy
  | actBounds =>
    refine ⟨hdem.2.2 y, fun hy => ?_⟩
    unfold TaskObj.compute at hc
    obtain ⟨s0, h0, rfl⟩ := hb
    obtain ⟨s, rfl, hr'⟩ := Program.unwrap (wrap := TaskObj.actBounds) (st := ActBounds.step E.robot.na) (get := actBounds?) (fun s c => by cases c <;> rfl) hr
    obtain ⟨s1, e1, -, e4, e5⟩ := C43_bounds_partial h0
      (good_filter hg (get := actBounds?) (Q := TorqueLimits.GoodMask E.robot.na) (fun c o h h' => by cases c <;> cases h; exact h'))
    rw [hr'] at e1
    cases e1
    simp only [TaskObj.cycleCall, Option.some.injEq] at hc
    subst hc
    show Sat (ActBounds.compute s) y
    rw [e5]
    rw [same_settings hf (after := fun p o => TorqueLimits.after E.robot.na p o)
      (afterAll := fun p os => TorqueLimits.afterAll E.robot.na p os) (fun _ => rfl)
      (fun _ _ _ => rfl) (fun p c o h1 h2 => by cases c <;> cases h2; cases o <;> first | rfl | cases h1)]
    exact hy
  | _ => exact heq rfl

/-- **C92 (partial).** After any orderly program the first level of the problem asks for what the text of the program
says, no more and no less: a vector satisfies it exactly when the accelerations, forces and torques decoded from it
satisfy the equations of motion, make the error of every registered task of priority 0 vanish or keep its limits, make
the motion error of every contact of priority 0 vanish, and respect friction pyramid and limits of every registered
contact.
Missing: as in C87; for tasks of combined joint limits the constraint of the object is taken (C29–C35); the limits of the
contacts are those of the contact objects (`C92_friction`, `C92_limits`). -/
theorem C92_partial {E : Program.Env K} {W : World} {S : Setup K} {ops : List (Program.Op K)} {s0 s : Program.State K}
    (h : GoodProgram E W S ops s0) {w : Snapshot K} {t : K} (hw : SnapshotOk E.robot.nv w)
    (hm : MayCycle E W S ops w t) (hc : Program.compute E w t s0 = .ok s ())
    (hu : ∀ fam tid k, .task fam tid 0 k ∈ (S.registry E W ops t).items → (S.decl tid).Upright w)
    {l0 l1 : Level K} (hp : problem s.form = [l0, l1]) {x : Vec K} (hx : x.size = nVar s.form) {d : Decoded K}
    (hd : d.From s.form x (((S.registry E W ops t).items.filterMap Item.cid?).map fun c => (S.obj c).name)) :
    Feasible l0 x ↔ Obeyed E W S ops w t s d := by
  obtain ⟨ht, hno⟩ := program_tidy h
  have hform := Program.compute_form hc
  have hdesc : Described s.form :=
    compute_described (run_described _ _ _ (init_described ht.built) ht.run) (by rw [hform]; rfl)
  obtain ⟨f, s1, f', hf, hs, ha, rfl⟩ := Program.compute_ok hc
  have hcy : cycleOf E w t s0 = Program.cycle w s1 := by simp only [cycleOf, hf, hs]
  obtain ⟨-, hmot, hmea, htask⟩ := Program.computeObjects_some hs
  rw [hcy] at hform
  have hre : Reachable E.ndebug W s0.form :=
    ⟨S.robot, S.obj, fun tid => (S.task tid).assoc, _, ht.motors, ht.built, ht.run⟩
  obtain ⟨hrob, hnv, hnu, hasc, hmeas, hnames, hkinds, hnd, L, hcoh, hitems⟩ := cycle_end ht hform
  have hsz : CycleSizes f'.nv (Program.cycle w s1) := by
    rw [hnv, ← h.nv]; exact ⟨hw.mRows, hw.mCols, hw.nle⟩
  obtain ⟨q1, q2, q3, q4, q5⟩ := assemble_lists ha
  obtain ⟨hinv, -⟩ := tidy_impl ht
  obtain ⟨-, -, -, -, -, hinvs, -⟩ := compute_spec hinv hform
  have hitems' : (S.registry E W ops t).items = L.map Prod.fst := hitems.symm
  have hmeas' : (S.registry E W ops t).measured =
      (registrations E.ndebug W S.robot S.obj (fun tid => (S.task tid).assoc) (formCalls E S.start ops)).measured := by
    unfold Setup.registry Registry.expire
    split <;> rfl
  have hctx : ctx E w f' = ctx E w f := by simp only [ctx, q2, q3]
  have hR : RobotOk E.robot := ⟨by rw [h.nv, h.na]; exact h.motors, h.nqa, h.difference⟩
  have hnodup : (computed f).Nodup := by rw [← q1]; exact computed_nodup hcoh
  have hcids : (S.registry E W ops t).items.filterMap Item.cid? = f'.contacts.map ContactLevel.cid := by
    rw [hitems']; exact contact_cids hcoh
  have hcnd : (f.contacts.map ContactLevel.cid).Nodup := by rw [← q2]; exact contact_cids_nodup hcoh
  have linked := Program.run_linked h.run (fun tid => rfl)
  have hasc' : ∀ tid, f'.assoc tid = (s0.task tid).assoc := fun tid => (congrFun hasc tid).trans (linked tid)
  obtain ⟨dv, fo, tau, of⟩ := d
  obtain ⟨g1, g2, g3, gof⟩ := hd
  dsimp only at g1 g2 g3 gof
  -- one task
  have task : ∀ tid, tid ∈ computed f → (S.decl tid).Upright w →
      (∀ dt contact cname, S.decl tid = .force dt contact cname →
        lastName ((taskCalls tid ops).filterMap force?) cname ≠ "" ∧
        lastName ((taskCalls tid ops).filterMap force?) cname ∈ (ctx E w f').names) →
      ((s1.task tid).isActuation = false → (s1.task tid).con.kind = .bound → (s1.task tid).con.lb.size = E.robot.nv) ∧
      ((s1.task tid).isForce = true → (s1.task tid).con.kind = .equality) ∧
      ∀ y, Sat (s1.task tid).con y ↔ (S.decl tid).Asks E (ctx E w f') (taskCalls tid ops)
        (history E S.start ops tid) (s1.task tid) y := by
    intro tid hm hup hnm
    have hst : Stacked 0 (ctx E w f').cop := stacked_of_tiled _ _ _ _ _ hinvs.tiled
    have hcc : (s0.task tid).compute E (ctx E w f') = some (s1.task tid) := by
      rw [hctx]; exact each_once htask hnodup hm
    have hsame : SameText (taskCalls tid ops) (history E S.start ops tid) :=
      fun σ F hF p => Program.fold_history hF h.run p
    have a := task_demands hR (h.built tid) (Program.run_task h.run tid) (history_good h tid) hsame
      (x := ctx E w f') hw hst hnm hcc
    exact ⟨a.1, a.2.1, task_asks hR (h.built tid) (Program.run_task h.run tid) (history_good h tid) hsame
      (x := ctx E w f') hw hst hnm hcc hup⟩
  have cls : ∀ tid, (s1.task tid).isMotion = (S.task tid).isMotion ∧ (s1.task tid).isForce = (S.task tid).isForce ∧
      (s1.task tid).isActuation = (S.task tid).isActuation := by
    intro tid
    have c1 := TaskObj.run_class (Program.run_task h.run tid)
    have c2 := Program.step_class (E := E) (s := s0) (s' := { s1 with form := f' }) (o := .compute w t)
      (by simp only [Program.step, hc]; rfl) tid
    exact ⟨c2.1.trans c1.1, c2.2.1.trans c1.2.1, c2.2.2.trans c1.2.2⟩
  have noForce : ∀ tid, (S.task tid).isForce = false → ∀ dt contact cname, S.decl tid = .force dt contact cname → False := by
    intro tid hcl dt contact cname hd
    have hb := h.built tid
    rw [hd] at hb
    simp only [TaskDecl.Built] at hb
    rw [hb] at hcl
    cases hcl
  have hl0 : l0 = (1, f'.heap f'.baseId) :: (L.flatMap (ents 0)).map fun e => (e.1, f'.heap e.2) := by
    have : problem f' = [(1, f'.heap f'.baseId) :: (L.flatMap (ents 0)).map (fun e => (e.1, f'.heap e.2)),
        (L.flatMap (ents 1)).map (fun e => (e.1, f'.heap e.2))] := by
      unfold problem
      rw [hcoh.hqp]
      rfl
    rw [hp] at this
    injection this
  have hid : ∀ {e : K × Nat}, e ∈ L.flatMap (ents 0) → e.2 ∈ hqpIds f'.hqp := by
    intro e he
    rw [hcoh.hqp]
    exact mem_hqpIds.2 ⟨_, List.mem_cons_self .., e, List.mem_cons_of_mem _ he, rfl⟩
  -- the entries of a task
  have taskIff : ∀ fam tid k a b c, ((.task fam tid 0 k, a, b, c) : LItem K) ∈ L →
      (Sat (f'.heap a) x ↔ (S.decl tid).Asks E (ctx E w f') (taskCalls tid ops) (history E S.start ops tid) (s1.task tid)
        (S.read ops ⟨dv, fo, tau, of⟩ fam tid)) := by
    intro fam tid k a b c hy
    have hin : .task fam tid 0 k ∈ (S.registry E W ops t).items := by rw [hitems']; exact List.mem_map.2 ⟨_, hy, rfl⟩
    have hident : a ∈ hqpIds f'.hqp := hid (e := (k, a)) (List.mem_flatMap.2 ⟨_, hy, by simp [ents]⟩)
    have hcl := Program.registered_class h.run hin
    have hmem : tid ∈ computed f := by rw [← q1]; exact mem_computed hcoh (hitems' ▸ hin)
    have hup := hu _ _ _ hin
    obtain ⟨c1, c2, c3⟩ := cls tid
    cases fam with
    | motion =>
      have hne : (S.task tid).isForce = false ∧ (S.task tid).isActuation = false := by
        revert hcl
        cases S.task tid <;> intro hcl <;> first | exact ⟨rfl, rfl⟩ | cases hcl
      obtain ⟨t1, -, t3⟩ := task tid hmem hup (fun dt c n hd => (noForce tid hne.1 dt c n hd).elim)
      have htl : (⟨tid, 0, a⟩ : TaskLevel) ∈ f'.motions := by
        rw [hcoh.motions]; exact List.mem_filterMap.2 ⟨_, hy, by simp [taskOf]⟩
      obtain ⟨dv', b1, -, b2⟩ := C03_motion_tasks hre hform hsz x hx _ htl (fun hk => by
        rw [hnv, ← h.nv]; exact t1 (c3.trans hne.2) hk)
      rw [g1] at b1
      cases b1
      exact b2.1.trans (t3 dv)
    | actuation =>
      have hne : (S.task tid).isForce = false := by
        revert hcl
        cases S.task tid <;> intro hcl <;> first | rfl | cases hcl
      obtain ⟨-, -, t3⟩ := task tid hmem hup (fun dt c n hd => (noForce tid hne dt c n hd).elim)
      have htl : (⟨tid, 0, a⟩ : TaskLevel) ∈ f'.acts := by
        rw [hcoh.acts]; exact List.mem_filterMap.2 ⟨_, hy, by simp [taskOf]⟩
      obtain ⟨tau', b1, -, b2⟩ := C02_actuation_tasks hre hform hsz x hx _ htl hident
      rw [g3] at b1
      cases b1
      exact b2.1.trans (t3 tau)
    | force =>
      have htl : (⟨tid, 0, a⟩ : TaskLevel) ∈ f'.forces := by
        rw [hcoh.forces]; exact List.mem_filterMap.2 ⟨_, hy, by simp [taskOf]⟩
      have hsays := C05_force_tasks_partial ht.motors ht.built ht.run hno hform hsz x hx _ htl hident
      obtain ⟨-, -, g3'⟩ := cols_family (ctx E w f) (taskCalls tid ops) (h.built tid)
      rcases g3' hcl with ⟨hd, ho⟩ | ⟨dt, c, n, hd, ho⟩
      · obtain ⟨-, t2, t3⟩ := task tid hmem hup (fun dt c n hd' => by rw [hd] at hd'; cases hd')
        have t1 := t2 (c2.trans hcl)
        have ha0 : f'.assoc tid = "" := by rw [hasc' tid]; exact cop_assoc h.run ho
        obtain ⟨fo', b1, b2⟩ := hsays.2 ha0 (fun hk => by
          rw [show (Program.cycle w s1).forceOut tid = (s1.task tid).con from rfl, t1] at hk; cases hk)
        rw [g2] at b1
        cases b1
        have e := b2.1.trans (t3 fo)
        have hread : S.read ops ⟨dv, fo, tau, of⟩ .force tid = fo := by simp only [Setup.read, hd]
        rw [hread]
        exact e
      · have hsup := hm.supported _ _ _ _ hin
        rw [hd] at hsup
        obtain ⟨hn, hcid, hcn, -, -⟩ := hsup
        have hof := gof _ (List.mem_map.2 ⟨_, hcid, rfl⟩)
        rw [hcn] at hof
        rw [hcids] at hcid
        obtain ⟨cl, hcl', e0⟩ := List.mem_map.1 hcid
        rw [← e0] at hcn
        have hname : (f'.contactObj cl.cid).name = lastName ((taskCalls tid ops).filterMap force?) n :=
          (hnames cl.cid).trans hcn
        obtain ⟨-, t2, t3⟩ := task tid hmem hup (fun dt' c' n' hd' => by
          rw [hd] at hd'
          cases hd'
          exact ⟨hn, by rw [← hname]; exact List.mem_map.2 ⟨cl, hcl', rfl⟩⟩)
        have t1 := t2 (c2.trans hcl)
        have ha0 : f'.assoc tid = lastName ((taskCalls tid ops).filterMap force?) n := by
          rw [hasc' tid]; exact force_assoc h.run ho
        have hfind := find_contact hnd hcl'
        rw [hname, ← ha0] at hfind
        obtain ⟨fc, b1, b2⟩ := hsays.1 cl (by rw [ha0]; exact hn) hfind (fun hk => by
          rw [show (Program.cycle w s1).forceOut tid = (s1.task tid).con from rfl, t1] at hk; cases hk)
        rw [ha0, hof] at b1
        have hread : S.read ops ⟨dv, fo, tau, of⟩ .force tid = of (lastName ((taskCalls tid ops).filterMap force?) n) := by
          simp only [Setup.read, hd]
        rw [hread]
        cases b1
        exact b2.1.trans (t3 _)
  -- the entries of a contact
  have contactIff : ∀ cid p wm wf a b c, ((.contact cid p wm wf, a, b, c) : LItem K) ∈ L →
      (p = 0 → (Sat (f'.heap a) x ↔ (S.cdecl cid).Error E w (contactCalls cid ops) dv = 0)) ∧
      (Sat (f'.heap b) x ↔ (ForceLimits.of (f'.contactObj cid)).Respected (S.obj cid).kind (of (S.obj cid).name)) := by
    intro cid p wm wf a b c hy
    have hin : .contact cid p wm wf ∈ (S.registry E W ops t).items := by rw [hitems']; exact List.mem_map.2 ⟨_, hy, rfl⟩
    have hcid : cid ∈ (S.registry E W ops t).items.filterMap Item.cid? := List.mem_filterMap.2 ⟨_, hin, rfl⟩
    have hmem : cid ∈ f.contacts.map ContactLevel.cid := by rw [← q2, ← hcids]; exact hcid
    obtain ⟨l, r1, r2, r3⟩ := Program.run_motion h.run cid
    have hb := h.builtContact cid
    rw [← h.nv] at hb
    obtain ⟨k1, k2⟩ := contact_error hb r1 (h.contactArgs cid) r2 r3 hw (each_once hmot hcnd hmem)
    have hst : (cid, a, b, c) ∈ f'.contacts.map strip := by
      rw [hcoh.contacts]
      exact List.mem_filterMap.2 ⟨_, hy, rfl⟩
    obtain ⟨cl, hcl, e⟩ := List.mem_map.1 hst
    simp only [strip, Prod.mk.injEq] at e
    obtain ⟨rfl, rfl, rfl, rfl⟩ := e
    obtain ⟨fc, dv', a1, a2, a3, -, a5⟩ := C04_contact_entries hre hform hsz hnd x hx cl hcl
    rw [g1] at a2
    cases a2
    have hident : cl.force ∈ hqpIds f'.hqp := hid (e := (1, cl.force)) (List.mem_flatMap.2 ⟨_, hy, by simp [ents]⟩)
    have hof := gof _ (List.mem_map.2 ⟨_, hcid, rfl⟩)
    rw [hnames, hof] at a1
    cases a1
    refine ⟨fun _ => ?_, ?_⟩
    · rw [(a5 k1).1, ← k2 dv]
      exact sat_zero k1 dv
    · rw [(a3 hident).1, sat_limits (hdesc cl.cid)]
      show (ForceLimits.of (f'.contactObj cl.cid)).Respected (f'.contactObj cl.cid).kind _ ↔ _
      rw [hkinds]
  -- dynamics
  have dynIff : Sat (f'.heap f'.baseId) x ↔ EquationsOfMotion S.robot.nv (S.robot.nv - S.robot.na) (S.robot.mass w.M) w.nle
      (((S.registry E W ops t).items.filterMap Item.cid?).map fun c =>
        ((s1.motion c).con.mat, (f'.contactObj c).forceGen))
      ((S.registry E W ops t).measured.map fun m => (s1.measured m).tau) dv fo tau := by
    obtain ⟨dv', fo', tau', b1, b2, b3, -, -, -, b4⟩ := C01_equations_of_motion hre hform hsz x hx
    rw [g1] at b1
    rw [g2] at b2
    rw [g3] at b3
    cases b1
    cases b2
    cases b3
    rw [b4]
    unfold contactPairs
    rw [hnv, hnu, hrob, hmeas, hcids, List.map_map, hmeas']
    exact Iff.rfl
  rw [hl0]
  constructor
  · intro hfe
    have hsat : ∀ {e : K × Nat}, e ∈ L.flatMap (ents 0) → Sat (f'.heap e.2) x := fun {e} he =>
      hfe (e.1, f'.heap e.2) (List.mem_cons_of_mem _ (List.mem_map.2 ⟨e, he, rfl⟩))
    refine ⟨dynIff.1 (hfe _ List.mem_cons_self), ?_, ?_, ?_⟩
    · intro fam tid k hin
      rw [hitems'] at hin
      obtain ⟨⟨it, a, b, c⟩, hy, e⟩ := List.mem_map.1 hin
      cases e
      exact (taskIff _ _ _ _ _ _ hy).1 (hsat (e := (k, a)) (List.mem_flatMap.2 ⟨_, hy, by simp [ents]⟩))
    · intro cid wm wf hin
      rw [hitems'] at hin
      obtain ⟨⟨it, a, b, c⟩, hy, e⟩ := List.mem_map.1 hin
      cases e
      exact ((contactIff _ _ _ _ _ _ _ hy).1 rfl).1 (hsat (e := (wm, a)) (List.mem_flatMap.2 ⟨_, hy, by simp [ents]⟩))
    · intro cid p wm wf hin
      rw [hitems'] at hin
      obtain ⟨⟨it, a, b, c⟩, hy, e⟩ := List.mem_map.1 hin
      cases e
      exact (contactIff _ _ _ _ _ _ _ hy).2.1 (hsat (e := (1, b)) (List.mem_flatMap.2 ⟨_, hy, by simp [ents]⟩))
  · rintro ⟨o1, o2, o3, o4⟩ e he
    rcases List.mem_cons.1 he with rfl | he
    · exact dynIff.2 o1
    · obtain ⟨⟨k', id⟩, he', rfl⟩ := List.mem_map.1 he
      clear he
      obtain ⟨⟨it, a, b, c⟩, hy, he⟩ := List.mem_flatMap.1 he'
      have hin : it ∈ (S.registry E W ops t).items := by rw [hitems']; exact List.mem_map.2 ⟨_, hy, rfl⟩
      cases it with
      | task fam tid p k =>
        simp only [ents] at he
        split at he
        · next hp0 =>
          subst hp0
          rw [List.mem_singleton] at he
          cases he
          exact (taskIff _ _ _ _ _ _ hy).2 (o2 _ _ _ hin)
        · cases he
      | contact cid p wm wf =>
        simp only [ents, if_true, List.mem_append] at he
        obtain ⟨i1, i2⟩ := contactIff _ _ _ _ _ _ _ hy
        rcases he with (he | he) | he
        · split at he
          · next hp0 =>
            rw [List.mem_singleton] at he
            cases he
            subst hp0
            exact (i1 rfl).2 (o3 _ _ _ hin)
          · cases he
        · rw [List.mem_singleton] at he
          cases he
          exact i2.2 (o4 _ _ _ _ hin)
        · simp at he

/-! ## Limits of the contacts -/

theorem limits_text {E : Program.Env K} {W : World} {S : Setup K} {ops : List (Program.Op K)} {s0 s : Program.State K}
    (h : GoodProgram E W S ops s0) {w : Snapshot K} {t : K} (hc : Program.compute E w t s0 = .ok s ()) {q : Bool}
    (hq : q = true → NoGradualRemoval ops) (cid : Nat) :
    HasLimits q (s.form.contactObj cid) (S.obj cid).kind
      ((ForceLimits.of (S.obj cid)).afterAll (S.obj cid).kind (contactSets cid ops)) := by
  obtain ⟨ht, -⟩ := program_tidy h
  rw [← setsOf_text h.run]
  obtain ⟨k1, k2⟩ := run_limits (q := q) (cid := cid) (kind := (S.obj cid).kind) _ _ _ (ForceLimits.of (S.obj cid))
    (fun e => abrupt_text (hq e)) (fun _ => rfl) ⟨rfl, rfl, rfl, fun _ => ⟨rfl, rfl⟩⟩ ht.run
  exact (compute_limits k2 k1 (by rw [Program.compute_form hc]; rfl)).1

/-- **C92, friction.** Normal and friction coefficient of a contact are those that its constructor and the calls in the
text gave it. -/
theorem C92_friction {E : Program.Env K} {W : World} {S : Setup K} {ops : List (Program.Op K)} {s0 s : Program.State K}
    (h : GoodProgram E W S ops s0) {w : Snapshot K} {t : K} (hc : Program.compute E w t s0 = .ok s ()) (cid : Nat) :
    let p := (ForceLimits.of (S.obj cid)).afterAll (S.obj cid).kind (contactSets cid ops)
    (s.form.contactObj cid).normal = p.normal ∧ (s.form.contactObj cid).mu = p.mu := by
  obtain ⟨-, h1, h2, -⟩ := limits_text h hc (q := false) (fun e => (by cases e)) cid
  exact ⟨h1, h2⟩

/-- **C92, limits.** In a program that removes no contact gradually the limits of the normal force are also those of the
text.  (During a gradual removal the upper limit goes down, C14–C16.) -/
theorem C92_limits {E : Program.Env K} {W : World} {S : Setup K} {ops : List (Program.Op K)} {s0 s : Program.State K}
    (h : GoodProgram E W S ops s0) {w : Snapshot K} {t : K} (hc : Program.compute E w t s0 = .ok s ())
    (hn : NoGradualRemoval ops) (cid : Nat) :
    ForceLimits.of (s.form.contactObj cid) =
      (ForceLimits.of (S.obj cid)).afterAll (S.obj cid).kind (contactSets cid ops) := by
  obtain ⟨-, h1, h2, h3⟩ := limits_text h hc (q := true) (fun _ => hn) cid
  obtain ⟨h4, h5⟩ := h3 rfl
  unfold ForceLimits.of at *
  rw [h1, h2, h4, h5]

/-! ## Together with `solve` -/

/-- One back-end. -/
theorem best_of {R C : Type} {D : Solve.Driver K R C} {u0 : Solve.Object K R} {Sat : R → (Nat → K) → Prop}
    {Success : Solve.Answer C K → Prop} {reg : Bool} {E : Program.Env K} {W : World} {S : Setup K}
    {ops : List (Program.Op K)} {w : Snapshot K} {t : K} {s : Program.State K} {l0 l1 : Level K}
    {Obj : Vec K → Solve.Objective K → Prop} (hp : problem s.form = [l0, l1])
    (hd : ∀ x : Vec K, x.size = nVar s.form → ∃ d : Decoded K,
      d.From s.form x (((S.registry E W ops t).items.filterMap Item.cid?).map fun c => (S.obj c).name) ∧
      lsqCost l1 x = S.cost E W ops w t s d ∧ (Feasible l0 x ↔ Obeyed E W S ops w t s d))
    (h : SolvesProblem D E.ndebug u0 Sat Success (nVar s.form) reg l0 l1 Obj) :
    DeliversBest D u0 Sat Success reg E W S ops w t s := by
  intro hist u hh hu fresh freshI engine he
  obtain ⟨u', e, -, -, hz, g⟩ := h hist u hh hu fresh freshI engine he
  obtain ⟨d, d1, d2, d3⟩ := hd _ hz
  rw [hp]
  refine ⟨u', e, d, d1, fun hs => ?_⟩
  obtain ⟨⟨g1, -, g2⟩, -⟩ := g hs
  refine ⟨g1, d3.1 g2.1, fun y hy => ?_⟩
  obtain ⟨d', e1, e2, e3⟩ := hd y hy
  refine ⟨d', e1, fun ho => ?_⟩
  have := g2.2 y (e3.2 ho)
  unfold target at this
  rw [d2, e2] at this
  exact this

/-- **C92, with the solver (partial).** Whenever the external solver keeps its promises and succeeds, the solution of a
cycle obeys the text of the program, and nothing that obeys the text has a smaller objective: no reference to the
problem that is handed over remains.  Missing: as in `C92_partial` and C90. -/
theorem C92_best_partial {E : Program.Env K} {W : World} {S : Setup K} {ops : List (Program.Op K)} {s0 s : Program.State K}
    (h : GoodProgram E W S ops s0) {w : Snapshot K} {t : K} (hw : SnapshotOk E.robot.nv w)
    (hm : MayCycle E W S ops w t) (hc : Program.compute E w t s0 = .ok s ())
    (hu : ∀ fam tid k, .task fam tid 0 k ∈ (S.registry E W ops t).items → (S.decl tid).Upright w)
    (heq : ∀ fam tid k, .task fam tid 1 k ∈ (S.registry E W ops t).items → (S.decl tid).kind = .equality)
    (b : Bool) (t0 : Status.HQPStatus) (i : Int) (v : Solve.Objective K) :
    DeliversBest Solve.eiq (Solve.Eiq.init t0 i v) EiqSat (fun a => ∃ w, a.objective = .num w) true E W S ops w t s ∧
    DeliversBest Solve.fast (Solve.Eiq.init t0 i v) EiqSat (fun a => a.code = .optimal) true E W S ops w t s ∧
    (∀ fresh freshI neq nin, (problem s.form).head?.map Solver.count = some (neq, nin) →
      DeliversBest Solve.rt (Solve.Rt.init fresh freshI (nVar s.form) neq nin t0 i v) EiqSat (fun a => a.code = .optimal)
        true E W S ops w t s) ∧
    DeliversBest Solve.prox (Solve.Prox.init t0 i v) ProxSat (fun a => a.code = .solved) false E W S ops w t s ∧
    DeliversBest Solve.osqp (Solve.Osqp.init t0 i v) OsqpSat (fun a => a.code = .solved) false E W S ops w t s ∧
    DeliversBest Solve.mad (Solve.Mad.init b t0 i v) MadSat (fun a => a.code = .ok) true E W S ops w t s := by
  obtain ⟨l0, l1, hp, ha, hb⟩ := program_admissible h hw hm hc heq
  have hd : ∀ x : Vec K, x.size = nVar s.form → ∃ d : Decoded K,
      d.From s.form x (((S.registry E W ops t).items.filterMap Item.cid?).map fun c => (S.obj c).name) ∧
      lsqCost l1 x = S.cost E W ops w t s d ∧ (Feasible l0 x ↔ Obeyed E W S ops w t s d) := by
    intro x hx
    obtain ⟨d, d1, d2⟩ := C89_partial h hw hc hp heq (force_contacts hm) hx
    exact ⟨d, d1, d2, C92_partial h hw hm hc hu hp hx d1⟩
  obtain ⟨k1, k2, k3, k4, k5, k6⟩ := C85_solves_partial E.ndebug b t0 i v ha
  refine ⟨best_of hp hd k1, best_of hp hd k2, fun fresh freshI neq nin hcnt => ?_, best_of hp hd k4,
    best_of hp hd k5, best_of hp hd (k6 hb)⟩
  rw [hp] at hcnt
  simp only [List.head?_cons, Option.map_some, Option.some.injEq] at hcnt
  have := k3 fresh freshI
  rw [hcnt] at this
  exact best_of hp hd this

/-- **C92, cycles return.** The control cycle of a program that removes no contact gradually returns. -/
theorem C92_returns {E : Program.Env K} {W : World} {S : Setup K} {ops : List (Program.Op K)} {s0 : Program.State K}
    (h : GoodProgram E W S ops s0) {w : Snapshot K} {t : K} (hw : SnapshotOk E.robot.nv w)
    (hm : MayCycle E W S ops w t) (hn : NoGradualRemoval ops) : ∃ s, Program.compute E w t s0 = .ok s () := by
  obtain ⟨ht, -⟩ := program_tidy h
  obtain ⟨-, k2⟩ := run_limits (q := true) (cid := 0) (kind := (S.obj 0).kind) _ _ _ (ForceLimits.of (S.obj 0))
    (fun _ => abrupt_text hn) (fun _ => rfl) ⟨rfl, rfl, rfl, fun _ => ⟨rfl, rfl⟩⟩ ht.run
  have hub := C88_partial h hw hm
  unfold Program.compute at hub ⊢
  rw [k2 rfl] at hub ⊢
  simp only [runTransitions] at hub ⊢
  split at hub
  · cases hub
  · split at hub
    · exact ⟨_, rfl⟩
    · cases hub

/-- A program that ends with a control cycle, before the cycle. -/
theorem wellTyped_init {E : Program.Env K} {W : World} {S : Setup K} {ops : List (Program.Op K)} {o : Program.Op K}
    (h : WellTyped E W S (ops ++ [o])) : WellTyped E W S ops ∧ S.May E W ops o := by
  refine ⟨⟨h.names, h.mfNames, h.hygienic, h.nv, h.na, h.motors, h.nqa, h.difference, h.contacts, h.built,
    h.builtContact, h.builtMeasured, ?_, fun pre o' post e => h.may pre o' (post ++ [o]) (by rw [e]; simp)⟩,
    h.may ops o [] rfl⟩
  have : ∀ (l : List (Program.Op K)) (s : Program.State K), EveryCall E (Orderly E W) s (l ++ [o]) →
      EveryCall E (Orderly E W) s l := by
    intro l
    induction l with
    | nil => intro s _; trivial
    | cons a l ih =>
      intro s hs
      refine ⟨hs.1, ?_⟩
      have := hs.2
      split
      · next s' e => rw [e] at this; exact ih _ this
      · trivial
  exact this _ _ h.orderly

/-- **C92, from the text alone (partial).** A well-typed program in a release build that ends with a control cycle runs
up to this cycle; the cycle has no undefined behaviour; and if it returns, every back-end whose external solver keeps its
promises and succeeds delivers a solution that obeys the text of the program and has the smallest objective of all that
obey it.  It returns if the program removes no contact gradually.  Nothing is assumed about the run.  Missing: as in
`C92_partial`, C90 and C91. -/
theorem C92_program_partial {E : Program.Env K} {W : World} {S : Setup K} {ops : List (Program.Op K)} {w : Snapshot K}
    {t : K} (h : WellTyped E W S (ops ++ [.compute w t])) (hn : E.ndebug = true)
    (hu : ∀ fam tid k, .task fam tid 0 k ∈ (S.registry E W ops t).items → (S.decl tid).Upright w)
    (heq : ∀ fam tid k, .task fam tid 1 k ∈ (S.registry E W ops t).items → (S.decl tid).kind = .equality)
    (b : Bool) (t0 : Status.HQPStatus) (i : Int) (v : Solve.Objective K) :
    ∃ s0, Program.run E S.start ops = some s0 ∧ (Program.compute E w t s0).isUB = false ∧
      (NoGradualRemoval ops → ∃ s, Program.compute E w t s0 = .ok s ()) ∧ ∀ s, Program.compute E w t s0 = .ok s () →
        DeliversBest Solve.eiq (Solve.Eiq.init t0 i v) EiqSat (fun a => ∃ w, a.objective = .num w) true E W S ops w t s ∧
        DeliversBest Solve.fast (Solve.Eiq.init t0 i v) EiqSat (fun a => a.code = .optimal) true E W S ops w t s ∧
        (∀ fresh freshI neq nin, (problem s.form).head?.map Solver.count = some (neq, nin) →
          DeliversBest Solve.rt (Solve.Rt.init fresh freshI (nVar s.form) neq nin t0 i v) EiqSat
            (fun a => a.code = .optimal) true E W S ops w t s) ∧
        DeliversBest Solve.prox (Solve.Prox.init t0 i v) ProxSat (fun a => a.code = .solved) false E W S ops w t s ∧
        DeliversBest Solve.osqp (Solve.Osqp.init t0 i v) OsqpSat (fun a => a.code = .solved) false E W S ops w t s ∧
        DeliversBest Solve.mad (Solve.Mad.init b t0 i v) MadSat (fun a => a.code = .ok) true E W S ops w t s := by
  obtain ⟨h0, hmay⟩ := wellTyped_init h
  obtain ⟨s0, hr, hg⟩ := C91_runs h0 hn
  have hub := C91_no_ub h
  rw [everyCall_append hr] at hub
  exact ⟨s0, hr, hub.2.1, C92_returns hg hmay.1 hmay.2, fun s hc => C92_best_partial hg hmay.1 hmay.2 hc hu heq b t0 i v⟩

namespace ArmDemo

/-- The arm has no capture-point task. -/
theorem upright : ∀ fam tid k, .task fam tid 0 k ∈ (setup.registry env world ops 0).items → (setup.decl tid).Upright snap := by
  intro fam tid k h
  rw [items] at h
  simp only [List.mem_cons, List.not_mem_nil, or_false, reduceCtorEq, false_or, Item.task.injEq] at h
  rcases h with ⟨-, -, h, -⟩ | ⟨-, rfl, -⟩
  · cases h
  · trivial

/-- It removes no contact. -/
theorem noRemoval : NoGradualRemoval ops := by
  intro n dur h
  simp [ops] at h

/-- The hypotheses of C92 can be met, and the vector of the example obeys the text. -/
example : ∃ s0 s d, GoodProgram env world setup ops s0 ∧ Program.compute env snap 0 s0 = .ok s () ∧
    d.From s.form resting ["tip"] ∧ Obeyed env world setup ops snap 0 s d ∧
    ForceLimits.of (s.form.contactObj 0) = ⟨⟨0, 0, 1⟩, 1 / 2, 0, 40⟩ := by
  obtain ⟨m, f, hm, ha, hc⟩ := computes
  obtain ⟨l0, l1, h1, h2, h3⟩ := feasible hm ha
  obtain ⟨d, h4, -⟩ := C89_partial good snapOk hc h1 equalities noForces h2
  have h5 := (C92_partial good snapOk mayCycle hc upright h1 h2 h4).1 h3
  rw [items] at h4
  exact ⟨_, _, d, good, hc, h4, h5, C92_limits good hc noRemoval 0⟩

/-! ### The arm in a release build -/

theorem rstep1 : Program.step release setup.start (.task 0 (.am (.setKp ⟨3, fun _ => 2⟩))) =
    .ok ⟨f0, tasks1, setup.motion, setup.measured⟩ () := rfl
theorem rstep2 : Program.step release ⟨f0, tasks1, setup.motion, setup.measured⟩
    (.task 1 (.jointBounds (.setAccelerationBounds ⟨3, fun _ => -1⟩ ⟨3, fun _ => 1⟩))) =
    .ok ⟨f0, tasks2, setup.motion, setup.measured⟩ () := rfl
theorem rstep3 : Program.step release ⟨f0, tasks2, setup.motion, setup.measured⟩
    (.motion 0 (.point (.setKp (fun _ => 0) ⟨3, fun _ => 5⟩))) =
    .ok ⟨f0, tasks2, motions1, setup.measured⟩ () := rfl
theorem rstep4 : Program.step release ⟨f0, tasks2, motions1, setup.measured⟩
    (.measured 0 (.force (.setForce ⟨0, 0, 2⟩))) = .ok ⟨f0, tasks2, motions1, pushes1⟩ () := rfl
theorem rstep5 : Program.step release ⟨f0, tasks2, motions1, pushes1⟩ (.form (.addMotionTask 0 2 1 0)) =
    .ok ⟨f1, tasks2, motions1, pushes1⟩ () := step5
theorem rstep6 : Program.step release ⟨f1, tasks2, motions1, pushes1⟩ (.form (.addRigidContact 0 1 1 0)) =
    .ok ⟨f2, tasks2, motions1, pushes1⟩ () := rfl
theorem rstep7 : Program.step release ⟨f2, tasks2, motions1, pushes1⟩ (.form (.addMotionTask 1 1 0 0)) =
    .ok ⟨f3, tasks2, motions1, pushes1⟩ () := step7
theorem rstep8 : Program.step release ⟨f3, tasks2, motions1, pushes1⟩ (.form (.addMeasuredForce 0)) =
    .ok ⟨f4, tasks2, motions1, pushes1⟩ () := rfl

theorem release_calls : formCalls release setup.start ops = fops := by
  simp only [ops, formCalls, formCall, rstep1, rstep2, rstep3, rstep4, rstep5, rstep6, rstep7, rstep8, Res.state?]
  rfl

theorem release_items : (setup.registry release world ops 0).items =
    [.task .motion 0 1 2, .contact 0 0 1 1, .task .motion 1 0 1] := by
  have e1 : Formulation.step true world f0 (.addMotionTask 0 2 1 0) = .ok f1 () := form1
  have e2 : Formulation.step true world f1 (.addRigidContact 0 1 1 0) = .ok f2 () := rfl
  have e3 : Formulation.step true world f2 (.addMotionTask 1 1 0 0) = .ok f3 () := form3
  have e4 : Formulation.step true world f3 (.addMeasuredForce 0) = .ok f4 () := rfl
  have : outcomes true world f0 fops = [(.addMotionTask 0 2 1 0, false), (.addRigidContact 0 1 1 0, false),
      (.addMotionTask 1 1 0 0, false), (.addMeasuredForce 0, false)] := by
    simp only [fops, outcomes, e1, e2, e3, e4, Res.state?, Res.threw]
  unfold Setup.registry
  rw [release_calls]
  unfold registrations
  rw [show init setup.robot setup.obj (fun tid => (setup.task tid).assoc) = f0 from rfl,
    show release.ndebug = true from rfl, this]
  rfl

theorem release_cycle : MayCycle release world setup ops snap 0 where
  q := le_refl 3
  classes := fun _ => rfl
  announced := by
    intro fam tid p k h
    rw [release_items] at h
    simp only [List.mem_cons, List.not_mem_nil, or_false, reduceCtorEq, false_or, Item.task.injEq] at h
    rcases h with ⟨-, rfl, -⟩ | ⟨-, rfl, -⟩ <;> exact ⟨rfl, rfl⟩
  supported := by
    intro fam tid p k h
    rw [release_items] at h
    simp only [List.mem_cons, List.not_mem_nil, or_false, reduceCtorEq, false_or, Item.task.injEq] at h
    rcases h with ⟨-, rfl, -⟩ | ⟨-, rfl, -⟩ <;> exact trivial

/-- The whole program of the arm, with its control cycle, in a release build. -/
theorem release_typed : WellTyped release world setup (ops ++ [.compute snap 0]) where
  names := good.names
  mfNames := good.mfNames
  hygienic := good.hygienic
  nv := good.nv
  na := good.na
  motors := good.motors
  nqa := good.nqa
  difference := good.difference
  contacts := good.contacts
  built := good.built
  builtContact := good.builtContact
  builtMeasured := good.builtMeasured
  orderly := by
    have hrun : Program.run release setup.start ops = some ⟨f4, tasks2, motions1, pushes1⟩ := by
      simp only [ops, Program.run, rstep1, rstep2, rstep3, rstep4, rstep5, rstep6, rstep7, rstep8, Res.state?]
    rw [everyCall_append hrun]
    refine ⟨?_, trivial, ?_⟩
    · simp only [ops, EveryCall, rstep1, rstep2, rstep3, rstep4, rstep5, rstep6, rstep7, rstep8, Res.state?]
      refine ⟨trivial, trivial, trivial, trivial, ⟨?_, rfl⟩, ⟨?_, trivial⟩, ⟨?_, rfl⟩, ⟨trivial, trivial⟩, trivial⟩
      · intro tl htl; cases htl
      · intro tl htl; cases htl
      · intro tl htl
        have : tl = ⟨0, 1, 1⟩ := List.mem_singleton.1 htl
        subst this
        decide
    · split <;> trivial
  may := by
    refine split_cons trivial <| split_cons ?_ <| split_cons trivial <| split_cons trivial <|
      split_cons ⟨rfl, Nat.one_lt_two⟩ <| split_cons Nat.zero_lt_two <| split_cons ⟨rfl, Nat.zero_lt_two⟩ <|
      split_cons trivial <| split_cons ⟨snapOk, release_cycle⟩ ?_
    · rintro v ⟨⟩
    · intro pre o post e
      cases pre <;> cases e

/-- From the text of the program of the arm to its optimal solution. -/
example : ∃ s0 s, Program.run release setup.start ops = some s0 ∧ Program.compute release snap 0 s0 = .ok s () ∧
    DeliversBest Solve.prox (Solve.Prox.init .unknown 0 .nan) ProxSat (fun a => a.code = .solved) false release world
      setup ops snap 0 s := by
  obtain ⟨s0, h1, -, h2, h3⟩ := C92_program_partial release_typed rfl (by
      intro fam tid k h
      rw [release_items] at h
      simp only [List.mem_cons, List.not_mem_nil, or_false, reduceCtorEq, false_or, Item.task.injEq] at h
      rcases h with ⟨-, -, h, -⟩ | ⟨-, rfl, -⟩
      · cases h
      · trivial) (by
      intro fam tid k h
      rw [release_items] at h
      simp only [List.mem_cons, List.not_mem_nil, or_false, reduceCtorEq, false_or, Item.task.injEq] at h
      rcases h with ⟨-, rfl, -⟩ | ⟨-, -, h, -⟩
      · rfl
      · cases h) true .unknown 0 .nan
  obtain ⟨s, hs⟩ := h2 noRemoval
  exact ⟨s0, s, h1, hs, (h3 s hs).2.2.2.1⟩

end ArmDemo

end Tsid.Props
