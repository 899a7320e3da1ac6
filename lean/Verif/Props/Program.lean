import Verif.Lemmas.ProgramInv
import Verif.Props.ProgramTasks
import Verif.Props.ProgramContacts
import Verif.Props.EndToEnd

/-!
# C87: whole programs
-/

set_option linter.unusedSectionVars false

namespace Tsid.Props

open Spec Finset Formulation

variable {K : Type} [Field K] [LinearOrder K] [FloorRing K] [HasSqrt K]

/-! ## The tasks of a formulation -/

/-- The task of an item. -/
def tidOf : LItem K → Option Nat
  | (.task _ tid _ _, _, _, _) => some tid
  | _ => none

theorem computed_perm : ∀ (L : List (LItem K)),
    ((L.filterMap (taskOf .motion) ++ (L.filterMap (taskOf .force) ++ L.filterMap (taskOf .actuation))).map
      TaskLevel.tid).Perm (L.filterMap tidOf)
  | [] => .refl _
  | (.contact cid p a b, x, y, z) :: L => by
    simpa [taskOf, tidOf, List.filterMap_cons] using computed_perm L
  | (.task fam tid p w, x, y, z) :: L => by
    have ih := computed_perm L
    simp only [List.map_append] at ih
    cases fam
    · simpa [taskOf, tidOf, List.filterMap_cons] using ih
    · simp only [taskOf, tidOf, List.filterMap_cons, List.map_append, reduceCtorEq, if_false, if_true, List.map_cons,
        List.cons_append]
      exact List.perm_middle.trans (ih.cons _)
    · simp only [taskOf, tidOf, List.filterMap_cons, List.map_append, reduceCtorEq, if_false, if_true, List.map_cons]
      rw [← List.append_assoc] at ih ⊢
      exact List.perm_middle.trans (ih.cons _)

theorem tids_nodup {W : World} {nm : Nat → String} : ∀ {L : List (LItem K)},
    (L.map fun x => key W nm x.1).Nodup → (L.filterMap tidOf).Nodup
  | [], _ => List.nodup_nil
  | (.contact cid p a b, x, y, z) :: L, h => by
    simp only [List.map_cons, List.nodup_cons] at h
    simpa [tidOf, List.filterMap_cons] using tids_nodup h.2
  | (.task fam tid p w, x, y, z) :: L, h => by
    simp only [List.map_cons, List.nodup_cons] at h
    simp only [tidOf, List.filterMap_cons, List.nodup_cons]
    refine ⟨fun hm => h.1 ?_, tids_nodup h.2⟩
    obtain ⟨⟨it, a, b, c⟩, h1, h2⟩ := List.mem_filterMap.1 hm
    cases it with
    | task f i p' w' =>
      simp only [tidOf, Option.some.injEq] at h2
      subst h2
      exact List.mem_map.2 ⟨_, h1, rfl⟩
    | contact c p a b => cases h2

/-- Every task is computed once. -/
theorem computed_nodup {W : World} {s : Tsid.State K} {L : List (LItem K)} (h : Coh W s L) : (computed s).Nodup := by
  unfold computed
  rw [h.motions, h.forces, h.acts]
  exact (computed_perm L).nodup_iff.2 (tids_nodup h.keys)

theorem mem_computed {W : World} {s : Tsid.State K} {L : List (LItem K)} (h : Coh W s L) {fam : Family} {tid p : Nat}
    {w : K} (hm : Item.task fam tid p w ∈ L.map Prod.fst) : tid ∈ computed s := by
  unfold computed
  rw [h.motions, h.forces, h.acts]
  rw [(computed_perm L).mem_iff]
  obtain ⟨⟨it, a, b, c⟩, h1, rfl⟩ := List.mem_map.1 hm
  exact List.mem_filterMap.2 ⟨_, h1, rfl⟩

/-! ## The cycle -/

theorem assemble_lists {cy : Cycle K} {s s' : Tsid.State K} (h : assemble cy s = some s') :
    computed s' = computed s ∧ s'.contacts = s.contacts ∧ s'.contactObj = s.contactObj ∧ s'.measured = s.measured ∧
      s'.k = s.k := by
  unfold assemble at h
  dsimp only at h
  split at h
  · cases h
  split at h
  · cases h
  split at h
  · cases h
  split at h
  · cases h
  split at h
  · cases h
  split at h
  · cases h
  cases h
  exact ⟨rfl, rfl, rfl, rfl, rfl⟩

/-- The program as a history of the formulation. -/
theorem program_tidy {E : Program.Env K} {W : World} {S : Setup K} {ops : List (Program.Op K)} {s0 : Program.State K}
    (h : GoodProgram E W S ops s0) :
    TidyRun E.ndebug W S.robot S.obj (fun tid => (S.task tid).assoc) (formCalls E S.start ops) s0.form ∧
    Along E.ndebug W NoReassociation (init S.robot S.obj fun tid => (S.task tid).assoc) (formCalls E S.start ops) := by
  obtain ⟨h1, h2, h3⟩ := Program.run_form h.names h.mfNames h.orderly h.run
  exact ⟨⟨h.hygienic, h.motors, h.contacts, h1, h2⟩, h3⟩

/-- The calls of the history of a task are good. -/
theorem history_good {E : Program.Env K} {W : World} {S : Setup K} {ops : List (Program.Op K)} {s0 : Program.State K}
    (h : GoodProgram E W S ops s0) (tid : Nat) : ∀ c ∈ history E S.start ops tid, GoodCall E.robot c := by
  intro c hc
  rcases Program.mem_history hc with h1 | ⟨x, o, h1, h2⟩
  · exact h.args tid c h1
  · have hw := h.cycles _ h1
    cases o <;> simp only [TaskObj.cycleCall, Option.some.injEq, reduceCtorEq] at h2 <;> subst h2 <;>
      first
      | trivial
      | exact ⟨hw.v, hw.agRows, hw.agCols⟩
      | exact ⟨trivial, trivial⟩
      | skip
    · refine ⟨trivial, ?_⟩
      rintro q v ⟨⟩
      exact hw.v

variable [IsStrictOrderedRing K] [LawfulSqrt K]

/-- **C87 (partial).** A user constructs tasks, contacts and measured forces, calls their setters, registers and removes
them and runs control cycles, in any orderly way.  If the next `computeProblemData` returns, every vector that satisfies
the first level of the problem keeps what the text of the program promises: the equations of motion with the Jacobians
of the registered contacts and the measured forces last set, the law of every registered task of priority 0 with the
gains, references and masks last set, the motion law and the force limits of every registered contact.
Missing: names must be distinct and registered force tasks keep their contact (as in C65); masks are 0/1 masks and keep
their number of rows while the task is registered (implied by the hypothesis that the cycle returns, see
`C87_mask_after_add`); the joint limits are promised when the bounds of the joint are compatible, with a full mask and a
fixed time step (C29-C35); in exact arithmetic. -/
theorem C87_partial {E : Program.Env K} {W : World} {S : Setup K} {ops : List (Program.Op K)} {s0 s : Program.State K}
    (h : GoodProgram E W S ops s0) {w : Snapshot K} {t : K} (hw : SnapshotOk E.robot.nv w)
    (hc : Program.compute E w t s0 = .ok s ()) {l0 l1 : Level K} (hp : problem s.form = [l0, l1])
    {x : Vec K} (hx : x.size = nVar s.form) (hfe : Feasible l0 x) : Kept E W S ops w t s x := by
  obtain ⟨ht, hno⟩ := program_tidy h
  have hform := Program.compute_form hc
  obtain ⟨f, s1, f', hf, hs, ha, rfl⟩ := Program.compute_ok hc
  have hcy : cycleOf E w t s0 = Program.cycle w s1 := by simp only [cycleOf, hf, hs]
  obtain ⟨-, hmot, hmea, htask⟩ := Program.computeObjects_some hs
  rw [hcy] at hform
  have hsz : CycleSizes S.robot.nv (Program.cycle w s1) := by
    rw [← h.nv]; exact ⟨hw.mRows, hw.mCols, hw.nle⟩
  have hent := feasible_entries ht hno hsz hform hp hx hfe
  obtain ⟨hrob, hnv, hnu, hasc, hmeas, hnames, hkinds, hnd, L, hcoh, hitems⟩ := cycle_end ht hform
  obtain ⟨q1, q2, q3, q4, q5⟩ := assemble_lists ha
  obtain ⟨hinv, -⟩ := tidy_impl ht
  obtain ⟨-, -, -, -, -, hinvs, -⟩ := compute_spec hinv hform
  have hitems' : (S.registry E W ops t).items = L.map Prod.fst := hitems.symm
  have hmeas' : (S.registry E W ops t).measured =
      (registrations E.ndebug W S.robot S.obj (fun tid => (S.task tid).assoc) (formCalls E S.start ops)).measured := by
    unfold Setup.registry Registry.expire
    split <;> rfl
  have hctx : ctx E w f' = ctx E w f := by simp only [ctx, q2, q3]
  have hR : RobotOk E.robot := ⟨by rw [h.nv, h.na]; exact h.motors, h.nqa, h.difference⟩
  have hnodup : (computed f).Nodup := by rw [← q1]; exact computed_nodup hcoh
  -- one task
  have task : ∀ tid, tid ∈ computed f → (∀ dt contact cname, S.decl tid = .force dt contact cname →
      lastName ((taskCalls tid ops).filterMap force?) cname ≠ "" ∧
      lastName ((taskCalls tid ops).filterMap force?) cname ∈ (ctx E w f').names) →
      ((s1.task tid).isActuation = false → (s1.task tid).con.kind = .bound → (s1.task tid).con.lb.size = E.robot.nv) ∧
      ((s1.task tid).isForce = true → (s1.task tid).con.kind = .equality) ∧
      ∀ y, Sat (s1.task tid).con y → (S.decl tid).Demands E (ctx E w f') (taskCalls tid ops)
        (history E S.start ops tid) (s1.task tid) y := by
    intro tid hm hnm
    refine task_demands hR (h.built tid) (Program.run_task h.run tid) (history_good h tid)
      (fun σ F hF p => Program.fold_history hF h.run p) (x := ctx E w f') hw ?_ hnm ?_
    · exact stacked_of_tiled _ _ _ _ _ hinvs.tiled
    · rw [hctx]; exact each_once htask hnodup hm
  have cls : ∀ tid, (s1.task tid).isMotion = (S.task tid).isMotion ∧ (s1.task tid).isForce = (S.task tid).isForce ∧
      (s1.task tid).isActuation = (S.task tid).isActuation := by
    intro tid
    have c1 := TaskObj.run_class (Program.run_task h.run tid)
    have c2 := Program.step_class (E := E) (s := s0) (s' := { s1 with form := f' }) (o := .compute w t)
      (by simp only [Program.step, hc]; rfl) tid
    exact ⟨c2.1.trans c1.1, c2.2.1.trans c1.2.1, c2.2.2.trans c1.2.2⟩
  have noForce : ∀ tid, (S.task tid).isForce = false → ∀ dt contact cname, S.decl tid = .force dt contact cname → False := by
    intro tid hcl dt contact cname hd
    have hb := h.built tid
    rw [hd] at hb
    simp only [TaskDecl.Built] at hb
    rw [hb] at hcl
    cases hcl
  have linked := Program.run_linked h.run (fun tid => rfl)
  have hasc' : ∀ tid, f'.assoc tid = (s0.task tid).assoc := fun tid => (congrFun hasc tid).trans (linked tid)
  have mem : ∀ {fam tid p k}, Item.task fam tid p k ∈ (S.registry E W ops t).items → tid ∈ computed f := by
    intro fam tid p k hm
    rw [hitems'] at hm
    rw [← q1]
    exact mem_computed hcoh hm
  have hcids : (S.registry E W ops t).items.filterMap Item.cid? = f.contacts.map ContactLevel.cid := by
    rw [hitems', ← q2]; exact contact_cids hcoh
  have hcnd : (f.contacts.map ContactLevel.cid).Nodup := by rw [← q2]; exact contact_cids_nodup hcoh
  -- one contact
  have contact : ∀ cid ∈ (S.registry E W ops t).items.filterMap Item.cid?, (s1.motion cid).con.kind = .equality ∧
      (S.cdecl cid).Moves E w (contactCalls cid ops) (s1.motion cid).con.mat ∧
      ∀ y, Sat (s1.motion cid).con y → (S.cdecl cid).Demands E w (contactCalls cid ops) y := by
    intro cid hm
    rw [hcids] at hm
    obtain ⟨l, r1, r2, r3⟩ := Program.run_motion h.run cid
    have hb := h.builtContact cid
    rw [← h.nv] at hb
    exact contact_demands hb r1 (h.contactArgs cid) r2 r3 hw (each_once hmot hcnd hm)
  have unit : ∀ cid p wm wf, Item.contact cid p wm wf ∈ (S.registry E W ops t).items →
      cid ∈ (S.registry E W ops t).items.filterMap Item.cid? := fun cid p wm wf hm => List.mem_filterMap.2 ⟨_, hm, rfl⟩
  refine ⟨?_, fun cid hm => (contact cid hm).2.1, ?_, ?_, ?_, ?_, ?_, ?_, ?_⟩
  · rw [hmeas']
    exact hent.dynamics
  · intro m hm
    rw [hmeas', ← hmeas, q4] at hm
    have e := Program.iter_measured _ _ _ (each_iter hmea m)
    obtain ⟨n, hn⟩ : ∃ n, f.measured.count m = n + 1 :=
      ⟨f.measured.count m - 1, by have := List.count_pos_iff.2 hm; omega⟩
    rw [hn] at e
    show (S.mdecl m).Contributes S.robot.nv w (measuredCalls m ops) (s1.measured m).tau
    rw [e]
    exact measured_contributes (s := S.start) (h.builtMeasured m) h.run n
  · intro tid k hm
    have hcl := Program.registered_class h.run hm
    obtain ⟨c1, c2, c3⟩ := cls tid
    have hne : (S.task tid).isForce = false ∧ (S.task tid).isActuation = false := by
      revert hcl
      cases S.task tid <;> intro hcl <;> first | exact ⟨rfl, rfl⟩ | cases hcl
    obtain ⟨t1, -, t3⟩ := task tid (mem hm) (fun dt c n hd => (noForce tid hne.1 dt c n hd).elim)
    obtain ⟨dv, g1, g2⟩ := hent.motion tid k hm (fun hk => by
      rw [← h.nv]; exact t1 (c3.trans hne.2) hk)
    exact ⟨dv, g1, t3 dv g2⟩
  · intro tid k hm
    have hcl := Program.registered_class h.run hm
    have hne : (S.task tid).isForce = false := by
      revert hcl
      cases S.task tid <;> intro hcl <;> first | rfl | cases hcl
    obtain ⟨-, -, t3⟩ := task tid (mem hm) (fun dt c n hd => (noForce tid hne dt c n hd).elim)
    obtain ⟨tau, g1, g2⟩ := hent.actuation tid k hm
    exact ⟨tau, g1, t3 tau g2⟩
  · intro tid k hm hd
    obtain ⟨c1, c2, c3⟩ := cls tid
    have hb := h.built tid
    rw [hd] at hb
    simp only [TaskDecl.Built] at hb
    obtain ⟨-, t2, t3⟩ := task tid (mem hm) (fun dt c n hd' => by rw [hd] at hd'; cases hd')
    have hfo : (s1.task tid).isForce = true := by rw [c2, hb]; rfl
    have ha0 : f'.assoc tid = "" := by
      rw [hasc' tid]
      have c4 := (TaskObj.run_class (Program.run_task h.run tid))
      have hr := Program.run_task h.run tid
      have hst : S.start.task tid = .cop (CopTask.new (E.name tid)) := hb
      rw [hst] at hr
      obtain ⟨s2, e2, -⟩ := Program.unwrap (wrap := TaskObj.cop) (st := CopTask.step) (get := cop?)
        (fun s c => by cases c <;> rfl) hr
      rw [e2]
      rfl
    obtain ⟨fo, g1, g2⟩ := hent.forceAll tid k hm ha0 (fun hk => by
      have := t2 hfo
      rw [show (Program.cycle w s1).forceOut tid = (s1.task tid).con from rfl, this] at hk
      cases hk)
    exact ⟨fo, g1, t3 fo g2⟩
  · rintro tid k dt contact cname hm hd hn ⟨cid, hcid, hcn⟩
    obtain ⟨c1, c2, c3⟩ := cls tid
    have hb := h.built tid
    rw [hd] at hb
    simp only [TaskDecl.Built] at hb
    have hfo : (s1.task tid).isForce = true := by rw [c2, hb]; rfl
    have hname : (f'.contactObj cid).name = lastName ((taskCalls tid ops).filterMap force?) cname :=
      (hnames cid).trans hcn
    obtain ⟨-, t2, t3⟩ := task tid (mem hm) (fun dt' c' n' hd' => by
      rw [hd] at hd'
      cases hd'
      refine ⟨hn, ?_⟩
      rw [← hname]
      rw [hcids, ← q2] at hcid
      obtain ⟨cl, h1, rfl⟩ := List.mem_map.1 hcid
      exact List.mem_map.2 ⟨cl, h1, rfl⟩)
    have ha0 : f'.assoc tid = lastName ((taskCalls tid ops).filterMap force?) cname := by
      rw [hasc' tid]
      have hr := Program.run_task h.run tid
      have hst : S.start.task tid = .force (ForceTask.new (E.name tid) dt contact cname) := hb
      rw [hst] at hr
      obtain ⟨s2, e2, e3⟩ := Program.unwrap (wrap := TaskObj.force) (st := ForceTask.step) (get := force?)
        (fun s c => by cases c <;> rfl) hr
      rw [e2]
      show s2.cname = _
      rw [(force_contact e3).2]
      exact same_settings (fun σ F hF p => Program.fold_history hF h.run p) (g := force?)
        (after := fun p o => lastName [o] p)
        (afterAll := fun p os => lastName os p) (fun _ => rfl)
        (fun p o os => by cases o <;> rfl)
        (fun p c o h1 h2 => by cases c <;> cases h2; cases o <;> first | rfl | cases h1) cname
    obtain ⟨fo, g1, g2⟩ := hent.forceOf tid k hm (by rw [ha0]; exact hn) cid hcid (hname.trans ha0.symm) (fun hk => by
      have := t2 hfo
      rw [show (Program.cycle w s1).forceOut tid = (s1.task tid).con from rfl, this] at hk
      cases hk)
    rw [ha0] at g1
    exact ⟨fo, g1, t3 fo g2⟩
  · intro cid wm wf hm
    obtain ⟨k1, -, k3⟩ := contact cid (unit _ _ _ _ hm)
    obtain ⟨dv, g1, g2⟩ := hent.contactMotion cid wm wf hm k1
    exact ⟨dv, g1, k3 dv g2⟩
  · intro cid p wm wf hm hun
    obtain ⟨fo, g1, g2⟩ := hent.contactForce cid p wm wf hm hun
    rw [hnames cid] at g1
    exact ⟨fo, g1, g2⟩

/-! ## A program that meets the hypotheses: an arm with three motors, whose tip touches a surface -/

namespace ArmDemo

/-- The placement of the tip; columns of its Jacobian are the axes. -/
noncomputable def tip : FrameKin ℝ :=
  ⟨SE3.one, 0, 0, fun c => ⟨⟨if c = 0 then 1 else 0, if c = 1 then 1 else 0, if c = 2 then 1 else 0⟩, 0⟩⟩

/-- The state of the robot in the cycle. -/
noncomputable def snap : Snapshot ℝ :=
  { q := Vec.zero 3, v := Vec.zero 3, M := Mat.identity 3, nle := ⟨3, fun i => if i = 2 then 4 else 0⟩
    frame := fun _ => tip
    com := ⟨0, 0, 0, fun _ => 0⟩
    Ag := ⟨6, 3, fun i j => i + j⟩
    dh := 0
    garbage := fun _ _ => 0 }

noncomputable def posture : PostureRobot ℝ :=
  { nv := 3, na := 3, nqa := 3, neutral := Vec.zero 3, difference := fun a b => ⟨3, fun i => b i - a i⟩ }

noncomputable def env : Program.Env ℝ :=
  ⟨false, fun _ => 0, posture, fun i => if i = 0 then "am" else "lim", fun _ => "push", fun _ => 0⟩

def world : World := ⟨fun i => if i = 0 then ⟨"am", "am", .equality, 3⟩ else ⟨"lim", "lim", .bound, 3⟩, fun _ => "push"⟩

noncomputable def robot : Robot ℝ := ⟨3, 3, Vec.zero 3, Vec.zero 3, Vec.zero 3⟩

noncomputable def contacts : Nat → Contact ℝ := fun _ => Contact.new "tip" .point (fun _ => 0) ⟨0, 0, 1⟩ (1 / 2) 0 40

/-- The task of joint bounds after its constructor. -/
noncomputable def limits : JointBounds ℝ :=
  { nv := 3, na := 3, dt := 1 / 10
    vLb := ⟨3, fun _ => -big⟩, vUb := ⟨3, fun _ => big⟩
    aLb := ⟨3, fun _ => -big⟩, aUb := ⟨3, fun _ => big⟩
    con := { Constraint.mkBound "lim" 3 with
      lb := ⟨3, fun i => if i < 3 - 3 then -big else 0⟩
      ub := ⟨3, fun i => if i < 3 - 3 then big else 0⟩ } }

/-- The motion task of the contact after its constructor. -/
noncomputable def touch : SE3Task ℝ :=
  { SE3Task.pre (fun _ => 0) "tip" 3 with
    rows := ⟨positionMask, Constraint.mkEq "tip" 3 3, Vec.zero 3, Vec.zero 3, Vec.zero 3, Vec.zero 3⟩ }

theorem trunc_nat (n : Nat) : trunc (n : ℝ) = n := by
  unfold trunc
  rw [if_pos (Nat.cast_nonneg n), Int.floor_natCast]

theorem touch_new : PointMotion.new (fun _ => 0) (fun _ => 0) "tip" 3 true = .ok touch () := by
  have h6 : trunc (Vec.sum (⟨6, fun _ => 1⟩ : Vec ℝ)) = 6 := by
    have : Vec.sum (⟨6, fun _ => 1⟩ : Vec ℝ) = ((6 : ℕ) : ℝ) := by simp [Vec.sum]
    rw [this, trunc_nat]; rfl
  have h3 : trunc (Vec.sum (positionMask : Vec ℝ)) = 3 := by
    have : Vec.sum (positionMask : Vec ℝ) = ((3 : ℕ) : ℝ) := by
      simp only [Vec.sum, positionMask, sum_range_succ, range_zero, sum_empty]; norm_num
    rw [this, trunc_nat]; rfl
  simp only [PointMotion.new, SE3Task.new, if_true, SE3Task.setMask, CartRows.setMask, h6, h3]
  rfl

/-- What the user constructs. -/
noncomputable def setup : Setup ℝ :=
  { robot := robot
    obj := contacts
    decl := fun i => if i = 0 then .am else .jointBounds (1 / 10)
    cdecl := fun _ => .point 0
    mdecl := fun _ => .force 0 fun _ => true
    task := fun i => if i = 0 then .am (AmTask.new (fun _ => 0) "am" 3) else .jointBounds limits
    motion := fun _ => .point 0 touch
    measured := fun _ => .force 0 (Measured3D.new 3 fun _ => true) }

/-- The calls of the program. -/
noncomputable def ops : List (Program.Op ℝ) :=
  [.task 0 (.am (.setKp ⟨3, fun _ => 2⟩)),
   .task 1 (.jointBounds (.setAccelerationBounds ⟨3, fun _ => -1⟩ ⟨3, fun _ => 1⟩)),
   .motion 0 (.point (.setKp (fun _ => 0) ⟨3, fun _ => 5⟩)),
   .measured 0 (.force (.setForce ⟨0, 0, 2⟩)),
   .form (.addMotionTask 0 2 1 0),
   .form (.addRigidContact 0 1 1 0),
   .form (.addMotionTask 1 1 0 0),
   .form (.addMeasuredForce 0)]

/-- The state of the formulation after adding a motion task. -/
noncomputable def added (W : World) (s : Tsid.State ℝ) (tid : Nat) (w : ℝ) (p : Nat) : Tsid.State ℝ :=
  match addTask W s tid w p with
  | some (s', id) => { s' with motions := s'.motions ++ [⟨tid, p, id⟩] }
  | none => s

theorem added_step {W : World} {s : Tsid.State ℝ} {tid : Nat} {w : ℝ} {p : Nat} (hw : 0 ≤ w)
    (h : (addTask W s tid w p).isSome) :
    Formulation.step false W s (.addMotionTask tid w p 0) = .ok (added W s tid w p) () := by
  obtain ⟨⟨s', id⟩, e⟩ := Option.isSome_iff_exists.1 h
  simp only [Formulation.step, addMotionTask, if_pos hw, le_refl, if_true, added, e, void]

theorem added_task {W W' : World} {s : Tsid.State ℝ} {tid : Nat} {w : ℝ} {p : Nat} (h : W.task tid = W'.task tid) :
    added W s tid w p = added W' s tid w p := by
  simp only [added, addTask, h]

/-- The states of the objects after the first four calls. -/
noncomputable def am1 : TaskObj ℝ := .am { AmTask.new (fun _ => 0) "am" 3 with kp := ⟨2, 2, 2⟩ }
noncomputable def lim1 : TaskObj ℝ := .jointBounds { limits with aLb := ⟨3, fun _ => -1⟩, aUb := ⟨3, fun _ => 1⟩ }
noncomputable def touch1 : SE3Task ℝ := { touch with kp := gains6 (fun _ => 0) ⟨3, fun _ => 5⟩ }
noncomputable def push1 : MeasuredObj ℝ := .force 0 { Measured3D.new 3 (fun _ => true) with fext := ⟨0, 0, 2⟩ }

noncomputable def tasks1 : Nat → TaskObj ℝ := Function.update setup.task 0 am1
noncomputable def tasks2 : Nat → TaskObj ℝ := Function.update tasks1 1 lim1
noncomputable def motions1 : Nat → ContactMotion ℝ := Function.update setup.motion 0 (.point 0 touch1)
noncomputable def pushes1 : Nat → MeasuredObj ℝ := Function.update setup.measured 0 push1

/-- The states of the formulation. -/
noncomputable def f0 : Tsid.State ℝ := Formulation.init robot contacts fun tid => (setup.task tid).assoc
noncomputable def f1 : Tsid.State ℝ := added world f0 0 2 1
noncomputable def f2 : Tsid.State ℝ := ((Formulation.step false world f1 (.addRigidContact 0 1 1 0)).state?).getD f1
noncomputable def f3 : Tsid.State ℝ := added world f2 1 1 0
noncomputable def f4 : Tsid.State ℝ := { f3 with measured := f3.measured ++ [0] }

theorem form1 : Formulation.step false world f0 (.addMotionTask 0 2 1 0) = .ok f1 () := added_step (by norm_num) rfl
theorem form2 : Formulation.step false world f1 (.addRigidContact 0 1 1 0) = .ok f2 () := rfl
theorem form3 : Formulation.step false world f2 (.addMotionTask 1 1 0 0) = .ok f3 () := added_step (by norm_num) rfl
theorem form4 : Formulation.step false world f3 (.addMeasuredForce 0) = .ok f4 () := rfl

theorem step_form {E : Program.Env ℝ} {s : Program.State ℝ} {o : Formulation.Op ℝ} {f : Tsid.State ℝ}
    (ht : Program.typed s o = true) (h : Formulation.step E.ndebug (Program.world E s) s.form o = .ok f ()) :
    Program.step E s (.form o) = .ok { s with form := f } () := by
  simp only [Program.step, ht, if_true, h]

theorem step1 : Program.step env setup.start (.task 0 (.am (.setKp ⟨3, fun _ => 2⟩))) =
    .ok ⟨f0, tasks1, setup.motion, setup.measured⟩ () := rfl
theorem step2 : Program.step env ⟨f0, tasks1, setup.motion, setup.measured⟩
    (.task 1 (.jointBounds (.setAccelerationBounds ⟨3, fun _ => -1⟩ ⟨3, fun _ => 1⟩))) =
    .ok ⟨f0, tasks2, setup.motion, setup.measured⟩ () := rfl
theorem step3 : Program.step env ⟨f0, tasks2, setup.motion, setup.measured⟩
    (.motion 0 (.point (.setKp (fun _ => 0) ⟨3, fun _ => 5⟩))) =
    .ok ⟨f0, tasks2, motions1, setup.measured⟩ () := rfl
theorem step4 : Program.step env ⟨f0, tasks2, motions1, setup.measured⟩ (.measured 0 (.force (.setForce ⟨0, 0, 2⟩))) =
    .ok ⟨f0, tasks2, motions1, pushes1⟩ () := rfl
theorem task0 (f : Tsid.State ℝ) : (Program.world env ⟨f, tasks2, motions1, pushes1⟩).task 0 = world.task 0 := rfl
theorem task1 (f : Tsid.State ℝ) : (Program.world env ⟨f, tasks2, motions1, pushes1⟩).task 1 = world.task 1 := rfl
theorem step5 : Program.step env ⟨f0, tasks2, motions1, pushes1⟩ (.form (.addMotionTask 0 2 1 0)) =
    .ok ⟨f1, tasks2, motions1, pushes1⟩ () := by
  have := added_step (W := Program.world env ⟨f0, tasks2, motions1, pushes1⟩) (s := f0) (tid := 0) (w := 2) (p := 1)
    (by norm_num) rfl
  rw [added_task (task0 f0)] at this
  exact step_form rfl this
theorem step6 : Program.step env ⟨f1, tasks2, motions1, pushes1⟩ (.form (.addRigidContact 0 1 1 0)) =
    .ok ⟨f2, tasks2, motions1, pushes1⟩ () := rfl
theorem step7 : Program.step env ⟨f2, tasks2, motions1, pushes1⟩ (.form (.addMotionTask 1 1 0 0)) =
    .ok ⟨f3, tasks2, motions1, pushes1⟩ () := by
  have := added_step (W := Program.world env ⟨f2, tasks2, motions1, pushes1⟩) (s := f2) (tid := 1) (w := 1) (p := 0)
    (by norm_num) rfl
  rw [added_task (task1 f2)] at this
  exact step_form rfl this
theorem step8 : Program.step env ⟨f3, tasks2, motions1, pushes1⟩ (.form (.addMeasuredForce 0)) =
    .ok ⟨f4, tasks2, motions1, pushes1⟩ () := rfl

theorem hygienic : Hygienic world := by
  intro tid
  by_cases h : tid = 0
  · subst h; exact ⟨rfl, Demo.freeName_spec (show Demo.freeName "am" = true by decide +kernel)⟩
  · simp only [world, if_neg h]
    exact ⟨trivial, Demo.freeName_spec (show Demo.freeName "lim" = true by decide +kernel)⟩

theorem good : GoodProgram env world setup ops ⟨f4, tasks2, motions1, pushes1⟩ where
  names := fun tid => by by_cases h : tid = 0 <;> simp [world, env, h]
  mfNames := rfl
  hygienic := hygienic
  nv := rfl
  na := rfl
  motors := le_refl _
  nqa := le_refl _
  difference := fun _ _ => rfl
  contacts := fun _ => ⟨"tip", .point, fun _ => 0, ⟨0, 0, 1⟩, 1 / 2, 0, 40, rfl⟩
  built := fun tid => by
    by_cases h : tid = 0
    · subst h; exact ⟨fun _ => 0, rfl⟩
    · simp only [setup, if_neg h, TaskDecl.Built, env]
      refine ⟨limits, ?_, rfl⟩
      simp only [JointBounds.new]
      rw [if_pos (by norm_num)]
      rfl
  builtContact := fun cid => ⟨fun _ => 0, fun _ => 0, touch, touch_new, rfl⟩
  builtMeasured := fun _ => rfl
  run := by simp only [ops, Program.run, step1, step2, step3, step4, step5, step6, step7, step8, Res.state?]
  orderly := by
    simp only [ops, EveryCall, step1, step2, step3, step4, step5, step6, step7, step8, Res.state?]
    refine ⟨trivial, trivial, trivial, trivial, ⟨?_, rfl⟩, ⟨?_, trivial⟩, ⟨?_, rfl⟩, ⟨trivial, trivial⟩, trivial⟩
    · intro tl htl; cases htl
    · intro tl htl; cases htl
    · intro tl htl
      have : tl = ⟨0, 1, 1⟩ := List.mem_singleton.1 htl
      subst this
      decide
  args := fun tid c hc => by
    simp only [ops, taskCalls] at hc
    split at hc <;> split at hc <;> simp at hc
    · omega
    · subst hc; trivial
    · subst hc; trivial
  contactArgs := fun cid c hc => by
    simp only [ops, contactCalls] at hc
    split at hc <;> simp at hc
    subst hc; trivial
  cycles := fun w hw => by cases hw

/-- The motion task of the contact after `compute`. -/
noncomputable def rows2 : CartRows ℝ :=
  let L := touch1.law env.log3 tip
  ((touch1.rows.write L 0 0).write L 1 1).write L 2 2

theorem fill_take {L : CartLaw ℝ} {i idx : Nat} {is : List Nat} {s : CartRows ℝ} (h1 : i < s.mask.size)
    (h2 : s.mask i = 1) (h3 : s.HasRow idx) : s.fill L (i :: is) idx = (s.write L idx i).fill L is (idx + 1) := by
  rw [CartRows.fill, if_pos h1, if_pos h2, if_pos h3]

theorem fill_skip {L : CartLaw ℝ} {i idx : Nat} {is : List Nat} {s : CartRows ℝ} (h1 : i < s.mask.size)
    (h2 : s.mask i ≠ 1) : s.fill L (i :: is) idx = s.fill L is idx := by
  rw [CartRows.fill, if_pos h1, if_neg h2]

theorem touch_compute : ∃ m, ContactMotion.compute env snap (.point 0 touch1) = some (.point 0 m) ∧ m.rows = rows2 := by
  have m1 : ∀ i, i < 3 → (positionMask : Vec ℝ) i = 1 := fun i hi => if_pos hi
  have m0 : ∀ i, 3 ≤ i → (positionMask : Vec ℝ) i ≠ 1 := fun i hi h => by
    have : (positionMask : Vec ℝ) i = 0 := if_neg (by omega)
    rw [this] at h; exact zero_ne_one h
  have hf : touch1.rows.fill (touch1.law env.log3 tip) [0, 1, 2, 3, 4, 5] 0 = some rows2 := by
    rw [fill_take (show 0 < 6 by decide) (m1 0 (by decide)) ⟨by decide, by decide, by decide, by decide, by decide, by decide⟩,
      fill_take (show 1 < 6 by decide) (m1 1 (by decide)) ⟨by decide, by decide, by decide, by decide, by decide, by decide⟩,
      fill_take (show 2 < 6 by decide) (m1 2 (by decide)) ⟨by decide, by decide, by decide, by decide, by decide, by decide⟩,
      fill_skip (show 3 < 6 by decide) (m0 3 (by decide)), fill_skip (show 4 < 6 by decide) (m0 4 (by decide)),
      fill_skip (show 5 < 6 by decide) (m0 5 (by decide))]
    rfl
  have hc : ∃ m, touch1.compute env.log3 tip = .ok m rows2.con ∧ m.rows = rows2 := by
    unfold SE3Task.compute
    rw [show List.range 6 = [0, 1, 2, 3, 4, 5] from rfl, hf]
    exact ⟨_, rfl, rfl⟩
  obtain ⟨m, h1, h2⟩ := hc
  refine ⟨m, ?_, h2⟩
  have : snap.frame 0 = tip := rfl
  simp only [ContactMotion.compute, ContactMotion.call, this, h1, ContactMotion.lift]

/-- The formulation after the transitions of the cycle. -/
noncomputable def f5 : Tsid.State ℝ := { f4 with t := 0 }

theorem trans5 : runTransitions false [] f4.trans { f4 with t := 0 } = .ok f5 () := rfl

/-- The tasks after `compute`. -/
noncomputable def x0 : TaskObj.Ctx ℝ := ctx env snap f5
noncomputable def am2 : TaskObj ℝ := (TaskObj.compute env x0 am1).getD am1
noncomputable def lim2 : TaskObj ℝ := (TaskObj.compute env x0 lim1).getD lim1
noncomputable def tasks3 : Nat → TaskObj ℝ := Function.update (Function.update tasks2 0 am2) 1 lim2
noncomputable def pushes2 : Nat → MeasuredObj ℝ := Function.update pushes1 0 (push1.compute snap)
noncomputable def motions2 (m : SE3Task ℝ) : Nat → ContactMotion ℝ := Function.update motions1 0 (.point 0 m)

theorem am_compute : TaskObj.compute env x0 am1 = some am2 := rfl
theorem lim_compute : TaskObj.compute env x0 lim1 = some lim2 := rfl

theorem objects {m : SE3Task ℝ} (hm : ContactMotion.compute env snap (.point 0 touch1) = some (.point 0 m)) :
    Program.computeObjects env snap f5 ⟨f4, tasks2, motions1, pushes1⟩ =
      some ⟨f5, tasks3, motions2 m, pushes2⟩ := by
  have e1 : Program.each (ContactMotion.compute env snap) [0] motions1 = some (motions2 m) := by
    simp only [Program.each]
    rw [show motions1 0 = .point 0 touch1 from rfl, hm]
    rfl
  have e2 : Program.each (TaskObj.compute env x0) [0, 1] tasks2 = some tasks3 := by
    simp only [Program.each]
    rw [show tasks2 0 = am1 from rfl, am_compute]
    dsimp only
    rw [show Function.update tasks2 0 am2 1 = lim1 from rfl, lim_compute]
    rfl
  unfold Program.computeObjects
  rw [show f5.contacts.map ContactLevel.cid = [0] from rfl, e1]
  dsimp only
  rw [show (f5.motions ++ (f5.forces ++
    f5.acts)).map TaskLevel.tid = [0, 1] from rfl]
  have e2' : Program.each (TaskObj.compute env ⟨snap, f5.contacts, f5.contactObj,
      fun cid => (snap.frame (env.contactFrame cid)).pose⟩) [0, 1] tasks2 = some tasks3 := e2
  have e3 : Program.each (fun m => some (MeasuredObj.compute snap m)) f5.measured pushes1 = some pushes2 := rfl
  rw [e3]
  dsimp only
  rw [e2']

/-- The calls on the formulation. -/
noncomputable def fops : List (Formulation.Op ℝ) :=
  [.addMotionTask 0 2 1 0, .addRigidContact 0 1 1 0, .addMotionTask 1 1 0 0, .addMeasuredForce 0]

theorem form_calls : formCalls env setup.start ops = fops := by
  simp only [ops, formCalls, formCall, step1, step2, step3, step4, step5, step6, step7, step8, Res.state?]
  rfl

theorem items : (setup.registry env world ops 0).items =
    [.task .motion 0 1 2, .contact 0 0 1 1, .task .motion 1 0 1] := by
  have : outcomes false world f0 fops = [(.addMotionTask 0 2 1 0, false), (.addRigidContact 0 1 1 0, false),
      (.addMotionTask 1 1 0 0, false), (.addMeasuredForce 0, false)] := by
    simp only [fops, outcomes, form1, form2, form3, form4, Res.state?, Res.threw]
  unfold Setup.registry
  rw [form_calls]
  unfold registrations
  rw [show init setup.robot setup.obj (fun tid => (setup.task tid).assoc) = f0 from rfl,
    show env.ndebug = false from rfl, this]
  rfl

theorem tidyRun : TidyRun false world robot contacts (fun tid => (setup.task tid).assoc) fops f4 := by
  refine ⟨hygienic, le_refl _, good.contacts, ?_, ?_⟩
  · show Formulation.run false world f0 fops = some f4
    simp only [fops, Formulation.run, form1, form2, form3, form4, Res.state?]
  · show Along false world (Tidy world) f0 fops
    simp only [fops, Along, form1, form2, form3, form4, Res.state?]
    refine ⟨?_, ?_, ?_, trivial, trivial⟩
    · intro tl htl; cases htl
    · intro tl htl; cases htl
    · intro tl htl
      have : tl = ⟨0, 1, 1⟩ := List.mem_singleton.1 htl
      subst this
      decide

theorem measured : (registrations false world robot contacts (fun tid => (setup.task tid).assoc) fops).measured = [0] := by
  have : outcomes false world f0 fops = [(.addMotionTask 0 2 1 0, false), (.addRigidContact 0 1 1 0, false),
      (.addMotionTask 1 1 0 0, false), (.addMeasuredForce 0, false)] := by
    simp only [fops, outcomes, form1, form2, form3, form4, Res.state?, Res.threw]
  unfold registrations
  rw [show init robot contacts (fun tid => (setup.task tid).assoc) = f0 from rfl, this]
  rfl

theorem items' : ((registrations false world robot contacts (fun tid => (setup.task tid).assoc) fops).expire
    (fun c => (contacts c).name) 0).items = [.task .motion 0 1 2, .contact 0 0 1 1, .task .motion 1 0 1] := by
  have := items
  unfold Setup.registry at this
  rw [form_calls] at this
  exact this

/-- The constraints of the cycle. -/
noncomputable def cyc (m : SE3Task ℝ) : Cycle ℝ := Program.cycle snap ⟨f5, tasks3, motions2 m, pushes2⟩

theorem fits {m : SE3Task ℝ} (hm : m.rows = rows2) :
    ∀ it ∈ ([.task .motion 0 1 2, .contact 0 0 1 1, .task .motion 1 0 1] : List (Item ℝ)),
    it.Fits world contacts f4.assoc robot.nv robot.na [0] (cyc m) := by
  have e : (cyc m).contactMotion 0 = rows2.con := congrArg CartRows.con hm
  intro it hit
  simp only [List.mem_cons, List.not_mem_nil, or_false] at hit
  rcases hit with rfl | rfl | rfl
  · exact ⟨rfl, rfl, rfl, rfl⟩
  · show FitsOn .equality 3 3 ((cyc m).contactMotion 0)
    rw [e]
    exact ⟨rfl, rfl, rfl, rfl⟩
  · exact ⟨rfl, ⟨rfl, rfl, rfl⟩, rfl, rfl⟩

theorem assembles {m : SE3Task ℝ} (hm : m.rows = rows2) : ∃ f, Formulation.assemble (cyc m) f5 = some f := by
  have h := C70_no_ub_partial (t := 0) (cy := cyc m) tidyRun ⟨rfl, rfl, rfl⟩
    (fun i hi => by rw [measured] at hi; rw [List.mem_singleton.1 hi]; rfl)
    (by rw [items']; exact fits hm)
  unfold computeProblemData at h
  dsimp only at h
  rw [trans5] at h
  dsimp only at h
  cases ha : Formulation.assemble (cyc m) f5 with
  | some f => exact ⟨f, rfl⟩
  | none => rw [ha] at h; cases h

theorem computes : ∃ m f, m.rows = rows2 ∧
    Formulation.assemble (cyc m) f5 = some f ∧
    Program.compute env snap 0 ⟨f4, tasks2, motions1, pushes1⟩ = .ok ⟨f, tasks3, motions2 m, pushes2⟩ () := by
  obtain ⟨m, h1, h2⟩ := touch_compute
  obtain ⟨f, h3⟩ := assembles h2
  refine ⟨m, f, h2, h3, ?_⟩
  unfold Program.compute
  dsimp only
  rw [show env.ndebug = false from rfl, trans5]
  dsimp only
  rw [objects h1]
  dsimp only
  have h3' : Formulation.assemble (Program.cycle snap ⟨f5, tasks3, motions2 m, pushes2⟩) f5
    = some f := h3
  rw [h3']

/-- The arm rests, its tip pressing on the surface. -/
noncomputable def resting : Vec ℝ := ⟨6, fun i => if i = 5 then 1 else 0⟩

theorem resting_force : Sat (contacts 0).forceIneq fun i => resting (3 + i) := by
  have hcf : cornerForce (fun i => resting (3 + i)) 0 = ⟨0, 0, 1⟩ := by
    show (⟨if 3 + (3 * 0) = 5 then 1 else 0, if 3 + (3 * 0 + 1) = 5 then 1 else 0,
      if 3 + (3 * 0 + 2) = 5 then 1 else 0⟩ : V3 ℝ) = _
    norm_num
  have hn : (⟨0, 0, 1⟩ : V3 ℝ).dot ⟨0, 0, 1⟩ = 1 := by norm_num [V3.dot]
  obtain ⟨-, -, -, -, o1, o2⟩ := Contact.tangents_orthonormal hn
  refine (Contact.sat_friction (np := 1) (n := ⟨0, 0, 1⟩) (mu := 1 / 2) (fMin := 0) (fMax := 40) _).2
    ⟨fun i hi => ?_, ?_, ?_⟩
  · obtain rfl : i = 0 := by omega
    rw [hcf]
    refine ⟨⟨?_, ?_⟩, ?_, ?_⟩ <;> simp only [o1, o2, hn] <;> norm_num
  · rw [sum_range_one, hcf, hn]; norm_num
  · rw [sum_range_one, hcf, hn]; norm_num

theorem noReassociation : Along false world NoReassociation (init robot contacts fun tid => (setup.task tid).assoc) fops := by
  show Along false world NoReassociation f0 fops
  simp only [fops, Along, form1, form2, form3, form4, Res.state?]
  exact ⟨trivial, trivial, trivial, trivial, trivial⟩

theorem rows_rest : ∀ i, i < 3 → rows2.con.vec i = 0 := by
  intro i hi
  have z : (0 : V3 ℝ) = ⟨0, 0, 0⟩ := rfl
  have zm : (0 : Motion ℝ) = ⟨⟨0, 0, 0⟩, ⟨0, 0, 0⟩⟩ := rfl
  have sub : ∀ a b : V3 ℝ, a - b = ⟨a.x - b.x, a.y - b.y, a.z - b.z⟩ := fun _ _ => rfl
  have add : ∀ a b : V3 ℝ, a + b = ⟨a.x + b.x, a.y + b.y, a.z + b.z⟩ := fun _ _ => rfl
  have neg : ∀ a : V3 ℝ, -a = ⟨-a.x, -a.y, -a.z⟩ := fun _ => rfl
  obtain rfl | rfl | rfl : i = 0 ∨ i = 1 ∨ i = 2 := by omega
  all_goals
    simp [rows2, CartRows.write, Vec.put, SE3Task.law, touch1, touch, SE3Task.pre, tip, env, SE3.error, SE3.one, gains6,
      SE3.actInv, Vec.zero, SE3.inverse, SE3.mul, M3.one, M3.transpose, M3.mulVec, V3.cross, Motion.get, V3.get, z, zm,
      sub, add, neg]

/-- The problem of the program can be solved. -/
theorem feasible {m : SE3Task ℝ} {f : Tsid.State ℝ} (hm : m.rows = rows2)
    (ha : Formulation.assemble (cyc m) f5 = some f) :
    ∃ l0 l1, problem f = [l0, l1] ∧ resting.size = nVar f ∧ Feasible l0 resting := by
  have hc : computeProblemData false (cyc m) 0 f4 = .ok f () := by
    unfold computeProblemData
    dsimp only
    rw [trans5]
    dsimp only
    rw [ha]
  obtain ⟨c1, c2⟩ := C71_closed_form tidyRun noReassociation hc ⟨rfl, rfl, rfl⟩
  have ho : f.contactObj = contacts := (assemble_frame ha).obj
  rw [items', measured, ho] at c1
  rw [items', ho] at c2
  refine ⟨_, _, c1, c2.symm, ?_⟩
  have e : (cyc m).contactMotion 0 = rows2.con := congrArg CartRows.con hm
  have hdv : ∀ j, j < 3 → resting j = 0 := fun j hj => if_neg (by omega)
  intro q hq
  simp only [List.filterMap_cons, List.filterMap_nil, Item.cid?, List.flatMap_cons, List.flatMap_nil, Item.lines,
    List.mem_cons, List.mem_append, List.not_mem_nil, or_false, if_true, if_false, one_ne_zero, zero_ne_one,
    List.append_nil, List.nil_append] at hq
  rcases hq with rfl | (rfl | rfl) | rfl
  · intro i hi
    exact absurd hi (Nat.not_lt_zero i)
  · intro i hi
    have hi : i < 3 := hi
    rw [row_block _ _ _ 0 3 (show 0 + 3 ≤ 6 by decide) (fun j _ hn => if_neg hn),
      sum_eq_zero fun j hj => by rw [Nat.zero_add, hdv j (mem_range.1 hj), mul_zero]]
    show 0 = ((cyc m).contactMotion 0).vec i
    rw [e, rows_rest i hi]
  · intro i hi
    have hs := resting_force i hi
    rw [row_block _ _ _ 3 3 (le_refl _) (fun j _ hn => if_neg hn)]
    have e : ∀ c ∈ range 3, (contactForceConstraint ⟨robot.nv, robot.nv - robot.na, robot.mass (cyc m).M, contacts,
        f.assoc, cyc m⟩ [0] 0).mat i (3 + c) * resting (3 + c) = (contacts 0).forceIneq.mat i c * resting (3 + c) := by
      intro c hc
      have hc := mem_range.1 hc
      have : (contactForceConstraint ⟨robot.nv, robot.nv - robot.na, robot.mass (cyc m).M, contacts,
        f.assoc, cyc m⟩ [0] 0).mat i (3 + c) = if 3 ≤ 3 + c ∧ 3 + c < 3 + 3 then (contacts 0).forceIneq.mat i (3 + c - 3)
          else 0 := rfl
      rw [this, if_pos (by omega), show 3 + c - 3 = c by omega]
    rw [sum_congr rfl e]
    exact hs
  · intro i hi
    have hi : i < 3 := hi
    rw [row_block _ _ _ 0 3 (show 0 + 3 ≤ 6 by decide) (fun j _ hn => if_neg hn),
      sum_eq_zero fun j hj => by rw [Nat.zero_add, hdv j (mem_range.1 hj), mul_zero]]
    have hb : (0 : ℝ) ≤ big := by unfold big; norm_num
    have hl : ∀ i, ((cyc m).motionOut 1).lb i = if 0 ≤ i ∧ i < 0 + 3 then max ((-big - 0) / (1 / 10)) (-1) else 0 := fun _ => rfl
    have hu : ∀ i, ((cyc m).motionOut 1).ub i = if 0 ≤ i ∧ i < 0 + 3 then min ((big - 0) / (1 / 10)) 1 else 0 := fun _ => rfl
    refine ⟨?_, ?_⟩
    · show ((cyc m).motionOut 1).lb i ≤ 0
      rw [hl, if_pos (by omega)]
      exact max_le (by linarith) (by norm_num)
    · show 0 ≤ ((cyc m).motionOut 1).ub i
      rw [hu, if_pos (by omega)]
      exact le_min (by linarith) (by norm_num)

/-- The hypotheses of C87 can be met: three objects and a measured force are registered, and the problem has a
solution. -/
example : ∃ s0 s l0 l1, GoodProgram env world setup ops s0 ∧ SnapshotOk env.robot.nv snap ∧
    Program.compute env snap 0 s0 = .ok s () ∧ problem s.form = [l0, l1] ∧ resting.size = nVar s.form ∧
    Feasible l0 resting ∧ (setup.registry env world ops 0).items.length = 3 ∧
    Kept env world setup ops snap 0 s resting := by
  obtain ⟨m, f, hm, ha, hc⟩ := computes
  obtain ⟨l0, l1, h1, h2, h3⟩ := feasible hm ha
  have hw : SnapshotOk env.robot.nv snap := ⟨rfl, rfl, rfl, rfl, rfl, rfl, fun _ => by
    refine ⟨?_, ?_⟩ <;> simp [snap, tip, SE3.one, M3.mul, M3.one, M3.transpose, M3.mulVec]⟩
  exact ⟨_, _, l0, l1, good, hw, hc, h1, h2, h3, by rw [items]; rfl, C87_partial good hw hc h1 h2 h3⟩

end ArmDemo

/-! ## Changing a mask while the task is registered -/

namespace MaskDemo

def robot3 : PostureRobot ℚ :=
  { nv := 3, na := 3, nqa := 3, neutral := Vec.zero 3, difference := fun a b => ⟨3, fun i => b i - a i⟩ }

def env : Program.Env ℚ := ⟨false, fun _ => 0, robot3, fun _ => "com", fun _ => "push", fun _ => 0⟩

def still : FrameKin ℚ := ⟨SE3.one, 0, 0, fun _ => 0⟩

def snap : Snapshot ℚ :=
  { q := Vec.zero 3, v := Vec.zero 3, M := Mat.identity 3, nle := Vec.zero 3, frame := fun _ => still
    com := ⟨0, 0, 0, fun _ => 0⟩, Ag := Mat.zero 6 3, dh := 0, garbage := fun _ _ => 0 }

/-- The state after the constructors. -/
def start (c : ComTask ℚ) : Program.State ℚ :=
  Program.init ⟨3, 3, Vec.zero 3, Vec.zero 3, Vec.zero 3⟩ (fun _ => Contact.new "foot" .point (fun _ => 0) ⟨0, 0, 1⟩ 1 0 1)
    (fun _ => .com c) (fun _ => .sixD 0 (SE3Task.pre (fun _ => 0) "foot" 3)) fun _ => .force 0 (Measured3D.new 3 fun _ => true)

/-- Is the cycle after a program undefined behaviour? -/
def isUB (ops : List (Program.Op ℚ)) : Option Bool :=
  match ComTask.new (fun _ => 0) "com" 3 with
  | .ok c _ =>
    match Program.run env (start c) ops with
    | some s => some (Program.compute env snap 0 s).isUB
    | none => none
  | _ => none

end MaskDemo

/-- **C87, finding.** Masks may be set at any time, but the formulation allocates the rows of a task when the task is
added: if the number of selected axes changes while the task is registered, the next `computeProblemData` copies a
matrix into a block of another size, which is undefined behaviour.  The same mask, set before the task is added, does no
harm, nor does another mask with the same number of axes. -/
theorem C87_mask_after_add :
    MaskDemo.isUB [.form (.addMotionTask 0 1 1 0), .task 0 (.com (.setMask (fun _ => 0) ⟨3, fun i => if i = 0 then 1 else 0⟩))] =
      some true ∧
    MaskDemo.isUB [.task 0 (.com (.setMask (fun _ => 0) ⟨3, fun i => if i = 0 then 1 else 0⟩)), .form (.addMotionTask 0 1 1 0)] =
      some false ∧
    MaskDemo.isUB [.task 0 (.com (.setMask (fun _ => 0) ⟨3, fun i => if i = 0 then 1 else 0⟩)), .form (.addMotionTask 0 1 1 0),
      .task 0 (.com (.setMask (fun _ => 0) ⟨3, fun i => if i = 1 then 1 else 0⟩))] = some false := by
  decide +kernel

end Tsid.Props
