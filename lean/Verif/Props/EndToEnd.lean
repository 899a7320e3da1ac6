import Verif.Props.Dynamics
import Verif.Props.Cycle
import Verif.Props.Sizes
import Verif.Props.Solver
import Verif.Lemmas.Objects
import Verif.Spec.EndToEnd

/-!
# C65: from the registrations to the solver and back
-/

set_option linter.unusedSectionVars false

namespace Tsid.Props

open Finset Formulation Spec

variable {K : Type} [Field K] [LinearOrder K] [HasSqrt K]

/-- A task registered at level 0 has a task level and an entry of level 0. -/
theorem task_entry {W : World} {s : State K} {L : List (LItem K)} (hc : Coh W s L) {fam : Family} {tid : Nat} {w : K}
    (h : Item.task fam tid 0 w ∈ L.map Prod.fst) :
    ∃ tl, (tl ∈ match fam with
      | .motion => s.motions
      | .force => s.forces
      | .actuation => s.acts) ∧ tl.tid = tid ∧ tl.cref ∈ hqpIds s.hqp ∧
      ∃ l0 l1, problem s = [l0, l1] ∧ (w, s.heap tl.cref) ∈ l0 := by
  obtain ⟨⟨it, a, b, c⟩, hx, e⟩ := List.mem_map.1 h
  dsimp only at e
  subst e
  have hent : (w, a) ∈ L.flatMap (ents 0) := List.mem_flatMap.2 ⟨_, hx, by simp [ents]⟩
  refine ⟨⟨tid, 0, a⟩, ?_, rfl, ?_, (1, s.heap s.baseId) :: (L.flatMap (ents 0)).map (fun e => (e.1, s.heap e.2)),
    (L.flatMap (ents 1)).map (fun e => (e.1, s.heap e.2)), ?_, ?_⟩
  · cases fam
    · dsimp only; rw [hc.motions]; exact List.mem_filterMap.2 ⟨_, hx, by simp [taskOf]⟩
    · dsimp only; rw [hc.forces]; exact List.mem_filterMap.2 ⟨_, hx, by simp [taskOf]⟩
    · dsimp only; rw [hc.acts]; exact List.mem_filterMap.2 ⟨_, hx, by simp [taskOf]⟩
  · rw [hc.hqp]
    exact mem_hqpIds.2 ⟨_, List.mem_cons_self .., _, List.mem_cons_of_mem _ hent, rfl⟩
  · unfold problem
    rw [hc.hqp]
    rfl
  · exact List.mem_cons_of_mem _ (List.mem_map.2 ⟨_, hent, rfl⟩)

/-- A registered contact has a contact level, its force constraint is in level 0, and so is its motion constraint if it
is registered there. -/
theorem contact_entry {W : World} {s : State K} {L : List (LItem K)} (hc : Coh W s L) {cid p : Nat} {wm wf : K}
    (h : Item.contact cid p wm wf ∈ L.map Prod.fst) :
    ∃ cl ∈ s.contacts, cl.cid = cid ∧ cl.force ∈ hqpIds s.hqp ∧
      ∃ l0 l1, problem s = [l0, l1] ∧ (1, s.heap cl.force) ∈ l0 ∧ (p = 0 → (wm, s.heap cl.motion) ∈ l0) := by
  obtain ⟨⟨it, a, b, c⟩, hx, e⟩ := List.mem_map.1 h
  dsimp only at e
  subst e
  have hcl : (cid, a, b, c) ∈ s.contacts.map strip := by
    rw [hc.contacts]
    exact List.mem_filterMap.2 ⟨_, hx, rfl⟩
  obtain ⟨cl, hcl, e⟩ := List.mem_map.1 hcl
  simp only [strip, Prod.mk.injEq] at e
  obtain ⟨e1, e2, e3, e4⟩ := e
  have hent : (1, cl.force) ∈ L.flatMap (ents 0) := List.mem_flatMap.2 ⟨_, hx, by simp [ents, e3]⟩
  refine ⟨cl, hcl, e1, ?_, (1, s.heap s.baseId) :: (L.flatMap (ents 0)).map (fun e => (e.1, s.heap e.2)),
    (L.flatMap (ents 1)).map (fun e => (e.1, s.heap e.2)), ?_, ?_, ?_⟩
  · rw [hc.hqp]
    exact mem_hqpIds.2 ⟨_, List.mem_cons_self .., _, List.mem_cons_of_mem _ hent, rfl⟩
  · unfold problem
    rw [hc.hqp]
    rfl
  · exact List.mem_cons_of_mem _ (List.mem_map.2 ⟨_, hent, rfl⟩)
  · intro hp
    have hent' : (wm, cl.motion) ∈ L.flatMap (ents 0) := List.mem_flatMap.2 ⟨_, hx, by simp [ents, e2, hp]⟩
    exact List.mem_cons_of_mem _ (List.mem_map.2 ⟨_, hent', rfl⟩)

/-- `computeProblemData` does not re-associate force tasks. -/
theorem compute_assoc {nd : Bool} {cy : Cycle K} {t : K} {s0 s : State K} (hc : computeProblemData nd cy t s0 = .ok s ()) :
    s.assoc = s0.assoc := by
  simp only [computeProblemData] at hc
  split at hc
  · next s1 u h1 =>
    have h := (runTransitions_robot (nd := nd) s0.trans [] { s0 with t := t } s1 (by rw [h1]; rfl)).2.1
    split at hc
    · next s2 h2 =>
      cases hc
      rw [(assemble_frame h2).assoc, h]
    · cases hc
  · cases hc
  · cases hc
  · cases hc

variable [IsStrictOrderedRing K] [LawfulSqrt K]

/-- The force constraint of a contact object implies the limits. -/
theorem sat_withinLimits {c : Contact K} (hd : ∃ p, Holds c.name c.kind c p)
    (hn : c.kind ≠ .twoFrames → c.normal.dot c.normal = 1) {f : Nat → K} (hf : Sat c.forceIneq f) :
    WithinLimits c f := by
  obtain ⟨p, hp⟩ := hd
  rw [hp.ineq] at hf
  unfold WithinLimits
  rw [hp.normal] at hn ⊢
  rw [hp.mu, hp.fMin, hp.fMax]
  cases hk : c.kind with
  | point =>
    rw [hk] at hf hn
    dsimp only
    have h := (Contact.sat_friction (np := 1) (n := p.normal) (mu := p.mu) (fMin := p.fMin) (fMax := p.fMax) f).1 hf
    exact ⟨⟨_, _, Contact.tangents_orthonormal (hn (by simp)), fun i hi => (h.1 i hi).1⟩, h.2⟩
  | sixD =>
    rw [hk] at hf hn
    dsimp only
    have h := (Contact.sat_friction (np := 4) (n := p.normal) (mu := p.mu) (fMin := p.fMin) (fMax := p.fMax) f).1 hf
    exact ⟨⟨_, _, Contact.tangents_orthonormal (hn (by simp)), fun i hi => (h.1 i hi).1⟩, h.2⟩
  | twoFrames =>
    rw [hk] at hf
    dsimp only
    intro i hi
    have hf' : ∀ i, i < 3 → p.fMin ≤ row (Mat.identity 3) f i ∧ row (Mat.identity 3) f i ≤ p.fMax := hf
    have := hf' i hi
    have e : row (Mat.identity 3) f i = f i := by
      unfold row
      show ∑ j ∈ range 3, (if i = j then (1 : K) else 0) * f j = f i
      rw [sum_eq_single i]
      · simp
      · intro j _ hj; simp [Ne.symm hj]
      · intro hh; exact absurd (mem_range.2 hi) hh
    rw [e] at this
    exact this

/-- What a solution of level 0 satisfies, entry by entry, whatever the kinds and sizes of the constraints handed over. -/
structure Entries (nv nu : Nat) (M : Mat K) (cy : Cycle K) (items : List (Item K)) (measured : List Nat)
    (s : State K) (x : Vec K) : Prop where
  dynamics : ∃ dv f tau, (getAccelerations s x).val? = some dv ∧ (getContactForces s x).val? = some f ∧
    (getActuatorForces s x).val? = some tau ∧
    EquationsOfMotion nv nu M cy.nle
      ((items.filterMap Item.cid?).map fun c => ((cy.contactMotion c).mat, (s.contactObj c).forceGen))
      (measured.map cy.torque) dv f tau
  motion : ∀ tid w, .task .motion tid 0 w ∈ items → ((cy.motionOut tid).kind = .bound → (cy.motionOut tid).lb.size = nv) →
    ∃ dv, (getAccelerations s x).val? = some dv ∧ Sat (cy.motionOut tid) dv
  forceAll : ∀ tid w, .task .force tid 0 w ∈ items → s.assoc tid = "" →
    ((cy.forceOut tid).kind = .bound → (cy.forceOut tid).lb.size = s.k) →
    ∃ f, (getContactForces s x).val? = some f ∧ Sat (cy.forceOut tid) f
  forceOf : ∀ tid w, .task .force tid 0 w ∈ items → s.assoc tid ≠ "" → ∀ cid ∈ items.filterMap Item.cid?,
    (s.contactObj cid).name = s.assoc tid →
    ((cy.forceOut tid).kind = .bound → (cy.forceOut tid).lb.size = (s.contactObj cid).nForce) →
    ∃ f, (getContactForcesOf s (s.assoc tid) x).val? = some f ∧ Sat (cy.forceOut tid) f
  actuation : ∀ tid w, .task .actuation tid 0 w ∈ items →
    ∃ tau, (getActuatorForces s x).val? = some tau ∧ Sat (cy.actOut tid) tau
  contactMotion : ∀ cid wm wf, .contact cid 0 wm wf ∈ items → (cy.contactMotion cid).kind = .equality →
    ∃ dv, (getAccelerations s x).val? = some dv ∧ Sat (cy.contactMotion cid) dv
  contactForce : ∀ cid p wm wf, .contact cid p wm wf ∈ items →
    ((s.contactObj cid).kind ≠ .twoFrames → (s.contactObj cid).normal.dot (s.contactObj cid).normal = 1) →
    ∃ f, (getContactForcesOf s (s.contactObj cid).name x).val? = some f ∧ WithinLimits (s.contactObj cid) f

/-- The members of the formulation after a cycle, in terms of the registrations. -/
structure CycleEnd (nd : Bool) (W : World) (robot : Robot K) (obj : Nat → Contact K) (assoc : Nat → String)
    (ops : List (Op K)) (t : K) (s0 s : State K) : Prop where
  robotEq : s.robot = robot
  nvEq : s.nv = robot.nv
  nuEq : s.nu = robot.nv - robot.na
  assocEq : s.assoc = s0.assoc
  measuredEq : s.measured = (registrations nd W robot obj assoc ops).measured
  names : ∀ c, (s.contactObj c).name = (obj c).name
  kinds : ∀ c, (s.contactObj c).kind = (obj c).kind
  nodup : (contactNames s).Nodup
  coh : ∃ L, Coh W s L ∧
    L.map Prod.fst = ((registrations nd W robot obj assoc ops).expire (fun c => (obj c).name) t).items

/-- A cycle after an orderly history. -/
theorem cycle_end {nd : Bool} {W : World} {robot : Robot K} {obj : Nat → Contact K} {assoc : Nat → String}
    {ops : List (Op K)} {s0 s : State K} {cy : Cycle K} {t : K} (h : TidyRun nd W robot obj assoc ops s0)
    (hc : computeProblemData nd cy t s0 = .ok s ()) : CycleEnd nd W robot obj assoc ops t s0 s := by
  obtain ⟨hi, hn, L, hL, -⟩ := tidy_impl h
  obtain ⟨s1, -, -, -, -, his, -⟩ := compute_spec hi hc
  have hrob : s.robot = robot := by
    have e1 : s0.robot = robot := run_robot ops _ _ h.run
    have e2 := step_robot (nd := nd) (W := W) (s := s0) (o := .compute cy t) (s' := s)
      (by simp only [step, hc]; rfl)
    exact e2.trans e1
  have hnv : s.nv = robot.nv := by rw [← his.pre.rnv, hrob]
  have hnu : s.nu = robot.nv - robot.na := by
    have x1 := his.pre.rna
    have x3 := his.pre.nuLe
    rw [hrob] at x1
    omega
  have hcn : cnames s0 = fun c => (obj c).name := hn.names
  have hst : (step nd W s0 (.compute cy t)) = .ok s () := hc
  obtain ⟨n1, L', hI, -⟩ := step_impl (nd := nd) h.hygienic hi hL (.compute cy t) trivial (s' := s) (by rw [hst]; rfl)
  rw [hst] at hI
  have hI' : Impl W s ((registrations nd W robot obj assoc ops).expire (cnames s0) t) L' := hI
  rw [hcn] at hI'
  have hmeas : s.measured = (registrations nd W robot obj assoc ops).measured := by
    rw [hI'.measured]
    unfold Registry.expire
    split <;> rfl
  exact ⟨hrob, hnv, hnu, compute_assoc hc, hmeas, fun c => congrFun (n1.names.trans hn.names) c,
    fun c => congrFun (n1.kinds.trans hn.kinds) c, contact_names_nodup hI'.coh, L', hI'.coh, hI'.items⟩

/-- What the solver must satisfy at level 0, entry by entry. -/
theorem feasible_entries {nd : Bool} {W : World} {robot : Robot K} {obj : Nat → Contact K} {assoc : Nat → String}
    {ops : List (Op K)} {s0 s : State K} {cy : Cycle K} {t : K} (h : TidyRun nd W robot obj assoc ops s0)
    (hno : Along nd W NoReassociation (init robot obj assoc) ops)
    (hs : CycleSizes robot.nv cy) (hc : computeProblemData nd cy t s0 = .ok s ())
    {l0 l1 : Level K} (hp : problem s = [l0, l1]) {x : Vec K} (hx : x.size = nVar s) (hfe : Feasible l0 x) :
    Entries robot.nv (robot.nv - robot.na) (robot.mass cy.M) cy
      ((registrations nd W robot obj assoc ops).expire (fun c => (obj c).name) t).items
      (registrations nd W robot obj assoc ops).measured s x := by
  have hre : Reachable nd W s0 := ⟨robot, obj, assoc, ops, h.motors, h.built, h.run⟩
  obtain ⟨hrob, hnv, hnu, hasc, hmeas, hnames, hkinds, hnd, L', hcoh, hitems⟩ := cycle_end h hc
  have hs' : CycleSizes s.nv cy := by rw [hnv]; exact hs
  generalize hit : ((registrations nd W robot obj assoc ops).expire (fun c => (obj c).name) t).items = items at *
  have hcids : items.filterMap Item.cid? = s.contacts.map ContactLevel.cid := by
    rw [← hitems]; exact contact_cids hcoh
  have hdesc : Described s := compute_described (run_described ops _ _ (init_described h.built) h.run) (by rw [hc]; rfl)
  have hsat : ∀ {k : K} {c : Constraint K}, (∃ l0 l1, problem s = [l0, l1] ∧ (k, c) ∈ l0) → Sat c x := by
    rintro k c ⟨m0, m1, hm, hin⟩
    rw [hp] at hm
    injection hm with hm _
    exact hfe _ (hm ▸ hin)
  refine ⟨?_, ?_, ?_, ?_, ?_, ?_, ?_⟩
  · obtain ⟨dv, f, tau, g1, g2, g3, -, -, -, g4⟩ := C01_equations_of_motion hre hc hs' x hx
    refine ⟨dv, f, tau, g1, g2, g3, ?_⟩
    have hb : Sat (s.heap s.baseId) x := by
      refine hsat (k := 1) ⟨(1, s.heap s.baseId) :: (L'.flatMap (ents 0)).map (fun e => (e.1, s.heap e.2)),
        (L'.flatMap (ents 1)).map (fun e => (e.1, s.heap e.2)), ?_, List.mem_cons_self ..⟩
      unfold problem
      rw [hcoh.hqp]
      rfl
    have := g4.1 hb
    unfold contactPairs at this
    rw [hnv, hnu, hrob, hmeas] at this
    rw [hcids, List.map_map]
    exact this
  · intro tid w hin hb
    obtain ⟨tl, m1, rfl, -, m2⟩ := task_entry hcoh (hitems ▸ hin)
    obtain ⟨dv, g1, -, g2⟩ := C03_motion_tasks hre hc hs' x hx tl m1 (by rw [hnv]; exact hb)
    exact ⟨dv, g1, g2.1.1 (hsat m2)⟩
  · intro tid w hin e hb
    obtain ⟨tl, m1, rfl, m3, m2⟩ := task_entry hcoh (hitems ▸ hin)
    obtain ⟨f, g1, g2⟩ := (C05_force_tasks_partial h.motors h.built h.run hno hc hs' x hx tl m1 m3).2 e hb
    exact ⟨f, g1, g2.1.1 (hsat m2)⟩
  · intro tid w hin e cid hcid hnm hb
    obtain ⟨tl, m1, rfl, m3, m2⟩ := task_entry hcoh (hitems ▸ hin)
    rw [hcids] at hcid
    obtain ⟨cl, hcl, rfl⟩ := List.mem_map.1 hcid
    have hfind := find_contact hnd hcl
    rw [hnm] at hfind
    obtain ⟨f, g1, g2⟩ := (C05_force_tasks_partial h.motors h.built h.run hno hc hs' x hx tl m1 m3).1 cl e hfind hb
    exact ⟨f, g1, g2.1.1 (hsat m2)⟩
  · intro tid w hin
    obtain ⟨tl, m1, rfl, m3, m2⟩ := task_entry hcoh (hitems ▸ hin)
    obtain ⟨tau, g1, -, g2⟩ := C02_actuation_tasks hre hc hs' x hx tl m1 m3
    exact ⟨tau, g1, g2.1.1 (hsat m2)⟩
  · intro cid wm wf hin hk
    obtain ⟨cl, hcl, rfl, -, l0, l1, m1, -, m2⟩ := contact_entry hcoh (hitems ▸ hin)
    obtain ⟨fc, dv, -, g2, -, -, g5⟩ := C04_contact_entries hre hc hs' hnd x hx cl hcl
    exact ⟨dv, g2, (g5 hk).1.1 (hsat ⟨_, _, m1, m2 rfl⟩)⟩
  · intro cid p wm wf hin hu
    obtain ⟨cl, hcl, rfl, m3, l0, l1, m1, m2, -⟩ := contact_entry hcoh (hitems ▸ hin)
    obtain ⟨fc, dv, g1, -, g3, -, -⟩ := C04_contact_entries hre hc hs' hnd x hx cl hcl
    exact ⟨fc, g1, sat_withinLimits (hdesc _) hu ((g3 m3).1.1 (hsat ⟨_, _, m1, m2⟩))⟩

/-- What the solver must satisfy at level 0 makes the decoded solution consistent. -/
theorem feasible_consistent {nd : Bool} {W : World} {robot : Robot K} {obj : Nat → Contact K} {assoc : Nat → String}
    {ops : List (Op K)} {s0 s : State K} {cy : Cycle K} {t : K} (h : TidyRun nd W robot obj assoc ops s0)
    (hno : Along nd W NoReassociation (init robot obj assoc) ops)
    (hs : CycleSizes robot.nv cy) (hc : computeProblemData nd cy t s0 = .ok s ())
    (hf : let items := ((registrations nd W robot obj assoc ops).expire (fun c => (obj c).name) t).items
      ∀ it ∈ items, it.Fits W obj s0.assoc robot.nv robot.na (items.filterMap Item.cid?) cy)
    (hunit : ∀ cid ∈ ((registrations nd W robot obj assoc ops).expire (fun c => (obj c).name) t).items.filterMap Item.cid?,
      (s.contactObj cid).kind ≠ .twoFrames → (s.contactObj cid).normal.dot (s.contactObj cid).normal = 1)
    {l0 l1 : Level K} (hp : problem s = [l0, l1]) {x : Vec K} (hx : x.size = nVar s) (hfe : Feasible l0 x) :
    Consistent robot.nv (robot.nv - robot.na) (robot.mass cy.M) cy
      ((registrations nd W robot obj assoc ops).expire (fun c => (obj c).name) t).items
      (registrations nd W robot obj assoc ops).measured s x := by
  obtain ⟨hrob, hnv, hnu, hasc, hmeas, hnames, hkinds, hnd, L', hcoh, hitems⟩ := cycle_end h hc
  obtain ⟨e1, e2, e3, e4, e5, e6, e7⟩ := feasible_entries h hno hs hc hp hx hfe
  obtain ⟨hi, -, L, hL, -⟩ := tidy_impl h
  obtain ⟨-, -, c3⟩ := cycle_contents h.hygienic hi hL (tidy_clean h hno) hc (by rw [hnv]; exact hs)
  have hcn : cnames s0 = fun c => (obj c).name := (tidy_impl h).2.1.names
  rw [hcn] at c3
  generalize hit : ((registrations nd W robot obj assoc ops).expire (fun c => (obj c).name) t).items = items at *
  have hfit : ∀ it ∈ items, it.Fits W s.contactObj s.assoc robot.nv robot.na (items.filterMap Item.cid?) cy := by
    intro it hi'
    rw [hasc]
    exact Item.Fits.congr hnames hkinds (hf it hi')
  have hbound : ∀ {k : Kind} {r n : Nat} {c : Constraint K}, FitsOn k r n c → c.kind = .bound → c.lb.size = n := by
    rintro k r n c ⟨-, k2, -, k4⟩ hk
    unfold WellFormed at k2
    rw [hk] at k2
    dsimp only at k2
    omega
  refine ⟨e1, ?_, ?_, e5, ?_, ?_⟩
  · intro tid w hin
    exact e2 tid w hin (hbound (hfit _ hin))
  · intro tid w hin
    rcases hfit _ hin with ⟨e, hF⟩ | ⟨e, cid, hcid, hnm, hF⟩
    · rw [if_pos e]
      exact e3 tid w hin e (by rw [c3]; exact hbound hF)
    · rw [if_neg e]
      exact e4 tid w hin e cid hcid hnm (hbound hF)
  · intro cid wm wf hin
    exact e6 cid wm wf hin (hfit _ hin).1
  · intro cid p wm wf hin
    exact e7 cid p wm wf hin (hunit _ (List.mem_filterMap.2 ⟨_, hin, rfl⟩))

/-- The problem is one that the back-ends are meant for. -/
theorem problem_admissible {nd : Bool} {W : World} {robot : Robot K} {obj : Nat → Contact K} {assoc : Nat → String}
    {ops : List (Op K)} {s0 s : State K} {cy : Cycle K} {t : K} (h : TidyRun nd W robot obj assoc ops s0)
    (hno : Along nd W NoReassociation (init robot obj assoc) ops)
    (hs : CycleSizes robot.nv cy) (hc : computeProblemData nd cy t s0 = .ok s ())
    (hf : let items := ((registrations nd W robot obj assoc ops).expire (fun c => (obj c).name) t).items
      ∀ it ∈ items, it.Fits W obj s0.assoc robot.nv robot.na (items.filterMap Item.cid?) cy)
    (heq : ∀ fam tid w, .task fam tid 1 w ∈
      ((registrations nd W robot obj assoc ops).expire (fun c => (obj c).name) t).items → (W.task tid).kind = .equality) :
    ∃ l0 l1, problem s = [l0, l1] ∧ Admissible (nVar s) l0 (some l1) ∧ ¬ hasBound l0 := by
  have hwf := C70_well_formed h hno hs hc hf
  obtain ⟨c1, -⟩ := C71_closed_form h hno hc hs
  dsimp only at c1 hf
  generalize hit : ((registrations nd W robot obj assoc ops).expire (fun c => (obj c).name) t).items = items at *
  rw [c1] at hwf ⊢
  simp only [contents, List.mem_cons, List.not_mem_nil, or_false, forall_eq_or_imp, forall_eq] at hwf ⊢
  refine ⟨_, _, rfl, ⟨by simp, ?_, ?_⟩, ?_⟩
  · intro q hq
    have := hwf.1
    rcases List.mem_cons.1 hq with rfl | hq
    · refine ⟨this.1.1, ?_⟩
      unfold Constraint.cols
      exact this.1.2.1
    · obtain ⟨a1, a2, a3⟩ := this.2 q hq
      refine ⟨a1, ?_⟩
      unfold Constraint.cols
      cases hk : q.2.kind with
      | bound => exact absurd hk a3
      | equality => exact a2
      | inequality => exact a2
  · intro l hl
    cases hl
    refine ⟨?_, ?_⟩
    · intro q hq
      obtain ⟨it, hi, hq⟩ := List.mem_flatMap.1 hq
      have hF := hf it hi
      cases it with
      | task fam tid p w =>
        simp only [Item.lines] at hq
        split at hq
        swap
        · simp at hq
        next hp =>
        subst hp
        rw [List.mem_singleton] at hq
        subst hq
        have hk := heq _ _ _ hi
        cases fam with
        | motion =>
          obtain ⟨f1, -⟩ := hF
          simp only [taskConstraint, embed, f1, hk]
        | force =>
          have f1 : (cy.forceOut tid).kind = .equality := by
            rcases hF with ⟨-, f1, -⟩ | ⟨-, _, -, -, f1, -⟩ <;> rw [f1, hk]
          simp only [taskConstraint, embed, f1]
        | actuation =>
          obtain ⟨f1, -⟩ := hF
          simp only [taskConstraint, actConstraint, f1, hk]
      | contact cid p wm wf =>
        simp only [Item.lines, List.mem_append] at hq
        rcases hq with (hq | hq) | hq
        · split at hq
          · rw [List.mem_singleton] at hq; subst hq; rfl
          · simp at hq
        · simp at hq
        · rw [if_pos trivial, List.mem_singleton] at hq; subst hq; rfl
    · intro q hq
      obtain ⟨a1, a2, a3⟩ := hwf.2 q hq
      refine ⟨a1, ?_⟩
      unfold Constraint.cols
      cases hk : q.2.kind with
      | bound => exact absurd hk a3
      | equality => exact a2
      | inequality => exact a2
  · rintro ⟨q, hq, hk⟩
    rcases List.mem_cons.1 hq with rfl | hq
    · exact hwf.1.1.2.2 hk
    · exact (hwf.1.2 q hq).2.2 hk

open Solver in
/-- **C65.** After any history with distinct names and without re-association of registered force tasks, if the
constraints handed over in this cycle have the announced kinds and sizes, level 1 only has equality tasks, and
contact normals are unit vectors: every back-end, however it was used before, accepts the problem, and every vector
that satisfies the constraints handed to the external solver is consistent, i.e. decodes to accelerations, forces and
torques that satisfy the equations of motion, all constraints of level 0 and the limits of all contacts.
(Missing: histories that re-associate a registered force task, see `C05_reassociation_leaves_stale_columns`, or use a
name twice, see `C11_duplicate_names`.) -/
theorem C65_end_to_end_partial {nd : Bool} {W : World} {robot : Robot K} {obj : Nat → Contact K} {assoc : Nat → String}
    {ops : List (Op K)} {s0 s : Tsid.State K} {cy : Cycle K} {t : K} (h : TidyRun nd W robot obj assoc ops s0)
    (hno : Along nd W NoReassociation (Formulation.init robot obj assoc) ops)
    (hs : CycleSizes robot.nv cy) (hc : computeProblemData nd cy t s0 = .ok s ()) {items : List (Item K)}
    (hit : items = ((registrations nd W robot obj assoc ops).expire (fun c => (obj c).name) t).items)
    (hf : ∀ it ∈ items, it.Fits W obj s0.assoc robot.nv robot.na (items.filterMap Item.cid?) cy)
    (heq : ∀ fam tid w, .task fam tid 1 w ∈ items → (W.task tid).kind = .equality)
    (hunit : ∀ cid ∈ items.filterMap Item.cid?, (s.contactObj cid).kind ≠ .twoFrames →
      (s.contactObj cid).normal.dot (s.contactObj cid).normal = 1)
    (b reg : Bool) (fresh : Nat → Nat → K) (hist : List (SolverCall K)) :
    let ok := fun x : Vec K => Consistent robot.nv (robot.nv - robot.na) (robot.mass cy.M) cy items
      (registrations nd W robot obj assoc ops).measured s x
    (∀ u, retrieves eiq nd Eiq.init hist = some u → ∃ u', retrieve eiq fresh nd u (problem s) reg = .ok u' () ∧
      ∀ x : Vec K, x.size = nVar s → EiqSat u'.rows x → ok x) ∧
    (∀ u, retrieves fast nd Eiq.init hist = some u → ∃ u', retrieve fast fresh nd u (problem s) reg = .ok u' () ∧
      ∀ x : Vec K, x.size = nVar s → EiqSat u'.rows x → ok x) ∧
    (∀ fresh0 neq nin u, (problem s).head?.map Solver.count = some (neq, nin) →
      retrieves rt nd (Rt.init fresh0 (nVar s) neq nin) hist = some u →
      ∃ u', retrieve rt fresh nd u (problem s) reg = .ok u' () ∧ ∀ x : Vec K, x.size = nVar s → EiqSat u'.rows x → ok x) ∧
    (∀ u, retrieves prox nd Prox.init hist = some u → ∃ u', retrieve prox fresh nd u (problem s) reg = .ok u' () ∧
      ∀ x : Vec K, x.size = nVar s → ProxSat u'.rows x → ok x) ∧
    (∀ u, retrieves osqp nd Osqp.init hist = some u → ∃ u', retrieve osqp fresh nd u (problem s) reg = .ok u' () ∧
      ∀ x : Vec K, x.size = nVar s → OsqpSat u'.rows x → ok x) ∧
    (∀ u, retrieves mad nd (Mad.init b) hist = some u → ∃ u', retrieve mad fresh nd u (problem s) reg = .ok u' () ∧
      ∀ x : Vec K, x.size = nVar s → MadSat u'.rows x → ok x) := by
  subst hit
  intro ok
  obtain ⟨l0, l1, hp, ha, hb⟩ := problem_admissible h hno hs hc hf heq
  have key : ∀ x : Vec K, x.size = nVar s → Feasible l0 x → ok x := fun x hx hfe =>
    feasible_consistent h hno hs hc hf hunit hp hx hfe
  rw [hp]
  refine ⟨fun u hu => ?_, fun u hu => ?_, fun fresh0 neq nin u hcnt hu => ?_, fun u hu => ?_, fun u hu => ?_, fun u hu => ?_⟩
  · obtain ⟨u', e, -, g⟩ := C44_feasible_set (.inl rfl) nd hu fresh reg (ls := [l1]) (by simp) ha
    exact ⟨u', e, fun x hx hsat => key x hx ((g x).1 hsat)⟩
  · obtain ⟨u', e, -, g⟩ := C44_feasible_set (.inr rfl) nd hu fresh reg (ls := [l1]) (by simp) ha
    exact ⟨u', e, fun x hx hsat => key x hx ((g x).1 hsat)⟩
  · simp only [List.head?_cons, Option.map_some, Option.some.injEq] at hcnt
    obtain ⟨u', e, -, g⟩ := C44_rt nd fresh0 hu fresh reg (ls := [l1]) (by simp) ha hcnt
    exact ⟨u', e, fun x hx hsat => key x hx ((g x).1 hsat)⟩
  · obtain ⟨u', e, -, g⟩ := C46_proxqp nd hu fresh reg (ls := [l1]) (by simp) ha
    exact ⟨u', e, fun x hx hsat => key x hx ((g x).1 hsat)⟩
  · obtain ⟨u', e, -, g⟩ := C46_osqp nd hu fresh reg (ls := [l1]) (by simp) ha
    exact ⟨u', e, fun x hx hsat => key x hx ((g x).1 hsat)⟩
  · obtain ⟨u', e, -, g⟩ := C47_qpmad_partial nd b hu fresh reg (ls := [l1]) (by simp) ha hb
    exact ⟨u', e, fun x hx hsat => key x hx ((g x).1 hsat)⟩

/-! An example over the real numbers: a motion task at level 0 and one at level 1, a six-dimensional contact. -/

namespace RealDemo

noncomputable def robot : Robot ℝ := ⟨7, 1, ⟨1, fun _ => 1⟩, ⟨1, fun _ => 3⟩, ⟨1, fun _ => 9⟩⟩

def world : World := ⟨fun i => if i = 0 then ⟨"com", "com", .equality, 1⟩ else ⟨"lim", "lim", .bound, 7⟩, fun _ => "push"⟩

/-- The corners of a square. -/
def square (i : Nat) : V3 ℝ :=
  match i with
  | 0 => ⟨1, 1, 0⟩
  | 1 => ⟨1, -1, 0⟩
  | 2 => ⟨-1, 1, 0⟩
  | _ => ⟨-1, -1, 0⟩

noncomputable def contacts : Nat → Contact ℝ := fun _ => Contact.new "sole" .sixD square ⟨0, 0, 1⟩ (1 / 2) 1 40

noncomputable def cycle : Cycle ℝ :=
  { M := Mat.identity 7
    nle := ⟨7, fun i => if i = 2 then 4 else if i = 6 then 5 else 0⟩
    motionOut := fun i =>
      if i = 0 then ⟨"com", .equality, ⟨1, 7, fun _ j => j⟩, ⟨1, fun _ => 3⟩, Vec.zero 0, Vec.zero 0⟩
      else ⟨"lim", .bound, Mat.identity 7, Vec.zero 0, ⟨7, fun _ => -1⟩, ⟨7, fun i => i⟩⟩
    forceOut := fun _ => ⟨"", .equality, ⟨0, 0, fun _ _ => 0⟩, Vec.zero 0, Vec.zero 0, Vec.zero 0⟩
    actOut := fun _ => ⟨"", .equality, ⟨0, 0, fun _ _ => 0⟩, Vec.zero 0, Vec.zero 0, Vec.zero 0⟩
    contactMotion := fun _ =>
      ⟨"motion", .equality, ⟨6, 7, fun i j => if i = j then 1 else 0⟩, Vec.zero 6, Vec.zero 0, Vec.zero 0⟩
    torque := fun _ => ⟨7, fun i => i⟩ }

noncomputable def ops : List (Op ℝ) := [.addMotionTask 0 2 1 0, .addRigidContact 0 1 1 0, .addMotionTask 1 1 0 0]

theorem hygienic : Hygienic world := by
  intro tid
  by_cases h : tid = 0
  · subst h; exact ⟨rfl, Demo.freeName_spec (show Demo.freeName "com" = true by decide +kernel)⟩
  · simp only [world, if_neg h]
    exact ⟨trivial, Demo.freeName_spec (show Demo.freeName "lim" = true by decide +kernel)⟩

/-- The state after adding a motion task. -/
noncomputable def added (s : Tsid.State ℝ) (tid : Nat) (w : ℝ) (p : Nat) : Tsid.State ℝ :=
  match addTask world s tid w p with
  | some (s', id) => { s' with motions := s'.motions ++ [⟨tid, p, id⟩] }
  | none => s

theorem added_step {s : Tsid.State ℝ} {tid : Nat} {w : ℝ} {p : Nat} (hw : 0 ≤ w) (h : (addTask world s tid w p).isSome) :
    step false world s (.addMotionTask tid w p 0) = .ok (added s tid w p) () := by
  obtain ⟨⟨s', id⟩, e⟩ := Option.isSome_iff_exists.1 h
  simp only [step, addMotionTask, if_pos hw, le_refl, if_true, added, e, void]

/-- The state after adding the contact. -/
noncomputable def touched (s : Tsid.State ℝ) : Tsid.State ℝ := ((step false world s (.addRigidContact 0 1 1 0)).state?).getD s

/-- States of the scenario. -/
noncomputable def s1 : Tsid.State ℝ := added (Formulation.init robot contacts fun _ => "") 0 2 1
noncomputable def s2 : Tsid.State ℝ := touched s1
noncomputable def s3 : Tsid.State ℝ := added s2 1 1 0

theorem step1 : step false world (Formulation.init robot contacts fun _ => "") (.addMotionTask 0 2 1 0) = .ok s1 () :=
  added_step (by norm_num) rfl
theorem step2 : step false world s1 (.addRigidContact 0 1 1 0) = .ok s2 () := rfl
theorem step3 : step false world s2 (.addMotionTask 1 1 0 0) = .ok s3 () := added_step (by norm_num) rfl

theorem items : ((registrations false world robot contacts (fun _ => "") ops).expire (fun c => (contacts c).name) 0).items =
    [.task .motion 0 1 2, .contact 0 0 1 1, .task .motion 1 0 1] := by
  simp only [registrations, ops, outcomes, step1, step2, step3, Res.state?, Res.threw]
  rfl

theorem tidyRun : TidyRun false world robot contacts (fun _ => "") ops s3 := by
  refine ⟨hygienic, by decide, fun _ => ⟨_, _, _, _, _, _, _, rfl⟩, ?_, ?_⟩
  · simp only [ops, run, step1, step2, step3, Res.state?]
  · simp only [ops, Along, step1, step2, step3, Res.state?]
    refine ⟨?_, ?_, ?_, trivial⟩
    · intro tl htl; cases htl
    · intro tl htl; cases htl
    · intro tl htl
      have : tl = ⟨0, 1, 1⟩ := List.mem_singleton.1 htl
      subst this
      decide

theorem fits : ∀ it ∈ ([.task .motion 0 1 2, .contact 0 0 1 1, .task .motion 1 0 1] : List (Item ℝ)),
    it.Fits world contacts s3.assoc robot.nv robot.na [0] cycle := by
  intro it hit
  simp only [List.mem_cons, List.not_mem_nil, or_false] at hit
  rcases hit with rfl | rfl | rfl
  · exact ⟨rfl, rfl, rfl, rfl⟩
  · exact ⟨rfl, rfl, rfl, rfl⟩
  · exact ⟨rfl, ⟨rfl, rfl, rfl⟩, rfl, rfl⟩

theorem computes_of {s : Tsid.State ℝ} (e : s.trans = []) (o : s.contactObj = contacts)
    (h : (computeProblemData false cycle 0 s).isUB = false) :
    ∃ s', computeProblemData false cycle 0 s = .ok s' () ∧ s'.contactObj = contacts := by
  unfold computeProblemData at h ⊢
  rw [e] at h ⊢
  simp only [runTransitions] at h ⊢
  split
  · next s' ha => exact ⟨s', rfl, by rw [(assemble_frame ha).obj]; exact o⟩
  · next ha => rw [ha] at h; cases h

theorem computes : ∃ s, computeProblemData false cycle 0 s3 = .ok s () ∧ s.contactObj = contacts := by
  have h := C70_no_ub_partial (t := 0) (cy := cycle) tidyRun ⟨rfl, rfl, rfl⟩ (fun _ _ => rfl) (by rw [items]; exact fits)
  exact computes_of (s := s3) rfl rfl h

/-- The robot stands still on the four corners. -/
noncomputable def standing : Vec ℝ := ⟨19, fun i => if 7 ≤ i ∧ (i - 7) % 3 = 2 then 1 else 0⟩

theorem noReassociation : Along false world NoReassociation (init robot contacts fun _ => "") ops := by
  simp only [ops, Along, step1, step2, step3, Res.state?]
  exact ⟨trivial, trivial, trivial, trivial⟩

theorem measured : (registrations false world robot contacts (fun _ => "") ops).measured = [] := by
  simp only [registrations, ops, outcomes, step1, step2, step3, Res.state?, Res.threw]
  rfl

theorem standing_force : Sat (contacts 0).forceIneq fun i => standing (7 + i) := by
  have hcf : ∀ i, i < 4 → cornerForce (fun i => standing (7 + i)) i = ⟨0, 0, 1⟩ := by
    intro i hi
    have e0 : ¬ (7 + 3 * i - 7) % 3 = 2 := by omega
    have e1 : ¬ (7 + (3 * i + 1) - 7) % 3 = 2 := by omega
    have e2 : 7 ≤ 7 + (3 * i + 2) ∧ (7 + (3 * i + 2) - 7) % 3 = 2 := by omega
    show (⟨if 7 ≤ 7 + 3 * i ∧ (7 + 3 * i - 7) % 3 = 2 then 1 else 0,
      if 7 ≤ 7 + (3 * i + 1) ∧ (7 + (3 * i + 1) - 7) % 3 = 2 then 1 else 0,
      if 7 ≤ 7 + (3 * i + 2) ∧ (7 + (3 * i + 2) - 7) % 3 = 2 then 1 else 0⟩ : V3 ℝ) = _
    rw [if_neg fun h => e0 h.2, if_neg fun h => e1 h.2, if_pos e2]
  have hn : (⟨0, 0, 1⟩ : V3 ℝ).dot ⟨0, 0, 1⟩ = 1 := by norm_num [V3.dot]
  obtain ⟨-, -, -, -, o1, o2⟩ := Contact.tangents_orthonormal hn
  refine (Contact.sat_friction (np := 4) (n := ⟨0, 0, 1⟩) (mu := 1 / 2) (fMin := 1) (fMax := 40) _).2
    ⟨fun i hi => ?_, ?_, ?_⟩
  · rw [hcf i hi]
    refine ⟨⟨?_, ?_⟩, ?_, ?_⟩ <;> simp only [o1, o2, hn] <;> norm_num
  · rw [sum_congr rfl fun i hi => by rw [hcf i (mem_range.1 hi), hn]]
    norm_num
  · rw [sum_congr rfl fun i hi => by rw [hcf i (mem_range.1 hi), hn]]
    norm_num

/-- The problem of the scenario can be solved. -/
theorem feasible {s : Tsid.State ℝ} (hc : computeProblemData false cycle 0 s3 = .ok s ()) (ho : s.contactObj = contacts) :
    ∃ l0 l1, problem s = [l0, l1] ∧ standing.size = nVar s ∧ Feasible l0 standing := by
  obtain ⟨c1, c2⟩ := C71_closed_form tidyRun noReassociation hc ⟨rfl, rfl, rfl⟩
  rw [items, measured, ho] at c1
  rw [items, ho] at c2
  refine ⟨_, _, c1, c2.symm, ?_⟩
  have hdv : ∀ j, j < 7 → standing j = 0 := fun j hj => if_neg (by omega)
  intro q hq
  simp only [List.filterMap_cons, List.filterMap_nil, Item.cid?, List.flatMap_cons, List.flatMap_nil, Item.lines,
    List.mem_cons, List.mem_append, List.not_mem_nil, or_false, if_true, if_false, one_ne_zero, zero_ne_one,
    List.append_nil, List.nil_append] at hq
  rcases hq with rfl | (rfl | rfl) | rfl
  · intro i hi
    have hi : i < 6 := hi
    rw [row_split _ _ _ 7 12 rfl, sum_eq_zero fun j hj => by rw [hdv j (mem_range.1 hj), mul_zero], zero_add]
    have hj : ∀ j, j < 12 → stackedJac contacts (fun c => (cycle.contactMotion c).mat) [0] j i =
        Contact.forceGen6d square i j := by
      intro j hj
      have : (if j < 12 then ∑ q ∈ range 6, Contact.forceGen6d square q j * (if q = i then 1 else 0) else
        stackedJac contacts (fun c => (cycle.contactMotion c).mat) [] (j - 12) i) = Contact.forceGen6d square i j := by
        rw [if_pos hj, sum_eq_single i]
        · simp
        · intro b _ hb; simp [hb]
        · intro h; exact absurd (mem_range.2 hi) h
      exact this
    have e : ∀ j ∈ range 12, (sideBySide 6 7 12 (fun i j => (robot.mass cycle.M) i j)
        (fun i j => -stackedJac contacts (fun c => (cycle.contactMotion c).mat) [0] j i)) i (7 + j) * standing (7 + j) =
        -(Contact.forceGen6d square i j * if j % 3 = 2 then 1 else 0) := by
      intro j hj'
      have hj' := mem_range.1 hj'
      have a1 : ¬ 7 + j < 7 := by omega
      have a2 : 7 + j < 7 + 12 := by omega
      show (if 7 + j < 7 then _ else if 7 + j < 7 + 12 then
        -stackedJac contacts (fun c => (cycle.contactMotion c).mat) [0] (7 + j - 7) i else 0) *
        (if 7 ≤ 7 + j ∧ (7 + j - 7) % 3 = 2 then 1 else 0) = _
      rw [if_neg a1, if_pos a2, show 7 + j - 7 = j by omega, hj j hj', neg_mul]
      by_cases h3 : j % 3 = 2
      · rw [if_pos h3, if_pos ⟨by omega, h3⟩]
      · rw [if_neg h3, if_neg fun h => h3 h.2]
    refine (sum_congr rfl e).trans ?_
    show _ = -((if i = 2 then 4 else if i = 6 then 5 else 0) - 0)
    obtain rfl | rfl | rfl | rfl | rfl | rfl : i = 0 ∨ i = 1 ∨ i = 2 ∨ i = 3 ∨ i = 4 ∨ i = 5 := by omega
    all_goals
      simp only [sum_range_succ, range_zero, sum_empty]
      norm_num [Contact.forceGen6d, M3.skew, M3.get, V3.get, square]
  · intro i hi
    rw [row_block _ _ _ 0 7 (show 0 + 7 ≤ 19 by decide) (fun j _ hn => if_neg hn),
      sum_eq_zero fun j hj => by rw [Nat.zero_add, hdv j (mem_range.1 hj), mul_zero]]
    rfl
  · intro i hi
    have hs := standing_force i hi
    rw [row_block _ _ _ 7 12 (le_refl _) (fun j _ hn => if_neg hn)]
    have e : ∀ c ∈ range 12, (contactForceConstraint ⟨robot.nv, robot.nv - robot.na, robot.mass cycle.M, contacts,
        s.assoc, cycle⟩ [0] 0).mat i (7 + c) * standing (7 + c) = (contacts 0).forceIneq.mat i c * standing (7 + c) := by
      intro c hc
      have hc := mem_range.1 hc
      have : (contactForceConstraint ⟨robot.nv, robot.nv - robot.na, robot.mass cycle.M, contacts,
        s.assoc, cycle⟩ [0] 0).mat i (7 + c) = if 7 ≤ 7 + c ∧ 7 + c < 7 + 12 then (contacts 0).forceIneq.mat i (7 + c - 7)
          else 0 := rfl
      rw [this, if_pos (by omega), show 7 + c - 7 = c by omega]
    rw [sum_congr rfl e]
    exact hs
  · intro i hi
    have hi : i < 7 := hi
    rw [row_block _ _ _ 0 7 (show 0 + 7 ≤ 19 by decide) (fun j _ hn => if_neg hn),
      sum_eq_zero fun j hj => by rw [Nat.zero_add, hdv j (mem_range.1 hj), mul_zero]]
    exact ⟨show (-1 : ℝ) ≤ 0 by norm_num, show (0 : ℝ) ≤ (i : ℝ) by positivity⟩

/-- The hypotheses of C65 can be met, by a problem that can be solved. -/
example : ∃ s, TidyRun false world robot contacts (fun _ => "") ops s3 ∧
    Along false world NoReassociation (init robot contacts fun _ => "") ops ∧ CycleSizes robot.nv cycle ∧
    computeProblemData false cycle 0 s3 = .ok s () ∧
    (∃ l0 l1, problem s = [l0, l1] ∧ standing.size = nVar s ∧ Feasible l0 standing) ∧
    let items := ((registrations false world robot contacts (fun _ => "") ops).expire (fun c => (contacts c).name) 0).items
    items.length = 3 ∧ (∀ it ∈ items, it.Fits world contacts s3.assoc robot.nv robot.na (items.filterMap Item.cid?) cycle) ∧
    (∀ fam tid w, .task fam tid 1 w ∈ items → (world.task tid).kind = .equality) ∧
    ∀ cid ∈ items.filterMap Item.cid?, (s.contactObj cid).kind ≠ .twoFrames →
      (s.contactObj cid).normal.dot (s.contactObj cid).normal = 1 := by
  obtain ⟨s, hc, ho⟩ := computes
  refine ⟨s, tidyRun, noReassociation, ⟨rfl, rfl, rfl⟩, hc, feasible hc ho, ?_⟩
  · rw [items]
    refine ⟨rfl, fits, ?_, ?_⟩
    · intro fam tid w h
      simp only [List.mem_cons, Item.task.injEq, List.not_mem_nil, or_false, reduceCtorEq, false_or] at h
      rcases h with ⟨-, rfl, -, -⟩ | ⟨-, -, h, -⟩
      · rfl
      · cases h
    · intro cid _ _
      rw [ho]
      show (⟨0, 0, 1⟩ : V3 ℝ).dot ⟨0, 0, 1⟩ = 1
      norm_num [V3.dot]

end RealDemo

end Tsid.Props
