import Verif.Lemmas.Entries
import Verif.Lemmas.RegistryRun
import Verif.Example.Tidy

/-!
# C01-C05: what the assembled problem says about the decoded solution
-/

set_option linter.unusedSectionVars false

namespace Tsid.Props

open Finset Formulation Spec

variable {K : Type} [Field K] [LinearOrder K] [HasSqrt K]

/-- What the contacts registered in `s` contribute to the equations of motion in cycle `cy`: their motion
Jacobian and their force generator. -/
def contactPairs (cy : Cycle K) (s : State K) : List (Mat K × Mat K) :=
  s.contacts.map fun cl => ((cy.contactMotion cl.cid).mat, (s.contactObj cl.cid).forceGen)

/-- **C01.** After any history followed by `computeProblemData`, a vector satisfies the base-dynamics
constraint iff what the getters decode from it satisfies all `nv` rows of the equations of motion. -/
theorem C01_equations_of_motion {nd : Bool} {W : World} {s0 s : State K} {cy : Cycle K} {t : K}
    (h0 : Reachable nd W s0) (hc : computeProblemData nd cy t s0 = .ok s ()) (hs : CycleSizes s.nv cy)
    (x : Vec K) (hx : x.size = nVar s) :
    ∃ dv f tau, (getAccelerations s x).val? = some dv ∧ (getContactForces s x).val? = some f ∧
      (getActuatorForces s x).val? = some tau ∧
      dv.size = s.nv ∧ f.size = s.k ∧ tau.size = s.nv - s.nu ∧
      (Sat (s.heap s.baseId) x ↔
        EquationsOfMotion s.nv s.nu (s.robot.mass cy.M) cy.nle (contactPairs cy s) (s.measured.map cy.torque)
          dv f tau) := by
  obtain ⟨s1, hi, -, ha, hA, -, -⟩ := compute_spec (reachable_inv h0) hc
  obtain ⟨s', hd⟩ := decode_spec hi ha hs x hx
  obtain ⟨hk, hr, hrow⟩ := base_row hi ha x
  refine ⟨s'.dv, s'.f, s'.tau, ?_, ?_, ?_, hd.dvSize, hd.fSize, hd.tauSize, ?_⟩
  · simp [getAccelerations, hd.run, Res.val?]
  · simp [getContactForces, hd.run, Res.val?]
  · simp [getActuatorForces, hd.run, Res.val?]
  have hdv : (fun i => s'.dv i) = x.get := by funext i; exact hd.dv i
  have hf : (fun i => s'.f i) = fun j => x (s.nv + j) := by funext i; exact hd.f i
  have hsat : Sat (s.heap s.baseId) x ↔ ∀ i, i < s.nu → row (s.heap s.baseId).mat x i = (s.heap s.baseId).vec i := by
    unfold Sat
    rw [hk]
    simp only [hr]
  rw [hsat]
  unfold EquationsOfMotion
  show _ ↔ ∀ i, i < s.nv → (∑ j ∈ range s.nv, s.robot.mass cy.M i j * s'.dv j) + cy.nle i =
    (if i < s.nu then 0 else s'.tau (i - s.nu)) + contactTerms (contactPairs cy s) 0 (fun i => s'.f i) i + _
  simp only [hd.dv, hf]
  constructor
  · intro h i hi'
    by_cases hu : i < s.nu
    · rw [if_pos hu]
      have e := h i hu
      rw [(hrow i).1, (hrow i).2] at e
      have e' := eq_add_of_sub_eq e
      rw [e']
      unfold contactPairs
      ring
    · rw [if_neg hu]
      have e := hd.tau (i - s.nu)
      have hui : s.nu + (i - s.nu) = i := by omega
      rw [hui] at e
      rw [e]
      unfold contactPairs
      ring
  · intro h i hu
    have hnu : s.nu ≤ s.nv := by
      have e := hA.eq
      have e_nv : s.nv = s1.nv := by rw [e]
      have e_nu : s.nu = s1.nu := by rw [e]
      rw [e_nv, e_nu]; exact hi.pre.nuLe
    have e := h i (lt_of_lt_of_le hu hnu)
    rw [if_pos hu] at e
    rw [(hrow i).1, (hrow i).2, eq_sub_of_add_eq e]
    unfold contactPairs
    ring

/-- The hypotheses of C01 are met by the demo history, with two contacts in the problem, and the base-dynamics
matrix has entries in the columns of the accelerations and of both contacts. -/
example : ∃ s0 s, Reachable false Demo.world s0 ∧ computeProblemData false Demo.cycle 1 s0 = .ok s () ∧
    CycleSizes s.nv Demo.cycle ∧ nVar s = 14 ∧ s.contacts.length = 2 ∧
    (s.heap s.baseId).mat 0 0 = 4 ∧ (s.heap s.baseId).mat 1 9 = -1 ∧ (s.heap s.baseId).mat 1 12 = -1 := by
  obtain ⟨s0, s, -, h1, h2, h3⟩ := Demo.after_exists (ops := Demo.history) (cy := Demo.cycle) (t := 1)
    (p := fun s => decide (s.nv = 8 ∧ nVar s = 14 ∧ s.contacts.length = 2 ∧ (s.heap s.baseId).mat 0 0 = 4 ∧
      (s.heap s.baseId).mat 1 9 = -1 ∧ (s.heap s.baseId).mat 1 12 = -1)) (by decide +kernel)
  obtain ⟨h4, h5⟩ := of_decide_eq_true h3
  exact ⟨s0, s, h1, h2, by rw [h4]; exact Demo.cycle_sizes, h5⟩

variable [IsStrictOrderedRing K]

/-- **C02.** The HQP entry of an actuation task says about `x` exactly what the task's own constraint says
about the torques decoded from `x`. -/
theorem C02_actuation_tasks {nd : Bool} {W : World} {s0 s : State K} {cy : Cycle K} {t : K}
    (h0 : Reachable nd W s0) (hc : computeProblemData nd cy t s0 = .ok s ()) (hs : CycleSizes s.nv cy)
    (x : Vec K) (hx : x.size = nVar s) (tl : TaskLevel) (htl : tl ∈ s.acts) (hid : tl.cref ∈ hqpIds s.hqp) :
    ∃ tau, (getActuatorForces s x).val? = some tau ∧ tau.size = s.nv - s.nu ∧
      SaysSame (s.heap tl.cref) x (cy.actOut tl.tid) tau := by
  obtain ⟨s1, hi, -, ha, hA, -, -⟩ := compute_spec (reachable_inv h0) hc
  obtain ⟨s', hd⟩ := decode_spec hi ha hs x hx
  refine ⟨s'.tau, ?_, hd.tauSize, act_says hi hA hs htl hid x hd⟩
  simp [getActuatorForces, hd.run, Res.val?]

/-- **C03.** The HQP entry of a motion task says about `x` exactly what the task's own constraint says about
the decoded accelerations.  (A bound must have one component per degree of freedom.) -/
theorem C03_motion_tasks {nd : Bool} {W : World} {s0 s : State K} {cy : Cycle K} {t : K}
    (h0 : Reachable nd W s0) (hc : computeProblemData nd cy t s0 = .ok s ()) (hs : CycleSizes s.nv cy)
    (x : Vec K) (hx : x.size = nVar s) (tl : TaskLevel) (htl : tl ∈ s.motions)
    (hb : (cy.motionOut tl.tid).kind = .bound → (cy.motionOut tl.tid).lb.size = s.nv) :
    ∃ dv, (getAccelerations s x).val? = some dv ∧ dv.size = s.nv ∧
      SaysSame (s.heap tl.cref) x (cy.motionOut tl.tid) dv := by
  obtain ⟨s1, hi, -, ha, hA, -, -⟩ := compute_spec (reachable_inv h0) hc
  obtain ⟨s', hd⟩ := decode_spec hi ha hs x hx
  refine ⟨s'.dv, ?_, hd.dvSize, ?_⟩
  · simp [getAccelerations, hd.run, Res.val?]
  · have hdv : s'.dv.get = x.get := by funext i; exact hd.dv i
    rw [hdv]
    exact motion_says hi hA htl hb x

omit [IsStrictOrderedRing K] in
theorem find_contact {s : State K} (hn : (contactNames s).Nodup) {cl : ContactLevel} (hcl : cl ∈ s.contacts) :
    s.contacts.find? (fun c => (s.contactObj c.cid).name == (s.contactObj cl.cid).name) = some cl := by
  unfold contactNames at hn
  generalize s.contacts = l at hn hcl ⊢
  induction l with
  | nil => simp at hcl
  | cons a as ih =>
    rw [List.map_cons, List.nodup_cons] at hn
    rw [List.find?_cons]
    rcases List.mem_cons.1 hcl with rfl | h
    · simp
    · have hne : ¬ (s.contactObj a.cid).name = (s.contactObj cl.cid).name := by
        intro he
        apply hn.1
        rw [he]
        exact List.mem_map_of_mem h
      simp only [beq_eq_false_iff_ne.2 hne]
      exact ih hn.2 h

omit [IsStrictOrderedRing K] in
/-- What `getContactForces(name, sol)` returns right after `computeProblemData`. -/
theorem contactForces_val {W : World} {cy : Cycle K} {s1 s : State K} (hi : Inv W s1) (hA : Assembled cy s1 s)
    {x : Vec K} {s' : State K} (hd : Decoded cy s x s') (name : String) {cl : ContactLevel}
    (hf : s.contacts.find? (fun c => (s.contactObj c.cid).name == name) = some cl) :
    ∃ fc, (getContactForcesOf s name x).val? = some fc ∧ fc.size = (s.contactObj cl.cid).nForce ∧
      ∀ i, fc i = x (s.nv + cl.index + i) := by
  have hmem := List.mem_of_find?_eq_some hf
  have e := hA.eq
  have e_c : s.contacts = s1.contacts := by rw [e]
  have e_o : s.contactObj = s1.contactObj := by rw [e]
  have e_k : s.k = s1.k := by rw [e]
  have hb := (tiled_bounds _ _ _ _ hi.tiled).2 cl (e_c ▸ hmem)
  have hs' : s'.contacts = s.contacts ∧ s'.contactObj = s.contactObj := by
    have hr := hd.run
    unfold decodeSolution at hr
    split at hr
    · cases hr; exact ⟨rfl, rfl⟩
    · split at hr
      · cases hr; exact ⟨rfl, rfl⟩
      · cases hr
  unfold getContactForcesOf
  rw [hd.run]
  simp only [hs'.1, hs'.2, hf]
  rw [if_pos (by rw [hd.fSize, e_o, e_k]; exact hb.2)]
  refine ⟨_, rfl, rfl, ?_⟩
  intro i
  show s'.f (cl.index + i) = _
  rw [hd.f, Nat.add_assoc]

/-- **C04.** The three HQP entries of a registered contact: its force constraint and regularisation task speak
about the force that `getContactForces(name, sol)` returns for this contact, its motion constraint about the
accelerations. -/
theorem C04_contact_entries {nd : Bool} {W : World} {s0 s : State K} {cy : Cycle K} {t : K}
    (h0 : Reachable nd W s0) (hc : computeProblemData nd cy t s0 = .ok s ()) (hs : CycleSizes s.nv cy)
    (hn : (contactNames s).Nodup) (x : Vec K) (hx : x.size = nVar s) (cl : ContactLevel) (hcl : cl ∈ s.contacts) :
    ∃ fc dv, (getContactForcesOf s (s.contactObj cl.cid).name x).val? = some fc ∧
      (getAccelerations s x).val? = some dv ∧
      (cl.force ∈ hqpIds s.hqp → SaysSame (s.heap cl.force) x (s.contactObj cl.cid).forceIneq fc) ∧
      (cl.reg ∈ hqpIds s.hqp → SaysSame (s.heap cl.reg) x (s.contactObj cl.cid).forceReg fc) ∧
      ((cy.contactMotion cl.cid).kind = .equality →
        SaysSame (s.heap cl.motion) x (cy.contactMotion cl.cid) dv) := by
  obtain ⟨s1, hi, -, ha, hA, -, -⟩ := compute_spec (reachable_inv h0) hc
  obtain ⟨s', hd⟩ := decode_spec hi ha hs x hx
  obtain ⟨fc, f1, f2, f3⟩ := contactForces_val hi hA hd _ (find_contact hn hcl)
  obtain ⟨g1, g2, g3⟩ := contact_says hi hA hcl x.get
  have hfc : fc.get = fun i => x (s.nv + cl.index + i) := by funext i; exact f3 i
  have hdv : s'.dv.get = x.get := by funext i; exact hd.dv i
  refine ⟨fc, s'.dv, f1, by simp [getAccelerations, hd.run, Res.val?], ?_, ?_, ?_⟩
  · rw [hfc]; exact g2
  · rw [hfc]; exact g3
  · rw [hdv]; exact g1

omit [IsStrictOrderedRing K] in
theorem forceBlock_registered (s : State K) (a : String) (ha : a ≠ "") (cl : ContactLevel)
    (hf : s.contacts.find? (fun c => (s.contactObj c.cid).name == a) = some cl) :
    forceBlock s.contactObj s.contacts s.k a = (cl.index, (s.contactObj cl.cid).nForce) := by
  unfold forceBlock
  rw [if_pos ha]
  have : (fun cl : ContactLevel => a == (s.contactObj cl.cid).name) =
      fun c => (s.contactObj c.cid).name == a := by
    funext c; exact Bool.beq_comm
  rw [this, hf]

omit [IsStrictOrderedRing K] in
theorem forceBlock_none (s : State K) (a : String)
    (h : a = "" ∨ s.contacts.find? (fun c => (s.contactObj c.cid).name == a) = none) :
    forceBlock s.contactObj s.contacts s.k a = (0, s.k) := by
  unfold forceBlock
  have : (fun cl : ContactLevel => a == (s.contactObj cl.cid).name) =
      fun c => (s.contactObj c.cid).name == a := by
    funext c; exact Bool.beq_comm
  split
  · next ha =>
    rcases h with h | h
    · exact absurd h ha
    · rw [this, h]
  · rfl

/-- **C05 (partial).** The HQP entry of a force task says about `x` exactly what the task's own constraint says
about the force of the contact it is associated with, or about all contact forces when it is associated with
none.  Missing from the full statement: histories that re-associate a registered force task (the stale columns
of the former contact stay in the problem, see `C05_reassociation_leaves_stale_columns`). -/
theorem C05_force_tasks_partial {nd : Bool} {W : World} {robot : Robot K} {obj : Nat → Contact K}
    {assoc : Nat → String} {ops : List (Op K)} {s0 s : State K} {cy : Cycle K} {t : K}
    (hr : robot.na ≤ robot.nv)
    (hobj : ∀ cid, ∃ name kind points normal mu fMin fMax,
      obj cid = Contact.new name kind points normal mu fMin fMax)
    (hrun : run nd W (init robot obj assoc) ops = some s0)
    (hno : Along nd W NoReassociation (init robot obj assoc) ops)
    (hc : computeProblemData nd cy t s0 = .ok s ()) (hs : CycleSizes s.nv cy)
    (x : Vec K) (hx : x.size = nVar s) (tl : TaskLevel) (htl : tl ∈ s.forces) (hid : tl.cref ∈ hqpIds s.hqp) :
    (∀ cl, s.assoc tl.tid ≠ "" →
      s.contacts.find? (fun c => (s.contactObj c.cid).name == s.assoc tl.tid) = some cl →
      ((cy.forceOut tl.tid).kind = .bound → (cy.forceOut tl.tid).lb.size = (s.contactObj cl.cid).nForce) →
      ∃ fc, (getContactForcesOf s (s.assoc tl.tid) x).val? = some fc ∧
        SaysSame (s.heap tl.cref) x (cy.forceOut tl.tid) fc) ∧
    (s.assoc tl.tid = "" → ((cy.forceOut tl.tid).kind = .bound → (cy.forceOut tl.tid).lb.size = s.k) →
      ∃ f, (getContactForces s x).val? = some f ∧ SaysSame (s.heap tl.cref) x (cy.forceOut tl.tid) f) := by
  have h0 : Reachable nd W s0 := ⟨robot, obj, assoc, ops, hr, hobj, hrun⟩
  have hsh : ∀ c, (obj c).Shaped := by
    intro c
    obtain ⟨name, kind, points, normal, mu, fMin, fMax, e⟩ := hobj c
    rw [e]
    exact Contact.shaped_new _ _ _ _ _ _ _
  have hcl := run_clean ops _ s0 (inv_init W robot hr obj hsh assoc) (forceClean_init robot obj assoc) hno hrun
  obtain ⟨s1, hi, hf1, ha, hA, -, -⟩ := compute_spec (reachable_inv h0) hc
  obtain ⟨s', hd⟩ := decode_spec hi ha hs x hx
  constructor
  · intro cl hne hfind hb
    obtain ⟨fc, f1, f2, f3⟩ := contactForces_val hi hA hd _ hfind
    have hblk := forceBlock_registered s _ hne cl hfind
    refine ⟨fc, f1, ?_⟩
    have hfc : fc.get = fun i => x (s.nv + cl.index + i) := by funext i; exact f3 i
    rw [hfc]
    have := force_says (hf1 hcl) hA htl hid (by rw [hblk]; exact hb) x.get
    rw [hblk] at this
    exact this
  · intro he hb
    have hblk := forceBlock_none s _ (Or.inl he)
    refine ⟨s'.f, by simp [getContactForces, hd.run, Res.val?], ?_⟩
    have hff : s'.f.get = fun i => x (s.nv + i) := by funext i; exact hd.f i
    rw [hff]
    have := force_says (hf1 hcl) hA htl hid (by rw [hblk]; exact hb) x.get
    rw [hblk] at this
    simpa using this

/-- **C05 is false after a re-association.** Force task 3 is computed while associated with "right" and again
after it has been associated with "left"; the entry still depends on the force of "right", so its residual at `x`
differs from that of the task at the force of "left". -/
theorem C05_reassociation_leaves_stale_columns : ∃ (s0 s : State ℚ) (tl : TaskLevel) (x fc : Vec ℚ),
    Reachable false Demo.world s0 ∧ computeProblemData false Demo.cycle 1 s0 = .ok s () ∧ tl ∈ s.forces ∧
    tl.cref ∈ hqpIds s.hqp ∧ s.assoc tl.tid = "left" ∧ x.size = nVar s ∧
    (getContactForcesOf s "left" x).val? = some fc ∧
    ¬ SaysSame (s.heap tl.cref) x (Demo.cycle.forceOut tl.tid) fc := by
  obtain ⟨s0, s, -, h1, h2, h3⟩ := Demo.after_exists
    (ops := [.addRigidContact 0 1 1 0, .addRigidContact 1 1 1 0, .addForceTask 3 1 1 0, .compute Demo.cycle 0,
      .setAssociated 3 "left"]) (cy := Demo.cycle) (t := 1)
    (p := fun s => match s.forces with
      | [tl] => decide (tl.cref ∈ hqpIds s.hqp ∧ tl.tid = 3 ∧ s.assoc tl.tid = "left" ∧ nVar s = 14 ∧
          (s.heap tl.cref).mat.rows = 2) &&
        match (getContactForcesOf s "left" ⟨14, fun j => if j = 12 then 1 else 0⟩).val? with
        | some fc => decide (residual (s.heap tl.cref) (fun j => if j = 12 then 1 else 0) 1 ≠
            residual (Demo.cycle.forceOut 3) fc 1)
        | none => false
      | _ => false) (by decide +kernel)
  split at h3
  · next tl htl =>
    rw [Bool.and_eq_true] at h3
    obtain ⟨h4, h5⟩ := h3
    obtain ⟨a1, a2, a3, a4, a5⟩ := of_decide_eq_true h4
    split at h5
    · next fc hfc =>
      refine ⟨s0, s, tl, ⟨14, fun j => if j = 12 then 1 else 0⟩, fc, h1, h2, by rw [htl]; simp, a1, a3, by rw [a4],
        hfc, ?_⟩
      intro hsame
      refine of_decide_eq_true h5 ?_
      have := (hsame.2 (by rw [a2]; decide +kernel)).2.2 1 (by rw [a5]; decide)
      rw [a2] at this
      exact this
    · cases h5
  · cases h3

/-- The hypotheses of C02-C05 are met by the demo history: tasks of all families and kinds are registered, with
lines in the problem, and contact names are distinct. -/
example : ∃ s0 s, Reachable false Demo.world s0 ∧ computeProblemData false Demo.cycle 1 s0 = .ok s () ∧
    CycleSizes s.nv Demo.cycle ∧ nVar s = 14 ∧ (contactNames s).Nodup ∧
    s.acts.map TaskLevel.tid = [2, 4] ∧ (∀ tl ∈ s.acts, tl.cref ∈ hqpIds s.hqp) ∧
    s.motions.map TaskLevel.tid = [0, 1, 5] ∧ (Demo.cycle.motionOut 1).lb.size = s.nv ∧
    s.forces.map (fun tl => (tl.tid, s.assoc tl.tid)) = [(3, "right"), (6, "left")] ∧
    (∀ tl ∈ s.forces, tl.cref ∈ hqpIds s.hqp) ∧
    (∀ cl ∈ s.contacts, cl.force ∈ hqpIds s.hqp ∧ cl.reg ∈ hqpIds s.hqp) ∧
    Along false Demo.world NoReassociation (init Demo.robot Demo.contacts Demo.assoc) Demo.history := by
  obtain ⟨s0, s, -, h1, h2, h3⟩ := Demo.after_exists (ops := Demo.history) (cy := Demo.cycle) (t := 1)
    (p := fun s => decide (s.nv = 8 ∧ nVar s = 14 ∧ (contactNames s).Nodup ∧
    s.acts.map TaskLevel.tid = [2, 4] ∧ (∀ tl ∈ s.acts, tl.cref ∈ hqpIds s.hqp) ∧
    s.motions.map TaskLevel.tid = [0, 1, 5] ∧
    s.forces.map (fun tl => (tl.tid, s.assoc tl.tid)) = [(3, "right"), (6, "left")] ∧
    (∀ tl ∈ s.forces, tl.cref ∈ hqpIds s.hqp) ∧
    (∀ cl ∈ s.contacts, cl.force ∈ hqpIds s.hqp ∧ cl.reg ∈ hqpIds s.hqp))) (by decide +kernel)
  obtain ⟨b0, b1, b2, b3, b4, b5, b6, b7, b8⟩ := of_decide_eq_true h3
  refine ⟨s0, s, h1, h2, by rw [b0]; exact Demo.cycle_sizes, b1, b2, b3, b4, b5, by rw [b0]; rfl, b6, b7, b8, ?_⟩
  exact Demo.alongCheck_spec (g := fun _ o => match o with
    | .setAssociated _ _ => false
    | _ => true) (fun s o ho => by cases o <;> simp [NoReassociation] at ho ⊢) _ _ (by decide +kernel)

omit [IsStrictOrderedRing K] in
/-- **C01, presence.** After a tidy history the base-dynamics constraint that C01 speaks about is the first
constraint of level 0, with weight 1; and the constraints that C02-C05 speak about are in the problem too. -/
theorem C01_base_in_problem {nd : Bool} {W : World} {robot : Robot K} {obj : Nat → Contact K}
    {assoc : Nat → String} {ops : List (Op K)} {s : State K} (h : TidyRun nd W robot obj assoc ops s) :
    (∃ l0 l1, problem s = [(1, s.heap s.baseId) :: l0, l1]) ∧
    (∀ tl ∈ s.motions ++ (s.forces ++ s.acts), tl.cref ∈ hqpIds s.hqp) ∧
    (∀ cl ∈ s.contacts, cl.motion ∈ hqpIds s.hqp ∧ cl.force ∈ hqpIds s.hqp ∧ cl.reg ∈ hqpIds s.hqp) ∧
    (contactNames s).Nodup := by
  obtain ⟨hi, -, L, hL, -⟩ := tidy_impl h
  have hc := hL.coh
  have hids : ∀ id, (∃ x ∈ L, ∃ lvl, (lvl = 0 ∨ lvl = 1) ∧ ∃ e ∈ ents lvl x, e.2 = id) → id ∈ hqpIds s.hqp := by
    rintro id ⟨x, hx, lvl, hl, e, he, rfl⟩
    rw [hc.hqp]
    refine mem_hqpIds.2 ?_
    rcases hl with rfl | rfl
    · exact ⟨_, List.mem_cons_self .., e, List.mem_cons_of_mem _ (List.mem_flatMap.2 ⟨x, hx, he⟩), rfl⟩
    · exact ⟨_, List.mem_cons_of_mem _ (List.mem_cons_self ..), e, List.mem_flatMap.2 ⟨x, hx, he⟩, rfl⟩
  refine ⟨?_, ?_, ?_, contact_names_nodup hc⟩
  · unfold problem
    rw [hc.hqp]
    exact ⟨_, _, rfl⟩
  · intro tl htl
    have : ∃ fam, tl ∈ L.filterMap (taskOf fam) := by
      rcases List.mem_append.1 htl with h1 | h1
      · exact ⟨_, hc.motions ▸ h1⟩
      · rcases List.mem_append.1 h1 with h1 | h1
        · exact ⟨_, hc.forces ▸ h1⟩
        · exact ⟨_, hc.acts ▸ h1⟩
    obtain ⟨fam, hm⟩ := this
    obtain ⟨⟨it, i⟩, hx, e⟩ := List.mem_filterMap.1 hm
    cases it with
    | contact _ _ _ _ => simp [taskOf] at e
    | task f tid p w =>
      have hlv := hc.levels _ hx
      simp only [taskOf, Option.ite_none_right_eq_some, Option.some.injEq] at e
      obtain ⟨-, rfl⟩ := e
      simp only [itemLevel] at hlv
      exact hids _ ⟨_, hx, p, by omega, (w, i.1), by simp [ents], rfl⟩
  · intro cl hcl
    have hm : strip cl ∈ L.filterMap contactOf := hc.contacts ▸ List.mem_map_of_mem hcl
    obtain ⟨⟨it, i⟩, hx, e⟩ := List.mem_filterMap.1 hm
    cases it with
    | task _ _ _ _ => simp [contactOf] at e
    | contact cid p wm wf =>
      have hlv := hc.levels _ hx
      obtain ⟨a, b, c⟩ := i
      simp only [contactOf, strip, Option.some.injEq, Prod.mk.injEq] at e
      obtain ⟨-, e1, e2, e3⟩ := e
      simp only [itemLevel] at hlv
      refine ⟨hids _ ⟨_, hx, p, by omega, (wm, a), by simp [ents], e1⟩,
        hids _ ⟨_, hx, 0, .inl rfl, (1, b), by simp [ents], e2⟩,
        hids _ ⟨_, hx, 1, .inr rfl, (wf, c), by simp [ents], e3⟩⟩

end Tsid.Props
