import Verif.Spec.ForceTasks
import Verif.Lemmas.Geometry
import Verif.Lemmas.Friction
import Verif.Props.Dynamics
import Mathlib.Tactic.LinearCombination
import Mathlib.Tactic.FieldSimp

/-!
# C40-C42: centre of pressure, force tracking, capture point
-/

set_option linter.unusedSectionVars false

namespace Tsid.Props

open Spec Finset

variable {K : Type} [Field K]

/-! ## C40 -/

theorem foldl_writePoint (n : V3 K) (p : Nat → V3 K) (i : Nat) (M : Nat → Nat → K) (r c : Nat) : ∀ np : Nat,
    (List.range np).foldl (fun M j => CopTask.writePoint M (i + 3 * j) (p j) n) M r c =
      if i ≤ c ∧ c < i + 3 * np then (p ((c - i) / 3)).get r * n.get ((c - i) % 3) else M r c := by
  intro np
  induction np with
  | zero => rw [if_neg (by omega)]; rfl
  | succ np ih =>
    rw [List.range_succ, List.foldl_append, List.foldl_cons, List.foldl_nil]
    simp only [CopTask.writePoint]
    by_cases h : i + 3 * np ≤ c ∧ c < i + 3 * np + 3
    · rw [if_pos h, if_pos (by omega)]
      have e1 : (c - i) / 3 = np := by omega
      have e2 : (c - i) % 3 = c - (i + 3 * np) := by omega
      rw [e1, e2]
    · rw [if_neg h, ih]
      by_cases h' : i ≤ c ∧ c < i + 3 * np
      · rw [if_pos h', if_pos (by omega)]
      · rw [if_neg h', if_neg (by omega)]

theorem nForce_eq (k : ContactKind) : Contact.kindForce k = 3 * Contact.kindPoints k := by cases k <;> rfl

/-- Number of force variables of a list of contacts. -/
def copSize (cs : List (CopContact K)) : Nat := (cs.map fun c => c.contact.nForce).sum

theorem writeContacts_outside (ref n : V3 K) (cs : List (CopContact K)) : ∀ (off : Nat) (M : Nat → Nat → K)
    (r c : Nat), Stacked off cs → (c < off ∨ off + copSize cs ≤ c) →
    cs.foldl (CopTask.writeContact ref n) M r c = M r c := by
  induction cs with
  | nil => intro off M r c _ _; rfl
  | cons a as ih =>
    intro off M r c hs hc
    obtain ⟨h1, h2⟩ := hs
    have hsz : copSize (a :: as) = a.contact.nForce + copSize as := by simp [copSize]
    rw [hsz] at hc
    rw [List.foldl_cons, ih _ _ _ _ h2 (by omega)]
    simp only [CopTask.writeContact]
    rw [foldl_writePoint, if_neg]
    have : a.contact.nForce = 3 * Contact.kindPoints a.contact.kind := nForce_eq _
    omega

theorem sum_range_list (g : Nat → K) : ∀ n : Nat, ((List.range n).map g).sum = ∑ j ∈ range n, g j := by
  intro n
  induction n with
  | zero => simp
  | succ n ih => rw [List.range_succ, List.map_append, List.sum_append, ih, sum_range_succ]; simp

theorem writeContacts_sum (ref n : V3 K) (f : Nat → K) (r : Nat) (cs : List (CopContact K)) :
    ∀ (off : Nat) (M : Nat → Nat → K), Stacked off cs →
    ∑ c ∈ range (copSize cs), cs.foldl (CopTask.writeContact ref n) M r (off + c) * f (off + c) =
      ((pressures n (fun _ => M3.one) off cs f).map fun p => p.force * (p.point.get r - ref.get r)).sum := by
  induction cs with
  | nil => intro off M _; simp [copSize, pressures]
  | cons a as ih =>
    intro off M hs
    obtain ⟨h1, h2⟩ := hs
    have hsz : copSize (a :: as) = a.contact.nForce + copSize as := by simp [copSize]
    have hn : a.contact.nForce = 3 * Contact.kindPoints a.contact.kind := nForce_eq _
    rw [hsz, sum_range_add, pressures, List.map_append, List.sum_append]
    congr 1
    · rw [hn, sum_triples, List.map_map, sum_range_list]
      refine sum_congr rfl fun j hj => ?_
      rw [mem_range] at hj
      have hout : ∀ q, q < 3 → (a :: as).foldl (CopTask.writeContact ref n) M r (off + (3 * j + q)) =
          (a.pose.trans + a.pose.rot.mulVec (a.contact.points j) - ref).get r * n.get q := by
        intro q hq
        rw [List.foldl_cons, writeContacts_outside ref n as _ _ _ _ h2 (Or.inl (by omega))]
        simp only [CopTask.writeContact]
        rw [foldl_writePoint, if_pos (by omega)]
        have e1 : (off + (3 * j + q) - a.index) / 3 = j := by omega
        have e2 : (off + (3 * j + q) - a.index) % 3 = q := by omega
        rw [e1, e2, V3.get_sub, V3.get_sub]
        simp only [SE3.actPoint, V3.get_add]
        ring
      have o0 := hout 0 (by omega)
      have o1 := hout 1 (by omega)
      have o2 := hout 2 (by omega)
      simp only [Nat.add_zero] at o0
      rw [o0, o1, o2, V3.get_sub]
      simp only [Function.comp_apply, one_mulVec, V3.dot, V3.get, ← Nat.add_assoc]
      ring
    · rw [← hn, ← ih _ (CopTask.writeContact ref n M a) h2]
      refine sum_congr rfl fun c _ => ?_
      rw [List.foldl_cons, Nat.add_assoc]

/-- What holds of a centre-of-pressure task between two calls. -/
structure CopInv (p : CopSettings K) (s : CopTask K) : Prop where
  ref : s.ref = p.ref
  normal : s.normal = p.normal
  kind : s.con.kind = .equality
  vec : s.con.vec = Vec.zero 3
  rows : s.con.mat.rows = 3

theorem copInv_compute {p : CopSettings K} {s s' : CopTask K} {g : Nat → Nat → K} {cs : List (CopContact K)}
    {c : Constraint K} (hi : CopInv p s) (h : CopTask.compute g s cs = .ok s' c) : CopInv p s' := by
  simp only [CopTask.compute] at h
  by_cases h1 : s.listSet = true
  · rw [if_pos h1] at h
    by_cases h2 : cs.all (CopTask.usable (cs.map fun c => c.contact.nForce).sum) = true
    · rw [if_pos h2] at h
      cases h
      exact ⟨hi.ref, hi.normal, hi.kind, hi.vec, rfl⟩
    · rw [if_neg h2] at h; cases h
  · rw [if_neg h1] at h; cases h

theorem copInv_step {p : CopSettings K} {s s' : CopTask K} {o : CopTask.Op K} (hi : CopInv p s)
    (h : (s.step o).state? = some s') : CopInv (p.after o) s' := by
  cases o with
  | setReference r => cases h; exact ⟨rfl, hi.normal, hi.kind, hi.vec, hi.rows⟩
  | setContactNormal n => cases h; exact ⟨hi.ref, rfl, hi.kind, hi.vec, hi.rows⟩
  | setContactList => cases h; exact ⟨hi.ref, hi.normal, hi.kind, hi.vec, hi.rows⟩
  | compute g cs =>
    simp only [CopTask.step] at h
    cases hc : CopTask.compute g s cs with
    | ok s1 c => rw [hc] at h; cases h; exact copInv_compute hi hc
    | throw _ => rw [hc] at h; cases h
    | abort => rw [hc] at h; cases h
    | ub => rw [hc] at h; cases h
  | compute5 g cs =>
    simp only [CopTask.step] at h
    have hi' : CopInv p { s with listSet := true } := ⟨hi.ref, hi.normal, hi.kind, hi.vec, hi.rows⟩
    cases hc : CopTask.compute g { s with listSet := true } cs with
    | ok s1 c => rw [hc] at h; cases h; exact copInv_compute hi' hc
    | throw _ => rw [hc] at h; cases h
    | abort => rw [hc] at h; cases h
    | ub => rw [hc] at h; cases h

theorem copInv_run (os : List (CopTask.Op K)) : ∀ {p : CopSettings K} {s s' : CopTask K}, CopInv p s →
    runOps CopTask.step s os = some s' → CopInv (p.afterAll os) s' := by
  induction os with
  | nil => intro p s s' hi h; cases h; exact hi
  | cons o os ih =>
    intro p s s' hi h
    rw [runOps] at h
    cases hs : (s.step o).state? with
    | none => rw [hs] at h; cases h
    | some s1 => rw [hs] at h; exact ih (copInv_step hi hs) h

theorem pressures_axes (n : V3 K) (axes : CopContact K → M3 K) (f : Nat → K) (cs : List (CopContact K)) :
    ∀ off, (∀ c ∈ cs, (axes c).transpose.mulVec n = n) →
    pressures n axes off cs f = pressures n (fun _ => M3.one) off cs f := by
  induction cs with
  | nil => intro off _; rfl
  | cons a as ih =>
    intro off h
    rw [pressures, pressures, ih _ fun c hc => h c (List.mem_cons_of_mem _ hc)]
    congr 1
    refine List.map_congr_left fun j _ => ?_
    congr 1
    have ha := h a List.mem_cons_self
    have hx := congrArg V3.x ha
    have hy := congrArg V3.y ha
    have hz := congrArg V3.z ha
    simp only [M3.mulVec, M3.transpose] at hx hy hz
    simp only [V3.dot, M3.mulVec, M3.one]
    linear_combination f (off + 3 * j) * hx + f (off + 3 * j + 1) * hy + f (off + 3 * j + 2) * hz

theorem stacked_usable (cs : List (CopContact K)) : ∀ (off n : Nat), Stacked off cs → off + copSize cs ≤ n →
    (∀ c ∈ cs, c.contact.kind ≠ .twoFrames) → cs.all (CopTask.usable n) = true := by
  induction cs with
  | nil => intro _ _ _ _ _; rfl
  | cons a as ih =>
    intro off n hs hn hk
    have hsz : copSize (a :: as) = a.contact.nForce + copSize as := by simp [copSize]
    have hf : a.contact.nForce = 3 * Contact.kindPoints a.contact.kind := nForce_eq _
    rw [List.all_cons, ih _ _ hs.2 (by omega) fun c hc => hk c (List.mem_cons_of_mem _ hc)]
    have := hs.1
    simp only [CopTask.usable, Bool.and_true, Bool.and_eq_true, bne_iff_ne, decide_eq_true_eq]
    exact ⟨hk a List.mem_cons_self, by omega⟩

theorem sum_weighted (l : List (Pressure K)) (ref : K) (g : V3 K → K) :
    (l.map fun p => p.force * (g p.point - ref)).sum = (l.map fun p => p.force * g p.point).sum - totalForce l * ref := by
  induction l with
  | nil => simp [totalForce]
  | cons a as ih =>
    simp only [List.map_cons, List.sum_cons, ih, totalForce]
    ring

theorem cop_iff (l : List (Pressure K)) (ref : V3 K) (h : totalForce l ≠ 0) :
    (∀ i, i < 3 → (l.map fun p => p.force * (p.point.get i - ref.get i)).sum = 0) ↔ centreOfPressure l = ref := by
  have e : ∀ (g : V3 K → K) (r : K), (l.map fun p => p.force * (g p.point - r)).sum = 0 ↔
      (l.map fun p => p.force * g p.point).sum / totalForce l = r := by
    intro g r
    rw [sum_weighted, sub_eq_zero, div_eq_iff h, mul_comm r]
  constructor
  · intro hi
    have h0 := (e V3.x ref.x).1 (hi 0 (by omega))
    have h1 := (e V3.y ref.y).1 (hi 1 (by omega))
    have h2 := (e V3.z ref.z).1 (hi 2 (by omega))
    rw [centreOfPressure, h0, h1, h2]
  · intro hr i hi
    have h0 := congrArg V3.x hr
    have h1 := congrArg V3.y hr
    have h2 := congrArg V3.z hr
    match i, hi with
    | 0, _ => exact (e V3.x ref.x).2 h0
    | 1, _ => exact (e V3.y ref.y).2 h1
    | 2, _ => exact (e V3.z ref.z).2 h2

variable [LinearOrder K]

/-- **C40 (partial).** After any history of calls, for any number of point and surface contacts whose force variables
follow each other: a force vector satisfies the constraint iff the centre of pressure is the reference (as soon as the
total normal force is not zero), provided that the normal of the ground is the same vector in world axes and in the axes
in which the forces of each contact are expressed.  Missing: tilted contacts (`C40_tilted`), two-frames contacts
(`C40_two_frames`). -/
theorem C40_partial {name : String} {hist : List (CopTask.Op K)} {s : CopTask K}
    (hrun : runOps CopTask.step (CopTask.new name) hist = some s) (g : Nat → Nat → K) (cs : List (CopContact K))
    (hst : Stacked 0 cs) (hk : ∀ c ∈ cs, c.contact.kind ≠ .twoFrames) (axes : CopContact K → M3 K)
    (hax : ∀ c ∈ cs, (axes c).transpose.mulVec (CopSettings.fresh.afterAll hist).normal =
      (CopSettings.fresh.afterAll hist).normal) :
    ∃ s' c, s.step (.compute5 g cs) = .ok s' (some c) ∧ c.kind = .equality ∧ c.mat.rows = 3 ∧
      c.mat.cols = (cs.map fun c => c.contact.nForce).sum ∧ c.vec.size = 3 ∧ ∀ f : Nat → K,
      let p := CopSettings.fresh.afterAll hist
      let l := pressures p.normal axes 0 cs f
      (Sat c f ↔ ∀ i, i < 3 → (l.map fun q => q.force * (q.point.get i - p.ref.get i)).sum = 0) ∧
      (totalForce l ≠ 0 → (Sat c f ↔ centreOfPressure l = p.ref)) := by
  have hi : CopInv (CopSettings.fresh.afterAll hist) s :=
    copInv_run hist (p := CopSettings.fresh) ⟨rfl, rfl, rfl, rfl, rfl⟩ hrun
  have hu := stacked_usable cs 0 (copSize cs) hst (by omega) hk
  have hu' : cs.all (CopTask.usable (cs.map fun c => c.contact.nForce).sum) = true := hu
  have hstep : ∃ M0 : Nat → Nat → K, s.step (.compute5 g cs) = .ok
      { s with listSet := true, con := { s.con with mat := ⟨3, copSize cs, cs.foldl (CopTask.writeContact s.ref s.normal) M0⟩ } }
      (some { s.con with mat := ⟨3, copSize cs, cs.foldl (CopTask.writeContact s.ref s.normal) M0⟩ }) := by
    refine ⟨if s.con.mat.rows = 3 ∧ s.con.mat.cols = copSize cs then s.con.mat.get else g, ?_⟩
    simp only [CopTask.step, CopTask.compute, hu', if_true]
    rfl
  obtain ⟨M0, hstep⟩ := hstep
  refine ⟨_, _, hstep, hi.kind, rfl, rfl, by rw [hi.vec]; rfl, fun f => ?_⟩
  intro p l
  have hl : l = pressures p.normal (fun _ => M3.one) 0 cs f := pressures_axes _ _ _ _ _ hax
  have hsat : Sat { s.con with mat := ⟨3, copSize cs, cs.foldl (CopTask.writeContact s.ref s.normal) M0⟩ } f ↔
      ∀ i, i < 3 → (l.map fun q => q.force * (q.point.get i - p.ref.get i)).sum = 0 := by
    simp only [Sat, hi.kind, hi.vec]
    refine forall_congr' fun i => imp_congr_right fun _ => ?_
    have := writeContacts_sum s.ref s.normal f i cs 0 M0 hst
    simp only [Nat.zero_add] at this
    rw [hl]
    have e : row ⟨3, copSize cs, cs.foldl (CopTask.writeContact s.ref s.normal) M0⟩ f i =
      ((pressures s.normal (fun _ => M3.one) 0 cs f).map fun q => q.force * (q.point.get i - s.ref.get i)).sum := this
    rw [e, hi.ref, hi.normal]
    rfl
  exact ⟨hsat, fun ht => hsat.trans (cop_iff l p.ref ht)⟩

/-- Two point contacts on the ground z = 0, with a vertical normal; the axes of the first are turned by a quarter about
the x axis. -/
def tilted : List (CopContact ℚ) :=
  [⟨Contact.new "wall" .point (fun _ => 0) ⟨0, 0, 1⟩ 1 0 10, 0, ⟨⟨⟨1, 0, 0⟩, ⟨0, 0, 1⟩, ⟨0, -1, 0⟩⟩, ⟨2, 0, 0⟩⟩⟩,
   ⟨Contact.new "ground" .point (fun _ => 0) ⟨0, 0, 1⟩ 1 0 10, 3, ⟨M3.one, ⟨1, 0, 0⟩⟩⟩]

/-- The contact forces (0, 0, 1), each in the axes of its contact. -/
def tiltedForces : Nat → ℚ := fun i => if i = 2 then 1 else if i = 5 then 1 else 0

/-- **C40 fails for tilted contacts**: the first contact pushes horizontally, so the centre of pressure is at the second
contact (1, 0, 0); the task with the reference (3/2, 0, 0) is satisfied. -/
theorem C40_tilted : ∃ s s' c, runOps CopTask.step (CopTask.new "cop") [.setReference ⟨3 / 2, 0, 0⟩] = some s ∧
    s.step (.compute5 (fun _ _ => 0) tilted) = .ok s' (some c) ∧ Stacked 0 tilted ∧
    (∀ k ∈ tilted, k.pose.rot.Orthogonal) ∧ Sat c tiltedForces ∧
    totalForce (pressures ⟨0, 0, 1⟩ (fun k => k.pose.rot) 0 tilted tiltedForces) = 1 ∧
    centreOfPressure (pressures ⟨0, 0, 1⟩ (fun k => k.pose.rot) 0 tilted tiltedForces) = ⟨1, 0, 0⟩ := by
  refine ⟨_, _, _, rfl, rfl, ⟨rfl, rfl, trivial⟩, ?_, ?_, by decide +kernel, by decide +kernel⟩
  · intro k hk
    simp only [tilted, List.mem_cons, List.not_mem_nil, or_false] at hk
    rcases hk with rfl | rfl <;> exact ⟨by decide +kernel, by decide +kernel⟩
  · show ∀ i, i < 3 → _
    decide +kernel

/-- **C40, two frames**: with a two-frames contact in the list, every `compute` is undefined behaviour. -/
theorem C40_two_frames (s : CopTask K) (g : Nat → Nat → K) (cs : List (CopContact K)) (c : CopContact K) (hc : c ∈ cs)
    (hk : c.contact.kind = .twoFrames) : (s.step (.compute5 g cs)).isUB = true := by
  have h : ¬ cs.all (CopTask.usable (cs.map fun c => c.contact.nForce).sum) = true := by
    rw [List.all_eq_true]
    intro h
    have := h c hc
    simp [CopTask.usable, hk] at this
  simp only [CopTask.step, CopTask.compute, if_true]
  rw [if_neg h]
  rfl

/-- Three contacts, a surface between two points: the constraint has the columns of all of them, and the hypotheses of
`C40_partial` are met (no contact is tilted). -/
def threeContacts : List (CopContact ℚ) :=
  [⟨Contact.new "a" .point (fun _ => 0) ⟨0, 0, 1⟩ 1 0 10, 0, ⟨M3.one, ⟨2, 0, 0⟩⟩⟩,
   ⟨Contact.new "b" .sixD (fun i => if i = 0 then ⟨1, 1, 0⟩ else if i = 1 then ⟨1, -1, 0⟩ else if i = 2 then ⟨-1, 1, 0⟩
     else ⟨-1, -1, 0⟩) ⟨0, 0, 1⟩ 1 0 10, 3, ⟨⟨⟨0, 1, 0⟩, ⟨-1, 0, 0⟩, ⟨0, 0, 1⟩⟩, ⟨0, 5, 0⟩⟩⟩,
   ⟨Contact.new "c" .point (fun _ => 0) ⟨0, 0, 1⟩ 1 0 10, 15, ⟨M3.one, ⟨-2, 0, 0⟩⟩⟩]

example : Stacked 0 threeContacts ∧ (∀ c ∈ threeContacts, c.contact.kind ≠ .twoFrames) ∧
    (∀ c ∈ threeContacts, c.pose.rot.transpose.mulVec ⟨0, 0, 1⟩ = ⟨0, 0, 1⟩) ∧
    centreOfPressure (pressures ⟨0, 0, 1⟩ (fun c => c.pose.rot) 0 threeContacts fun i => if i = 2 ∨ i = 8 then 1 else 0) =
      ⟨3 / 2, 3, 0⟩ := by
  refine ⟨⟨rfl, rfl, rfl, trivial⟩, ?_, ?_, by decide +kernel⟩ <;>
  · intro c hc
    simp only [threeContacts, List.mem_cons, List.not_mem_nil, or_false] at hc
    rcases hc with rfl | rfl | rfl <;> decide +kernel

/-- What the centre-of-pressure task finds in the contact list of the formulation, given the placements of the contact
frames. -/
def copContacts (s : State K) (pose : Nat → SE3 K) : List (CopContact K) :=
  s.contacts.map fun cl => ⟨s.contactObj cl.cid, cl.index, pose cl.cid⟩

theorem stacked_of_tiled (obj : Nat → Contact K) (pose : Nat → SE3 K) : ∀ (l : List ContactLevel) (k0 k1 : Nat),
    Formulation.Tiled obj k0 l k1 → Stacked k0 (l.map fun cl => (⟨obj cl.cid, cl.index, pose cl.cid⟩ : CopContact K)) := by
  intro l
  induction l with
  | nil => intro _ _ _; trivial
  | cons a as ih => intro k0 k1 h; exact ⟨h.1, ih _ _ h.2⟩

variable [IsStrictOrderedRing K] [HasSqrt K]

/-- **C40 in the problem (partial).** A registered centre-of-pressure task, computed with the contact list of the
formulation: after any history of registrations (without re-association), the solver's variables satisfy its entry in
the problem iff the centre of pressure of the forces that `getContactForces` returns is the reference.  Missing as in
`C40_partial`. -/
theorem C40_formulation_partial {nd : Bool} {W : World} {robot : Robot K} {obj : Nat → Contact K}
    {assoc : Nat → String} {ops : List (Formulation.Op K)} {s0 s : State K} {cy : Cycle K} {t : K}
    (hr : robot.na ≤ robot.nv)
    (hobj : ∀ cid, ∃ name kind points normal mu fMin fMax,
      obj cid = Contact.new name kind points normal mu fMin fMax)
    (hrun : Formulation.run nd W (Formulation.init robot obj assoc) ops = some s0)
    (hno : Along nd W NoReassociation (Formulation.init robot obj assoc) ops)
    (hc : Formulation.computeProblemData nd cy t s0 = .ok s ()) (hs : CycleSizes s.nv cy)
    (tl : TaskLevel) (htl : tl ∈ s.forces) (hid : tl.cref ∈ Formulation.hqpIds s.hqp) (has : s.assoc tl.tid = "")
    {name : String} {hist : List (CopTask.Op K)} {ct ct' : CopTask K} {g : Nat → Nat → K} {pose : Nat → SE3 K}
    (hcop : runOps CopTask.step (CopTask.new name) hist = some ct)
    (hout : ct.step (.compute5 g (copContacts s pose)) = .ok ct' (some (cy.forceOut tl.tid)))
    (hk : ∀ cl ∈ s.contacts, (s.contactObj cl.cid).kind ≠ .twoFrames) (axes : CopContact K → M3 K)
    (hax : ∀ c ∈ copContacts s pose, (axes c).transpose.mulVec (CopSettings.fresh.afterAll hist).normal =
      (CopSettings.fresh.afterAll hist).normal)
    (x : Vec K) (hx : x.size = Formulation.nVar s) :
    ∃ f, (Formulation.getContactForces s x).val? = some f ∧
      let p := CopSettings.fresh.afterAll hist
      let l := pressures p.normal axes 0 (copContacts s pose) f
      (totalForce l ≠ 0 → (Sat (s.heap tl.cref) x ↔ centreOfPressure l = p.ref)) := by
  have hreach : Reachable nd W s0 := ⟨robot, obj, assoc, ops, hr, hobj, hrun⟩
  obtain ⟨-, -, -, -, -, hi, -⟩ := Formulation.compute_spec (Formulation.reachable_inv hreach) hc
  have hst : Stacked 0 (copContacts s pose) := stacked_of_tiled _ _ _ _ _ hi.tiled
  have hk' : ∀ c ∈ copContacts s pose, c.contact.kind ≠ .twoFrames := by
    intro c h
    obtain ⟨cl, h1, rfl⟩ := List.mem_map.1 h
    exact hk cl h1
  obtain ⟨s', c, e, e1, e2, e3, e4, e5⟩ := C40_partial hcop g _ hst hk' axes hax
  rw [hout] at e
  obtain ⟨-, e⟩ := Res.ok.inj e
  cases e
  obtain ⟨f, f1, f2⟩ := (C05_force_tasks_partial hr hobj hrun hno hc hs x hx tl htl hid).2 has
    (fun h => by rw [e1] at h; cases h)
  exact ⟨f, f1, fun ht => f2.1.trans ((e5 f).2 ht)⟩

/-- Placements of the contact frames in the example. -/
def copPose : Nat → SE3 ℚ := fun c => ⟨M3.one, ⟨c, 0, 0⟩⟩

/-- The task of the example after its setter, and its output for the contacts "toe" and "sole". -/
def copExample : Res (CopTask ℚ) (Option (Constraint ℚ)) :=
  CopTask.step { (CopTask.new "cop" : CopTask ℚ) with ref := ⟨5 / 2, 0, 0⟩ } (.compute5 (fun _ _ => 7)
    [⟨Demo.contacts 2, 0, copPose 2⟩, ⟨Demo.contacts 3, 3, copPose 3⟩])

/-- The cycle of the example: the force task 3 is the centre-of-pressure task. -/
def copCycle : Cycle ℚ :=
  { Demo.cycle with forceOut := fun _ =>
      match copExample with
      | .ok _ (some c) => c
      | _ => Constraint.mkEq "cop" 3 3 }

/-- The world of the example. -/
def copWorld : World := { Demo.world with task := fun _ => ⟨"cop", "cop", .equality, 3⟩ }

/-- The history of the example. -/
def copHistory : List (Formulation.Op ℚ) :=
  [.addRigidContact 2 1 1 0, .addForceTask 3 1 1 0, .addRigidContact 3 1 1 0]

/-- The hypotheses of `C40_formulation_partial` are met. -/
example : ∃ s0 s ct', Formulation.run false copWorld (Formulation.init Demo.robot Demo.contacts fun _ => "") copHistory =
      some s0 ∧ Formulation.computeProblemData false copCycle 0 s0 = .ok s () ∧
    CopTask.step { (CopTask.new "cop" : CopTask ℚ) with ref := ⟨5 / 2, 0, 0⟩ } (.compute5 (fun _ _ => 7)
      (copContacts s copPose)) = .ok ct' (some (copCycle.forceOut 3)) ∧
    s.forces.map (fun tl => (tl.tid, tl.cref, decide (tl.cref ∈ Formulation.hqpIds s.hqp))) = [(3, 4, true)] := by
  refine ⟨_, _, _, rfl, rfl, rfl, rfl⟩

end Tsid.Props
