import Verif.Spec.Gripper
import Verif.Props.QuadrupedSolve

/-!
# The gripper demo
-/

set_option linter.unusedSectionVars false

namespace Tsid.Props

open Spec Finset Formulation Program

section
variable {K : Type} [Field K] [LinearOrder K] [FloorRing K] [HasSqrt K] [IsStrictOrderedRing K] [LawfulSqrt K]
variable {cf : Gripper.Conf K} {kin : Vec K → Vec K → Snapshot K} {g : Nat → K} {E : Program.Env K} {W : World}
  {S : Setup K} {ops : List (Program.Op K)} {L : List (Item K)}

theorem gripName_inj : ∀ a < 3, ∀ b < 3, gripName a = gripName b → a = b := by decide

/-! ## The calls on the objects -/

theorem grip_snoc (n : Nat) (q v : Vec K) (l : List (Gripper.Step K)) (s : Gripper.Step K) :
    Gripper.text cf kin g n q v (l ++ [s]) =
      Gripper.text cf kin g n q v l ++ Gripper.references q s.ref ++ [.compute (kin s.q s.v) s.t] := by
  simp [Gripper.text, Gripper.step]

theorem grip_tipCalls (n : Nat) (q v : Vec K) (l : List (Gripper.Step K)) :
    taskCalls 0 (Gripper.text cf kin g n q v l) = [.se3 (.useLocalFrame false), .se3 (.setKp (Biped.gain 6 cf.kpEe)),
      .se3 (.setKd (Biped.damping 6 cf.kpEe)), .se3 (.setReference (Biped.poseSample ((kin q v).frame cf.tip).pose))] ++
      l.map fun s => .se3 (.setReference s.ref) := by
  induction l using List.reverseRecOn with
  | nil => simp [Gripper.text, Gripper.build, taskCalls]
  | append_singleton l s ih => simp [grip_snoc, taskCalls_append, ih, Gripper.references, taskCalls]

theorem grip_postureCalls (n : Nat) (q v : Vec K) (l : List (Gripper.Step K)) :
    taskCalls 1 (Gripper.text cf kin g n q v l) = [.posture (.setKp (Biped.gain n cf.kpPosture)),
      .posture (.setKd (Biped.damping n cf.kpPosture))] ++
      l.map fun _ => .posture (.setReference (EuclidianConstant.newWith q)) := by
  induction l using List.reverseRecOn with
  | nil => simp [Gripper.text, Gripper.build, taskCalls]
  | append_singleton l s ih => simp [grip_snoc, taskCalls_append, ih, Gripper.references, taskCalls]

theorem grip_torqueCalls (n : Nat) (q v : Vec K) (l : List (Gripper.Step K)) :
    taskCalls 2 (Gripper.text cf kin g n q v l) =
      [.actBounds (.setBounds ⟨(Gripper.tauMax cf).size, fun i => -Gripper.tauMax cf i⟩ (Gripper.tauMax cf))] := by
  induction l using List.reverseRecOn with
  | nil => simp [Gripper.text, Gripper.build, taskCalls]
  | append_singleton l s ih => simp [grip_snoc, taskCalls_append, ih, Gripper.references, taskCalls]

theorem grip_contactCalls (n : Nat) (q v : Vec K) (l : List (Gripper.Step K)) :
    contactCalls 0 (Gripper.text cf kin g n q v l) =
      [.pair (.setKp g (Biped.gain 3 cf.kpLoop)), .pair (.setKd g (Biped.damping 3 cf.kpLoop))] := by
  induction l using List.reverseRecOn with
  | nil => simp [Gripper.text, Gripper.build, contactCalls]
  | append_singleton l s ih => simp [grip_snoc, contactCalls_append, ih, Gripper.references, contactCalls]

theorem contactSets_append (i : Nat) (a b : List (Program.Op K)) : contactSets i (a ++ b) = contactSets i a ++ contactSets i b := by
  induction a with
  | nil => rfl
  | cons o a ih =>
    cases o with
    | form o =>
      cases o with
      | setContact c u =>
        simp only [List.cons_append, contactSets, ih]
        split <;> rfl
      | _ => exact ih
    | _ => exact ih

theorem grip_contactSets (n : Nat) (q v : Vec K) (l : List (Gripper.Step K)) (i : Nat) :
    contactSets i (Gripper.text cf kin g n q v l) = [] := by
  induction l using List.reverseRecOn with
  | nil => simp [Gripper.text, Gripper.build, contactSets]
  | append_singleton l s ih => simp [grip_snoc, contactSets_append, ih, Gripper.references, contactSets]

theorem grip_unmeasured (n : Nat) (q v : Vec K) (l : List (Gripper.Step K)) (m : Nat) :
    .form (.addMeasuredForce m) ∉ Gripper.text cf kin g n q v l := by
  induction l using List.reverseRecOn with
  | nil => simp [Gripper.text, Gripper.build]
  | append_singleton l s ih => simp [grip_snoc, ih, Gripper.references]

/-! ## The text is checked -/

theorem grip_rows (hB : IsGripper cf kin E W S) {tid : Nat} (ht : tid < 3) (hf : ∀ c ∈ taskCalls tid ops, MaskFree c) :
    (W.task tid).rows = (S.decl tid).rows E.robot (taskCalls tid ops) := by
  rw [rows_free hf]
  match tid, ht with
  | 0, _ =>
    rw [hB.tipRows, hB.tip]
    show 6 = countSelected (FrameSettings.fresh (K := K)).mask 6
    rw [show (FrameSettings.fresh (K := K)).mask = ⟨6, fun _ => 1⟩ from rfl, count_ones]
  | 1, _ =>
    rw [hB.postureRows, hB.posture]
    show _ = countSelected (PostureSettings.fresh E.robot).mask E.robot.na
    rw [show (PostureSettings.fresh E.robot).mask = ⟨E.robot.na, fun _ => 1⟩ from rfl, count_ones]
  | 2, _ =>
    rw [hB.torqueRows, hB.torque]
    show _ = countSelected (TorqueLimits.fresh (K := K) E.robot.na).mask E.robot.na
    rw [show (TorqueLimits.fresh (K := K) E.robot.na).mask = ⟨E.robot.na, fun _ => 1⟩ from rfl, count_ones]

theorem grip_cases (hB : IsGripper cf kin E W S) {P : TaskDecl K → Prop} {tid : Nat} (ht : tid < 3) (h0 : P (.se3 cf.tip))
    (h1 : P .posture) (h2 : P .actBounds) : P (S.decl tid) := by
  match tid, ht with
  | 0, _ => rw [hB.tip]; exact h0
  | 1, _ => rw [hB.posture]; exact h1
  | 2, _ => rw [hB.torque]; exact h2

theorem grip_addable (hB : IsGripper cf kin E W S) (h : Upto E W S ops L) {fam : Family} {tid p : Nat}
    (hd : (S.decl tid).family = fam) (ht : tid < 3) (hp : p < 2)
    (hL : ∀ fam t p k, Item.task fam t p k ∈ L → t < 3 ∧ t ≠ tid)
    (hf : ∀ c ∈ taskCalls tid ops, MaskFree c) : S.Addable E W ops fam tid p where
  family := hd
  level := hp
  fresh := by
    refine h.fresh ?_
    rintro (⟨fam', t, p', k⟩ | ⟨c, p', a, b⟩) hm
    · obtain ⟨h1, h2⟩ := hL _ _ _ _ hm
      simp only [Item.isTask, hB.name _ h1, hB.name _ ht, beq_eq_false_iff_ne, ne_eq]
      exact fun e => h2 (gripName_inj _ h1 _ ht e)
    · rfl
  kind := hB.kind tid ht
  rows := grip_rows hB ht hf
  whole := grip_cases hB ht trivial trivial trivial

theorem upto_contact (h : Upto E W S ops L) {cid p : Nat} {a b : K} (hp : p < 2) (hL : ∀ c p a b, Item.contact c p a b ∉ L) :
    Upto E W S (ops ++ [.form (.addRigidContact cid a b p)]) (L ++ [.contact cid p b a]) := by
  refine ⟨checked_snoc h.checked ⟨hp, ?_⟩, ?_⟩
  · rintro ⟨it, hm, e⟩
    rw [h.items] at hm
    cases it with
    | task => cases e
    | contact c p a b => exact hL _ _ _ _ hm
  · rw [noted_snoc]
    simp only [Registry.read, Registry.next, h.items]

theorem grip_build (hB : IsGripper cf kin E W S) {q v : Vec K} (hv : v.size = E.robot.nv) (hq : E.robot.na ≤ q.size) (n : Nat) :
    Upto E W S (Gripper.build cf kin g n q v) (gripItems cf) := by
  have a0 : Upto E W S ([] ++ [.compute (kin q v) 0]) [] := by
    refine upto_nil.compute ⟨hB.snap q v hv, by rw [hB.config]; exact hq, ?_⟩
    intro fam tid p k hm
    cases hm
  have a1 := a0.task (tid := 0) (c := .se3 (.useLocalFrame false)) (by rw [hB.tip]; trivial)
  have a2 := a1.task (tid := 0) (c := .se3 (.setKp (Biped.gain 6 cf.kpEe))) (by rw [hB.tip]; trivial)
  have a3 := a2.task (tid := 0) (c := .se3 (.setKd (Biped.damping 6 cf.kpEe))) (by rw [hB.tip]; trivial)
  have a4 := a3.task (tid := 0) (c := .se3 (.setReference (Biped.poseSample ((kin q v).frame cf.tip).pose)))
    (by rw [hB.tip]; exact fun _ => ⟨rfl, rfl⟩)
  have a5 := a4.addMotion hB.wEe (grip_addable hB a4 (tid := 0) (p := 1) (by rw [hB.tip]; rfl) (by decide) Nat.one_lt_two
    (fun _ _ _ _ hm => by cases hm) (by
      intro c hm
      simp [taskCalls] at hm
      rcases hm with rfl | rfl | rfl | rfl <;> trivial))
  have b1 := a5.task (tid := 1) (c := .posture (.setKp (Biped.gain n cf.kpPosture)))
    (by rw [hB.posture]; exact ⟨trivial, fun _ _ e => (by cases e)⟩)
  have b2 := b1.task (tid := 1) (c := .posture (.setKd (Biped.damping n cf.kpPosture)))
    (by rw [hB.posture]; exact ⟨trivial, fun _ _ e => (by cases e)⟩)
  have b3 := b2.addMotion hB.wPosture (grip_addable hB b2 (tid := 1) (p := 1) (by rw [hB.posture]; rfl) (by decide)
    Nat.one_lt_two (by
      intro fam t p k hm
      simp only [List.nil_append, List.mem_singleton, Item.task.injEq] at hm
      omega) (by
      intro c hm
      simp [taskCalls] at hm
      rcases hm with rfl | rfl <;> trivial))
  have c1 := b3.motion (cid := 0) (c := .pair (.setKp g (Biped.gain 3 cf.kpLoop))) (by rw [hB.motion]; rfl)
  have c2 := c1.motion (cid := 0) (c := .pair (.setKd g (Biped.damping 3 cf.kpLoop))) (by rw [hB.motion]; rfl)
  have c3 := upto_contact c2 (cid := 0) (a := cf.wForceRef) (b := 1) Nat.one_lt_two (by
    intro c p a b hm
    simp at hm)
  have d1 := c3.task (tid := 2) (c := .actBounds (.setBounds ⟨(Gripper.tauMax cf).size, fun i => -Gripper.tauMax cf i⟩ (Gripper.tauMax cf)))
    (by rw [hB.torque]; trivial)
  have d2 := d1.addActuation (zero_le_one (α := K)) (grip_addable hB d1 (tid := 2) (p := 0) (by rw [hB.torque]; rfl) (by decide)
    Nat.zero_lt_two (by
      intro fam t p k hm
      simp at hm
      omega) (by
      intro c hm
      simp [taskCalls] at hm
      subst hm
      trivial))
  simp only [List.nil_append, List.cons_append] at d2
  exact d2

theorem grip_item {fam : Family} {t p : Nat} {k : K} (h : Item.task fam t p k ∈ gripItems cf) : t < 3 ∧ (p = 1 → t < 2) := by
  simp [gripItems] at h
  omega

theorem grip_free (n : Nat) (q v : Vec K) (l : List (Gripper.Step K)) {tid : Nat} (ht : tid < 3) :
    ∀ c ∈ taskCalls tid (Gripper.text cf kin g n q v l), MaskFree c := by
  match tid, ht with
  | 0, _ =>
    rw [grip_tipCalls]
    intro c hm
    simp only [List.mem_append, List.mem_cons, List.not_mem_nil, or_false, List.mem_map] at hm
    rcases hm with (rfl | rfl | rfl | rfl) | ⟨_, -, rfl⟩ <;> trivial
  | 1, _ =>
    rw [grip_postureCalls]
    intro c hm
    simp only [List.mem_append, List.mem_cons, List.not_mem_nil, or_false, List.mem_map] at hm
    rcases hm with (rfl | rfl) | ⟨_, -, rfl⟩ <;> trivial
  | 2, _ =>
    rw [grip_torqueCalls]
    intro c hm
    rw [List.mem_singleton.1 hm]
    trivial

theorem grip_refs (hB : IsGripper cf kin E W S) (h : Upto E W S ops L) (q : Vec K) {r : Sample K}
    (hr : r.vel.size = 6 ∧ r.acc.size = 6) : Upto E W S (ops ++ Gripper.references q r) L := by
  have h1 := h.task (tid := 0) (c := .se3 (.setReference r)) (by rw [hB.tip]; exact fun _ => hr)
  have h2 := h1.task (tid := 1) (c := .posture (.setReference (EuclidianConstant.newWith q)))
    (by rw [hB.posture]; exact ⟨trivial, fun _ _ e => (by cases e)⟩)
  rwa [List.append_assoc] at h2

theorem grip_fine (hB : IsGripper cf kin E W S) {n : Nat} {q v : Vec K} {l : List (Gripper.Step K)} {r : Sample K}
    (h : Upto E W S (Gripper.text cf kin g n q v l ++ Gripper.references q r) (gripItems cf))
    {q' v' : Vec K} {t : K} (hv : v'.size = E.robot.nv) (hq : E.robot.na ≤ q'.size) :
    S.Fine E W (Gripper.text cf kin g n q v l ++ Gripper.references q r) (.compute (kin q' v') t) := by
  refine ⟨hB.snap q' v' hv, by rw [hB.config]; exact hq, ?_⟩
  intro fam tid p k hm
  rw [h.items] at hm
  have ht := (grip_item hm).1
  refine ⟨hB.kind tid ht, grip_rows hB ht ?_, grip_cases hB ht trivial trivial trivial⟩
  intro c hc
  rw [taskCalls_append] at hc
  rcases List.mem_append.1 hc with hc | hc
  · exact grip_free n q v l ht c hc
  · match tid, ht with
    | 0, _ => simp [Gripper.references, taskCalls] at hc; subst hc; trivial
    | 1, _ => simp [Gripper.references, taskCalls] at hc; subst hc; trivial
    | 2, _ => simp [Gripper.references, taskCalls] at hc

theorem grip_upto (hB : IsGripper cf kin E W S) {q v : Vec K} (hv : v.size = E.robot.nv) (hq : E.robot.na ≤ q.size) (n : Nat)
    {l : List (Gripper.Step K)} (hp : ∀ s ∈ l, ProperGrip E.robot s) :
    Upto E W S (Gripper.text cf kin g n q v l) (gripItems cf) := by
  induction l using List.reverseRecOn with
  | nil =>
    rw [show Gripper.text cf kin g n q v [] = Gripper.build cf kin g n q v from List.append_nil _]
    exact grip_build hB hv hq n
  | append_singleton l s ih =>
    have ih := ih fun d hd => hp d (List.mem_append_left _ hd)
    have hs := hp s (List.mem_append_right _ List.mem_cons_self)
    have h1 := grip_refs hB ih q ⟨hs.vel, hs.acc⟩
    rw [grip_snoc]
    exact h1.compute (grip_fine hB h1 hs.speed hs.config)

/-- **C113, the demo runs.** The demo passes the check of its text, whatever the solver answers in its loop: it runs without
undefined behaviour, exception or failed assertion of a cycle, and registered are three tasks and the contact. -/
theorem C113_runs (hB : IsGripper cf kin E W S) {q v : Vec K} (hv : v.size = E.robot.nv) (hq : E.robot.na ≤ q.size)
    {l : List (Gripper.Step K)} (hp : ∀ s ∈ l, ProperGrip E.robot s) :
    Checked E W S (Gripper.text cf kin g E.robot.nv q v l) ∧
    (∃ s, Program.run E S.start (Gripper.text cf kin g E.robot.nv q v l) = some s) ∧
    (S.registered E W (Gripper.text cf kin g E.robot.nv q v l)).items = gripItems cf := by
  have hu := grip_upto (g := g) hB hv hq E.robot.nv hp
  obtain ⟨s, hs, -, -, hr⟩ := C107_runs hB.declared hu.checked
  exact ⟨hu.checked, ⟨s, hs⟩, by rw [hr, hu.items]⟩

/-! ## Exactly what the text asks for -/

theorem tip_refs (l : List (Gripper.Step K)) {r : Sample K} (hr : r.pos.size = 12) : ∀ p : FrameSettings K,
    p.afterAll (((l.map fun s : Gripper.Step K => (TaskCall.se3 (.setReference s.ref) : TaskCall K)) ++
      [TaskCall.se3 (.setReference r)]).filterMap se3?) =
      ⟨p.mask, p.kp, p.kd, (sampleGoal r).pose, (sampleGoal r).vel, (sampleGoal r).acc, p.loc⟩ := by
  induction l with
  | nil =>
    intro p
    show FrameSettings.after p (.setReference r) = _
    simp only [FrameSettings.after, if_pos hr, sampleGoal]
  | cons s l ih =>
    intro p
    refine (ih (p.after (.setReference s.ref))).trans ?_
    simp only [FrameSettings.after]
    split <;> rfl

theorem tauMax_eq (i : Nat) : Gripper.tauMax cf i = if i < 2 then 0 else cf.effort i := by
  match i with
  | 0 => rfl
  | 1 => rfl
  | i + 2 => rfl

theorem grip_cids : (gripItems cf).filterMap Item.cid? = [0] := rfl

theorem grip_kind (hB : IsGripper cf kin E W S) : (S.obj 0).kind = .twoFrames := by
  obtain ⟨n, mu, e⟩ := hB.contact
  rw [e]; rfl

variable {q v q' v' : Vec K} {l : List (Gripper.Step K)} {r : Sample K} {t : K}

/-- **C113, exactly.** In a step of the loop the text asks exactly for this: the laws of mechanics, where the contact pulls at the two
frames with opposite forces within the limits, no torques of the first two joints, torques of the others within the effort limits;
as far as possible, the fingertip should follow its reference, the joints should return to the configuration at the beginning, and
the two frames should stay together. -/
theorem C113_exact (hB : IsGripper cf kin E W S) (hv : v.size = E.robot.nv) (hs : GripSized cf E.robot q)
    (hp : ∀ s ∈ l, ProperGrip E.robot s) (hr : r.pos.size = 12 ∧ r.vel.size = 6 ∧ r.acc.size = 6) (b : Behaviour K) :
    let ops := Gripper.text cf kin g E.robot.nv q v l ++ Gripper.references q r
    (Intended E W S ops (kin q' v') t b ↔ GripObeys cf S (kin q' v') b.dv b.tau (b.force 0)) ∧
    ∀ reg, S.aim E W ops (kin q' v') t reg b = gripAim reg cf E q (sampleGoal r) (kin q' v') b.dv (b.force 0) := by
  have hu := grip_refs hB (grip_upto (g := g) hB hv hs.motors.ge E.robot.nv hp) q hr.2
  obtain ⟨s, hrun⟩ := reading_run hB.declared hu.checked
  have hreg := reading_registry hrun t
  intro ops
  have hops : ops = Gripper.text cf kin g E.robot.nv q v l ++ Gripper.references q r := rfl
  have hitems : (S.registry E W ops t).items = gripItems cf := by
    rw [hreg]; exact hu.items
  have hmeas : (S.registry E W ops t).measured = [] := by
    rw [hreg]
    refine noted_measured _ fun m hm => ?_
    rcases List.mem_append.1 hm with hm | hm
    · exact grip_unmeasured _ _ _ _ m hm
    · simp [Gripper.references] at hm
  have hcids : S.cids E W ops t = [0] := by
    unfold Setup.cids; rw [hitems, grip_cids]
  have hcc : (⟨⟨0, 0, 0⟩, ⟨0, 0, 0⟩⟩ : PairGains K).afterAll ((contactCalls 0 ops).filterMap gains?) =
      ⟨⟨cf.kpLoop, cf.kpLoop, cf.kpLoop⟩, ⟨critical cf.kpLoop, critical cf.kpLoop, critical cf.kpLoop⟩⟩ := by
    rw [hops, contactCalls_append, grip_contactCalls]
    rfl
  have hsets : ∀ i, contactSets i ops = [] := by
    intro i
    rw [hops, contactSets_append, grip_contactSets]
    rfl
  have htip : (FrameSettings.fresh (K := K)).afterAll ((taskCalls 0 ops).filterMap se3?) =
      ⟨⟨6, fun _ => 1⟩, ⟨6, fun _ => cf.kpEe⟩, ⟨6, fun _ => critical cf.kpEe⟩, (sampleGoal r).pose, (sampleGoal r).vel,
        (sampleGoal r).acc, false⟩ := by
    rw [hops, taskCalls_append, grip_tipCalls, List.append_assoc, List.filterMap_append, settings_afterAll_append]
    exact (tip_refs l hr.1 _).trans rfl
  have hfix := hB.fixed
  have hpost : (PostureSettings.fresh E.robot).afterAll E.robot ((taskCalls 1 ops).filterMap posture?) =
      ⟨⟨E.robot.na, fun _ => 1⟩, Biped.gain E.robot.nv cf.kpPosture, Biped.damping E.robot.nv cf.kpPosture,
        EuclidianConstant.newWith q⟩ := by
    rw [hops, taskCalls_append, grip_postureCalls, List.append_assoc, List.filterMap_append]
    have hz : ∀ (p : PostureSettings K) (a b : List (Posture.Op K)), p.afterAll E.robot (a ++ b) = (p.afterAll E.robot a).afterAll E.robot b := by
      intro p a
      induction a generalizing p with
      | nil => exact fun b => rfl
      | cons o a ih => exact fun b => ih _ b
    rw [hz]
    refine (posture_refs (r := EuclidianConstant.newWith q) ⟨hs.joints, hs.motors, hs.motors⟩ l _).trans ?_
    simp only [List.filterMap_cons, List.filterMap_nil, posture?, PostureSettings.afterAll, PostureSettings.after]
    rw [if_pos (show (Biped.gain E.robot.nv cf.kpPosture).size = E.robot.na from hfix),
      if_pos (show (Biped.damping E.robot.nv cf.kpPosture).size = E.robot.na from hfix)]
    rfl
  have htau : (TorqueLimits.fresh (K := K) E.robot.na).afterAll E.robot.na ((taskCalls 2 ops).filterMap actBounds?) =
      ⟨⟨E.robot.na, fun _ => 1⟩, ⟨(Gripper.tauMax cf).size, fun i => -Gripper.tauMax cf i⟩, Gripper.tauMax cf⟩ := by
    have hz : (Gripper.tauMax cf).size = E.robot.na := hs.torque
    rw [hops, taskCalls_append, grip_torqueCalls, show taskCalls 2 (Gripper.references q r) = [] from rfl, List.append_nil]
    simp only [List.filterMap_cons, List.filterMap_nil, actBounds?, TorqueLimits.afterAll, TorqueLimits.after]
    have hc : countSelected (TorqueLimits.fresh (K := K) E.robot.na).mask E.robot.na = E.robot.na := count_ones _ _
    rw [if_pos ⟨by rw [hc]; exact hz, by rw [hc]; exact hz⟩]
    rfl
  have hnv := hB.declared.nv
  have hna := hB.declared.na
  have w2 : S.Wants E W ops (kin q' v') t b .actuation 2 ↔ ∀ i, i < S.robot.nv → |b.tau i| ≤ Gripper.tauMax cf i := by
    simp only [Setup.Wants, hB.torque, TaskDecl.Demands, Behaviour.part, htau, Selects, count_ones, and_true, abs_le]
    rw [← hnv, hfix]
  have w2' : S.Wants E W ops (kin q' v') t b .actuation 2 ↔ (∀ i, i < S.robot.nv → i < 2 → b.tau i = 0) ∧
      ∀ i, i < S.robot.nv → 2 ≤ i → |b.tau i| ≤ cf.effort i := by
    rw [w2]
    constructor
    · intro h
      refine ⟨fun i hi h2 => ?_, fun i hi h2 => ?_⟩
      · have := h i hi
        rw [tauMax_eq, if_pos h2] at this
        exact abs_nonpos_iff.1 this
      · have := h i hi
        rwa [tauMax_eq, if_neg (by omega)] at this
    · rintro ⟨h1, h2⟩ i hi
      rw [tauMax_eq]
      split
      · next h => rw [h1 i hi h, abs_zero]
      · exact h2 i hi (by omega)
  obtain ⟨nrm, mu, hobj⟩ := hB.contact
  have hkind := grip_kind hB
  have hresp : (S.limitsOf ops 0).Respected (S.obj 0).kind (b.force 0) ↔ ∀ i, i < 3 → cf.fMin ≤ b.force 0 i ∧ b.force 0 i ≤ cf.fMax := by
    unfold Setup.limitsOf
    rw [hsets, hobj]
    rfl
  have hregOf : S.regOf ops 0 = ⟨Vec.zero 3, Vec.ofList [1, 1, 1], fun _ => 0, fun _ => 0⟩ := by
    unfold Setup.regOf
    rw [hsets, hobj]
    rfl
  have hwr : ∀ k, k < 3 → S.wrenchOf ops b 0 k = b.force 0 k := by
    intro k hk
    unfold Setup.wrenchOf
    rw [hkind]
    simp only [wrench, if_pos hk, nPoints]
    rw [if_neg (by decide), sum_range_one]
    match k, hk with
    | 0, _ => rfl
    | 1, _ => rfl
    | 2, _ => rfl
  have hrel : ∀ (k1 k2 : FrameKin K) (u : Nat → K), ∀ k, k < 3 → relativeAcc E.robot.nv k1 k2 u k =
      (footAcc E.robot.nv k1 u).get k - (footAcc E.robot.nv k2 u).get k := by
    intro k1 k2 u k hk
    simp only [relativeAcc, footAcc, Motion.get, if_pos hk, rotate]
  have hvel : ∀ u : Nat → K, ∀ k, k < 3 → (S.cdecl 0).velocity E (kin q' v') (contactCalls 0 ops) u k =
      (footVel S.robot.nv ((kin q' v').frame cf.first) u).get k - (footVel S.robot.nv ((kin q' v').frame cf.second) u).get k := by
    intro u k hk
    rw [hB.motion]
    simp only [ContactDecl.velocity]
    rw [hrel _ _ _ _ hk, hnv]
    rfl
  have hbal : S.Balanced E W ops (kin q' v') t b ↔ ∀ u : Nat → K,
      ∑ i ∈ range S.robot.nv, (∑ j ∈ range S.robot.nv, S.robot.mass (kin q' v').M i j * b.dv j + (kin q' v').nle i) * u i =
      ∑ i ∈ range S.robot.nv, b.tau i * u i +
      ∑ i ∈ range 3, b.force 0 i * ((footVel S.robot.nv ((kin q' v').frame cf.first) u).get i -
        (footVel S.robot.nv ((kin q' v').frame cf.second) u).get i) := by
    unfold Setup.Balanced
    refine forall_congr' fun u => ?_
    rw [hcids, hmeas]
    have e1 : ∑ k ∈ range (nWrench (S.obj 0).kind), S.wrenchOf ops b 0 k *
        (S.cdecl 0).velocity E (kin q' v') (contactCalls 0 ops) u k =
        ∑ i ∈ range 3, b.force 0 i * ((footVel S.robot.nv ((kin q' v').frame cf.first) u).get i -
          (footVel S.robot.nv ((kin q' v').frame cf.second) u).get i) := by
      rw [hkind, show nWrench ContactKind.twoFrames = 3 from rfl]
      exact sum_congr rfl fun k hk => by rw [hwr k (mem_range.1 hk), hvel u k (mem_range.1 hk)]
    simp only [List.map_cons, List.map_nil, List.sum_cons, List.sum_nil, add_zero, e1]
    rw [← hna, ← hfix, hnv, Nat.sub_self]
    simp only [zero_add]
  refine ⟨⟨fun h => ⟨hbal.1 h.dynamics, ?_, ?_, ?_⟩, fun h => ⟨hbal.2 h.dynamics, ?_, ?_, ?_⟩⟩, fun reg => ?_⟩
  · exact hresp.1 (h.contactForce 0 1 1 cf.wForceRef (by rw [hitems]; simp [gripItems]))
  · exact (w2'.1 (h.task .actuation 2 1 (by rw [hitems]; simp [gripItems]))).1
  · exact (w2'.1 (h.task .actuation 2 1 (by rw [hitems]; simp [gripItems]))).2
  · intro fam tid k hm
    rw [hitems] at hm
    simp [gripItems] at hm
    obtain ⟨rfl, rfl, -⟩ := hm
    exact w2'.2 ⟨h.passive, h.torque⟩
  · intro cid wm wf hm
    rw [hitems] at hm
    simp [gripItems] at hm
  · intro cid p wm wf hm
    rw [hitems] at hm
    have hi : cid = 0 := by
      simp [gripItems] at hm
      omega
    subst hi
    exact hresp.2 h.pull
  · have get3 : ∀ (a : K) (i : Nat), i < 3 → (⟨a, a, a⟩ : V3 K).get i = a := by
      intro a i hi
      match i, hi with
      | 0, _ => rfl
      | 1, _ => rfl
      | 2, _ => rfl
    have m1 : S.miss E W ops (kin q' v') t b .motion 1 = ∑ j ∈ range E.robot.nv,
        (b.dv j + cf.kpPosture * E.robot.difference q (kin q' v').q j + critical cf.kpPosture * (kin q' v').v j) ^ 2 := by
      simp only [Setup.miss, hB.posture, TaskDecl.Error, Behaviour.part, alone, hpost]
      simp only [selected, if_true, PostureSettings.law, PostureSettings.target, hB.joints,
        Nat.sub_self, Nat.not_lt_zero, if_false, Nat.sub_zero]
      rw [← hfix]
      refine sum_congr rfl fun j _ => ?_
      rw [Nat.sub_self, zero_add]
      have hq : (⟨E.robot.nqa, fun i => (EuclidianConstant.newWith q).pos i⟩ : Vec K) = q := by
        rw [← hs.joints]
        rfl
      rw [hq]
      have z1 : (EuclidianConstant.newWith q).vel j = 0 := rfl
      have z2 : (EuclidianConstant.newWith q).acc j = 0 := rfl
      have z3 : (Biped.gain E.robot.nv cf.kpPosture) j = cf.kpPosture := rfl
      have z4 : (Biped.damping E.robot.nv cf.kpPosture) j = critical cf.kpPosture := rfl
      rw [z1, z2, z3, z4]
      ring
    have mc : S.loss E W ops (kin q' v') t b (.contact 0 1 1 cf.wForceRef) =
        ∑ k ∈ range 3, gapError cf E.robot.nv ((kin q' v').frame cf.first) ((kin q' v').frame cf.second) b.dv k ^ 2 +
        cf.wForceRef * ∑ k ∈ range 3, b.force 0 k ^ 2 := by
      simp only [Setup.loss, if_true, one_mul]
      congr 1
      · rw [hB.motion]
        simp only [ContactDecl.Error, hcc, PairGains.law]
        refine sum_congr rfl fun k hk => ?_
        rw [hrel _ _ _ _ (mem_range.1 hk), get3 _ _ (mem_range.1 hk), get3 _ _ (mem_range.1 hk)]
        rfl
      · rw [hregOf, hkind]
        simp only [RegSettings.Error]
        rw [if_neg (by decide)]
        congr 1
        refine sum_congr rfl fun k hk => ?_
        have hk := mem_range.1 hk
        have e : wrench (nPoints ContactKind.twoFrames) (fun _ => (0 : V3 K)) (b.force 0) k = b.force 0 k := by
          have := hwr k hk
          unfold Setup.wrenchOf at this
          rwa [hkind, hregOf] at this
        rw [e]
        have y : (Vec.zero 3 : Vec K) k = 0 := rfl
        have x : (Vec.ofList [1, 1, 1] : Vec K) k = 1 := by
          match k, hk with
          | 0, _ => rfl
          | 1, _ => rfl
          | 2, _ => rfl
        rw [y, x]
        ring
    have hl : S.losses E W ops (kin q' v') t b = gripCost cf E q (sampleGoal r) (kin q' v') b.dv (b.force 0) := by
      unfold Setup.losses gripCost
      rw [hitems]
      have e0 : ((gripItems cf).map (S.loss E W ops (kin q' v') t b)).sum =
          cf.wEe * S.miss E W ops (kin q' v') t b .motion 0 + cf.wPosture * S.miss E W ops (kin q' v') t b .motion 1 +
            S.loss E W ops (kin q' v') t b (.contact 0 1 1 cf.wForceRef) := by
        have e1 : ∀ tid k, S.loss E W ops (kin q' v') t b (.task .motion tid 1 k) = k * S.miss E W ops (kin q' v') t b .motion tid :=
          fun _ _ => rfl
        have e2 : S.loss E W ops (kin q' v') t b (.task .actuation 2 0 1) = 0 := rfl
        simp only [gripItems, List.map_cons, List.map_nil, List.sum_cons, List.sum_nil, e1, e2]
        ring
      rw [e0, m1, mc]
      simp only [Setup.miss, hB.tip, TaskDecl.Error, Behaviour.part, alone, htip, selected, if_true]
    unfold Setup.aim gripAim
    rw [hl]
    unfold Setup.effort
    rw [hcids, ← hnv]
    have e1 : Contact.kindForce (S.obj 0).kind = 3 := by rw [hkind]; rfl
    simp only [List.map_cons, List.map_nil, List.sum_cons, List.sum_nil, e1, add_zero]

end

end Tsid.Props
