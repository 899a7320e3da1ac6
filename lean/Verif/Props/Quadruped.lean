import Verif.Spec.Quadruped
import Verif.Props.Manipulator
import Verif.Props.ProgramTextExists

/-!
# The quadruped demo
-/

set_option linter.unusedSectionVars false

namespace Tsid.Props

open Spec Finset Formulation Program

variable {K : Type} [Field K] [LinearOrder K] [FloorRing K] [HasSqrt K] [IsStrictOrderedRing K] [LawfulSqrt K]
variable {cf : Quadruped.Conf K} {kin : Vec K → Vec K → Snapshot K} {g : Nat → K} {E : Program.Env K} {W : World}
  {S : Setup K} {ops : List (Program.Op K)} {L : List (Item K)}

theorem footName_inj : ∀ a < 4, ∀ b < 4, Quadruped.footName a = Quadruped.footName b → a = b := by decide

/-! ## The calls on the objects -/

theorem quad_snoc (n : Nat) (q v : Vec K) (l : List (Quadruped.Step K)) (s : Quadruped.Step K) :
    Quadruped.text cf kin g n q v (l ++ [s]) =
      Quadruped.text cf kin g n q v l ++ Quadruped.references (Quadruped.joints cf kin q v) s.ref ++ [.compute (kin s.q s.v) s.t] := by
  simp [Quadruped.text, Quadruped.step]

theorem quad_feet (w : Snapshot K) : (List.range 4).flatMap (Quadruped.foot cf g w) =
    Quadruped.foot cf g w 0 ++ Quadruped.foot cf g w 1 ++ Quadruped.foot cf g w 2 ++ Quadruped.foot cf g w 3 := by
  simp [List.range_succ]

theorem quad_comCalls (n : Nat) (q v : Vec K) (l : List (Quadruped.Step K)) :
    taskCalls 0 (Quadruped.text cf kin g n q v l) = [.com (.setKp (Biped.gain 3 cf.kpCom)),
      .com (.setKd (Biped.damping 3 cf.kpCom))] ++ l.map fun s => .com (.setReference s.ref) := by
  induction l using List.reverseRecOn with
  | nil => simp [Quadruped.text, Quadruped.build, quad_feet, Quadruped.foot, Quadruped.tasks, taskCalls]
  | append_singleton l s ih => simp [quad_snoc, taskCalls_append, ih, Quadruped.references, taskCalls]

theorem quad_postureCalls (n : Nat) (q v : Vec K) (l : List (Quadruped.Step K)) :
    taskCalls 1 (Quadruped.text cf kin g n q v l) = [.posture (.setKp (Biped.gain (n - 6) cf.kpPosture)),
      .posture (.setKd (Biped.damping (n - 6) cf.kpPosture))] ++
      l.map fun _ => .posture (.setReference (EuclidianConstant.newWith (Quadruped.joints cf kin q v))) := by
  induction l using List.reverseRecOn with
  | nil => simp [Quadruped.text, Quadruped.build, quad_feet, Quadruped.foot, Quadruped.tasks, taskCalls]
  | append_singleton l s ih => simp [quad_snoc, taskCalls_append, ih, Quadruped.references, taskCalls]

theorem quad_contactCalls (n : Nat) (q v : Vec K) (l : List (Quadruped.Step K)) {i : Nat} (hi : i < 4) :
    contactCalls i (Quadruped.text cf kin g n q v l) = [.point (.setKp g (Biped.gain 3 cf.kpContact)),
      .point (.setKd g (Biped.damping 3 cf.kpContact)),
      .point (.setReference ((Quadruped.grounded cf kin q v).frame (cf.frame i)).pose), .point (.useLocalFrame false)] := by
  induction l using List.reverseRecOn with
  | nil =>
    match i, hi with
    | 0, _ => simp [Quadruped.text, Quadruped.build, quad_feet, Quadruped.foot, Quadruped.tasks, contactCalls]
    | 1, _ => simp [Quadruped.text, Quadruped.build, quad_feet, Quadruped.foot, Quadruped.tasks, contactCalls]
    | 2, _ => simp [Quadruped.text, Quadruped.build, quad_feet, Quadruped.foot, Quadruped.tasks, contactCalls]
    | 3, _ => simp [Quadruped.text, Quadruped.build, quad_feet, Quadruped.foot, Quadruped.tasks, contactCalls]
  | append_singleton l s ih => simp [quad_snoc, contactCalls_append, ih, Quadruped.references, contactCalls]

theorem quad_contactSets (n : Nat) (q v : Vec K) (l : List (Quadruped.Step K)) (i : Nat) :
    contactSets i (Quadruped.text cf kin g n q v l) = [] := by
  have happ : ∀ a b : List (Program.Op K), contactSets i a = [] → contactSets i b = [] → contactSets i (a ++ b) = [] := by
    intro a
    induction a with
    | nil => exact fun b _ h => h
    | cons o a ih =>
      intro b h1 h2
      cases o with
      | form o =>
        cases o with
        | setContact c u =>
          simp only [List.cons_append, contactSets] at h1 ⊢
          split at h1
          · cases h1
          · next h => rw [if_neg h]; exact ih b h1 h2
        | _ => exact ih b h1 h2
      | _ => exact ih b h1 h2
  induction l using List.reverseRecOn with
  | nil => simp [Quadruped.text, Quadruped.build, quad_feet, Quadruped.foot, Quadruped.tasks, contactSets]
  | append_singleton l s ih =>
    rw [quad_snoc]
    exact happ _ _ (happ _ _ ih rfl) rfl

theorem quad_unmeasured (n : Nat) (q v : Vec K) (l : List (Quadruped.Step K)) (m : Nat) :
    .form (.addMeasuredForce m) ∉ Quadruped.text cf kin g n q v l := by
  induction l using List.reverseRecOn with
  | nil => simp [Quadruped.text, Quadruped.build, quad_feet, Quadruped.foot, Quadruped.tasks]
  | append_singleton l s ih => simp [quad_snoc, ih, Quadruped.references]

/-! ## The text is checked -/

theorem quad_name (hB : IsQuadruped cf kin E W S) {i : Nat} (hi : i < 4) : (S.obj i).name = Quadruped.footName i := by
  rw [hB.contact i hi]; rfl

theorem quad_kind (hB : IsQuadruped cf kin E W S) {i : Nat} (hi : i < 4) : (S.obj i).kind = .point := by
  rw [hB.contact i hi]; rfl

theorem upto_quadFoot (hB : IsQuadruped cf kin E W S) (h : Upto E W S ops L) (w : Snapshot K) {i : Nat} (hi : i < 4)
    (hL : ∀ c p a b, Item.contact c p a b ∈ L → c < 4 ∧ c ≠ i) :
    Upto E W S (ops ++ Quadruped.foot cf g w i) (L ++ [.contact i 1 1 cf.wForceRef]) := by
  have ha : ∀ o : PointMotion.Op K, (S.cdecl i).Accepts (.point o) := fun o => by rw [hB.motion i hi]; trivial
  have h1 := h.motion (ha (.setKp g (Biped.gain 3 cf.kpContact)))
  have h2 := h1.motion (ha (.setKd g (Biped.damping 3 cf.kpContact)))
  have h3 := h2.motion (ha (.setReference (w.frame (cf.frame i)).pose))
  have h4 := h3.motion (ha (.useLocalFrame false))
  simp only [List.append_assoc, List.cons_append, List.nil_append] at h4
  have e : ops ++ Quadruped.foot cf g w i = ops ++ [.motion i (.point (.setKp g (Biped.gain 3 cf.kpContact))),
      .motion i (.point (.setKd g (Biped.damping 3 cf.kpContact))), .motion i (.point (.setReference (w.frame (cf.frame i)).pose)),
      .motion i (.point (.useLocalFrame false))] ++ [.form (.addRigidContact i cf.wForceRef 1 1)] := by
    simp [Quadruped.foot]
  rw [e]
  refine ⟨checked_snoc h4.checked ⟨Nat.one_lt_two, ?_⟩, ?_⟩
  · rintro ⟨it, hm, e⟩
    rw [h4.items] at hm
    cases it with
    | task => cases e
    | contact c p a b =>
      obtain ⟨hc, hne⟩ := hL _ _ _ _ hm
      simp only [Item.isContact, quad_name hB hi, quad_name hB hc, beq_iff_eq] at e
      exact hne (footName_inj _ hc _ hi e)
  · rw [noted_snoc]
    simp only [Registry.read, Registry.next, h4.items]

theorem quad_rows (hB : IsQuadruped cf kin E W S) {tid : Nat} (ht : tid < 2) (hf : ∀ c ∈ taskCalls tid ops, MaskFree c) :
    (W.task tid).rows = (S.decl tid).rows E.robot (taskCalls tid ops) := by
  rw [rows_free hf]
  match tid, ht with
  | 0, _ =>
    rw [hB.comRows, hB.com]
    show 3 = countSelected (ComSettings.fresh (K := K)).mask 3
    rw [show (ComSettings.fresh (K := K)).mask = ⟨3, fun _ => 1⟩ from rfl, count_ones]
  | 1, _ =>
    rw [hB.postureRows, hB.posture]
    show _ = countSelected (PostureSettings.fresh E.robot).mask E.robot.na
    rw [show (PostureSettings.fresh E.robot).mask = ⟨E.robot.na, fun _ => 1⟩ from rfl, count_ones]

theorem quad_cases (hB : IsQuadruped cf kin E W S) {P : TaskDecl K → Prop} {tid : Nat} (ht : tid < 2) (h0 : P .com)
    (h1 : P .posture) : P (S.decl tid) := by
  match tid, ht with
  | 0, _ => rw [hB.com]; exact h0
  | 1, _ => rw [hB.posture]; exact h1

theorem quad_build (hB : IsQuadruped cf kin E W S) {q v : Vec K} (hv : v.size = E.robot.nv) (hq : E.robot.na ≤ q.size) (n : Nat) :
    Upto E W S (Quadruped.build cf kin g n q v) (quadItems cf) := by
  have a0 : Upto E W S ([] ++ [.compute (kin q v) 0]) [] := by
    refine upto_nil.compute ⟨hB.snap q v hv, by rw [hB.config]; exact hq, ?_⟩
    intro fam tid p k hm
    cases hm
  have a1 := upto_quadFoot (g := g) hB a0 (Quadruped.grounded cf kin q v) (i := 0) (by decide) (fun _ _ _ _ hm => by cases hm)
  have a2 := upto_quadFoot (g := g) hB a1 (Quadruped.grounded cf kin q v) (i := 1) (by decide) (by
    intro c p a b hm
    simp at hm
    omega)
  have a3 := upto_quadFoot (g := g) hB a2 (Quadruped.grounded cf kin q v) (i := 2) (by decide) (by
    intro c p a b hm
    simp at hm
    omega)
  have a4 := upto_quadFoot (g := g) hB a3 (Quadruped.grounded cf kin q v) (i := 3) (by decide) (by
    intro c p a b hm
    simp at hm
    omega)
  have b1 := a4.task (tid := 0) (c := .com (.setKp (Biped.gain 3 cf.kpCom))) (by rw [hB.com]; trivial)
  have b2 := b1.task (tid := 0) (c := .com (.setKd (Biped.damping 3 cf.kpCom))) (by rw [hB.com]; trivial)
  have b3 := b2.addMotion hB.wCom (tid := 0) (p := 1) ⟨by rw [hB.com]; rfl, Nat.one_lt_two, by
      refine b2.fresh ?_
      intro it hm
      simp at hm
      rcases hm with rfl | rfl | rfl | rfl <;> rfl, by rw [hB.kind 0 (by decide), hB.com]; rfl,
    quad_rows hB (by decide) (by
      intro c hm
      simp [taskCalls, Quadruped.foot] at hm
      rcases hm with rfl | rfl <;> trivial), by rw [hB.com]; trivial⟩
  have b4 := b3.task (tid := 1) (c := .posture (.setKp (Biped.gain (n - 6) cf.kpPosture)))
    (by rw [hB.posture]; exact ⟨trivial, fun _ _ e => (by cases e)⟩)
  have b5 := b4.task (tid := 1) (c := .posture (.setKd (Biped.damping (n - 6) cf.kpPosture)))
    (by rw [hB.posture]; exact ⟨trivial, fun _ _ e => (by cases e)⟩)
  have b6 := b5.addMotion hB.wPosture (tid := 1) (p := 1) ⟨by rw [hB.posture]; rfl, Nat.one_lt_two, by
      refine b5.fresh ?_
      intro it hm
      simp at hm
      rcases hm with rfl | rfl | rfl | rfl | rfl <;>
        first | rfl | (simp only [Item.isTask, hB.comName, hB.postureName]; decide),
      by rw [hB.kind 1 (by decide), hB.posture]; rfl,
    quad_rows hB (by decide) (by
      intro c hm
      simp [taskCalls, Quadruped.foot] at hm
      rcases hm with rfl | rfl <;> trivial), by rw [hB.posture]; trivial⟩
  have e1 : Quadruped.build cf kin g n q v = [.compute (kin q v) 0] ++ (List.range 4).flatMap (Quadruped.foot cf g (Quadruped.grounded cf kin q v)) ++
    Quadruped.tasks cf n := rfl
  rw [e1, quad_feet]
  simp only [List.nil_append, List.append_assoc, List.cons_append] at b6
  simpa only [quadItems, Quadruped.tasks, List.append_assoc, List.cons_append, List.nil_append, List.range_succ, List.range_zero,
    List.map_cons, List.map_nil, List.map_append] using b6

theorem quad_item {fam : Family} {t p : Nat} {k : K} (h : Item.task fam t p k ∈ quadItems cf) : t < 2 ∧ p = 1 := by
  simp [quadItems, List.range_succ] at h
  omega

theorem quad_free (n : Nat) (q v : Vec K) (l : List (Quadruped.Step K)) {tid : Nat} (ht : tid < 2) :
    ∀ c ∈ taskCalls tid (Quadruped.text cf kin g n q v l), MaskFree c := by
  match tid, ht with
  | 0, _ =>
    rw [quad_comCalls]
    intro c hm
    simp only [List.mem_append, List.mem_cons, List.not_mem_nil, or_false, List.mem_map] at hm
    rcases hm with (rfl | rfl) | ⟨_, -, rfl⟩ <;> trivial
  | 1, _ =>
    rw [quad_postureCalls]
    intro c hm
    simp only [List.mem_append, List.mem_cons, List.not_mem_nil, or_false, List.mem_map] at hm
    rcases hm with (rfl | rfl) | ⟨_, -, rfl⟩ <;> trivial

theorem quad_refs (hB : IsQuadruped cf kin E W S) (h : Upto E W S ops L) (j : Vec K) {r : Sample K}
    (hr : r.pos.size = 3 ∧ r.vel.size = 3 ∧ r.acc.size = 3) : Upto E W S (ops ++ Quadruped.references j r) L := by
  have h1 := h.task (tid := 0) (c := .com (.setReference r)) (by rw [hB.com]; exact hr)
  have h2 := h1.task (tid := 1) (c := .posture (.setReference (EuclidianConstant.newWith j)))
    (by rw [hB.posture]; exact ⟨trivial, fun _ _ e => (by cases e)⟩)
  rwa [List.append_assoc] at h2

theorem quad_fine (hB : IsQuadruped cf kin E W S) {n : Nat} {q v : Vec K} {l : List (Quadruped.Step K)} {r : Sample K}
    (h : Upto E W S (Quadruped.text cf kin g n q v l ++ Quadruped.references (Quadruped.joints cf kin q v) r) (quadItems cf))
    {q' v' : Vec K} {t : K} (hv : v'.size = E.robot.nv) (hq : E.robot.na ≤ q'.size) :
    S.Fine E W (Quadruped.text cf kin g n q v l ++ Quadruped.references (Quadruped.joints cf kin q v) r) (.compute (kin q' v') t) := by
  refine ⟨hB.snap q' v' hv, by rw [hB.config]; exact hq, ?_⟩
  intro fam tid p k hm
  rw [h.items] at hm
  have ht := (quad_item hm).1
  refine ⟨?_, quad_rows hB ht ?_, quad_cases hB ht trivial trivial⟩
  · rw [hB.kind tid ht]
    exact quad_cases hB (P := fun d => _ = d.kind) ht rfl rfl
  · intro c hc
    rw [taskCalls_append] at hc
    rcases List.mem_append.1 hc with hc | hc
    · exact quad_free n q v l ht c hc
    · match tid, ht with
      | 0, _ => simp [Quadruped.references, taskCalls] at hc; subst hc; trivial
      | 1, _ => simp [Quadruped.references, taskCalls] at hc; subst hc; trivial

theorem quad_upto (hB : IsQuadruped cf kin E W S) {q v : Vec K} (hv : v.size = E.robot.nv) (hq : E.robot.na ≤ q.size) (n : Nat)
    {l : List (Quadruped.Step K)} (hp : ∀ s ∈ l, ProperStep E.robot s) :
    Upto E W S (Quadruped.text cf kin g n q v l) (quadItems cf) := by
  induction l using List.reverseRecOn with
  | nil =>
    rw [show Quadruped.text cf kin g n q v [] = Quadruped.build cf kin g n q v from List.append_nil _]
    exact quad_build hB hv hq n
  | append_singleton l s ih =>
    have ih := ih fun d hd => hp d (List.mem_append_left _ hd)
    have hs := hp s (List.mem_append_right _ List.mem_cons_self)
    have h1 := quad_refs hB ih (Quadruped.joints cf kin q v) ⟨hs.pos, hs.vel, hs.acc⟩
    rw [quad_snoc]
    exact h1.compute (quad_fine hB h1 hs.speed hs.config)

/-- **C112, the demo runs.** The demo passes the check of its text, whatever the solver answers in its loop: it runs without
undefined behaviour, exception or failed assertion of a cycle, and registered are four contacts and two tasks. -/
theorem C112_runs (hB : IsQuadruped cf kin E W S) {q v : Vec K} (hv : v.size = E.robot.nv) (hq : E.robot.na ≤ q.size)
    {l : List (Quadruped.Step K)} (hp : ∀ s ∈ l, ProperStep E.robot s) :
    Checked E W S (Quadruped.text cf kin g E.robot.nv q v l) ∧
    (∃ s, Program.run E S.start (Quadruped.text cf kin g E.robot.nv q v l) = some s) ∧
    (S.registered E W (Quadruped.text cf kin g E.robot.nv q v l)).items = quadItems cf := by
  have hu := quad_upto (g := g) hB hv hq E.robot.nv hp
  obtain ⟨s, hs, -, -, hr⟩ := C107_runs hB.declared hu.checked
  exact ⟨hu.checked, ⟨s, hs⟩, by rw [hr, hu.items]⟩

/-! ## Settings -/

theorem com_refs (l : List (Quadruped.Step K)) (r : Sample K) : ∀ p : ComSettings K,
    p.afterAll (((l.map fun s : Quadruped.Step K => (TaskCall.com (.setReference s.ref) : TaskCall K)) ++
      [TaskCall.com (.setReference r)]).filterMap com?) =
      ⟨p.mask, p.kp, p.kd, r.pos.get, r.vel.get, r.acc.get⟩ := by
  induction l with
  | nil => exact fun p => rfl
  | cons s l ih =>
    intro p
    exact ih (p.after (.setReference s.ref))

theorem posture_refs {R : PostureRobot K} {r : Sample K} (hr : r.pos.size = R.nqa ∧ r.vel.size = R.na ∧ r.acc.size = R.na)
    {α : Type} (l : List α) : ∀ p : PostureSettings K,
    p.afterAll R (((l.map fun _ : α => (TaskCall.posture (.setReference r) : TaskCall K)) ++
      [TaskCall.posture (.setReference r)]).filterMap posture?) =
      ⟨p.mask, p.kp, p.kd, r⟩ := by
  induction l with
  | nil =>
    intro p
    show PostureSettings.after R p (.setReference r) = _
    simp only [PostureSettings.after, if_pos hr]
  | cons s l ih =>
    intro p
    refine (ih (p.after R (.setReference r))).trans ?_
    simp only [PostureSettings.after, if_pos hr]

/-- The friction pyramid of a contact whose normal is vertical. -/
theorem respected_vertical {mu fMin fMax : K} (hmu : 0 ≤ mu) (hm : 2 * mu * fMax ≤ 10 ^ 10) (f : Nat → K) :
    (⟨⟨0, 0, 1⟩, mu, fMin, fMax⟩ : ForceLimits K).Respected .point f ↔
      (fMin ≤ f 2 ∧ f 2 ≤ fMax) ∧ |f 0| ≤ mu * f 2 ∧ |f 1| ≤ mu * f 2 := by
  have s1 : sqrt (1 : K) = 1 := by
    have h1 := LawfulSqrt.sq_sqrt (1 : K) zero_le_one
    have h2 := LawfulSqrt.sqrt_nonneg (1 : K)
    nlinarith
  have r1 : Contact.rawT1 (⟨0, 0, 1⟩ : V3 K) = ⟨0, 1, 0⟩ := by
    simp [Contact.rawT1, V3.cross, V3.unitX, V3.norm, V3.dot, s1]
    norm_num
  have t1 : Contact.tangent1 (⟨0, 0, 1⟩ : V3 K) = ⟨0, 1, 0⟩ := by
    rw [Contact.tangent1, r1]
    simp [V3.normalized, V3.norm, V3.dot, s1]
  have t2 : Contact.tangent2 (⟨0, 0, 1⟩ : V3 K) = ⟨-1, 0, 0⟩ := by
    rw [Contact.tangent2, r1]
    simp [V3.cross, V3.normalized, V3.norm, V3.dot, s1]
  simp only [ForceLimits.Respected, t1, t2, Pyramid, BelowLimit, nPoints, cornerForce, V3.dot]
  simp
  constructor
  · rintro ⟨⟨⟨h1, h2⟩, -⟩, h3, h4⟩
    exact ⟨⟨h3, h4⟩, h2, h1⟩
  · rintro ⟨⟨h3, h4⟩, h2, h1⟩
    have := mul_le_mul_of_nonneg_left h4 hmu
    exact ⟨⟨⟨h1, h2⟩, by linarith, by linarith⟩, h3, h4⟩

/-! ## Exactly what the text asks for -/

section
variable {q v q' v' : Vec K} {l : List (Quadruped.Step K)} {r : Sample K} {t : K}

theorem sum_four (F : Nat → K) : ∑ l ∈ range 4, F l = F 0 + (F 1 + (F 2 + F 3)) := by
  rw [sum_range_succ, sum_range_succ, sum_range_succ, sum_range_one]
  ring

theorem quad_cids : (quadItems cf).filterMap Item.cid? = [0, 1, 2, 3] := by
  simp [quadItems, List.range_succ, Item.cid?]

/-- **C112, exactly.** A behaviour obeys the text of the demo if and only if the laws of mechanics hold and every foot pushes
within its limits and within the friction pyramid: nothing is demanded of the motion of the feet.  What the text asks to minimise
is the cost of centre of mass, joints, feet and forces. -/
theorem C112_exact (hB : IsQuadruped cf kin E W S) (hv : v.size = E.robot.nv) (hs : QuadSized E.robot q)
    (hp : ∀ s ∈ l, ProperStep E.robot s) (hr : r.pos.size = 3 ∧ r.vel.size = 3 ∧ r.acc.size = 3) (b : Behaviour K) :
    let ops := Quadruped.text cf kin g E.robot.nv q v l ++ Quadruped.references (Quadruped.joints cf kin q v) r
    (Intended E W S ops (kin q' v') t b ↔ QuadObeys cf S (kin q' v') b.dv b.tau b.force) ∧
    ∀ reg, S.aim E W ops (kin q' v') t reg b =
      quadAim reg cf E q (feetPlaces cf kin q v) r (kin q' v') b.dv b.force := by
  have hq : E.robot.na ≤ q.size := by have := hs.motors; omega
  have hu := quad_refs hB (quad_upto (g := g) hB hv hq E.robot.nv hp) (Quadruped.joints cf kin q v) hr
  obtain ⟨s, hrun⟩ := reading_run hB.declared hu.checked
  have hreg := reading_registry hrun t
  intro ops
  have hops : ops = Quadruped.text cf kin g E.robot.nv q v l ++ Quadruped.references (Quadruped.joints cf kin q v) r := rfl
  have hitems : (S.registry E W ops t).items = quadItems cf := by
    rw [hreg]; exact hu.items
  have hmeas : (S.registry E W ops t).measured = [] := by
    rw [hreg]
    refine noted_measured _ fun m hm => ?_
    rcases List.mem_append.1 hm with hm | hm
    · exact quad_unmeasured _ _ _ _ m hm
    · simp [Quadruped.references] at hm
  have hcids : S.cids E W ops t = [0, 1, 2, 3] := by
    unfold Setup.cids; rw [hitems, quad_cids]
  have hcc : ∀ i, i < 4 → (PointSettings.fresh (K := K)).afterAll ((contactCalls i ops).filterMap point?) =
      ⟨⟨cf.kpContact, cf.kpContact, cf.kpContact⟩, ⟨critical cf.kpContact, critical cf.kpContact, critical cf.kpContact⟩,
        ((Quadruped.grounded cf kin q v).frame (cf.frame i)).pose, false⟩ := by
    intro i hi
    rw [hops, contactCalls_append, quad_contactCalls _ _ _ _ hi]
    rfl
  have hsets : ∀ i, contactSets i ops = [] := by
    intro i
    rw [hops]
    have : ∀ a : List (Program.Op K), contactSets i (a ++ Quadruped.references (Quadruped.joints cf kin q v) r) = contactSets i a := by
      intro a
      induction a with
      | nil => rfl
      | cons o a ih =>
        cases o with
        | form o =>
          cases o with
          | setContact c u => simp only [List.cons_append, contactSets, ih]
          | _ => exact ih
        | _ => exact ih
    rw [this, quad_contactSets]
  have hcom : (ComSettings.fresh (K := K)).afterAll ((taskCalls 0 ops).filterMap com?) =
      ⟨⟨3, fun _ => 1⟩, ⟨cf.kpCom, cf.kpCom, cf.kpCom⟩, ⟨critical cf.kpCom, critical cf.kpCom, critical cf.kpCom⟩, r.pos.get,
        r.vel.get, r.acc.get⟩ := by
    rw [hops, taskCalls_append, quad_comCalls, List.append_assoc]
    exact com_refs l r _
  have hfl := hB.floating
  have hpost : (PostureSettings.fresh E.robot).afterAll E.robot ((taskCalls 1 ops).filterMap posture?) =
      ⟨⟨E.robot.na, fun _ => 1⟩, Biped.gain (E.robot.nv - 6) cf.kpPosture, Biped.damping (E.robot.nv - 6) cf.kpPosture,
        EuclidianConstant.newWith (Quadruped.joints cf kin q v)⟩ := by
    rw [hops, taskCalls_append, quad_postureCalls, List.append_assoc, List.filterMap_append]
    have hz : ∀ (p : PostureSettings K) (a b : List (Posture.Op K)), p.afterAll E.robot (a ++ b) = (p.afterAll E.robot a).afterAll E.robot b := by
      intro p a
      induction a generalizing p with
      | nil => exact fun b => rfl
      | cons o a ih => exact fun b => ih _ b
    rw [hz]
    refine (posture_refs (r := EuclidianConstant.newWith (Quadruped.joints cf kin q v))
      ⟨hs.joints, hs.motors, hs.motors⟩ l _).trans ?_
    simp only [List.filterMap_cons, List.filterMap_nil, posture?, PostureSettings.afterAll, PostureSettings.after]
    rw [if_pos (show (Biped.gain (E.robot.nv - 6) cf.kpPosture).size = E.robot.na from by show E.robot.nv - 6 = _; omega),
      if_pos (show (Biped.damping (E.robot.nv - 6) cf.kpPosture).size = E.robot.na from by show E.robot.nv - 6 = _; omega)]
    rfl
  have hnv := hB.declared.nv
  have hna := hB.declared.na
  have hlim : ∀ i, i < 4 → S.limitsOf ops i = ⟨⟨0, 0, 1⟩, cf.mu, cf.fMin, cf.fMax⟩ := by
    intro i hi
    unfold Setup.limitsOf
    rw [hsets, hB.contact i hi]
    rfl
  have hregOf : ∀ i, i < 4 → S.regOf ops i = ⟨Vec.zero 3, Vec.ofList [1, 1, 1 / 1000], fun _ => 0, fun _ => 0⟩ := by
    intro i hi
    unfold Setup.regOf
    rw [hsets, hB.contact i hi]
    rfl
  have hwr : ∀ i, i < 4 → ∀ k, k < 3 → S.wrenchOf ops b i k = b.force i k := by
    intro i hi k hk
    unfold Setup.wrenchOf
    rw [quad_kind hB hi]
    simp only [wrench, if_pos hk, nPoints]
    rw [if_neg (by decide), sum_range_one]
    match k, hk with
    | 0, _ => rfl
    | 1, _ => rfl
    | 2, _ => rfl
  have hvel : ∀ i, i < 4 → ∀ u : Nat → K, ∀ k, (S.cdecl i).velocity E (kin q' v') (contactCalls i ops) u k =
      (footVel S.robot.nv ((kin q' v').frame (cf.frame i)) u).get k := by
    intro i hi u k
    rw [hB.motion i hi]
    simp only [ContactDecl.velocity, hcc i hi, PointSettings.achieved, footVel, ← hnv]
    rfl
  have hbal : S.Balanced E W ops (kin q' v') t b ↔ ∀ u : Nat → K,
      ∑ i ∈ range S.robot.nv, (∑ j ∈ range S.robot.nv, S.robot.mass (kin q' v').M i j * b.dv j + (kin q' v').nle i) * u i =
      ∑ i ∈ range (S.robot.nv - 6), b.tau i * u (6 + i) +
      ∑ l ∈ range 4, ∑ i ∈ range 3, b.force l i * (footVel S.robot.nv ((kin q' v').frame (cf.frame l)) u).get i := by
    unfold Setup.Balanced
    refine forall_congr' fun u => ?_
    rw [hcids, hmeas]
    have e1 : ∀ i, i < 4 → ∑ k ∈ range (nWrench (S.obj i).kind), S.wrenchOf ops b i k *
        (S.cdecl i).velocity E (kin q' v') (contactCalls i ops) u k =
        ∑ k ∈ range 3, b.force i k * (footVel S.robot.nv ((kin q' v').frame (cf.frame i)) u).get k := by
      intro i hi
      rw [quad_kind hB hi, show nWrench ContactKind.point = 3 from rfl]
      exact sum_congr rfl fun k hk => by rw [hwr i hi k (mem_range.1 hk), hvel i hi]
    simp only [List.map_cons, List.map_nil, List.sum_cons, List.sum_nil, add_zero, e1 0 (by decide), e1 1 (by decide),
      e1 2 (by decide), e1 3 (by decide)]
    rw [sum_four fun l => ∑ i ∈ range 3, b.force l i * (footVel S.robot.nv ((kin q' v').frame (cf.frame l)) u).get i]
    have e2 : S.robot.nv - S.robot.na = 6 := by omega
    have e3 : S.robot.na = S.robot.nv - 6 := by omega
    rw [e2, e3]
  refine ⟨⟨fun h => ⟨hbal.1 h.dynamics, ?_, ?_⟩, fun h => ⟨hbal.2 h.dynamics, ?_, ?_, ?_⟩⟩, fun reg => ?_⟩
  · intro i hi
    have := h.contactForce i 1 1 cf.wForceRef (by rw [hitems]; simp [quadItems, hi])
    rw [hlim i hi, quad_kind hB hi, respected_vertical hB.mu hB.moderate] at this
    exact this.1
  · intro i hi
    have := h.contactForce i 1 1 cf.wForceRef (by rw [hitems]; simp [quadItems, hi])
    rw [hlim i hi, quad_kind hB hi, respected_vertical hB.mu hB.moderate] at this
    exact this.2
  · intro fam tid k hm
    rw [hitems] at hm
    exact absurd (quad_item hm).2 (by decide)
  · intro cid wm wf hm
    rw [hitems] at hm
    simp [quadItems] at hm
  · intro cid p wm wf hm
    rw [hitems] at hm
    have hi : cid < 4 := by
      simp [quadItems] at hm
      omega
    rw [hlim cid hi, quad_kind hB hi, respected_vertical hB.mu hB.moderate]
    exact ⟨h.push cid hi, h.friction cid hi⟩
  · have get3 : ∀ (a : K) (i : Nat), i < 3 → (⟨a, a, a⟩ : V3 K).get i = a := by
      intro a i hi
      match i, hi with
      | 0, _ => rfl
      | 1, _ => rfl
      | 2, _ => rfl
    have m0 : S.miss E W ops (kin q' v') t b .motion 0 = ∑ i ∈ range 3,
        ((pointAcc E.robot.nv (kin q' v').com.jac (kin q' v').com.drift b.dv).get i -
          (r.acc i + cf.kpCom * (r.pos i - (kin q' v').com.pos.get i) +
            critical cf.kpCom * (r.vel i - (kin q' v').com.vel.get i))) ^ 2 := by
      simp only [Setup.miss, hB.com, TaskDecl.Error, Behaviour.part, alone, hcom, selected, if_true, ComSettings.law]
      refine sum_congr rfl fun i hi => ?_
      rw [get3 _ _ (mem_range.1 hi), get3 _ _ (mem_range.1 hi)]
    have m1 : S.miss E W ops (kin q' v') t b .motion 1 = ∑ j ∈ range E.robot.na, (b.dv (6 + j) + cf.kpPosture * E.robot.difference
        ⟨E.robot.neutral.size, fun i => if i < 7 then E.robot.neutral i else q i⟩ (kin q' v').q (6 + j) +
          critical cf.kpPosture * (kin q' v').v (6 + j)) ^ 2 := by
      simp only [Setup.miss, hB.posture, TaskDecl.Error, Behaviour.part, alone, hpost, selected, if_true, PostureSettings.law]
      have e6 : E.robot.nv - E.robot.na = 6 := by omega
      have htar : PostureSettings.target E.robot (⟨⟨E.robot.na, fun _ => 1⟩, Biped.gain (E.robot.nv - 6) cf.kpPosture,
          Biped.damping (E.robot.nv - 6) cf.kpPosture, EuclidianConstant.newWith (Quadruped.joints cf kin q v)⟩ : PostureSettings K) =
          ⟨E.robot.neutral.size, fun i => if i < 7 then E.robot.neutral i else q i⟩ := by
        unfold PostureSettings.target
        have e7 : E.robot.neutral.size - E.robot.nqa = 7 := by have := hB.neutral; omega
        rw [e7]
        congr 1
        funext i
        split
        · rfl
        · next h =>
          show (Quadruped.ground cf q (kin q v)) (i - 7 + 7) = q i
          rw [show i - 7 + 7 = i by omega]
          show (if i = 2 then _ else q i) = q i
          rw [if_neg (by omega)]
      rw [htar, e6]
      refine sum_congr rfl fun j _ => ?_
      have z1 : (EuclidianConstant.newWith (Quadruped.joints cf kin q v)).vel j = 0 := rfl
      have z2 : (EuclidianConstant.newWith (Quadruped.joints cf kin q v)).acc j = 0 := rfl
      have z3 : (Biped.gain (E.robot.nv - 6) cf.kpPosture) j = cf.kpPosture := rfl
      have z4 : (Biped.damping (E.robot.nv - 6) cf.kpPosture) j = critical cf.kpPosture := rfl
      rw [z1, z2, z3, z4]
      ring
    have mc : ∀ i, i < 4 → S.loss E W ops (kin q' v') t b (.contact i 1 1 cf.wForceRef) =
        ∑ k ∈ range 3, footError cf E.robot.nv (feetPlaces cf kin q v i) ((kin q' v').frame (cf.frame i)) b.dv k ^ 2 +
        cf.wForceRef * (b.force i 0 ^ 2 + b.force i 1 ^ 2 + (b.force i 2 / 1000) ^ 2) := by
      intro i hi
      simp only [Setup.loss, if_true, one_mul]
      congr 1
      · rw [hB.motion i hi]
        simp only [ContactDecl.Error, hcc i hi, PointSettings.achieved, PointSettings.law]
        refine sum_congr rfl fun k hk => ?_
        simp only [Bool.false_eq_true, if_false, footError, footAcc, feetPlaces]
        rw [get3 _ _ (mem_range.1 hk), get3 _ _ (mem_range.1 hk)]
        rfl
      · rw [hregOf i hi, quad_kind hB hi]
        simp only [RegSettings.Error]
        rw [if_neg (by decide), sum_range_succ, sum_range_succ, sum_range_one]
        congr 1
        have e : ∀ k, k < 3 → wrench (nPoints ContactKind.point) (fun _ => (0 : V3 K)) (b.force i) k = b.force i k := by
          intro k hk
          have := hwr i hi k hk
          unfold Setup.wrenchOf at this
          rwa [quad_kind hB hi, hregOf i hi] at this
        rw [e 0 (by decide), e 1 (by decide), e 2 (by decide)]
        have y0 : (Vec.zero 3 : Vec K) 0 = 0 := rfl
        have y1 : (Vec.zero 3 : Vec K) 1 = 0 := rfl
        have y2 : (Vec.zero 3 : Vec K) 2 = 0 := rfl
        have x0 : (Vec.ofList [1, 1, 1 / 1000] : Vec K) 0 = 1 := rfl
        have x1 : (Vec.ofList [1, 1, 1 / 1000] : Vec K) 1 = 1 := rfl
        have x2 : (Vec.ofList [1, 1, 1 / 1000] : Vec K) 2 = 1 / 1000 := rfl
        rw [y0, y1, y2, x0, x1, x2]
        ring
    have hl : S.losses E W ops (kin q' v') t b = quadCost cf E q (feetPlaces cf kin q v) r (kin q' v') b.dv b.force := by
      unfold Setup.losses quadCost
      rw [hitems]
      have e0 : ((quadItems cf).map (S.loss E W ops (kin q' v') t b)).sum =
          ∑ i ∈ range 4, S.loss E W ops (kin q' v') t b (.contact i 1 1 cf.wForceRef) +
          cf.wCom * S.miss E W ops (kin q' v') t b .motion 0 + cf.wPosture * S.miss E W ops (kin q' v') t b .motion 1 := by
        rw [sum_range_succ (n := 3), sum_range_succ (n := 2), sum_range_succ (n := 1), sum_range_one]
        have e1 : ∀ tid k, S.loss E W ops (kin q' v') t b (.task .motion tid 1 k) = k * S.miss E W ops (kin q' v') t b .motion tid :=
          fun _ _ => rfl
        simp only [quadItems, List.range_succ, List.range_zero, List.map_append, List.map_cons, List.map_nil, List.nil_append,
          List.cons_append, List.sum_cons, List.sum_nil, e1, List.append_assoc]
        ring
      rw [e0, m0, m1, sum_congr rfl fun i hi => mc i (mem_range.1 hi)]
    unfold Setup.aim quadAim
    rw [hl]
    unfold Setup.effort
    rw [hcids, ← hnv]
    have e1 : ∀ i, i < 4 → Contact.kindForce (S.obj i).kind = 3 := fun i hi => by rw [quad_kind hB hi]; rfl
    simp only [List.map_cons, List.map_nil, List.sum_cons, List.sum_nil, e1 0 (by decide), e1 1 (by decide), e1 2 (by decide),
      e1 3 (by decide), add_zero]
    rw [sum_four fun l => ∑ i ∈ range 3, b.force l i ^ 2]

end

end Tsid.Props
