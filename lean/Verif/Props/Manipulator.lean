import Verif.Spec.Manipulator
import Verif.Props.BipedSettings
import Verif.Props.ProgramText
import Mathlib.Analysis.SpecialFunctions.Trigonometric.Deriv

/-!
# The class `TsidManipulator`
-/

set_option linter.unusedSectionVars false

namespace Tsid.Props

open Spec Finset Formulation Program

variable {K : Type} [Field K] [LinearOrder K] [FloorRing K] [HasSqrt K] [IsStrictOrderedRing K] [LawfulSqrt K]
variable {cf : Manipulator.Conf K} {kin : Vec K → Vec K → Snapshot K} {g : Nat → K} {E : Program.Env K} {W : World}
  {S : Setup K} {ops : List (Program.Op K)} {L : List (Item K)}

theorem armName_inj : ∀ a < 4, ∀ b < 4, armName a = armName b → a = b := by decide

/-! ## The calls on the tasks -/

theorem arm_snoc (n : Nat) (q v : Vec K) (cs : List (Manipulator.Call K)) (c : Manipulator.Call K) :
    Manipulator.text cf kin g n q v (cs ++ [c]) = Manipulator.text cf kin g n q v cs ++ [Manipulator.use kin c] := by
  simp [Manipulator.text]

theorem arm_calls (n : Nat) (q v : Vec K) (cs : List (Manipulator.Call K)) :
    taskCalls 0 (Manipulator.text cf kin g n q v cs) = [.posture (.setKp (Biped.gain n cf.kpPosture)),
      .posture (.setKd (Biped.damping n cf.kpPosture)), .posture (.setReference (EuclidianConstant.newWith q))] ∧
    taskCalls 2 (Manipulator.text cf kin g n q v cs) =
      [.actBounds (.setBounds ⟨cf.tauMax.size, fun i => -cf.tauMax i⟩ cf.tauMax)] ∧
    taskCalls 3 (Manipulator.text cf kin g n q v cs) =
      [.jointBounds (.setVelocityBounds ⟨cf.vMax.size, fun i => -cf.vMax i⟩ cf.vMax)] := by
  induction cs using List.reverseRecOn with
  | nil =>
    simp only [Manipulator.text, Manipulator.build, List.map_nil, List.append_nil]
    refine ⟨?_, ?_, ?_⟩ <;> by_cases h1 : 0 < cf.wTorque <;> by_cases h2 : 0 < cf.wJoint <;> simp [h1, h2, taskCalls]
  | append_singleton cs c ih =>
    rw [arm_snoc]
    simp only [taskCalls_append, ih]
    cases c <;> simp [Manipulator.use, taskCalls]

/-- The settings of the task of the end effector. -/
def eeSettings (ops : List (Program.Op K)) : FrameSettings K :=
  (FrameSettings.fresh (K := K)).afterAll ((taskCalls 1 ops).filterMap se3?)

theorem eeSettings_append (a b : List (Program.Op K)) :
    eeSettings (a ++ b) = (eeSettings a).afterAll ((taskCalls 1 b).filterMap se3?) := by
  rw [eeSettings, taskCalls_append, List.filterMap_append, settings_afterAll_append]
  rfl

theorem ee_settings (n : Nat) (q v : Vec K) (cs : List (Manipulator.Call K)) :
    eeSettings (Manipulator.text cf kin g n q v cs) =
      ⟨cf.eeMask, ⟨6, fun _ => cf.kpEe⟩, ⟨6, fun _ => critical cf.kpEe⟩, (eeGoal cs.reverse).pose, (eeGoal cs.reverse).vel,
        (eeGoal cs.reverse).acc, cf.eeLocal⟩ := by
  induction cs using List.reverseRecOn with
  | nil =>
    unfold eeSettings
    simp only [Manipulator.text, Manipulator.build, List.map_nil, List.append_nil]
    by_cases h1 : 0 < cf.wTorque <;> by_cases h2 : 0 < cf.wJoint <;>
      simp [h1, h2, taskCalls, se3?, FrameSettings.afterAll, FrameSettings.after, FrameSettings.fresh, Biped.gain,
        Biped.damping, critical, eeGoal]
  | append_singleton cs c ih =>
    rw [arm_snoc, eeSettings_append, ih, List.reverse_append]
    cases c with
    | setEe r =>
      simp only [Manipulator.use, taskCalls, if_true, List.filterMap_cons, List.filterMap_nil, se3?, FrameSettings.afterAll,
        FrameSettings.after, List.reverse_cons, List.reverse_nil, List.nil_append, List.singleton_append, eeGoal]
      split <;> rfl
    | cycle t q' v' => rfl

/-! ## The text is checked -/

theorem arm_cases (hB : IsArm cf kin g E W S) {P : TaskDecl K → Prop} {tid : Nat} (ht : tid < 4) (h0 : P .posture)
    (h1 : ∀ f, P (.se3 f)) (h2 : P .actBounds) (h3 : ∀ dt, P (.jointBounds dt)) : P (S.decl tid) := by
  match tid, ht with
  | 0, _ => rw [hB.posture]; exact h0
  | 1, _ => rw [hB.ee]; exact h1 _
  | 2, _ => rw [hB.torque]; exact h2
  | 3, _ => rw [hB.joint]; exact h3 _

/-- The number of rows is the announced one as soon as the mask of the end effector has been set. -/
theorem arm_rows (hB : IsArm cf kin g E W S) {tid : Nat} (ht : tid < 4) (hf : tid ≠ 1 → ∀ c ∈ taskCalls tid ops, MaskFree c)
    (h1 : tid = 1 → (eeSettings ops).mask = cf.eeMask) :
    (W.task tid).rows = (S.decl tid).rows E.robot (taskCalls tid ops) := by
  rw [hB.rows tid ht]
  by_cases h : tid = 1
  · subst h
    rw [if_pos rfl, hB.ee]
    simp only [TaskDecl.rows]
    rw [show ((FrameSettings.fresh (K := K)).afterAll ((taskCalls 1 ops).filterMap se3?)).mask = _ from h1 rfl]
    rfl
  · rw [if_neg h, rows_free (hf h)]

theorem arm_addable (hB : IsArm cf kin g E W S) (h : Upto E W S ops L) {fam : Family} {tid p : Nat}
    (hd : (S.decl tid).family = fam) (ht : tid < 4) (hp : p < 2)
    (hL : ∀ fam t p k, Item.task fam t p k ∈ L → t < 4 ∧ t ≠ tid)
    (hr : (W.task tid).rows = (S.decl tid).rows E.robot (taskCalls tid ops)) : S.Addable E W ops fam tid p where
  family := hd
  level := hp
  fresh := by
    refine h.fresh ?_
    rintro (⟨fam', t, p', k⟩ | ⟨c, p', a, b⟩) hm
    · obtain ⟨h1, h2⟩ := hL _ _ _ _ hm
      simp only [Item.isTask, hB.name _ h1, hB.name _ ht, beq_eq_false_iff_ne, ne_eq]
      exact fun e => h2 (armName_inj _ h1 _ ht e)
    · rfl
  kind := hB.kind tid ht
  rows := hr
  whole := arm_cases hB ht trivial (fun _ => trivial) trivial fun _ => trivial

/-- The calls before the limits. -/
def armHead (cf : Manipulator.Conf K) (kin : Vec K → Vec K → Snapshot K) (g : Nat → K) (n : Nat) (q v : Vec K) :
    List (Program.Op K) :=
  [.compute (kin q v) 0,
   .task 0 (.posture (.setKp (Biped.gain n cf.kpPosture))), .task 0 (.posture (.setKd (Biped.damping n cf.kpPosture))),
   .form (.addMotionTask 0 cf.wPosture 1 0),
   .task 1 (.se3 (.setKp (Biped.gain 6 cf.kpEe))), .task 1 (.se3 (.setKd (Biped.damping 6 cf.kpEe))),
   .task 1 (.se3 (.setMask g cf.eeMask)), .task 1 (.se3 (.useLocalFrame cf.eeLocal)),
   .form (.addMotionTask 1 cf.wEe 1 0),
   .task 2 (.actBounds (.setBounds ⟨cf.tauMax.size, fun i => -cf.tauMax i⟩ cf.tauMax))]

theorem arm_build (hB : IsArm cf kin g E W S) {q v : Vec K} (hv : v.size = E.robot.nv) (hq : E.robot.na ≤ q.size) (n : Nat) :
    Upto E W S (Manipulator.build cf kin g n q v) (armItems cf) := by
  have a0 : Upto E W S ([] ++ [.compute (kin q v) 0]) [] := by
    refine upto_nil.compute ⟨hB.snap q v hv, by rw [hB.config]; exact hq, ?_⟩
    intro fam tid p k hm
    cases hm
  have a1 := a0.task (tid := 0) (c := .posture (.setKp (Biped.gain n cf.kpPosture)))
    (by rw [hB.posture]; exact ⟨trivial, fun _ _ e => (by cases e)⟩)
  have a2 := a1.task (tid := 0) (c := .posture (.setKd (Biped.damping n cf.kpPosture)))
    (by rw [hB.posture]; exact ⟨trivial, fun _ _ e => (by cases e)⟩)
  have a3 := a2.addMotion hB.wPosture (arm_addable hB a2 (tid := 0) (p := 1) (by rw [hB.posture]; rfl) (by decide)
    Nat.one_lt_two (fun _ _ _ _ hm => by cases hm) (arm_rows hB (by decide) (by
      intro _ c hm
      simp [taskCalls] at hm
      rcases hm with rfl | rfl <;> trivial) (fun h => by cases h)))
  have a4 := a3.task (tid := 1) (c := .se3 (.setKp (Biped.gain 6 cf.kpEe))) (by rw [hB.ee]; trivial)
  have a5 := a4.task (tid := 1) (c := .se3 (.setKd (Biped.damping 6 cf.kpEe))) (by rw [hB.ee]; trivial)
  have a6 := a5.task (tid := 1) (c := .se3 (.setMask g cf.eeMask)) (by rw [hB.ee]; exact hB.mask)
  have a7 := a6.task (tid := 1) (c := .se3 (.useLocalFrame cf.eeLocal)) (by rw [hB.ee]; trivial)
  have a8 := a7.addMotion hB.wEe (arm_addable hB a7 (tid := 1) (p := 1) (by rw [hB.ee]; rfl) (by decide)
    Nat.one_lt_two (by
      intro fam t p k hm
      simp only [List.nil_append, List.mem_singleton, Item.task.injEq] at hm
      obtain ⟨-, rfl, -⟩ := hm
      exact ⟨by decide, by decide⟩)
    (arm_rows hB (by decide) (fun h => absurd rfl h) (fun _ => by
      simp [eeSettings, taskCalls, se3?, FrameSettings.afterAll, FrameSettings.after, FrameSettings.fresh, Biped.gain,
        Biped.damping])))
  have a9 := a8.task (tid := 2) (c := .actBounds (.setBounds ⟨cf.tauMax.size, fun i => -cf.tauMax i⟩ cf.tauMax))
    (by rw [hB.torque]; trivial)
  simp only [List.nil_append, List.cons_append] at a9
  change Upto E W S (armHead cf kin g n q v) _ at a9
  have b1 : Upto E W S (armHead cf kin g n q v ++ (if 0 < cf.wTorque then [.form (.addActuationTask 2 cf.wTorque 0 0)] else []))
      ([.task .motion 0 1 cf.wPosture, .task .motion 1 1 cf.wEe] ++
        (if 0 < cf.wTorque then [.task .actuation 2 0 cf.wTorque] else [])) := by
    by_cases hw : 0 < cf.wTorque
    · rw [if_pos hw, if_pos hw]
      refine a9.addActuation hw.le (arm_addable hB a9 (tid := 2) (p := 0) (by rw [hB.torque]; rfl) (by decide)
        Nat.zero_lt_two ?_ (arm_rows hB (by decide) ?_ (fun h => by cases h)))
      · intro fam t p k hm
        simp only [List.mem_cons, List.not_mem_nil, or_false, Item.task.injEq] at hm
        omega
      · intro _ c hm
        simp [armHead, taskCalls] at hm
        subst hm
        trivial
    · rw [if_neg hw, if_neg hw, List.append_nil, List.append_nil]
      exact a9
  have b2 := b1.task (tid := 3) (c := .jointBounds (.setVelocityBounds ⟨cf.vMax.size, fun i => -cf.vMax i⟩ cf.vMax))
    (by rw [hB.joint]; exact fun v e => (by cases e))
  have b3 : Upto E W S (armHead cf kin g n q v ++ (if 0 < cf.wTorque then [.form (.addActuationTask 2 cf.wTorque 0 0)] else []) ++
      [.task 3 (.jointBounds (.setVelocityBounds ⟨cf.vMax.size, fun i => -cf.vMax i⟩ cf.vMax))] ++ (if 0 < cf.wJoint then [.form (.addMotionTask 3 cf.wJoint 0 0)] else [])) (armItems cf) := by
    unfold armItems
    by_cases hw : 0 < cf.wJoint
    · rw [if_pos hw, if_pos hw]
      refine b2.addMotion hw.le (arm_addable hB b2 (tid := 3) (p := 0) (by rw [hB.joint]; rfl) (by decide)
        Nat.zero_lt_two ?_ (arm_rows hB (by decide) ?_ (fun h => by cases h)))
      · intro fam t p k hm
        rcases List.mem_append.1 hm with hm | hm
        · simp only [List.mem_cons, List.not_mem_nil, or_false, Item.task.injEq] at hm
          omega
        · split at hm
          · simp only [List.mem_singleton, Item.task.injEq] at hm
            omega
          · cases hm
      · intro _ c hm
        by_cases h1 : 0 < cf.wTorque <;> simp [h1, armHead, taskCalls] at hm <;> subst hm <;> trivial
    · rw [if_neg hw, if_neg hw, List.append_nil, List.append_nil]
      exact b2
  have b4 := b3.task (tid := 0) (c := .posture (.setReference (EuclidianConstant.newWith q)))
    (by rw [hB.posture]; exact ⟨trivial, fun _ _ e => (by cases e)⟩)
  unfold Manipulator.build
  exact b4

theorem arm_item {fam : Family} {t p : Nat} {k : K} (h : Item.task fam t p k ∈ armItems cf) : t < 4 ∧ (p = 1 → t < 2) := by
  unfold armItems at h
  simp only [List.mem_append, List.mem_cons, List.not_mem_nil, or_false, Item.task.injEq] at h
  rcases h with ((⟨-, rfl, rfl, -⟩ | ⟨-, rfl, rfl, -⟩) | h) | h
  · omega
  · omega
  · split at h
    · simp only [List.mem_singleton, Item.task.injEq] at h; omega
    · cases h
  · split at h
    · simp only [List.mem_singleton, Item.task.injEq] at h; omega
    · cases h

theorem arm_free (n : Nat) (q v : Vec K) (cs : List (Manipulator.Call K)) {tid : Nat} (ht : tid < 4) (h1 : tid ≠ 1) :
    ∀ c ∈ taskCalls tid (Manipulator.text cf kin g n q v cs), MaskFree c := by
  obtain ⟨c0, c2, c3⟩ := arm_calls (cf := cf) (kin := kin) (g := g) n q v cs
  match tid, ht with
  | 0, _ =>
    rw [c0]
    intro c hm
    simp only [List.mem_cons, List.not_mem_nil, or_false] at hm
    rcases hm with rfl | rfl | rfl <;> trivial
  | 1, _ => exact absurd rfl h1
  | 2, _ =>
    rw [c2]
    intro c hm
    rw [List.mem_singleton.1 hm]
    trivial
  | 3, _ =>
    rw [c3]
    intro c hm
    rw [List.mem_singleton.1 hm]
    trivial

theorem arm_fine (hB : IsArm cf kin g E W S) {n : Nat} {q v : Vec K} {cs : List (Manipulator.Call K)}
    (h : Upto E W S (Manipulator.text cf kin g n q v cs) (armItems cf)) {c : Manipulator.Call K} (hc : ProperUse E.robot c) :
    S.Fine E W (Manipulator.text cf kin g n q v cs) (Manipulator.use kin c) := by
  cases c with
  | setEe r =>
    show (S.decl 1).Accepts E.robot _
    rw [hB.ee]
    exact hc
  | cycle t q' v' =>
    refine ⟨hB.snap q' v' hc.1, by rw [hB.config]; exact hc.2, ?_⟩
    intro fam tid p k hm
    rw [h.items] at hm
    have ht := (arm_item hm).1
    exact ⟨hB.kind tid ht, arm_rows hB ht (arm_free n q v cs ht) (fun _ => by rw [ee_settings]),
      arm_cases hB ht trivial (fun _ => trivial) trivial fun _ => trivial⟩

theorem arm_upto (hB : IsArm cf kin g E W S) {q v : Vec K} (hv : v.size = E.robot.nv) (hq : E.robot.na ≤ q.size) (n : Nat)
    {cs : List (Manipulator.Call K)} (hp : ∀ c ∈ cs, ProperUse E.robot c) :
    Upto E W S (Manipulator.text cf kin g n q v cs) (armItems cf) := by
  induction cs using List.reverseRecOn with
  | nil => rw [show Manipulator.text cf kin g n q v [] = Manipulator.build cf kin g n q v from List.append_nil _]; exact arm_build hB hv hq n
  | append_singleton cs c ih =>
    have ih := ih fun d hd => hp d (List.mem_append_left _ hd)
    have hf := arm_fine hB ih (hp c (List.mem_append_right _ List.mem_cons_self))
    rw [arm_snoc]
    cases c with
    | setEe r => exact ih.task hf
    | cycle t q' v' => exact ih.compute hf

/-- **C111, programs run.** A program that constructs the class and makes proper calls passes the check of its text: it runs
without undefined behaviour, exception or failed assertion of a cycle, and registered are the posture task, the task of the end
effector, and those of the limits that have a weight. -/
theorem C111_runs (hB : IsArm cf kin g E W S) {q v : Vec K} (hv : v.size = E.robot.nv) (hq : E.robot.na ≤ q.size)
    {cs : List (Manipulator.Call K)} (hp : ∀ c ∈ cs, ProperUse E.robot c) :
    Checked E W S (Manipulator.text cf kin g E.robot.nv q v cs) ∧
    (∃ s, Program.run E S.start (Manipulator.text cf kin g E.robot.nv q v cs) = some s) ∧
    (S.registered E W (Manipulator.text cf kin g E.robot.nv q v cs)).items = armItems cf := by
  have hu := arm_upto hB hv hq E.robot.nv hp
  obtain ⟨s, hs, -, -, hr⟩ := C107_runs hB.declared hu.checked
  exact ⟨hu.checked, ⟨s, hs⟩, by rw [hr, hu.items]⟩

/-! ## Exactly what the text asks for -/

theorem next_measured {nm : Nat → String} {b : Bool} {r : Registry K} {o : Formulation.Op K}
    (h : ∀ m, o ≠ .addMeasuredForce m) (hr : r.measured = []) : (r.next W nm b o).measured = [] := by
  cases o with
  | addMeasuredForce m => exact absurd rfl (h m)
  | removeMeasuredForce n => simp [Registry.next, hr]
  | removeRigidContact n d =>
    simp only [Registry.next]
    split
    · exact hr
    · split
      · split <;> exact hr
      · exact hr
  | compute w t =>
    simp only [Registry.next]
    split
    · exact hr
    · unfold Registry.expire
      split <;> exact hr
  | _ =>
    simp only [Registry.next]
    first
      | exact hr
      | (split <;> exact hr)

theorem noted_measured : ∀ ops : List (Program.Op K), (∀ m, .form (.addMeasuredForce m) ∉ ops) →
    (S.noted W ops).measured = [] := by
  intro ops
  induction ops using List.reverseRecOn with
  | nil => exact fun _ => rfl
  | append_singleton ops o ih =>
    intro h
    have ih := ih fun m hm => h m (List.mem_append_left _ hm)
    rw [noted_snoc]
    cases o with
    | form o =>
      refine next_measured (fun m e => h m ?_) ih
      rw [e]
      exact List.mem_append_right _ List.mem_cons_self
    | _ => exact ih

theorem arm_unmeasured (n : Nat) (q v : Vec K) (cs : List (Manipulator.Call K)) (m : Nat) :
    .form (.addMeasuredForce m) ∉ Manipulator.text cf kin g n q v cs := by
  intro h
  rcases List.mem_append.1 h with h | h
  · unfold Manipulator.build at h
    by_cases h1 : 0 < cf.wTorque <;> by_cases h2 : 0 < cf.wJoint <;> simp [h1, h2] at h
  · obtain ⟨c, -, e⟩ := List.mem_map.1 h
    cases c <;> cases e

theorem arm_cids : (armItems cf).filterMap Item.cid? = [] := by
  unfold armItems
  by_cases h1 : 0 < cf.wTorque <;> by_cases h2 : 0 < cf.wJoint <;> simp [h1, h2, Item.cid?]

/-- The principle of d'Alembert without contacts and measured forces, when every degree of freedom has a motor. -/
theorem balance_iff {n : Nat} {a b : Nat → K} :
    (∀ v : Nat → K, ∑ i ∈ range n, a i * v i = ∑ i ∈ range n, b i * v i) ↔ ∀ i, i < n → a i = b i := by
  constructor
  · intro h i hi
    have := h fun k => if k = i then 1 else 0
    simpa [hi] using this
  · intro h v
    exact sum_congr rfl fun i hi => by rw [h i (mem_range.1 hi)]

section
variable {q v q' v' : Vec K} {cs : List (Manipulator.Call K)} {t : K} {s0 : Program.State K}

/-- **C111, exactly.** A behaviour obeys the text of the program if and only if it obeys the equations of motion, the torque
limits and the velocity limits; and what the text asks to minimise is the cost of the two tasks. -/
theorem C111_exact (hB : IsArm cf kin g E W S) (hv : v.size = E.robot.nv) (hs : ArmSized cf E.robot q)
    (hp : ∀ c ∈ cs, ProperUse E.robot c) (b : Behaviour K) :
    (Intended E W S (Manipulator.text cf kin g E.robot.nv q v cs) (kin q' v') t b ↔ ArmObeys cf S (kin q' v') b.dv b.tau) ∧
    ∀ reg, S.aim E W (Manipulator.text cf kin g E.robot.nv q v cs) (kin q' v') t reg b =
      armAim reg cf E q (eeGoal cs.reverse) (kin q' v') b.dv := by
  have hu := arm_upto hB hv hs.motors.ge E.robot.nv hp
  obtain ⟨s, hr⟩ := reading_run hB.declared hu.checked
  have hreg := reading_registry hr t
  have hitems : (S.registry E W (Manipulator.text cf kin g E.robot.nv q v cs) t).items = armItems cf := by
    rw [hreg]; exact hu.items
  have hmeas : (S.registry E W (Manipulator.text cf kin g E.robot.nv q v cs) t).measured = [] := by
    rw [hreg]; exact noted_measured _ fun m => arm_unmeasured _ _ _ _ m
  have hcids : S.cids E W (Manipulator.text cf kin g E.robot.nv q v cs) t = [] := by
    unfold Setup.cids; rw [hitems, arm_cids]
  obtain ⟨c0, c2, c3⟩ := arm_calls (cf := cf) (kin := kin) (g := g) E.robot.nv q v cs
  have ce := ee_settings (cf := cf) (kin := kin) (g := g) E.robot.nv q v cs
  have hnv := hB.declared.nv
  have hna := hB.declared.na
  have hfix := hB.fixed
  generalize Manipulator.text cf kin g E.robot.nv q v cs = ops at *
  have p2 : (TorqueLimits.fresh (K := K) E.robot.na).afterAll E.robot.na ((taskCalls 2 ops).filterMap actBounds?) =
      ⟨⟨E.robot.na, fun _ => 1⟩, ⟨cf.tauMax.size, fun i => -cf.tauMax i⟩, cf.tauMax⟩ := by
    rw [c2]
    simp only [List.filterMap_cons, List.filterMap_nil, actBounds?, TorqueLimits.afterAll, TorqueLimits.after]
    have hc : countSelected (TorqueLimits.fresh (K := K) E.robot.na).mask E.robot.na = E.robot.na := count_ones _ _
    rw [if_pos ⟨by rw [hc]; exact hs.torque, by rw [hc]; exact hs.torque⟩]
    rfl
  have w2 : S.Wants E W ops (kin q' v') t b .actuation 2 ↔ ∀ i, i < S.robot.nv → |b.tau i| ≤ cf.tauMax i := by
    simp only [Setup.Wants, hB.torque, TaskDecl.Demands, Behaviour.part, p2, Selects, count_ones, and_true, abs_le]
    rw [← hnv, hfix]
  have w3 : S.Wants E W ops (kin q' v') t b .motion 3 ↔ ∀ i, i < S.robot.nv →
      |(kin q' v').v i + cf.dt * b.dv i| ≤ cf.vMax i ∧ |b.dv i| ≤ 10000000000 := by
    simp only [Setup.Wants, hB.joint, TaskDecl.Demands, Behaviour.part, c3, List.filterMap_cons, List.filterMap_nil,
      jointBounds?, BoundSettings.afterAll, BoundSettings.after]
    rw [if_pos ⟨hs.speed, hs.speed⟩]
    simp only [BoundSettings.Respected, hfix, Nat.sub_self, Nat.not_lt_zero, false_implies, implies_true, true_and, zero_add,
      abs_le, alone, BoundSettings.fresh]
    rw [← hnv, hfix]
    constructor
    · intro h i hi
      obtain ⟨h1, h2⟩ := h i hi
      exact ⟨h2, h1⟩
    · intro h i hi
      obtain ⟨h1, h2⟩ := h i hi
      exact ⟨h2, h1⟩
  refine ⟨⟨fun h => ⟨?_, ?_, ?_⟩, fun h => ⟨?_, ?_, ?_, ?_⟩⟩, fun reg => ?_⟩
  · have hd := h.dynamics
    unfold Setup.Balanced at hd
    rw [hcids, hmeas] at hd
    simp only [List.map_nil, List.sum_nil, add_zero] at hd
    rw [← hna, ← hfix, hnv, Nat.sub_self] at hd
    simp only [zero_add] at hd
    exact balance_iff.1 hd
  · intro hw
    exact w2.1 (h.task .actuation 2 cf.wTorque (by rw [hitems]; simp [armItems, hw]))
  · intro hw
    exact w3.1 (h.task .motion 3 cf.wJoint (by rw [hitems]; simp [armItems, hw]))
  · unfold Setup.Balanced
    rw [hcids, hmeas]
    simp only [List.map_nil, List.sum_nil, add_zero]
    rw [← hna, ← hfix, hnv, Nat.sub_self]
    simp only [zero_add]
    exact balance_iff.2 h.dynamics
  · intro fam tid k hm
    rw [hitems] at hm
    unfold armItems at hm
    simp only [List.mem_append, List.mem_cons, List.not_mem_nil, or_false, Item.task.injEq] at hm
    rcases hm with ((⟨-, -, h0, -⟩ | ⟨-, -, h0, -⟩) | hm) | hm
    · cases h0
    · cases h0
    · split at hm
      · next hw =>
        simp only [List.mem_singleton, Item.task.injEq] at hm
        obtain ⟨rfl, rfl, -⟩ := hm
        exact w2.2 (h.torque hw)
      · cases hm
    · split at hm
      · next hw =>
        simp only [List.mem_singleton, Item.task.injEq] at hm
        obtain ⟨rfl, rfl, -⟩ := hm
        exact w3.2 (h.speed hw)
      · cases hm
  · intro cid wm wf hm
    rw [hitems] at hm
    have : cid ∈ (armItems cf).filterMap Item.cid? := List.mem_filterMap.2 ⟨_, hm, rfl⟩
    rw [arm_cids] at this
    cases this
  · intro cid p wm wf hm
    rw [hitems] at hm
    have : cid ∈ (armItems cf).filterMap Item.cid? := List.mem_filterMap.2 ⟨_, hm, rfl⟩
    rw [arm_cids] at this
    cases this
  · have m0 : S.miss E W ops (kin q' v') t b .motion 0 = ∑ j ∈ range E.robot.nv,
        (b.dv j + cf.kpPosture * E.robot.difference q (kin q' v').q j + critical cf.kpPosture * (kin q' v').v j) ^ 2 := by
      simp only [Setup.miss, hB.posture, TaskDecl.Error, c0, List.filterMap_cons, List.filterMap_nil, posture?,
        PostureSettings.afterAll, PostureSettings.after, Behaviour.part, alone]
      rw [if_pos (show (Biped.gain E.robot.nv cf.kpPosture).size = E.robot.na from hfix),
        if_pos (show (Biped.damping E.robot.nv cf.kpPosture).size = E.robot.na from hfix),
        if_pos ⟨show (EuclidianConstant.newWith q).pos.size = _ from hs.joints, hs.motors, hs.motors⟩]
      simp only [selected, PostureSettings.fresh, if_true, PostureSettings.law, PostureSettings.target, hB.joints,
        Nat.sub_self, Nat.not_lt_zero, if_false, Nat.sub_zero]
      rw [← hfix]
      refine sum_congr rfl fun j _ => ?_
      rw [Nat.sub_self, zero_add]
      have hq : (⟨E.robot.nqa, fun i => (EuclidianConstant.newWith q).pos i⟩ : Vec K) = q := by
        rw [← hs.joints]
        rfl
      rw [hq]
      have z1 : (EuclidianConstant.newWith q).vel j = 0 := rfl
      have z2 : (EuclidianConstant.newWith q).acc j = 0 := rfl
      have z3 : (Biped.gain E.robot.nv cf.kpPosture) j = cf.kpPosture := rfl
      have z4 : (Biped.damping E.robot.nv cf.kpPosture) j = critical cf.kpPosture := rfl
      rw [z1, z2, z3, z4]
      ring
    have m1 : S.miss E W ops (kin q' v') t b .motion 1 = selected cf.eeMask fun i =>
        (eeSettings ops).achieved E.robot.nv ((kin q' v').frame cf.frame) b.dv i -
          (eeSettings ops).law E.log3 ((kin q' v').frame cf.frame) i := by
      simp only [Setup.miss, hB.ee, TaskDecl.Error, Behaviour.part, alone]
      rw [show (FrameSettings.fresh (K := K)).afterAll ((taskCalls 1 ops).filterMap se3?) = eeSettings ops from rfl, ce]
    have hl : S.losses E W ops (kin q' v') t b = armCost cf E q (eeGoal cs.reverse) (kin q' v') b.dv := by
      unfold Setup.losses armCost
      rw [hitems]
      have e0 : ((armItems cf).map (S.loss E W ops (kin q' v') t b)).sum =
          cf.wPosture * S.miss E W ops (kin q' v') t b .motion 0 + cf.wEe * S.miss E W ops (kin q' v') t b .motion 1 := by
        unfold armItems
        by_cases h1 : 0 < cf.wTorque <;> by_cases h2 : 0 < cf.wJoint <;> simp [h1, h2, Setup.loss]
      rw [e0, m0, m1, ce]
      simp only [selected, hB.mask.1]
    unfold Setup.aim armAim
    rw [hl]
    unfold Setup.effort
    rw [hcids, ← hnv]
    simp only [List.map_nil, List.sum_nil, add_zero]

theorem armBest_of {R C : Type} {D : Solve.Driver K R C} {u0 : Solve.Object K R} {Sat : R → (Nat → K) → Prop}
    {Success : Solve.Answer C K → Prop} {reg : Bool} {s : Program.State K} {goal : Goal K} {w : Snapshot K} (hB : IsArm cf kin g E W S)
    (he : ∀ b, (Intended E W S ops w t b ↔ ArmObeys cf S w b.dv b.tau) ∧
      ∀ reg, S.aim E W ops w t reg b = armAim reg cf E q goal w b.dv)
    (h : Fulfils D u0 Sat Success reg E W S ops w t s) : ArmBest D u0 Sat Success reg cf E S q goal w s := by
  intro hist u h1 h2 fresh freshI engine h3
  obtain ⟨u', e, b, hb, h4⟩ := h hist u h1 h2 fresh freshI engine h3
  refine ⟨u', e, b.dv, b.tau, ⟨hb.dv, ?_⟩, fun hs => ?_⟩
  · have := hb.tau
    rwa [← hB.declared.na, ← hB.fixed, hB.declared.nv] at this
  · obtain ⟨h5, h6, h7⟩ := h4 hs
    refine ⟨h5, (he b).1.1 h6, fun dv' tau' ho => ?_⟩
    have := h7 ⟨dv', tau', b.force⟩ ((he ⟨dv', tau', b.force⟩).1.2 ho)
    rwa [(he b).2, (he ⟨dv', tau', b.force⟩).2] at this

/-- **C111, with the solver (partial).** After every control cycle, every back-end whose external solver keeps its promises and
succeeds delivers the best accelerations and torques that the arm may have: they obey the equations of motion, the torque limits
and the velocity limits, and nothing that does so is closer to what posture task and task of the end effector ask for.
Missing: as in `C99_best_partial`. -/
theorem C111_best_partial (hB : IsArm cf kin g E W S) (hv : v.size = E.robot.nv) (hs : ArmSized cf E.robot q)
    (hp : ∀ c ∈ cs, ProperUse E.robot c) (hc : ProperUse E.robot (.cycle t q' v'))
    (b : Bool) (t0 : Status.HQPStatus) (i : Int) (x : Solve.Objective K) :
    ∃ s, Program.run E S.start (Manipulator.text cf kin g E.robot.nv q v (cs ++ [.cycle t q' v'])) = some s ∧
      ArmBest Solve.eiq (Solve.Eiq.init t0 i x) EiqSat (fun a => ∃ w, a.objective = .num w) true cf E S q
        (eeGoal cs.reverse) (kin q' v') s ∧
      ArmBest Solve.fast (Solve.Eiq.init t0 i x) EiqSat (fun a => a.code = .optimal) true cf E S q
        (eeGoal cs.reverse) (kin q' v') s ∧
      (∀ fresh freshI neq nin, (problem s.form).head?.map Solver.count = some (neq, nin) →
        ArmBest Solve.rt (Solve.Rt.init fresh freshI (nVar s.form) neq nin t0 i x) EiqSat (fun a => a.code = .optimal) true
          cf E S q (eeGoal cs.reverse) (kin q' v') s) ∧
      ArmBest Solve.prox (Solve.Prox.init t0 i x) ProxSat (fun a => a.code = .solved) false cf E S q
        (eeGoal cs.reverse) (kin q' v') s ∧
      ArmBest Solve.osqp (Solve.Osqp.init t0 i x) OsqpSat (fun a => a.code = .solved) false cf E S q
        (eeGoal cs.reverse) (kin q' v') s ∧
      ArmBest Solve.mad (Solve.Mad.init b t0 i x) MadSat (fun a => a.code = .ok) true cf E S q
        (eeGoal cs.reverse) (kin q' v') s := by
  have hu := arm_upto hB hv hs.motors.ge E.robot.nv hp
  have he := C111_exact (t := t) (q' := q') (v' := v') hB hv hs hp
  obtain ⟨s0, h⟩ := reading_run hB.declared hu.checked
  have hm := fine_may hB.declared h (arm_fine hB hu hc)
  obtain ⟨s, e⟩ := C92_returns h.good hm.1 hm.2 (checked_abrupt hu.checked)
  have hitems : (S.registry E W (Manipulator.text cf kin g E.robot.nv q v cs) t).items = armItems cf := by
    rw [reading_registry h t]; exact hu.items
  have hn : NoGradualRemoval (Manipulator.text cf kin g E.robot.nv q v cs) := checked_abrupt hu.checked
  obtain ⟨k1, k2, k3, k4, k5, k6⟩ := C99_best_partial h.good hm.1 hm.2 e hn
    (by
      intro fam tid k hm
      rw [hitems] at hm
      exact arm_cases hB (P := fun d => d.Upright (kin q' v')) (arm_item hm).1 trivial (fun _ => trivial) trivial fun _ => trivial)
    (by
      intro fam tid k dt hm hd
      rw [hitems] at hm
      revert hd
      exact arm_cases hB (P := fun d => d = .posVelAcc dt → _) (arm_item hm).1 (fun e => by cases e) (fun _ e => by cases e)
        (fun e => by cases e) fun _ e => by cases e)
    (by
      intro fam tid k hm
      rw [hitems] at hm
      have := (arm_item hm).2 rfl
      match tid, this with
      | 0, _ => rw [hB.posture]; rfl
      | 1, _ => rw [hB.ee]; rfl)
    b t0 i x
  refine ⟨s, ?_, armBest_of hB he k1, armBest_of hB he k2, fun fresh freshI neq nin hh => armBest_of hB he (k3 fresh freshI neq nin hh),
    armBest_of hB he k4, armBest_of hB he k5, armBest_of hB he k6⟩
  rw [arm_snoc]
  have hg := good_snoc h.good hm (fine_orderly h (arm_fine hB hu hc)) (s1 := s)
    (by simp only [Manipulator.use, Program.step, e]; rfl)
  exact hg.run

/-- **C111, a surprise.** Until the first reference is set, the task of the end effector asks it to go to the origin of the world,
although the constructor builds a trajectory that stays where the end effector is. -/
theorem C111_origin (hn : ∀ r, .setEe r ∉ cs) :
    eeSettings (Manipulator.text cf kin g E.robot.nv q v cs) = ⟨cf.eeMask, ⟨6, fun _ => cf.kpEe⟩, ⟨6, fun _ => critical cf.kpEe⟩,
      ⟨M3.one, ⟨0, 0, 0⟩⟩, ⟨⟨0, 0, 0⟩, ⟨0, 0, 0⟩⟩, ⟨⟨0, 0, 0⟩, ⟨0, 0, 0⟩⟩, cf.eeLocal⟩ := by
  have hg : ∀ l : List (Manipulator.Call K), (∀ r, .setEe r ∉ l) → eeGoal l = eeGoal [] := by
    intro l hl
    induction l with
    | nil => rfl
    | cons c l ih =>
      have ih := ih fun r h => hl r (List.mem_cons_of_mem _ h)
      cases c with
      | setEe r => exact absurd List.mem_cons_self (hl r)
      | cycle t q v => exact ih
  rw [ee_settings, hg _ fun r h => hn r (List.mem_reverse.1 h)]
  rfl

/-! ## Uniqueness -/

/-- The acceleration of the frame is affine in the accelerations of the joints. -/
theorem achieved_mid (p : FrameSettings K) (n : Nat) (k : FrameKin K) (a b : Nat → K) {i : Nat} (hi : i < 6) :
    2 * p.achieved n k (fun j => (a j + b j) / 2) i = p.achieved n k a i + p.achieved n k b i := by
  have hs : ∀ f : Nat → K, ∑ c ∈ range n, f c * ((a c + b c) / 2) =
      (∑ c ∈ range n, f c * a c + ∑ c ∈ range n, f c * b c) / 2 := by
    intro f
    rw [← sum_add_distrib, div_eq_mul_inv, sum_mul]
    exact sum_congr rfl fun c _ => by ring
  unfold FrameSettings.achieved
  split
  · simp only [motionAcc, hs]
    match i, hi with
    | 0, _ => simp only [Motion.get, V3.get, Nat.reduceLT, Nat.reduceSub, Nat.lt_irrefl, Nat.zero_lt_succ, if_true, if_false]; ring
    | 1, _ => simp only [Motion.get, V3.get, Nat.reduceLT, Nat.reduceSub, Nat.lt_irrefl, Nat.zero_lt_succ, if_true, if_false]; ring
    | 2, _ => simp only [Motion.get, V3.get, Nat.reduceLT, Nat.reduceSub, Nat.lt_irrefl, Nat.zero_lt_succ, if_true, if_false]; ring
    | 3, _ => simp only [Motion.get, V3.get, Nat.reduceLT, Nat.reduceSub, Nat.lt_irrefl, Nat.zero_lt_succ, if_true, if_false]; ring
    | 4, _ => simp only [Motion.get, V3.get, Nat.reduceLT, Nat.reduceSub, Nat.lt_irrefl, Nat.zero_lt_succ, if_true, if_false]; ring
    | 5, _ => simp only [Motion.get, V3.get, Nat.reduceLT, Nat.reduceSub, Nat.lt_irrefl, Nat.zero_lt_succ, if_true, if_false]; ring
  · simp only [motionAcc, hs, rotate, M3.mulVec, V3.dot]
    match i, hi with
    | 0, _ => simp only [Motion.get, V3.get, Nat.reduceLT, Nat.reduceSub, Nat.lt_irrefl, Nat.zero_lt_succ, if_true, if_false]; ring
    | 1, _ => simp only [Motion.get, V3.get, Nat.reduceLT, Nat.reduceSub, Nat.lt_irrefl, Nat.zero_lt_succ, if_true, if_false]; ring
    | 2, _ => simp only [Motion.get, V3.get, Nat.reduceLT, Nat.reduceSub, Nat.lt_irrefl, Nat.zero_lt_succ, if_true, if_false]; ring
    | 3, _ => simp only [Motion.get, V3.get, Nat.reduceLT, Nat.reduceSub, Nat.lt_irrefl, Nat.zero_lt_succ, if_true, if_false]; ring
    | 4, _ => simp only [Motion.get, V3.get, Nat.reduceLT, Nat.reduceSub, Nat.lt_irrefl, Nat.zero_lt_succ, if_true, if_false]; ring
    | 5, _ => simp only [Motion.get, V3.get, Nat.reduceLT, Nat.reduceSub, Nat.lt_irrefl, Nat.zero_lt_succ, if_true, if_false]; ring

theorem obeys_mid {w : Snapshot K} {a ta b tb : Nat → K} (ha : ArmObeys cf S w a ta) (hb : ArmObeys cf S w b tb) :
    ArmObeys cf S w (fun j => (a j + b j) / 2) (fun j => (ta j + tb j) / 2) where
  dynamics := by
    intro i hi
    have h1 := ha.dynamics i hi
    have h2 := hb.dynamics i hi
    have : ∑ j ∈ range S.robot.nv, S.robot.mass w.M i j * ((a j + b j) / 2) =
        (∑ j ∈ range S.robot.nv, S.robot.mass w.M i j * a j + ∑ j ∈ range S.robot.nv, S.robot.mass w.M i j * b j) / 2 := by
      rw [← sum_add_distrib, div_eq_mul_inv, sum_mul]
      exact sum_congr rfl fun c _ => by ring
    rw [this, ← h1, ← h2]
    ring
  torque := by
    intro hw i hi
    have h1 := abs_le.1 (ha.torque hw i hi)
    have h2 := abs_le.1 (hb.torque hw i hi)
    exact abs_le.2 ⟨by linarith [h1.1, h2.1], by linarith [h1.2, h2.2]⟩
  speed := by
    intro hw i hi
    obtain ⟨h1, h3⟩ := ha.speed hw i hi
    obtain ⟨h2, h4⟩ := hb.speed hw i hi
    have h1 := abs_le.1 h1
    have h2 := abs_le.1 h2
    have h3 := abs_le.1 h3
    have h4 := abs_le.1 h4
    have e : w.v i + cf.dt * ((a i + b i) / 2) = ((w.v i + cf.dt * a i) + (w.v i + cf.dt * b i)) / 2 := by ring
    rw [e]
    exact ⟨abs_le.2 ⟨by linarith [h1.1, h2.1], by linarith [h1.2, h2.2]⟩, abs_le.2 ⟨by linarith [h3.1, h4.1], by linarith [h3.2, h4.2]⟩⟩

/-- Squares are convex. -/
theorem square_mid {x y m : K} (h : 2 * m = x + y) : 2 * m ^ 2 = x ^ 2 + y ^ 2 - 1 / 2 * (x - y) ^ 2 := by
  have : m = (x + y) / 2 := by linarith
  rw [this]
  ring

theorem aim_mid {reg : Bool} {w : Snapshot K} {goal : Goal K} (hB : IsArm cf kin g E W S) (a b : Nat → K) :
    2 * armAim reg cf E q goal w (fun j => (a j + b j) / 2) ≤ armAim reg cf E q goal w a + armAim reg cf E q goal w b -
      1 / 4 * cf.wPosture * ∑ j ∈ range E.robot.nv, (a j - b j) ^ 2 := by
  have hpost : 2 * ∑ j ∈ range E.robot.nv, ((a j + b j) / 2 + cf.kpPosture * E.robot.difference q w.q j +
        critical cf.kpPosture * w.v j) ^ 2 =
      ∑ j ∈ range E.robot.nv, (a j + cf.kpPosture * E.robot.difference q w.q j + critical cf.kpPosture * w.v j) ^ 2 +
      ∑ j ∈ range E.robot.nv, (b j + cf.kpPosture * E.robot.difference q w.q j + critical cf.kpPosture * w.v j) ^ 2 -
      1 / 2 * ∑ j ∈ range E.robot.nv, (a j - b j) ^ 2 := by
    rw [mul_sum, mul_sum, ← sum_add_distrib, ← sum_sub_distrib]
    exact sum_congr rfl fun j _ => by ring
  have hreg : 2 * ∑ j ∈ range E.robot.nv, ((a j + b j) / 2) ^ 2 ≤ ∑ j ∈ range E.robot.nv, a j ^ 2 + ∑ j ∈ range E.robot.nv, b j ^ 2 := by
    rw [mul_sum, ← sum_add_distrib]
    refine sum_le_sum fun j _ => ?_
    nlinarith [sq_nonneg (a j - b j)]
  have hee : ∀ p : FrameSettings K, 2 * ∑ i ∈ range 6, (if cf.eeMask i = 1 then
        (p.achieved E.robot.nv (w.frame cf.frame) (fun j => (a j + b j) / 2) i - p.law E.log3 (w.frame cf.frame) i) ^ 2 else 0) ≤
      ∑ i ∈ range 6, (if cf.eeMask i = 1 then
        (p.achieved E.robot.nv (w.frame cf.frame) a i - p.law E.log3 (w.frame cf.frame) i) ^ 2 else 0) +
      ∑ i ∈ range 6, (if cf.eeMask i = 1 then
        (p.achieved E.robot.nv (w.frame cf.frame) b i - p.law E.log3 (w.frame cf.frame) i) ^ 2 else 0) := by
    intro p
    rw [mul_sum, ← sum_add_distrib]
    refine sum_le_sum fun i hi => ?_
    split
    · have h := achieved_mid p E.robot.nv (w.frame cf.frame) a b (mem_range.1 hi)
      have := square_mid (x := p.achieved E.robot.nv (w.frame cf.frame) a i - p.law E.log3 (w.frame cf.frame) i)
        (y := p.achieved E.robot.nv (w.frame cf.frame) b i - p.law E.log3 (w.frame cf.frame) i)
        (m := p.achieved E.robot.nv (w.frame cf.frame) (fun j => (a j + b j) / 2) i - p.law E.log3 (w.frame cf.frame) i)
        (by linarith)
      rw [this]
      linarith [sq_nonneg ((p.achieved E.robot.nv (w.frame cf.frame) a i - p.law E.log3 (w.frame cf.frame) i) -
        (p.achieved E.robot.nv (w.frame cf.frame) b i - p.law E.log3 (w.frame cf.frame) i))]
    · simp
  have he := mul_le_mul_of_nonneg_left (hee ⟨cf.eeMask, ⟨6, fun _ => cf.kpEe⟩, ⟨6, fun _ => critical cf.kpEe⟩, goal.pose,
    goal.vel, goal.acc, cf.eeLocal⟩) hB.wEe
  have hr := mul_le_mul_of_nonneg_left hreg (le_of_lt (defaultReg_pos (K := K)))
  have hp := congrArg (fun x => cf.wPosture * x) hpost
  unfold armAim armCost
  cases reg
  · simp only [Bool.false_eq_true, if_false]
    linarith
  · simp only [if_true]
    linarith

/-- **C111, uniqueness.** If the posture task has a weight, there is at most one best pair of accelerations and torques, with or
without the regularisation of the back-end. -/
theorem C111_unique (hB : IsArm cf kin g E W S) (hw : 0 < cf.wPosture) {reg : Bool} {w : Snapshot K} {goal : Goal K}
    {a ta b tb : Nat → K} (ha : ArmObeys cf S w a ta) (hb : ArmObeys cf S w b tb)
    (ha' : ∀ dv tau, ArmObeys cf S w dv tau → armAim reg cf E q goal w a ≤ armAim reg cf E q goal w dv)
    (hb' : ∀ dv tau, ArmObeys cf S w dv tau → armAim reg cf E q goal w b ≤ armAim reg cf E q goal w dv) :
    ∀ i, i < S.robot.nv → a i = b i ∧ ta i = tb i := by
  have hm := obeys_mid ha hb
  have h1 := ha' _ _ hm
  have h2 := hb' _ _ hm
  have h3 := aim_mid (q := q) (goal := goal) (reg := reg) (w := w) hB a b
  have h4 : cf.wPosture * ∑ j ∈ range E.robot.nv, (a j - b j) ^ 2 ≤ 0 := by linarith
  have h5 : ∑ j ∈ range E.robot.nv, (a j - b j) ^ 2 = 0 := by
    have h0 : 0 ≤ ∑ j ∈ range E.robot.nv, (a j - b j) ^ 2 := sum_nonneg fun j _ => sq_nonneg _
    by_contra hne
    have := mul_pos hw (lt_of_le_of_ne h0 (Ne.symm hne))
    linarith
  have h6 : ∀ i, i < S.robot.nv → a i = b i := by
    intro i hi
    have := (sum_eq_zero_iff_of_nonneg fun j _ => sq_nonneg (a j - b j)).1 h5 i (mem_range.2 (by rw [hB.declared.nv]; exact hi))
    exact sub_eq_zero.1 (pow_eq_zero_iff (two_ne_zero) |>.1 this)
  refine fun i hi => ⟨h6 i hi, ?_⟩
  rw [← ha.dynamics i hi, ← hb.dynamics i hi]
  congr 1
  exact sum_congr rfl fun j hj => by rw [h6 j (mem_range.1 hj)]

/-- **C111, undisturbed joints.** If the accelerations that bring the joints back to the reference configuration with critical
damping also do what the task of the end effector asks for, and the limits allow them, then a back-end without regularisation
delivers exactly these accelerations. -/
theorem C111_nominal (hB : IsArm cf kin g E W S) (hw : 0 < cf.wPosture) {w : Snapshot K} {goal : Goal K} {a ta : Nat → K}
    (ha : ArmObeys cf S w a ta)
    (ha' : ∀ dv tau, ArmObeys cf S w dv tau → armAim false cf E q goal w a ≤ armAim false cf E q goal w dv)
    {tb : Nat → K} (hb : ArmObeys cf S w (fun j => -(cf.kpPosture * E.robot.difference q w.q j) - critical cf.kpPosture * w.v j) tb)
    (he : let p : FrameSettings K := ⟨cf.eeMask, ⟨6, fun _ => cf.kpEe⟩, ⟨6, fun _ => critical cf.kpEe⟩, goal.pose, goal.vel,
        goal.acc, cf.eeLocal⟩
      ∀ i, i < 6 → cf.eeMask i = 1 → p.achieved E.robot.nv (w.frame cf.frame)
        (fun j => -(cf.kpPosture * E.robot.difference q w.q j) - critical cf.kpPosture * w.v j) i =
          p.law E.log3 (w.frame cf.frame) i) :
    ∀ i, i < S.robot.nv → a i = -(cf.kpPosture * E.robot.difference q w.q i) - critical cf.kpPosture * w.v i := by
  have z : armAim false cf E q goal w (fun j => -(cf.kpPosture * E.robot.difference q w.q j) - critical cf.kpPosture * w.v j) = 0 := by
    simp only [armAim, armCost, Bool.false_eq_true, if_false, add_zero]
    rw [sum_eq_zero (fun j _ => by ring), sum_eq_zero (fun i hi => ?_)]
    · ring
    · split
      · next h => rw [he i (mem_range.1 hi) h, sub_self]; ring
      · rfl
  have nn : ∀ dv, 0 ≤ armAim false cf E q goal w dv := by
    intro dv
    simp only [armAim, armCost, Bool.false_eq_true, if_false, add_zero]
    refine mul_nonneg (by norm_num) (add_nonneg (mul_nonneg hw.le (sum_nonneg fun j _ => sq_nonneg _))
      (mul_nonneg hB.wEe (sum_nonneg fun i _ => ?_)))
    split
    · exact sq_nonneg _
    · exact le_refl _
  exact fun i hi => (C111_unique hB hw ha hb ha' (fun dv tau _ => by rw [z]; exact nn dv) i hi).1

/-! ## Exceptions -/

/-- **C111, exceptions.** A program that constructs an object of the class and makes proper calls on it, and catches no exception,
comes to its end exactly when the limits of the model and the reference configuration have the right sizes and every reference of
the end effector has twelve entries. -/
theorem C111_exceptions (hB : IsArm cf kin g E W S) (hv : v.size = E.robot.nv) (hq : E.robot.na ≤ q.size)
    (hp : ∀ c ∈ cs, ProperUse E.robot c) :
    (∃ s, uncaught E S.start (Manipulator.text cf kin g E.robot.nv q v cs) = some s) ↔
      ArmSized cf E.robot q ∧ ∀ r, .setEe r ∈ cs → r.pos.size = 12 := by
  have hu := arm_upto hB hv hq E.robot.nv hp
  rw [(C109_uncaught hB.declared hu.checked).1]
  have tq : ∀ {pre post : List (Program.Op K)} {o : Program.Op K},
      Manipulator.text cf kin g E.robot.nv q v cs = pre ++ o :: post → ∀ {l u : Vec K},
      S.Refuses E pre (.task 2 (.actBounds (.setBounds l u))) ↔ l.size ≠ E.robot.na ∨ u.size ≠ E.robot.na := by
    intro pre post o e l u
    have hfree : ∀ c ∈ taskCalls 2 pre, MaskFree c := by
      intro c hc
      refine arm_free (cf := cf) (kin := kin) (g := g) E.robot.nv q v cs (by decide) (by decide) c (tid := 2) ?_
      rw [e, taskCalls_append]
      exact List.mem_append_left _ hc
    show (S.decl 2).Refuses E.robot _ _ ↔ _
    rw [hB.torque]
    simp only [TaskDecl.Refuses]
    rw [torque_masks _ _ hfree, show (TorqueLimits.fresh (K := K) E.robot.na).mask = ⟨E.robot.na, fun _ => 1⟩ from rfl,
      count_ones]
  constructor
  · intro h
    have pick : ∀ {o}, o ∈ Manipulator.text cf kin g E.robot.nv q v cs →
        ∃ pre post, Manipulator.text cf kin g E.robot.nv q v cs = pre ++ o :: post ∧ ¬ S.Refuses E pre o := by
      intro o ho
      obtain ⟨pre, post, e⟩ := List.append_of_mem ho
      exact ⟨pre, post, e, h pre o post e⟩
    have htask : ∀ {tid : Nat} {c : TaskCall K} {d : TaskDecl K}, S.decl tid = d →
        .task tid c ∈ Manipulator.text cf kin g E.robot.nv q v cs → ∃ pre, ¬ d.Refuses E.robot (taskCalls tid pre) c := by
      rintro tid c d rfl ho
      obtain ⟨pre, -, -, h⟩ := pick ho
      exact ⟨pre, h⟩
    obtain ⟨_, r⟩ := htask hB.posture (c := .posture (.setReference (EuclidianConstant.newWith q)))
      (List.mem_append_left _ (by simp [Manipulator.build]))
    obtain ⟨_, w⟩ := htask hB.joint (c := .jointBounds (.setVelocityBounds ⟨cf.vMax.size, fun i => -cf.vMax i⟩ cf.vMax))
      (List.mem_append_left _ (by simp [Manipulator.build]))
    obtain ⟨pre, post, e, tr⟩ := pick (o := .task 2 (.actBounds (.setBounds ⟨cf.tauMax.size, fun i => -cf.tauMax i⟩ cf.tauMax)))
      (List.mem_append_left _ (by simp [Manipulator.build]))
    rw [tq e] at tr
    simp only [TaskDecl.Refuses, not_or, not_not] at r tr w
    refine ⟨⟨tr.2, w.2, r.1, r.2.1⟩, fun a ha => ?_⟩
    obtain ⟨_, k⟩ := htask hB.ee (c := .se3 (.setReference a))
      (List.mem_append_right _ (List.mem_map.2 ⟨.setEe a, ha, rfl⟩))
    simpa only [TaskDecl.Refuses, not_not] using k
  · rintro ⟨hs, hr⟩ pre o post e
    have htask : ∀ tid c d, S.decl tid = d → ¬ d.Refuses E.robot (taskCalls tid pre) c → ¬ S.Refuses E pre (.task tid c) := by
      rintro tid c d rfl h
      exact h
    have hadd : ∀ {k : K}, 0 ≤ k → ¬ (k < 0 ∨ (0 : K) < 0) := fun hk h => h.elim (not_lt.2 hk) (lt_irrefl _)
    have ho : o ∈ Manipulator.text cf kin g E.robot.nv q v cs := by rw [e]; simp
    rcases List.mem_append.1 ho with ho | ho
    · revert o
      intro o e _ ho
      have all : ∀ o ∈ Manipulator.build cf kin g E.robot.nv q v, ¬ S.Refuses E pre o := by
        simp only [Manipulator.build, List.forall_mem_append, List.forall_mem_cons]
        refine ⟨⟨⟨⟨⟨id, htask _ _ _ hB.posture (fun h => h hB.fixed), htask _ _ _ hB.posture (fun h => h hB.fixed),
          hadd hB.wPosture, htask _ _ _ hB.ee (fun h => h rfl), htask _ _ _ hB.ee (fun h => h rfl), htask _ _ _ hB.ee id,
          htask _ _ _ hB.ee id, hadd hB.wEe, ?_, by simp⟩, ?_⟩,
          htask _ _ _ hB.joint (fun h => h.elim (fun h => h hs.speed) (fun h => h hs.speed)), by simp⟩, ?_⟩,
          htask _ _ _ hB.posture ?_, by simp⟩
        · rw [tq e]
          exact fun h => h.elim (fun h => h hs.torque) (fun h => h hs.torque)
        · split
          · next h => rw [List.forall_mem_singleton]; exact hadd h.le
          · simp
        · split
          · next h => rw [List.forall_mem_singleton]; exact hadd h.le
          · simp
        · rintro (h | h | h)
          · exact h hs.joints
          · exact h hs.motors
          · exact h hs.motors
      exact all o ho
    · obtain ⟨c, hc, rfl⟩ := List.mem_map.1 ho
      cases c with
      | setEe r => exact htask _ _ _ hB.ee (fun h => h (hr r hc))
      | cycle t q' v' => exact id

end

/-! ## The loop of the exercise -/

section
variable {ref : K → Sample K} {dt : K} {qs vs : Nat → Vec K} {N : Nat}

theorem timeAt_eq (dt : K) (i : Nat) : Manipulator.timeAt dt i = i * dt := by
  induction i with
  | zero => simp [Manipulator.timeAt]
  | succ i ih => rw [Manipulator.timeAt, ih]; push_cast; ring

theorem loop_mem {c : Manipulator.Call K} : c ∈ Manipulator.loop ref dt qs vs N ↔
    ∃ i, i < N ∧ (c = .setEe (ref (i * dt)) ∨ c = .cycle (i * dt) (qs i) (vs i)) := by
  simp only [Manipulator.loop, List.mem_flatMap, List.mem_range, List.mem_cons, List.not_mem_nil, or_false, timeAt_eq]

theorem loop_succ : Manipulator.loop ref dt qs vs (N + 1) =
    Manipulator.loop ref dt qs vs N ++ [.setEe (ref (N * dt))] ++ [.cycle (N * dt) (qs N) (vs N)] := by
  simp [Manipulator.loop, List.range_succ, timeAt_eq]

/-- **C111, the loop.** The loop of the exercise with the sinusoidal reference comes to its end without exceptions if the sizes are
right, whatever the solver answers; and step `N` asks the end effector to be, at the time of the step, on the sinusoid, with the
orientation of the world. -/
theorem C111_loop (hB : IsArm cf kin g E W S) {q v : Vec K} (hv : v.size = E.robot.nv) (hs : ArmSized cf E.robot q)
    (sn cn : K → K) (p0 : V3 K) (r : Manipulator.Wave K) (hq : ∀ i, i < N → (vs i).size = E.robot.nv ∧ E.robot.na ≤ (qs i).size) :
    (∃ s, uncaught E S.start (Manipulator.text cf kin g E.robot.nv q v
      (Manipulator.loop (Manipulator.wave sn cn p0 r) dt qs vs N)) = some s) ∧
    let G : Goal K := eeGoal (Manipulator.loop (Manipulator.wave sn cn p0 r) dt qs vs N ++
      [Manipulator.Call.setEe (Manipulator.wave sn cn p0 r (N * dt))]).reverse
    let ph := fun i => r.twoPiF.get i * (N * dt) + r.phi.get i
    G.pose.rot = M3.one ∧ ∀ i, i < 3 →
      G.pose.trans.get i = p0.get i + r.amp.get i * sn (ph i) ∧
      G.vel.lin.get i = r.twoPiF.get i * r.amp.get i * cn (ph i) ∧ G.vel.ang.get i = 0 ∧
      G.acc.lin.get i = -(r.twoPiF.get i ^ 2 * r.amp.get i * sn (ph i)) ∧ G.acc.ang.get i = 0 := by
  refine ⟨?_, ?_⟩
  · refine (C111_exceptions hB hv hs.motors.ge ?_).2 ⟨hs, ?_⟩
    · intro c hc
      obtain ⟨i, hi, rfl | rfl⟩ := loop_mem.1 hc
      · exact fun _ => ⟨rfl, rfl⟩
      · exact hq i hi
    · intro a ha
      obtain ⟨i, hi, h | h⟩ := loop_mem.1 ha
      · cases h; rfl
      · cases h
  · rw [List.reverse_append]
    simp only [List.reverse_cons, List.reverse_nil, List.nil_append, List.singleton_append, eeGoal]
    rw [if_pos (show (Manipulator.wave sn cn p0 r (N * dt)).pos.size = 12 from rfl)]
    refine ⟨rfl, fun i hi => ?_⟩
    rcases i with _ | _ | _ | i
    · refine ⟨rfl, rfl, rfl, ?_, rfl⟩
      show -(_ * (_ * _)) * _ = _
      ring
    · refine ⟨rfl, rfl, rfl, ?_, rfl⟩
      show -(_ * (_ * _)) * _ = _
      ring
    · refine ⟨rfl, rfl, rfl, ?_, rfl⟩
      show -(_ * (_ * _)) * _ = _
      ring
    · omega

/-- **C111, velocities.** If in every step of the loop the accelerations are ones that the arm may have and the velocity limits have
a weight, then all velocities of the simulation after the first step are within the limits, and so is every torque; and the
positions are those of a motion with constant acceleration during the step. -/
theorem C111_speed (hB : IsArm cf kin g E W S) {integrate : Vec K → Vec K → Vec K} {dvs taus : Nat → Vec K}
    (hi : ∀ i, i < N → (qs (i + 1), vs (i + 1)) = Manipulator.integrateDv integrate (qs i) (vs i) (dvs i) cf.dt)
    (ho : ∀ i, i < N → ArmObeys cf S (kin (qs i) (vs i)) (dvs i).get (taus i).get) :
    (0 < cf.wJoint → ∀ i, 0 < i → i ≤ N → ∀ j, j < E.robot.nv → |vs i j| ≤ cf.vMax j) ∧
    (0 < cf.wTorque → ∀ i, i < N → ∀ j, j < E.robot.nv → |taus i j| ≤ cf.tauMax j) ∧
    ∀ i, i < N → qs (i + 1) = integrate (qs i) ⟨(vs i).size, fun j => posAt 0 (vs i j) (dvs i j) cf.dt⟩ := by
  have hnv := hB.declared.nv
  refine ⟨fun hw i h0 hN j hj => ?_, fun hw i hN j hj => (ho i hN).torque hw j (hnv ▸ hj), fun i hN => ?_⟩
  · obtain ⟨i, rfl⟩ := Nat.exists_eq_succ_of_ne_zero h0.ne'
    have e := hi i hN
    have h := ((ho i hN).speed hw j (hnv ▸ hj)).1
    rw [hB.velocity] at h
    rw [show vs (i + 1) = _ from congrArg Prod.snd e]
    exact h
  · rw [show qs (i + 1) = _ from congrArg Prod.fst (hi i hN)]
    simp only [Manipulator.integrateDv, posAt]
    congr 2
    funext j
    ring

end

/-- **C111, the reference.** Velocity and acceleration of the sinusoidal reference are the derivatives of its position. -/
theorem C111_reference (p0 : V3 ℝ) (r : Manipulator.Wave ℝ) (t : ℝ) {i : Nat} (hi : i < 3) :
    HasDerivAt (fun t => (Manipulator.wave Real.sin Real.cos p0 r t).pos i)
      ((Manipulator.wave Real.sin Real.cos p0 r t).vel i) t ∧
    HasDerivAt (fun t => (Manipulator.wave Real.sin Real.cos p0 r t).vel i)
      ((Manipulator.wave Real.sin Real.cos p0 r t).acc i) t := by
  have ph : HasDerivAt (fun t => r.twoPiF.get i * t + r.phi.get i) (r.twoPiF.get i) t := by
    simpa using ((hasDerivAt_id t).const_mul (r.twoPiF.get i)).add_const (r.phi.get i)
  have e1 : ∀ t, (Manipulator.wave Real.sin Real.cos p0 r t).pos i =
      p0.get i + r.amp.get i * Real.sin (r.twoPiF.get i * t + r.phi.get i) := fun t => if_pos hi
  have e2 : ∀ t, (Manipulator.wave Real.sin Real.cos p0 r t).vel i =
      r.twoPiF.get i * r.amp.get i * Real.cos (r.twoPiF.get i * t + r.phi.get i) := fun t => if_pos hi
  have e3 : (Manipulator.wave Real.sin Real.cos p0 r t).acc i =
      -(r.twoPiF.get i * (r.twoPiF.get i * r.amp.get i)) * Real.sin (r.twoPiF.get i * t + r.phi.get i) := if_pos hi
  simp only [e1, e2, e3]
  constructor
  · have := (ph.sin.const_mul (r.amp.get i)).const_add (p0.get i)
    exact this.congr_deriv (by ring)
  · have := ph.cos.const_mul (r.twoPiF.get i * r.amp.get i)
    exact this.congr_deriv (by ring)

end Tsid.Props
