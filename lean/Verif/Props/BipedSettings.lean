import Verif.Spec.BipedSettings
import Verif.Props.Biped
import Verif.Props.Exceptions

/-!
# The settings of the tasks of `TsidBiped`, and its exceptions
-/

set_option linter.unusedSectionVars false

namespace Tsid.Props

open Spec Finset Formulation Program Biped

variable {K : Type} [Field K] [LinearOrder K] [FloorRing K] [HasSqrt K] [IsStrictOrderedRing K] [LawfulSqrt K]
variable {cf : Conf K} {kin : Vec K → Vec K → Snapshot K} {E : Program.Env K} {W : World} {S : Setup K}

/-- Calls on a task other than those of the feet, made by a use of the object. -/
theorem use_calls (s : St K) (c : Call K) {tid : Nat} (h4 : tid ≠ 4) (h5 : tid ≠ 5) :
    taskCalls tid (use cf kin s c).1 =
      match c with
      | .setCom pos vel acc => if 0 = tid then [.com (.setReference ⟨⟨3, pos.get⟩, ⟨3, vel.get⟩, ⟨3, acc.get⟩⟩)] else []
      | .setCop p => if 1 = tid then [.cop (.setReference p)] else []
      | _ => [] := by
  have hf : ∀ f : Foot, ¬ f.tid = tid := by intro f; cases f <;> simp [Foot.tid] <;> omega
  cases c with
  | setFoot f pos vel acc => simp [use, taskCalls, hf f]
  | remove f t => simp [use, taskCalls, hf f]
  | add f => exact taskCalls_init _ _ _
  | _ => rfl

theorem text_calls (q v : Vec K) {tid : Nat} (h0 : tid ≠ 0) (h1 : tid ≠ 1) (h4 : tid ≠ 4) (h5 : tid ≠ 5)
    (cs : List (Call K)) : taskCalls tid (text cf kin q v cs) = taskCalls tid (Biped.build cf kin q v) := by
  induction cs using List.reverseRecOn with
  | nil => exact congrArg _ (List.append_nil _)
  | append_singleton cs c ih =>
    rw [text_snoc, taskCalls_append, ih, use_calls _ _ h4 h5]
    cases c <;> simp [Ne.symm h0, Ne.symm h1]

theorem build_calls (q v : Vec K) :
    taskCalls 0 (Biped.build cf kin q v) = [.com (.setKp (gain 3 cf.kpCom)), .com (.setKd (damping 3 cf.kpCom))] ∧
    taskCalls 1 (Biped.build cf kin q v) = [] ∧
    taskCalls 2 (Biped.build cf kin q v) = [.am (.setKp ⟨3, fun i => if i < 2 then cf.kpAm else 0⟩),
      .am (.setKd ⟨3, fun i => 2 * sqrt (if i < 2 then cf.kpAm else 0)⟩), .am (.setReference (Sample.zero 3 3))] ∧
    taskCalls 6 (Biped.build cf kin q v) = [.actBounds (.setBounds ⟨cf.tauMax.size, fun i => -cf.tauMax i⟩ cf.tauMax)] ∧
    taskCalls 7 (Biped.build cf kin q v) =
      [.jointBounds (.setVelocityBounds ⟨cf.vMax.size, fun i => -cf.vMax i⟩ cf.vMax)] ∧
    ∀ f : Foot, taskCalls f.tid (Biped.build cf kin q v) =
      [.se3 (.setKp (gain 6 cf.kpFoot)), .se3 (.setKd (damping 6 cf.kpFoot))] := by
  simp only [Biped.build, taskCalls_append, taskCalls_init, taskCalls_bounds]
  refine ⟨?_, ?_, ?_, ?_, ?_, fun f => ?_⟩
  all_goals try cases f
  all_goals simp [contactGains, bodyTasks, footTask, taskCalls, Foot.tid]

theorem com_afterAll_append (p : ComSettings K) : ∀ a b : List (ComTask.Op K),
    p.afterAll (a ++ b) = (p.afterAll a).afterAll b := by
  intro a
  induction a generalizing p with
  | nil => intro b; rfl
  | cons o a ih => intro b; exact ih _ b

theorem cop_afterAll_append (p : CopSettings K) : ∀ a b : List (CopTask.Op K),
    p.afterAll (a ++ b) = (p.afterAll a).afterAll b := by
  intro a
  induction a generalizing p with
  | nil => intro b; rfl
  | cons o a ih => intro b; exact ih _ b

theorem com_settings (q v : Vec K) (cs : List (Call K)) :
    (ComSettings.fresh (K := K)).afterAll ((taskCalls 0 (text cf kin q v cs)).filterMap com?) =
      ⟨⟨3, fun _ => 1⟩, ⟨cf.kpCom, cf.kpCom, cf.kpCom⟩, ⟨critical cf.kpCom, critical cf.kpCom, critical cf.kpCom⟩,
        (comGoal cs.reverse).1.get, (comGoal cs.reverse).2.1.get, (comGoal cs.reverse).2.2.get⟩ := by
  induction cs using List.reverseRecOn with
  | nil =>
    rw [show text cf kin q v [] = Biped.build cf kin q v from List.append_nil _, (build_calls q v).1]
    have z : (V3.get (⟨0, 0, 0⟩ : V3 K)) = fun _ => 0 := by
      funext i
      rcases i with _ | _ | _ | i <;> rfl
    simp [com?, ComSettings.afterAll, ComSettings.after, ComSettings.fresh, gain, damping, critical, comGoal, z]
  | append_singleton cs c ih =>
    rw [text_snoc, taskCalls_append, List.filterMap_append, com_afterAll_append, ih, use_calls _ _ (by decide) (by decide),
      List.reverse_append]
    cases c <;> rfl

theorem cop_settings (q v : Vec K) (cs : List (Call K)) :
    (CopSettings.fresh (K := K)).afterAll ((taskCalls 1 (text cf kin q v cs)).filterMap cop?) =
      ⟨copGoal cs.reverse, ⟨0, 0, 1⟩⟩ := by
  induction cs using List.reverseRecOn with
  | nil =>
    rw [show text cf kin q v [] = Biped.build cf kin q v from List.append_nil _, (build_calls q v).2.1]
    rfl
  | append_singleton cs c ih =>
    rw [text_snoc, taskCalls_append, List.filterMap_append, cop_afterAll_append, ih, use_calls _ _ (by decide) (by decide),
      List.reverse_append]
    cases c <;> rfl

/-- Only the reference of the task of a foot changes. -/
theorem foot_settings (q v : Vec K) (f : Foot) (cs : List (Call K)) :
    let p := footSettings f (text cf kin q v cs)
    p.mask = ⟨6, fun _ => 1⟩ ∧ p.kp = gain 6 cf.kpFoot ∧ p.kd = damping 6 cf.kpFoot ∧ p.loc = true := by
  induction cs using List.reverseRecOn with
  | nil =>
    rw [show text cf kin q v [] = Biped.build cf kin q v from List.append_nil _]
    unfold footSettings
    rw [(build_calls q v).2.2.2.2.2 f]
    simp [se3?, FrameSettings.afterAll, FrameSettings.after, gain, damping, FrameSettings.fresh]
  | append_singleton cs c ih =>
    rw [text_snoc]
    have key : ∀ p : FrameSettings K, (p.mask = ⟨6, fun _ => 1⟩ ∧ p.kp = gain 6 cf.kpFoot ∧ p.kd = damping 6 cf.kpFoot ∧
        p.loc = true) → ∀ r, ((p.after (.setReference r)).mask = ⟨6, fun _ => 1⟩ ∧
        (p.after (.setReference r)).kp = gain 6 cf.kpFoot ∧ (p.after (.setReference r)).kd = damping 6 cf.kpFoot ∧
        (p.after (.setReference r)).loc = true) := by
      intro p hp r
      simp only [FrameSettings.after]
      split <;> exact hp
    rw [footSettings_append]
    generalize footSettings f (text cf kin q v cs) = p at ih
    cases c with
    | setFoot g pos vel acc =>
      simp only [use, taskCalls]
      split
      · exact key p ih _
      · exact ih
    | remove g t =>
      simp only [use, taskCalls]
      split
      · exact key p ih _
      · exact ih
    | add g => rw [show (use cf kin _ (.add g)).1 = initFoot cf _ g from rfl, taskCalls_init]; exact ih
    | setCom => cases f <;> exact ih
    | setCop => cases f <;> exact ih
    | weighCop => exact ih
    | cycle => exact ih

/-- **C108, settings.** Whatever calls are made on an object of the class, its tasks ask for what the configuration file and
the calls say. -/
theorem C108_settings (hm : cf.mask.size = E.robot.na) {q : Vec K} (hs : Sized cf E.robot q) (v : Vec K) (cs : List (Call K)) :
    AsConfigured cf E.robot (ground cf q (kin q v)) cs (text cf kin q v cs) := by
  obtain ⟨-, -, b2, b6, b7, -⟩ := build_calls (cf := cf) (kin := kin) q v
  refine ⟨fun k i hi => ?_, cop_settings q v cs, fun A u => ?_, fun q' u j => ?_, fun f => ?_, ?_, ?_⟩
  · rw [com_settings]
    rcases i with _ | _ | _ | i
    · rfl
    · rfl
    · rfl
    · omega
  · rw [text_calls q v (by decide) (by decide) (by decide) (by decide), b2]
    have z : AmSettings.afterAll (AmSettings.fresh (K := K)) (List.filterMap am?
        [.am (.setKp ⟨3, fun i => if i < 2 then cf.kpAm else 0⟩),
          .am (.setKd ⟨3, fun i => 2 * sqrt (if i < 2 then cf.kpAm else 0)⟩), .am (.setReference (Sample.zero 3 3))]) =
        ⟨⟨cf.kpAm, cf.kpAm, 0⟩, fun _ => 0, fun _ => 0⟩ := by
      simp [am?, AmSettings.afterAll, AmSettings.after, AmSettings.fresh, Sample.zero, Vec.zero]
    rw [z]
    refine ⟨?_, ?_, ?_⟩ <;> simp [AmSettings.law, V3.get]
  · rw [text_calls q v (by decide) (by decide) (by decide) (by decide), posture_calls]
    have z : (ground cf q (kin q v)).size = q.size := rfl
    simp only [List.filterMap_cons, List.filterMap_nil, posture?, PostureSettings.afterAll, PostureSettings.after]
    rw [if_pos hs.gains, if_pos hs.gains, if_pos hm,
      if_pos ⟨show (ground cf q (kin q v)).size - 7 = _ by rw [z]; exact hs.joints,
        show (ground cf q (kin q v)).size - 7 = _ by rw [z]; exact hs.motors,
        show (ground cf q (kin q v)).size - 7 = _ by rw [z]; exact hs.motors⟩]
    refine ⟨rfl, ?_⟩
    simp only [PostureSettings.law, PostureSettings.target, EuclidianConstant.newWith, EuclidianConstant.setReference, critical]
    have z0 : ∀ n i, (Sample.zero n n : Sample K).acc.get i = 0 := fun _ _ => rfl
    have z1 : ∀ n i, (Sample.zero n n : Sample K).vel.get i = 0 := fun _ _ => rfl
    simp only [z0, z1, sub_zero, zero_sub]
  · obtain ⟨h1, h2, h3, h4⟩ := foot_settings (cf := cf) (kin := kin) q v f cs
    refine ⟨h4, fun i => ?_⟩
    unfold footSettings at h1 h2 h3
    rw [h1, h2, h3]
    exact ⟨rfl, rfl, rfl⟩
  · rw [text_calls q v (by decide) (by decide) (by decide) (by decide), b6]
    simp only [List.filterMap_cons, List.filterMap_nil, actBounds?, TorqueLimits.afterAll, TorqueLimits.after]
    have hc : countSelected (TorqueLimits.fresh (K := K) E.robot.na).mask E.robot.na = E.robot.na := count_ones _ _
    rw [if_pos ⟨by rw [hc]; exact hs.torque, by rw [hc]; exact hs.torque⟩]
    exact fun i => ⟨rfl, rfl, rfl⟩
  · rw [text_calls q v (by decide) (by decide) (by decide) (by decide), b7]
    simp only [List.filterMap_cons, List.filterMap_nil, jointBounds?, BoundSettings.afterAll, BoundSettings.after]
    rw [if_pos ⟨hs.speed, hs.speed⟩]
    exact ⟨rfl, fun i => ⟨rfl, rfl, rfl, rfl⟩⟩

/-- **C108, a surprise.** Until `set_com_ref` is called, the task of the centre of mass asks it to go to the origin of the
world, although the constructor samples a trajectory at the centre of mass. -/
theorem C108_com_origin (hm : cf.mask.size = E.robot.na) {q : Vec K} (hs : Sized cf E.robot q) (v : Vec K)
    {cs : List (Call K)} (hn : ∀ p w a, .setCom p w a ∉ cs) {k : ComKin K} {i : Nat} (hi : i < 3) :
    ((ComSettings.fresh (K := K)).afterAll ((taskCalls 0 (text cf kin q v cs)).filterMap com?)).law k i =
      -(cf.kpCom * k.pos.get i) - critical cf.kpCom * k.vel.get i := by
  have hg : ∀ l : List (Call K), (∀ p w a, .setCom p w a ∉ l) → comGoal l = (⟨0, 0, 0⟩, ⟨0, 0, 0⟩, ⟨0, 0, 0⟩) := by
    intro l hl
    induction l with
    | nil => rfl
    | cons c l ih =>
      have ih := ih fun p w a h => hl p w a (List.mem_cons_of_mem _ h)
      cases c with
      | setCom p w a => exact absurd List.mem_cons_self (hl p w a)
      | _ => exact ih
  rw [(C108_settings (kin := kin) hm hs v cs).com k i hi, hg _ fun p w a h => hn p w a (List.mem_reverse.1 h)]
  rcases i with _ | _ | _ | i
  · simp only [V3.get]; ring
  · simp only [V3.get]; ring
  · simp only [V3.get]; ring
  · omega

/-! ## Exceptions -/

theorem pre_free {q v : Vec K} {cs : List (Call K)} {pre post : List (Program.Op K)} {o : Program.Op K}
    (e : text cf kin q v cs = pre ++ o :: post) : ∀ c ∈ taskCalls 6 pre, MaskFree c := by
  intro c hc
  have hm : c ∈ taskCalls 6 (text cf kin q v cs) := by
    rw [e, taskCalls_append]
    exact List.mem_append_left _ hc
  rw [text_calls q v (by decide) (by decide) (by decide) (by decide)] at hm
  exact base_free q v (by decide) c hm

/-- The vectors for the task of the torque limits. -/
theorem torque_refuses (hB : IsBiped cf kin E W S) {pre : List (Program.Op K)} (hfree : ∀ c ∈ taskCalls 6 pre, MaskFree c)
    {l u : Vec K} :
    S.Refuses E pre (.task 6 (.actBounds (.setBounds l u))) ↔ l.size ≠ E.robot.na ∨ u.size ≠ E.robot.na := by
  show (S.decl 6).Refuses E.robot _ _ ↔ _
  rw [hB.torque]
  simp only [TaskDecl.Refuses]
  rw [torque_masks _ _ hfree, show (TorqueLimits.fresh (K := K) E.robot.na).mask = ⟨E.robot.na, fun _ => 1⟩ from rfl,
    count_ones]

/-- What a use of the object calls is not refused. -/
theorem use_unrefused (hB : IsBiped cf kin E W S) {s : St K} (hk : ∀ f, (s.kept f).pos.size = 12) (c : Call K)
    {o : Program.Op K} (ho : o ∈ (use cf kin s c).1) (pre : List (Program.Op K)) : ¬ S.Refuses E pre o := by
  have hset : ∀ (f : Foot) (r : Sample K), r.pos.size = 12 → ¬ S.Refuses E pre (.task f.tid (.se3 (.setReference r))) := by
    intro f r hr h
    have h' : (S.decl f.tid).Refuses E.robot (taskCalls f.tid pre) (.se3 (.setReference r)) := h
    rw [hB.foot f] at h'
    exact h' hr
  have hreg : ∀ f, ¬ S.Refuses E pre (register cf f) := by
    intro f
    unfold register
    split <;> exact id
  have hmot : ∀ (f : Foot) M, ¬ S.Refuses E pre (.motion f.cid (.setReference M)) := by
    intro f M h
    have h' : (S.cdecl f.cid).Refuses (.setReference M) := h
    rw [hB.motion f] at h'
    exact h'
  cases c with
  | setCom pos vel acc =>
    rw [List.mem_singleton.1 ho]
    intro h
    have h' : (S.decl 0).Refuses E.robot (taskCalls 0 pre) _ := h
    rw [hB.com] at h'
    exact h'
  | setFoot f pos vel acc =>
    rw [List.mem_singleton.1 ho]
    exact hset f _ (hk f)
  | remove f t =>
    rcases List.mem_cons.1 ho with rfl | ho
    · exact hset f _ (keeps_pose _).pos
    · rw [List.mem_singleton.1 ho]; exact id
  | add f =>
    rcases List.mem_cons.1 ho with rfl | ho
    · exact hmot f _
    · rw [List.mem_singleton.1 ho]; exact hreg f
  | setCop p =>
    rw [List.mem_singleton.1 ho]
    intro h
    have h' : (S.decl 1).Refuses E.robot (taskCalls 1 pre) _ := h
    rw [hB.cop] at h'
    exact h'
  | weighCop w => rw [List.mem_singleton.1 ho]; exact id
  | cycle t q v => rw [List.mem_singleton.1 ho]; exact id

theorem use_kept {s : St K} (hk : ∀ f, (s.kept f).pos.size = 12) (c : Call K) (f : Foot) :
    ((use cf kin s c).2.kept f).pos.size = 12 := by
  cases c with
  | setFoot g pos vel acc =>
    simp only [use]
    by_cases h : f = g
    · subst h
      rw [Function.update_self]
      exact hk f
    · rw [Function.update_of_ne h]
      exact hk f
  | _ => exact hk f

theorem uses_unrefused (hB : IsBiped cf kin E W S) : ∀ {s : St K} (_ : ∀ f, (s.kept f).pos.size = 12) (cs : List (Call K))
    {o : Program.Op K}, o ∈ (uses cf kin s cs).1 → ∀ pre, ¬ S.Refuses E pre o
  | s, hk, [], o, ho, pre => by cases ho
  | s, hk, c :: cs, o, ho, pre => by
    rcases List.mem_append.1 ho with ho | ho
    · exact use_unrefused hB hk c ho pre
    · exact uses_unrefused hB (use_kept hk c) cs ho pre

/-- The constructor makes no call that is refused if the sizes are right. -/
theorem build_unrefused (hB : IsBiped cf kin E W S) {q v : Vec K} (hs : Sized cf E.robot q) {pre : List (Program.Op K)}
    (hfree : ∀ c ∈ taskCalls 6 pre, MaskFree c) : ∀ o ∈ Biped.build cf kin q v, ¬ S.Refuses E pre o := by
  have htask : ∀ tid c d, S.decl tid = d → ¬ d.Refuses E.robot (taskCalls tid pre) c → ¬ S.Refuses E pre (.task tid c) := by
    rintro tid c d rfl h
    exact h
  have hreg : ∀ f, ¬ S.Refuses E pre (register cf f) := by
    intro f
    unfold register
    split <;> exact id
  have hmot : ∀ (f : Foot) c, ¬ (ContactDecl.sixD (cf.frame f)).Refuses c → ¬ S.Refuses E pre (.motion f.cid c) := by
    intro f c hc h
    have h' : (S.cdecl f.cid).Refuses c := h
    rw [hB.motion f] at h'
    exact hc h'
  have hadd : ∀ {k : K}, 0 ≤ k → ¬ (k < 0 ∨ (0 : K) < 0) := fun hk h => h.elim (not_lt.2 hk) (lt_irrefl _)
  have hinit : ∀ w f, ∀ o ∈ initFoot cf w f, ¬ S.Refuses E pre o := by
    intro w f o ho
    rcases List.mem_cons.1 ho with rfl | ho
    · exact hmot f _ id
    · rw [List.mem_singleton.1 ho]; exact hreg f
  have hgain : ∀ f, ∀ o ∈ contactGains cf f, ¬ S.Refuses E pre o := by
    intro f
    simp only [contactGains, List.forall_mem_cons]
    exact ⟨hmot f _ (fun h => h rfl), hmot f _ (fun h => h rfl), by simp⟩
  have hfoot : ∀ f, ∀ o ∈ footTask cf f, ¬ S.Refuses E pre o := by
    intro f
    simp only [footTask, List.forall_mem_cons]
    exact ⟨htask _ _ _ (hB.foot f) (fun h => h rfl), htask _ _ _ (hB.foot f) (fun h => h rfl), hadd hB.wFoot, by simp⟩
  have hbody : ∀ o ∈ bodyTasks cf, ¬ S.Refuses E pre o := by
    simp only [bodyTasks, List.forall_mem_cons]
    exact ⟨htask _ _ _ hB.com (fun h => h rfl), htask _ _ _ hB.com (fun h => h rfl), hadd hB.wCom, hadd hB.wCop,
      htask _ _ _ hB.am (fun h => h rfl), htask _ _ _ hB.am (fun h => h rfl), hadd hB.wAm, htask _ _ _ hB.am id,
      htask _ _ _ hB.posture (fun h => h hs.gains), htask _ _ _ hB.posture (fun h => h hs.gains),
      htask _ _ _ hB.posture (fun h => h hB.mask.1), hadd hB.wPosture, by simp⟩
  have hbounds : ∀ o ∈ bounds cf, ¬ S.Refuses E pre o := by
    simp only [bounds, List.forall_mem_append, List.forall_mem_singleton]
    refine ⟨⟨⟨?_, ?_⟩, ?_⟩, ?_⟩
    · rw [torque_refuses hB hfree]
      exact fun h => h.elim (fun h => h hs.torque) (fun h => h hs.torque)
    · split
      · next h => rw [List.forall_mem_singleton]; exact hadd h.le
      · simp
    · exact htask _ _ _ hB.joint (fun h => h.elim (fun h => h hs.speed) (fun h => h hs.speed))
    · split
      · next h => rw [List.forall_mem_singleton]; exact hadd h.le
      · simp
  simp only [Biped.build, List.forall_mem_append, List.forall_mem_singleton]
  refine ⟨⟨⟨⟨⟨⟨⟨⟨⟨⟨id, hgain _⟩, id⟩, hinit _ _⟩, hgain _⟩, hinit _ _⟩, hbody⟩, hfoot _⟩, hfoot _⟩, hbounds⟩, ?_⟩
  refine htask _ _ _ hB.posture ?_
  rintro (h | h | h)
  · exact h hs.joints
  · exact h hs.motors
  · exact h hs.motors

/-- **C108, exceptions.** A program that constructs an object of the class and makes proper calls on it, and catches no
exception, comes to its end exactly when the vectors of the configuration file, the limits of the model and the reference
configuration have the right sizes. -/
theorem C108_exceptions (hB : IsBiped cf kin E W S) {q v : Vec K} (hv : v.size = E.robot.nv) (hq : E.robot.na ≤ q.size)
    {cs : List (Call K)} (hp : Proper E.robot cs) :
    (∃ s, uncaught E S.start (text cf kin q v cs) = some s) ↔ Sized cf E.robot q := by
  obtain ⟨L, hL, -⟩ := (inv_all hB hv hq hp).upto
  rw [(C109_uncaught hB.declared hL.checked).1]
  constructor
  · intro hu
    have pick : ∀ {o}, o ∈ Biped.build cf kin q v → ∃ pre, (∀ c ∈ taskCalls 6 pre, MaskFree c) ∧ ¬ S.Refuses E pre o := by
      intro o ho
      obtain ⟨pre, post, e⟩ := List.append_of_mem (List.mem_append_left (uses cf kin (start cf kin q v) cs).1 ho)
      exact ⟨pre, pre_free e, hu pre o post e⟩
    have htask : ∀ {tid : Nat} {c : TaskCall K} {d : TaskDecl K}, S.decl tid = d → .task tid c ∈ Biped.build cf kin q v →
        ∃ pre, ¬ d.Refuses E.robot (taskCalls tid pre) c := by
      rintro tid c d rfl ho
      obtain ⟨pre, -, h⟩ := pick ho
      exact ⟨pre, h⟩
    have hbody : ∀ {o}, o ∈ bodyTasks cf → o ∈ Biped.build cf kin q v := by
      intro o ho
      simp only [Biped.build, List.mem_append]
      tauto
    have hbounds : ∀ {o}, o ∈ bounds cf → o ∈ Biped.build cf kin q v := by
      intro o ho
      simp only [Biped.build, List.mem_append]
      tauto
    obtain ⟨_, g⟩ := htask hB.posture (hbody (List.mem_of_getElem? (i := 8) rfl))
    obtain ⟨_, r⟩ := htask hB.posture (c := .posture (.setReference (EuclidianConstant.newWith
      ⟨(ground cf q (kin q v)).size - 7, fun i => (ground cf q (kin q v)) (i + 7)⟩))) (by
        simp only [Biped.build, List.mem_append, List.mem_singleton]
        exact Or.inr trivial)
    obtain ⟨pre, hfree, t⟩ := pick (hbounds (o := .task 6 (.actBounds (.setBounds ⟨cf.tauMax.size, fun i => -cf.tauMax i⟩
      cf.tauMax))) (by simp [bounds]))
    obtain ⟨_, w⟩ := htask hB.joint (c := .jointBounds (.setVelocityBounds ⟨cf.vMax.size, fun i => -cf.vMax i⟩ cf.vMax))
      (hbounds (by simp [bounds]))
    rw [torque_refuses hB hfree] at t
    simp only [TaskDecl.Refuses, not_or, not_not] at g r t w
    exact ⟨g, t.2, w.2, r.1, r.2.1⟩
  · intro hs pre o post e
    have ho : o ∈ text cf kin q v cs := by rw [e]; simp
    rcases List.mem_append.1 ho with ho | ho
    · exact build_unrefused hB hs (pre_free e) o ho
    · exact uses_unrefused hB (fun f => (keeps_pose _).pos) cs ho pre

/-- **C108, exceptions of the methods.** Whatever the sizes are: no proper call of a method after the constructor raises an
exception. -/
theorem C108_methods (hB : IsBiped cf kin E W S) {q v : Vec K} (hv : v.size = E.robot.nv) (hq : E.robot.na ≤ q.size)
    {cs : List (Call K)} (hp : Proper E.robot cs) {pre post : List (Program.Op K)} {o : Program.Op K}
    (e : (uses cf kin (start cf kin q v) cs).1 = pre ++ o :: post) :
    ∃ s0 s1, Program.run E S.start (Biped.build cf kin q v ++ pre) = some s0 ∧ Program.step E s0 o = .ok s1 () := by
  obtain ⟨L, hL, -⟩ := (inv_all hB hv hq hp).upto
  have hc := hL.checked
  unfold text at hc
  rw [e, ← List.append_assoc] at hc
  obtain ⟨s0, h0, -, h1⟩ := C109_throws hB.declared hc
  obtain ⟨s1, h2⟩ := h1 (uses_unrefused hB (fun f => (keeps_pose _).pos) cs (by rw [e]; simp) _)
  exact ⟨s0, s1, h0, h2⟩

end Tsid.Props
