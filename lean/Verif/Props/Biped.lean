import Verif.Spec.Biped
import Verif.Props.Static

/-!
# The class `TsidBiped`
-/

set_option linter.unusedSectionVars false

namespace Tsid.Props

open Spec Finset Formulation Program Biped

variable {K : Type} [Field K] [LinearOrder K] [FloorRing K] [HasSqrt K] [IsStrictOrderedRing K] [LawfulSqrt K]

/-! ## Growing a checked text -/

section
variable {E : Program.Env K} {W : World} {S : Setup K} {ops : List (Program.Op K)} {L : List (Item K)}

theorem checked_nil : Checked E W S [] := by
  intro pre o post e
  cases pre <;> cases e

theorem checked_snoc (h : Checked E W S ops) {o : Program.Op K} (hf : S.Fine E W ops o) : Checked E W S (ops ++ [o]) := by
  intro pre a post e
  rcases List.eq_nil_or_concat post with rfl | ⟨post', b, rfl⟩
  · obtain ⟨e1, e2⟩ := List.append_inj' e rfl
    cases e2
    subst e1
    exact hf
  · rw [List.concat_eq_append, ← List.cons_append, ← List.append_assoc] at e
    obtain ⟨e, -⟩ := List.append_inj' e rfl
    exact h pre a post' e

/-- A checked text after which `L` is registered. -/
structure Upto (E : Program.Env K) (W : World) (S : Setup K) (ops : List (Program.Op K)) (L : List (Item K)) : Prop where
  checked : Checked E W S ops
  items : (S.noted W ops).items = L

theorem upto_nil : Upto E W S [] [] := ⟨checked_nil, rfl⟩

theorem Upto.task (h : Upto E W S ops L) {tid : Nat} {c : TaskCall K} (ha : (S.decl tid).Accepts E.robot c) :
    Upto E W S (ops ++ [.task tid c]) L :=
  ⟨checked_snoc h.checked ha, by rw [noted_snoc]; exact h.items⟩

theorem Upto.motion (h : Upto E W S ops L) {cid : Nat} {c : ContactCall K} (ha : (S.cdecl cid).Accepts c) :
    Upto E W S (ops ++ [.motion cid c]) L :=
  ⟨checked_snoc h.checked ha, by rw [noted_snoc]; exact h.items⟩

theorem Upto.compute (h : Upto E W S ops L) {w : Snapshot K} {t : K} (hf : S.Fine E W ops (.compute w t)) :
    Upto E W S (ops ++ [.compute w t]) L :=
  ⟨checked_snoc h.checked hf, by rw [noted_snoc]; exact h.items⟩

theorem Upto.addMotion (h : Upto E W S ops L) {tid p : Nat} {k : K} (hk : 0 ≤ k) (ha : S.Addable E W ops .motion tid p) :
    Upto E W S (ops ++ [.form (.addMotionTask tid k p 0)]) (L ++ [.task .motion tid p k]) := by
  refine ⟨checked_snoc h.checked ha, ?_⟩
  rw [noted_snoc]
  simp only [Registry.read, Registry.next, refused, not_lt.2 hk, lt_irrefl, or_false, decide_false, Bool.false_eq_true, if_false, h.items]

theorem Upto.addForce (h : Upto E W S ops L) {tid p : Nat} {k : K} (hk : 0 ≤ k) (ha : S.Addable E W ops .force tid p) :
    Upto E W S (ops ++ [.form (.addForceTask tid k p 0)]) (L ++ [.task .force tid p k]) := by
  refine ⟨checked_snoc h.checked ha, ?_⟩
  rw [noted_snoc]
  simp only [Registry.read, Registry.next, refused, not_lt.2 hk, lt_irrefl, or_false, decide_false, Bool.false_eq_true, if_false, h.items]

theorem Upto.addActuation (h : Upto E W S ops L) {tid p : Nat} {k : K} (hk : 0 ≤ k)
    (ha : S.Addable E W ops .actuation tid p) :
    Upto E W S (ops ++ [.form (.addActuationTask tid k p 0)]) (L ++ [.task .actuation tid p k]) := by
  refine ⟨checked_snoc h.checked ha, ?_⟩
  rw [noted_snoc]
  simp only [Registry.read, Registry.next, refused, not_lt.2 hk, lt_irrefl, or_false, decide_false, Bool.false_eq_true, if_false, h.items]

theorem Upto.fresh (h : Upto E W S ops L) {n : String} (hn : ∀ it ∈ L, it.isTask W n = false) :
    ¬ (S.noted W ops).hasTask W n := by
  rintro ⟨it, hm, e⟩
  rw [h.items] at hm
  rw [hn it hm] at e
  cases e

end

/-! ## Calls that leave masks as they are -/

/-- The call is not one that sets a mask. -/
def MaskFree : TaskCall K → Prop
  | .se3 (.setMask _ _) | .twoFrames (.setMask _ _) | .com (.setMask _ _) | .posture (.setMask _) | .actBounds (.mask _)
  | .actEq (.mask _) => False
  | _ => True

theorem frame_mask {o : SE3Task.Op K} (h : MaskFree (.se3 o)) (p : FrameSettings K) : (p.after o).mask = p.mask := by
  cases o <;> first | (cases h; done) | rfl | (simp only [FrameSettings.after]; split <;> rfl)

theorem frame_masks : ∀ (l : List (TaskCall K)) (p : FrameSettings K), (∀ c ∈ l, MaskFree c) →
    (p.afterAll (l.filterMap se3?)).mask = p.mask
  | [], _, _ => rfl
  | c :: l, p, h => by
    have hl := fun q => frame_masks l q fun d hd => h d (List.mem_cons_of_mem _ hd)
    cases c with
    | se3 o => exact (hl _).trans (frame_mask (h _ List.mem_cons_self) p)
    | _ => exact hl p

theorem com_mask {o : ComTask.Op K} (h : MaskFree (.com o)) (p : ComSettings K) : (p.after o).mask = p.mask := by
  cases o <;> first | (cases h; done) | rfl | (simp only [ComSettings.after]; split <;> rfl)

theorem com_masks : ∀ (l : List (TaskCall K)) (p : ComSettings K), (∀ c ∈ l, MaskFree c) →
    (p.afterAll (l.filterMap com?)).mask = p.mask
  | [], _, _ => rfl
  | c :: l, p, h => by
    have hl := fun q => com_masks l q fun d hd => h d (List.mem_cons_of_mem _ hd)
    cases c with
    | com o => exact (hl _).trans (com_mask (h _ List.mem_cons_self) p)
    | _ => exact hl p

theorem pair_mask {o : TwoFrames.Op K} (h : MaskFree (.twoFrames o)) (p : PairSettings K) : (p.after o).mask = p.mask := by
  cases o <;> first | (cases h; done) | rfl | (simp only [PairSettings.after]; split <;> rfl)

theorem pair_masks : ∀ (l : List (TaskCall K)) (p : PairSettings K), (∀ c ∈ l, MaskFree c) →
    (p.afterAll (l.filterMap pair?)).mask = p.mask
  | [], _, _ => rfl
  | c :: l, p, h => by
    have hl := fun q => pair_masks l q fun d hd => h d (List.mem_cons_of_mem _ hd)
    cases c with
    | twoFrames o => exact (hl _).trans (pair_mask (h _ List.mem_cons_self) p)
    | _ => exact hl p

theorem posture_mask {R : PostureRobot K} {o : Posture.Op K} (h : MaskFree (.posture o)) (p : PostureSettings K) : (p.after R o).mask = p.mask := by
  cases o <;> first | (cases h; done) | rfl | (simp only [PostureSettings.after]; split <;> rfl)

theorem posture_masks {R : PostureRobot K} : ∀ (l : List (TaskCall K)) (p : PostureSettings K), (∀ c ∈ l, MaskFree c) →
    (p.afterAll R (l.filterMap posture?)).mask = p.mask
  | [], _, _ => rfl
  | c :: l, p, h => by
    have hl := fun q => posture_masks (R := R) l q fun d hd => h d (List.mem_cons_of_mem _ hd)
    cases c with
    | posture o => exact (hl _).trans (posture_mask (h _ List.mem_cons_self) p)
    | _ => exact hl p

theorem torque_mask {n : Nat} {o : ActBounds.Op K} (h : MaskFree (.actBounds o)) (p : TorqueLimits K) : (p.after n o).mask = p.mask := by
  cases o <;> first | (cases h; done) | rfl | (simp only [TorqueLimits.after]; split <;> rfl)

theorem torque_masks {n : Nat} : ∀ (l : List (TaskCall K)) (p : TorqueLimits K), (∀ c ∈ l, MaskFree c) →
    (p.afterAll n (l.filterMap actBounds?)).mask = p.mask
  | [], _, _ => rfl
  | c :: l, p, h => by
    have hl := fun q => torque_masks (n := n) l q fun d hd => h d (List.mem_cons_of_mem _ hd)
    cases c with
    | actBounds o => exact (hl _).trans (torque_mask (h _ List.mem_cons_self) p)
    | _ => exact hl p

theorem acteq_mask {n : Nat} {o : ActEq.Op K} (h : MaskFree (.actEq o)) (p : TorqueSettings K) : (p.after n o).mask = p.mask := by
  cases o <;> first | (cases h; done) | rfl | (simp only [TorqueSettings.after]; split <;> rfl)

theorem acteq_masks {n : Nat} : ∀ (l : List (TaskCall K)) (p : TorqueSettings K), (∀ c ∈ l, MaskFree c) →
    (p.afterAll n (l.filterMap actEq?)).mask = p.mask
  | [], _, _ => rfl
  | c :: l, p, h => by
    have hl := fun q => acteq_masks (n := n) l q fun d hd => h d (List.mem_cons_of_mem _ hd)
    cases c with
    | actEq o => exact (hl _).trans (acteq_mask (h _ List.mem_cons_self) p)
    | _ => exact hl p

theorem rows_free {R : PostureRobot K} {d : TaskDecl K} {l : List (TaskCall K)} (h : ∀ c ∈ l, MaskFree c) :
    d.rows R l = d.rows R [] := by
  cases d <;> simp only [TaskDecl.rows, frame_masks l _ h, com_masks l _ h, pair_masks l _ h, posture_masks l _ h,
    torque_masks l _ h, acteq_masks l _ h] <;> rfl

/-! ## The constructor -/

theorem bipedName_inj : ∀ a < 8, ∀ b < 8, bipedName a = bipedName b → a = b := by decide

/-- The registered tasks are tasks of the class other than `tid`. -/
def Avoids (L : List (Item K)) (tid : Nat) : Prop := ∀ fam t p k, Item.task fam t p k ∈ L → t < 8 ∧ t ≠ tid

theorem footItem_eq (cf : Conf K) (f : Foot) : ∃ p wm wf, footItem cf f = .contact f.cid p wm wf := by
  unfold footItem
  split <;> exact ⟨_, _, _, rfl⟩

theorem footItem_ne {cf : Conf K} {f : Foot} {fam : Family} {t p : Nat} {k : K} : footItem cf f ≠ .task fam t p k := by
  obtain ⟨a, b, c, e⟩ := footItem_eq cf f
  rw [e]
  intro h
  cases h

theorem taskCalls_register (cf : Conf K) (f : Foot) (tid : Nat) : taskCalls tid [register cf f] = [] := by
  unfold register
  split <;> rfl

theorem cid_lt (f : Foot) : f.tid < 8 ∧ f.tid ≠ 3 := by cases f <;> decide

theorem cid_inj {f g : Foot} (h : f.contactName = g.contactName) : f = g := by
  cases f <;> cases g <;> first | rfl | (exact absurd h (by decide))

section
variable {cf : Conf K} {kin : Vec K → Vec K → Snapshot K} {E : Program.Env K} {W : World} {S : Setup K}
  {ops : List (Program.Op K)} {L : List (Item K)}

theorem obj_name (hB : IsBiped cf kin E W S) (f : Foot) : (S.obj f.cid).name = f.contactName := by
  rw [hB.contact f]; rfl

theorem obj_kind (hB : IsBiped cf kin E W S) (f : Foot) : (S.obj f.cid).kind = .sixD := by
  rw [hB.contact f]; rfl

theorem biped_cases (hB : IsBiped cf kin E W S) {P : TaskDecl K → Prop} {tid : Nat} (ht : tid < 8) (h0 : P .com)
    (h1 : P .cop) (h2 : P .am) (h3 : P .posture) (h4 : ∀ f, P (.se3 f)) (h6 : P .actBounds) (h7 : ∀ dt, P (.jointBounds dt)) :
    P (S.decl tid) := by
  match tid, ht with
  | 0, _ => rw [hB.com]; exact h0
  | 1, _ => rw [hB.cop]; exact h1
  | 2, _ => rw [hB.am]; exact h2
  | 3, _ => rw [hB.posture]; exact h3
  | 4, _ => rw [show (4 : Nat) = Foot.left.tid from rfl, hB.foot]; exact h4 _
  | 5, _ => rw [show (5 : Nat) = Foot.right.tid from rfl, hB.foot]; exact h4 _
  | 6, _ => rw [hB.torque]; exact h6
  | 7, _ => rw [hB.joint]; exact h7 _

theorem biped_rows (hB : IsBiped cf kin E W S) {tid : Nat} (ht : tid < 8) (h3 : tid ≠ 3)
    (hf : ∀ c ∈ taskCalls tid ops, MaskFree c) : (W.task tid).rows = (S.decl tid).rows E.robot (taskCalls tid ops) := by
  rw [hB.rows tid ht, if_neg h3, rows_free hf]

theorem biped_addable (hB : IsBiped cf kin E W S) (h : Upto E W S ops L) {fam : Family} {tid p : Nat}
    (hd : (S.decl tid).family = fam) (ht : tid < 8) (hp : p < 2) (hL : Avoids L tid)
    (hr : (W.task tid).rows = (S.decl tid).rows E.robot (taskCalls tid ops)) : S.Addable E W ops fam tid p where
  family := hd
  level := hp
  fresh := by
    refine h.fresh ?_
    rintro (⟨fam', t, p', k⟩ | ⟨c, p', a, b⟩) hm
    · obtain ⟨h1, h2⟩ := hL _ _ _ _ hm
      simp only [Item.isTask, hB.name _ h1, hB.name _ ht, beq_eq_false_iff_ne, ne_eq]
      exact fun e => h2 (bipedName_inj _ h1 _ ht e)
    · rfl
  kind := hB.kind tid ht
  rows := hr
  whole := biped_cases hB ht trivial trivial trivial trivial (fun _ => trivial) trivial fun _ => trivial

theorem upto_gains (hB : IsBiped cf kin E W S) (h : Upto E W S ops L) (f : Foot) :
    Upto E W S (ops ++ contactGains cf f) L := by
  have h1 := h.motion (cid := f.cid) (c := .setKp (gain 6 cf.kpContact)) (by rw [hB.motion f]; trivial)
  have h2 := h1.motion (cid := f.cid) (c := .setKd (damping 6 cf.kpContact)) (by rw [hB.motion f]; trivial)
  rwa [List.append_assoc] at h2

theorem upto_init (hB : IsBiped cf kin E W S) (h : Upto E W S ops L) (w : Snapshot K) (f : Foot)
    (hL : ∀ c p a b, Item.contact c p a b ∈ L → (S.obj c).name ≠ f.contactName) :
    Upto E W S (ops ++ initFoot cf w f) (L ++ [footItem cf f]) := by
  have h1 := h.motion (cid := f.cid) (c := .setReference (placement cf w f)) (by rw [hB.motion f]; trivial)
  have hno : ¬ (S.noted W (ops ++ [.motion f.cid (.setReference (placement cf w f))])).hasContact
      (fun c => (S.obj c).name) (S.obj f.cid).name := by
    rintro ⟨it, hm, e⟩
    rw [h1.items] at hm
    cases it with
    | task => cases e
    | contact c p a b =>
      simp only [Item.isContact, obj_name hB, beq_iff_eq] at e
      exact hL _ _ _ _ hm e
  have e : ops ++ initFoot cf w f = ops ++ [.motion f.cid (.setReference (placement cf w f))] ++ [register cf f] := by
    rw [List.append_assoc]; rfl
  rw [e]
  unfold register footItem
  by_cases hw : 0 ≤ cf.wContact
  · rw [if_pos hw, if_pos hw]
    refine ⟨checked_snoc h1.checked ⟨Nat.one_lt_two, hno⟩, ?_⟩
    rw [noted_snoc]
    simp only [Registry.read, Registry.next, h1.items]
  · rw [if_neg hw, if_neg hw]
    refine ⟨checked_snoc h1.checked ⟨Nat.zero_lt_two, hno⟩, ?_⟩
    rw [noted_snoc]
    simp only [Registry.read, Registry.next, h1.items]

theorem upto_foot (hB : IsBiped cf kin E W S) (h : Upto E W S ops L) (f : Foot) (hL : Avoids L f.tid)
    (hc : taskCalls f.tid ops = []) :
    Upto E W S (ops ++ footTask cf f) (L ++ [.task .motion f.tid 1 cf.wFoot]) := by
  have h1 := h.task (tid := f.tid) (c := .se3 (.setKp (gain 6 cf.kpFoot))) (by rw [hB.foot f]; trivial)
  have h2 := h1.task (tid := f.tid) (c := .se3 (.setKd (damping 6 cf.kpFoot))) (by rw [hB.foot f]; trivial)
  have h3 := h2.addMotion hB.wFoot (biped_addable hB h2 (p := 1) (by rw [hB.foot f]; rfl) (cid_lt f).1 Nat.one_lt_two hL (by
    refine biped_rows hB (cid_lt f).1 (cid_lt f).2 ?_
    rw [taskCalls_append, taskCalls_append, hc]
    simp only [taskCalls, if_true, List.nil_append, List.cons_append, List.mem_cons, List.not_mem_nil, or_false]
    rintro c (rfl | rfl) <;> trivial))
  rwa [List.append_assoc, List.append_assoc] at h3

theorem upto_body (hB : IsBiped cf kin E W S) (h : Upto E W S ops L) (hL : ∀ fam t p k, Item.task fam t p k ∉ L)
    (hc : ∀ tid, taskCalls tid ops = []) :
    Upto E W S (ops ++ bodyTasks cf) (L ++ [.task .motion 0 1 cf.wCom, .task .force 1 1 cf.wCop, .task .motion 2 1 cf.wAm,
      .task .motion 3 1 cf.wPosture]) := by
  have a1 := h.task (tid := 0) (c := .com (.setKp (gain 3 cf.kpCom))) (by rw [hB.com]; trivial)
  have a2 := a1.task (tid := 0) (c := .com (.setKd (damping 3 cf.kpCom))) (by rw [hB.com]; trivial)
  have a3 := a2.addMotion hB.wCom (biped_addable hB a2 (tid := 0) (p := 1) (by rw [hB.com]; rfl) (by decide) Nat.one_lt_two
    (fun _ _ _ _ hm => absurd hm (hL _ _ _ _)) (biped_rows hB (by decide) (by decide) (by
      simp only [taskCalls_append, hc, taskCalls, if_true, List.nil_append, List.cons_append, List.mem_cons, List.not_mem_nil, or_false]
      rintro c (rfl | rfl) <;> trivial)))
  have a4 := a3.addForce hB.wCop (biped_addable hB a3 (tid := 1) (p := 1) (by rw [hB.cop]; rfl) (by decide) Nat.one_lt_two
    (by
      intro fam t p k hm
      simp only [List.mem_append, hL, false_or, List.mem_singleton, Item.task.injEq] at hm
      obtain ⟨-, rfl, -⟩ := hm
      exact ⟨by decide, by decide⟩) (biped_rows hB (by decide) (by decide) (by
      simp [taskCalls_append, hc, taskCalls])))
  have a5 := a4.task (tid := 2) (c := .am (.setKp ⟨3, fun i => if i < 2 then cf.kpAm else 0⟩)) (by rw [hB.am]; trivial)
  have a6 := a5.task (tid := 2) (c := .am (.setKd ⟨3, fun i => 2 * sqrt (if i < 2 then cf.kpAm else 0)⟩))
    (by rw [hB.am]; trivial)
  have a7 := a6.addMotion hB.wAm (biped_addable hB a6 (tid := 2) (p := 1) (by rw [hB.am]; rfl) (by decide) Nat.one_lt_two
    (by
      intro fam t p k hm
      simp only [List.mem_append, hL, false_or, List.mem_singleton, Item.task.injEq] at hm
      rcases hm with ⟨-, rfl, -⟩ | ⟨-, rfl, -⟩ <;> exact ⟨by decide, by decide⟩) (biped_rows hB (by decide) (by decide) (by
      simp only [taskCalls_append, hc, taskCalls, List.nil_append, List.append_nil]
      intro c hm
      simp at hm
      rcases hm with rfl | rfl <;> trivial)))
  have a8 := a7.task (tid := 2) (c := .am (.setReference (Sample.zero 3 3))) (by rw [hB.am]; exact ⟨rfl, rfl⟩)
  have a9 := a8.task (tid := 3) (c := .posture (.setKp ⟨cf.gains.size, fun i => cf.kpPosture * cf.gains i⟩))
    (by rw [hB.posture]; exact ⟨trivial, fun _ _ e => (by cases e)⟩)
  have b1 := a9.task (tid := 3) (c := .posture (.setKd ⟨cf.gains.size, fun i => 2 * sqrt (cf.kpPosture * cf.gains i)⟩))
    (by rw [hB.posture]; exact ⟨trivial, fun _ _ e => (by cases e)⟩)
  have b2 := b1.task (tid := 3) (c := .posture (.setMask cf.mask))
    (by rw [hB.posture]; exact ⟨fun _ => hB.mask, fun _ _ e => (by cases e)⟩)
  have b3 := b2.addMotion hB.wPosture (biped_addable hB b2 (tid := 3) (p := 1) (by rw [hB.posture]; rfl) (by decide)
    Nat.one_lt_two
    (by
      intro fam t p k hm
      simp only [List.mem_append, hL, false_or, List.mem_singleton, Item.task.injEq] at hm
      rcases hm with (⟨-, rfl, -⟩ | ⟨-, rfl, -⟩) | ⟨-, rfl, -⟩ <;> exact ⟨by decide, by decide⟩)
    (by
      rw [hB.rows 3 (by decide), if_pos rfl, hB.posture]
      simp only [taskCalls_append, hc, taskCalls, List.nil_append, List.append_nil]
      simp [TaskDecl.rows, posture?, PostureSettings.afterAll, PostureSettings.after, hB.mask.1]))
  simp only [List.append_assoc, List.cons_append, List.nil_append] at b3
  exact b3

theorem upto_bounds (hB : IsBiped cf kin E W S) (h : Upto E W S ops L) (hL : ∀ fam t p k, Item.task fam t p k ∈ L → t < 6)
    (h6 : taskCalls 6 ops = []) (h7 : taskCalls 7 ops = []) :
    Upto E W S (ops ++ bounds cf) (L ++ (if 0 < cf.wTorque then [.task .actuation 6 0 cf.wTorque] else []) ++
      (if 0 < cf.wJoint then [.task .motion 7 0 cf.wJoint] else [])) := by
  have a1 := h.task (tid := 6) (c := .actBounds (.setBounds ⟨cf.tauMax.size, fun i => -cf.tauMax i⟩ cf.tauMax))
    (by rw [hB.torque]; trivial)
  have a2 : Upto E W S (ops ++ [.task 6 (.actBounds (.setBounds ⟨cf.tauMax.size, fun i => -cf.tauMax i⟩ cf.tauMax))] ++
      (if 0 < cf.wTorque then [.form (.addActuationTask 6 cf.wTorque 0 0)] else []))
      (L ++ (if 0 < cf.wTorque then [.task .actuation 6 0 cf.wTorque] else [])) := by
    by_cases hw : 0 < cf.wTorque
    · rw [if_pos hw, if_pos hw]
      refine a1.addActuation hw.le (biped_addable hB a1 (tid := 6) (p := 0) (by rw [hB.torque]; rfl) (by decide)
        Nat.zero_lt_two ?_ (biped_rows hB (by decide) (by decide) ?_))
      · intro fam t p k hm
        have := hL _ _ _ _ hm
        omega
      · rw [taskCalls_append, h6]
        simp only [taskCalls, if_true, List.nil_append, List.mem_cons, List.not_mem_nil, or_false]
        rintro c rfl
        trivial
    · rw [if_neg hw, if_neg hw, List.append_nil, List.append_nil]
      exact a1
  have a3 := a2.task (tid := 7) (c := .jointBounds (.setVelocityBounds ⟨cf.vMax.size, fun i => -cf.vMax i⟩ cf.vMax))
    (by rw [hB.joint]; exact fun v e => (by cases e))
  have e7 : ∀ c ∈ taskCalls 7 (ops ++ [Program.Op.task 6 (.actBounds (.setBounds ⟨cf.tauMax.size, fun i => -cf.tauMax i⟩ cf.tauMax))] ++
      (if 0 < cf.wTorque then [.form (.addActuationTask 6 cf.wTorque 0 0)] else []) ++
      [.task 7 (.jointBounds (.setVelocityBounds ⟨cf.vMax.size, fun i => -cf.vMax i⟩ cf.vMax))]), MaskFree c := by
    have e : taskCalls 7 (if 0 < cf.wTorque then [Program.Op.form (.addActuationTask 6 cf.wTorque 0 0)] else []) = [] := by
      split <;> rfl
    simp only [taskCalls_append, h7, e]
    intro c hm
    simp [taskCalls] at hm
    subst hm
    trivial
  have hL7 : Avoids (L ++ (if 0 < cf.wTorque then [Item.task .actuation 6 0 cf.wTorque] else [])) 7 := by
    intro fam t p k hm
    rcases List.mem_append.1 hm with hm | hm
    · have := hL _ _ _ _ hm
      omega
    · split at hm
      · simp only [List.mem_singleton, Item.task.injEq] at hm
        omega
      · cases hm
  by_cases hw : 0 < cf.wJoint
  · have a4 := a3.addMotion hw.le (biped_addable hB a3 (tid := 7) (p := 0) (by rw [hB.joint]; rfl) (by decide)
      Nat.zero_lt_two hL7 (biped_rows hB (by decide) (by decide) e7))
    simp only [bounds, if_pos hw]
    simp only [List.append_assoc] at a4 ⊢
    exact a4
  · simp only [bounds, if_neg hw, List.append_nil]
    simp only [List.append_assoc] at a3 ⊢
    exact a3

/-- The tasks of the constructor. -/
theorem upto_build (hB : IsBiped cf kin E W S) {q v : Vec K} (hv : v.size = E.robot.nv) (hq : E.robot.na ≤ q.size) :
    Upto E W S (build cf kin q v) ([footItem cf .right, footItem cf .left] ++ bodyItems cf cf.wCop) := by
  have hcyc : ∀ {ops : List (Program.Op K)} {p : Vec K}, E.robot.na ≤ p.size → Upto E W S ops [] →
      Upto E W S (ops ++ [.compute (kin p v) 0]) [] := by
    intro ops p hp h
    refine h.compute ⟨hB.snap p v hv, by rw [hB.config]; exact hp, ?_⟩
    intro fam tid p k hm
    rw [h.items] at hm
    cases hm
  have a1 := upto_gains hB (hcyc hq upto_nil) .right
  have a2 := hcyc (p := ground cf q (kin q v)) hq a1
  have a3 := upto_init hB a2 (grounded cf kin q v) .right (fun _ _ _ _ hm => (by cases hm))
  have a4 := upto_gains hB a3 .left
  have a5 := upto_init hB a4 (grounded cf kin q v) .left (by
    intro c p a b hm
    obtain ⟨x, y, z, e⟩ := footItem_eq cf .right
    rw [e, List.nil_append, List.mem_singleton] at hm
    cases hm
    rw [obj_name hB]
    decide)
  have hnil : ∀ tid, taskCalls tid ([] ++ [.compute (kin q v) 0] ++ contactGains cf .right ++
      [.compute (kin (ground cf q (kin q v)) v) 0] ++ initFoot cf (grounded cf kin q v) .right ++ contactGains cf .left ++
      initFoot cf (grounded cf kin q v) .left) = [] := by
    intro tid
    have e : ∀ w f, taskCalls tid (initFoot cf w f) = [] := by
      intro w f
      exact taskCalls_register cf f tid
    simp only [taskCalls_append, e]
    simp [taskCalls, contactGains]
  have a6 := upto_body hB a5 (by
    intro fam t p k hm
    simp only [List.nil_append, List.mem_append, List.mem_singleton] at hm
    rcases hm with hm | hm <;> exact footItem_ne hm.symm) hnil
  have hb : ∀ tid, 3 < tid → taskCalls tid (bodyTasks cf) = [] := by
    intro tid ht
    simp only [bodyTasks, taskCalls]
    simp [show ¬ 0 = tid by omega, show ¬ 2 = tid by omega, show ¬ 3 = tid by omega]
  have a7 := upto_foot hB a6 .left (by
    intro fam t p k hm
    simp only [List.nil_append, List.mem_append, List.mem_cons, List.not_mem_nil, or_false, Item.task.injEq,
      footItem_ne.symm, false_or] at hm
    rcases hm with ⟨-, rfl, -⟩ | ⟨-, rfl, -⟩ | ⟨-, rfl, -⟩ | ⟨-, rfl, -⟩ <;> decide) (by
    rw [taskCalls_append, hnil, hb _ (by decide)]; rfl)
  have a8 := upto_foot hB a7 .right (by
    intro fam t p k hm
    simp only [List.nil_append, List.mem_append, List.mem_cons, List.not_mem_nil, or_false, Item.task.injEq,
      footItem_ne.symm, false_or] at hm
    rcases hm with (⟨-, rfl, -⟩ | ⟨-, rfl, -⟩ | ⟨-, rfl, -⟩ | ⟨-, rfl, -⟩) | ⟨-, rfl, -⟩ <;> decide) (by
    rw [taskCalls_append, taskCalls_append, hnil, hb _ (by decide)]; rfl)
  have a9 := upto_bounds hB a8 (by
    intro fam t p k hm
    simp only [List.nil_append, List.mem_append, List.mem_cons, List.not_mem_nil, or_false, Item.task.injEq,
      footItem_ne.symm, false_or] at hm
    rcases hm with ((⟨-, rfl, -⟩ | ⟨-, rfl, -⟩ | ⟨-, rfl, -⟩ | ⟨-, rfl, -⟩) | ⟨-, rfl, -⟩) | ⟨-, rfl, -⟩ <;> decide)
    (by rw [taskCalls_append, taskCalls_append, taskCalls_append, hnil, hb _ (by decide)]; rfl)
    (by rw [taskCalls_append, taskCalls_append, taskCalls_append, hnil, hb _ (by decide)]; rfl)
  have b1 := a9.task (tid := 3)
    (c := .posture (.setReference (EuclidianConstant.newWith ⟨(ground cf q (kin q v)).size - 7, fun i => (ground cf q (kin q v)) (i + 7)⟩)))
    (by rw [hB.posture]; exact ⟨trivial, fun _ _ e => (by cases e)⟩)
  unfold bodyItems Biped.build
  simp only [List.append_assoc, List.cons_append, List.nil_append] at b1 ⊢
  exact b1


/-! ## The methods -/

theorem uses_snoc (cf : Conf K) (kin : Vec K → Vec K → Snapshot K) : ∀ (s : St K) (cs : List (Call K)) (c : Call K),
    uses cf kin s (cs ++ [c]) =
      ((uses cf kin s cs).1 ++ (use cf kin (uses cf kin s cs).2 c).1, (use cf kin (uses cf kin s cs).2 c).2)
  | s, [], c => by simp [uses]
  | s, d :: cs, c => by
    simp only [List.cons_append, uses, uses_snoc cf kin _ cs c, List.append_assoc]

/-- The members of the class after a sequence of calls. -/
def memberAfter (cf : Conf K) (kin : Vec K → Vec K → Snapshot K) (q v : Vec K) (cs : List (Call K)) : St K :=
  (uses cf kin (start cf kin q v) cs).2

theorem text_snoc (q v : Vec K) (cs : List (Call K)) (c : Call K) :
    text cf kin q v (cs ++ [c]) = text cf kin q v cs ++ (use cf kin (memberAfter cf kin q v cs) c).1 := by
  unfold text memberAfter
  rw [uses_snoc, List.append_assoc]

theorem member_snoc (q v : Vec K) (cs : List (Call K)) (c : Call K) :
    memberAfter cf kin q v (cs ++ [c]) = (use cf kin (memberAfter cf kin q v cs) c).2 := by
  unfold memberAfter
  rw [uses_snoc]

theorem poseSample_eq (M : SE3 K) : poseSample M =
    ⟨⟨12, fun i => if i < 3 then M.trans.get i else M.rot.get ((i - 3) % 3) ((i - 3) / 3)⟩, Vec.zero 6, Vec.zero 6⟩ := by
  unfold poseSample SE3Constant.newWith SE3Constant.setReference
  simp only [toVector_some M (v := (Sample.zero 12 6 : Sample K).pos) rfl]
  rfl

/-- The samples that the class keeps: only the first three entries change. -/
structure Keeps (M : SE3 K) (k : Sample K) : Prop where
  pos : k.pos.size = 12
  vel : k.vel.size = 6
  acc : k.acc.size = 6
  rot : ∀ i, 3 ≤ i → k.pos i = (poseSample M).pos i
  angVel : ∀ i, 3 ≤ i → k.vel i = 0
  angAcc : ∀ i, 3 ≤ i → k.acc i = 0

theorem keeps_pose (M : SE3 K) : Keeps M (poseSample M) := by
  rw [poseSample_eq]
  exact ⟨rfl, rfl, rfl, fun i _ => by rw [poseSample_eq], fun _ _ => rfl, fun _ _ => rfl⟩

theorem Keeps.replace {M : SE3 K} {k : Sample K} (h : Keeps M k) (pos vel acc : V3 K) :
    Keeps M (replaceSample k pos vel acc) := by
  refine ⟨h.pos, h.vel, h.acc, fun i hi => ?_, fun i hi => ?_, fun i hi => ?_⟩
  · show (if i < 3 then pos.get i else k.pos i) = _
    rw [if_neg (by omega)]
    exact h.rot i hi
  · show (if i < 3 then vel.get i else k.vel i) = _
    rw [if_neg (by omega)]
    exact h.angVel i hi
  · show (if i < 3 then acc.get i else k.acc i) = _
    rw [if_neg (by omega)]
    exact h.angAcc i hi

theorem stands_snoc (f : Foot) (cs : List (Call K)) (c : Call K) : stands f (cs ++ [c]) =
    match c with
    | .add g => if g = f then true else stands f cs
    | .remove g _ => if g = f then false else stands f cs
    | _ => stands f cs := by
  unfold stands
  rw [List.foldl_append]
  rfl

theorem copWeight_snoc (cs : List (Call K)) (c : Call K) : copWeight cf (cs ++ [c]) =
    match c with
    | .weighCop w => w
    | _ => copWeight cf cs := by
  unfold copWeight
  rw [List.foldl_append]
  rfl

theorem lastSeen_snoc (w : Snapshot K) (cs : List (Call K)) (c : Call K) : lastSeen kin w (cs ++ [c]) =
    match c with
    | .cycle _ q v => kin q v
    | _ => lastSeen kin w cs := by
  unfold lastSeen
  rw [List.foldl_append]
  rfl

theorem mem_feet {f : Foot} {cs : List (Call K)} : f ∈ feet cs ↔ stands f cs = true := by
  unfold feet
  rw [List.mem_filter]
  cases f <;> simp

theorem feet_add {f : Foot} {cs : List (Call K)} (h : stands f cs = false) : (feet (cs ++ [.add f])).Perm (feet cs ++ [f]) := by
  unfold feet
  simp only [stands_snoc]
  cases f <;> simp only [List.filter_cons, List.filter_nil, h, if_true, reduceCtorEq, if_false, Bool.false_eq_true]
  · cases stands Foot.left cs
    · simp
    · simpa using List.Perm.swap _ _ _
  · cases stands Foot.right cs <;> simp

theorem feet_remove {f : Foot} {cs : List (Call K)} {t : K} :
    feet (cs ++ [.remove f t]) = (feet cs).filter fun g => !decide (g = f) := by
  unfold feet
  simp only [stands_snoc, List.filter_filter]
  cases f <;> simp [List.filter_cons]

theorem feet_same {cs : List (Call K)} {c : Call K} (h : ∀ f, stands f (cs ++ [c]) = stands f cs) :
    feet (cs ++ [c]) = feet cs := by
  unfold feet
  simp only [h]

theorem body_task {it : Item K} {k : K} (h : it ∈ bodyItems cf k) : ∃ fam t p w, it = .task fam t p w ∧ t < 8 := by
  simp only [bodyItems, List.mem_append, List.mem_cons, List.not_mem_nil, or_false] at h
  rcases h with ((rfl | rfl | rfl | rfl | rfl | rfl) | h) | h
  case inl.inr =>
    split at h
    · rw [List.mem_singleton] at h; exact ⟨_, _, _, _, h, by decide⟩
    · cases h
  case inr =>
    split at h
    · rw [List.mem_singleton] at h; exact ⟨_, _, _, _, h, by decide⟩
    · cases h
  all_goals exact ⟨_, _, _, _, rfl, by decide⟩

theorem body_level {fam : Family} {t : Nat} {w k : K} (h : Item.task fam t 1 w ∈ bodyItems cf k) : t < 6 := by
  have one : ∀ {P : Prop} [Decidable P] {fam' : Family} {t' : Nat} {w' : K},
      Item.task fam t 1 w ∉ (if P then [Item.task fam' t' 0 w'] else []) := by
    intro P _ fam' t' w' h
    split at h
    · simp at h
    · cases h
  simp only [bodyItems, List.mem_append, one, or_false, List.mem_cons, List.not_mem_nil, Item.task.injEq] at h
  rcases h with ⟨-, rfl, -⟩ | ⟨-, rfl, -⟩ | ⟨-, rfl, -⟩ | ⟨-, rfl, -⟩ | ⟨-, rfl, -⟩ | ⟨-, rfl, -⟩ <;> decide

/-- The goal in the settings of a task of a frame. -/
def goalOf (p : FrameSettings K) : Goal K := ⟨p.pose, p.vel, p.acc⟩

/-- The settings of the task of a foot after a text. -/
def footSettings (f : Foot) (ops : List (Program.Op K)) : FrameSettings K :=
  (FrameSettings.fresh (K := K)).afterAll ((taskCalls f.tid ops).filterMap se3?)

/-- The settings of the contact of a foot after a text. -/
def contactSettings (f : Foot) (ops : List (Program.Op K)) : FrameSettings K :=
  (FrameSettings.fresh (K := K)).afterAll ((contactCalls f.cid ops).filterMap sixD?)

theorem settings_afterAll_append (p : FrameSettings K) : ∀ a b : List (SE3Task.Op K),
    p.afterAll (a ++ b) = (p.afterAll a).afterAll b := by
  intro a
  induction a generalizing p with
  | nil => intro b; rfl
  | cons o a ih => intro b; exact ih _ b

/-- What holds after a sequence of proper calls. -/
structure Inv (cf : Conf K) (kin : Vec K → Vec K → Snapshot K) (E : Program.Env K) (W : World) (S : Setup K) (q v : Vec K)
    (cs : List (Call K)) : Prop where
  upto : ∃ L, Upto E W S (text cf kin q v cs) L ∧ L.Perm (itemsOf cf cs)
  free : ∀ tid, tid ≠ 3 → ∀ c ∈ taskCalls tid (text cf kin q v cs), MaskFree c
  posture : taskCalls 3 (text cf kin q v cs) = taskCalls 3 (build cf kin q v)
  active : ∀ f, (memberAfter cf kin q v cs).active f = stands f cs
  data : (memberAfter cf kin q v cs).data = lastSeen kin (grounded cf kin q v) cs
  kept : ∀ f, Keeps (placement cf (grounded cf kin q v) f) ((memberAfter cf kin q v cs).kept f)
  goal : ∀ f, goalOf (footSettings f (text cf kin q v cs)) = footGoal cf kin (grounded cf kin q v) f cs.reverse
  stays : ∀ f, contactSettings f (text cf kin q v cs) =
    { FrameSettings.fresh with
      kp := gain 6 cf.kpContact, kd := damping 6 cf.kpContact
      pose := contactGoal cf kin (grounded cf kin q v) f cs.reverse }

theorem footSettings_append (f : Foot) (a b : List (Program.Op K)) :
    footSettings f (a ++ b) = (footSettings f a).afterAll ((taskCalls f.tid b).filterMap se3?) := by
  unfold footSettings
  rw [taskCalls_append, List.filterMap_append, settings_afterAll_append]

theorem contactSettings_append (f : Foot) (a b : List (Program.Op K)) :
    contactSettings f (a ++ b) = (contactSettings f a).afterAll ((Spec.contactCalls f.cid b).filterMap sixD?) := by
  unfold contactSettings
  rw [Props.contactCalls_append, List.filterMap_append, settings_afterAll_append]

theorem contactCalls_register (cf : Conf K) (f : Foot) (cid : Nat) : Spec.contactCalls cid [register cf f] = [] := by
  unfold register
  split <;> rfl

theorem taskCalls_init (w : Snapshot K) (f : Foot) (tid : Nat) : taskCalls tid (initFoot cf w f) = [] := taskCalls_register cf f tid

theorem contactCalls_init (w : Snapshot K) (f : Foot) (cid : Nat) : Spec.contactCalls cid (initFoot cf w f) =
    if f.cid = cid then [.setReference (placement cf w f)] else [] := by
  show (if f.cid = cid then _ :: Spec.contactCalls cid [register cf f] else Spec.contactCalls cid [register cf f]) = _
  rw [contactCalls_register]

theorem taskCalls_bounds (tid : Nat) : taskCalls tid (bounds cf) =
    (if 6 = tid then [.actBounds (.setBounds ⟨cf.tauMax.size, fun i => -cf.tauMax i⟩ cf.tauMax)] else []) ++
    (if 7 = tid then [.jointBounds (.setVelocityBounds ⟨cf.vMax.size, fun i => -cf.vMax i⟩ cf.vMax)] else []) := by
  have e : taskCalls tid (if 0 < cf.wTorque then [Program.Op.form (.addActuationTask 6 cf.wTorque 0 0)] else []) = [] := by
    split <;> rfl
  have e' : taskCalls tid (if 0 < cf.wJoint then [Program.Op.form (.addMotionTask 7 cf.wJoint 0 0)] else []) = [] := by
    split <;> rfl
  simp only [bounds, taskCalls_append, e, e', List.append_nil]
  rfl

theorem contactCalls_bounds (cid : Nat) : Spec.contactCalls cid (bounds cf) = [] := by
  unfold bounds
  split <;> split <;> rfl

theorem base_free (q v : Vec K) {tid : Nat} (ht : tid ≠ 3) : ∀ c ∈ taskCalls tid (Biped.build cf kin q v), MaskFree c := by
  intro c hm
  simp only [Biped.build, taskCalls_append, taskCalls_init, taskCalls_bounds, List.mem_append] at hm
  have h3 : ¬ 3 = tid := fun e => ht e.symm
  simp only [contactGains, bodyTasks, footTask, taskCalls, if_neg h3] at hm
  have one : ∀ {P : Prop} [Decidable P] {x : TaskCall K}, MaskFree x → c ∈ (if P then [x] else []) → MaskFree c := by
    intro P _ x hx h
    split at h
    · rw [List.mem_singleton] at h; rw [h]; exact hx
    · cases h
  have cons : ∀ {P : Prop} [Decidable P] {x : TaskCall K} {l : List (TaskCall K)}, MaskFree x → (c ∈ l → MaskFree c) →
      c ∈ (if P then x :: l else l) → MaskFree c := by
    intro P _ x l hx hl h
    split at h
    · rcases List.mem_cons.1 h with rfl | h
      · exact hx
      · exact hl h
    · exact hl h
  have nil : c ∈ ([] : List (TaskCall K)) → MaskFree c := fun h => (by cases h)
  rcases hm with (((((((((h | h) | h) | h) | h) | h) | h) | h) | h) | h | h) | h
  all_goals first
    | (cases h; done)
    | exact one (by trivial) h
    | exact cons (by trivial) (cons (by trivial) nil) h
    | exact cons (by trivial) (cons (by trivial) (cons (by trivial) (cons (by trivial) (cons (by trivial) nil)))) h

theorem base_goal (q v : Vec K) (f : Foot) : goalOf (footSettings f (Biped.build cf kin q v)) =
    footGoal cf kin (grounded cf kin q v) f [] := by
  have e : taskCalls f.tid (Biped.build cf kin q v) =
      [.se3 (.setKp (gain 6 cf.kpFoot)), .se3 (.setKd (damping 6 cf.kpFoot))] := by
    simp only [Biped.build, taskCalls_append, taskCalls_init, taskCalls_bounds]
    cases f <;> simp [contactGains, bodyTasks, footTask, taskCalls, Foot.tid]
  unfold footSettings
  rw [e]
  simp [se3?, FrameSettings.afterAll, FrameSettings.after, gain, damping, goalOf, FrameSettings.fresh, footGoal]

theorem base_stays (q v : Vec K) (f : Foot) : contactSettings f (Biped.build cf kin q v) =
    { FrameSettings.fresh with
      kp := gain 6 cf.kpContact, kd := damping 6 cf.kpContact
      pose := contactGoal cf kin (grounded cf kin q v) f [] } := by
  have e : Spec.contactCalls f.cid (Biped.build cf kin q v) =
      [.setKp (gain 6 cf.kpContact), .setKd (damping 6 cf.kpContact), .setReference (placement cf (grounded cf kin q v) f)] := by
    simp only [Biped.build, Props.contactCalls_append, contactCalls_init, contactCalls_bounds]
    cases f <;> simp [contactGains, bodyTasks, footTask, Spec.contactCalls, Foot.cid]
  unfold contactSettings
  rw [e]
  simp [sixD?, FrameSettings.afterAll, FrameSettings.after, gain, damping, FrameSettings.fresh, contactGoal, placement]

theorem inv_nil (hB : IsBiped cf kin E W S) {q v : Vec K} (hv : v.size = E.robot.nv) (hq : E.robot.na ≤ q.size) :
    Inv cf kin E W S q v [] := by
  have e : text cf kin q v [] = Biped.build cf kin q v := List.append_nil _
  refine ⟨⟨_, by rw [e]; exact upto_build hB hv hq, List.perm_append_comm⟩, ?_, ?_, fun _ => rfl, rfl, fun f => keeps_pose _,
    ?_, ?_⟩
  · rw [e]; exact fun tid ht => base_free q v ht
  · rw [e]
  · rw [e]; exact fun f => base_goal q v f
  · rw [e]; exact fun f => base_stays q v f

theorem items_same {cs : List (Call K)} {c : Call K} (h : ∀ f, stands f (cs ++ [c]) = stands f cs)
    (hk : copWeight cf (cs ++ [c]) = copWeight cf cs) : itemsOf cf (cs ++ [c]) = itemsOf cf cs := by
  unfold itemsOf
  rw [feet_same h, hk]

theorem items_contact {cs : List (Call K)} {c p : Nat} {a b : K} (h : Item.contact c p a b ∈ itemsOf cf cs) :
    ∃ f, stands f cs = true ∧ c = f.cid := by
  rcases List.mem_append.1 h with h | h
  · obtain ⟨_, _, _, _, e, -⟩ := body_task h
    cases e
  · obtain ⟨f, hf, e⟩ := List.mem_map.1 h
    obtain ⟨x, y, z, e'⟩ := footItem_eq cf f
    rw [e'] at e
    cases e
    exact ⟨f, mem_feet.1 hf, rfl⟩

theorem items_task {cs : List (Call K)} {fam : Family} {t p : Nat} {k : K} (h : Item.task fam t p k ∈ itemsOf cf cs) :
    Item.task fam t p k ∈ bodyItems cf (copWeight cf cs) := by
  rcases List.mem_append.1 h with h | h
  · exact h
  · obtain ⟨f, hf, e⟩ := List.mem_map.1 h
    exact absurd e footItem_ne

theorem posture_calls (q v : Vec K) : taskCalls 3 (Biped.build cf kin q v) =
    [.posture (.setKp ⟨cf.gains.size, fun i => cf.kpPosture * cf.gains i⟩),
     .posture (.setKd ⟨cf.gains.size, fun i => 2 * sqrt (cf.kpPosture * cf.gains i)⟩), .posture (.setMask cf.mask),
     .posture (.setReference (EuclidianConstant.newWith
       ⟨(ground cf q (kin q v)).size - 7, fun i => (ground cf q (kin q v)) (i + 7)⟩))] := by
  simp only [Biped.build, taskCalls_append, taskCalls_init, taskCalls_bounds]
  simp [contactGains, bodyTasks, footTask, taskCalls, Foot.tid]

theorem posture_rows (hB : IsBiped cf kin E W S) {q v : Vec K} (h : taskCalls 3 ops = taskCalls 3 (Biped.build cf kin q v)) :
    (W.task 3).rows = (S.decl 3).rows E.robot (taskCalls 3 ops) := by
  rw [hB.rows 3 (by decide), if_pos rfl, hB.posture, h, posture_calls]
  have e : ∀ p : PostureSettings K, ∀ r, (p.after E.robot (.setReference r)).mask = p.mask := fun p r => posture_mask (by trivial) p
  have ek : ∀ p : PostureSettings K, ∀ r, (p.after E.robot (.setKp r)).mask = p.mask := fun p r => posture_mask (by trivial) p
  have ed : ∀ p : PostureSettings K, ∀ r, (p.after E.robot (.setKd r)).mask = p.mask := fun p r => posture_mask (by trivial) p
  have em : ∀ p : PostureSettings K, (p.after E.robot (.setMask cf.mask)).mask = cf.mask := by
    intro p
    simp only [PostureSettings.after]
    rw [if_pos hB.mask.1]
  simp only [TaskDecl.rows, posture?, List.filterMap_cons, List.filterMap_nil, PostureSettings.afterAll, List.foldl, e, em]

theorem map_body (hB : IsBiped cf kin E W S) (k w : K) :
    (bodyItems cf k).map (Item.setWeight W (fun c => (S.obj c).name) "task-cop" w) = bodyItems cf w := by
  have hn : ∀ tid, tid < 8 → ((W.task tid).cname = "task-cop" ↔ tid = 1) := by
    intro tid ht
    rw [(hB.declared.hygienic tid).1, hB.name tid ht]
    exact ⟨fun e => bipedName_inj tid ht 1 (by decide) e, fun e => by subst e; rfl⟩
  simp only [bodyItems, List.map_append, List.map_cons, List.map_nil, Item.setWeight, hn 0 (by decide), hn 1 (by decide),
    hn 2 (by decide), hn 3 (by decide), hn 4 (by decide), hn 5 (by decide)]
  congr 1
  · congr 1
    split
    · simp [Item.setWeight]
    · rfl
  · split
    · simp [Item.setWeight]
    · rfl

theorem map_feet (hB : IsBiped cf kin E W S) (w : K) (f : Foot) :
    Item.setWeight W (fun c => (S.obj c).name) "task-cop" w (footItem cf f) = footItem cf f := by
  have h1 : (S.obj f.cid).name ++ "_motion_task" ≠ "task-cop" := by rw [obj_name hB]; cases f <;> decide
  have h2 : (S.obj f.cid).name ++ "_force_reg_task" ≠ "task-cop" := by rw [obj_name hB]; cases f <;> decide
  unfold footItem
  split <;> simp only [Item.setWeight, h1, h2, false_and, if_false]

theorem filter_items (hB : IsBiped cf kin E W S) (cs : List (Call K)) (f : Foot) (t : K) :
    (itemsOf cf cs).filter (fun it => !it.isContact (fun c => (S.obj c).name) f.contactName) =
      itemsOf cf (cs ++ [.remove f t]) := by
  unfold itemsOf
  rw [List.filter_append, copWeight_snoc, feet_remove, List.filter_map]
  congr 1
  · rw [List.filter_eq_self]
    intro it hm
    obtain ⟨_, _, _, _, rfl, -⟩ := body_task hm
    rfl
  · congr 1
    apply List.filter_congr
    intro g hg
    obtain ⟨x, y, z, e⟩ := footItem_eq cf g
    simp only [Function.comp, e, Item.isContact, obj_name hB]
    congr 1
    rw [Bool.eq_iff_iff, beq_iff_eq, decide_eq_true_iff]
    exact ⟨cid_inj, fun e => by rw [e]⟩

theorem inv_upto (hB : IsBiped cf kin E W S) {q v : Vec K} {cs : List (Call K)} (h : Inv cf kin E W S q v cs) {c : Call K}
    (hm : MayUse E.robot cs c) : ∃ L, Upto E W S (text cf kin q v (cs ++ [c])) L ∧ L.Perm (itemsOf cf (cs ++ [c])) := by
  obtain ⟨L, hu, hp⟩ := h.upto
  rw [text_snoc]
  cases c with
  | setCom pos vel acc =>
    refine ⟨L, hu.task (by rw [hB.com]; exact ⟨rfl, rfl, rfl⟩), ?_⟩
    rwa [items_same (fun f => stands_snoc f cs _) (copWeight_snoc cs _)]
  | setFoot f pos vel acc =>
    refine ⟨L, hu.task (by rw [hB.foot f]; exact fun _ => ⟨((h.kept f).replace pos vel acc).vel, ((h.kept f).replace pos vel acc).acc⟩), ?_⟩
    rwa [items_same (fun f => stands_snoc f cs _) (copWeight_snoc cs _)]
  | setCop x =>
    refine ⟨L, hu.task (by rw [hB.cop]; exact ⟨fun _ _ e => (by cases e), fun _ _ e => (by cases e)⟩), ?_⟩
    rwa [items_same (fun f => stands_snoc f cs _) (copWeight_snoc cs _)]
  | remove f t =>
    have hs := hu.task (tid := f.tid) (c := .se3 (.setReference (poseSample (placement cf (memberAfter cf kin q v cs).data f))))
      (by rw [hB.foot f]; exact fun _ => ⟨(keeps_pose _).vel, (keeps_pose _).acc⟩)
    have hin : footItem cf f ∈ L := hp.mem_iff.2 (List.mem_append_right _ (List.mem_map_of_mem (mem_feet.2 hm.1)))
    refine ⟨L.filter (fun it => !it.isContact (fun c => (S.obj c).name) f.contactName), ?_, ?_⟩
    · have e : ∀ a b : Program.Op K, text cf kin q v cs ++ [a, b] = text cf kin q v cs ++ [a] ++ [b] := by simp
      simp only [use, e]
      refine ⟨checked_snoc hs.checked ⟨hm.2, fun _ => ⟨footItem cf f, by rw [hs.items]; exact hin, ?_⟩⟩, ?_⟩
      · obtain ⟨x, y, z, e⟩ := footItem_eq cf f
        simp only [e, Item.isContact, obj_name hB, beq_self_eq_true]
      · rw [noted_snoc]
        simp only [Registry.read, Registry.next, refused, Bool.false_eq_true, if_false, if_neg (not_lt.2 hm.2),
          Registry.dropContact, hs.items]
    · rw [← filter_items hB]
      exact hp.filter _
  | add f =>
    refine ⟨L ++ [footItem cf f], upto_init hB hu _ f ?_, ?_⟩
    · intro c p a b hmem e
      obtain ⟨g, hg, rfl⟩ := items_contact (hp.mem_iff.1 hmem)
      rw [obj_name hB] at e
      rw [cid_inj e, show stands f cs = false from hm] at hg
      cases hg
    · refine (hp.append_right _).trans ?_
      unfold itemsOf
      rw [copWeight_snoc, List.append_assoc]
      refine List.Perm.append_left _ ?_
      rw [show [footItem cf f] = [f].map (footItem cf) from rfl, ← List.map_append]
      exact ((feet_add hm).map _).symm
  | weighCop w =>
    refine ⟨L.map (Item.setWeight W (fun c => (S.obj c).name) "task-cop" w), ⟨checked_snoc hu.checked trivial, ?_⟩, ?_⟩
    · simp only [use]
      rw [noted_snoc]
      simp only [Registry.read, Registry.next, hu.items]
    · have e : (itemsOf cf cs).map (Item.setWeight W (fun c => (S.obj c).name) "task-cop" w) =
          itemsOf cf (cs ++ [.weighCop w]) := by
        unfold itemsOf
        rw [List.map_append, map_body hB, copWeight_snoc, feet_same fun f => stands_snoc f cs _, List.map_map]
        congr 1
        exact List.map_congr_left fun g _ => map_feet hB w g
      rw [← e]
      exact hp.map _
  | cycle t q' v' =>
    refine ⟨L, hu.compute ⟨hB.snap q' v' hm.1, by rw [hB.config]; exact hm.2, ?_⟩, ?_⟩
    · rw [hu.items]
      intro fam tid p k hmem
      obtain ⟨_, t', _, _, e, ht⟩ := body_task (items_task (hp.mem_iff.1 hmem))
      cases e
      refine ⟨hB.kind tid ht, ?_, ?_⟩
      · by_cases h3 : tid = 3
        · subst h3
          exact posture_rows hB h.posture
        · exact biped_rows hB ht h3 (h.free tid h3)
      · refine biped_cases hB (P := fun d => d.Supported E.robot S.obj (L.filterMap Item.cid?) (taskCalls tid (text cf kin q v cs)))
          ht trivial ?_ trivial trivial (fun _ => trivial) trivial fun _ => trivial
        intro cid hc
        obtain ⟨it, hi, e⟩ := List.mem_filterMap.1 hc
        cases it with
        | task => cases e
        | contact c p a b =>
          cases e
          obtain ⟨g, -, rfl⟩ := items_contact (hp.mem_iff.1 hi)
          rw [obj_kind hB]
          decide
    · rwa [items_same (fun f => stands_snoc f cs _) (copWeight_snoc cs _)]

theorem goal_kept (p : FrameSettings K) {M : SE3 K} {k : Sample K} (hk : Keeps M k) (pos vel acc : V3 K) :
    goalOf (p.after (.setReference (replaceSample k pos vel acc))) =
      ⟨⟨M.rot, pos⟩, ⟨vel, ⟨0, 0, 0⟩⟩, ⟨acc, ⟨0, 0, 0⟩⟩⟩ := by
  have hr := hk.rot
  simp only [poseSample_eq] at hr
  simp only [FrameSettings.after]
  rw [if_pos (show (replaceSample k pos vel acc).pos.size = 12 from hk.pos)]
  simp only [goalOf, replaceSample, replace3]
  simp only [show (0 : Nat) < 3 from by decide, show (1 : Nat) < 3 from by decide, show (2 : Nat) < 3 from by decide,
    show ¬ (3 : Nat) < 3 from by decide, show ¬ (4 : Nat) < 3 from by decide, show ¬ (5 : Nat) < 3 from by decide,
    show ¬ (6 : Nat) < 3 from by decide, show ¬ (7 : Nat) < 3 from by decide, show ¬ (8 : Nat) < 3 from by decide,
    show ¬ (9 : Nat) < 3 from by decide, show ¬ (10 : Nat) < 3 from by decide, show ¬ (11 : Nat) < 3 from by decide,
    if_true, if_false, hk.angVel 3 (by decide), hk.angVel 4 (by decide), hk.angVel 5 (by decide), hk.angAcc 3 (by decide),
    hk.angAcc 4 (by decide), hk.angAcc 5 (by decide), hr 3 (by decide), hr 4 (by decide), hr 5 (by decide), hr 6 (by decide),
    hr 7 (by decide), hr 8 (by decide), hr 9 (by decide), hr 10 (by decide), hr 11 (by decide)]
  rfl

theorem goal_pose (p : FrameSettings K) (M : SE3 K) :
    goalOf (p.after (.setReference (poseSample M))) =
      ⟨M, ⟨⟨0, 0, 0⟩, ⟨0, 0, 0⟩⟩, ⟨⟨0, 0, 0⟩, ⟨0, 0, 0⟩⟩⟩ := by
  rw [poseSample_eq]
  rfl

theorem inv_snoc (hB : IsBiped cf kin E W S) {q v : Vec K} {cs : List (Call K)} (h : Inv cf kin E W S q v cs) {c : Call K}
    (hm : MayUse E.robot cs c) : Inv cf kin E W S q v (cs ++ [c]) where
  upto := inv_upto hB h hm
  free := by
    intro tid ht d hd
    rw [text_snoc, taskCalls_append] at hd
    rcases List.mem_append.1 hd with hd | hd
    · exact h.free tid ht d hd
    · cases c with
      | add f => rw [show (use cf kin _ (.add f)).1 = initFoot cf (memberAfter cf kin q v cs).data f from rfl, taskCalls_init] at hd; cases hd
      | _ =>
        simp only [use, taskCalls] at hd
        first
          | (cases hd; done)
          | (split at hd
             · rw [List.mem_singleton] at hd; subst hd; trivial
             · cases hd)
  posture := by
    rw [text_snoc, taskCalls_append, h.posture]
    cases c with
    | add f => rw [show (use cf kin _ (.add f)).1 = initFoot cf (memberAfter cf kin q v cs).data f from rfl, taskCalls_init, List.append_nil]
    | setFoot f pos vel acc => simp only [use, taskCalls, if_neg (cid_lt f).2, List.append_nil]
    | remove f t => simp only [use, taskCalls, if_neg (cid_lt f).2, List.append_nil]
    | _ => simp [use, taskCalls]
  active := by
    intro f
    rw [member_snoc, stands_snoc]
    cases c with
    | add g =>
      simp only [use, Function.update_apply, h.active, eq_comm]
    | remove g t => simp only [use, Function.update_apply, h.active, eq_comm]
    | _ => exact h.active f
  data := by
    rw [member_snoc, lastSeen_snoc]
    cases c with
    | cycle t q v => rfl
    | _ => exact h.data
  kept := by
    intro f
    rw [member_snoc]
    cases c with
    | setFoot g pos vel acc =>
      simp only [use, Function.update_apply]
      split
      · rename_i e
        subst e
        exact (h.kept f).replace pos vel acc
      · exact h.kept f
    | _ => exact h.kept f
  goal := by
    intro f
    rw [text_snoc, footSettings_append, List.reverse_append, List.reverse_singleton, List.singleton_append]
    have hg := h.goal f
    have ht : ∀ g : Foot, g.tid = f.tid ↔ g = f := by intro g; cases f <;> cases g <;> decide
    cases c with
    | add g =>
      rw [show (use cf kin _ (.add g)).1 = initFoot cf (memberAfter cf kin q v cs).data g from rfl, taskCalls_init]
      simp only [footGoal, List.filterMap_nil, FrameSettings.afterAll]
      exact hg
    | setFoot g pos vel acc =>
      simp only [use, taskCalls, ht, footGoal]
      by_cases e : g = f
      · subst e
        rw [if_pos rfl, if_pos rfl]
        exact goal_kept _ (h.kept g) pos vel acc
      · rw [if_neg e, if_neg e, List.filterMap_nil]
        simp only [FrameSettings.afterAll]
        exact hg
    | remove g t =>
      simp only [use, taskCalls, ht, footGoal]
      by_cases e : g = f
      · subst e
        rw [if_pos rfl, if_pos rfl, List.reverse_reverse, ← h.data]
        exact goal_pose _ _
      · rw [if_neg e, if_neg e, List.filterMap_nil]
        simp only [FrameSettings.afterAll]
        exact hg
    | setCom =>
      simp only [use, taskCalls, footGoal]
      rw [if_neg (by cases f <;> decide), List.filterMap_nil]
      simp only [FrameSettings.afterAll]
      exact hg
    | setCop =>
      simp only [use, taskCalls, footGoal]
      rw [if_neg (by cases f <;> decide), List.filterMap_nil]
      simp only [FrameSettings.afterAll]
      exact hg
    | weighCop => simp only [use, taskCalls, footGoal, List.filterMap_nil, FrameSettings.afterAll]; exact hg
    | cycle => simp only [use, taskCalls, footGoal, List.filterMap_nil, FrameSettings.afterAll]; exact hg
  stays := by
    intro f
    rw [text_snoc, contactSettings_append, List.reverse_append, List.reverse_singleton, List.singleton_append, h.stays f]
    have ht : ∀ g : Foot, g.cid = f.cid ↔ g = f := by intro g; cases f <;> cases g <;> decide
    cases c with
    | add g =>
      rw [show (use cf kin _ (.add g)).1 = initFoot cf (memberAfter cf kin q v cs).data g from rfl, contactCalls_init]
      simp only [ht, contactGoal]
      by_cases e : g = f
      · subst e
        simp only [if_true, List.filterMap_cons, List.filterMap_nil, sixD?, FrameSettings.afterAll, FrameSettings.after,
          List.reverse_reverse, ← h.data]
        rfl
      · rw [if_neg e, if_neg e]
        rfl
    | _ => simp only [use, Spec.contactCalls, contactGoal, List.filterMap_nil, FrameSettings.afterAll]

theorem inv_all (hB : IsBiped cf kin E W S) {q v : Vec K} (hv : v.size = E.robot.nv) (hq : E.robot.na ≤ q.size)
    {cs : List (Call K)} (hp : Proper E.robot cs) : Inv cf kin E W S q v cs := by
  induction cs using List.reverseRecOn with
  | nil => exact inv_nil hB hv hq
  | append_singleton cs c ih =>
    refine inv_snoc hB (ih ?_) (hp cs c [] rfl)
    intro pre d post e
    exact hp pre d (post ++ [c]) (by rw [e]; simp)

/-! ## The properties -/

/-- **C108, programs run.** A program that constructs the class and makes proper calls passes the check of its text: it runs
without undefined behaviour, exception or failed assertion, and what is registered afterwards are the tasks and the contacts
of the feet on which the robot stands. -/
theorem C108_runs (hB : IsBiped cf kin E W S) {q v : Vec K} (hv : v.size = E.robot.nv) (hq : E.robot.na ≤ q.size)
    {cs : List (Call K)} (hp : Proper E.robot cs) :
    Checked E W S (text cf kin q v cs) ∧
    (∃ s, Program.run E S.start (text cf kin q v cs) = some s) ∧
    (S.registered E W (text cf kin q v cs)).items.Perm (itemsOf cf cs) := by
  obtain ⟨L, hu, hL⟩ := (inv_all hB hv hq hp).upto
  obtain ⟨s, hs, -, -, hr⟩ := C107_runs hB.declared hu.checked
  exact ⟨hu.checked, ⟨s, hs⟩, by rw [hr, hu.items]; exact hL⟩

theorem text_split (q v : Vec K) : ∀ (post pre : List (Call K)) (t : K) (q' v' : Vec K), ∃ ops,
    text cf kin q v (pre ++ .cycle t q' v' :: post) = text cf kin q v pre ++ .compute (kin q' v') t :: ops := by
  intro post
  induction post using List.reverseRecOn with
  | nil =>
    intro pre t q' v'
    exact ⟨[], by rw [text_snoc]; rfl⟩
  | append_singleton post c ih =>
    intro pre t q' v'
    obtain ⟨ops, e⟩ := ih pre t q' v'
    rw [show pre ++ Call.cycle t q' v' :: (post ++ [c]) = (pre ++ .cycle t q' v' :: post) ++ [c] by simp, text_snoc, e]
    exact ⟨_, by rw [List.append_assoc, List.cons_append]⟩

/-- **C108, cycles.** Every control cycle of such a program returns. -/
theorem C108_cycles (hB : IsBiped cf kin E W S) {q v : Vec K} (hv : v.size = E.robot.nv) (hq : E.robot.na ≤ q.size)
    {pre post : List (Call K)} {t : K} {q' v' : Vec K} (hp : Proper E.robot (pre ++ .cycle t q' v' :: post)) :
    ∃ s0 s1, Program.run E S.start (text cf kin q v pre) = some s0 ∧
      Program.step E s0 (.compute (kin q' v') t) = .ok s1 () := by
  obtain ⟨ops, e⟩ := text_split (cf := cf) (kin := kin) q v post pre t q' v'
  have h := (C108_runs hB hv hq hp).1
  rw [e] at h
  exact C107_cycles hB.declared h

/-- **C108, with the solver (partial).** After every control cycle, every back-end whose external solver keeps its promises
and succeeds delivers a solution that obeys the text of the program, and nothing that obeys the text has a smaller objective.
Missing: as in `C92_best_partial`. -/
theorem C108_best_partial (hB : IsBiped cf kin E W S) {q v : Vec K} (hv : v.size = E.robot.nv) (hq : E.robot.na ≤ q.size)
    {pre post : List (Call K)} {t : K} {q' v' : Vec K} (hp : Proper E.robot (pre ++ .cycle t q' v' :: post))
    (b : Bool) (t0 : Status.HQPStatus) (i : Int) (x : Solve.Objective K) :
    ∃ s, Program.run E S.start (text cf kin q v (pre ++ [.cycle t q' v'])) = some s ∧
      DeliversBest Solve.eiq (Solve.Eiq.init t0 i x) EiqSat (fun a => ∃ w, a.objective = .num w) true E W S
        (text cf kin q v pre) (kin q' v') t s ∧
      DeliversBest Solve.fast (Solve.Eiq.init t0 i x) EiqSat (fun a => a.code = .optimal) true E W S
        (text cf kin q v pre) (kin q' v') t s ∧
      (∀ fresh freshI neq nin, (problem s.form).head?.map Solver.count = some (neq, nin) →
        DeliversBest Solve.rt (Solve.Rt.init fresh freshI (nVar s.form) neq nin t0 i x) EiqSat
          (fun a => a.code = .optimal) true E W S (text cf kin q v pre) (kin q' v') t s) ∧
      DeliversBest Solve.prox (Solve.Prox.init t0 i x) ProxSat (fun a => a.code = .solved) false E W S
        (text cf kin q v pre) (kin q' v') t s ∧
      DeliversBest Solve.osqp (Solve.Osqp.init t0 i x) OsqpSat (fun a => a.code = .solved) false E W S
        (text cf kin q v pre) (kin q' v') t s ∧
      DeliversBest Solve.mad (Solve.Mad.init b t0 i x) MadSat (fun a => a.code = .ok) true E W S
        (text cf kin q v pre) (kin q' v') t s := by
  obtain ⟨ops, e⟩ := text_split (cf := cf) (kin := kin) q v post pre t q' v'
  have h := (C108_runs hB hv hq hp).1
  rw [e] at h
  have hpre : Proper E.robot pre := fun a c d e => hp a c (d ++ .cycle t q' v' :: post) (by rw [e]; simp)
  obtain ⟨L, hu, hL⟩ := (inv_all hB hv hq hpre).upto
  have hmem : ∀ fam tid p k, Item.task fam tid p k ∈ (S.noted W (text cf kin q v pre)).items →
      Item.task fam tid p k ∈ bodyItems cf (copWeight cf pre) := by
    intro fam tid p k hm
    rw [hu.items] at hm
    exact items_task (hL.mem_iff.1 hm)
  rw [text_snoc]
  refine C107_best_partial hB.declared h ?_ ?_ b t0 i x
  · intro fam tid k hm
    obtain ⟨_, _, _, _, e, ht⟩ := body_task (hmem _ _ _ _ hm)
    cases e
    exact biped_cases hB (P := fun d => d.Upright (kin q' v')) ht trivial trivial trivial trivial (fun _ => trivial) trivial
      fun _ => trivial
  · intro fam tid k hm
    have hb := hmem _ _ _ _ hm
    have h5 : tid < 6 := body_level hb
    match tid, h5 with
    | 0, _ => rw [hB.com]; rfl
    | 1, _ => rw [hB.cop]; rfl
    | 2, _ => rw [hB.am]; rfl
    | 3, _ => rw [hB.posture]; rfl
    | 4, _ => rw [show (4 : Nat) = Foot.left.tid from rfl, hB.foot]; rfl
    | 5, _ => rw [show (5 : Nat) = Foot.right.tid from rfl, hB.foot]; rfl

/-- **C108, flags.** The flags `contact_RF_active`, `contact_LF_active` tell on which feet the robot stands, and these are the
feet whose contact is registered. -/
theorem C108_feet (hB : IsBiped cf kin E W S) {q v : Vec K} (hv : v.size = E.robot.nv) (hq : E.robot.na ≤ q.size)
    {cs : List (Call K)} (hp : Proper E.robot cs) (f : Foot) :
    (uses cf kin (start cf kin q v) cs).2.active f = stands f cs ∧
    (stands f cs = true ↔ (S.registered E W (text cf kin q v cs)).hasContact (fun c => (S.obj c).name) f.contactName) := by
  refine ⟨(inv_all hB hv hq hp).active f, ?_⟩
  have hL := (C108_runs hB hv hq hp).2.2
  constructor
  · intro h
    refine ⟨footItem cf f, hL.mem_iff.2 (List.mem_append_right _ (List.mem_map_of_mem (mem_feet.2 h))), ?_⟩
    obtain ⟨x, y, z, e⟩ := footItem_eq cf f
    simp only [e, Item.isContact, obj_name hB, beq_self_eq_true]
  · rintro ⟨it, hm, e⟩
    cases it with
    | task => cases e
    | contact c p a b =>
      obtain ⟨g, hg, rfl⟩ := items_contact (hL.mem_iff.1 hm)
      simp only [Item.isContact, obj_name hB, beq_iff_eq] at e
      rw [← cid_inj e]
      exact hg

/-- **C108, references.** The task of a foot asks for the pose, velocity and acceleration of `footGoal`; the contact of a foot
asks it to stay where it was put down, with the gains of the configuration. -/
theorem C108_reference (hB : IsBiped cf kin E W S) {q v : Vec K} (hv : v.size = E.robot.nv) (hq : E.robot.na ≤ q.size)
    {cs : List (Call K)} (hp : Proper E.robot cs) (f : Foot) :
    let p := (FrameSettings.fresh (K := K)).afterAll ((taskCalls f.tid (text cf kin q v cs)).filterMap se3?)
    let c := (FrameSettings.fresh (K := K)).afterAll ((Spec.contactCalls f.cid (text cf kin q v cs)).filterMap sixD?)
    (⟨p.pose, p.vel, p.acc⟩ : Goal K) = footGoal cf kin (grounded cf kin q v) f cs.reverse ∧
    c.pose = contactGoal cf kin (grounded cf kin q v) f cs.reverse ∧
    (c.vel = ⟨⟨0, 0, 0⟩, ⟨0, 0, 0⟩⟩ ∧ c.acc = ⟨⟨0, 0, 0⟩, ⟨0, 0, 0⟩⟩) ∧
    (∀ i, i < 6 → c.kp i = cf.kpContact ∧ c.kd i = 2 * sqrt cf.kpContact) := by
  have h := inv_all hB hv hq hp
  have hs := h.stays f
  unfold contactSettings at hs
  refine ⟨h.goal f, ?_, ?_, ?_⟩ <;> rw [hs]
  · exact ⟨rfl, rfl⟩
  · exact fun i _ => ⟨rfl, rfl⟩

/-- **C108, the origin (violation).** The constructor gives the tasks of the feet no reference: until a reference is set or the
foot is lifted, the task of a foot asks it to go to the origin of the world. -/
theorem C108_origin (hB : IsBiped cf kin E W S) {q v : Vec K} (hv : v.size = E.robot.nv) (hq : E.robot.na ≤ q.size)
    {cs : List (Call K)} (hp : Proper E.robot cs) (f : Foot) (h1 : ∀ pos vel acc, .setFoot f pos vel acc ∉ cs)
    (h2 : ∀ t, .remove f t ∉ cs) :
    ((FrameSettings.fresh (K := K)).afterAll ((taskCalls f.tid (text cf kin q v cs)).filterMap se3?)).pose =
      ⟨M3.one, ⟨0, 0, 0⟩⟩ := by
  have h := congrArg Goal.pose (C108_reference hB hv hq hp f).1
  refine h.trans ?_
  have key : ∀ l : List (Call K), (∀ pos vel acc, .setFoot f pos vel acc ∉ l) → (∀ t, .remove f t ∉ l) →
      (footGoal cf kin (grounded cf kin q v) f l).pose = ⟨M3.one, ⟨0, 0, 0⟩⟩ := by
    intro l
    induction l with
    | nil => intro _ _; simp only [footGoal]
    | cons c l ih =>
      intro h1 h2
      have ih' := ih (fun a b c hm => h1 a b c (List.mem_cons_of_mem _ hm)) fun t hm => h2 t (List.mem_cons_of_mem _ hm)
      cases c with
      | setFoot g pos vel acc =>
        have : g ≠ f := fun e => h1 pos vel acc (by rw [e]; exact List.mem_cons_self)
        simp only [footGoal, if_neg this, ih']
      | remove g t =>
        have : g ≠ f := fun e => h2 t (by rw [e]; exact List.mem_cons_self)
        simp only [footGoal, if_neg this, ih']
      | _ => simp only [footGoal, ih']
  exact key _ (fun a b c hm => h1 a b c (List.mem_reverse.1 hm)) fun t hm => h2 t (List.mem_reverse.1 hm)

omit [LawfulSqrt K] in
/-- **C108, the ground.** If the robot moves up and down with the third coordinate of its configuration, the constructor puts
the right foot at the height `lz`; if the foot is level, the four contact points are then on the ground. -/
theorem C108_ground {q v : Vec K}
    (hk : ∀ d, (placement cf (kin (q.put 2 (q 2 + d)) v) .right).trans.z = (placement cf (kin q v) .right).trans.z + d) :
    (placement cf (grounded cf kin q v) .right).trans.z = cf.lz ∧
    (∀ M : M3 K, M = (placement cf (grounded cf kin q v) .right).rot → M.c0.z = 0 → M.c1.z = 0 → M.c2.z = 1 →
      ∀ i, ((placement cf (grounded cf kin q v) .right).actPoint (corners cf i)).z = 0) := by
  have h : (placement cf (grounded cf kin q v) .right).trans.z = cf.lz := by
    have := hk (-((placement cf (kin q v) .right).trans.z - cf.lz))
    rw [← sub_eq_add_neg] at this
    exact this.trans (by ring)
  refine ⟨h, ?_⟩
  rintro M rfl h0 h1 h2 i
  have e : ∀ p : V3 K, ((placement cf (grounded cf kin q v) .right).actPoint p).z = p.z + cf.lz := by
    intro p
    rw [← h]
    show (placement cf (grounded cf kin q v) .right).rot.c0.z * p.x + (placement cf (grounded cf kin q v) .right).rot.c1.z * p.y
      + (placement cf (grounded cf kin q v) .right).rot.c2.z * p.z + _ = _
    rw [h0, h1, h2]
    ring
  rw [e]
  match i with
  | 0 => exact neg_add_cancel _
  | 1 => exact neg_add_cancel _
  | 2 => exact neg_add_cancel _
  | _ + 3 => exact neg_add_cancel _

end

/-! ## Walking -/

section
variable {R : PostureRobot K}

theorem proper_nil : Proper R ([] : List (Call K)) := by
  intro pre c post e
  cases pre <;> cases e

theorem proper_snoc {cs : List (Call K)} {c : Call K} (h : Proper R cs) (hc : MayUse R cs c) : Proper R (cs ++ [c]) := by
  intro pre a post e
  rcases List.eq_nil_or_concat post with rfl | ⟨post', b, rfl⟩
  · obtain ⟨e1, e2⟩ := List.append_inj' e rfl
    cases e2
    subst e1
    exact hc
  · rw [List.concat_eq_append, ← List.cons_append, ← List.append_assoc] at e
    obtain ⟨e, -⟩ := List.append_inj' e rfl
    exact h pre a post' e

theorem proper_quiet {cs : List (Call K)} (h : Proper R cs) : ∀ l : List (Call K), (∀ c ∈ l, NoCalls R c) →
    Proper R (cs ++ l) ∧ ∀ f, stands f (cs ++ l) = stands f cs := by
  intro l
  induction l using List.reverseRecOn with
  | nil => intro _; rw [List.append_nil]; exact ⟨h, fun _ => rfl⟩
  | append_singleton l c ih =>
    intro hl
    obtain ⟨h1, h2⟩ := ih fun d hd => hl d (List.mem_append_left _ hd)
    have hc := hl c (List.mem_append_right _ List.mem_cons_self)
    rw [← List.append_assoc]
    refine ⟨proper_snoc h1 ?_, fun f => ?_⟩
    · cases c <;> first | exact trivial | exact hc | exact hc.elim
    · rw [stands_snoc, ← h2 f]
      cases c <;> first | rfl | exact hc.elim

/-- The other foot. -/
theorem other_foot {f g : Foot} (h : f ≠ g) : ∀ x : Foot, x = f ∨ x = g := by
  intro x
  cases f <;> cases g <;> cases x <;> simp_all

theorem walk_step {phase : Nat → Phase} {n : Nat} {cs : List (Call K)} {i : Nat} (hp : Proper R cs) (hi : 0 < i)
    (hs : ∀ f, stands f cs = decide (f = phase (min (i - 1) (n - 2)))) :
    Proper R (cs ++ phaseCalls phase n i) ∧
      ∀ f, stands f (cs ++ phaseCalls phase n i) = decide (f = phase (min i (n - 2))) := by
  unfold phaseCalls
  rw [if_neg (by omega)]
  by_cases hn : i < n - 1
  · rw [if_pos hn]
    have e1 : min (i - 1) (n - 2) = i - 1 := by omega
    have e2 : min i (n - 2) = i := by omega
    rw [e1] at hs
    rw [e2]
    by_cases hc : phase i ≠ phase (i - 1)
    · rw [if_pos hc]
      cases hph : phase i with
      | left =>
        have e : phase (i - 1) = .right := by
          rw [hph] at hc
          cases h : phase (i - 1) with
          | right => rfl
          | left => exact absurd h.symm hc
        rw [e] at hs
        have a1 := proper_snoc hp (c := .add .left) (hs .left)
        have s1 : ∀ f, stands f (cs ++ [.add .left]) = true := by
          intro f
          rw [stands_snoc]
          simp only [hs f]
          cases f <;> rfl
        have a2 := proper_snoc a1 (c := .remove .right 0) ⟨s1 .right, le_refl _⟩
        rw [List.append_assoc] at a2
        refine ⟨a2, fun f => ?_⟩
        rw [show cs ++ [Call.add .left, .remove .right 0] = (cs ++ [.add .left]) ++ [.remove .right 0] by simp, stands_snoc]
        simp only [s1 f]
        cases f <;> rfl
      | right =>
        have e : phase (i - 1) = .left := by
          rw [hph] at hc
          cases h : phase (i - 1) with
          | left => rfl
          | right => exact absurd h.symm hc
        rw [e] at hs
        have a1 := proper_snoc hp (c := .add .right) (hs .right)
        have s1 : ∀ f, stands f (cs ++ [.add .right]) = true := by
          intro f
          rw [stands_snoc]
          simp only [hs f]
          cases f <;> rfl
        have a2 := proper_snoc a1 (c := .remove .left 0) ⟨s1 .left, le_refl _⟩
        rw [List.append_assoc] at a2
        refine ⟨a2, fun f => ?_⟩
        rw [show cs ++ [Call.add .right, .remove .left 0] = (cs ++ [.add .right]) ++ [.remove .left 0] by simp, stands_snoc]
        simp only [s1 f]
        cases f <;> rfl
    · rw [if_neg hc, List.append_nil]
      push Not at hc
      rw [hc]
      exact ⟨hp, hs⟩
  · rw [if_neg hn, List.append_nil]
    have e1 : min (i - 1) (n - 2) = min i (n - 2) := by omega
    rw [e1] at hs
    exact ⟨hp, hs⟩

/-- **C108, walking.** If the first phase is on the right foot, the walking loop makes proper calls, whatever it does besides
with references, weights and cycles; after `m` steps the robot stands on the foot of the phase of the last step, where the
last two entries of the list of phases are not looked at. -/
theorem C108_walk {phase : Nat → Phase} (h0 : phase 0 = .right) (n : Nat) {before : List (Call K)}
    {others : Nat → List (Call K)} (hb : ∀ c ∈ before, NoCalls R c) (ho : ∀ i, ∀ c ∈ others i, NoCalls R c) (m : Nat) :
    Proper R (before ++ walk phase n others m) ∧
      (0 < m → ∀ f, stands f (before ++ walk phase n others m) = decide (f = phase (min (m - 1) (n - 2)))) := by
  induction m with
  | zero =>
    have := proper_quiet (R := R) proper_nil before hb
    simp only [walk, List.range_zero, List.flatMap_nil, List.append_nil]
    exact ⟨this.1, fun h => absurd h (by omega)⟩
  | succ m ih =>
    have e : before ++ walk phase n others (m + 1) = (before ++ walk phase n others m ++ phaseCalls phase n m) ++ others m := by
      simp only [walk, List.range_succ, List.flatMap_append, List.flatMap_cons, List.flatMap_nil, List.append_nil,
        List.append_assoc]
    have key : Proper R (before ++ walk phase n others m ++ phaseCalls phase n m) ∧
        ∀ f, stands f (before ++ walk phase n others m ++ phaseCalls phase n m) = decide (f = phase (min m (n - 2))) := by
      rcases Nat.eq_zero_or_pos m with rfl | hm
      · obtain ⟨b1, b2⟩ := proper_quiet (R := R) proper_nil before hb
        have e0 : before ++ walk phase n others 0 ++ phaseCalls phase n 0 = before ++ [.remove .left 0] := by
          simp [walk, phaseCalls]
        rw [e0]
        have hst : ∀ f, stands f before = true := fun f => b2 f
        refine ⟨proper_snoc b1 ⟨hst .left, le_refl _⟩, fun f => ?_⟩
        rw [stands_snoc, Nat.zero_min, h0]
        simp only [hst f]
        cases f <;> rfl
      · exact walk_step ih.1 hm (ih.2 hm)
    obtain ⟨q1, q2⟩ := proper_quiet key.1 (others m) (ho m)
    rw [e]
    refine ⟨q1, fun _ f => ?_⟩
    rw [q2 f, key.2 f, Nat.add_sub_cancel]

/-- **C108, landing (violation).** The loop of `test_cop_task.py` that returns to both feet at the end makes proper calls exactly
if the last two phases are the same: otherwise it adds the contact of the foot on which the robot already stands. -/
theorem C108_landing {phase : Nat → Phase} (h0 : phase 0 = .right) {n : Nat} (hn : 2 ≤ n) {before : List (Call K)}
    {others : Nat → List (Call K)} (hb : ∀ c ∈ before, NoCalls R c) (ho : ∀ i, ∀ c ∈ others i, NoCalls R c) :
    Proper R (before ++ walk phase n others n ++ landing phase n n) ↔ phase (n - 1) = phase (n - 2) := by
  obtain ⟨h1, h2⟩ := C108_walk (R := R) h0 n hb ho n
  have h2 := h2 (by omega)
  rw [show min (n - 1) (n - 2) = n - 2 by omega] at h2
  unfold landing
  rw [if_pos ⟨rfl, by omega⟩]
  cases hph : phase (n - 1) with
  | left =>
    constructor
    · intro hp
      have := hp _ _ [] rfl
      rw [show MayUse R (before ++ walk phase n others n) (.add .right) =
        (stands .right (before ++ walk phase n others n) = false) from rfl, h2] at this
      cases h : phase (n - 2) with
      | left => rfl
      | right => rw [h] at this; cases this
    · intro e
      refine proper_snoc h1 ?_
      show stands .right _ = false
      rw [h2, ← e]
      rfl
  | right =>
    constructor
    · intro hp
      have := hp _ _ [] rfl
      rw [show MayUse R (before ++ walk phase n others n) (.add .left) =
        (stands .left (before ++ walk phase n others n) = false) from rfl, h2] at this
      cases h : phase (n - 2) with
      | right => rfl
      | left => rw [h] at this; cases this
    · intro e
      refine proper_snoc h1 ?_
      show stands .left _ = false
      rw [h2, ← e]
      rfl

end

end Tsid.Props
