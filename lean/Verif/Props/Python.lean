import Verif.Spec.Python
import Verif.Props.Getters
import Verif.Props.Registry
import Verif.Props.PosVelAcc
import Verif.Props.JointBounds

/-!
# C80, C81: the Python interface
-/

set_option linter.unusedSectionVars false

namespace Tsid.Props

open Finset Formulation Spec Python

variable {K : Type} [Field K] [LinearOrder K] [HasSqrt K]

/-! ## C80 -/

theorem wrap_state? {σ α β : Type} (f : α → β) (r : Res σ α) : (wrap f r).state? = r.state? := by
  cases r <;> rfl

theorem contactForces_decode {s s' : State K} {n : String} {x : Vec K}
    (h : (getContactForcesOf s n x).state? = some s') :
    (match decodeSolution s x with
      | some s' => (Res.ok s' () : Res (State K) Unit)
      | none => .ub).state? = some s' := by
  unfold getContactForcesOf at h
  cases hd : decodeSolution s x with
  | none => rw [hd] at h; exact h
  | some s1 =>
    rw [hd] at h
    simp only at h ⊢
    split at h
    · split at h
      · exact h
      · cases h
    · exact h

/-- **C80, each call, partial.** Every call of the Python interface that comes back leaves the formulation in the state
in which the C++ call it stands for (`meant`) leaves it.

Missing: priority levels of contacts above 1 (`C80_level_replaced`). -/
theorem C80_calls_partial {nd : Bool} {W : World} {s s' : State K} {c : Call K}
    (hl : ∀ cid wf wm p, c = .addRigidContactLevel cid wf wm p → p < 2) (h : (call nd W s c).state? = some s') :
    (step nd W s (meant c)).state? = some s' := by
  cases c with
  | addRigidContactLevel cid wf wm l =>
    have hle : levelOf l = l := by have := hl _ _ _ _ rfl; unfold levelOf; split <;> omega
    simpa only [call, step, meant, wrap_state?, void_state?, hle] using h
  | removeFromHqpData n => exact h
  | computeProblemData cy t =>
    simp only [call, step, meant] at h ⊢
    cases hc : Formulation.computeProblemData nd cy t s <;> rw [hc] at h <;> exact h
  | getActuatorForces x =>
    simp only [call, step, meant, wrap_state?, Formulation.getActuatorForces] at h ⊢
    cases hd : decodeSolution s x <;> rw [hd] at h <;> exact h
  | getAccelerations x =>
    simp only [call, step, meant, wrap_state?, Formulation.getAccelerations] at h ⊢
    cases hd : decodeSolution s x <;> rw [hd] at h <;> exact h
  | getContactForces x =>
    simp only [call, step, meant, wrap_state?, Formulation.getContactForces] at h ⊢
    cases hd : decodeSolution s x <;> rw [hd] at h <;> exact h
  | getContactForce n x =>
    simp only [call, step, meant, wrap_state?] at h ⊢
    exact contactForces_decode h
  | checkContact n x =>
    simp only [call, step, meant, wrap_state?, Python.checkContact] at h ⊢
    exact contactForces_decode h
  | setContact cid u => simpa only [call, meant, wrap_state?] using h
  | _ => simpa only [call, step, meant, wrap_state?, void_state?] using h

/-- A call with every argument left to its default. -/
example : meant (.addRigidContact 3 (1 / 2) : Call ℚ) = .addRigidContact 3 (1 / 2) 1 0 := rfl

/-- Every call of the Python interface that comes back has the effect of one call of the C++ interface. -/
theorem call_simulated {nd : Bool} {W : World} {s s' : State K} {c : Call K} (h : (call nd W s c).state? = some s') :
    ∃ o : Op K, (step nd W s o).state? = some s' := by
  by_cases hl : ∀ cid wf wm p, c = .addRigidContactLevel cid wf wm p → p < 2
  · exact ⟨meant c, C80_calls_partial hl h⟩
  · push Not at hl
    obtain ⟨cid, wf, wm, p, rfl, -⟩ := hl
    exact ⟨.addRigidContact cid wf wm (levelOf p), by simpa only [call, step, wrap_state?, void_state?] using h⟩

theorem wrap_bool {r : Res (State K) Bool} {f : State K} {p : Held K} (h : wrap Value.bool r = .ok f (.problem p)) :
    False := by cases r <;> cases h

theorem wrap_vec {r : Res (State K) (Vec K)} {f : State K} {p : Held K} (h : wrap Value.vec r = .ok f (.problem p)) :
    False := by cases r <;> cases h

theorem wrap_none {r : Res (State K) Unit} {f : State K} {p : Held K}
    (h : wrap (fun _ => Value.none) r = .ok f (.problem p)) : False := by cases r <;> cases h

theorem session_step {nd : Bool} {W : World} {s s' : Session K} {c : Call K} (h : (s.step nd W c).state? = some s') :
    (call nd W s.f c).state? = some s'.f ∧
    ((∀ cy t, c ≠ .computeProblemData cy t) → s'.held = s.held) := by
  unfold Session.step at h
  cases hc : call nd W s.f c with
  | ok f v =>
    rw [hc] at h
    cases v with
    | problem p =>
      cases h
      refine ⟨rfl, fun hn => ?_⟩
      exfalso
      cases c with
      | computeProblemData cy t => exact hn cy t rfl
      | _ => first | exact wrap_bool hc | exact wrap_vec hc | exact wrap_none hc | (simp only [call] at hc; cases hc)
    | _ => cases h; exact ⟨rfl, fun _ => rfl⟩
  | throw f => rw [hc] at h; cases h; exact ⟨rfl, fun _ => rfl⟩
  | abort => rw [hc] at h; cases h
  | ub => rw [hc] at h; cases h

/-- **C80, every Python program is a C++ program.** Whatever calls a Python program makes, the state of its formulation
can be reached through the C++ interface, so everything proved for all reachable states holds in Python. -/
theorem C80_reachable {nd : Bool} {W : World} {s : Session K} (h : PyReachable nd W s) : Reachable nd W s.f := by
  obtain ⟨robot, obj, assoc, cs, hna, hobj, hr⟩ := h
  suffices key : ∀ (cs : List (Call K)) (s0 s : Session K), runOps (Session.step nd W) s0 cs = some s →
      ∃ ops, run nd W s0.f ops = some s.f by
    obtain ⟨ops, ho⟩ := key cs _ _ hr
    exact ⟨robot, obj, assoc, ops, hna, hobj, ho⟩
  intro cs
  induction cs with
  | nil => intro s0 s h; cases h; exact ⟨[], rfl⟩
  | cons c cs ih =>
    intro s0 s h
    rw [runOps] at h
    cases h1 : (s0.step nd W c).state? with
    | none => rw [h1] at h; cases h
    | some s1 =>
      rw [h1] at h
      obtain ⟨o, ho⟩ := call_simulated (session_step h1).1
      obtain ⟨ops, hops⟩ := ih s1 s h
      exact ⟨o :: ops, by rw [run, ho]; exact hops⟩

/-- **C80, levels of contacts, partial.** A contact added with its priority level through Python: for the levels 0 and 1
its motion constraint goes to the requested level, with the requested weight.

Missing: higher levels are silently replaced by 1 (`C80_level_replaced`). -/
theorem C80_level_partial {nd : Bool} {W : World} {s : Session K} (h : PyReachable nd W s) {cid p : Nat} {wf wm : K}
    (hp : p < 2) :
    ∃ s', (s.step nd W (.addRigidContactLevel cid wf wm p)) = .ok s' () ∧
      entries s'.f = (((entries s.f).modify p (fun l => l ++
        [⟨wm, (s.f.contactObj cid).name ++ "_motion_task", .equality,
          Contact.kindMotion (s.f.contactObj cid).kind⟩])).modify 0
        (fun l => l ++ [⟨1, (s.f.contactObj cid).name ++ "_force_constraint", .inequality,
          Contact.kindIneqRows (s.f.contactObj cid).kind⟩])).modify 1
        (fun l => l ++ [⟨wf, (s.f.contactObj cid).name ++ "_force_reg_task", .equality,
          Contact.kindRegRows (s.f.contactObj cid).kind⟩]) := by
  obtain ⟨s', h1, h2⟩ := (C08_addition_partial (C80_reachable h) hp).2 cid wf wm
  have hl : levelOf p = p := by unfold levelOf; split <;> omega
  exact ⟨⟨s', s.held⟩, by simp only [Session.step, call, hl, h1, wrap], h2⟩

/-- **C80, higher levels.** Asking for any level of at least 2 is the same as asking for level 1, whereas the C++ call
has undefined behaviour. -/
theorem C80_level_replaced {nd : Bool} {W : World} {s : Session K} (h : PyReachable nd W s) {cid p : Nat} {wf wm : K}
    (hp : 2 ≤ p) :
    s.step nd W (.addRigidContactLevel cid wf wm p) = s.step nd W (.addRigidContactLevel cid wf wm 1) ∧
    (∃ s', s.step nd W (.addRigidContactLevel cid wf wm p) = .ok s' ()) ∧
    Formulation.addRigidContact s.f cid wf wm p = .ub := by
  have hl : levelOf p = levelOf 1 := by unfold levelOf; split <;> first | omega | rfl
  have he : s.step nd W (.addRigidContactLevel cid wf wm p) = s.step nd W (.addRigidContactLevel cid wf wm 1) := by
    simp only [Session.step, call, hl]
  refine ⟨he, ?_, (C08_higher_levels (C80_reachable h) hp).2 cid wf wm⟩
  obtain ⟨s', h1, -⟩ := C80_level_partial h (cid := cid) (wf := wf) (wm := wm) (p := 1) (by omega)
  exact ⟨s', he.trans h1⟩

/-- **C80, checkContact.** After a cycle, `checkContact` says of every name whether a contact of that name is
registered. -/
theorem C80_checkContact {nd : Bool} {W : World} {s0 s : State K} {cy : Cycle K} {t : K}
    (h0 : Reachable nd W s0) (hc : computeProblemData nd cy t s0 = .ok s ()) (hs : CycleSizes s.nv cy)
    (x : Vec K) (hx : x.size = nVar s) (n : String) :
    (Python.checkContact s n x).val? = some (decide (n ∈ contactNames s)) := by
  obtain ⟨s1, hi, -, ha, -, his, -⟩ := compute_spec (reachable_inv h0) hc
  obtain ⟨s', hd⟩ := decode_spec hi ha hs x hx
  have hdc : s'.contacts = s.contacts ∧ s'.contactObj = s.contactObj := by
    have := hd.run
    unfold decodeSolution at this
    split at this
    · cases this; exact ⟨rfl, rfl⟩
    · split at this
      · cases this; exact ⟨rfl, rfl⟩
      · cases this
  unfold Python.checkContact getContactForcesOf
  rw [hd.run]
  simp only [hdc.1, hdc.2]
  cases hf : s.contacts.find? (fun c => (s.contactObj c.cid).name == n) with
  | none =>
    have hn : n ∉ contactNames s := by
      intro hn
      obtain ⟨c, hc', hcn⟩ := List.mem_map.1 hn
      exact (List.find?_eq_none.1 hf) c hc' (by simpa using hcn)
    simp [wrap, Res.val?, Vec.zero, hn]
  | some c =>
    have hcm := List.mem_of_find?_eq_some hf
    have hcn : (s.contactObj c.cid).name = n := by simpa using List.find?_some hf
    have hn : n ∈ contactNames s := List.mem_map.2 ⟨c, hcm, hcn⟩
    have hle := ((tiled_mem _ _ _ his.tiled).2 c hcm).2
    have hpos : 0 < (s.contactObj c.cid).nForce := by
      unfold Contact.nForce Contact.kindForce
      cases (s.contactObj c.cid).kind <;> simp
    simp [hd.fSize, hle, wrap, Res.val?, Vec.segment, hn, hpos]

/-- **C80, values.** After a cycle, the first of the Python methods that return a solution gives the accelerations, the
contact forces and the actuator forces that the passed solution stands for. -/
theorem C80_values {nd : Bool} {W : World} {s0 s : State K} {cy : Cycle K} {t : K}
    (h0 : Reachable nd W s0) (hc : computeProblemData nd cy t s0 = .ok s ()) (hs : CycleSizes s.nv cy)
    (x : Vec K) (hx : x.size = nVar s) :
    ∃ dv f tau, Meaning cy s x dv f tau ∧
      (call nd W s (.getAccelerations x)).val? = some (.vec dv) ∧
      (call nd W s (.getContactForces x)).val? = some (.vec f) ∧
      (call nd W s (.getActuatorForces x)).val? = some (.vec tau) := by
  obtain ⟨dv, f, tau, hm, hg⟩ := C17_getters_partial h0 hc hs x hx
  refine ⟨dv, f, tau, hm, ?_, ?_, ?_⟩
  · have := hg .accelerations []
    simp only [getterResults, Getter.call, Getter.select, List.map] at this
    simp only [call]
    cases hr : Formulation.getAccelerations s x <;> rw [hr] at this <;> simp_all [wrap, Res.val?]
  · have := hg .contactForces []
    simp only [getterResults, Getter.call, Getter.select, List.map] at this
    simp only [call]
    cases hr : Formulation.getContactForces s x <;> rw [hr] at this <;> simp_all [wrap, Res.val?]
  · have := hg .actuatorForces []
    simp only [getterResults, Getter.call, Getter.select, List.map] at this
    simp only [call]
    cases hr : Formulation.getActuatorForces s x <;> rw [hr] at this <;> simp_all [wrap, Res.val?]

/-- The constraints that existed in `s` are the same in `s'`. -/
def Keeps80 (s s' : State K) : Prop := s.next ≤ s'.next ∧ ∀ id, id < s.next → s'.heap id = s.heap id

theorem keeps80_refl (s : State K) : Keeps80 s s := ⟨le_rfl, fun _ _ => rfl⟩

theorem keeps80_addTask {W : World} {s s1 : State K} {tid p id : Nat} {w : K} (h : addTask W s tid w p = some (s1, id)) :
    Keeps80 s s1 := by
  obtain ⟨-, -, hqp, e, i, -, rfl⟩ := addTask_shape h
  exact ⟨Nat.le_succ _, fun id hid => Function.update_of_ne (Nat.ne_of_lt hid) _ _⟩

theorem keeps80_decode {s s' : State K} {x : Vec K} (h : decodeSolution s x = some s') : Keeps80 s s' := by
  unfold decodeSolution at h
  split at h
  · cases h; exact keeps80_refl _
  · split at h
    · cases h; exact keeps80_refl _
    · cases h

theorem keeps80_quiet {nd : Bool} {W : World} {s s' : State K} {c : Call K} (hq : Quiet c)
    (h : (call nd W s c).state? = some s') : Keeps80 s s' := by
  cases c with
  | addMotionTask tid w p dur =>
    simp only [call, wrap_state?, Formulation.addMotionTask] at h
    split at h
    · split at h
      · split at h
        · cases h
        · next ha => cases h; exact ⟨(keeps80_addTask ha).1, (keeps80_addTask ha).2⟩
      · cases h; exact keeps80_refl _
    · cases h; exact keeps80_refl _
  | addForceTask tid w p dur =>
    simp only [call, wrap_state?, Formulation.addForceTask] at h
    split at h
    · split at h
      · split at h
        · cases h
        · next ha => cases h; exact ⟨(keeps80_addTask ha).1, (keeps80_addTask ha).2⟩
      · cases h; exact keeps80_refl _
    · cases h; exact keeps80_refl _
  | addActuationTask tid w p dur =>
    simp only [call, wrap_state?, Formulation.addActuationTask] at h
    split at h
    · split at h
      · split at h
        · cases h
        · next ha => cases h; exact ⟨(keeps80_addTask ha).1, (keeps80_addTask ha).2⟩
      · cases h; exact keeps80_refl _
    · cases h; exact keeps80_refl _
  | updateTaskWeight n w =>
    simp only [call, wrap_state?, Formulation.updateTaskWeight] at h
    split at h <;> (cases h; exact keeps80_refl _)
  | updateRigidContactWeights n wf =>
    simp only [call, wrap_state?, Formulation.updateRigidContactWeights] at h
    split at h <;> (cases h; exact keeps80_refl _)
  | updateRigidContactWeightsMotion n wf wm =>
    simp only [call, wrap_state?, Formulation.updateRigidContactWeights] at h
    split at h <;> (cases h; exact keeps80_refl _)
  | addRigidContactDeprecated cid => exact absurd hq (by simp [Quiet])
  | addRigidContact cid wf => exact absurd hq (by simp [Quiet])
  | addRigidContactLevel cid wf wm l => exact absurd hq (by simp [Quiet])
  | removeTask n dur =>
    simp only [call, wrap_state?] at h
    unfold Formulation.removeTask at h
    dsimp only at h
    split at h
    · cases h
    split at h
    · cases h
      split
      · split <;> exact keeps80_refl _
      · exact keeps80_refl _
    split at h
    · cases h; exact keeps80_refl _
    split at h
    · cases h
      split
      · split <;> exact keeps80_refl _
      · exact keeps80_refl _
    · cases h; exact keeps80_refl _
  | removeRigidContact n dur =>
    simp only [call, wrap_state?, Formulation.removeRigidContact] at h
    rw [if_pos (show 0 < dur from hq)] at h
    split at h
    · cases h; exact keeps80_refl _
    · split at h <;> (cases h; exact keeps80_refl _)
  | removeFromHqpData n => cases h; exact keeps80_refl _
  | addMeasuredForce m => cases h; exact keeps80_refl _
  | computeProblemData cy t => exact absurd hq (by simp [Quiet])
  | getActuatorForces x =>
    simp only [call, wrap_state?, Formulation.getActuatorForces] at h
    split at h
    · next hd => cases h; exact keeps80_decode hd
    · cases h
  | getAccelerations x =>
    simp only [call, wrap_state?, Formulation.getAccelerations] at h
    split at h
    · next hd => cases h; exact keeps80_decode hd
    · cases h
  | getContactForces x =>
    simp only [call, wrap_state?, Formulation.getContactForces] at h
    split at h
    · next hd => cases h; exact keeps80_decode hd
    · cases h
  | getContactForce n x =>
    simp only [call, wrap_state?] at h
    have h := contactForces_decode h
    split at h
    · next hd => cases h; exact keeps80_decode hd
    · cases h
  | checkContact n x =>
    simp only [call, wrap_state?, Python.checkContact] at h
    have h := contactForces_decode h
    split at h
    · next hd => cases h; exact keeps80_decode hd
    · cases h
  | setContact cid u =>
    simp only [call, wrap_state?, Formulation.step] at h
    split at h <;> cases h <;> exact keeps80_refl _

/-- **C80, problems held by Python, partial.** What `computeProblemData` hands out is the problem of the cycle, and it
stays so through any number of calls that neither start a new cycle nor add a contact nor take one away at once: tasks
may come and go, weights may change.

Missing: adding a contact wipes the problems handed out before (`C80_held_wiped`). -/
theorem C80_held_partial {nd : Bool} {W : World} {s s1 s2 : Session K} {cy : Cycle K} {t : K} {cs : List (Call K)}
    (h : PyReachable nd W s) (hc : s.step nd W (.computeProblemData cy t) = .ok s1 ()) (hq : ∀ c ∈ cs, Quiet c)
    (hr : runOps (Session.step nd W) s1 cs = some s2) :
    ∃ p, s1.held = s.held ++ [p] ∧ s2.held = s1.held ∧ s1.read p = problem s1.f ∧ s2.read p = problem s1.f := by
  have hp : s1.held = s.held ++ [s1.f.hqp] ∧ (call nd W s.f (.computeProblemData cy t)).state? = some s1.f := by
    have h1 : (s.step nd W (.computeProblemData cy t)).state? = some s1 := by rw [hc]; rfl
    refine ⟨?_, (session_step h1).1⟩
    unfold Session.step at hc
    simp only [call] at hc
    cases hcc : Formulation.computeProblemData nd cy t s.f with
    | ok f u => simp only [hcc] at hc; cases hc; rfl
    | throw f => simp only [hcc] at hc; cases hc
    | abort => simp only [hcc] at hc; cases hc
    | ub => simp only [hcc] at hc; cases hc
  have hlt : ∀ id ∈ hqpIds s1.f.hqp, id < s1.f.next := by
    obtain ⟨o, ho⟩ := call_simulated hp.2
    exact ((step_keeps (reachable_inv (C80_reachable h)) o ho).1).pre.idsLt
  have key : ∀ (cs : List (Call K)) (s3 : Session K), (∀ c ∈ cs, Quiet c) →
      runOps (Session.step nd W) s3 cs = some s2 → s2.held = s3.held ∧ Keeps80 s3.f s2.f := by
    intro cs
    induction cs with
    | nil => intro s3 _ h; cases h; exact ⟨rfl, keeps80_refl _⟩
    | cons c cs ih =>
      intro s3 hq h
      rw [runOps] at h
      cases h1 : (s3.step nd W c).state? with
      | none => rw [h1] at h; cases h
      | some s4 =>
        rw [h1] at h
        obtain ⟨g1, g2⟩ := session_step h1
        obtain ⟨g3, g4, g5⟩ := ih s4 (fun c hc => hq c (List.mem_cons_of_mem _ hc)) h
        have hqc := hq c List.mem_cons_self
        obtain ⟨g6, g7⟩ := keeps80_quiet hqc g1
        refine ⟨g3.trans (g2 ?_), g6.trans g4, fun id hid => (g5 id (hid.trans_le g6)).trans (g7 id hid)⟩
        rintro cy t rfl
        exact hqc
  obtain ⟨k1, -, k2⟩ := key cs s1 hq hr
  refine ⟨s1.f.hqp, hp.1, k1, rfl, ?_⟩
  unfold Session.read problem
  refine List.map_congr_left fun l hl => List.map_congr_left fun e he => ?_
  rw [k2 e.2 (hlt e.2 (mem_hqpIds.2 ⟨l, hl, e, he, rfl⟩))]

theorem zeroed_blank {c : Constraint K} {r n : Nat} :
    (c.kind = .equality → ∀ i, (zeroed c r n).vec i = 0) ∧
    (c.kind = .inequality → ∀ i, (zeroed c r n).lb i = 0 ∧ (zeroed c r n).ub i = 0) := by
  refine ⟨fun hk i => ?_, fun hk i => ?_⟩ <;> unfold zeroed Constraint.resize <;> rw [hk]
  · rfl
  · exact ⟨rfl, rfl⟩

theorem resize_blank {W : World} {s : State K} (h : Pre W s) {id : Nat} (hid : id ∈ hqpIds s.hqp) :
    (∀ i j, ((resizeHqpData s).heap id).mat i j = 0) ∧
    ((s.heap id).kind = .equality → ∀ i, ((resizeHqpData s).heap id).vec i = 0) ∧
    ((s.heap id).kind = .inequality → ∀ i,
      ((resizeHqpData s).heap id).lb i = 0 ∧ ((resizeHqpData s).heap id).ub i = 0) := by
  have hkind : (Function.update s.heap s.baseId (zeroed (s.heap s.baseId) s.nu (s.nv + s.k)) id).kind =
      (s.heap id).kind := by
    by_cases hb : id = s.baseId
    · subst hb; rw [Function.update_self, zeroed_kind]
    · rw [Function.update_of_ne hb]
  refine ⟨resize_zero h (.inl hid), fun hk => ?_, fun hk => ?_⟩
  · unfold resizeHqpData
    simp only [if_pos hid]
    exact zeroed_blank.1 (hkind.trans hk)
  · unfold resizeHqpData
    simp only [if_pos hid]
    exact zeroed_blank.2 (hkind.trans hk)

/-- **C80, problems held by Python, the rest is false.** Adding a contact sets to zero all matrices and right-hand sides
of the problem handed out before: a solver that gets it afterwards does not get the problem of the cycle, but one that
every vector solves exactly. -/
theorem C80_held_wiped [IsStrictOrderedRing K] {nd : Bool} {W : World} {s s1 s2 : Session K} {cy : Cycle K}
    {t : K} {cid : Nat} {wf : K}
    (h : PyReachable nd W s) (hc : s.step nd W (.computeProblemData cy t) = .ok s1 ())
    (ha : s1.step nd W (.addRigidContact cid wf) = .ok s2 ()) :
    ∃ p, s1.held = s.held ++ [p] ∧ s2.held = s1.held ∧ s1.read p = problem s1.f ∧
      ∀ l ∈ s2.read p, ∀ e ∈ l, (∀ i j, e.2.mat i j = 0) ∧ ∀ x, Sat e.2 x := by
  have hp : s1.held = s.held ++ [s1.f.hqp] ∧ (call nd W s.f (.computeProblemData cy t)).state? = some s1.f := by
    have h1 : (s.step nd W (.computeProblemData cy t)).state? = some s1 := by rw [hc]; rfl
    refine ⟨?_, (session_step h1).1⟩
    unfold Session.step at hc
    simp only [call] at hc
    cases hcc : Formulation.computeProblemData nd cy t s.f with
    | ok f u => simp only [hcc] at hc; cases hc; rfl
    | throw f => simp only [hcc] at hc; cases hc
    | abort => simp only [hcc] at hc; cases hc
    | ub => simp only [hcc] at hc; cases hc
  have hinv : Formulation.Inv W s1.f := by
    obtain ⟨o, ho⟩ := call_simulated hp.2
    exact (step_keeps (reachable_inv (C80_reachable h)) o ho).1
  have ha1 : (s1.step nd W (.addRigidContact cid wf)).state? = some s2 := by rw [ha]; rfl
  obtain ⟨g1, g2⟩ := session_step ha1
  refine ⟨s1.f.hqp, hp.1, g2 (fun _ _ h => by cases h), rfl, ?_⟩
  simp only [call, wrap_state?] at g1
  set s3 : State K := { s1.f with k := s1.f.k + (s1.f.contactObj cid).nForce } with hs3
  have hpre : Pre W s3 := pre_contacts hinv.pre s1.f.contacts _ s1.f.nEq s1.f.nIn (List.Sublist.refl _)
  have hheap : ∀ id, id < s1.f.next → s2.f.heap id = (resizeHqpData s3).heap id := by
    intro id hid
    have hid' : id < (resizeHqpData s3).next := hid
    unfold Formulation.addRigidContact at g1
    dsimp only at g1
    rw [← hs3] at g1
    split at g1
    · cases g1
    split at g1
    · cases g1
    split at g1
    · cases g1
    · injection g1 with g1
      rw [← g1]
      dsimp only
      rw [Function.update_of_ne (by omega), Function.update_of_ne (by omega), Function.update_of_ne (by omega)]
  intro l hl e he
  unfold Session.read at hl
  obtain ⟨l0, hl0, rfl⟩ := List.mem_map.1 hl
  obtain ⟨e0, he0, rfl⟩ := List.mem_map.1 he
  have hmem : e0.2 ∈ hqpIds s1.f.hqp := mem_hqpIds.2 ⟨l0, hl0, e0, he0, rfl⟩
  dsimp only
  rw [hheap _ (hinv.pre.idsLt _ hmem)]
  obtain ⟨b1, b2, b3⟩ := resize_blank hpre (id := e0.2) hmem
  refine ⟨b1, fun x => ?_⟩
  have hrow : ∀ i, row ((resizeHqpData s3).heap e0.2).mat x i = 0 := by
    intro i
    unfold row
    exact Finset.sum_eq_zero fun j _ => by rw [b1, zero_mul]
  unfold Sat
  rw [resize_kind]
  cases hk : (s3.heap e0.2).kind with
  | equality => exact fun i _ => by rw [hrow, b2 hk]
  | inequality => exact fun i _ => by rw [hrow, (b3 hk i).1, (b3 hk i).2]; exact ⟨le_rfl, le_rfl⟩
  | bound => exact absurd hk (hpre.noBound _)

/-- The entries of a name in the problems a Python program on the demo robot holds: weights, matrices, right-hand
sides. -/
def demo80 (cs : List (Call ℚ)) (n : String) : Option (List ℚ) :=
  (runOps (Session.step false Demo.world) ⟨Demo.start, []⟩ cs).map fun s =>
    s.held.flatMap fun p => ((s.read p).flatten.filter fun e => e.2.name == n).flatMap fun e =>
      [e.1] ++ e.2.mat.toLists.flatten ++ e.2.vec.toList

/-- A Python program on the demo robot: the problem it holds keeps the row of the task "com" through a change of weights
and a removal, and loses it when a contact is added. -/
example :
    demo80 [.addMotionTask 0 (1 / 2) 1 0, .computeProblemData Demo.cycle 0, .updateTaskWeight "com" 7,
      .removeTask "com" 0] "com" = some [1 / 2, 0, 1, 2, 3, 4, 5, 6, 7, 3] ∧
    demo80 [.addMotionTask 0 (1 / 2) 1 0, .computeProblemData Demo.cycle 0, .updateTaskWeight "com" 7,
      .addRigidContact 0 (1 / 10)] "com" = some [1 / 2, 0, 0, 0, 0, 0, 0, 0, 0, 0, 0, 0, 0] := by
  decide +kernel

/-! ## C81 -/

/-- **C81, what holds.** The constraint a Python program gets from a task or a contact has the name, the kind and the
sizes of the original and says the same; the constructor does not throw.

Missing: the acceleration limits of `TaskJointPosVelAccBounds` (`C81_limits_partial`, `C81_wrong_coordinates`). -/
theorem C81_copies_partial {o : Source} (ho : o ≠ .posVelAccBounds) {c : Constraint K} (hk : c.kind = o.kind)
    (hw : WellFormed c) :
    ∃ d, o.copy c = some d ∧ WellFormed d ∧ d.name = c.name ∧ d.kind = c.kind ∧ d.rows = c.rows ∧ d.cols = c.cols ∧
      ∀ x, SaysSame d x c x := by
  unfold WellFormed at hw
  cases o <;> (first | exact absurd rfl ho | skip) <;> simp only [Source.kind] at hk <;>
    rw [hk] at hw <;> simp only at hw <;>
    simp only [Source.copy, Constraint.newEq, Constraint.newIneq, Constraint.newBound]
  all_goals first
    | rw [if_pos hw.symm]
    | rw [if_pos hw.1.symm, if_pos hw.2.symm]
    | rw [if_pos hw.1]
  all_goals
    refine ⟨_, rfl, ?_, rfl, hk.symm, ?_, ?_, fun x => ?_⟩
  all_goals first
    | (simp only [WellFormed]; first | exact hw | exact ⟨hw.1, rfl, rfl⟩)
    | simp only [Constraint.rows, hk]
    | simp only [Constraint.cols, hk]
    | (simp only [SaysSame, Sat, hk, Spec.residual, true_and, implies_true, and_self, iff_self, reduceCtorEq,
        false_implies])

theorem limits81 [IsStrictOrderedRing K] [FloorRing K] {name : String} {nv na : Nat} {dt : K} {s0 s : PosVelAcc K}
    {os : List (PosVelAcc.Op K)} {q v : Vec K} (hna : na ≤ nv)
    (h0 : PosVelAcc.new name nv na dt = some s0) (hr : runOps PosVelAcc.step s0 os = some s)
    (hg : ∀ o ∈ os, GoodMask na o)
    (hfull : ∀ i, i < na → ((LimitSettings.fresh (K := K) na).afterAll na os).mask i = 1)
    (hq : na ≤ q.size) (hv : na ≤ v.size) :
    ∃ s' c d, s.compute q v = .ok s' c ∧ c.kind = Source.posVelAccBounds.kind ∧
      Source.posVelAccBounds.copy c = some d ∧ d.kind = .bound ∧ d.name = c.name ∧ c.cols = nv ∧ d.cols = na ∧
      ∀ a, (Sat c a ↔ ∀ i, i < na → c.lb i ≤ a (nv - na + i) ∧ a (nv - na + i) ≤ c.ub i) ∧
        (Sat d a ↔ ∀ i, i < na → c.lb i ≤ a i ∧ a i ≤ c.ub i) := by
  obtain ⟨s', c, hc, hw, hl, hs⟩ := C35_full_mask_partial hna h0 hr hg hfull hq hv
  have hi := PosVelAcc.limInv_run hna (PosVelAcc.limInv_new hna h0).1 hg hr
  have hk : c.kind = .inequality ∧ c.mat.cols = nv := by
    rw [PosVelAcc.compute_ok (by rw [hi.naEq]; exact hq) (by rw [hi.naEq]; exact hv)] at hc
    cases hc
    exact ⟨hi.kind, by rw [hi.mat]; rfl⟩
  unfold WellFormed at hw
  rw [hk.1] at hw
  refine ⟨s', c, ⟨c.name, .bound, Mat.identity c.lb.size, Constraint.noVec, c.lb, c.ub⟩, hc, hk.1, ?_, rfl, rfl, ?_, hl,
    fun a => ⟨hs a, ?_⟩⟩
  · simp only [Source.copy, Constraint.newBound]
    rw [if_pos (hw.1.trans hw.2.symm)]
  · simp only [Constraint.cols, hk.1, hk.2]
  · simp only [Sat, hl]

/-- **C81, limits.** Without a floating base and with a full mask, what Python gets from the joint limits bounds the
same accelerations as the original.

Missing: robots with a floating base (`C81_wrong_coordinates`) and other masks, for which already the original is wrong
(`C35_illformed`). -/
theorem C81_limits_partial [IsStrictOrderedRing K] [FloorRing K] {name : String} {na : Nat} {dt : K} {s0 s : PosVelAcc K}
    {os : List (PosVelAcc.Op K)} {q v : Vec K}
    (h0 : PosVelAcc.new name na na dt = some s0) (hr : runOps PosVelAcc.step s0 os = some s)
    (hg : ∀ o ∈ os, GoodMask na o)
    (hfull : ∀ i, i < na → ((LimitSettings.fresh (K := K) na).afterAll na os).mask i = 1)
    (hq : na ≤ q.size) (hv : na ≤ v.size) :
    ∃ s' c d, s.compute q v = .ok s' c ∧ c.kind = Source.posVelAccBounds.kind ∧
      Source.posVelAccBounds.copy c = some d ∧ d.name = c.name ∧ d.cols = c.cols ∧ ∀ a, Sat d a ↔ Sat c a := by
  obtain ⟨s', c, d, h1, hk, h2, -, h3, h4, h5, h6⟩ := limits81 le_rfl h0 hr hg hfull hq hv
  refine ⟨s', c, d, h1, hk, h2, h3, h5.trans h4.symm, fun a => ?_⟩
  rw [(h6 a).1, (h6 a).2]
  simp only [Nat.sub_self, Nat.zero_add]

/-- **C81 fails for the limits of a robot with a floating base.** What Python gets bounds the first `na` accelerations,
those of the base, by the limits of the joints, and has `na` columns instead of `nv`. -/
theorem C81_wrong_coordinates [IsStrictOrderedRing K] [FloorRing K] {name : String} {nv na : Nat} {dt : K}
    {s0 s : PosVelAcc K}
    {os : List (PosVelAcc.Op K)} {q v : Vec K} (hna : na < nv)
    (h0 : PosVelAcc.new name nv na dt = some s0) (hr : runOps PosVelAcc.step s0 os = some s)
    (hg : ∀ o ∈ os, GoodMask na o)
    (hfull : ∀ i, i < na → ((LimitSettings.fresh (K := K) na).afterAll na os).mask i = 1)
    (hq : na ≤ q.size) (hv : na ≤ v.size) :
    ∃ s' c d, s.compute q v = .ok s' c ∧ c.kind = Source.posVelAccBounds.kind ∧
      Source.posVelAccBounds.copy c = some d ∧ d.kind ≠ c.kind ∧ d.cols ≠ c.cols ∧
      ∀ a, (Sat c a ↔ ∀ i, i < na → c.lb i ≤ a (nv - na + i) ∧ a (nv - na + i) ≤ c.ub i) ∧
        (Sat d a ↔ ∀ i, i < na → c.lb i ≤ a i ∧ a i ≤ c.ub i) := by
  obtain ⟨s', c, d, h1, hk, h2, hd, h3, h4, h5, h6⟩ := limits81 hna.le h0 hr hg hfull hq hv
  exact ⟨s', c, d, h1, hk, h2, by rw [hk, hd]; simp [Source.kind], by omega, h6⟩

/-- A free-flying robot with two joints: the copy has two columns, the original eight. -/
example :
    ((PosVelAcc.new "l" 8 2 (1/2 : ℚ)).bind fun s0 =>
      (runOps PosVelAcc.step s0 [.setVelocityBounds (Vec.ofList [1, 100])]).bind fun s =>
      (s.compute (Vec.ofList [0, 0, 0, 0, 0, 0, 0, 0, 0]) (Vec.ofList [0, 0, 0, 0, 0, 0, 0, 0])).val?.bind fun c =>
      (Source.posVelAccBounds.copy c).map fun d => (c.mat.toLists, c.cols, d.mat.toLists, d.cols)) =
      some ([[0, 0, 0, 0, 0, 0, 1, 0], [0, 0, 0, 0, 0, 0, 0, 1]], 8, [[1, 0], [0, 1]], 2) := by
  decide +kernel

/-- A posture constraint meets the hypotheses of `C81_copies_partial`. -/
example : (Constraint.mkEq (K := ℚ) "posture" 2 8).kind = Source.posture.kind ∧
    WellFormed (Constraint.mkEq (K := ℚ) "posture" 2 8) := ⟨rfl, rfl⟩

end Tsid.Props
