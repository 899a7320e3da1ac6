import Verif.Lemmas.ProgramForm
import Verif.Lemmas.Frame

/-!
# Whole programs: what formulation and objects agree on
-/

set_option linter.unusedSectionVars false

namespace Tsid

open Spec Finset

variable {K : Type} [Field K] [LinearOrder K] [FloorRing K] [HasSqrt K]

/-- Only `setAssociatedContact` changes the associated contacts. -/
theorem Formulation.step_assoc {nd : Bool} {W : World} {s s' : State K} {o : Formulation.Op K}
    (ho : ∀ tid n, o ≠ .setAssociated tid n) (hs : (Formulation.step nd W s o).state? = some s') :
    s'.assoc = s.assoc := by
  by_cases hp : Formulation.Plain o
  · exact (Formulation.step_frame hp hs).assoc
  · cases o with
    | removeRigidContact n dur =>
      simp only [Formulation.step, Formulation.void_state?, Formulation.removeRigidContact] at hs
      simp only [Formulation.Plain, not_not] at hp
      rw [if_pos hp] at hs
      split at hs
      · cases hs; rfl
      · split at hs <;> (cases hs; rfl)
    | compute cy t =>
      simp only [Formulation.step, Formulation.computeProblemData] at hs
      split at hs
      · next s1 u h1 =>
        have h := Formulation.runTransitions_robot _ _ _ s1 (by rw [h1]; rfl)
        split at hs
        · next s2 h2 => cases hs; exact (Formulation.assemble_frame h2).assoc.trans h.2.1
        · cases hs
      · next s1 h1 =>
        have h := Formulation.runTransitions_robot _ _ _ s1 (by rw [h1]; rfl)
        cases hs
        exact h.2.1
      · cases hs
      · cases hs
    | decode x =>
      simp only [Formulation.step] at hs
      split at hs
      · next s1 h =>
        cases hs
        unfold Formulation.decodeSolution at h
        split at h
        · cases h; rfl
        · split at h
          · cases h; rfl
          · cases h
      · cases hs
    | setContact cid u =>
      simp only [Formulation.step] at hs
      split at hs
      · cases hs; rfl
      · cases hs; rfl
      · cases hs
      · cases hs
    | setAssociated tid n => exact absurd rfl (ho tid n)
    | _ => exact absurd trivial hp

namespace TaskObj

theorem lift_state {σ α : Type} {f : σ → TaskObj K} {r : Res σ α} {o : TaskObj K}
    (h : (lift f r).state? = some o) : ∃ s, r.state? = some s ∧ o = f s := by
  cases r with
  | ok s a => simp only [lift, Res.state?] at h; cases h; exact ⟨s, rfl, rfl⟩
  | throw s => simp only [lift, Res.state?] at h; cases h; exact ⟨s, rfl, rfl⟩
  | abort => simp [lift, Res.state?] at h
  | ub => simp [lift, Res.state?] at h

/-- An object keeps its class. -/
theorem call_class {E : Program.Env K} {o o' : TaskObj K} {c : TaskCall K} (h : (o.call E c).state? = some o') :
    o'.isMotion = o.isMotion ∧ o'.isForce = o.isForce ∧ o'.isActuation = o.isActuation := by
  cases o <;> cases c <;> simp only [call] at h <;>
    first
    | (obtain ⟨s, -, rfl⟩ := lift_state h; exact ⟨rfl, rfl, rfl⟩)
    | (simp [Res.state?] at h)

theorem run_class {E : Program.Env K} : ∀ {l : List (TaskCall K)} {o o' : TaskObj K},
    runOps (TaskObj.call E) o l = some o' →
    o'.isMotion = o.isMotion ∧ o'.isForce = o.isForce ∧ o'.isActuation = o.isActuation
  | [], o, o', h => by cases h; exact ⟨rfl, rfl, rfl⟩
  | c :: l, o, o', h => by
    simp only [runOps] at h
    split at h
    · cases h
    · next o1 h1 =>
      obtain ⟨a, b, c⟩ := run_class h
      obtain ⟨a', b', c'⟩ := call_class h1
      exact ⟨a.trans a', b.trans b', c.trans c'⟩

end TaskObj

namespace Program

theorem step_class {E : Env K} {s s' : State K} {o : Op K} (h : (step E s o).state? = some s') (tid : Nat) :
    (s'.task tid).isMotion = (s.task tid).isMotion ∧ (s'.task tid).isForce = (s.task tid).isForce ∧
      (s'.task tid).isActuation = (s.task tid).isActuation :=
  TaskObj.run_class (step_task h tid)

/-- The family of a task object. -/
def inFamily (o : TaskObj K) : Family → Bool
  | .motion => o.isMotion
  | .force => o.isForce
  | .actuation => o.isActuation

/-- Does the call add this task to this family? -/
def adds (fam : Family) (tid : Nat) : Formulation.Op K → Prop
  | .addMotionTask i _ _ _ => fam = .motion ∧ i = tid
  | .addForceTask i _ _ _ => fam = .force ∧ i = tid
  | .addActuationTask i _ _ _ => fam = .actuation ∧ i = tid
  | _ => False

/-- Tasks are added to the family of their class. -/
theorem mem_formCalls {E : Env K} {fam : Family} {tid : Nat} {c : Formulation.Op K} (hc : adds fam tid c) :
    ∀ {ops : List (Op K)} {s s' : State K}, run E s ops = some s' → c ∈ formCalls E s ops →
    inFamily (s.task tid) fam = true
  | [], s, s', h, hm => by simp [formCalls] at hm
  | o :: os, s, s', h, hm => by
    simp only [run] at h
    split at h
    · next s1 hs =>
      simp only [formCalls, hs, List.mem_append] at hm
      rcases hm with hm | hm
      · cases o with
        | form c' =>
          simp only [formCall, List.mem_singleton] at hm
          subst hm
          simp only [step] at hs
          split at hs
          · next hty =>
            cases c <;> simp only [adds] at hc <;> obtain ⟨rfl, rfl⟩ := hc <;> exact hty
          · simp [Res.state?] at hs
        | associate i cid n =>
          simp only [formCall, List.mem_singleton] at hm
          subst hm
          exact hc.elim
        | compute w t =>
          simp only [formCall, List.mem_singleton] at hm
          subst hm
          exact hc.elim
        | task i c => simp [formCall] at hm
        | motion i c => simp [formCall] at hm
        | measured i c => simp [formCall] at hm
      · have ih := mem_formCalls hc h hm
        obtain ⟨a, b, d⟩ := step_class hs tid
        cases fam
        · exact a.symm.trans ih
        · exact b.symm.trans ih
        · exact d.symm.trans ih
    · cases h

/-- Only calls that add a task register it. -/
theorem mem_after {W : World} {nm : Nat → String} {fam : Family} {tid : Nat} : ∀ {l : List (Formulation.Op K × Bool)}
    {r : Registry K} {p : Nat} {w : K}, .task fam tid p w ∈ (r.after W nm l).items →
    (∃ p w, .task fam tid p w ∈ r.items) ∨ ∃ c ∈ l, adds fam tid c.1
  | [], r, p, w, h => .inl ⟨p, w, h⟩
  | e :: l, r, p, w, h => by
    rcases mem_after (l := l) (r := r.next W nm e.2 e.1) h with ⟨p, w, h1⟩ | ⟨c, h1, h2⟩
    · obtain ⟨o, b⟩ := e
      have keep : ∀ {r' : Registry K} {p : Nat} {w : K}, (∀ it ∈ r'.items, it ∈ r.items) → .task fam tid p w ∈ r'.items →
          (∃ p w, .task fam tid p w ∈ r.items) ∨ ∃ c ∈ (o, b) :: l, adds fam tid c.1 :=
        fun hs hi => .inl ⟨_, _, hs _ hi⟩
      cases o with
      | addMotionTask i w' p' d =>
        simp only [Registry.next] at h1
        split at h1
        · exact .inl ⟨_, _, h1⟩
        · simp only [List.mem_append, List.mem_singleton, Item.task.injEq] at h1
          rcases h1 with h1 | ⟨rfl, rfl, -⟩
          · exact .inl ⟨_, _, h1⟩
          · exact .inr ⟨_, List.mem_cons_self, rfl, rfl⟩
      | addForceTask i w' p' d =>
        simp only [Registry.next] at h1
        split at h1
        · exact .inl ⟨_, _, h1⟩
        · simp only [List.mem_append, List.mem_singleton, Item.task.injEq] at h1
          rcases h1 with h1 | ⟨rfl, rfl, -⟩
          · exact .inl ⟨_, _, h1⟩
          · exact .inr ⟨_, List.mem_cons_self, rfl, rfl⟩
      | addActuationTask i w' p' d =>
        simp only [Registry.next] at h1
        split at h1
        · exact .inl ⟨_, _, h1⟩
        · simp only [List.mem_append, List.mem_singleton, Item.task.injEq] at h1
          rcases h1 with h1 | ⟨rfl, rfl, -⟩
          · exact .inl ⟨_, _, h1⟩
          · exact .inr ⟨_, List.mem_cons_self, rfl, rfl⟩
      | updateTaskWeight n w' =>
        simp only [Registry.next, List.mem_map] at h1
        obtain ⟨it, h1, h2⟩ := h1
        cases it with
        | task f i p0 w0 =>
          simp only [Item.setWeight, Item.task.injEq] at h2
          obtain ⟨rfl, rfl, -, -⟩ := h2
          exact .inl ⟨_, _, h1⟩
        | contact c p0 a b => simp [Item.setWeight] at h2
      | updateRigidContactWeights n wf wm =>
        simp only [Registry.next, List.mem_map] at h1
        obtain ⟨it, h1, h2⟩ := h1
        cases it with
        | task f i p0 w0 =>
          simp only [Item.setContactWeights, Item.task.injEq] at h2
          obtain ⟨rfl, rfl, -, -⟩ := h2
          exact .inl ⟨_, _, h1⟩
        | contact c p0 a b => simp [Item.setContactWeights] at h2
      | addRigidContact cid wf wm p' =>
        simp only [Registry.next, List.mem_append, List.mem_singleton, reduceCtorEq, or_false] at h1
        exact .inl ⟨_, _, h1⟩
      | removeTask n =>
        simp only [Registry.next, List.mem_filter] at h1
        exact .inl ⟨_, _, h1.1⟩
      | removeRigidContact n d =>
        simp only [Registry.next] at h1
        split at h1
        · exact .inl ⟨_, _, h1⟩
        · split at h1
          · split at h1 <;> exact .inl ⟨_, _, h1⟩
          · simp only [Registry.dropContact, List.mem_filter] at h1
            exact .inl ⟨_, _, h1.1⟩
      | compute cy t =>
        simp only [Registry.next] at h1
        split at h1
        · exact .inl ⟨_, _, h1⟩
        · unfold Registry.expire at h1
          split at h1
          · exact .inl ⟨_, _, h1⟩
          · simp only [List.mem_filter] at h1
            exact .inl ⟨_, _, h1.1⟩
      | _ => exact .inl ⟨_, _, h1⟩
    · exact .inr ⟨c, List.mem_cons_of_mem _ h1, h2⟩

theorem mem_outcomes {nd : Bool} {W : World} : ∀ {l : List (Formulation.Op K)} {s : Tsid.State K}
    {e : Formulation.Op K × Bool}, e ∈ outcomes nd W s l → e.1 ∈ l
  | [], s, e, h => by simp [outcomes] at h
  | o :: l, s, e, h => by
    simp only [outcomes, List.mem_cons] at h
    rcases h with rfl | h
    · exact List.mem_cons_self
    · split at h
      · exact List.mem_cons_of_mem _ (mem_outcomes h)
      · simp at h

/-- A registered task has the class of the family it is registered in. -/
theorem registered_class {E : Env K} {W : World} {S : Setup K} {ops : List (Op K)} {s' : State K} {nm : Nat → String}
    {t : K} {fam : Family} {tid p : Nat} {w : K} (h : run E S.start ops = some s')
    (hm : .task fam tid p w ∈ ((registrations E.ndebug W S.robot S.obj (fun tid => (S.task tid).assoc)
      (formCalls E S.start ops)).expire nm t).items) : inFamily (S.task tid) fam = true := by
  have h1 : .task fam tid p w ∈ (registrations E.ndebug W S.robot S.obj (fun tid => (S.task tid).assoc)
      (formCalls E S.start ops)).items := by
    unfold Registry.expire at hm
    split at hm
    · exact hm
    · exact (List.mem_filter.1 hm).1
  rcases mem_after h1 with ⟨p, w, h2⟩ | ⟨c, h2, h3⟩
  · simp [Registry.empty] at h2
  · exact mem_formCalls (s := S.start) h3 h (mem_outcomes h2)

/-! ## Associated contacts -/

theorem call_assoc {E : Env K} {o o' : TaskObj K} {c : TaskCall K} (hc : isAssociate c = false)
    (h : (o.call E c).state? = some o') : o'.assoc = o.assoc := by
  cases o <;> cases c <;> simp only [TaskObj.call] at h <;>
    first
    | (obtain ⟨s, hs, rfl⟩ := TaskObj.lift_state h; first | rfl | skip)
    | (simp [Res.state?] at h; done)
  next s0 o =>
    have hcomp : ∀ {gen : Mat K} {s s1 : ForceTask K} {c : Constraint K}, s.compute gen = .ok s1 c →
        s1.cname = s.cname := by
      intro gen s s1 c h
      unfold ForceTask.compute at h
      dsimp only at h
      split at h
      · cases h; rfl
      · cases h
    simp only [TaskObj.assoc]
    cases o with
    | setAssociatedContact c n => cases hc
    | setKp k => simp only [ForceTask.step] at hs; split at hs <;> cases hs <;> rfl
    | setKd k => simp only [ForceTask.step] at hs; split at hs <;> cases hs <;> rfl
    | setKi k => simp only [ForceTask.step] at hs; split at hs <;> cases hs <;> rfl
    | setLeakRate k => simp only [ForceTask.step] at hs; cases hs; rfl
    | setReference k => simp only [ForceTask.step] at hs; cases hs; rfl
    | setExternalForce k => simp only [ForceTask.step] at hs; cases hs; rfl
    | compute gen =>
      simp only [ForceTask.step] at hs
      split at hs
      · next hh => cases hs; exact hcomp hh
      · cases hs
    | compute5 gen names =>
      simp only [ForceTask.step, ForceTask.compute5] at hs
      split at hs
      · next hh =>
        cases hs
        split at hh
        · split at hh
          · exact hcomp hh
          · cases hh; rfl
        · cases hh; rfl
      · cases hs

/-- The formulation knows the contact every force task is associated with. -/
def Linked (s : State K) : Prop := ∀ tid, s.form.assoc tid = (s.task tid).assoc

theorem repeat_assoc {E : Env K} {x : TaskObj.Ctx K} : ∀ {n : Nat} {o o' : TaskObj K},
    iterO (TaskObj.compute E x) n o = some o' → o'.assoc = o.assoc
  | 0, o, o', h => by simp only [iterO, Option.some.injEq] at h; rw [h]
  | n + 1, o, o', h => by
    simp only [iterO] at h
    split at h
    · next o1 h1 =>
      rw [repeat_assoc h]
      simp only [TaskObj.compute] at h1
      split at h1
      · cases h1; rfl
      · next c hc =>
        split at h1
        · next o2 u h2 =>
          cases h1
          refine call_assoc (c := c) ?_ (by rw [h2]; rfl)
          cases o <;> simp only [TaskObj.cycleCall, Option.some.injEq, reduceCtorEq] at hc <;> subst hc <;> rfl
        · cases h1
    · cases h

theorem step_linked {E : Env K} {s s' : State K} {o : Op K} (h : (step E s o).state? = some s') (hl : Linked s) :
    Linked s' := by
  intro tid
  cases o with
  | task i c =>
    simp only [step] at h
    split at h
    · cases h
    · next ha =>
      have hone : ∀ o1, ((s.task i).call E c).state? = some o1 →
          s.form.assoc tid = (Function.update s.task i o1 tid).assoc := by
        intro o1 h1
        by_cases hi : i = tid
        · subst hi; rw [Function.update_self, call_assoc (by simpa using ha) h1]; exact hl i
        · rw [Function.update_of_ne (Ne.symm hi)]; exact hl tid
      split at h
      · next o1 u h1 => cases h; exact hone o1 (by rw [h1]; rfl)
      · next o1 h1 => cases h; exact hone o1 (by rw [h1]; rfl)
      · cases h
      · cases h
  | associate i cid n =>
    simp only [step] at h
    split at h
    · split at h
      · next o1 u h1 =>
        cases h
        by_cases hi : i = tid
        · subst hi
          simp only [Function.update_self]
          cases ht : s.task i <;> rw [ht] at h1 <;> simp only [TaskObj.call, reduceCtorEq] at h1
          simp only [ForceTask.step, TaskObj.lift] at h1
          cases h1
          rfl
        · simp only [Function.update_of_ne (Ne.symm hi)]; exact hl tid
      · cases h
    · cases h
  | motion i c =>
    simp only [step] at h
    split at h <;> cases h <;> exact hl tid
  | measured i c =>
    simp only [step] at h
    split at h <;> cases h <;> exact hl tid
  | form c =>
    simp only [step] at h
    split at h
    · next hty =>
      have hne : ∀ tid n, c ≠ .setAssociated tid n := by
        rintro i n rfl
        simp [typed] at hty
      have hone : ∀ f, (Formulation.step E.ndebug (world E s) s.form c).state? = some f →
          f.assoc tid = (s.task tid).assoc := by
        intro f hf
        rw [Formulation.step_assoc hne hf]
        exact hl tid
      split at h
      · next f u hf => cases h; exact hone f (by rw [hf]; rfl)
      · next f hf => cases h; exact hone f (by rw [hf]; rfl)
      · cases h
      · cases h
    · cases h
  | compute w t =>
    rcases compute_state h with h1 | ⟨f, hf, rfl⟩
    · obtain ⟨f, s1, f', hf, hs, ha, rfl⟩ := compute_ok h1
      obtain ⟨-, -, -, h4⟩ := computeObjects_some hs
      have e1 := Formulation.runTransitions_robot _ _ _ f (by rw [hf]; rfl)
      show f'.assoc tid = (s1.task tid).assoc
      rw [(Formulation.assemble_frame ha).assoc, e1.2.1, repeat_assoc (each_iter h4 tid)]
      exact hl tid
    · have e1 := Formulation.runTransitions_robot _ _ _ f (by rw [hf]; rfl)
      show f.assoc tid = (s.task tid).assoc
      rw [e1.2.1]
      exact hl tid

theorem run_linked {E : Env K} : ∀ {ops : List (Op K)} {s s' : State K}, run E s ops = some s' → Linked s → Linked s'
  | [], s, s', h, hl => by cases h; exact hl
  | o :: os, s, s', h, hl => by
    simp only [run] at h
    split at h
    · next s1 hs => exact run_linked h (step_linked hs hl)
    · cases h

end Program

end Tsid
