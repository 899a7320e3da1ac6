import Verif.Lemmas.Program
import Verif.Lemmas.History

/-!
# Whole programs: the calls on the formulation
-/

set_option linter.unusedSectionVars false

namespace Tsid.Program

open Spec Finset

variable {K : Type} [Field K] [LinearOrder K] [FloorRing K] [HasSqrt K]

/-- A call on the formulation reads the names, and of the other data only those of the task that is added. -/
theorem step_world {E : Env K} {W : World} {s : State K} {o : Formulation.Op K}
    (hn : ∀ tid, (W.task tid).name = E.name tid) (hm : W.mfName = E.mfName) (ha : Announced E W s o)
    (nd : Bool) : Formulation.step nd (world E s) s.form o = Formulation.step nd W s.form o := by
  cases o with
  | addMotionTask tid w p dur =>
    simp only [Formulation.step, Formulation.addMotionTask, Formulation.addTask]
    rw [show (world E s).task tid = W.task tid from ha]
  | addForceTask tid w p dur =>
    simp only [Formulation.step, Formulation.addForceTask, Formulation.addTask]
    rw [show (world E s).task tid = W.task tid from ha]
  | addActuationTask tid w p dur =>
    simp only [Formulation.step, Formulation.addActuationTask, Formulation.addTask]
    rw [show (world E s).task tid = W.task tid from ha]
  | removeTask n =>
    have : (fun tid => ((world E s).task tid).name) = fun tid => (W.task tid).name := by
      funext tid; rw [hn]; rfl
    have h' : ∀ tid, ((world E s).task tid).name = (W.task tid).name := fun tid => congrFun this tid
    simp only [Formulation.step, Formulation.removeTask, h']
  | removeMeasuredForce n =>
    simp only [Formulation.step, Formulation.removeMeasuredForce, hm]
    rfl
  | _ => rfl

/-- A successful cycle of the program is one of the formulation. -/
theorem compute_form {E : Env K} {w : Snapshot K} {t : K} {s s' : State K} (h : compute E w t s = .ok s' ()) :
    Formulation.computeProblemData E.ndebug (cycleOf E w t s) t s.form = .ok s'.form () := by
  obtain ⟨f, s1, f', hf, hs, ha, rfl⟩ := compute_ok h
  have hcy : cycleOf E w t s = cycle w s1 := by simp only [cycleOf, hf, hs]
  simp only [Formulation.computeProblemData, hf, hcy, ha]

/-- One call of the program, seen from the formulation. -/
theorem step_form {E : Env K} {W : World} {s s' : State K} {o : Op K}
    (hn : ∀ tid, (W.task tid).name = E.name tid) (hm : W.mfName = E.mfName) (ho : Orderly E W s o)
    (h : (step E s o).state? = some s') :
    Formulation.run E.ndebug W s.form (formCall E s o) = some s'.form ∧
    Along E.ndebug W (Tidy W) s.form (formCall E s o) ∧
    Along E.ndebug W NoReassociation s.form (formCall E s o) := by
  have hone : ∀ (c : Formulation.Op K), formCall E s o = [c] → (Formulation.step E.ndebug W s.form c).state? = some s'.form →
      Tidy W s.form c → NoReassociation s.form c → 
      Formulation.run E.ndebug W s.form (formCall E s o) = some s'.form ∧
      Along E.ndebug W (Tidy W) s.form (formCall E s o) ∧
      Along E.ndebug W NoReassociation s.form (formCall E s o) := by
    intro c hc hst ht hr
    rw [hc]
    simp only [Formulation.run, Along, hst, ht, hr, and_self]
  have hnil : formCall E s o = [] → s'.form = s.form → 
      Formulation.run E.ndebug W s.form (formCall E s o) = some s'.form ∧
      Along E.ndebug W (Tidy W) s.form (formCall E s o) ∧
      Along E.ndebug W NoReassociation s.form (formCall E s o) := by
    intro hc hst
    rw [hc, hst]
    exact ⟨rfl, trivial, trivial⟩
  cases o with
  | task i c =>
    refine hnil rfl ?_
    simp only [step] at h
    split at h
    · cases h
    · split at h <;> cases h <;> rfl
  | associate i cid n =>
    simp only [step] at h
    split at h
    · split at h
      · cases h
        exact hone (.setAssociated i n) rfl rfl trivial ho
      · cases h
    · cases h
  | motion i c =>
    refine hnil rfl ?_
    simp only [step] at h
    split at h <;> cases h <;> rfl
  | measured i c =>
    refine hnil rfl ?_
    simp only [step] at h
    split at h <;> cases h <;> rfl
  | form c =>
    simp only [step] at h
    split at h
    · next hty =>
      rw [step_world hn hm ho.2] at h
      refine hone c rfl ?_ ho.1 ?_
      · split at h
        · next f u hf => cases h; rw [hf]; rfl
        · next f hf => cases h; rw [hf]; rfl
        · cases h
        · cases h
      · cases c <;> first | trivial | simp [typed] at hty
    · cases h
  | compute w t =>
    refine hone (.compute (cycleOf E w t s) t) rfl ?_ trivial trivial
    rcases compute_state h with h1 | ⟨f, hf, rfl⟩
    · simp only [Formulation.step, compute_form h1]; rfl
    · simp only [Formulation.step, Formulation.computeProblemData, hf]; rfl

/-- A program, seen from the formulation. -/
theorem run_form {E : Env K} {W : World} (hn : ∀ tid, (W.task tid).name = E.name tid) (hm : W.mfName = E.mfName) :
    ∀ {ops : List (Op K)} {s s' : State K}, EveryCall E (Orderly E W) s ops → run E s ops = some s' →
    Formulation.run E.ndebug W s.form (formCalls E s ops) = some s'.form ∧
    Along E.ndebug W (Tidy W) s.form (formCalls E s ops) ∧
    Along E.ndebug W NoReassociation s.form (formCalls E s ops)
  | [], s, s', ho, h => by
    simp only [run, Option.some.injEq] at h
    subst h
    exact ⟨rfl, trivial, trivial⟩
  | o :: os, s, s', ho, h => by
    simp only [run] at h
    simp only [EveryCall] at ho
    obtain ⟨ho1, ho2⟩ := ho
    simp only [formCalls]
    split at h
    · next s1 hs =>
      simp only [hs] at ho2 ⊢
      obtain ⟨a1, a2, a3⟩ := step_form hn hm ho1 hs
      obtain ⟨b1, b2, b3⟩ := run_form hn hm ho2 h
      rw [Formulation.run_append _ _ _ _ a1]
      exact ⟨b1, (Formulation.along_append _ _ _ _ a1).2 ⟨a2, b2⟩, (Formulation.along_append _ _ _ _ a1).2 ⟨a3, b3⟩⟩
    · cases h

end Tsid.Program
