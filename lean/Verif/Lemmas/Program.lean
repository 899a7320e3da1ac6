import Verif.Spec.Program
import Verif.Lemmas.Objects

/-!
# Whole programs: histories of the objects, and the calls on the formulation
-/

set_option linter.unusedSectionVars false

namespace Tsid

open Spec Finset

/-! ## Loops over objects -/

/-- Repeated application. -/
def iterO {α : Type} (f : α → Option α) : Nat → α → Option α
  | 0, a => some a
  | n + 1, a =>
    match f a with
    | some b => iterO f n b
    | none => none

theorem each_iter {α : Type} {f : α → Option α} : ∀ {is : List Nat} {o o' : Nat → α}, Program.each f is o = some o' →
    ∀ i, iterO f (is.count i) (o i) = some (o' i)
  | [], o, o', h, i => by
    simp only [Program.each, Option.some.injEq] at h
    subst h
    rfl
  | j :: is, o, o', h, i => by
    simp only [Program.each] at h
    split at h
    · next a ha =>
      have ih := each_iter h i
      rw [List.count_cons]
      by_cases hij : j = i
      · subst hij
        rw [Function.update_self] at ih
        simp only [beq_self_eq_true, if_true, iterO, ha]
        exact ih
      · rw [Function.update_of_ne (Ne.symm hij)] at ih
        rw [if_neg (by simpa using hij)]
        exact ih
    · cases h

theorem each_count_zero {α : Type} {f : α → Option α} {is : List Nat} {o o' : Nat → α}
    (h : Program.each f is o = some o') {i : Nat} (hi : i ∉ is) : o' i = o i := by
  have := each_iter h i
  rw [List.count_eq_zero_of_not_mem hi] at this
  simpa [iterO] using this.symm

theorem each_once {α : Type} {f : α → Option α} {is : List Nat} {o o' : Nat → α}
    (h : Program.each f is o = some o') (hn : is.Nodup) {i : Nat} (hi : i ∈ is) : f (o i) = some (o' i) := by
  have := each_iter h i
  rw [List.count_eq_one_of_mem hn hi] at this
  simp only [iterO] at this
  split at this
  · next b hb => rw [hb]; exact this
  · cases this

theorem runOps_append {σ op α : Type} (step : σ → op → Res σ α) : ∀ (l1 l2 : List op) (s : σ),
    runOps step s (l1 ++ l2) = (runOps step s l1).bind fun s' => runOps step s' l2
  | [], l2, s => rfl
  | o :: l1, l2, s => by
    simp only [List.cons_append, runOps]
    cases (step s o).state? with
    | none => rfl
    | some s' => exact runOps_append step l1 l2 s'

variable {K : Type} [Field K] [LinearOrder K] [FloorRing K] [HasSqrt K]

namespace Program

/-! ## The calls a task receives -/

theorem repeat_run {E : Env K} {x : TaskObj.Ctx K} : ∀ {n : Nat} {o o' : TaskObj K},
    iterO (TaskObj.compute E x) n o = some o' → runOps (TaskObj.call E) o (repeatCalls E x n o) = some o'
  | 0, o, o', h => by simpa [iterO, repeatCalls, runOps] using h
  | n + 1, o, o', h => by
    simp only [iterO, TaskObj.compute] at h
    simp only [repeatCalls]
    cases hc : o.cycleCall x with
    | none =>
      simp only [hc] at h
      simp only [runOps]
      have : ∀ m, iterO (TaskObj.compute E x) m o = some o := by
        intro m
        induction m with
        | zero => rfl
        | succ m ih => simp only [iterO, TaskObj.compute, hc]; exact ih
      rw [this] at h
      exact h
    | some c =>
      simp only [hc] at h
      simp only [runOps]
      cases hcall : o.call E c with
      | ok o1 u =>
        simp only [hcall] at h
        simp only [Res.state?]
        exact repeat_run h
      | throw o1 => simp only [hcall] at h; cases h
      | abort => simp only [hcall] at h; cases h
      | ub => simp only [hcall] at h; cases h

theorem computeObjects_some {E : Env K} {w : Snapshot K} {f : Tsid.State K} {s s' : State K}
    (h : computeObjects E w f s = some s') :
    s'.form = f ∧ each (ContactMotion.compute E w) (f.contacts.map ContactLevel.cid) s.motion = some s'.motion ∧
    each (fun m => some (MeasuredObj.compute w m)) f.measured s.measured = some s'.measured ∧
    each (TaskObj.compute E (ctx E w f)) (computed f) s.task = some s'.task := by
  unfold computeObjects at h
  split at h
  · cases h
  · next m hm =>
    split at h
    · cases h
    · next g hg =>
      split at h
      · cases h
      · next k hk =>
        cases h
        exact ⟨rfl, hm, hg, hk⟩

/-- What a successful cycle consists of. -/
theorem compute_ok {E : Env K} {w : Snapshot K} {t : K} {s s' : State K} (h : compute E w t s = .ok s' ()) :
    ∃ f s1 f', Formulation.runTransitions E.ndebug [] s.form.trans { s.form with t := t } = .ok f () ∧
      computeObjects E w f s = some s1 ∧ Formulation.assemble (cycle w s1) f = some f' ∧ s' = { s1 with form := f' } := by
  unfold compute at h
  split at h
  · next f u hf =>
    split at h
    · cases h
    · next s1 hs =>
      split at h
      · next f' hf' =>
        cases h
        exact ⟨f, s1, f', hf, hs, hf', rfl⟩
      · cases h
  · cases h
  · cases h
  · cases h

theorem compute_state {E : Env K} {w : Snapshot K} {t : K} {s s' : State K} (h : (compute E w t s).state? = some s') :
    compute E w t s = .ok s' () ∨
      ∃ f, Formulation.runTransitions E.ndebug [] s.form.trans { s.form with t := t } = .throw f ∧
        s' = { s with form := f } := by
  cases hc : compute E w t s with
  | ok a u => rw [hc] at h; cases h; exact .inl rfl
  | throw a =>
    rw [hc] at h
    cases h
    right
    unfold compute at hc
    split at hc
    · split at hc
      · cases hc
      · split at hc <;> cases hc
    · next f hf => cases hc; exact ⟨f, hf, rfl⟩
    · cases hc
    · cases hc
  | abort => rw [hc] at h; cases h
  | ub => rw [hc] at h; cases h

/-- One call of the program is a sequence of calls on each task. -/
theorem step_task {E : Env K} {s s' : State K} {o : Op K} (h : (step E s o).state? = some s') (tid : Nat) :
    runOps (TaskObj.call E) (s.task tid) (received E s tid o) = some (s'.task tid) := by
  cases o with
  | task i c =>
    simp only [step] at h
    simp only [received]
    split at h
    · cases h
    · split at h
      · next o1 u hcall =>
        cases h
        by_cases hi : i = tid
        · subst hi; simp [runOps, hcall, Res.state?]
        · simp [hi, runOps, Function.update_of_ne (Ne.symm hi)]
      · next o1 hcall =>
        cases h
        by_cases hi : i = tid
        · subst hi; simp [runOps, hcall, Res.state?]
        · simp [hi, runOps, Function.update_of_ne (Ne.symm hi)]
      · cases h
      · cases h
  | associate i cid n =>
    simp only [step] at h
    simp only [received]
    split at h
    · split at h
      · next o1 u hcall =>
        cases h
        by_cases hi : i = tid
        · subst hi; simp [runOps, hcall, Res.state?]
        · simp [hi, runOps, Function.update_of_ne (Ne.symm hi)]
      · cases h
    · cases h
  | motion i c =>
    simp only [step] at h
    split at h <;> cases h <;> rfl
  | measured i c =>
    simp only [step] at h
    split at h <;> cases h <;> rfl
  | form o =>
    simp only [step] at h
    split at h
    · split at h <;> cases h <;> rfl
    · cases h
  | compute w t =>
    rcases compute_state h with h1 | ⟨f, hf, rfl⟩
    · obtain ⟨f, s1, f', hf, hs, -, rfl⟩ := compute_ok h1
      simp only [received, hf]
      obtain ⟨-, -, -, h4⟩ := computeObjects_some hs
      exact repeat_run (each_iter h4 tid)
    · simp only [received, hf]
      rfl

theorem run_task {E : Env K} : ∀ {ops : List (Op K)} {s s' : State K}, run E s ops = some s' → ∀ tid,
    runOps (TaskObj.call E) (s.task tid) (history E s ops tid) = some (s'.task tid)
  | [], s, s', h, tid => by
    simp only [run, Option.some.injEq] at h
    subst h
    rfl
  | o :: os, s, s', h, tid => by
    simp only [run] at h
    simp only [history]
    split at h
    · next s1 hs =>
      rw [runOps_append, step_task hs tid]
      simp only [hs, Option.bind_some]
      exact run_task h tid
    · cases h

/-! ## Settings ignore the cycles -/

/-- Is it a call of `compute`? -/
def isCycle : TaskCall K → Bool
  | .se3 (.compute _) | .twoFrames (.compute _ _) | .com (.compute _) | .am (.compute _ _ _) | .capture (.compute _)
  | .posture (.compute _ _) | .jointBounds (.compute _) | .posVelAcc (.compute _ _) | .force (.compute5 _ _)
  | .cop (.compute5 _ _) => true
  | _ => false

theorem cycleCall_isCycle {x : TaskObj.Ctx K} {o : TaskObj K} {c : TaskCall K} (h : o.cycleCall x = some c) :
    isCycle c = true := by
  cases o <;> simp only [TaskObj.cycleCall, Option.some.injEq, reduceCtorEq] at h <;> subst h <;> rfl

theorem mem_repeat {E : Env K} {x : TaskObj.Ctx K} : ∀ {n : Nat} {o : TaskObj K} {c : TaskCall K},
    c ∈ repeatCalls E x n o → ∃ o', TaskObj.cycleCall x o' = some c
  | 0, o, c, h => by simp [repeatCalls] at h
  | n + 1, o, c, h => by
    simp only [repeatCalls] at h
    split at h
    · simp at h
    · next c' hc =>
      rcases List.mem_cons.1 h with rfl | h
      · exact ⟨o, hc⟩
      · split at h
        · exact mem_repeat h
        · simp at h

/-- The calls a task receives are those in the text and those of the cycles. -/
theorem mem_history {E : Env K} {tid : Nat} {c : TaskCall K} : ∀ {ops : List (Op K)} {s : State K},
    c ∈ history E s ops tid → c ∈ taskCalls tid ops ∨
      ∃ x o, x.w ∈ snapshots ops ∧ TaskObj.cycleCall x o = some c
  | [], s, h => by simp [history] at h
  | o :: os, s, h => by
    simp only [history, List.mem_append] at h
    have tail : c ∈ taskCalls tid os ∨ (∃ x o, x.w ∈ snapshots os ∧ TaskObj.cycleCall x o = some c) →
        c ∈ taskCalls tid (o :: os) ∨ ∃ x o', x.w ∈ snapshots (o :: os) ∧ TaskObj.cycleCall x o' = some c := by
      clear h
      rintro (h' | ⟨x, o', h1, h2⟩)
      · left
        cases o <;> simp only [taskCalls] <;> first | exact h' | skip
        all_goals (split <;> first | exact List.mem_cons_of_mem _ h' | exact h')
      · right
        refine ⟨x, o', ?_, h2⟩
        cases o <;> simp only [snapshots] <;> first | exact h1 | exact List.mem_cons_of_mem _ h1
    rcases h with h | h
    · cases o with
      | task i c' =>
        simp only [received] at h
        split at h
        · next hi =>
          rw [List.mem_singleton] at h
          subst h
          left
          simp [taskCalls, hi]
        · simp at h
      | associate i cid n =>
        simp only [received] at h
        split at h
        · next hi =>
          rw [List.mem_singleton] at h
          subst h
          left
          simp [taskCalls, hi]
        · simp at h
      | compute w t =>
        simp only [received] at h
        split at h
        · next f u hf =>
          right
          obtain ⟨o', ho'⟩ := mem_repeat h
          exact ⟨ctx E w f, o', by simp [snapshots, ctx], ho'⟩
        · simp at h
      | motion i c' => simp [received] at h
      | measured i c' => simp [received] at h
      | form o => simp [received] at h
    · split at h
      · next s1 hs => exact tail (mem_history h)
      · simp at h

/-- A fold that ignores the cycles only depends on the text of the program. -/
theorem fold_history {E : Env K} {tid : Nat} {σ : Type} {F : σ → TaskCall K → σ}
    (hF : ∀ p c, isCycle c = true → F p c = p) : ∀ {ops : List (Op K)} {s s' : State K}, run E s ops = some s' →
    ∀ p, (history E s ops tid).foldl F p = (taskCalls tid ops).foldl F p
  | [], s, s', h, p => rfl
  | o :: os, s, s', h, p => by
    simp only [run] at h
    split at h
    · next s1 hs =>
      simp only [history, List.foldl_append, hs]
      cases o with
      | task i c' =>
        simp only [received, taskCalls]
        split
        · simp only [List.foldl_cons, List.foldl_nil]; exact fold_history hF h _
        · exact fold_history hF h _
      | associate i cid n =>
        simp only [received, taskCalls]
        split
        · simp only [List.foldl_cons, List.foldl_nil]; exact fold_history hF h _
        · exact fold_history hF h _
      | compute w t =>
        simp only [received, taskCalls]
        split
        · next f u hf =>
          have : ∀ (l : List (TaskCall K)), (∀ c ∈ l, isCycle c = true) → ∀ p, l.foldl F p = p := by
            intro l
            induction l with
            | nil => intro _ p; rfl
            | cons a as ih =>
              intro hl p
              rw [List.foldl_cons, hF _ _ (hl a (List.mem_cons_self ..))]
              exact ih (fun c hc => hl c (List.mem_cons_of_mem _ hc)) p
          rw [this (repeatCalls E (ctx E w f) (List.count tid (computed f)) (s.task tid)) (fun c hc => by obtain ⟨o', ho'⟩ := mem_repeat hc; exact cycleCall_isCycle ho')]
          exact fold_history hF h _
        · exact fold_history hF h _
      | motion i c' => exact fold_history hF h _
      | measured i c' => exact fold_history hF h _
      | form o => exact fold_history hF h _
    · cases h

/-- Settings after the calls of one class, as a fold over all calls. -/
theorem fold_filterMap {σ op call : Type} {after : σ → op → σ} {afterAll : σ → List op → σ}
    (h0 : ∀ p, afterAll p [] = p) (h1 : ∀ p o os, afterAll p (o :: os) = afterAll (after p o) os)
    (g : call → Option op) : ∀ (l : List call) (p : σ), afterAll p (l.filterMap g) =
      l.foldl (fun p c => match g c with | some o => after p o | none => p) p
  | [], p => h0 p
  | c :: l, p => by
    rw [List.foldl_cons]
    cases hg : g c with
    | none => rw [List.filterMap_cons_none hg]; exact fold_filterMap h0 h1 g l p
    | some o => rw [List.filterMap_cons_some hg, h1]; exact fold_filterMap h0 h1 g l _

/-- Settings that ignore the cycles only depend on the text of the program. -/
theorem settings_text {E : Env K} {tid : Nat} {σ op : Type} {after : σ → op → σ} {afterAll : σ → List op → σ}
    (h0 : ∀ p, afterAll p [] = p) (h1 : ∀ p o os, afterAll p (o :: os) = afterAll (after p o) os)
    {g : TaskCall K → Option op} (hg : ∀ p c o, isCycle c = true → g c = some o → after p o = p)
    {ops : List (Op K)} {s s' : State K} (h : run E s ops = some s') (p : σ) :
    afterAll p ((history E s ops tid).filterMap g) = afterAll p ((taskCalls tid ops).filterMap g) := by
  rw [fold_filterMap h0 h1, fold_filterMap h0 h1]
  refine fold_history ?_ h p
  intro p c hc
  cases hgc : g c with
  | none => rfl
  | some o => exact hg p c o hc hgc

/-! ## From objects to classes -/

/-- The history of an object, as a history of its class. -/
theorem unwrap {E : Env K} {σ op α : Type} {wrap : σ → TaskObj K} {get : TaskCall K → Option op}
    {st : σ → op → Res σ α}
    (hc : ∀ s c, TaskObj.call E (wrap s) c = match get c with
      | some o => TaskObj.lift wrap (st s o)
      | none => .ub) :
    ∀ {l : List (TaskCall K)} {s : σ} {o : TaskObj K}, runOps (TaskObj.call E) (wrap s) l = some o →
      ∃ s', o = wrap s' ∧ runOps st s (l.filterMap get) = some s'
  | [], s, o, h => by
    simp only [runOps, Option.some.injEq] at h
    exact ⟨s, h.symm, rfl⟩
  | c :: l, s, o, h => by
    simp only [runOps, hc] at h
    cases hg : get c with
    | none => rw [hg] at h; simp [Res.state?] at h
    | some o1 =>
      simp only [hg] at h
      rw [List.filterMap_cons_some hg]
      cases hs : st s o1 with
      | ok s1 a => simp only [hs, TaskObj.lift, Res.state?] at h; simp only [runOps, hs, Res.state?]; exact unwrap hc h
      | throw s1 => simp only [hs, TaskObj.lift, Res.state?] at h; simp only [runOps, hs, Res.state?]; exact unwrap hc h
      | abort => simp [hs, TaskObj.lift, Res.state?] at h
      | ub => simp [hs, TaskObj.lift, Res.state?] at h

end Program

end Tsid
