import Verif.Spec.SolverOutput
import Verif.Lemmas.SolverRun

/-!
# Lemmas on `solve`
-/

set_option linter.unusedSectionVars false

namespace Tsid.Solve

open Finset Spec Solver

variable {K R C : Type} [Field K]

/-- `solve` uses the members as `retrieveQPData` does. -/
theorem solve_state {D : Driver K R C} {fresh : Nat → Nat → K} {freshI : Nat → Int} {nd : Bool}
    {engine : Solver.State K R → Vec K → Answer C K} {s s' : Object K R} {p : HQPData K}
    (h : (solve D fresh freshI nd engine s p).state? = some s') :
    (retrieve D.backend fresh nd s.st p D.reg).state? = some s'.st := by
  unfold solve at h
  split at h
  · next st u e =>
    dsimp only at h
    split at h
    · cases h; rw [e]; rfl
    · cases h
  · next st e => cases h; rw [e]; rfl
  · cases h
  · cases h

/-- The corresponding call without the external solver. -/
def SolveCall.data (reg : Bool) : SolveCall K R C → SolverCall K
  | .solve fresh _ p _ => .retrieve fresh p reg
  | .resize fresh _ n neq nin => .resize fresh n neq nin

theorem run_state {D : Driver K R C} {nd : Bool} {s s' : Object K R} (c : SolveCall K R C)
    (h : (c.run D nd s).state? = some s') : ((SolveCall.data D.reg c).run D.backend nd s.st).state? = some s'.st := by
  cases c with
  | solve fresh freshI p engine => exact solve_state h
  | resize fresh freshI n neq nin =>
    simp only [SolveCall.run, Solve.resize] at h
    simp only [SolveCall.data, SolverCall.run]
    split at h
    · next e => cases h; rw [e]; rfl
    · next e => cases h; rw [e]; rfl
    · cases h
    · cases h

/-- The members after a history of calls are those after the corresponding assemblies. -/
theorem solves_retrieves {D : Driver K R C} {nd : Bool} : ∀ (h : List (SolveCall K R C)) (s s' : Object K R),
    solves D nd s h = some s' →
    retrieves D.backend nd s.st (h.map (SolveCall.data D.reg)) = some s'.st := by
  intro h
  induction h with
  | nil => intro s s' e; cases e; rfl
  | cons c h ih =>
    intro s s' e
    simp only [solves] at e
    split at e
    · next s1 e1 =>
      simp only [List.map_cons, retrieves, run_state c e1]
      exact ih s1 s' e
    · cases e

/-- What the drivers have in common. -/
structure Good (D : Driver K R C) (Success : Answer C K → Prop) : Prop where
  write : ∀ st a o, (Success a → st.neq ≤ a.activeSize ∧ a.activeSize ≤ a.active.length) →
    ∃ o', D.write st a o = some o' ∧ (Success a → o'.x = a.x ∧ o'.status = .optimal)
  x : ∀ st a o o', D.write st a o = some o' → o'.x = a.x ∨ o'.x = o.x

theorem resizeX_size (fresh : Nat → Nat → K) (freshI : Nat → Int) {old new : Solver.State K R} {o : Output K}
    (h : o.x.size = old.n) : (resizeX fresh freshI old new o).x.size = new.n := by
  unfold resizeX
  split
  · unfold resizeTo
    dsimp only
    split
    · assumption
    · rfl
  · next hn => rw [h]; exact (not_not.1 hn).symm

theorem resizeTo_size (fresh : Nat → Nat → K) (v : Vec K) (n : Nat) : (resizeTo fresh v n).size = n := by
  unfold resizeTo
  split
  · assumption
  · rfl

theorem fastResized_size (fresh : Nat → Nat → K) (freshI : Nat → Int) {old new : Solver.State K R} {o : Output K}
    (h : o.x.size = old.n) : (Fast.resized fresh freshI old new o).x.size = new.n := by
  unfold Fast.resized
  dsimp only
  split
  · exact resizeTo_size ..
  · exact resizeX_size fresh freshI h

theorem eiq_good : Good (eiq : Driver K (EiqRows K) Unit) fun a => ∃ v, a.objective = .num v where
  write := fun st a o _ => ⟨_, rfl, by rintro ⟨v, hv⟩; exact ⟨rfl, by simp [hv, Objective.shape, Status.eiq]⟩⟩
  x := fun st a o o' e => by cases e; exact .inl rfl

theorem fastWrite_some {st : Solver.State K R} {a : Answer Status.FastCode K} {o : Output K}
    (h : a.code = .optimal → st.neq ≤ a.activeSize ∧ a.activeSize ≤ a.active.length) :
    ∃ o', Fast.write st a o = some o' ∧ (a.code = .optimal → o'.x = a.x ∧ o'.status = .optimal) := by
  unfold Fast.write
  dsimp only
  by_cases hc : a.code = .optimal
  · rw [if_pos hc, activeInequalities, if_pos (h hc)]
    exact ⟨_, rfl, fun _ => ⟨rfl, rfl⟩⟩
  · rw [if_neg hc]
    exact ⟨_, rfl, fun h => absurd h hc⟩

theorem fastWrite_x {st : Solver.State K R} {a : Answer Status.FastCode K} {o o' : Output K}
    (h : Fast.write st a o = some o') : o'.x = a.x := by
  unfold Fast.write at h
  dsimp only at h
  split at h
  · split at h
    · cases h; rfl
    · cases h
  · cases h; rfl

theorem fast_good : Good (fast : Driver K (EiqRows K) Status.FastCode) fun a => a.code = .optimal where
  write := fun _ _ _ h => fastWrite_some h
  x := fun _ _ _ _ e => .inl (fastWrite_x e)

theorem rt_good : Good (rt : Driver K (EiqRows K) Status.FastCode) fun a => a.code = .optimal where
  write := fun _ _ _ h => fastWrite_some h
  x := fun _ _ _ _ e => .inl (fastWrite_x e)

theorem prox_good : Good (prox : Driver K (ProxRows K) Status.ProxCode) fun a => a.code = .solved where
  write := fun st a o _ => by
    simp only [prox, Prox.write]
    by_cases hc : a.code = .solved
    · rw [if_pos hc]; exact ⟨_, rfl, fun _ => ⟨rfl, rfl⟩⟩
    · rw [if_neg hc]; exact ⟨_, rfl, fun h => absurd h hc⟩
  x := fun st a o o' e => by
    simp only [prox, Prox.write] at e
    split at e <;> cases e
    · exact .inl rfl
    · exact .inr rfl

theorem osqp_good : Good (osqp : Driver K (OsqpRows K) Status.OsqpCode) fun a => a.code = .solved where
  write := fun st a o _ => by
    simp only [osqp, Osqp.write]
    by_cases hc : a.code = .solved
    · rw [if_pos hc]; exact ⟨_, rfl, fun _ => ⟨rfl, rfl⟩⟩
    · rw [if_neg hc]; exact ⟨_, rfl, fun h => absurd h hc⟩
  x := fun st a o o' e => by
    simp only [osqp, Osqp.write] at e
    split at e <;> cases e
    · exact .inl rfl
    · exact .inr rfl

theorem mad_good [LinearOrder K] : Good (mad : Driver K (MadRows K) Status.MadCode) fun a => a.code = .ok where
  write := fun st a o _ => ⟨_, rfl, fun h => ⟨rfl, by simp [h, Status.mad]⟩⟩
  x := fun st a o o' e => by cases e; exact .inl rfl

/-- The output has as many variables as the members. -/
def XSized (s : Object K R) : Prop := s.out.x.size = s.st.n

theorem solve_sized [CharZero K] [LinearOrder K] [IsStrictOrderedRing K] {D : Driver K R C} {Success : Answer C K → Prop} (hg : Good D Success)
    {Sz : Solver.State K R → Prop} (hk : Keeps D.backend Sz)
    (hr : ∀ fresh freshI old new (o : Output K), Sz old → Sz new → o.x.size = old.n →
      (D.resized fresh freshI old new o).x.size = new.n)
    {fresh : Nat → Nat → K} {freshI : Nat → Int} {nd : Bool} {engine : Solver.State K R → Vec K → Answer C K}
    (he : SizedEngine engine) {s s' : Object K R} {p : HQPData K} (hs : Sz s.st) (hx : XSized s)
    (h : (solve D fresh freshI nd engine s p).state? = some s') : Sz s'.st ∧ XSized s' := by
  have h1 := hk.retrieve hs (solve_state h)
  refine ⟨h1, ?_⟩
  unfold solve at h
  split at h
  · next st u e =>
    dsimp only at h
    split at h
    · next o' e' =>
      cases h
      have hz := hr fresh freshI s.st st s.out hs h1 hx
      unfold XSized
      dsimp only
      rcases hg.x _ _ _ _ e' with e1 | e1
      · rw [e1]; exact he _ _ hz
      · rw [e1]; exact hz
    · cases h
  · next st e =>
    cases h
    exact hr fresh freshI s.st st s.out hs h1 hx
  · cases h
  · cases h

theorem solves_sized [CharZero K] [LinearOrder K] [IsStrictOrderedRing K] {D : Driver K R C} {Success : Answer C K → Prop} (hg : Good D Success)
    {Sz : Solver.State K R → Prop} (hk : Keeps D.backend Sz)
    (hr : ∀ fresh freshI old new (o : Output K), Sz old → Sz new → o.x.size = old.n →
      (D.resized fresh freshI old new o).x.size = new.n) {nd : Bool} :
    ∀ (h : List (SolveCall K R C)), (∀ c ∈ h, c.Sized) → ∀ (s s' : Object K R), Sz s.st → XSized s →
      solves D nd s h = some s' → Sz s'.st ∧ XSized s' := by
  intro h
  induction h with
  | nil => intro _ s s' h1 h2 e; cases e; exact ⟨h1, h2⟩
  | cons c h ih =>
    intro hc s s' h1 h2 e
    simp only [solves] at e
    split at e
    · next s1 e1 =>
      have hs := hc c (by simp)
      cases c with
      | solve fresh freshI p engine =>
        obtain ⟨a, b⟩ := solve_sized hg hk hr hs h1 h2 e1
        exact ih (fun c' h' => hc c' (by simp [h'])) s1 s' a b e
      | resize fresh freshI n neq nin =>
        simp only [SolveCall.run, Solve.resize] at e1
        rcases hk.resize fresh nd s.st n neq nin h1 with ⟨st, e2, h3⟩ | e2
        · rw [e2] at e1
          cases e1
          exact ih (fun c' h' => hc c' (by simp [h'])) ⟨st, D.resized fresh freshI s.st st s.out, s.objValue⟩ s' h3 (hr fresh freshI s.st st s.out h1 h3 h2) e
        · rw [e2] at e1
          cases e1
    · cases e

/-- What a call that returned has done. -/
theorem solve_result {D : Driver K R C} {fresh : Nat → Nat → K} {freshI : Nat → Int} {nd : Bool}
    {engine : Solver.State K R → Vec K → Answer C K} {s s' : Object K R} {p : HQPData K}
    (h : solve D fresh freshI nd engine s p = .ok s' ()) :
    D.write s'.st (engine s'.st (start D fresh freshI s s')) (D.resized fresh freshI s.st s'.st s.out) = some s'.out ∧
      s'.objValue = (engine s'.st (start D fresh freshI s s')).objective := by
  unfold solve at h
  split at h
  · dsimp only at h
    split at h
    · next o' e' => cases h; exact ⟨e', rfl⟩
    · cases h
  · cases h
  · cases h
  · cases h

/-- **One call** on a problem that is assembled correctly. -/
theorem solve_ok [LinearOrder K] [IsStrictOrderedRing K] {D : Driver K R C} {Success : Answer C K → Prop}
    (hg : Good D Success) {Sat : R → (Nat → K) → Prop} {fresh : Nat → Nat → K} {freshI : Nat → Int} {nd : Bool}
    {engine : Solver.State K R → Vec K → Answer C K} (he : Sound Sat Success engine) {s : Object K R} {n : Nat}
    {l0 l1 : Level K} {st : Solver.State K R} (hz : (D.resized fresh freshI s.st st s.out).x.size = st.n)
    (e : retrieve D.backend fresh nd s.st [l0, l1] D.reg = .ok st ()) (hn : st.n = n)
    (hf : ∀ x, Sat st.rows x ↔ Feasible l0 x)
    (hq : ∀ x, qpCost st.H st.g x = lsqCost l1 x - dropped l1 +
      if D.backend.reg D.reg then 1 / 2 * (defaultReg * sqNorm n x) else 0) :
    ∃ s', solve D fresh freshI nd engine s [l0, l1] = .ok s' () ∧ s'.st = st ∧ (start D fresh freshI s s').size = n ∧
      s'.out.x.size = n ∧ (Success (engine st (start D fresh freshI s s')) → Solved n (D.backend.reg D.reg) l0 l1 s'.out ∧
        CostOf n (D.backend.reg D.reg) l1 s'.out.x s'.objValue) := by
  set x0 := (D.resized fresh freshI s.st st s.out).x with hx0
  obtain ⟨o', ew, hw⟩ := hg.write st (engine st x0) (D.resized fresh freshI s.st st s.out) (he.active st x0)
  have hT : ∀ z, qpCost st.H st.g z = target n (D.backend.reg D.reg) l1 z - dropped l1 := fun z => by
    rw [hq, target]; ring
  refine ⟨⟨st, o', (engine st x0).objective⟩, ?_, rfl, hz.trans hn, ?_, fun hs => ?_⟩
  · unfold solve
    rw [e]
    dsimp only
    rw [← hx0, ew]
  · dsimp only
    rcases hg.x _ _ _ _ ew with h | h
    · rw [h, he.size st x0 hz, hn]
    · rw [h, ← hx0, hz, hn]
  · obtain ⟨h1, h2⟩ := hw hs
    refine ⟨⟨h2, ?_, ?_⟩, ?_⟩
    · dsimp only; rw [h1, he.size st x0 hz, hn]
    · dsimp only
      rw [h1]
      obtain ⟨a, b⟩ := he.optimal st x0 hs
      refine ⟨(hf _).1 a, fun y hy => ?_⟩
      have := b y ((hf y).2 hy)
      rw [hT, hT] at this
      exact (sub_le_sub_iff_right _).1 this
    · unfold CostOf
      dsimp only
      rw [he.objective st x0 hs, hT, h1]

end Tsid.Solve
