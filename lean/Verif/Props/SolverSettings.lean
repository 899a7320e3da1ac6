import Verif.Spec.SolverSettings
import Mathlib.Data.List.Induction
import Mathlib.Data.Rat.Defs
import Mathlib.Tactic.Linarith

/-!
# C50, C51, C67: statuses, settings, factory
-/

set_option linter.unusedSectionVars false

namespace Tsid.Props

open Spec Settings Status Factory

/-! ## C50 -/

theorem after_append {C : Type} (f : C → HQPStatus → HQPStatus) (h h' : List (Option C)) :
    ∀ s, after f s (h ++ h') = after f (after f s h) h' := by
  induction h with
  | nil => exact fun s => rfl
  | cons e h ih => cases e with
    | none => exact ih
    | some c => exact fun s => ih _

/-- **C50** for qpmad and OSQP: an optimal status is that of a success in this very call. -/
theorem C50_osqp_qpmad : OptimalOnlyIf Status.osqp (fun c => c = .solved) ∧ OptimalOnlyIf Status.mad (fun c => c = .ok) := by
  constructor
  · intro s h c e
    rw [after_append] at e
    cases c <;> simp_all [after, Status.osqp]
  · intro s h c e
    rw [after_append] at e
    cases c <;> simp_all [after, Status.mad]

/-- **C50**, eiquadprog: an optimal status means an objective value other than `+∞`. -/
theorem C50_eiquadprog_partial : OptimalOnlyIf Status.eiq (fun v => v ≠ .plusInfinity) := by
  intro s h c e
  rw [after_append] at e
  cases c <;> simp_all [after, Status.eiq]

/-- eiquadprog: a status is optimal also when the objective value is not a number. -/
theorem C50_eiquadprog_nan : ¬ OptimalOnlyIf Status.eiq (fun v => v = .finite) :=
  fun h => absurd (h .unknown [] .nan rfl) (by decide)

/-- **C50**, eiquadprog-fast and eiquadprog-rt, calls that do not end with `INFEASIBLE`; it is enough that the last
call does not. -/
theorem C50_fast_partial (s : HQPStatus) (h : List (Option FastCode)) (c : FastCode) (hc : c ≠ .infeasible)
    (e : after fast s (h ++ [some c]) = .optimal) : c = .optimal := by
  rw [after_append] at e
  cases c <;> simp_all [after, fast]

/-- eiquadprog-fast and eiquadprog-rt: after a success, `INFEASIBLE` is reported as optimal. -/
theorem C50_fast_stale : ¬ OptimalOnlyIf fast (fun c => c = .optimal) :=
  fun h => absurd (h .unknown [some .optimal] .infeasible rfl) (by decide)

/-- **C50**, ProxQP, last call with one of the codes that the code names. -/
theorem C50_proxqp_partial (s : HQPStatus) (h : List (Option ProxCode)) (c : ProxCode) (hc : ∀ k, c ≠ .other k)
    (e : after prox s (h ++ [some c]) = .optimal) : c = .solved := by
  rw [after_append] at e
  cases c <;> simp_all [after, prox]

/-- ProxQP: after a success, a code that is not handled is reported as optimal. -/
theorem C50_proxqp_stale : ¬ OptimalOnlyIf prox (fun c => c = .solved) :=
  fun h => absurd (h .unknown [some .solved] (.other 0) rfl) (by decide)

/-- **C50, failures.** After a failing call with a code that the code names, the status says what happened in this
call, whatever came before: infeasible iff the external solver found no feasible point or no bound, maximum iterations
iff it stopped early, error iff equalities are redundant. -/
theorem C50_failures_partial (s : HQPStatus) :
    (∀ h c, c ≠ FastCode.infeasible →
      (after fast s (h ++ [some c]) = .infeasible ↔ c = .unbounded) ∧
      (after fast s (h ++ [some c]) = .maxIterReached ↔ c = .maxIterReached) ∧
      (after fast s (h ++ [some c]) = .error ↔ c = .redundantEqualities)) ∧
    (∀ h c, (∀ k, c ≠ ProxCode.other k) →
      (after prox s (h ++ [some c]) = .infeasible ↔ c = .primalInfeasible ∨ c = .dualInfeasible) ∧
      (after prox s (h ++ [some c]) = .maxIterReached ↔ c = .maxIterReached)) ∧
    (∀ h c,
      (after Status.osqp s (h ++ [some c]) = .infeasible ↔ c = .primalInfeasible ∨ c = .dualInfeasible) ∧
      (after Status.osqp s (h ++ [some c]) = .maxIterReached ↔ c = .maxIterReached ∨ c = .solvedInaccurate) ∧
      (after Status.osqp s (h ++ [some c]) = .unknown ↔ ∃ k, c = .other k)) ∧
    (∀ h c, after Status.mad s (h ++ [some c]) = .infeasible ↔ c ≠ .ok) ∧
    ∀ h c, after Status.eiq s (h ++ [some c]) = .infeasible ↔ c = .plusInfinity := by
  refine ⟨fun h c hc => ?_, fun h c hc => ?_, fun h c => ?_, fun h c => ?_, fun h c => ?_⟩ <;>
    simp only [after_append] <;> cases c <;> simp_all [after, fast, prox, Status.osqp, Status.mad, Status.eiq]

/-- No back-end reports `HQP_STATUS_UNBOUNDED`, unless the uninitialised status of a new object reads so. -/
theorem C50_unbounded (s : HQPStatus) (hs : s ≠ .unbounded) :
    (∀ h, after fast s h ≠ .unbounded) ∧ (∀ h, after prox s h ≠ .unbounded) ∧
    (∀ h, after Status.osqp s h ≠ .unbounded) ∧ (∀ h, after Status.mad s h ≠ .unbounded) ∧
    ∀ h, after Status.eiq s h ≠ .unbounded := by
  have key : ∀ {C : Type} (f : C → HQPStatus → HQPStatus), (∀ c t, t ≠ .unbounded → f c t ≠ .unbounded) →
      ∀ h, after f s h ≠ .unbounded := by
    intro C f hf h
    induction h generalizing s with
    | nil => exact hs
    | cons e h ih => cases e with
      | none => exact ih s hs
      | some c => exact ih _ (hf c s hs)
  refine ⟨key _ ?_, key _ ?_, key _ ?_, key _ ?_, key _ ?_⟩ <;> intro c t ht <;>
    cases c <;> simp_all [fast, prox, Status.osqp, Status.mad, Status.eiq]

/-- Histories as in the hypotheses: success, exception, failure, success. -/
example : after fast .unknown [some .optimal, none, some .maxIterReached, some .optimal] = .optimal ∧
    after fast .unknown [some .optimal, none, some .maxIterReached] = .maxIterReached ∧
    after prox .unknown [some .solved, none, some .primalInfeasible, some .solved] = .optimal := by decide

/-! ## C51 -/

theorem lastOf_append {O A : Type} (sel : O → Option A) (d : A) (a b : List O) :
    lastOf sel d (a ++ b) = lastOf sel (lastOf sel d a) b := by
  unfold lastOf
  rw [List.filterMap_append, List.getLast?_append]
  cases (List.filterMap sel b).getLast? <;> rfl

theorem proxExpected_append {K : Type} (d : ProxOpts K) (a b : List (ProxOp K)) :
    proxExpected d (a ++ b) = proxExpected (proxExpected d a) b := by
  simp only [proxExpected, lastOf_append]

theorem osqpExpected_append {K : Type} (d : OsqpOpts K) (a b : List (OsqpOp K)) :
    osqpExpected d (a ++ b) = osqpExpected (osqpExpected d a) b := by
  simp only [osqpExpected, lastOf_append]

/-- The settings of ProxQP other than the verbosity. -/
def ProxAlike {K : Type} (a b : ProxOpts K) : Prop :=
  a.maxIter = b.maxIter ∧ a.muIn = b.muIn ∧ a.muEq = b.muEq ∧ a.rho = b.rho ∧ a.epsAbs = b.epsAbs ∧ a.epsRel = b.epsRel

theorem ProxAlike.trans {K : Type} {a b c : ProxOpts K} (h : ProxAlike a b) (h' : ProxAlike b c) : ProxAlike a c :=
  ⟨h.1.trans h'.1, h.2.1.trans h'.2.1, h.2.2.1.trans h'.2.2.1, h.2.2.2.1.trans h'.2.2.2.1,
    h.2.2.2.2.1.trans h'.2.2.2.2.1, h.2.2.2.2.2.trans h'.2.2.2.2.2⟩

theorem proxExpected_alike {K : Type} {a b : ProxOpts K} (h : ProxAlike a b) (o : ProxOp K) :
    ProxAlike (proxExpected a [o]) (proxExpected b [o]) := by
  obtain ⟨h1, h2, h3, h4, h5, h6⟩ := h
  cases o <;> simp_all [proxExpected, ProxAlike, lastOf]

variable {K : Type}

/-- What the object keeps is what the user expects. -/
theorem prox_kept (nd : Bool) (dflt : ProxOpts K) (s : Prox K) (o : ProxOp K) (h0 : o ≠ .maxIter 0) :
    ProxAlike (s.step nd dflt o).kept (proxExpected s.kept [o]) ∧
    (nd = true → (s.step nd dflt o).kept = proxExpected s.kept [o]) := by
  cases o with
  | maxIter k =>
    have hk : k ≠ 0 := fun e => h0 (by rw [e])
    simp [Prox.step, Prox.setMaximumIterations, proxExpected, lastOf, ProxAlike, hk]
  | resize n neq nin =>
    simp only [Prox.step, Prox.resize]
    split
    · cases nd <;>
        simp [Prox.setMaximumIterations, Prox.setMuIn, Prox.setMuEq, Prox.setRho, Prox.setEpsAbs, Prox.setEpsRel,
          Prox.setVerbose, proxExpected, lastOf, ProxAlike]
    · simp [proxExpected, lastOf, ProxAlike]
  | _ => simp [Prox.step, Prox.setMuIn, Prox.setMuEq, Prox.setRho, Prox.setEpsAbs, Prox.setEpsRel,
          Prox.setVerbose, proxExpected, lastOf, ProxAlike]

/-- A resize that changes a size hands over all that is kept. -/
theorem prox_resize (nd : Bool) (dflt : ProxOpts K) (s : Prox K) (n neq nin : Nat)
    (h : n ≠ s.n ∨ neq ≠ s.neq ∨ nin ≠ s.nin) (hm : s.kept.maxIter ≠ 0) :
    (s.resize nd dflt n neq nin).engine = (s.resize nd dflt n neq nin).kept := by
  unfold Prox.resize
  rw [if_pos h]
  cases nd <;>
    simp [Prox.setMaximumIterations, Prox.setMuIn, Prox.setMuEq, Prox.setRho, Prox.setEpsAbs, Prox.setEpsRel,
      Prox.setVerbose, hm]

theorem prox_maxIter (nd : Bool) (dflt : ProxOpts K) (s : Prox K) (o : ProxOp K) (hm : s.kept.maxIter ≠ 0) :
    (s.step nd dflt o).kept.maxIter ≠ 0 := by
  cases o with
  | maxIter k =>
    simp only [Prox.step, Prox.setMaximumIterations]
    split <;> assumption
  | resize n neq nin =>
    simp only [Prox.step, Prox.resize]
    split
    · cases nd <;>
        simp [Prox.setMaximumIterations, Prox.setMuIn, Prox.setMuEq, Prox.setRho, Prox.setEpsAbs, Prox.setEpsRel,
          Prox.setVerbose, hm]
    · exact hm
  | _ => exact hm

/-- Once handed over, the settings stay handed over. -/
theorem prox_handed (nd : Bool) (dflt : ProxOpts K) (s : Prox K) (o : ProxOp K) (h0 : o ≠ .maxIter 0)
    (hm : s.kept.maxIter ≠ 0) (he : s.engine = s.kept) :
    (s.step nd dflt o).engine = (s.step nd dflt o).kept := by
  cases o with
  | maxIter k =>
    have hk : k ≠ 0 := fun e => h0 (by rw [e])
    simp [Prox.step, Prox.setMaximumIterations, hk, he]
  | resize n neq nin =>
    by_cases h : n ≠ s.n ∨ neq ≠ s.neq ∨ nin ≠ s.nin
    · exact prox_resize nd dflt s n neq nin h hm
    · simp only [Prox.step, Prox.resize, if_neg h, he]
  | _ => simp [Prox.step, Prox.setMuIn, Prox.setMuEq, Prox.setRho, Prox.setEpsAbs, Prox.setEpsRel,
          Prox.setVerbose, he]

/-- Before the first problem the sizes are zero. -/
def ProxInv (s : Prox K) : Prop := s.kept.maxIter ≠ 0 ∧ (s.n ≠ 0 → s.engine = s.kept)

theorem prox_n (nd : Bool) (dflt : ProxOpts K) (s : Prox K) (n neq nin : Nat) : (s.resize nd dflt n neq nin).n = n := by
  unfold Prox.resize
  simp only
  split
  · cases nd <;> rfl
  · rfl

theorem prox_inv (nd : Bool) (dflt : ProxOpts K) (s : Prox K) (o : ProxOp K) (h0 : o ≠ .maxIter 0) (h : ProxInv s) :
    ProxInv (s.step nd dflt o) := by
  refine ⟨prox_maxIter nd dflt s o h.1, fun hn => ?_⟩
  by_cases hs : s.n = 0
  · cases o with
    | resize n neq nin =>
      have : n ≠ 0 := by rwa [Prox.step, prox_n] at hn
      exact prox_resize nd dflt s n neq nin (Or.inl (by omega)) h.1
    | _ => exact absurd hs hn
  · exact prox_handed nd dflt s o h0 h.1 (h.2 hs)

theorem prox_run (nd : Bool) (dflt : ProxOpts K) (ops : List (ProxOp K)) : ∀ (s : Prox K), ProxInv s →
    (∀ o ∈ ops, o ≠ .maxIter 0) →
    ProxInv (ops.foldl (Prox.step nd dflt) s) ∧
    ProxAlike (ops.foldl (Prox.step nd dflt) s).kept (proxExpected s.kept ops) ∧
    (nd = true → (ops.foldl (Prox.step nd dflt) s).kept = proxExpected s.kept ops) ∧
    (s.engine = s.kept → (ops.foldl (Prox.step nd dflt) s).engine = (ops.foldl (Prox.step nd dflt) s).kept) := by
  induction ops using List.reverseRecOn with
  | nil => exact fun s h _ => ⟨h, ⟨rfl, rfl, rfl, rfl, rfl, rfl⟩, fun _ => rfl, id⟩
  | append_singleton ops o ih =>
    intro s h h0
    obtain ⟨i1, i2, i3, i4⟩ := ih s h fun p hp => h0 p (List.mem_append_left _ hp)
    have ho := h0 o (List.mem_append_right _ (List.mem_singleton.2 rfl))
    rw [List.foldl_append, proxExpected_append]
    obtain ⟨k1, k2⟩ := prox_kept nd dflt (ops.foldl (Prox.step nd dflt) s) o ho
    refine ⟨prox_inv nd dflt _ o ho i1, k1.trans (proxExpected_alike i2 o), fun e => ?_, fun e => ?_⟩
    · rw [List.foldl_cons, List.foldl_nil, k2 e, i3 e]
    · exact prox_handed nd dflt _ o ho i1.1 (i4 e)

/-- **C51, ProxQP.** Once a problem with a variable has come, and as long as no maximum of 0 iterations is asked for,
the settings in force are the last ones given to the setters, however often the problem was resized; the verbosity
only in a release build. `getMaximumIterations` reports the maximum in force. -/
theorem C51_proxqp_partial (nd : Bool) (dflt d : ProxOpts K) (hd : d.maxIter ≠ 0) (ops : List (ProxOp K))
    (h0 : ∀ o ∈ ops, o ≠ .maxIter 0) (hr : ∃ n neq nin, n ≠ 0 ∧ .resize n neq nin ∈ ops) :
    ProxAlike (ops.foldl (Prox.step nd dflt) (Prox.init dflt d)).engine (proxExpected d ops) ∧
    (nd = true → (ops.foldl (Prox.step nd dflt) (Prox.init dflt d)).engine = proxExpected d ops) ∧
    (ops.foldl (Prox.step nd dflt) (Prox.init dflt d)).getMaximumIterations =
      (ops.foldl (Prox.step nd dflt) (Prox.init dflt d)).engine.maxIter := by
  have hi : ProxInv (Prox.init dflt d) := ⟨hd, fun h => absurd rfl h⟩
  have he : (ops.foldl (Prox.step nd dflt) (Prox.init dflt d)).engine =
      (ops.foldl (Prox.step nd dflt) (Prox.init dflt d)).kept := by
    obtain ⟨n, neq, nin, hn, hm⟩ := hr
    obtain ⟨a, b, rfl⟩ := List.append_of_mem hm
    have ha : ∀ o ∈ a, o ≠ .maxIter 0 := fun o ho => h0 o (List.mem_append_left _ ho)
    have hb : ∀ o ∈ b, o ≠ .maxIter 0 := fun o ho => h0 o (List.mem_append_right _ (List.mem_cons_of_mem _ ho))
    have i1 := (prox_run nd dflt a _ hi ha).1
    rw [List.foldl_append, List.foldl_cons]
    generalize a.foldl (Prox.step nd dflt) (Prox.init dflt d) = s at i1 ⊢
    have i2 := prox_inv nd dflt s (.resize n neq nin) (by simp) i1
    refine (prox_run nd dflt b _ i2 hb).2.2.2 (i2.2 ?_)
    rw [Prox.step, prox_n]
    exact hn
  obtain ⟨_, i2, i3, _⟩ := prox_run nd dflt ops _ hi h0
  rw [he]
  exact ⟨i2, i3, rfl⟩

/-- A maximum of 0 iterations is accepted and in force, but `getMaximumIterations` reports another one, and the next
resize forgets it. -/
theorem C51_proxqp_zero (dflt : ProxOpts K) (d : ProxOpts K) (hd : d.maxIter = 1000) :
    let s := [.resize 2 0 0, .maxIter 0].foldl (Prox.step true dflt) (Prox.init dflt d)
    s.engine.maxIter = 0 ∧ s.getMaximumIterations = 1000 ∧ (s.step true dflt (.resize 2 1 0)).engine.maxIter = 1000 := by
  simp [Prox.step, Prox.resize, Prox.init, Prox.setMaximumIterations, Prox.setMuIn, Prox.setMuEq, Prox.setRho,
    Prox.setEpsAbs, Prox.setEpsRel, Prox.setVerbose, Prox.getMaximumIterations, hd]

/-- In a debug build a resize turns the messages on, whatever was asked for. -/
theorem C51_proxqp_debug (dflt d : ProxOpts K) :
    let ops : List (ProxOp K) := [.verbose false, .resize 2 0 0]
    (proxExpected d ops).verbose = false ∧ (ops.foldl (Prox.step false dflt) (Prox.init dflt d)).engine.verbose = true := by
  simp [Prox.step, Prox.resize, Prox.init, Prox.setMaximumIterations, Prox.setMuIn, Prox.setMuEq, Prox.setRho,
    Prox.setEpsAbs, Prox.setEpsRel, Prox.setVerbose, proxExpected, lastOf]

/-- Calls as in the hypotheses. -/
example : let ops : List (ProxOp ℚ) := [.rho 3, .resize 2 0 0, .maxIter 5, .resize 2 1 0, .epsAbs 7, .rho 4, .resize 3 1 1]
    (∀ o ∈ ops, o ≠ .maxIter 0) ∧ (∃ n neq nin, n ≠ 0 ∧ .resize n neq nin ∈ ops) ∧
    proxExpected Prox.initial ops = ⟨5, 1 / 10, 1 / 10 ^ 3, 4, 7, 0, false⟩ :=
  ⟨by simp, ⟨2, 0, 0, by simp⟩, by decide +kernel⟩

/-- The settings of OSQP other than the verbosity. -/
def OsqpAlike (a b : OsqpOpts K) : Prop :=
  a.maxIter = b.maxIter ∧ a.sigma = b.sigma ∧ a.alpha = b.alpha ∧ a.rho = b.rho ∧ a.epsAbs = b.epsAbs ∧ a.epsRel = b.epsRel

theorem OsqpAlike.trans {a b c : OsqpOpts K} (h : OsqpAlike a b) (h' : OsqpAlike b c) : OsqpAlike a c :=
  ⟨h.1.trans h'.1, h.2.1.trans h'.2.1, h.2.2.1.trans h'.2.2.1, h.2.2.2.1.trans h'.2.2.2.1,
    h.2.2.2.2.1.trans h'.2.2.2.2.1, h.2.2.2.2.2.trans h'.2.2.2.2.2⟩

theorem osqpExpected_alike {a b : OsqpOpts K} (h : OsqpAlike a b) (o : OsqpOp K) :
    OsqpAlike (osqpExpected a [o]) (osqpExpected b [o]) := by
  obtain ⟨h1, h2, h3, h4, h5, h6⟩ := h
  cases o <;> simp_all [osqpExpected, OsqpAlike, lastOf]

theorem osqp_kept (nd : Bool) (s : Osqp K) (o : OsqpOp K) (h0 : o ≠ .maxIter 0) :
    OsqpAlike (s.step nd o).kept (osqpExpected s.kept [o]) ∧
    (nd = true → (s.step nd o).kept = osqpExpected s.kept [o]) := by
  cases o with
  | maxIter k =>
    have hk : k ≠ 0 := fun e => h0 (by rw [e])
    simp [Osqp.step, Osqp.setMaximumIterations, osqpExpected, lastOf, OsqpAlike, hk]
  | resize n neq nin =>
    simp only [Osqp.step, Osqp.resize]
    split
    · cases nd <;>
        simp [Osqp.setMaximumIterations, Osqp.setSigma, Osqp.setAlpha, Osqp.setRho, Osqp.setEpsAbs, Osqp.setEpsRel,
          Osqp.setVerbose, osqpExpected, lastOf, OsqpAlike]
    · simp [osqpExpected, lastOf, OsqpAlike]
  | solve again =>
    simp only [Osqp.step, Osqp.solve]
    split <;> simp [osqpExpected, lastOf, OsqpAlike]
  | _ => simp [Osqp.step, Osqp.setSigma, Osqp.setAlpha, Osqp.setRho, Osqp.setEpsAbs, Osqp.setEpsRel,
          Osqp.setVerbose, osqpExpected, lastOf, OsqpAlike]

theorem osqp_resize (nd : Bool) (s : Osqp K) (n neq nin : Nat)
    (h : n ≠ s.n ∨ neq ≠ s.neq ∨ nin ≠ s.nin) (hm : s.kept.maxIter ≠ 0) :
    (s.resize nd n neq nin).engine = (s.resize nd n neq nin).kept ∧ (s.resize nd n neq nin).work = none := by
  unfold Osqp.resize
  rw [if_pos h]
  cases nd <;>
    simp [Osqp.setMaximumIterations, Osqp.setSigma, Osqp.setAlpha, Osqp.setRho, Osqp.setEpsAbs, Osqp.setEpsRel,
      Osqp.setVerbose, hm]

theorem osqp_maxIter (nd : Bool) (s : Osqp K) (o : OsqpOp K) (hm : s.kept.maxIter ≠ 0) :
    (s.step nd o).kept.maxIter ≠ 0 := by
  cases o with
  | maxIter k =>
    simp only [Osqp.step, Osqp.setMaximumIterations]
    split <;> assumption
  | resize n neq nin =>
    simp only [Osqp.step, Osqp.resize]
    split
    · cases nd <;>
        simp [Osqp.setMaximumIterations, Osqp.setSigma, Osqp.setAlpha, Osqp.setRho, Osqp.setEpsAbs, Osqp.setEpsRel,
          Osqp.setVerbose, hm]
    · exact hm
  | solve again =>
    simp only [Osqp.step, Osqp.solve]
    split <;> exact hm
  | _ => exact hm

theorem osqp_handed (nd : Bool) (s : Osqp K) (o : OsqpOp K) (h0 : o ≠ .maxIter 0)
    (hm : s.kept.maxIter ≠ 0) (he : s.engine = s.kept) : (s.step nd o).engine = (s.step nd o).kept := by
  cases o with
  | maxIter k =>
    have hk : k ≠ 0 := fun e => h0 (by rw [e])
    simp [Osqp.step, Osqp.setMaximumIterations, hk, he]
  | resize n neq nin =>
    by_cases h : n ≠ s.n ∨ neq ≠ s.neq ∨ nin ≠ s.nin
    · exact (osqp_resize nd s n neq nin h hm).1
    · simp only [Osqp.step, Osqp.resize, if_neg h, he]
  | solve again =>
    simp only [Osqp.step, Osqp.solve]
    split <;> exact he
  | _ => simp [Osqp.step, Osqp.setSigma, Osqp.setAlpha, Osqp.setRho, Osqp.setEpsAbs, Osqp.setEpsRel,
          Osqp.setVerbose, he]

/-- Before the first problem the sizes are zero. -/
def OsqpInv (s : Osqp K) : Prop := s.kept.maxIter ≠ 0 ∧ (s.n ≠ 0 → s.engine = s.kept)

theorem osqp_n (nd : Bool) (s : Osqp K) (n neq nin : Nat) : (s.resize nd n neq nin).n = n := by
  unfold Osqp.resize
  simp only
  split
  · cases nd <;> rfl
  · rfl

theorem osqp_inv (nd : Bool) (s : Osqp K) (o : OsqpOp K) (h0 : o ≠ .maxIter 0) (h : OsqpInv s) :
    OsqpInv (s.step nd o) := by
  refine ⟨osqp_maxIter nd s o h.1, fun hn => ?_⟩
  by_cases hs : s.n = 0
  · cases o with
    | resize n neq nin =>
      have : n ≠ 0 := by rwa [Osqp.step, osqp_n] at hn
      exact (osqp_resize nd s n neq nin (Or.inl (by omega)) h.1).1
    | solve again =>
      simp only [Osqp.step, Osqp.solve] at hn
      split at hn <;> exact absurd hs hn
    | _ => exact absurd hs hn
  · exact osqp_handed nd s o h0 h.1 (h.2 hs)

theorem osqp_run (nd : Bool) (ops : List (OsqpOp K)) : ∀ (s : Osqp K), OsqpInv s →
    (∀ o ∈ ops, o ≠ .maxIter 0) →
    OsqpInv (ops.foldl (Osqp.step nd) s) ∧
    OsqpAlike (ops.foldl (Osqp.step nd) s).kept (osqpExpected s.kept ops) ∧
    (nd = true → (ops.foldl (Osqp.step nd) s).kept = osqpExpected s.kept ops) ∧
    (s.engine = s.kept → (ops.foldl (Osqp.step nd) s).engine = (ops.foldl (Osqp.step nd) s).kept) := by
  induction ops using List.reverseRecOn with
  | nil => exact fun s h _ => ⟨h, ⟨rfl, rfl, rfl, rfl, rfl, rfl⟩, fun _ => rfl, id⟩
  | append_singleton ops o ih =>
    intro s h h0
    obtain ⟨i1, i2, i3, i4⟩ := ih s h fun p hp => h0 p (List.mem_append_left _ hp)
    have ho := h0 o (List.mem_append_right _ (List.mem_singleton.2 rfl))
    rw [List.foldl_append, osqpExpected_append]
    obtain ⟨k1, k2⟩ := osqp_kept nd (ops.foldl (Osqp.step nd) s) o ho
    refine ⟨osqp_inv nd _ o ho i1, k1.trans (osqpExpected_alike i2 o), fun e => ?_, fun e => ?_⟩
    · rw [List.foldl_cons, List.foldl_nil, k2 e, i3 e]
    · exact osqp_handed nd _ o ho i1.1 (i4 e)

/-- **C51, OSQP.** Once a problem with a variable has come, and as long as no maximum of 0 iterations is asked for, the
settings object of OSQP has the last values given to the setters (the verbosity in a release build), and
`getMaximumIterations` reports its maximum. -/
theorem C51_osqp_partial (nd : Bool) (dflt d : OsqpOpts K) (hd : d.maxIter ≠ 0) (ops : List (OsqpOp K))
    (h0 : ∀ o ∈ ops, o ≠ .maxIter 0) (hr : ∃ n neq nin, n ≠ 0 ∧ .resize n neq nin ∈ ops) :
    OsqpAlike (ops.foldl (Osqp.step nd) (Osqp.init dflt d)).engine (osqpExpected d ops) ∧
    (nd = true → (ops.foldl (Osqp.step nd) (Osqp.init dflt d)).engine = osqpExpected d ops) ∧
    (ops.foldl (Osqp.step nd) (Osqp.init dflt d)).getMaximumIterations =
      (ops.foldl (Osqp.step nd) (Osqp.init dflt d)).engine.maxIter := by
  have hi : OsqpInv (Osqp.init dflt d) := ⟨hd, fun h => absurd rfl h⟩
  have he : (ops.foldl (Osqp.step nd) (Osqp.init dflt d)).engine =
      (ops.foldl (Osqp.step nd) (Osqp.init dflt d)).kept := by
    obtain ⟨n, neq, nin, hn, hm⟩ := hr
    obtain ⟨a, b, rfl⟩ := List.append_of_mem hm
    have ha : ∀ o ∈ a, o ≠ .maxIter 0 := fun o ho => h0 o (List.mem_append_left _ ho)
    have hb : ∀ o ∈ b, o ≠ .maxIter 0 := fun o ho => h0 o (List.mem_append_right _ (List.mem_cons_of_mem _ ho))
    have i1 := (osqp_run nd a _ hi ha).1
    rw [List.foldl_append, List.foldl_cons]
    generalize a.foldl (Osqp.step nd) (Osqp.init dflt d) = s at i1 ⊢
    have i2 := osqp_inv nd s (.resize n neq nin) (by simp) i1
    refine (osqp_run nd b _ i2 hb).2.2.2 (i2.2 ?_)
    rw [Osqp.step, osqp_n]
    exact hn
  obtain ⟨_, i2, i3, _⟩ := osqp_run nd ops _ hi h0
  rw [he]
  exact ⟨i2, i3, rfl⟩

/-- OSQP, the copy that the external solver works with: after a resize that changes a size, the next call of `solve`
uses the settings object as it is then. -/
theorem C51_osqp_resized_partial (nd : Bool) (s : Osqp K) (n neq nin : Nat)
    (h : n ≠ s.n ∨ neq ≠ s.neq ∨ nin ≠ s.nin) (hm : s.kept.maxIter ≠ 0) (again : Bool) :
    ((s.step nd (.resize n neq nin)).step nd (.solve again)).work = some (s.step nd (.resize n neq nin)).engine := by
  have := (osqp_resize nd s n neq nin h hm).2
  simp only [Osqp.step, Osqp.solve, this, Option.isNone_none, true_or, if_true]

/-- Settings given after the first call of `solve` are not in force in the next one if the sizes stay the same. -/
theorem C51_osqp_late (dflt d : OsqpOpts ℚ) (h : d.epsAbs = 1) :
    let ops : List (OsqpOp ℚ) := [.resize 2 0 0, .solve false, .epsAbs 3, .resize 2 0 0, .solve false]
    (osqpExpected d ops).epsAbs = 3 ∧
      (ops.foldl (Osqp.step true) (Osqp.init dflt d)).work.map (·.epsAbs) = some 1 := by
  simp [Osqp.step, Osqp.resize, Osqp.init, Osqp.setMaximumIterations, Osqp.setSigma, Osqp.setAlpha, Osqp.setRho,
    Osqp.setEpsAbs, Osqp.setEpsRel, Osqp.setVerbose, Osqp.solve, osqpExpected, lastOf, h]

/-- As for ProxQP, a maximum of 0 iterations is in force, not reported, and forgotten by the next resize. -/
theorem C51_osqp_zero (dflt : OsqpOpts K) (d : OsqpOpts K) (hd : d.maxIter = 1000) :
    let s := [.resize 2 0 0, .maxIter 0].foldl (Osqp.step true) (Osqp.init dflt d)
    s.engine.maxIter = 0 ∧ s.getMaximumIterations = 1000 ∧ (s.step true (.resize 2 1 0)).engine.maxIter = 1000 := by
  simp [Osqp.step, Osqp.resize, Osqp.init, Osqp.setMaximumIterations, Osqp.setSigma, Osqp.setAlpha, Osqp.setRho,
    Osqp.setEpsAbs, Osqp.setEpsRel, Osqp.setVerbose, Osqp.getMaximumIterations, hd]

example : let ops : List (OsqpOp ℚ) := [.rho 3, .resize 2 0 0, .solve false, .maxIter 5, .resize 2 1 0, .epsAbs 7, .solve true]
    (∀ o ∈ ops, o ≠ .maxIter 0) ∧ (∃ n neq nin, n ≠ 0 ∧ .resize n neq nin ∈ ops) ∧
    osqpExpected Osqp.initial ops = ⟨5, 1 / 10 ^ 6, 16 / 10, 3, 7, 0, false⟩ :=
  ⟨by simp, ⟨2, 0, 0, by simp⟩, by decide +kernel⟩

/-- Results of a sequence of calls of `setMaximumIterations` of eiquadprog-fast and eiquadprog-rt. -/
def fastCalls (accept : Nat → Bool) : Fast K → List Nat → Fast K × List (Nat × Bool)
  | s, [] => (s, [])
  | s, k :: l =>
    let r := s.setMaximumIterations accept k
    let q := fastCalls accept r.1 l
    (q.1, (k, r.2) :: q.2)

theorem fastCalls_append (accept : Nat → Bool) (a b : List Nat) : ∀ s : Fast K,
    fastCalls accept s (a ++ b) = ((fastCalls accept (fastCalls accept s a).1 b).1,
      (fastCalls accept s a).2 ++ (fastCalls accept (fastCalls accept s a).1 b).2) := by
  induction a with
  | nil => exact fun s => rfl
  | cons k a ih => intro s; simp [fastCalls, ih]

/-- **C51, eiquadprog-fast and eiquadprog-rt**, the maximum of iterations: the one in force is the last one for which
the call returned `true`, if any; and if no call asked for 0 or was refused, it is the one reported. -/
theorem C51_fast_partial (accept : Nat → Bool) (s : Fast K) (l : List Nat) :
    let r := fastCalls accept s l
    r.1.engine = lastOf (fun q => if q.2 = true then some q.1 else none) s.engine r.2 ∧
    ((∀ k ∈ l, k ≠ 0 ∧ accept k = true) → l ≠ [] → r.1.base.maxIter = r.1.engine) := by
  induction l using List.reverseRecOn with
  | nil => exact ⟨rfl, fun _ h => absurd rfl h⟩
  | append_singleton l k ih =>
    simp only [fastCalls_append, lastOf_append]
    refine ⟨?_, fun h _ => ?_⟩
    · rw [← ih.1]
      cases ha : accept k <;> simp [fastCalls, Fast.setMaximumIterations, lastOf, ha]
    · obtain ⟨h1, h2⟩ := h k (List.mem_append_right _ (List.mem_singleton.2 rfl))
      simp [fastCalls, Fast.setMaximumIterations, Base.setMaximumIterations, h1, h2]

/-- A maximum of 0 that the external solver accepts is in force, but is not reported. -/
theorem C51_fast_zero (accept : Nat → Bool) (h : accept 0 = true) (s : Fast K) (hs : s.base.maxIter = 1000) :
    let r := s.setMaximumIterations accept 0
    r.2 = true ∧ r.1.engine = 0 ∧ r.1.base.maxIter = 1000 := by
  simp [Fast.setMaximumIterations, Base.setMaximumIterations, h, hs]

example : (fastCalls (fun _ => true) (⟨Base.init, 7⟩ : Fast ℚ) [3, 9]).1.engine = 9 ∧
    (fastCalls (fun _ => true) (⟨Base.init, 7⟩ : Fast ℚ) [3, 9]).1.base.maxIter = 9 := by decide +kernel

/-- **C51, base class**: the limits kept are the last ones accepted. -/
theorem C51_base {K : Type} [Zero K] [LinearOrder K] (b : Base K) (k : Nat) (t : K) :
    ((b.setMaximumIterations k).2 = true ↔ k ≠ 0) ∧
    (b.setMaximumIterations k).1.maxIter = (if (b.setMaximumIterations k).2 = true then k else b.maxIter) ∧
    ((b.setMaximumTime t).2 = true ↔ 0 < t) ∧
    (b.setMaximumTime t).1.maxTime = (if (b.setMaximumTime t).2 = true then t else b.maxTime) ∧
    (b.setMaximumIterations k).1.maxTime = b.maxTime ∧ (b.setMaximumTime t).1.maxIter = b.maxIter := by
  unfold Base.setMaximumIterations Base.setMaximumTime
  by_cases hk : k = 0 <;> by_cases ht : t ≤ 0 <;> simp [hk, ht, not_lt.2, not_le.1]

/-- **C51, defaults.** A user who calls no setter gets: from every back-end at most 1000 iterations, 100 seconds and a
warm start; from ProxQP and OSQP, after any resizes, an absolute accuracy of `1e-5`, a relative one of 0, and their
parameters `rho`, `mu`, `sigma`, `alpha`, whatever the defaults of the external solvers are. -/
theorem C51_defaults {K : Type} [Field K] [LinearOrder K] (nd : Bool) :
    ((Base.init : Base K).maxIter = 1000 ∧ (Base.init : Base K).maxTime = 100 ∧
      (Base.init : Base K).useWarmStart = true) ∧
    (∀ (dflt : ProxOpts K) (ops : List (ProxOp K)), (∀ o ∈ ops, ∃ n neq nin, o = .resize n neq nin) →
      (∃ n neq nin, n ≠ 0 ∧ .resize n neq nin ∈ ops) →
      ProxAlike (ops.foldl (Prox.step nd dflt) (Prox.init dflt Prox.initial)).engine
        { maxIter := 1000, muIn := 1 / 10, muEq := 1 / 1000, rho := 1 / 1000000, epsAbs := 1 / 100000, epsRel := 0
          verbose := false }) ∧
    ∀ (dflt : OsqpOpts K) (ops : List (OsqpOp K)), (∀ o ∈ ops, ∃ n neq nin, o = .resize n neq nin) →
      (∃ n neq nin, n ≠ 0 ∧ .resize n neq nin ∈ ops) →
      OsqpAlike (ops.foldl (Osqp.step nd) (Osqp.init dflt Osqp.initial)).engine
        { maxIter := 1000, sigma := 1 / 1000000, alpha := 16 / 10, rho := 1 / 10, epsAbs := 1 / 100000, epsRel := 0
          verbose := false } := by
  refine ⟨⟨rfl, by simp [Base.init], rfl⟩, fun dflt ops ho hr => ?_, fun dflt ops ho hr => ?_⟩
  · have h := (C51_proxqp_partial nd dflt Prox.initial (by simp [Prox.initial]) ops (by
      intro o hm; obtain ⟨n, neq, nin, rfl⟩ := ho o hm; simp) hr).1
    have e : ∀ (l : List (ProxOp K)), (∀ o ∈ l, ∃ n neq nin, o = .resize n neq nin) → ∀ d, proxExpected d l = d := by
      intro l
      induction l using List.reverseRecOn with
      | nil => intro _ d; rfl
      | append_singleton l o ih =>
        intro hl d
        rw [proxExpected_append, ih fun o h => hl o (List.mem_append_left _ h)]
        obtain ⟨n, neq, nin, rfl⟩ := hl o (List.mem_append_right _ (List.mem_singleton.2 rfl))
        rfl
    rw [e ops ho] at h
    obtain ⟨h1, h2, h3, h4, h5, h6⟩ := h
    refine ⟨h1, h2, h3.trans ?_, h4.trans ?_, h5.trans ?_, h6⟩ <;> simp only [Prox.initial] <;> norm_num
  · have h := (C51_osqp_partial nd dflt Osqp.initial (by simp [Osqp.initial]) ops (by
      intro o hm; obtain ⟨n, neq, nin, rfl⟩ := ho o hm; simp) hr).1
    have e : ∀ (l : List (OsqpOp K)), (∀ o ∈ l, ∃ n neq nin, o = .resize n neq nin) → ∀ d, osqpExpected d l = d := by
      intro l
      induction l using List.reverseRecOn with
      | nil => intro _ d; rfl
      | append_singleton l o ih =>
        intro hl d
        rw [osqpExpected_append, ih fun o h => hl o (List.mem_append_left _ h)]
        obtain ⟨n, neq, nin, rfl⟩ := hl o (List.mem_append_right _ (List.mem_singleton.2 rfl))
        rfl
    rw [e ops ho] at h
    obtain ⟨h1, h2, h3, h4, h5, h6⟩ := h
    refine ⟨h1, h2.trans ?_, h3, h4, h5.trans ?_, h6⟩ <;> simp only [Osqp.initial] <;> norm_num

example : ProxAlike ([.resize 3 1 2, .resize 3 0 2].foldl (Prox.step true ⟨1, 2, 3, 4, 5, 6, true⟩)
    (Prox.init ⟨1, 2, 3, 4, 5, 6, true⟩ (Prox.initial (K := ℚ)))).engine
    ⟨1000, 1 / 10, 1 / 1000, 1 / 1000000, 1 / 100000, 0, false⟩ :=
  (C51_defaults true).2.1 _ _ (by simp) ⟨3, 1, 2, by simp⟩

/-! ## C67 -/

/-- **C67, partial**: in every build that compiles, the factory creates every declared type except eiquadprog-rt, of the
class that implements it, and throws on all others; the template overload creates eiquadprog-rt with its sizes, and
throws on all others. -/
theorem C67_factory_partial (b : Build) (hb : compiles b = true) (t : SolverType) :
    (declared b t = true ∧ t ≠ .eiquadprogRt ↔ ∃ c, createNewSolver b t = some c) ∧
    (∀ c, createNewSolver b t = some c → Implements c t) ∧
    ∀ nv ne ni, (t = .eiquadprogRt ↔ createNewSolverRt nv ne ni t = some (.SolverHQuadProgRT nv ne ni)) ∧
      (t ≠ .eiquadprogRt ↔ createNewSolverRt nv ne ni t = none) := by
  obtain ⟨b1, b2, b3, b4⟩ := b
  cases t <;> cases b1 <;> cases b2 <;> cases b3 <;> cases b4 <;>
    simp_all [compiles, declared, createNewSolver, createNewSolverRt, Implements]

/-- eiquadprog-rt is declared in every build, but the factory without sizes throws. -/
theorem C67_rt (b : Build) : declared b .eiquadprogRt = true ∧ createNewSolver b .eiquadprogRt = none := by
  simp [declared, createNewSolver]

example : compiles ⟨true, false, true, false⟩ = true ∧
    createNewSolver ⟨true, false, true, false⟩ .osqp = some .SolverOSQP ∧
    createNewSolver ⟨true, false, true, false⟩ .proxqp = none := by decide

end Tsid.Props
