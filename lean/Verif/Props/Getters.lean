import Verif.Lemmas.Contents
import Verif.Lemmas.Frame
import Verif.Example.Tidy

/-!
# C17, C18: getters of the decoded solution
-/

set_option linter.unusedSectionVars false

namespace Tsid.Props

open Finset Formulation Spec

variable {K : Type} [Field K] [LinearOrder K] [HasSqrt K]

/-! ## C17 -/

/-- The three getters of the whole solution. -/
inductive Getter where
  | accelerations
  | contactForces
  | actuatorForces

/-- A call of a getter. -/
def Getter.call (s : State K) (x : Vec K) : Getter → Res (State K) (Vec K)
  | .accelerations => getAccelerations s x
  | .contactForces => getContactForces s x
  | .actuatorForces => getActuatorForces s x

/-- What a getter is meant to select from a decoded solution. -/
def Getter.select (dv f tau : Vec K) : Getter → Vec K
  | .accelerations => dv
  | .contactForces => f
  | .actuatorForces => tau

/-- The values returned by a sequence of getter calls, each with its own solution. -/
def getterResults (s : State K) : List (Getter × Vec K) → Option (List (Vec K))
  | [] => some []
  | (g, x) :: gs =>
    match g.call s x with
    | .ok s' v => (getterResults s' gs).map (v :: ·)
    | _ => none

/-- `dv`, `f`, `tau` are what the solution `x` of the problem of cycle `cy` means: the first `nv` entries, the
remaining ones, and the torques that complete the equations of motion. -/
structure Meaning (cy : Cycle K) (s : State K) (x dv f tau : Vec K) : Prop where
  dvSize : dv.size = s.nv
  dvEq : ∀ i, i < s.nv → dv i = x i
  fSize : f.size = s.k
  fEq : ∀ i, i < s.k → f i = x (s.nv + i)
  tauSize : tau.size = s.nv - s.nu
  tauEq : ∀ i, i < s.nv - s.nu → (∑ j ∈ range s.nv, s.robot.mass cy.M (s.nu + i) j * dv j) + cy.nle (s.nu + i) =
    tau i + contactTerms
      (s.contacts.map fun cl => ((cy.contactMotion cl.cid).mat, (s.contactObj cl.cid).forceGen)) 0 f (s.nu + i) +
      ((s.measured.map cy.torque).map fun t => t (s.nu + i)).sum

theorem call_decoded {s s' : State K} {x : Vec K} (h : decodeSolution s x = some s') (g : Getter) :
    g.call s x = .ok s' (g.select s'.dv s'.f s'.tau) := by
  cases g <;> simp only [Getter.call, getAccelerations, getContactForces, getActuatorForces, h] <;> rfl

theorem results_decoded {s : State K} (h : s.decoded = true) : ∀ gs : List (Getter × Vec K),
    getterResults s gs = some (gs.map fun c => c.1.select s.dv s.f s.tau)
  | [] => rfl
  | (g, x) :: gs => by
    have : decodeSolution s x = some s := by unfold decodeSolution; rw [if_pos h]
    simp only [getterResults, call_decoded this, results_decoded h gs, Option.map_some, List.map_cons]

/-- **C17, partial.** After `computeProblemData`, all getter calls of a sequence return the values that belong to the
solution passed to the *first* of them; in particular the values are those of the passed solution when all calls pass
the same one.

Missing: a later call with another solution returns values of the first one (`C17_cached`). -/
theorem C17_getters_partial {nd : Bool} {W : World} {s0 s : State K} {cy : Cycle K} {t : K}
    (h0 : Reachable nd W s0) (hc : computeProblemData nd cy t s0 = .ok s ()) (hs : CycleSizes s.nv cy)
    (x : Vec K) (hx : x.size = nVar s) :
    ∃ dv f tau, Meaning cy s x dv f tau ∧ ∀ (g : Getter) (gs : List (Getter × Vec K)),
      getterResults s ((g, x) :: gs) = some (((g, x) :: gs).map fun c => c.1.select dv f tau) := by
  obtain ⟨s1, hi, -, ha, hA, -, -⟩ := compute_spec (reachable_inv h0) hc
  obtain ⟨s', hd⟩ := decode_spec hi ha hs x hx
  refine ⟨s'.dv, s'.f, s'.tau, ⟨hd.dvSize, fun i _ => hd.dv i, hd.fSize, fun i _ => hd.f i, hd.tauSize, ?_⟩, ?_⟩
  · intro i _
    have e := hd.tau i
    have hf : (fun i => s'.f i) = fun j => x (s.nv + j) := by funext i; exact hd.f i
    simp only [hd.dv]
    show _ = s'.tau i + contactTerms _ 0 (fun i => s'.f i) _ + _
    rw [hf, e]
    ring
  · intro g gs
    have hdec : s'.decoded = true := by
      have := hd.run
      unfold decodeSolution at this
      split at this
      · next h => cases this; exact h
      · split at this
        · cases this; rfl
        · cases this
    simp only [getterResults, call_decoded hd.run, results_decoded hdec, Option.map_some, List.map_cons]

example : ∃ s0 s : State ℚ, Reachable false Demo.world s0 ∧ computeProblemData false Demo.cycle 5 s0 = .ok s () ∧
    CycleSizes s.nv Demo.cycle ∧ nVar s = 14 := by
  obtain ⟨s0, s, -, h, hc, hp⟩ := Demo.after_exists (ops := Demo.history) (cy := Demo.cycle) (t := 5)
    (p := fun s => decide (s.nv = 8 ∧ nVar s = 14)) (by decide +kernel)
  obtain ⟨h1, h2⟩ := of_decide_eq_true hp
  exact ⟨s0, s, h, hc, by rw [h1]; exact Demo.cycle_sizes, h2⟩

/-- C17 is false when a second solution is passed: `getAccelerations` returns the accelerations of the first. -/
theorem C17_cached : ∃ (s0 s : State ℚ), Reachable false Demo.world s0 ∧
    computeProblemData false Demo.cycle 5 s0 = .ok s () ∧ nVar s = 14 ∧
    (getterResults s [(.accelerations, ⟨14, fun _ => 1⟩), (.accelerations, ⟨14, fun _ => 2⟩)]).map
      (List.map Vec.toList) = some [[1, 1, 1, 1, 1, 1, 1, 1], [1, 1, 1, 1, 1, 1, 1, 1]] := by
  obtain ⟨s0, s, -, h, hc, hp⟩ := Demo.after_exists (ops := Demo.history) (cy := Demo.cycle) (t := 5)
    (p := fun s => decide (nVar s = 14 ∧
      (getterResults s [(.accelerations, ⟨14, fun _ => 1⟩), (.accelerations, ⟨14, fun _ => 2⟩)]).map
      (List.map Vec.toList) = some [[1, 1, 1, 1, 1, 1, 1, 1], [1, 1, 1, 1, 1, 1, 1, 1]])) (by decide +kernel)
  exact ⟨s0, s, h, hc, of_decide_eq_true hp⟩

/-! ## C18 -/

theorem tiled_mem {obj : Nat → Contact K} : ∀ (l : List ContactLevel) (k0 k1 : Nat), Tiled obj k0 l k1 →
    k0 ≤ k1 ∧ ∀ cl ∈ l, k0 ≤ cl.index ∧ cl.index + (obj cl.cid).nForce ≤ k1 := by
  intro l
  induction l with
  | nil => intro k0 k1 h; exact ⟨le_of_eq h, fun x hx => (nomatch hx)⟩
  | cons c cs ih =>
    intro k0 k1 h
    obtain ⟨h1, h2⟩ := h
    obtain ⟨h3, h4⟩ := ih _ _ h2
    refine ⟨by omega, ?_⟩
    intro cl hcl
    rcases List.mem_cons.1 hcl with rfl | hcl
    · omega
    · have := h4 cl hcl; omega

theorem tiled_flatten {obj : Nat → Contact K} (f : Vec K) : ∀ (l : List ContactLevel) (k0 k1 : Nat),
    Tiled obj k0 l k1 →
    (l.map fun cl => (f.segment cl.index (obj cl.cid).nForce).toList).flatten =
      (List.range (k1 - k0)).map fun i => f (k0 + i) := by
  intro l
  induction l with
  | nil => intro k0 k1 h; simp only [Tiled] at h; subst h; simp
  | cons c cs ih =>
    intro k0 k1 h
    obtain ⟨h1, h2⟩ := h
    have h3 := (tiled_mem _ _ _ h2).1
    rw [List.map_cons, List.flatten_cons, ih _ _ h2]
    have e : k1 - k0 = (obj c.cid).nForce + (k1 - (k0 + (obj c.cid).nForce)) := by omega
    rw [e, List.range_add, List.map_append, List.map_map]
    congr 1
    · rw [← h1]; rfl
    · apply List.map_congr_left
      intro i _
      simp only [Function.comp]
      rw [Nat.add_assoc]

theorem find_by_name {obj : Nat → Contact K} : ∀ (l : List ContactLevel),
    (l.map fun cl => (obj cl.cid).name).Nodup → ∀ cl ∈ l,
    l.find? (fun c => (obj c.cid).name == (obj cl.cid).name) = some cl := by
  intro l
  induction l with
  | nil => intro _ cl h; cases h
  | cons c cs ih =>
    intro h cl hcl
    rw [List.map_cons, List.nodup_cons] at h
    rcases List.mem_cons.1 hcl with rfl | hcl
    · simp
    · have hne : (obj c.cid).name ≠ (obj cl.cid).name := by
        intro e
        exact h.1 (e ▸ List.mem_map_of_mem (f := fun cl => (obj cl.cid).name) hcl)
      rw [List.find?_cons_of_neg (by simpa using hne)]
      exact ih h.2 cl hcl

/-- **C18, partial.** Right after `computeProblemData`, the forces of every registered contact are a slice of
`n_force` values, the slices of all contacts in registration order make up the whole force vector, and for other names
the result is empty (the three-argument overload returns false and leaves its argument alone).

Missing: when contacts are added between the decoding and the getter, the getter reads out of bounds
(`C18_out_of_bounds`). -/
theorem C18_contact_slices_partial {nd : Bool} {W : World} {robot : Robot K} {obj : Nat → Contact K}
    {assoc : Nat → String} {ops : List (Op K)} {s0 s : State K} {cy : Cycle K} {t : K}
    (h : TidyRun nd W robot obj assoc ops s0) (hc : computeProblemData nd cy t s0 = .ok s ())
    (hs : CycleSizes robot.nv cy) (x : Vec K) (hx : x.size = nVar s) :
    ∃ f, (getContactForces s x).val? = some f ∧ f.size = s.k ∧
    (∃ vs : List (Vec K), List.Forall₂ (fun cl v => v.size = (s.contactObj cl.cid).nForce ∧
        (getContactForcesOf s (s.contactObj cl.cid).name x).val? = some v ∧
        ∀ out : Vec K, out.size = (s.contactObj cl.cid).nForce →
          (getContactForcesInto s (s.contactObj cl.cid).name x out).val? = some (true, v)) s.contacts vs ∧
      (vs.map Vec.toList).flatten = f.toList) ∧
    ∀ n, n ∉ contactNames s → (getContactForcesOf s n x).val? = some (Vec.zero 0) ∧
      ∀ out, (getContactForcesInto s n x out).val? = some (false, out) := by
  obtain ⟨hi0, hn, L, hL, -⟩ := tidy_impl h
  obtain ⟨s1, hi, -, ha, hA, his, -⟩ := compute_spec hi0 hc
  have hrob : s.robot = robot := by
    have e1 : s0.robot = robot := run_robot ops _ _ h.run
    have e2 := step_robot (nd := nd) (W := W) (s := s0) (o := .compute cy t) (s' := s)
      (by simp only [step, hc]; rfl)
    exact e2.trans e1
  have hnv : s.nv = robot.nv := by rw [← his.pre.rnv, hrob]
  obtain ⟨s', hd⟩ := decode_spec hi ha (by rw [hnv]; exact hs) x hx
  -- decoding changes no registration
  have hdc : s'.contacts = s.contacts ∧ s'.contactObj = s.contactObj := by
    have := hd.run
    unfold decodeSolution at this
    split at this
    · cases this; exact ⟨rfl, rfl⟩
    · split at this
      · cases this; exact ⟨rfl, rfl⟩
      · cases this
  -- distinct names after the cycle
  have hst : (step nd W s0 (.compute cy t)).state? = some s := by simp only [step, hc]; rfl
  obtain ⟨L', hL'⟩ : ∃ L', Coh W s L' := by
    obtain ⟨hn', L', p1, p2⟩ := run_impl h.hygienic [.compute cy t] s0 s _ L hi0 hL
      ⟨trivial, by rw [hst]; trivial⟩ (by simp only [run, hst])
    exact ⟨L', p1.coh⟩
  have hnd : (s.contacts.map fun cl => (s.contactObj cl.cid).name).Nodup := contact_names_nodup hL'
  have htl := his.tiled
  refine ⟨s'.f, by simp [getContactForces, hd.run, Res.val?], hd.fSize, ?_, ?_⟩
  · refine ⟨s.contacts.map fun cl => s'.f.segment cl.index (s.contactObj cl.cid).nForce, ?_, ?_⟩
    · rw [List.forall₂_map_right_iff, List.forall₂_same]
      intro cl hcl
      have hfind := find_by_name s.contacts hnd cl hcl
      have hle := ((tiled_mem _ _ _ htl).2 cl hcl).2
      refine ⟨rfl, ?_, ?_⟩
      · unfold getContactForcesOf
        rw [hd.run]
        simp only [hdc.1, hdc.2, hfind, hd.fSize, hle, if_true]
        rfl
      · intro out hout
        unfold getContactForcesInto
        rw [hd.run]
        simp only [hdc.1, hdc.2, hfind, hd.fSize, hle, hout, and_self, if_true]
        rfl
    · rw [List.map_map]
      have := tiled_flatten s'.f _ _ _ htl
      simp only [Nat.sub_zero, Nat.zero_add] at this
      unfold Vec.toList at this ⊢
      rw [hd.fSize]
      exact this
  · intro n hnn
    have hfind : s.contacts.find? (fun c => (s.contactObj c.cid).name == n) = none := by
      rw [List.find?_eq_none]
      intro c hc' hcn
      exact hnn (List.mem_map.2 ⟨c, hc', by simpa using hcn⟩)
    refine ⟨?_, ?_⟩
    · unfold getContactForcesOf
      rw [hd.run]
      simp only [hdc.1, hdc.2, hfind]
      rfl
    · intro out
      unfold getContactForcesInto
      rw [hd.run]
      simp only [hdc.1, hdc.2, hfind]
      rfl

/-- Three contacts of the three classes: 3 + 12 + 3 forces. -/
example : ∃ s0 s : State ℚ, TidyRun false Demo.world Demo.robot Demo.contacts Demo.assoc
      [.addRigidContact 2 1 1 0, .addRigidContact 3 1 1 0, .addRigidContact 0 1 1 1] s0 ∧
    computeProblemData false Demo.cycle 5 s0 = .ok s () ∧ contactNames s = ["toe", "sole", "left"] ∧ nVar s = 26 ∧
    ((getContactForcesOf s "left" ⟨26, fun i => i⟩).val?.map Vec.toList) = some [23, 24, 25] := by
  obtain ⟨s0, s, h, hc, hp⟩ := Demo.tidyCycle_exists
    (ops := [.addRigidContact 2 1 1 0, .addRigidContact 3 1 1 0, .addRigidContact 0 1 1 1])
    (cy := Demo.cycle) (t := 5)
    (p := fun _ s => decide (contactNames s = ["toe", "sole", "left"] ∧ nVar s = 26 ∧
      ((getContactForcesOf s "left" ⟨26, fun i => i⟩).val?.map Vec.toList) = some [23, 24, 25])) (by decide +kernel)
  exact ⟨s0, s, h, hc, of_decide_eq_true hp⟩

/-- C18 is false of a contact that is added after the decoding: its slice lies outside the cached force vector. -/
theorem C18_out_of_bounds : ∃ s : State ℚ, TidyRun false Demo.world Demo.robot Demo.contacts Demo.assoc
      [.addRigidContact 2 1 1 0, .compute Demo.cycle 0, .decode (Vec.zero 11), .addRigidContact 0 1 1 1] s ∧
    "left" ∈ contactNames s ∧ (getContactForcesOf s "left" (Vec.zero 14)).isUB = true := by
  obtain ⟨s, h, hp⟩ := Demo.tidyAfter_exists
    (ops := [.addRigidContact 2 1 1 0, .compute Demo.cycle 0, .decode (Vec.zero 11), .addRigidContact 0 1 1 1])
    (p := fun s => decide ("left" ∈ contactNames s) && (getContactForcesOf s "left" (Vec.zero 14)).isUB)
    (by decide +kernel)
  simp only [Bool.and_eq_true, decide_eq_true_eq] at hp
  exact ⟨s, h, hp.1, hp.2⟩

end Tsid.Props
