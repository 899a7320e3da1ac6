import Verif.Lemmas.Transitions
import Verif.Lemmas.Contents
import Verif.Lemmas.History
import Verif.Example.Tidy

/-!
# C14-C16: breaking of contacts with a transition
-/

set_option linter.unusedSectionVars false

namespace Tsid.Props

open Formulation Spec

variable {K : Type} [Field K] [LinearOrder K] [HasSqrt K]

/-! ## C14 -/

/-- Breaking a registered contact over a positive duration leaves the problem alone and records a transition from
the current normal force to slightly more than the minimum normal force. -/
theorem C14_break_begins {nd : Bool} {s : State K} {n : String} {dur : K} {c : ContactLevel} (hd : 0 < dur)
    (hc : s.contacts.find? (fun c => (s.contactObj c.cid).name == n) = some c) :
    ∃ s', removeRigidContact nd s n dur = .ok s' true ∧ problem s' = problem s ∧ s'.contactObj = s.contactObj ∧
      s'.contacts = s.contacts ∧
      s'.trans = s.trans ++ [⟨s.t, s.t + dur, breakForce s c, (s.contactObj c.cid).fMin + 1 / 1000, c.cid⟩] := by
  refine ⟨{ s with
    trans := s.trans ++ [⟨s.t, s.t + dur, breakForce s c, (s.contactObj c.cid).fMin + 1 / 1000, c.cid⟩] }, ?_, rfl, rfl, rfl, rfl⟩
  unfold removeRigidContact
  rw [if_pos hd, hc]
  simp only
  have : (if c.index + (s.contactObj c.cid).nForce ≤ s.f.size then
      (s.contactObj c.cid).getNormalForce (s.f.segment c.index (s.contactObj c.cid).nForce)
      else some (s.contactObj c.cid).fMax) = some (breakForce s c) := by
    unfold breakForce
    simp only
    split
    · have e : (s.f.segment c.index (s.contactObj c.cid).nForce).size = (s.contactObj c.cid).nForce := rfl
      rw [getNormalForce_eq, if_pos (Or.inr e)]
      rfl
    · rfl
  rw [this]

/-- **C14, normal force.** `getNormalForce` returns the sum of the normal components of the forces at the points of
the contact; it throws exactly when the force does not have the size of the contact, which a contact between two frames
does not look at. -/
theorem C14_normal_force (c : Contact K) (f : Vec K) :
    (c.kind = .twoFrames ∨ f.size = c.nForce → c.getNormalForce f = some (normalForce c f.get)) ∧
    (¬ (c.kind = .twoFrames ∨ f.size = c.nForce) → c.getNormalForce f = none) := by
  rw [getNormalForce_eq]
  exact ⟨fun h => if_pos h, fun h => if_neg h⟩

/-- **C14, beginning of a break, partial.** When the solution of the last cycle has been decoded and the contacts have
not changed since, the break of a contact begins with the normal force that the contact has in that solution.

Missing: contacts removed or added between the solution and the break (`C14_stale_force`). -/
theorem C14_break_force_partial {nd : Bool} {W : World} {s0 s s1 : State K} {cy : Cycle K} {t : K} {x : Vec K}
    {n : String} {dur : K} {c : ContactLevel} (hr : Reachable nd W s0) (hc : computeProblemData nd cy t s0 = .ok s ())
    (hx : x.size = nVar s) (hd : decodeSolution s x = some s1) (hdur : 0 < dur)
    (hf : s.contacts.find? (fun c => (s.contactObj c.cid).name == n) = some c) :
    ∃ s', removeRigidContact nd s1 n dur = .ok s' true ∧
      s'.trans = s.trans ++ [⟨t, t + dur, normalForce (s.contactObj c.cid) (fun i => x (s.nv + c.index + i)),
        (s.contactObj c.cid).fMin + 1 / 1000, c.cid⟩] := by
  have hi := reachable_inv hr
  obtain ⟨q1, -, -, ha, hA, his, -⟩ := compute_spec hi hc
  have ht : s.t = t := by
    obtain ⟨s2, h2, a2⟩ := compute_ok hc
    rw [(assemble_frame a2).t]
    exact (runTransitions_robot (nd := nd) _ _ _ s2 (by rw [h2]; rfl)).2.2.2
  unfold nVar at hx
  have hdec : s.decoded = false := by rw [hA.eq]
  rw [decodeSolution_eq hdec (by omega) (by omega)] at hd
  cases hd
  obtain ⟨s', e1, -, -, -, e2⟩ := C14_break_begins (nd := nd) (s := { s with
      dv := x.head s.nv, f := x.tail s.k
      tau := (((s.nle.tail (s.nv - s.nu)).sub (s.hfext.tail (s.nv - s.nu))).add
        ((s.mass.bottomRows (s.nv - s.nu)).mulVec (x.head s.nv))).sub
        ((s.Jc.rightCols (s.nv - s.nu)).transpose.mulVec (x.tail s.k))
      decoded := true }) hdur hf
  refine ⟨s', e1, ?_⟩
  rw [e2]
  have hb := (tiled_bounds s.contactObj s.contacts 0 s.k his.tiled).2 c (List.mem_of_find?_eq_some hf)
  have hle : c.index + (s.contactObj c.cid).nForce ≤ (x.tail s.k).size := hb.2
  have : breakForce { s with
      dv := x.head s.nv, f := x.tail s.k
      tau := (((s.nle.tail (s.nv - s.nu)).sub (s.hfext.tail (s.nv - s.nu))).add
        ((s.mass.bottomRows (s.nv - s.nu)).mulVec (x.head s.nv))).sub
        ((s.Jc.rightCols (s.nv - s.nu)).transpose.mulVec (x.tail s.k))
      decoded := true } c = normalForce (s.contactObj c.cid) fun i => x (s.nv + c.index + i) := by
    unfold breakForce
    simp only
    rw [if_pos hle]
    congr 1
    funext i
    show x (x.size - s.k + (c.index + i)) = _
    congr 1
    omega
  rw [this]
  simp only [ht]

/-- A history in which the solution of a cycle with the contacts "toe" and "sole" has been decoded. -/
def decodedHistory : List (Op ℚ) :=
  [.addRigidContact 2 1 1 0, .addRigidContact 3 1 1 0, .compute Demo.cycle 0, .decode ⟨23, fun i => i⟩]

/-- The hypotheses of `C14_break_force_partial` are met: the break of "sole" begins with the sum of the normal components
of the entries that belong to it. -/
example : ∃ s0 s s1 : State ℚ, Reachable false Demo.world s0 ∧ computeProblemData false Demo.cycle 0 s0 = .ok s () ∧
    nVar s = 23 ∧ decodeSolution s ⟨23, fun i => i⟩ = some s1 ∧
    ((s.contacts.find? fun c => (s.contactObj c.cid).name == "sole").map fun c => (s.nv, c.index)) = some (8, 3) := by
  obtain ⟨s0, s, -, hr, hc, hp⟩ := Demo.after_exists (ops := [.addRigidContact 2 1 1 0, .addRigidContact 3 1 1 0])
    (cy := Demo.cycle) (t := 0) (p := fun s => decide (nVar s = 23) && (decodeSolution s ⟨23, fun i => i⟩).isSome &&
      decide (((s.contacts.find? fun c => (s.contactObj c.cid).name == "sole").map fun c => (s.nv, c.index)) = some (8, 3)))
    (by decide +kernel)
  simp only [Bool.and_eq_true, decide_eq_true_eq, Option.isSome_iff_exists] at hp
  obtain ⟨⟨h1, s1, h2⟩, h3⟩ := hp
  exact ⟨s0, s, s1, hr, hc, h1, h2, h3⟩

/-- C14 is false of a contact whose position among the contacts has changed since the solution: after the contact "toe"
has been removed, the break of "sole" begins with the sum of entries that belong in part to "toe" (10 + 13 + 16 + 19
instead of 13 + 16 + 19 + 22). -/
theorem C14_stale_force : ∃ s0 s : State ℚ,
    TidyRun false Demo.world Demo.robot Demo.contacts Demo.assoc (decodedHistory ++ [.removeRigidContact "toe" 0]) s0 ∧
    removeRigidContact false s0 "sole" 4 = .ok s true ∧ s.trans.map (fun tr => (tr.cid, tr.fStart)) = [(3, 58)] ∧
    normalForce (Demo.contacts 3) (fun i => (8 + 3 + i : Nat)) = 70 := by
  obtain ⟨s0, h, hp⟩ := Demo.tidyAfter_exists (ops := decodedHistory ++ [.removeRigidContact "toe" 0])
    (p := fun s0 => match removeRigidContact false s0 "sole" 4 with
      | .ok s true => decide (s.trans.map (fun tr => (tr.cid, tr.fStart)) = [(3, 58)])
      | _ => false) (by decide +kernel)
  split at hp
  · next s hs => exact ⟨s0, s, h, hs, of_decide_eq_true hp, by decide +kernel⟩
  · cases hp

/-- The last bound of the force constraint is the maximum normal force. -/
theorem withMax_last (c : Contact K) (m : K) :
    (c.withMax m).forceIneq.ub ((c.withMax m).forceIneq.ub.size - 1) = m := by
  cases hk : c.kind <;> simp [Contact.withMax, Contact.updateForceInequality, hk, Contact.setLast]

/-- **C14, partial.** While every pending break is in its window, `computeProblemData` neither throws nor aborts, and
the maximum normal force of a contact with a pending break is the linear interpolation of its last break; it lies
between the two end values and does not fall below the minimum normal force.

Missing: a cycle in which another pending break is over (`C14_skipped`), and breaks that begin with less than the
minimum normal force (`C14_throws`). -/
theorem C14_interpolation_partial [IsStrictOrderedRing K] {nd : Bool} {W : World} {robot : Robot K}
    {obj : Nat → Contact K} {assoc : Nat → String} {ops : List (Op K)} {s0 : State K} {cy : Cycle K} {t : K}
    (hrun : run nd W (init robot obj assoc) ops = some s0) (hb : Along nd W BreakOk (init robot obj assoc) ops)
    (hw : ∀ tr ∈ s0.trans, tr.tStart ≤ t ∧ t ≤ tr.tEnd) :
    (∀ s, computeProblemData nd cy t s0 ≠ .throw s) ∧ computeProblemData nd cy t s0 ≠ .abort ∧
    ∀ s, computeProblemData nd cy t s0 = .ok s () → s.trans = s0.trans ∧
      ∀ pre tr post, s0.trans = pre ++ tr :: post → (∀ tr' ∈ post, tr'.cid ≠ tr.cid) →
        (s.contactObj tr.cid).fMax =
          tr.fStart + (t - tr.tStart) / (tr.tEnd - tr.tStart) * (tr.fEnd - tr.fStart) ∧
        tr.fEnd = (s.contactObj tr.cid).fMin + 1 / 1000 ∧
        min tr.fStart tr.fEnd ≤ (s.contactObj tr.cid).fMax ∧ (s.contactObj tr.cid).fMax ≤ max tr.fStart tr.fEnd ∧
        ((s.contactObj tr.cid).kind ≠ .twoFrames → (s.contactObj tr.cid).fMin ≤ (s.contactObj tr.cid).fMax) ∧
        (s.contactObj tr.cid).forceIneq.ub ((s.contactObj tr.cid).forceIneq.ub.size - 1) =
          (s.contactObj tr.cid).fMax := by
  have hok : ∀ tr ∈ s0.trans, TransOk s0.contactObj tr :=
    run_transOk ops _ s0 (by simp [init]) hb hrun
  have hrt := runTransitions_window (nd := nd) s0.trans [] { s0 with t := t }
    (fun tr htr => ⟨Or.inr (hw tr htr).1, (hw tr htr).2⟩)
    (fun tr htr => transOk_maxOk (hok tr htr) (hw tr htr).1 (hw tr htr).2)
  have hcomp : computeProblemData nd cy t s0 =
      match assemble cy { s0 with
        t := t, contactObj := boundedObj s0.trans t s0.contactObj } with
      | some s2 => .ok s2 ()
      | none => .ub := by
    unfold computeProblemData
    simp only
    rw [hrt]
    rfl
  refine ⟨?_, ?_, ?_⟩
  · intro s; rw [hcomp]; split <;> simp
  · rw [hcomp]; split <;> simp
  · intro s hs
    rw [hcomp] at hs
    split at hs
    · next s2 ha =>
      simp only [Res.ok.injEq, and_true] at hs
      subst hs
      have hf := assemble_frame ha
      refine ⟨hf.trans, ?_⟩
      intro pre tr post hsplit hlast
      have hmem : tr ∈ s0.trans := by rw [hsplit]; simp
      have hobj : s2.contactObj tr.cid = (s0.contactObj tr.cid).withMax (interpolate tr t) := by
        rw [hf.obj]
        show boundedObj s0.trans t s0.contactObj tr.cid = _
        unfold boundedObj
        rw [hsplit, List.reverse_append, List.reverse_cons, List.append_assoc, List.find?_append]
        have : post.reverse.find? (fun x => x.cid == tr.cid) = none := by
          rw [List.find?_eq_none]
          intro x hx
          simpa using hlast x (List.mem_reverse.1 hx)
        rw [this]
        simp
      obtain ⟨h1, h2, h3⟩ := hok tr hmem
      have hbt := interpolate_between h1 (hw tr hmem).1 (hw tr hmem).2
      have hmax := transOk_maxOk (hok tr hmem) (hw tr hmem).1 (hw tr hmem).2
      rw [hobj, withMax_last, Contact.withMax_fMax, Contact.withMax_fMin, Contact.withMax_kind]
      refine ⟨rfl, h2, hbt.1, hbt.2, ?_, rfl⟩
      intro hk
      exact hmax.resolve_left hk
    · cases hs

/-- A history with two pending breaks: "toe" from time 0 to 4 and "sole" from time 0 to 8. -/
def breakHistory : List (Op ℚ) :=
  [.addRigidContact 2 1 1 0, .addRigidContact 3 1 1 0, .compute Demo.cycle 0, .removeRigidContact "toe" 4,
   .removeRigidContact "sole" 8]

/-- Executable check of `BreakOk`. -/
def breakCheck (s : State ℚ) : Op ℚ → Bool
  | .removeRigidContact n dur => decide (dur ≤ 0) || s.contacts.all fun c =>
      !((s.contactObj c.cid).name == n) || (decide ((s.contactObj c.cid).kind = .twoFrames) || decide ((s.contactObj c.cid).fMin ≤ breakForce s c))
  | .setContact cid (.fMin _) => s.trans.all fun tr => tr.cid != cid
  | _ => true

theorem breakCheck_spec {s : State ℚ} {o : Op ℚ} (h : breakCheck s o = true) : BreakOk s o := by
  cases o with
  | removeRigidContact n dur =>
    simp only [breakCheck, Bool.or_eq_true, decide_eq_true_eq, List.all_eq_true] at h
    intro hd c hc hn
    have := (h.resolve_left (not_le.2 hd)) c hc
    simpa [hn] using this
  | setContact cid u =>
    cases u with
    | fMin m => simpa [breakCheck, BreakOk] using h
    | _ => trivial
  | _ => trivial

/-- At time 2 both contacts are half and a quarter of the way to their minimum (1 + 1/1000). -/
example : ∃ s0 s : State ℚ, run false Demo.world Demo.start breakHistory = some s0 ∧
    Along false Demo.world BreakOk Demo.start breakHistory ∧
    (∀ tr ∈ s0.trans, tr.tStart ≤ 2 ∧ 2 ≤ tr.tEnd) ∧ computeProblemData false Demo.cycle 2 s0 = .ok s () ∧
    (s.contactObj 2).fMax = (10 + (1 + 1 / 1000)) / 2 ∧ (s.contactObj 3).fMax = (3 * 40 + (1 + 1 / 1000)) / 4 := by
  obtain ⟨s0, s, h, hc, hp⟩ := Demo.tidyCycle_exists (ops := breakHistory) (cy := Demo.cycle) (t := 2)
    (p := fun s0 s => (s0.trans.all fun tr => decide (tr.tStart ≤ 2 ∧ 2 ≤ tr.tEnd)) &&
      decide ((s.contactObj 2).fMax = (10 + (1 + 1 / 1000)) / 2 ∧
        (s.contactObj 3).fMax = (3 * 40 + (1 + 1 / 1000)) / 4)) (by decide +kernel)
  simp only [Bool.and_eq_true, List.all_eq_true, decide_eq_true_eq] at hp
  exact ⟨s0, s, h.run, Demo.alongCheck_spec (fun _ _ => breakCheck_spec) _ _ (by decide +kernel), hp.1, hc, hp.2⟩

/-- C14 is false of a cycle in which another break is over: at time 6 the break of "toe" is over and that of "sole"
is in its window, but the maximum normal force of "sole" keeps its old value 40 instead of the interpolated one. -/
theorem C14_skipped : ∃ (s0 s : State ℚ) (tr : Transition ℚ),
    TidyRun false Demo.world Demo.robot Demo.contacts Demo.assoc breakHistory s0 ∧ tr ∈ s0.trans ∧
    tr.tStart ≤ 6 ∧ 6 ≤ tr.tEnd ∧ computeProblemData false Demo.cycle 6 s0 = .ok s () ∧ tr ∈ s.trans ∧
    (s.contactObj tr.cid).fMax = 40 ∧
    tr.fStart + (6 - tr.tStart) / (tr.tEnd - tr.tStart) * (tr.fEnd - tr.fStart) < 12 := by
  obtain ⟨s0, s, h, hc, hp⟩ := Demo.tidyCycle_exists (ops := breakHistory) (cy := Demo.cycle) (t := 6)
    (p := fun s0 s => match s0.trans with
      | [_, tr] => decide (tr.tStart ≤ 6 ∧ 6 ≤ tr.tEnd ∧ (s.contactObj tr.cid).fMax = 40 ∧
          tr.fStart + (6 - tr.tStart) / (tr.tEnd - tr.tStart) * (tr.fEnd - tr.fStart) < 12) &&
          (match s.trans with
          | [tr'] => decide (tr'.tStart = tr.tStart ∧ tr'.tEnd = tr.tEnd ∧ tr'.fStart = tr.fStart ∧
              tr'.fEnd = tr.fEnd ∧ tr'.cid = tr.cid)
          | _ => false)
      | _ => false) (by decide +kernel)
  split at hp
  · next a tr e0 =>
    simp only [Bool.and_eq_true, decide_eq_true_eq] at hp
    obtain ⟨⟨p1, p2, p3, p4⟩, hp⟩ := hp
    split at hp
    · next tr' e1 =>
      have hp := of_decide_eq_true hp
      have : tr' = tr := by
        obtain ⟨q1, q2, q3, q4, q5⟩ := hp
        cases tr; cases tr'; simp_all
      subst this
      exact ⟨s0, s, tr', h, by rw [e0]; simp, p1, p2, hc, by rw [e1]; simp, p3, p4⟩
    · cases hp
  · cases hp

/-- C14 is false of a break that begins below the minimum normal force: the solver returned no force at the toe, so
the transition starts at 0, and the next control cycle throws. -/
theorem C14_throws : ∃ s0 s : State ℚ, run false Demo.world Demo.start
      [.addRigidContact 2 1 1 0, .compute Demo.cycle 0, .decode (Vec.zero 11), .removeRigidContact "toe" 4] = some s0 ∧
    s0.trans.map (fun tr => (tr.tStart, tr.tEnd)) = [(0, 4)] ∧
    computeProblemData false Demo.cycle 2 s0 = .throw s := by
  obtain ⟨s0, h, -, hp⟩ := Demo.afterRun_exists
    (ops := [.addRigidContact 2 1 1 0, .compute Demo.cycle 0, .decode (Vec.zero 11), .removeRigidContact "toe" 4])
    (p := fun s0 => decide (s0.trans.map (fun tr => (tr.tStart, tr.tEnd)) = [(0, 4)]) &&
      (computeProblemData false Demo.cycle 2 s0).threw) (by decide +kernel)
  simp only [Bool.and_eq_true, decide_eq_true_eq] at hp
  cases hc : computeProblemData false Demo.cycle 2 s0 with
  | throw s => exact ⟨s0, s, h, hp.1, hc⟩
  | ok s u => rw [hc] at hp; exact absurd hp.2 (by simp [Res.threw])
  | abort => rw [hc] at hp; exact absurd hp.2 (by simp [Res.threw])
  | ub => rw [hc] at hp; exact absurd hp.2 (by simp [Res.threw])

/-! ## C15 -/

/-- The names of the entries of a contact. -/
def contactEntryNames (n : String) : List String := [n ++ "_motion_task", n ++ "_force_constraint", n ++ "_force_reg_task"]

/-- Without an item of the contact, the problem has no entry of the contact. -/
theorem problem_without {W : World} {nm : Nat → String} {ck : Nat → ContactKind} {nu : Nat} {r : Registry K}
    {n : String} (hW : Hygienic W) (h : ∀ it ∈ r.items, it.isContact nm n = false) :
    ∀ l ∈ r.problem W nm ck nu, ∀ e ∈ l, e.name ∉ contactEntryNames n := by
  have key : ∀ lvl, ∀ it ∈ r.items, ∀ e ∈ it.entries W nm ck lvl, e.name ∉ contactEntryNames n := by
    intro lvl it hit e he
    have hit := h it hit
    cases it with
    | task fam tid p w =>
      simp only [Item.entries] at he
      split at he
      · simp only [List.mem_singleton] at he
        subst he
        obtain ⟨h1, h2⟩ := hW tid
        simp only [h1]
        intro hc
        apply h2
        unfold contactEntryNames at hc
        simp only [List.mem_cons, List.not_mem_nil, or_false] at hc
        exact Or.inr ⟨n, hc⟩
      · cases he
    | contact cid p wm wf =>
      simp only [Item.isContact, beq_eq_false_iff_ne, ne_eq] at hit
      simp only [Item.entries, List.mem_append] at he
      unfold contactEntryNames
      simp only [List.mem_cons, List.not_mem_nil, or_false, not_or]
      rcases he with (he | he) | he <;> split at he
      · simp only [List.mem_singleton] at he
        subst he
        exact ⟨fun e => hit (suffix_inj e), motion_ne_force _ _, motion_ne_reg _ _⟩
      · cases he
      · simp only [List.mem_singleton] at he
        subst he
        exact ⟨fun e => motion_ne_force _ _ e.symm, fun e => hit (suffix_inj e), force_ne_reg _ _⟩
      · cases he
      · simp only [List.mem_singleton] at he
        subst he
        exact ⟨fun e => motion_ne_reg _ _ e.symm, fun e => force_ne_reg _ _ e.symm, fun e => hit (suffix_inj e)⟩
      · cases he
  intro l hl e he
  unfold Registry.problem at hl
  simp only [List.mem_cons, List.not_mem_nil, or_false] at hl
  rcases hl with rfl | rfl
  · rcases List.mem_cons.1 he with rfl | he
    · unfold contactEntryNames
      simp only [List.mem_cons, List.not_mem_nil, or_false, not_or]
      exact ⟨fun e => motion_ne_base _ e.symm, fun e => force_ne_base _ e.symm, fun e => reg_ne_base _ e.symm⟩
    · obtain ⟨it, h1, h2⟩ := List.mem_flatMap.1 he
      exact key 0 it h1 e h2
  · obtain ⟨it, h1, h2⟩ := List.mem_flatMap.1 he
    exact key 1 it h1 e h2

/-- The registrations after one more control cycle. -/
theorem registrations_compute {nd : Bool} {W : World} {robot : Robot K} {obj : Nat → Contact K}
    {assoc : Nat → String} {ops : List (Op K)} {s0 s : State K} {cy : Cycle K} {t : K}
    (h : TidyRun nd W robot obj assoc ops s0) (hc : computeProblemData nd cy t s0 = .ok s ()) :
    TidyRun nd W robot obj assoc (ops ++ [.compute cy t]) s ∧
    registrations nd W robot obj assoc (ops ++ [.compute cy t]) =
      (registrations nd W robot obj assoc ops).expire (fun c => (obj c).name) t := by
  have hst : (step nd W s0 (.compute cy t)).state? = some s := by simp only [step, hc]; rfl
  have hthr : (step nd W s0 (.compute cy t)).threw = false := by simp only [step, hc]; rfl
  have hrun : run nd W (init robot obj assoc) (ops ++ [.compute cy t]) = some s := by
    rw [run_append _ _ _ _ h.run]; simp only [run, hst]
  refine ⟨⟨h.hygienic, h.motors, h.built, hrun, (along_append _ _ _ _ h.run).2 ⟨h.tidy, trivial, ?_⟩⟩, ?_⟩
  · rw [hst]; trivial
  · unfold registrations Registry.after
    rw [outcomes_append _ _ _ _ h.run, List.foldl_append]
    simp only [outcomes, hst, hthr, List.foldl_cons, List.foldl_nil]
    rfl

/-- **C15, partial.** When the control cycle at time `t` succeeds, the first pending break that is over at `t` has
taken its contact away: no entry of the problem belongs to it, and the break is no longer pending.

Missing: the contacts of further breaks that are over at the same time stay (`C15_simultaneous`). -/
theorem C15_expiry_partial {nd : Bool} {W : World} {robot : Robot K} {obj : Nat → Contact K} {assoc : Nat → String}
    {ops : List (Op K)} {s0 s : State K} {cy : Cycle K} {t te : K} {cid : Nat} {pre post : List (K × Nat)}
    (h : TidyRun nd W robot obj assoc ops s0)
    (hb : (registrations nd W robot obj assoc ops).breaking = pre ++ (te, cid) :: post) (hover : te < t)
    (hfirst : ∀ b ∈ pre, t ≤ b.1) (hc : computeProblemData nd cy t s0 = .ok s ()) :
    (∀ l ∈ problem s, ∀ e ∈ l, e.2.name ∉ contactEntryNames (obj cid).name) ∧
    (∀ cl ∈ s.contacts, (obj cl.cid).name ≠ (obj cid).name) ∧
    (registrations nd W robot obj assoc (ops ++ [.compute cy t])).breaking = pre ++ post := by
  obtain ⟨h2, hr⟩ := registrations_compute h hc
  have hfind : (registrations nd W robot obj assoc ops).breaking.find? (fun b => decide (b.1 < t)) = some (te, cid) := by
    rw [hb, List.find?_append]
    have : pre.find? (fun b => decide (b.1 < t)) = none := by
      rw [List.find?_eq_none]; intro b hb'; simpa using hfirst b hb'
    rw [this]
    simp [hover]
  have hitems : ∀ it ∈ (registrations nd W robot obj assoc (ops ++ [.compute cy t])).items,
      it.isContact (fun c => (obj c).name) (obj cid).name = false := by
    rw [hr]
    unfold Registry.expire
    rw [hfind]
    intro it hit
    have := (List.mem_filter.1 hit).2
    simpa using this
  obtain ⟨hi, hn, L, hL, -⟩ := tidy_impl h2
  have e1 : cnames s = fun c => (obj c).name := hn.names
  have e2 : ckinds s = fun c => (obj c).kind := hn.kinds
  have e3 : s.nu = robot.nv - robot.na := hn.nu
  have hent := entries_eq hi hL
  rw [e1, e2, e3] at hent
  refine ⟨?_, ?_, ?_⟩
  · intro l hl e he
    have hwo := problem_without (ck := fun c => (obj c).kind) (nu := robot.nv - robot.na) h.hygienic hitems
    rw [← hent] at hwo
    unfold problem at hl
    obtain ⟨l0, hl0, rfl⟩ := List.mem_map.1 hl
    obtain ⟨e0, he0, rfl⟩ := List.mem_map.1 he
    have := hwo _ (List.mem_map.2 ⟨l0, hl0, rfl⟩) _ (List.mem_map.2 ⟨e0, he0, rfl⟩)
    exact this
  · intro cl hcl hname
    have hcid := contact_cids hL.coh
    rw [hL.items] at hcid
    have : cl.cid ∈ (registrations nd W robot obj assoc (ops ++ [.compute cy t])).items.filterMap Item.cid? := by
      rw [hcid]; exact List.mem_map_of_mem hcl
    obtain ⟨it, hit, hit2⟩ := List.mem_filterMap.1 this
    have h3 := hitems it hit
    cases it with
    | task => cases hit2
    | contact cid' p wm wf =>
      simp only [Item.cid?, Option.some.injEq] at hit2
      subst hit2
      simp [Item.isContact, hname] at h3
  · rw [hr]
    unfold Registry.expire
    rw [hfind, hb]
    simp only
    rw [List.eraseP_append_right _ (by intro b hb'; simpa using hfirst b hb')]
    simp [hover]

/-- At time 5 the break of "toe" is over. -/
example : ∃ s0 s : State ℚ, TidyRun false Demo.world Demo.robot Demo.contacts Demo.assoc breakHistory s0 ∧
    (registrations false Demo.world Demo.robot Demo.contacts Demo.assoc breakHistory).breaking =
      [] ++ ((4 : ℚ), 2) :: [(8, 3)] ∧
    computeProblemData false Demo.cycle 5 s0 = .ok s () ∧
    (problem s0).map (List.map fun e => e.2.name) =
      [["base-dynamics", "toe_motion_task", "toe_force_constraint", "sole_motion_task", "sole_force_constraint"],
       ["toe_force_reg_task", "sole_force_reg_task"]] := by
  obtain ⟨s0, s, h, hc, hp⟩ := Demo.tidyCycle_exists (ops := breakHistory) (cy := Demo.cycle) (t := 5)
    (p := fun s0 _ => decide ((problem s0).map (List.map fun e => e.2.name) =
      [["base-dynamics", "toe_motion_task", "toe_force_constraint", "sole_motion_task", "sole_force_constraint"],
       ["toe_force_reg_task", "sole_force_reg_task"]])) (by decide +kernel)
  exact ⟨s0, s, h, by decide +kernel, hc, of_decide_eq_true hp⟩

/-- C15 is false of two breaks that are over at the same time: at time 9 both are, but the contact "sole" is still in
the problem. -/
theorem C15_simultaneous : ∃ s0 s : State ℚ,
    TidyRun false Demo.world Demo.robot Demo.contacts Demo.assoc breakHistory s0 ∧
    (∃ tr ∈ s0.trans, (Demo.contacts tr.cid).name = "sole" ∧ tr.tEnd < 9) ∧
    computeProblemData false Demo.cycle 9 s0 = .ok s () ∧
    (problem s).map (List.map fun e => e.2.name) =
      [["base-dynamics", "sole_motion_task", "sole_force_constraint"], ["sole_force_reg_task"]] := by
  obtain ⟨s0, s, h, hc, hp⟩ := Demo.tidyCycle_exists (ops := breakHistory) (cy := Demo.cycle) (t := 9)
    (p := fun s0 s => (s0.trans.any fun tr => decide ((Demo.contacts tr.cid).name = "sole" ∧ tr.tEnd < 9)) &&
      decide ((problem s).map (List.map fun e => e.2.name) =
        [["base-dynamics", "sole_motion_task", "sole_force_constraint"], ["sole_force_reg_task"]])) (by decide +kernel)
  simp only [Bool.and_eq_true, List.any_eq_true, decide_eq_true_eq] at hp
  exact ⟨s0, s, h, hp.1, hc, hp.2⟩

theorem expire_drops {nm : Nat → String} {n : String} : ∀ (ts : List K) (r : Registry K),
    (∀ it ∈ r.items, it.isContact nm n = false) →
    ∀ it ∈ (ts.foldl (fun r t => r.expire nm t) r).items, it.isContact nm n = false := by
  intro ts
  induction ts with
  | nil => intro r h; exact h
  | cons t ts ih =>
    intro r h
    refine ih _ ?_
    intro it hit
    simp only [Registry.expire] at hit
    split at hit
    · exact h it hit
    · exact h it (List.mem_filter.1 hit).1

theorem expire_all {nm : Nat → String} : ∀ (ts : List K) (r : Registry K),
    (∀ b ∈ r.breaking, ∀ t ∈ ts, b.1 < t) → r.breaking.length ≤ ts.length →
    ∀ b ∈ r.breaking, ∀ it ∈ (ts.foldl (fun r t => r.expire nm t) r).items, it.isContact nm (nm b.2) = false := by
  intro ts
  induction ts with
  | nil =>
    intro r _ hl b hb
    have : r.breaking = [] := List.eq_nil_of_length_eq_zero (Nat.le_zero.1 hl)
    rw [this] at hb
    cases hb
  | cons t ts ih =>
    intro r h hl b hb
    cases hr : r.breaking with
    | nil => rw [hr] at hb; cases hb
    | cons b0 bs =>
      have h0 : b0.1 < t := h b0 (by rw [hr]; exact List.mem_cons_self) t List.mem_cons_self
      have hexp : r.expire nm t = { r with
          time := t
          items := r.items.filter fun it => !it.isContact nm (nm b0.2)
          breaking := bs } := by
        unfold Registry.expire
        rw [hr]
        simp [h0]
      rw [List.foldl_cons, hexp]
      rw [hr] at hb hl h
      rcases List.mem_cons.1 hb with rfl | hb
      · refine expire_drops ts _ ?_
        intro it hit
        have := (List.mem_filter.1 hit).2
        simpa using this
      · refine ih _ ?_ ?_ b hb
        · intro x hx y hy
          exact h x (List.mem_cons_of_mem _ hx) y (List.mem_cons_of_mem _ hy)
        · simpa using hl

/-- **C15, several cycles.** After as many successful control cycles past the end of all pending breaks as there are
pending breaks, no contact with a pending break is left in the problem. -/
theorem C15_eventually {nd : Bool} {W : World} {robot : Robot K} {obj : Nat → Contact K} {assoc : Nat → String}
    {ops : List (Op K)} {cs : List (Cycle K × K)} {s0 s : State K} (h : TidyRun nd W robot obj assoc ops s0)
    (h2 : TidyRun nd W robot obj assoc (ops ++ cs.map fun c => .compute c.1 c.2) s)
    (hok : ∀ e ∈ outcomes nd W s0 (cs.map fun c => .compute c.1 c.2), e.2 = false)
    (hover : ∀ b ∈ (registrations nd W robot obj assoc ops).breaking, ∀ c ∈ cs, b.1 < c.2)
    (hn : (registrations nd W robot obj assoc ops).breaking.length ≤ cs.length) :
    ∀ b ∈ (registrations nd W robot obj assoc ops).breaking, ∀ l ∈ problem s, ∀ e ∈ l,
      e.2.name ∉ contactEntryNames (obj b.2).name := by
  obtain ⟨s1, k1, k2, -, k4⟩ := tidy_append h2
  have hs1 : s1 = s0 := by have := k1.run.symm.trans h.run; simpa using this
  subst hs1
  have key : ∀ (cs : List (Cycle K × K)) (z z' : State K) (r : Registry K),
      run nd W z (cs.map fun c => .compute c.1 c.2) = some z' →
      (∀ e ∈ outcomes nd W z (cs.map fun c => .compute c.1 c.2), e.2 = false) →
      r.after W (fun c => (obj c).name) (outcomes nd W z (cs.map fun c => .compute c.1 c.2)) =
        (cs.map Prod.snd).foldl (fun r t => r.expire (fun c => (obj c).name) t) r := by
    intro cs
    induction cs with
    | nil => intro z z' r _ _; rfl
    | cons c cs ih =>
      intro z z' r hr ho
      simp only [List.map_cons, run] at hr
      split at hr
      · next z1 hz =>
        simp only [List.map_cons, outcomes, hz] at ho ⊢
        have hthr := ho _ List.mem_cons_self
        simp only at hthr
        have := ih z1 z' (r.expire (fun c => (obj c).name) c.2) hr
          (fun e he => ho e (List.mem_cons_of_mem _ he))
        unfold Registry.after at this ⊢
        rw [List.foldl_cons, List.foldl_cons, ← this, hthr]
        rfl
      · cases hr
  rw [key cs s1 s _ k2 hok] at k4
  intro b hb
  have hitems : ∀ it ∈ (registrations nd W robot obj assoc (ops ++ cs.map fun c => .compute c.1 c.2)).items,
      it.isContact (fun c => (obj c).name) (obj b.2).name = false := by
    rw [k4]
    refine expire_all (cs.map Prod.snd) _ ?_ ?_ b hb
    · intro x hx y hy
      obtain ⟨c, hc, rfl⟩ := List.mem_map.1 hy
      exact hover x hx c hc
    · simpa using hn
  have hwo := problem_without (ck := fun c => (obj c).kind) (nu := robot.nv - robot.na) h.hygienic hitems
  obtain ⟨hi, hnm, L, hL, -⟩ := tidy_impl h2
  have e1 : cnames s = fun c => (obj c).name := hnm.names
  have e2 : ckinds s = fun c => (obj c).kind := hnm.kinds
  have e3 : s.nu = robot.nv - robot.na := hnm.nu
  have hent := entries_eq hi hL
  rw [e1, e2, e3] at hent
  rw [← hent] at hwo
  intro l hl e he
  unfold problem at hl
  obtain ⟨l0, hl0, rfl⟩ := List.mem_map.1 hl
  obtain ⟨e0, he0, rfl⟩ := List.mem_map.1 he
  exact hwo _ (List.mem_map.2 ⟨l0, hl0, rfl⟩) _ (List.mem_map.2 ⟨e0, he0, rfl⟩)

/-- Two cycles at time 9 end both breaks. -/
example : ∃ s0 s : State ℚ, TidyRun false Demo.world Demo.robot Demo.contacts Demo.assoc breakHistory s0 ∧
    TidyRun false Demo.world Demo.robot Demo.contacts Demo.assoc
      (breakHistory ++ [(Demo.cycle, 9), (Demo.cycle, 9)].map fun c => .compute c.1 c.2) s ∧
    (∀ e ∈ outcomes false Demo.world s0 ([(Demo.cycle, 9), (Demo.cycle, 9)].map fun c => .compute c.1 c.2),
      e.2 = false) ∧
    (registrations false Demo.world Demo.robot Demo.contacts Demo.assoc breakHistory).breaking =
      [((4 : ℚ), 2), (8, 3)] := by
  obtain ⟨s0, h, hp⟩ := Demo.tidyAfter_exists (ops := breakHistory)
    (p := fun s0 => (outcomes false Demo.world s0 ([(Demo.cycle, 9), (Demo.cycle, 9)].map fun c =>
      .compute c.1 c.2)).all fun e => !e.2) (by decide +kernel)
  obtain ⟨s, h2, -⟩ := Demo.tidyAfter_exists
    (ops := breakHistory ++ [(Demo.cycle, 9), (Demo.cycle, 9)].map fun c => .compute c.1 c.2)
    (p := fun _ => true) (by decide +kernel)
  refine ⟨s0, s, h, h2, ?_, by decide +kernel⟩
  simpa using hp

/-! ## C16 -/

/-- A call other than the removal of the contact `n` keeps a registered contact `n` without a pending break, and
begins no break of it. -/
theorem next_keeps {W : World} {nm : Nat → String} {n : String} {threw : Bool} {cid p : Nat} (r : Registry K)
    (hn : nm cid = n) (o : Op K) (ho : ∀ dur, o ≠ .removeRigidContact n dur)
    (hit : ∃ wm wf, .contact cid p wm wf ∈ r.items) (hb : ∀ b ∈ r.breaking, nm b.2 ≠ n) :
    (∃ wm wf, .contact cid p wm wf ∈ (r.next W nm threw o).items) ∧
    ∀ b ∈ (r.next W nm threw o).breaking, nm b.2 ≠ n := by
  obtain ⟨wm, wf, hit⟩ := hit
  cases o with
  | addMotionTask tid w q dur =>
    simp only [Registry.next]
    split
    · exact ⟨⟨wm, wf, hit⟩, hb⟩
    · exact ⟨⟨wm, wf, List.mem_append_left _ hit⟩, hb⟩
  | addForceTask tid w q dur =>
    simp only [Registry.next]
    split
    · exact ⟨⟨wm, wf, hit⟩, hb⟩
    · exact ⟨⟨wm, wf, List.mem_append_left _ hit⟩, hb⟩
  | addActuationTask tid w q dur =>
    simp only [Registry.next]
    split
    · exact ⟨⟨wm, wf, hit⟩, hb⟩
    · exact ⟨⟨wm, wf, List.mem_append_left _ hit⟩, hb⟩
  | updateTaskWeight m w =>
    simp only [Registry.next]
    exact ⟨⟨_, _, List.mem_map.2 ⟨_, hit, rfl⟩⟩, hb⟩
  | addRigidContact c a b q =>
    simp only [Registry.next]
    exact ⟨⟨wm, wf, List.mem_append_left _ hit⟩, hb⟩
  | updateRigidContactWeights m a b =>
    simp only [Registry.next]
    exact ⟨⟨_, _, List.mem_map.2 ⟨_, hit, rfl⟩⟩, hb⟩
  | addMeasuredForce m => exact ⟨⟨wm, wf, hit⟩, hb⟩
  | removeMeasuredForce m => exact ⟨⟨wm, wf, hit⟩, hb⟩
  | removeTask m =>
    simp only [Registry.next]
    exact ⟨⟨wm, wf, List.mem_filter.2 ⟨hit, rfl⟩⟩, hb⟩
  | removeRigidContact m dur =>
    have hm : m ≠ n := fun e => ho dur (by rw [e])
    simp only [Registry.next]
    split
    · exact ⟨⟨wm, wf, hit⟩, hb⟩
    split
    · split
      · exact ⟨⟨wm, wf, hit⟩, hb⟩
      · next c hc =>
        refine ⟨⟨wm, wf, hit⟩, ?_⟩
        intro b hb'
        rcases List.mem_append.1 hb' with hb' | hb'
        · exact hb b hb'
        · simp only [List.mem_singleton] at hb'
          subst hb'
          have := List.find?_some hc
          simp only [beq_iff_eq] at this
          rw [this]
          exact hm
    · refine ⟨⟨wm, wf, List.mem_filter.2 ⟨hit, ?_⟩⟩, hb⟩
      simp only [Item.isContact, Bool.not_eq_true', beq_eq_false_iff_ne, ne_eq]
      rw [hn]
      exact fun e => hm e.symm
  | removeFromHqpData m => exact ⟨⟨wm, wf, hit⟩, hb⟩
  | resizeHqpData => exact ⟨⟨wm, wf, hit⟩, hb⟩
  | compute cy t =>
    simp only [Registry.next]
    split
    · exact ⟨⟨wm, wf, hit⟩, hb⟩
    · unfold Registry.expire
      split
      · exact ⟨⟨wm, wf, hit⟩, hb⟩
      · next b hbf =>
        refine ⟨⟨wm, wf, List.mem_filter.2 ⟨hit, ?_⟩⟩, ?_⟩
        · simp only [Item.isContact, Bool.not_eq_true', beq_eq_false_iff_ne, ne_eq]
          rw [hn]
          exact fun e => hb b (List.mem_of_find?_eq_some hbf) e.symm
        · intro b' hb'
          exact hb b' (List.mem_of_mem_eraseP hb')
  | decode x => exact ⟨⟨wm, wf, hit⟩, hb⟩
  | setContact c u => exact ⟨⟨wm, wf, hit⟩, hb⟩
  | setAssociated tid m => exact ⟨⟨wm, wf, hit⟩, hb⟩

/-- **C16, partial.** A registered contact for whose name no break is pending stays registered, with its three
entries in the problem, until a call of `removeRigidContact` for its name.

Missing: a break that is still pending when a contact of the same name is registered again removes the new contact
(`C16_stale_break`). -/
theorem C16_contact_stays_partial {nd : Bool} {W : World} {robot : Robot K} {obj : Nat → Contact K}
    {assoc : Nat → String} {ops ops' : List (Op K)} {s : State K} {n : String} {cid p : Nat}
    (h : TidyRun nd W robot obj assoc (ops ++ ops') s) (hname : (obj cid).name = n)
    (hit : ∃ wm wf, .contact cid p wm wf ∈ (registrations nd W robot obj assoc ops).items)
    (hb : ∀ b ∈ (registrations nd W robot obj assoc ops).breaking, (obj b.2).name ≠ n)
    (hops : ∀ dur, .removeRigidContact n dur ∉ ops') :
    (∃ cl ∈ s.contacts, cl.cid = cid) ∧ p < 2 ∧
    (∃ e ∈ (problem s).getD p [], e.2.name = n ++ "_motion_task") ∧
    (∃ e ∈ (problem s).getD 0 [], e.2.name = n ++ "_force_constraint") ∧
    ∃ e ∈ (problem s).getD 1 [], e.2.name = n ++ "_force_reg_task" := by
  obtain ⟨s1, k1, k2, -, k4⟩ := tidy_append h
  have key : ∀ (os : List (Op K × Bool)) (r : Registry K), (∀ dur b, (.removeRigidContact n dur, b) ∉ os) →
      (∃ wm wf, .contact cid p wm wf ∈ r.items) → (∀ b ∈ r.breaking, (obj b.2).name ≠ n) →
      ∃ wm wf, .contact cid p wm wf ∈ (r.after W (fun c => (obj c).name) os).items := by
    intro os
    induction os with
    | nil => intro r _ h1 _; exact h1
    | cons o os ih =>
      intro r ho h1 h2
      obtain ⟨a, b⟩ := next_keeps (W := W) (nm := fun c => (obj c).name) (threw := o.2) r hname o.1
        (fun dur e => ho dur o.2 (by rw [← e]; exact List.mem_cons_self)) h1 h2
      exact ih _ (fun dur b hb => ho dur b (List.mem_cons_of_mem _ hb)) a b
  have hout : ∀ (os : List (Op K)) (z : State K) (o : Op K) (b : Bool), (o, b) ∈ outcomes nd W z os → o ∈ os := by
    intro os
    induction os with
    | nil => intro z o b hx; cases hx
    | cons o' os ih =>
      intro z o b hx
      simp only [outcomes] at hx
      rcases List.mem_cons.1 hx with hx | hx
      · cases hx; exact List.mem_cons_self
      · split at hx
        · exact List.mem_cons_of_mem _ (ih _ _ _ hx)
        · cases hx
  obtain ⟨wm, wf, hmem⟩ := key (outcomes nd W s1 ops') _ (fun dur b hx => hops dur (hout _ _ _ _ hx)) hit hb
  rw [← k4] at hmem
  obtain ⟨hi, hnm, L, hL, -⟩ := tidy_impl h
  have e1 : cnames s = fun c => (obj c).name := hnm.names
  have e2 : ckinds s = fun c => (obj c).kind := hnm.kinds
  have e3 : s.nu = robot.nv - robot.na := hnm.nu
  have hent := entries_eq hi hL
  rw [e1, e2, e3] at hent
  have hp : p < 2 := by
    have := hmem
    rw [← hL.items] at this
    obtain ⟨x, hx, hx2⟩ := List.mem_map.1 this
    have := hL.coh.levels x hx
    rw [hx2] at this
    exact this
  have back : ∀ lvl m, lvl < 2 → (∃ e ∈ Item.entries W (fun c => (obj c).name) (fun c => (obj c).kind) lvl
      (.contact cid p wm wf), e.name = m) → ∃ e ∈ (problem s).getD lvl [], e.2.name = m := by
    intro lvl m hl ⟨e, he, hem⟩
    have h2 : e ∈ (entries s).getD lvl [] := by
      rw [hent]
      unfold Registry.problem
      obtain rfl | rfl : lvl = 0 ∨ lvl = 1 := by omega
      · exact List.mem_cons_of_mem _ (List.mem_flatMap.2 ⟨_, hmem, he⟩)
      · exact List.mem_flatMap.2 ⟨_, hmem, he⟩
    have h3 : (entries s).getD lvl [] = ((problem s).getD lvl []).map fun e =>
        (⟨e.1, e.2.name, e.2.kind, e.2.mat.rows⟩ : Entry K) := by
      unfold entries problem
      rw [List.getD_eq_getElem?_getD, List.getD_eq_getElem?_getD, List.getElem?_map, List.getElem?_map]
      cases s.hqp[lvl]? with
      | none => rfl
      | some l => simp
    rw [h3] at h2
    obtain ⟨e', he', rfl⟩ := List.mem_map.1 h2
    exact ⟨e', he', hem⟩
  refine ⟨?_, hp, back p _ hp ?_, back 0 _ (by omega) ?_, back 1 _ (by omega) ?_⟩
  · have hcid := contact_cids hL.coh
    rw [hL.items] at hcid
    have : cid ∈ s.contacts.map ContactLevel.cid := by
      rw [← hcid]; exact List.mem_filterMap.2 ⟨_, hmem, rfl⟩
    obtain ⟨cl, h1, h2⟩ := List.mem_map.1 this
    exact ⟨cl, h1, h2⟩
  · simp [Item.entries, hname]
  · simp [Item.entries, hname]
  · simp [Item.entries, hname]

/-- "sole" stays in the problem when "toe" is broken. -/
example : ∃ s : State ℚ, TidyRun false Demo.world Demo.robot Demo.contacts Demo.assoc
      ([.addRigidContact 2 1 1 0, .addRigidContact 3 1 1 0, .compute Demo.cycle 0] ++
        [.removeRigidContact "toe" 4, .compute Demo.cycle 5]) s ∧
    (∃ wm wf, .contact 3 0 wm wf ∈ (registrations false Demo.world Demo.robot Demo.contacts Demo.assoc
      [.addRigidContact 2 1 1 0, .addRigidContact 3 1 1 0, .compute Demo.cycle 0]).items) := by
  obtain ⟨s, h, -⟩ := Demo.tidyAfter_exists
    (ops := [.addRigidContact 2 1 1 0, .addRigidContact 3 1 1 0, .compute Demo.cycle 0] ++
        [.removeRigidContact "toe" 4, .compute Demo.cycle 5]) (p := fun _ => true) (by decide +kernel)
  refine ⟨s, h, 1, 1, ?_⟩
  have : registrations false Demo.world Demo.robot Demo.contacts Demo.assoc
      [.addRigidContact 2 1 1 0, .addRigidContact 3 1 1 0, .compute Demo.cycle 0] =
      ⟨[.contact 2 0 1 1, .contact 3 0 1 1], [], 0, []⟩ := rfl
  rw [this]
  simp

/-- C16 is false when a break is still pending: "toe" is broken over 4 seconds, then removed at once and registered
again; the control cycle at time 5 removes the new contact although the user did not. -/
theorem C16_stale_break : ∃ s0 s : State ℚ, TidyRun false Demo.world Demo.robot Demo.contacts Demo.assoc
      [.addRigidContact 2 1 1 0, .removeRigidContact "toe" 4, .removeRigidContact "toe" 0, .addRigidContact 2 1 1 0] s0 ∧
    computeProblemData false Demo.cycle 5 s0 = .ok s () ∧ s0.contacts.map ContactLevel.cid = [2] ∧
    s.contacts = [] ∧ (problem s).map (List.map fun e => e.2.name) = [["base-dynamics"], []] := by
  obtain ⟨s0, s, h, hc, hp⟩ := Demo.tidyCycle_exists
    (ops := [.addRigidContact 2 1 1 0, .removeRigidContact "toe" 4, .removeRigidContact "toe" 0,
      .addRigidContact 2 1 1 0]) (cy := Demo.cycle) (t := 5)
    (p := fun s0 s => decide (s0.contacts.map ContactLevel.cid = [2] ∧ s.contacts = [] ∧
      (problem s).map (List.map fun e => e.2.name) = [["base-dynamics"], []])) (by decide +kernel)
  exact ⟨s0, s, h, hc, of_decide_eq_true hp⟩

end Tsid.Props
