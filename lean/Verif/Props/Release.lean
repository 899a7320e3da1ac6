import Verif.Spec.Release
import Verif.Lemmas.Release
import Verif.Props.ProgramText
import Verif.Props.Transitions

/-!
# C100: letting go of a contact
-/

set_option linter.unusedSectionVars false

namespace Tsid.Props

open Spec Formulation Finset

variable {K : Type} [Field K] [LinearOrder K] [IsStrictOrderedRing K] [FloorRing K] [HasSqrt K] [LawfulSqrt K]

/-- The beginning of an orderly program is orderly. -/
theorem good_prefix {E : Program.Env K} {W : World} {S : Setup K} {a b : List (Program.Op K)} {s1 s2 : Program.State K}
    (h : GoodProgram E W S (a ++ b) s2) (h1 : Program.run E S.start a = some s1) : GoodProgram E W S a s1 :=
  ⟨h.names, h.mfNames, h.hygienic, h.nv, h.na, h.motors, h.nqa, h.difference, h.contacts, h.built, h.builtContact,
    h.builtMeasured, h1, ((everyCall_append h1).1 h.orderly).1,
    fun tid c hc => h.args tid c (by rw [taskCalls_append]; exact List.mem_append_left _ hc),
    fun cid c hc => h.contactArgs cid c (by rw [Program.contactCalls_append]; exact List.mem_append_left _ hc),
    fun w hw => h.cycles w (by rw [snapshots_append]; exact List.mem_append_left _ hw)⟩

theorem decode_frame {s s' : State K} {x : Vec K} (h : decodeSolution s x = some s') :
    s'.contactObj = s.contactObj ∧ s'.contacts = s.contacts ∧ s'.trans = s.trans := by
  unfold decodeSolution at h
  split at h
  · cases h; exact ⟨rfl, rfl, rfl⟩
  · split at h
    · cases h; exact ⟨rfl, rfl, rfl⟩
    · cases h

section

variable {E : Program.Env K} {W : World} {S : Setup K} {pre mid : List (Program.Op K)} {w0 : Snapshot K} {t0 : K}
  {x0 : Vec K} {b0 : Behaviour K} {n : String} {cid : Nat} {dur : K} {s3 : Program.State K}

theorem mem_contactSets {c : Nat} {u : ContactSet K} : ∀ {ops : List (Program.Op K)}, u ∈ contactSets c ops →
    ∃ o ∈ ops, o = .form (.setContact c u)
  | [], h => by cases h
  | o :: os, h => by
    have step : u ∈ contactSets c os → ∃ o' ∈ o :: os, o' = .form (.setContact c u) := fun h' => by
      obtain ⟨o', h1, h2⟩ := mem_contactSets h'
      exact ⟨o', List.mem_cons_of_mem _ h1, h2⟩
    cases o with
    | form o =>
      cases o with
      | setContact i v =>
        simp only [contactSets] at h
        split at h
        · next e =>
          subst e
          rcases List.mem_cons.1 h with rfl | h
          · exact ⟨_, List.mem_cons_self, rfl⟩
          · exact step h
        · exact step h
      | _ => exact step h
    | _ => exact step h

/-- The break that begins. -/
def theBreak (S : Setup K) (pre : List (Program.Op K)) (b0 : Behaviour K) (cid : Nat) (t0 dur : K) : Transition K :=
  ⟨t0, t0 + dur, S.pushing pre b0 cid, (S.limitsOf pre cid).fMin + 1 / 1000, cid⟩

theorem interpolate_break (t : K) :
    interpolate (theBreak S pre b0 cid t0 dur) t = S.releaseMax pre b0 cid t0 dur t := by
  unfold interpolate theBreak Setup.releaseMax ramp
  dsimp only
  rw [add_sub_cancel_left]

/-- What is known while the contact is let go. -/
structure Underway (E : Program.Env K) (W : World) (S : Setup K) (pre : List (Program.Op K)) (b0 : Behaviour K) (t0 : K)
    (cid : Nat) (dur : K) (ops : List (Program.Op K)) (s : Program.State K) : Prop where
  trans : s.form.trans = [theBreak S pre b0 cid t0 dur]
  fMin : (s.form.contactObj cid).fMin = (S.limitsOf pre cid).fMin
  textMin : (S.limitsOf ops cid).fMin = (S.limitsOf pre cid).fMin
  others : ∀ c, c ≠ cid → HasLimits true (s.form.contactObj c) (S.obj c).kind (S.limitsOf ops c)
  item : ∃ p wm wf, .contact cid p wm wf ∈ (registrations E.ndebug W S.robot S.obj (fun tid => (S.task tid).assoc)
    (formCalls E S.start ops)).items
  breaking : (registrations E.ndebug W S.robot S.obj (fun tid => (S.task tid).assoc)
    (formCalls E S.start ops)).breaking = [(t0 + dur, cid)]

theorem underway (h : GoodProgram E W S (releaseText pre w0 t0 x0 n dur mid) s3)
    (L : LetsGo E W S pre w0 t0 x0 b0 n cid dur mid) :
    Underway E W S pre b0 t0 cid dur (releaseText pre w0 t0 x0 n dur mid) s3 := by
  obtain ⟨sp, s0, hsp, hc0, hx0, hb0⟩ := L.solution
  have hg := good_prefix h hsp
  have hw0 : SnapshotOk E.robot.nv w0 := h.cycles w0 (by
    unfold releaseText; rw [snapshots_append]; exact List.mem_append_right _ List.mem_cons_self)
  have F := facts hg hw0 L.cycle hc0
  have hform := Program.compute_form hc0
  obtain ⟨ht, -⟩ := program_tidy hg
  -- limits and pending breaks after the cycle
  have hl0 : ∀ c, HasLimits true (s0.form.contactObj c) (S.obj c).kind (S.limitsOf pre c) :=
    fun c => limits_text hg hc0 (fun _ => L.before) c
  have ht0 : s0.form.trans = [] := by
    obtain ⟨k1, k2⟩ := run_limits (q := true) (cid := 0) (kind := (S.obj 0).kind) _ _ _ (ForceLimits.of (S.obj 0))
      (fun _ => abrupt_text L.before) (fun _ => rfl) ⟨rfl, rfl, rfl, fun _ => ⟨rfl, rfl⟩⟩ ht.run
    exact (compute_limits k2 k1 (by rw [hform]; rfl)).2 rfl
  -- the steps
  obtain ⟨sp', e1, e2⟩ := Program.run_append_some pre _ _ _ h.run
  rw [hsp] at e1
  cases e1
  have hst0 : (Program.step E sp (.compute w0 t0)).state? = some s0 := by simp only [Program.step, hc0]; rfl
  simp only [Program.run, hst0] at e2
  split at e2
  swap
  · cases e2
  next s1 hst1 =>
  split at e2
  swap
  · cases e2
  next s2 hst2 =>
  have hd1 : decodeSolution s0.form x0 = some s1.form := by
    simp only [Program.step] at hst1
    split at hst1
    · cases hdec : decodeSolution s0.form x0 with
      | none => simp only [Formulation.step, hdec] at hst1; cases hst1
      | some f => simp only [Formulation.step, hdec] at hst1; cases hst1; rfl
    · cases hst1
  obtain ⟨f1, f2, f3⟩ := decode_frame hd1
  -- the contact
  have hcid := L.held
  rw [F.cids] at hcid
  obtain ⟨cl, hcl, rfl⟩ := List.mem_map.1 hcid
  obtain ⟨-, -, -, -, -, -, -, hnd, -, hcoh, -⟩ := cycle_end ht hform
  have hfind : s0.form.contacts.find? (fun c => (s0.form.contactObj c.cid).name == n) = some cl := by
    rw [← L.name, ← F.names]
    exact find_contact hnd hcl
  have hre : Reachable E.ndebug W sp.form :=
    ⟨S.robot, S.obj, fun tid => (S.task tid).assoc, _, ht.motors, ht.built, ht.run⟩
  obtain ⟨f', r1, r2⟩ := C14_break_force_partial hre hform hx0 hd1 L.long hfind
  obtain ⟨f'', q1, -, q2, q3, -⟩ := C14_break_begins (nd := E.ndebug) (s := s1.form) (n := n) L.long (c := cl)
    (by rw [f1, f2]; exact hfind)
  rw [r1] at q1
  cases q1
  have hs2 : s2.form = f' := by
    simp only [Program.step] at hst2
    split at hst2
    · simp only [Formulation.step, r1, void] at hst2; cases hst2; rfl
    · cases hst2
  have hpush : normalForce (s0.form.contactObj cl.cid) (fun i => x0 (s0.form.nv + cl.index + i)) =
      S.pushing pre b0 cl.cid := by
    obtain ⟨d, hd, hr, -⟩ := F.decode x0 hx0
    have A := agrees_of F hd hr hb0
    have hnv : s0.form.nv = S.robot.nv := by have := F.nVar; unfold Formulation.nVar at this; omega
    have hf : ∀ i, i < Contact.kindForce (S.obj cl.cid).kind → x0 (s0.form.nv + cl.index + i) = b0.force cl.cid i :=
      fun i hi => by rw [hnv, ← hr.of cl hcl, A.of cl hcl i hi]
    unfold normalForce Setup.pushing
    rw [F.kinds, (hl0 cl.cid).2.1]
    have hcorner : ∀ j, 3 * j + 2 < Contact.kindForce (S.obj cl.cid).kind →
        cornerForce (fun i => x0 (s0.form.nv + cl.index + i)) j = cornerForce (b0.force cl.cid) j := by
      intro j hj
      unfold cornerForce
      dsimp only
      rw [hf _ (by omega), hf _ (by omega), hf _ hj]
    have hk := L.pushes
    cases hkk : (S.obj cl.cid).kind with
    | twoFrames => exact absurd hkk hk
    | point =>
      rw [show nPoints .point = 1 from rfl]
      simp only [sum_range_succ, range_zero, sum_empty, zero_add]
      rw [hcorner 0 (by rw [hkk]; decide)]
    | sixD =>
      rw [show nPoints .sixD = 4 from rfl]
      simp only [sum_range_succ, range_zero, sum_empty, zero_add]
      rw [hcorner 0 (by rw [hkk]; decide), hcorner 1 (by rw [hkk]; decide), hcorner 2 (by rw [hkk]; decide),
        hcorner 3 (by rw [hkk]; decide)]
  rw [ht0, List.nil_append, hpush, ((hl0 cl.cid).2.2.2 rfl).1] at r2
  rw [← hs2] at r1 r2 q2 q3
  have htr : s2.form.trans = [theBreak S pre b0 cl.cid t0 dur] := r2
  -- the rest of the program
  have hord := ((everyCall_append hsp).1 h.orderly).2
  simp only [EveryCall, hst0, hst1, hst2] at hord
  obtain ⟨g1, -, -⟩ := Program.run_form h.names h.mfNames hord.2.2.2 e2
  have hquiet := quiet_text (E := E) (s := s2) L.quiet
  obtain ⟨a1, a2, a3⟩ := run_quiet (n := n) _ _ _ htr hquiet g1
  have hops : ∀ c, contactSets c (releaseText pre w0 t0 x0 n dur mid) = contactSets c pre ++ contactSets c mid := by
    intro c
    unfold releaseText
    rw [Program.contactSets_append]
    rfl
  have hmin : (S.limitsOf (releaseText pre w0 t0 x0 n dur mid) cl.cid).fMin = (S.limitsOf pre cl.cid).fMin := by
    unfold Setup.limitsOf
    rw [hops, limits_append, afterAll_fMin]
    intro m hm
    obtain ⟨o, ho, hom⟩ : ∃ o ∈ mid, o = .form (.setContact cl.cid (.fMin m)) := mem_contactSets hm
    subst hom
    exact L.quiet _ ho rfl
  have hs20 : s2.form.contactObj = s0.form.contactObj := q2.trans f1
  -- the registrations
  have hcalls : formCalls E S.start (releaseText pre w0 t0 x0 n dur mid) =
      formCalls E S.start (pre ++ [.compute w0 t0, .form (.decode x0), .form (.removeRigidContact n dur)]) ++
        formCalls E s2 mid := by
    rw [← Program.formCalls_append _ _ _ s2]
    · unfold releaseText; simp
    · rw [Program.run_append _ _ _ _ hsp]
      simp only [Program.run, hst0, hst1, hst2]
  obtain ⟨ht3, -⟩ := program_tidy h
  rw [hcalls] at ht3
  obtain ⟨z, k1, k2, -, k4⟩ := tidy_append ht3
  have hz : z = s2.form := by
    have hr2 : Program.run E S.start (pre ++ [.compute w0 t0, .form (.decode x0), .form (.removeRigidContact n dur)]) =
        some s2 := by
      rw [Program.run_append _ _ _ _ hsp]
      simp only [Program.run, hst0, hst1, hst2]
    have hg2 := good_prefix (b := mid) (by rw [List.append_assoc]; exact h) hr2
    obtain ⟨hh, -⟩ := program_tidy hg2
    have := k1.run.symm.trans hh.run
    simpa using this
  subst hz
  obtain ⟨-, -, L2, hL2, -⟩ := tidy_impl k1
  have hbr := hL2.breaking
  rw [htr] at hbr
  have hit : ∃ p wm wf, .contact cl.cid p wm wf ∈ (registrations E.ndebug W S.robot S.obj (fun tid => (S.task tid).assoc)
      (formCalls E S.start (pre ++ [.compute w0 t0, .form (.decode x0), .form (.removeRigidContact n dur)]))).items := by
    have hm : cl.cid ∈ (L2.map Prod.fst).filterMap Item.cid? := by
      rw [contact_cids hL2.coh, q3, f2]; exact List.mem_map_of_mem hcl
    rw [hL2.items] at hm
    obtain ⟨it, hit, hci⟩ := List.mem_filterMap.1 hm
    cases it with
    | task => cases hci
    | contact c p wm wf => cases hci; exact ⟨p, wm, wf, hit⟩
  obtain ⟨p, hit⟩ := hit
  obtain ⟨j1, j2⟩ := after_quiet (nd := E.ndebug) (W := W) (nm := fun c => (S.obj c).name) L.name (formCalls E s2 mid)
    s2.form _ hquiet hit hbr.symm
  refine ⟨a1, ?_, hmin, fun c hc => ?_, ?_, ?_⟩
  · rw [show cl.cid = (theBreak S pre b0 cl.cid t0 dur).cid from rfl, a2]
    show (s2.form.contactObj cl.cid).fMin = _
    rw [hs20]
    exact ((hl0 cl.cid).2.2.2 rfl).1
  · have := a3 c (S.obj c).kind (S.limitsOf pre c) hc (by rw [hs20]; exact hl0 c)
    rw [setsOf_text e2] at this
    unfold Setup.limitsOf at this ⊢
    rw [hops, limits_append]
    exact this
  · rw [hcalls, k4]; exact ⟨p, j1⟩
  · rw [hcalls, k4]; exact j2

/-- The limits of the contacts during the release. -/
theorem released_limits (h : GoodProgram E W S (releaseText pre w0 t0 x0 n dur mid) s3)
    (L : LetsGo E W S pre w0 t0 x0 b0 n cid dur mid) {w : Snapshot K} {t : K} (ht : t ≤ t0 + dur) {s : Program.State K}
    (hc : Program.compute E w t s3 = .ok s ()) (c : Nat) : ForceLimits.of (s.form.contactObj c) =
      S.releasing (releaseText pre w0 t0 x0 n dur mid) cid (S.releaseMax pre b0 cid t0 dur t) c := by
  have U := underway h L
  obtain ⟨-, k2⟩ := compute_ramp U.trans ht (Program.compute_form hc)
  unfold Setup.releasing
  by_cases e : c = cid
  · subst e
    obtain ⟨-, h1, h2, -⟩ := limits_text h hc (q := false) (fun e => (by cases e)) c
    have h3 : (s.form.contactObj c).fMin = (S.limitsOf (releaseText pre w0 t0 x0 n dur mid) c).fMin := by
      rw [k2, show (theBreak S pre b0 c t0 dur).cid = c from rfl, Function.update_self, Contact.withMax_fMin, U.fMin,
        U.textMin]
    have h4 : (s.form.contactObj c).fMax = S.releaseMax pre b0 c t0 dur t := by
      rw [k2, show (theBreak S pre b0 c t0 dur).cid = c from rfl, Function.update_self, Contact.withMax_fMax,
        interpolate_break]
    rw [if_pos rfl]
    unfold ForceLimits.of
    rw [h1, h2, h3, h4]
    rfl
  · rw [if_neg e]
    obtain ⟨-, h1, h2, h3⟩ := U.others c e
    obtain ⟨h4, h5⟩ := h3 rfl
    rw [k2, show (theBreak S pre b0 cid t0 dur).cid = cid from rfl, Function.update_of_ne e]
    unfold ForceLimits.of
    rw [h1, h2, h4, h5]

/-- **C100 (partial).** While a contact is let go, the first level of the problem asks for what the text of the program
says, no more and no less, except that the normal force of this contact may not exceed a limit on a straight line: from
the normal force in the solution before the call, at that time, to a thousandth above the minimum at the end.  Costs are
those of the text.  Missing: several breaks at a time (`C14_skipped`, `C15_simultaneous`), control cycles without
decoding before the call (`C14_stale_force`), contacts of two frames (`C100_two_frames`), and as in C99. -/
theorem C100_exact_partial (h : GoodProgram E W S (releaseText pre w0 t0 x0 n dur mid) s3)
    (L : LetsGo E W S pre w0 t0 x0 b0 n cid dur mid) {w : Snapshot K} {t : K} (hw : SnapshotOk E.robot.nv w)
    (hm : MayCycle E W S (releaseText pre w0 t0 x0 n dur mid) w t) (ht : t ≤ t0 + dur) {s : Program.State K}
    (hc : Program.compute E w t s3 = .ok s ())
    (hu : ∀ fam tid k, .task fam tid 0 k ∈ (S.registry E W (releaseText pre w0 t0 x0 n dur mid) t).items →
      (S.decl tid).Upright w)
    (hv : S.Viable E W (releaseText pre w0 t0 x0 n dur mid) w t)
    (heq : ∀ fam tid k, .task fam tid 1 k ∈ (S.registry E W (releaseText pre w0 t0 x0 n dur mid) t).items →
      (S.decl tid).kind = .equality)
    {l0 l1 : Level K} (hp : problem s.form = [l0, l1]) {x : Vec K} (hx : x.size = nVar s.form) {b : Behaviour K}
    (hb : b.Decodes E W S (releaseText pre w0 t0 x0 n dur mid) t s.form x) :
    (Feasible l0 x ↔ IntendedWith (S.releasing (releaseText pre w0 t0 x0 n dur mid) cid
      (S.releaseMax pre b0 cid t0 dur t)) E W S (releaseText pre w0 t0 x0 n dur mid) w t b) ∧
    lsqCost l1 x = S.losses E W (releaseText pre w0 t0 x0 n dur mid) w t b ∧
    sqNorm (nVar s.form) x = S.effort E W (releaseText pre w0 t0 x0 n dur mid) t b :=
  exact_with h hw hm hc (fun c _ => released_limits h L ht hc c) hu hv heq hp hx hb

/-- **C100, with the solver (partial).** Whenever the external solver keeps its promises and succeeds in a cycle while the
contact is let go, the getters return the best of the behaviours that obey the text and the lowered limit.  Missing: as in
`C100_exact_partial` and C90. -/
theorem C100_best_partial (h : GoodProgram E W S (releaseText pre w0 t0 x0 n dur mid) s3)
    (L : LetsGo E W S pre w0 t0 x0 b0 n cid dur mid) {w : Snapshot K} {t : K} (hw : SnapshotOk E.robot.nv w)
    (hm : MayCycle E W S (releaseText pre w0 t0 x0 n dur mid) w t) (ht : t ≤ t0 + dur) {s : Program.State K}
    (hc : Program.compute E w t s3 = .ok s ())
    (hu : ∀ fam tid k, .task fam tid 0 k ∈ (S.registry E W (releaseText pre w0 t0 x0 n dur mid) t).items →
      (S.decl tid).Upright w)
    (hv : S.Viable E W (releaseText pre w0 t0 x0 n dur mid) w t)
    (heq : ∀ fam tid k, .task fam tid 1 k ∈ (S.registry E W (releaseText pre w0 t0 x0 n dur mid) t).items →
      (S.decl tid).kind = .equality)
    (b : Bool) (st0 : Status.HQPStatus) (i : Int) (v : Solve.Objective K) :
    let ops := releaseText pre w0 t0 x0 n dur mid
    let lim := S.releasing ops cid (S.releaseMax pre b0 cid t0 dur t)
    FulfilsWith lim Solve.eiq (Solve.Eiq.init st0 i v) EiqSat (fun a => ∃ w, a.objective = .num w) true E W S ops w t s ∧
    FulfilsWith lim Solve.fast (Solve.Eiq.init st0 i v) EiqSat (fun a => a.code = .optimal) true E W S ops w t s ∧
    (∀ fresh freshI neq nin, (problem s.form).head?.map Solver.count = some (neq, nin) →
      FulfilsWith lim Solve.rt (Solve.Rt.init fresh freshI (nVar s.form) neq nin st0 i v) EiqSat (fun a => a.code = .optimal)
        true E W S ops w t s) ∧
    FulfilsWith lim Solve.prox (Solve.Prox.init st0 i v) ProxSat (fun a => a.code = .solved) false E W S ops w t s ∧
    FulfilsWith lim Solve.osqp (Solve.Osqp.init st0 i v) OsqpSat (fun a => a.code = .solved) false E W S ops w t s ∧
    FulfilsWith lim Solve.mad (Solve.Mad.init b st0 i v) MadSat (fun a => a.code = .ok) true E W S ops w t s := by
  intro ops lim
  obtain ⟨l0, l1, hp, ha, hb⟩ := program_admissible h hw hm hc heq
  have hx := fun (x : Vec K) (hx : x.size = nVar s.form) => C99_decodes h hw hm hc hx
  have hd := fun (x : Vec K) (b : Behaviour K) (hx : x.size = nVar s.form) (hb : b.Decodes E W S ops t s.form x) =>
    C100_exact_partial h L hw hm ht hc hu hv heq hp hx hb
  have he := fun (b : Behaviour K) (hb : IntendedWith lim E W S ops w t b) => C99_every h hw hm hc hb.dynamics
  obtain ⟨k1, k2, k3, k4, k5, k6⟩ := C85_solves_partial E.ndebug b st0 i v ha
  refine ⟨fulfils_of hp hx hd he k1, fulfils_of hp hx hd he k2, fun fresh freshI neq nin hcnt => ?_,
    fulfils_of hp hx hd he k4, fulfils_of hp hx hd he k5, fulfils_of hp hx hd he (k6 hb)⟩
  rw [hp] at hcnt
  simp only [List.head?_cons, Option.map_some, Option.some.injEq] at hcnt
  have := k3 fresh freshI
  rw [hcnt] at this
  exact fulfils_of hp hx hd he this

/-- What is registered in a cycle while the contact is let go. -/
theorem underway_registry {ops : List (Program.Op K)} {s : Program.State K} (U : Underway E W S pre b0 t0 cid dur ops s)
    {t : K} : (t ≤ t0 + dur → S.cids E W ops t = (registrations E.ndebug W S.robot S.obj
        (fun tid => (S.task tid).assoc) (formCalls E S.start ops)).items.filterMap Item.cid?) ∧
      (t0 + dur < t → ∀ c ∈ S.cids E W ops t, (S.obj c).name ≠ (S.obj cid).name) := by
  unfold Setup.cids Setup.registry Registry.expire
  rw [U.breaking]
  constructor
  · intro ht
    rw [List.find?_cons_of_neg (by simpa using ht), List.find?_nil]
  · intro ht c hc
    rw [List.find?_cons_of_pos (by simpa using ht)] at hc
    obtain ⟨it, hit, hci⟩ := List.mem_filterMap.1 hc
    have := (List.mem_filter.1 hit).2
    cases it with
    | task => cases hci
    | contact c' p wm wf =>
      cases hci
      simpa [Item.isContact] using this

/-- **C100, registration.** The contact stays registered until the time is over, whatever the program does in the
meantime, and is gone in the first cycle afterwards. -/
theorem C100_registered (h : GoodProgram E W S (releaseText pre w0 t0 x0 n dur mid) s3)
    (L : LetsGo E W S pre w0 t0 x0 b0 n cid dur mid) (t : K) :
    cid ∈ S.cids E W (releaseText pre w0 t0 x0 n dur mid) t ↔ t ≤ t0 + dur := by
  have U := underway h L
  obtain ⟨k1, k2⟩ := underway_registry U (t := t)
  constructor
  · intro hc
    by_contra ht
    exact k2 (not_le.1 ht) cid hc rfl
  · intro ht
    rw [k1 ht]
    obtain ⟨p, wm, wf, hit⟩ := U.item
    exact List.mem_filterMap.2 ⟨_, hit, rfl⟩

/-- The normal force of a behaviour that obeys the text is at least the minimum, and at most the maximum. -/
theorem intended_pushing {ops : List (Program.Op K)} {w : Snapshot K} {t : K} {b : Behaviour K}
    (hi : Intended E W S ops w t b) (hc : cid ∈ S.cids E W ops t) (hk : (S.obj cid).kind ≠ .twoFrames) :
    (S.limitsOf ops cid).fMin ≤ S.pushing ops b cid ∧ S.pushing ops b cid ≤ (S.limitsOf ops cid).fMax := by
  obtain ⟨it, hit, hci⟩ := List.mem_filterMap.1 hc
  cases it with
  | task => cases hci
  | contact c p wm wf =>
    cases hci
    have := hi.contactForce cid p wm wf hit
    unfold ForceLimits.Respected at this
    unfold Setup.pushing
    cases hkk : (S.obj cid).kind with
    | twoFrames => exact absurd hkk hk
    | point => rw [hkk] at this; exact this.2
    | sixD => rw [hkk] at this; exact this.2

theorem releaseMax_between (hd : 0 < dur) {t : K} (h1 : t0 ≤ t) (h2 : t ≤ t0 + dur) :
    min (S.pushing pre b0 cid) ((S.limitsOf pre cid).fMin + 1 / 1000) ≤ S.releaseMax pre b0 cid t0 dur t ∧
    S.releaseMax pre b0 cid t0 dur t ≤ max (S.pushing pre b0 cid) ((S.limitsOf pre cid).fMin + 1 / 1000) := by
  rw [← interpolate_break]
  exact interpolate_between (tr := theBreak S pre b0 cid t0 dur) (show t0 < t0 + dur by linarith) h1 h2

/-- **C100, no exception.** If the robot obeyed the text in the cycle before, every cycle until the contact is gone
returns: the exception of `setMaxNormalForce` (`C14_throws`) cannot occur. -/
theorem C100_returns (h : GoodProgram E W S (releaseText pre w0 t0 x0 n dur mid) s3)
    (L : LetsGo E W S pre w0 t0 x0 b0 n cid dur mid) (hi : Intended E W S pre w0 t0 b0) {w : Snapshot K} {t : K}
    (hw : SnapshotOk E.robot.nv w) (hm : MayCycle E W S (releaseText pre w0 t0 x0 n dur mid) w t) (h1 : t0 ≤ t)
    (h2 : t ≤ t0 + dur) : ∃ s, Program.compute E w t s3 = .ok s () := by
  have U := underway h L
  have hub := C88_partial h hw hm
  have hok : ((s3.form).contactObj cid).MaxOk (interpolate (theBreak S pre b0 cid t0 dur) t) := by
    right
    rw [interpolate_break, U.fMin]
    refine le_trans (le_min (intended_pushing hi L.held L.pushes).1 ?_) (releaseMax_between L.long h1 h2).1
    linarith [show (0 : K) < 1 / 1000 by norm_num]
  have htr := transitions_ramp (nd := E.ndebug) (s := { s3.form with t := t }) U.trans h1 h2 hok
  unfold Program.compute at hub ⊢
  have htr : runTransitions E.ndebug [] s3.form.trans { s3.form with t := t } = _ := htr
  rw [htr] at hub ⊢
  dsimp only at hub ⊢
  split at hub
  · cases hub
  · split at hub
    · exact ⟨_, rfl⟩
    · cases hub

end

/-- **C100, no jump at the beginning.** At the time of the call the limit is the normal force of the moment: what the
robot did in the cycle before is still allowed.  -/
theorem C100_begin {E : Program.Env K} {W : World} {S : Setup K} {ops : List (Program.Op K)} {w : Snapshot K} {t0 dur : K}
    {b : Behaviour K} {cid : Nat} (hk : (S.obj cid).kind ≠ .twoFrames) (hi : Intended E W S ops w t0 b) :
    S.releaseMax ops b cid t0 dur t0 = S.pushing ops b cid ∧
    IntendedWith (S.releasing ops cid (S.releaseMax ops b cid t0 dur t0)) E W S ops w t0 b := by
  have e : S.releaseMax ops b cid t0 dur t0 = S.pushing ops b cid := by
    unfold Setup.releaseMax ramp; rw [sub_self, zero_div, zero_mul, add_zero]
  refine ⟨e, hi.dynamics, hi.task, hi.contactMotion, fun c p wm wf hit => ?_⟩
  rw [e]
  have hf := hi.contactForce c p wm wf hit
  unfold Setup.releasing
  split
  · next e' =>
    subst e'
    unfold ForceLimits.Respected at hf ⊢
    cases hkk : (S.obj c).kind with
    | twoFrames => exact absurd hkk hk
    | point =>
      rw [hkk] at hf
      refine ⟨hf.1, hf.2.1, ?_⟩
      unfold Setup.pushing; rw [hkk]
    | sixD =>
      rw [hkk] at hf
      refine ⟨hf.1, hf.2.1, ?_⟩
      unfold Setup.pushing; rw [hkk]
  · exact hf

/-- **C100, the limit goes down evenly.** Between two times the limit changes in proportion to the time between them. -/
theorem C100_rate {S : Setup K} {pre : List (Program.Op K)} {b0 : Behaviour K} {cid : Nat} {t0 dur : K} (hd : 0 < dur)
    (t t' : K) : |S.releaseMax pre b0 cid t0 dur t - S.releaseMax pre b0 cid t0 dur t'| =
      |t - t'| / dur * |(S.limitsOf pre cid).fMin + 1 / 1000 - S.pushing pre b0 cid| := by
  unfold Setup.releaseMax ramp
  rw [← abs_of_pos hd, ← abs_div, ← abs_mul, abs_of_pos hd]
  congr 1
  ring

/-- **C100, no jump at the end.** With unit normal and positive friction coefficient, every point force of a behaviour
that respects the limit `m` has a normal component between 0 and `m`, and a length of at most `√(1 + 2 μ²) m`.  A cycle
at most `δ` before the end has a limit of at most a thousandth plus the minimum plus `δ / dur` of the way: what is taken
away from the robot when the contact disappears from the problem is at most that much. -/
theorem C100_end {E : Program.Env K} {W : World} {S : Setup K} {pre ops : List (Program.Op K)} {w : Snapshot K} {t t0 dur : K}
    {b b0 : Behaviour K} {cid : Nat} (hk : (S.obj cid).kind ≠ .twoFrames)
    (hn : (S.limitsOf ops cid).normal.dot (S.limitsOf ops cid).normal = 1) (hmu : 0 < (S.limitsOf ops cid).mu)
    (hc : cid ∈ S.cids E W ops t) (hd : 0 < dur) {δ : K} (hδ : t0 + dur - δ ≤ t) (ht : t ≤ t0 + dur)
    (hi : IntendedWith (S.releasing ops cid (S.releaseMax pre b0 cid t0 dur t)) E W S ops w t b) :
    let m := S.releaseMax pre b0 cid t0 dur t
    let f1 := (S.limitsOf pre cid).fMin + 1 / 1000
    (∀ i, i < nPoints (S.obj cid).kind →
      0 ≤ (S.limitsOf ops cid).normal.dot (cornerForce (b.force cid) i) ∧
      (S.limitsOf ops cid).normal.dot (cornerForce (b.force cid) i) ≤ m ∧
      (cornerForce (b.force cid) i).dot (cornerForce (b.force cid) i) ≤ (1 + 2 * (S.limitsOf ops cid).mu ^ 2) * m ^ 2) ∧
    m ≤ f1 + δ / dur * max 0 (S.pushing pre b0 cid - f1) := by
  intro m f1
  obtain ⟨it, hit, hci⟩ := List.mem_filterMap.1 hc
  cases it with
  | task => cases hci
  | contact c p wm wf =>
    cases hci
    have hf := hi.contactForce cid p wm wf hit
    unfold Setup.releasing at hf
    rw [if_pos rfl] at hf
    have hf : (∀ i, i < nPoints (S.obj cid).kind →
        Pyramid (S.limitsOf ops cid).normal (Contact.tangent1 (S.limitsOf ops cid).normal)
          (Contact.tangent2 (S.limitsOf ops cid).normal) (S.limitsOf ops cid).mu (cornerForce (b.force cid) i)) ∧
        ∑ i ∈ range (nPoints (S.obj cid).kind), (S.limitsOf ops cid).normal.dot (cornerForce (b.force cid) i) ≤ m := by
      unfold ForceLimits.Respected at hf
      cases hkk : (S.obj cid).kind with
      | twoFrames => exact absurd hkk hk
      | point => rw [hkk] at hf; exact ⟨fun i hi => (hf.1 i hi).1, hf.2.2⟩
      | sixD => rw [hkk] at hf; exact ⟨fun i hi => (hf.1 i hi).1, hf.2.2⟩
    obtain ⟨hpyr, hsum⟩ := hf
    have hpos : ∀ i ∈ range (nPoints (S.obj cid).kind), 0 ≤ (S.limitsOf ops cid).normal.dot (cornerForce (b.force cid) i) :=
      fun i hi => nonneg_of_mul_nonneg_right (le_trans (abs_nonneg _) (hpyr i (mem_range.1 hi)).1) hmu
    refine ⟨fun i hi => ?_, ?_⟩
    · have h0 := hpos i (mem_range.2 hi)
      have hle := (single_le_sum hpos (mem_range.2 hi)).trans hsum
      refine ⟨h0, hle, ?_⟩
      have ho := Contact.tangents_orthonormal hn
      rw [← parseval ho]
      obtain ⟨a1, a2⟩ := hpyr i hi
      have b1 := sq_le_sq.2 (a1.trans (le_abs_self _))
      have b2 := sq_le_sq.2 (a2.trans (le_abs_self _))
      have b3 : (S.limitsOf ops cid).normal.dot (cornerForce (b.force cid) i) ^ 2 ≤ m ^ 2 := by gcongr
      have b4 : 0 ≤ (S.limitsOf ops cid).mu ^ 2 := sq_nonneg _
      rw [mul_pow] at b1 b2
      nlinarith [mul_le_mul_of_nonneg_left b3 b4]
    · show ramp _ _ _ _ _ ≤ _
      have e : ramp (S.pushing pre b0 cid) f1 t0 dur t = f1 + (t0 + dur - t) / dur * (S.pushing pre b0 cid - f1) := by
        unfold ramp
        field_simp
        ring
      rw [show ramp (S.pushing pre b0 cid) ((S.limitsOf pre cid).fMin + 1 / 1000) t0 dur t = _ from e]
      have e1 : 0 ≤ (t0 + dur - t) / dur := div_nonneg (by linarith) hd.le
      have e2 : (t0 + dur - t) / dur ≤ δ / dur := div_le_div_of_nonneg_right (by linarith) hd.le
      have e3 := mul_le_mul_of_nonneg_left (le_max_right 0 (S.pushing pre b0 cid - f1)) e1
      have e4 := mul_le_mul_of_nonneg_right e2 (le_max_left 0 (S.pushing pre b0 cid - f1))
      linarith

/-- **C100, the start.** After a cycle that returned, reading the solution and beginning to let go of a registered contact
succeed, everything stays registered, and the next cycle may begin at any time until the contact is gone. -/
theorem C100_starts {E : Program.Env K} {W : World} {S : Setup K} {pre : List (Program.Op K)} {w0 : Snapshot K} {t0 : K}
    {x0 : Vec K} {b0 : Behaviour K} {n : String} {cid : Nat} {dur : K} {sp : Program.State K} (hg : GoodProgram E W S pre sp) (hw0 : SnapshotOk E.robot.nv w0)
    (L : LetsGo E W S pre w0 t0 x0 b0 n cid dur []) :
    ∃ s3, GoodProgram E W S (releaseText pre w0 t0 x0 n dur []) s3 ∧
      ∀ t, t ≤ t0 + dur → (S.registry E W (releaseText pre w0 t0 x0 n dur []) t).items = (S.registry E W pre t0).items ∧
        ∀ w : Snapshot K, E.robot.na ≤ w.q.size → MayCycle E W S (releaseText pre w0 t0 x0 n dur []) w t := by
  obtain ⟨sp', s0, hsp, hc0, hx0, hb0⟩ := L.solution
  have e := hg.run.symm.trans hsp
  cases e
  have F := facts hg hw0 L.cycle hc0
  have hform := Program.compute_form hc0
  obtain ⟨ht, -⟩ := program_tidy hg
  have ht0 : sp.form.trans = [] := by
    obtain ⟨k1, k2⟩ := run_limits (q := true) (cid := 0) (kind := (S.obj 0).kind) _ _ _ (ForceLimits.of (S.obj 0))
      (fun _ => abrupt_text L.before) (fun _ => rfl) ⟨rfl, rfl, rfl, fun _ => ⟨rfl, rfl⟩⟩ ht.run
    exact k2 rfl
  -- the steps
  have hst0 : Program.step E sp (.compute w0 t0) = .ok s0 () := by simp only [Program.step, hc0]
  obtain ⟨f1, hd1⟩ : ∃ f1, decodeSolution s0.form x0 = some f1 := by
    obtain ⟨d, hd, -⟩ := F.decode x0 hx0
    cases hdec : decodeSolution s0.form x0 with
    | some f => exact ⟨f, rfl⟩
    | none =>
      have := hd.dv
      simp only [getAccelerations, hdec] at this
      cases this
  obtain ⟨q1, q2, -⟩ := decode_frame hd1
  have hf1 : ∀ W' : World, Formulation.step E.ndebug W' s0.form (.decode x0) = .ok f1 () := fun W' => by
    simp only [Formulation.step, hd1]
  have hst1 : Program.step E s0 (.form (.decode x0)) = .ok { s0 with form := f1 } () := by
    simp only [Program.step, Program.typed, if_true, hf1]
  have hcid := L.held
  rw [F.cids] at hcid
  obtain ⟨cl, hcl, rfl⟩ := List.mem_map.1 hcid
  obtain ⟨-, -, -, -, -, -, -, hnd, -, hcoh, -⟩ := cycle_end ht hform
  have hfind : f1.contacts.find? (fun c => (f1.contactObj c.cid).name == n) = some cl := by
    rw [q1, q2, ← L.name, ← F.names]
    exact find_contact hnd hcl
  obtain ⟨f2, r1, -⟩ := C14_break_begins (nd := E.ndebug) L.long hfind
  have hf2 : ∀ W' : World, Formulation.step E.ndebug W' f1 (.removeRigidContact n dur) = .ok f2 () := fun W' => by
    simp only [Formulation.step, r1, void]
  have hst2 : Program.step E { s0 with form := f1 } (.form (.removeRigidContact n dur)) = .ok { s0 with form := f2 } () := by
    simp only [Program.step, Program.typed, if_true, hf2]
  have hg3 : GoodProgram E W S (releaseText pre w0 t0 x0 n dur []) { s0 with form := f2 } := by
    refine ⟨hg.names, hg.mfNames, hg.hygienic, hg.nv, hg.na, hg.motors, hg.nqa, hg.difference, hg.contacts, hg.built,
      hg.builtContact, hg.builtMeasured, ?_, ?_, fun tid c hc => hg.args tid c ?_, fun cid c hc => hg.contactArgs cid c ?_,
      fun w hw => ?_⟩
    · unfold releaseText
      rw [Program.run_append _ _ _ _ hsp]
      simp only [Program.run, hst0, hst1, hst2, Res.state?]
    · unfold releaseText
      rw [everyCall_append hsp]
      refine ⟨hg.orderly, ?_⟩
      simp only [EveryCall, hst0, hst1, hst2, Res.state?]
      exact ⟨trivial, ⟨trivial, trivial⟩, ⟨trivial, trivial⟩, trivial⟩
    · unfold releaseText at hc
      rw [taskCalls_append] at hc
      simpa [taskCalls] using hc
    · unfold releaseText at hc
      rw [Program.contactCalls_append] at hc
      simpa [contactCalls] using hc
    · unfold releaseText at hw
      rw [snapshots_append] at hw
      rcases List.mem_append.1 hw with hw | hw
      · exact hg.cycles w hw
      · rw [show w = w0 by simpa [snapshots] using hw]; exact hw0
  refine ⟨_, hg3, ?_⟩
  have U := underway hg3 L
  have hcalls : formCalls E S.start (releaseText pre w0 t0 x0 n dur []) =
      formCalls E S.start pre ++ [.compute (cycleOf E w0 t0 sp) t0, .decode x0, .removeRigidContact n dur] := by
    unfold releaseText
    rw [Program.formCalls_append _ _ _ sp hsp]
    simp only [formCalls, formCall, hst0, hst1, hst2, Res.state?, List.append_nil, List.cons_append, List.nil_append]
  obtain ⟨ht3, -⟩ := program_tidy hg3
  rw [hcalls] at ht3
  obtain ⟨z, k1, -, -, k4⟩ := tidy_append ht3
  have hz : z = sp.form := by
    have := k1.run.symm.trans ht.run
    simpa using this
  subst hz
  obtain ⟨-, -, L2, hL2, -⟩ := tidy_impl k1
  have hbr := hL2.breaking
  rw [ht0] at hbr
  have hit : (registrations E.ndebug W S.robot S.obj (fun tid => (S.task tid).assoc)
      (formCalls E S.start (releaseText pre w0 t0 x0 n dur []))).items = (registrations E.ndebug W S.robot S.obj
        (fun tid => (S.task tid).assoc) (formCalls E S.start pre)).items := by
    rw [hcalls, k4]
    generalize hr : registrations E.ndebug W S.robot S.obj (fun tid => (S.task tid).assoc) (formCalls E S.start pre) = r at hbr
    have hs : Formulation.step E.ndebug W sp.form (.compute (cycleOf E w0 t0 sp) t0) = .ok s0.form () := hform
    simp only [outcomes, hs, hf1, hf2, Res.state?, Res.threw, Registry.after, List.foldl_cons, List.foldl_nil]
    simp only [Registry.next, Registry.expire, ← hbr, List.map_nil, List.find?_nil, if_pos L.long]
    simp only [Bool.false_eq_true, if_false]
    split <;> rfl
  have hreg : ∀ t, t ≤ t0 + dur →
      (S.registry E W (releaseText pre w0 t0 x0 n dur []) t).items = (S.registry E W pre t0).items := by
    intro t ht'
    unfold Setup.registry
    have e1 : ∀ (r : Registry K) (t : K), r.breaking.find? (fun b => decide (b.1 < t)) = none →
        (r.expire (fun c => (S.obj c).name) t).items = r.items := by
      intro r t hr; unfold Registry.expire; rw [hr]
    rw [e1 _ t (by rw [U.breaking, List.find?_cons_of_neg (by simpa using ht'), List.find?_nil]),
      e1 _ t0 (by rw [← hbr]; rfl)]
    exact hit
  refine fun t ht' => ⟨hreg t ht', fun w hwq => ?_⟩
  have hta : ∀ tid, taskCalls tid (releaseText pre w0 t0 x0 n dur []) = taskCalls tid pre := by
    intro tid
    unfold releaseText
    rw [taskCalls_append]
    simp [taskCalls]
  refine ⟨hwq, L.cycle.classes, fun fam tid p k h => ?_, fun fam tid p k h => ?_⟩
  · rw [hreg t ht'] at h
    rw [hta]
    exact L.cycle.announced fam tid p k h
  · rw [hreg t ht'] at h ⊢
    rw [hta]
    exact L.cycle.supported fam tid p k h

namespace ArmDemo

/-- The arm lets go of its contact within 4 seconds. -/
theorem lets_go : ∃ sp b0, GoodProgram env world setup ops sp ∧ Intended env world setup ops snap 0 b0 ∧
    LetsGo env world setup ops snap 0 resting b0 "tip" 0 4 [] := by
  obtain ⟨m, f, hm, ha, hc⟩ := computes
  obtain ⟨l0, l1, h1, h2, h3⟩ := feasible hm ha
  obtain ⟨b, hb⟩ := C99_decodes good snapOk mayCycle hc h2
  refine ⟨_, b, good, (C99_exact_partial good snapOk mayCycle hc noRemoval upright viable equalities h1 h2 hb).1.1 h3,
    noRemoval, mayCycle, ?_, rfl, fun h => (by cases h), by norm_num, fun o ho => (by cases ho),
    ⟨_, _, good.run, hc, h2, hb⟩⟩
  unfold Setup.cids
  rw [items]
  exact List.mem_singleton.2 rfl

/-- The hypotheses of C100 can be met: the arm begins to let go, and every cycle until then returns. -/
example : ∃ b0 s3, GoodProgram env world setup (releaseText ops snap 0 resting "tip" 4 []) s3 ∧
    LetsGo env world setup ops snap 0 resting b0 "tip" 0 4 [] ∧
    ∀ t, 0 ≤ t → t ≤ 4 → ∃ s, Program.compute env snap t s3 = .ok s () := by
  obtain ⟨sp, b0, hg, hi, L⟩ := lets_go
  obtain ⟨s3, h3, hm⟩ := C100_starts hg snapOk L
  refine ⟨b0, s3, h3, L, fun t h1 h2 => ?_⟩
  have h2' : t ≤ 0 + 4 := by linarith
  exact C100_returns h3 L hi snapOk ((hm t h2').2 snap (le_refl 3)) h1 h2'

end ArmDemo

omit [LawfulSqrt K] in
/-- **C100, contacts between two frames.** For these contacts `getNormalForce` returns 0 and a force component lies between
the limits, which may be negative.  A gradual removal lowers the upper limit along the line from 0 to a thousandth above
the lower one, so it does not let the force fade: all three components are pushed to the lower limit. -/
theorem C100_two_frames {nd : Bool} {W : World} {s0 s1 s : State K} {n : String} {dur t : K} {c : ContactLevel}
    {cy : Cycle K} (hr : Reachable nd W s0) (hd : 0 < dur)
    (hc : s0.contacts.find? (fun c => (s0.contactObj c.cid).name == n) = some c)
    (hk : (s0.contactObj c.cid).kind = .twoFrames) (hf : c.index + 3 ≤ s0.f.size) (h0 : s0.trans = [])
    (h1 : removeRigidContact nd s0 n dur = .ok s1 true) (ht : t ≤ s0.t + dur)
    (h2 : computeProblemData nd cy t s1 = .ok s ()) {f : Nat → K} (hs : Sat (s.contactObj c.cid).forceIneq f) :
    ∀ i, i < 3 → (s0.contactObj c.cid).fMin ≤ f i ∧
      f i ≤ ramp 0 ((s0.contactObj c.cid).fMin + 1 / 1000) s0.t dur t := by
  obtain ⟨s1', r1, -, r2, -, r3⟩ := C14_break_begins (nd := nd) hd hc
  rw [h1] at r1
  cases r1
  have hb : breakForce s0 c = 0 := by
    unfold breakForce normalForce
    dsimp only
    rw [if_pos (by unfold Contact.nForce; rw [hk]; exact hf), hk]
  rw [h0, List.nil_append, hb] at r3
  obtain ⟨-, e⟩ := compute_ramp r3 ht h2
  dsimp only at e
  rw [e, Function.update_self, r2] at hs
  obtain ⟨robot, obj, assoc, ops, -, hbuilt, hrun⟩ := hr
  obtain ⟨p, hp⟩ := run_described ops _ _ (init_described hbuilt) hrun c.cid
  have hi : interpolate ⟨s0.t, s0.t + dur, 0, (s0.contactObj c.cid).fMin + 1 / 1000, c.cid⟩ t =
      ramp 0 ((s0.contactObj c.cid).fMin + 1 / 1000) s0.t dur t := by
    unfold interpolate ramp
    dsimp only
    rw [add_sub_cancel_left]
  rw [hi] at hs
  generalize ramp 0 ((s0.contactObj c.cid).fMin + 1 / 1000) s0.t dur t = m at hs
  have hkind : (s0.contactObj c.cid).forceIneq.kind = .inequality := by rw [hp.ineq]; cases (s0.contactObj c.cid).kind <;> rfl
  unfold Contact.withMax Contact.updateForceInequality at hs
  rw [hk] at hs
  unfold Sat at hs
  dsimp only at hs
  rw [hkind] at hs
  dsimp only at hs
  intro i hi'
  have e : row (Mat.identity 3) f i = f i := by
    unfold row
    show ∑ j ∈ range 3, (if i = j then (1 : K) else 0) * f j = f i
    rw [sum_eq_single i]
    · simp
    · intro j _ hj; simp [Ne.symm hj]
    · intro hh; exact absurd (mem_range.2 hi') hh
  have := hs i hi'
  rw [e] at this
  exact this

/-- For a contact with the limits -10 and 10 that carries no force when the removal begins: at the end every component is
below -9. -/
example : ∃ s0 s1 s : State ℚ, Reachable false Demo.world s0 ∧ removeRigidContact false s0 "left" 4 = .ok s1 true ∧
    computeProblemData false Demo.cycle 4 s1 = .ok s () ∧
    ∀ f : Nat → ℚ, Sat (s.contactObj 0).forceIneq f → ∀ i, i < 3 → f i < -9 := by
  obtain ⟨s0, -, hr, hp⟩ := Demo.afterRun_exists
    (ops := [.addRigidContact 0 1 1 0, .compute Demo.cycle 0, .decode (Vec.zero 11)])
    (p := fun s0 => match removeRigidContact false s0 "left" 4 with
      | .ok s1 true => (match computeProblemData false Demo.cycle 4 s1 with | .ok _ () => true | _ => false) &&
        decide ((s0.contacts.find? fun c => (s0.contactObj c.cid).name == "left").map
          (fun c => (c.cid, c.index)) = some (0, 0)) && decide ((s0.contactObj 0).kind = .twoFrames) &&
        decide (s0.f.size = 3 ∧ s0.trans.length = 0 ∧ s0.t = 0 ∧ (s0.contactObj 0).fMin = -10)
      | _ => false)
    (by decide +kernel)
  split at hp
  swap
  · cases hp
  next s1 h1 =>
  simp only [Bool.and_eq_true, decide_eq_true_eq] at hp
  obtain ⟨⟨⟨h2, h3⟩, h4⟩, h5, h6, h7, h8⟩ := hp
  split at h2
  swap
  · cases h2
  next s h2' =>
  obtain ⟨c, hc, hcc⟩ := Option.map_eq_some_iff.1 h3
  rw [Prod.mk.injEq] at hcc
  refine ⟨s0, s1, s, hr, h1, h2', fun f hf i hi => ?_⟩
  have := (C100_two_frames hr (by norm_num) hc (by rw [hcc.1]; exact h4) (by rw [hcc.2, h5]) (List.length_eq_zero_iff.1 h6) h1
    (by rw [h7]; norm_num) h2' (by rw [hcc.1]; exact hf) i hi).2
  rw [hcc.1, h7, h8] at this
  unfold ramp at this
  norm_num at this
  linarith

/-- The maximum normal force stays lowered: a contact (limits 1 and 10) that was let go gradually and is added again has
almost no room left, although its maximum was never set. -/
theorem C100_readded : ∃ s0 s : State ℚ, TidyRun false Demo.world Demo.robot Demo.contacts Demo.assoc
      [.addRigidContact 2 1 1 0, .compute Demo.cycle 0, .decode ⟨11, fun _ => 5⟩, .removeRigidContact "toe" 4,
        .compute Demo.cycle 4, .compute Demo.cycle 5, .addRigidContact 2 1 1 0] s0 ∧
    computeProblemData false Demo.cycle 6 s0 = .ok s () ∧ (Demo.contacts 2).fMax = 10 ∧
    s.contacts.map ContactLevel.cid = [2] ∧ (s.contactObj 2).fMax = 1 + 1 / 1000 := by
  obtain ⟨s0, s, h, hc, hp⟩ := Demo.tidyCycle_exists
    (ops := [.addRigidContact 2 1 1 0, .compute Demo.cycle 0, .decode ⟨11, fun _ => 5⟩, .removeRigidContact "toe" 4,
      .compute Demo.cycle 4, .compute Demo.cycle 5, .addRigidContact 2 1 1 0]) (cy := Demo.cycle) (t := 6)
    (p := fun _ s => decide (s.contacts.map ContactLevel.cid = [2]) && decide ((s.contactObj 2).fMax = 1 + 1 / 1000))
    (by decide +kernel)
  simp only [Bool.and_eq_true, decide_eq_true_eq] at hp
  exact ⟨s0, s, h, hc, rfl, hp.1, hp.2⟩

end Tsid.Props
