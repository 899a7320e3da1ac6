import Verif.Spec.Story
import Verif.Lemmas.Release
import Verif.Lemmas.History

/-!
# Limits of contact forces throughout any history
-/

set_option linter.unusedSectionVars false

namespace Tsid.Formulation

open Spec Finset

variable {K : Type} [Field K] [LinearOrder K] [FloorRing K] [HasSqrt K]

/-- The transition of a contact that is being let go. -/
def ofFading (p : Fading K) : Transition K := ⟨p.since, p.since + p.dur, p.top, p.goal, p.cid⟩

theorem interpolate_fading (p : Fading K) (t : K) : interpolate (ofFading p) t = p.limit t := by
  unfold interpolate ofFading Fading.limit ramp
  dsimp only
  rw [add_sub_cancel_left]

/-- The state is as the story tells. -/
structure Tells (s : State K) (st : Story K) : Prop where
  limits : ∀ c, ForceLimits.of (s.contactObj c) = st.limits c
  trans : s.trans = st.fading.map ofFading
  forces : s.f = st.forces
  unread : s.decoded = !st.unread

theorem limits_withMax (c : Contact K) (m : K) : ForceLimits.of (c.withMax m) = { ForceLimits.of c with fMax := m } := by
  unfold ForceLimits.of
  rw [(withMax_cone c m).1, (withMax_cone c m).2, Contact.withMax_fMin, Contact.withMax_fMax]

theorem fade_append (t : K) : ∀ (a b : List (Fading K)) (lim : Nat → ForceLimits K),
    fade t (a ++ b) lim = fade t b (fade t a lim)
  | [], _, _ => rfl
  | _ :: a, b, _ => fade_append t a b _

theorem fade_fMin (t : K) : ∀ (a : List (Fading K)) (lim : Nat → ForceLimits K) (c : Nat),
    (fade t a lim c).fMin = (lim c).fMin
  | [], _, _ => rfl
  | p :: a, lim, c => by
    rw [show fade t (p :: a) lim = fade t a _ from rfl, fade_fMin t a]
    by_cases e : c = p.cid
    · subst e; rw [Function.update_self]
    · rw [Function.update_of_ne e]

theorem fits_fade {kind : Nat → ContactKind} {t : K} (a : List (Fading K)) (lim : Nat → ForceLimits K) (p : Fading K) :
    p.fits kind (fade t a lim) t = p.fits kind lim t := by
  unfold Fading.fits; rw [fade_fMin]

theorem removeContactNow_decoded {nd : Bool} {s s' : State K} {n : String}
    (h : (removeContactNow nd s n).state? = some s') : s'.decoded = s.decoded := by
  unfold removeContactNow at h
  dsimp only at h
  split at h
  · cases h
  · split at h
    · cases h
    · split at h <;> (cases h; rfl)

theorem removeTask_decoded {nd : Bool} {W : World} {s s' : State K} {n : String}
    (h : (removeTask nd W s n).state? = some s') : s'.decoded = s.decoded := by
  unfold removeTask at h
  dsimp only at h
  split at h
  · cases h
  split at h
  · cases h
    split
    · split <;> rfl
    · rfl
  split at h
  · cases h; rfl
  split at h
  · cases h
    split
    · split <;> rfl
    · rfl
  · cases h; rfl

theorem addTask_decoded {W : World} {s s1 : State K} {tid p : Nat} {w : K} {id : Nat}
    (h : addTask W s tid w p = some (s1, id)) : s1.decoded = s.decoded := by
  unfold addTask at h
  dsimp only at h
  split at h
  · cases h
  · cases h; rfl

theorem step_decoded {nd : Bool} {W : World} {s s' : State K} {o : Op K} (hp : Plain o)
    (hs : (step nd W s o).state? = some s') : s'.decoded = s.decoded := by
  cases o with
  | addMotionTask tid w p dur =>
    simp only [step, void_state?, addMotionTask] at hs
    split at hs
    · split at hs
      · split at hs
        · cases hs
        · next h => cases hs; have := addTask_decoded (W := W) h; exact this
      · cases hs; rfl
    · cases hs; rfl
  | addForceTask tid w p dur =>
    simp only [step, void_state?, addForceTask] at hs
    split at hs
    · split at hs
      · split at hs
        · cases hs
        · next h => cases hs; have := addTask_decoded (W := W) h; exact this
      · cases hs; rfl
    · cases hs; rfl
  | addActuationTask tid w p dur =>
    simp only [step, void_state?, addActuationTask] at hs
    split at hs
    · split at hs
      · split at hs
        · cases hs
        · next h => cases hs; have := addTask_decoded (W := W) h; exact this
      · cases hs; rfl
    · cases hs; rfl
  | updateTaskWeight n w =>
    simp only [step, void_state?, updateTaskWeight] at hs
    split at hs <;> (cases hs; rfl)
  | addRigidContact cid wf wm p =>
    simp only [step, void_state?, addRigidContact] at hs
    split at hs
    · cases hs
    · split at hs
      · cases hs
      · split at hs
        · cases hs
        · cases hs; rfl
  | updateRigidContactWeights n wf wm =>
    simp only [step, void_state?, updateRigidContactWeights] at hs
    split at hs <;> (cases hs; rfl)
  | addMeasuredForce m =>
    simp only [step, void_state?, addMeasuredForce] at hs
    cases hs; rfl
  | removeMeasuredForce n =>
    simp only [step, void_state?, removeMeasuredForce] at hs
    split at hs <;> (cases hs; rfl)
  | removeTask n => exact removeTask_decoded (nd := nd) (by simpa [step, void_state?] using hs)
  | removeRigidContact n dur =>
    simp only [step, void_state?, removeRigidContact] at hs
    rw [if_neg hp] at hs
    exact removeContactNow_decoded hs
  | removeFromHqpData n => simp only [step] at hs; cases hs; rfl
  | resizeHqpData => simp only [step] at hs; cases hs; rfl
  | compute cy t => exact absurd hp id
  | decode x => exact absurd hp id
  | setContact cid u => exact absurd hp id
  | setAssociated tid n => exact absurd hp id

theorem fits_maxOk {kind : Nat → ContactKind} {o : Nat → Contact K} {lim : Nat → ForceLimits K} {t : K} {p : Fading K}
    (hk : ∀ c, (o c).kind = kind c) (hl : ∀ c, ForceLimits.of (o c) = lim c) :
    (o p.cid).MaxOk (p.limit t) ↔ p.fits kind lim t = true := by
  unfold Contact.MaxOk Fading.fits
  rw [decide_eq_true_iff, hk, ← hl]
  rfl

/-- The transitions of a cycle.  `on` are those before. -/
theorem runTransitions_story {nd : Bool} {kind : Nat → ContactKind} {lim0 : Nat → ForceLimits K} :
    ∀ (l on : List (Fading K)) (s : State K),
    (∀ c, (s.contactObj c).kind = kind c) → (∀ c, ForceLimits.of (s.contactObj c) = fade s.t on lim0 c) →
    s.trans = (on ++ l).map ofFading →
    let run := l.takeWhile fun p => p.lasts s.t && p.fits kind lim0 s.t
    match runTransitions nd (on.map ofFading) (l.map ofFading) s with
    | .ok s' _ => (∀ c, ForceLimits.of (s'.contactObj c) = fade s.t (on ++ run) lim0 c) ∧ s'.f = s.f ∧
        match l.drop run.length with
        | [] => s'.trans = s.trans
        | p :: ps => p.lasts s.t = false ∧ s'.trans = (on ++ run ++ ps).map ofFading
    | .throw s' => (∀ c, ForceLimits.of (s'.contactObj c) = fade s.t (on ++ run) lim0 c) ∧ s'.f = s.f ∧
        s'.decoded = s.decoded ∧ s'.trans = s.trans ∧ ∃ p ps, l.drop run.length = p :: ps ∧ p.lasts s.t = true
    | _ => True := by
  intro l
  induction l with
  | nil =>
    intro on s hk hl ht
    simp only [List.map_nil, runTransitions, List.takeWhile_nil, List.append_nil, List.length_nil, List.drop_nil]
    exact ⟨hl, trivial, trivial⟩
  | cons p ps ih =>
    intro on s hk hl ht run
    simp only [List.map_cons, runTransitions]
    by_cases hnd : nd = false ∧ ¬ (ofFading p).tStart ≤ s.t
    · rw [if_pos hnd]; trivial
    rw [if_neg hnd]
    have hfit : p.fits kind lim0 s.t = true ↔ (s.contactObj p.cid).MaxOk (p.limit s.t) := by
      rw [fits_maxOk hk hl, fits_fade]
    by_cases hla : s.t ≤ p.since + p.dur
    · rw [if_pos (show s.t ≤ (ofFading p).tEnd from hla), interpolate_fading]
      have hlast : p.lasts s.t = true := decide_eq_true hla
      by_cases hm : (s.contactObj p.cid).MaxOk (p.limit s.t)
      · rw [show (ofFading p).cid = p.cid from rfl, Contact.setMax_ok hm]
        dsimp only
        have hrun : run = p :: ps.takeWhile fun p => p.lasts s.t && p.fits kind lim0 s.t :=
          List.takeWhile_cons_of_pos (by rw [hlast, hfit.2 hm]; rfl)
        have := ih (on ++ [p]) { s with
          contactObj := Function.update s.contactObj p.cid ((s.contactObj p.cid).withMax (p.limit s.t)) } ?_ ?_ ?_
        · dsimp only at this
          rw [List.map_append] at this
          rw [hrun]
          simp only [List.append_assoc, List.cons_append, List.nil_append, List.length_cons, List.drop_succ_cons,
            List.map_cons, List.map_nil] at this ⊢
          exact this
        · intro c
          by_cases e : c = p.cid
          · subst e
            simp only [Function.update_self, Contact.withMax_kind]; exact hk _
          · simp only [Function.update_of_ne e]; exact hk _
        · intro c
          rw [fade_append]
          show _ = Function.update (fade s.t on lim0) p.cid _ c
          by_cases e : c = p.cid
          · subst e
            simp only [Function.update_self, limits_withMax, hl]
          · simp only [Function.update_of_ne e]; exact hl c
        · rw [List.append_assoc]; exact ht
      · rw [show (ofFading p).cid = p.cid from rfl, Contact.setMax_not hm]
        dsimp only
        have hrun : run = [] := List.takeWhile_cons_of_neg (by
          rw [hlast, Bool.true_and]; exact fun e => hm (hfit.1 e))
        rw [hrun, List.append_nil]
        exact ⟨hl, rfl, rfl, rfl, p, ps, rfl, hlast⟩
    · rw [if_neg (show ¬ s.t ≤ (ofFading p).tEnd from hla)]
      have hlast : p.lasts s.t = false := decide_eq_false hla
      have hrun : run = [] := List.takeWhile_cons_of_neg (by rw [hlast]; simp)
      rw [hrun, List.append_nil]
      cases hr : removeContactNow nd s (s.contactObj (ofFading p).cid).name with
      | ok s1 b =>
        dsimp only
        have hf := removeContactNow_frame (nd := nd) (s' := s1) (by rw [hr]; rfl)
        rw [hf.obj, hf.f]
        refine ⟨hl, rfl, hlast, ?_⟩
        rw [List.map_append]
      | throw s1 => exact absurd hr removeContactNow_not_throw
      | abort => trivial
      | ub => trivial

theorem assemble_decoded {cy : Cycle K} {s s' : State K} (h : assemble cy s = some s') : s'.decoded = false := by
  unfold assemble at h
  dsimp only at h
  split at h
  · cases h
  split at h
  · cases h
  split at h
  · cases h
  split at h
  · cases h
  split at h
  · cases h
  split at h
  · cases h
  cases h
  rfl

/-- A cycle. -/
theorem compute_story {nd : Bool} {cy : Cycle K} {t : K} {kind : Nat → ContactKind} {s s' : State K} {st : Story K}
    (hk : ∀ c, (s.contactObj c).kind = kind c) (h : Tells s st)
    (hs : (computeProblemData nd cy t s).state? = some s') : Tells s' (st.cycle kind t) := by
  have key := runTransitions_story (nd := nd) (kind := kind) (lim0 := st.limits) st.fading [] { s with t := t } hk h.limits
    h.trans
  dsimp only at key
  rw [List.nil_append] at key
  simp only [computeProblemData] at hs
  rw [← h.trans] at key
  rw [show ([] : List (Fading K)).map ofFading = [] from rfl] at key
  have hd := List.takeWhile_append_dropWhile (p := fun p : Fading K => p.lasts t && p.fits kind st.limits t) (l := st.fading)
  unfold Story.cycle
  dsimp only
  split at hs
  · next s1 u h1 =>
    rw [h1] at key
    obtain ⟨k1, k2, k3⟩ := key
    split at hs
    swap
    · cases hs
    next s2 h2 =>
    cases hs
    have hf := assemble_frame h2
    have hdec := assemble_decoded h2
    split at k3
    · next hdrop =>
      rw [hdrop]
      exact ⟨fun c => by rw [hf.obj]; exact k1 c, by rw [hf.trans, k3]; exact h.trans, by rw [hf.f, k2]; exact h.forces,
        by rw [hdec]; rfl⟩
    · next p ps hdrop =>
      rw [hdrop]
      dsimp only
      rw [k3.1]
      exact ⟨fun c => by rw [hf.obj]; exact k1 c, by rw [hf.trans]; exact k3.2, by rw [hf.f, k2]; exact h.forces,
        by rw [hdec]; rfl⟩
  · next s1 h1 =>
    rw [h1] at key
    obtain ⟨k1, k2, k3, k4, p, ps, k5, k6⟩ := key
    cases hs
    rw [k5]
    dsimp only
    rw [if_pos k6]
    exact ⟨k1, k4.trans h.trans, k2.trans h.forces, k3.trans h.unread⟩
  · cases hs
  · cases hs

theorem offset_congr {obj obj' : Nat → Contact K} (h : ∀ c, (obj' c).nForce = (obj c).nForce) : ∀ (l : List Nat) (c : Nat),
    offset obj' l c = offset obj l c
  | [], _ => rfl
  | a :: l, c => by simp only [offset, h, offset_congr h l]

/-- The normal force from which letting go begins. -/
theorem breakForce_story {W : World} {s : State K} {st : Story K} {r : Registry K} {L : List (LItem K)} {obj : Nat → Contact K}
    (hi : Inv W s) (hL : Impl W s r L) (hk : ∀ c, (s.contactObj c).kind = (obj c).kind) (h : Tells s st)
    {cl : ContactLevel} (hcl : cl ∈ s.contacts) :
    breakForce s cl = st.normalForce obj (r.items.filterMap Item.cid?) cl.cid := by
  obtain ⟨-, ho⟩ := tiled_offset _ _ _ _ hi.tiled (contact_cids_nodup hL.coh)
  have hc := contact_cids hL.coh
  rw [hL.items] at hc
  have hnf : ∀ c, (s.contactObj c).nForce = (obj c).nForce := fun c => by unfold Contact.nForce; rw [hk]
  have hidx : cl.index = offset obj (r.items.filterMap Item.cid?) cl.cid := by
    rw [ho cl hcl, Nat.zero_add, hc, offset_congr hnf]
  have hlim := h.limits cl.cid
  unfold breakForce Story.normalForce
  dsimp only
  rw [← hidx, ← h.forces, ← hlim, hnf]
  show (if cl.index + Contact.kindForce (obj cl.cid).kind ≤ s.f.size then _ else _) = _
  split
  · unfold Spec.normalForce
    rw [hk]
    cases hkk : (obj cl.cid).kind with
    | twoFrames => rw [if_pos rfl]
    | point =>
      rw [if_neg (by decide)]
      simp only [show nPoints .point = 1 from rfl, sum_range_succ, range_zero, sum_empty, zero_add]
      rfl
    | sixD =>
      rw [if_neg (by decide)]
      simp only [show nPoints .sixD = 4 from rfl, sum_range_succ, range_zero, sum_empty, zero_add]
      rfl
  · rfl

theorem find_registered {W : World} {s : State K} {r : Registry K} {L : List (LItem K)} {obj : Nat → Contact K}
    (hL : Impl W s r L) (hn : ∀ c, (s.contactObj c).name = (obj c).name) (n : String) :
    (r.items.filterMap Item.cid?).find? (fun c => (obj c).name == n) =
      (s.contacts.find? fun c => (s.contactObj c.cid).name == n).map ContactLevel.cid := by
  have hc := contact_cids hL.coh
  rw [hL.items] at hc
  rw [hc, List.find?_map]
  simp only [Function.comp_def, hn]

theorem break_begins {nd : Bool} {s : State K} {n : String} {dur : K} {c : ContactLevel} (hd : 0 < dur)
    (hc : s.contacts.find? (fun c => (s.contactObj c.cid).name == n) = some c) :
    removeRigidContact nd s n dur = .ok { s with
      trans := s.trans ++ [⟨s.t, s.t + dur, breakForce s c, (s.contactObj c.cid).fMin + 1 / 1000, c.cid⟩] } true := by
  unfold removeRigidContact
  rw [if_pos hd, hc]
  simp only
  have : (if c.index + (s.contactObj c.cid).nForce ≤ s.f.size then
      (s.contactObj c.cid).getNormalForce (s.f.segment c.index (s.contactObj c.cid).nForce)
      else some (s.contactObj c.cid).fMax) = some (breakForce s c) := by
    unfold breakForce
    simp only
    split
    · have e : (s.f.segment c.index (s.contactObj c.cid).nForce).size = (s.contactObj c.cid).nForce := rfl
      rw [getNormalForce_eq, if_pos (Or.inr e)]
      rfl
    · rfl
  rw [this]

/-- One call. -/
theorem step_story {nd : Bool} {W : World} {s s' : State K} {st : Story K} {r : Registry K} {L : List (LItem K)}
    {obj : Nat → Contact K} (hi : Inv W s) (hL : Impl W s r L) (hn : ∀ c, (s.contactObj c).name = (obj c).name)
    (hk : ∀ c, (s.contactObj c).kind = (obj c).kind) (h : Tells s st) (o : Op K)
    (hs : (step nd W s o).state? = some s') : Tells s' (st.next obj r o) := by
  have plain : Plain o → Tells s' st := fun hp =>
    ⟨fun c => by rw [(step_frame hp hs).obj]; exact h.limits c, by rw [(step_frame hp hs).trans]; exact h.trans,
      by rw [(step_frame hp hs).f]; exact h.forces, by rw [step_decoded hp hs]; exact h.unread⟩
  cases o with
  | removeRigidContact n dur =>
    by_cases hd : 0 < dur
    · simp only [Story.next]
      rw [if_pos hd, find_registered hL hn]
      cases hf : s.contacts.find? (fun c => (s.contactObj c.cid).name == n) with
      | none =>
        simp only [step, removeRigidContact, void_state?] at hs
        rw [if_pos hd, hf] at hs
        cases hs
        exact h
      | some cl =>
        simp only [step, void_state?] at hs
        rw [break_begins hd hf] at hs
        cases hs
        rw [breakForce_story hi hL hk h (List.mem_of_find?_eq_some hf)]
        refine ⟨h.limits, ?_, h.forces, h.unread⟩
        show s.trans ++ [_] = _
        simp only [Option.map_some, List.map_append, List.map_cons, List.map_nil, h.trans, ofFading, hL.time]
        rw [← h.limits cl.cid]
        rfl
    · simp only [Story.next]
      rw [if_neg hd]
      exact plain hd
  | compute cy t => exact compute_story hk h hs
  | decode x =>
    have hun := h.unread
    simp only [step, decodeSolution] at hs
    simp only [Story.next]
    cases hu : st.unread with
    | false =>
      rw [hu, Bool.not_false] at hun
      rw [if_pos hun] at hs
      cases hs
      exact h
    | true =>
      rw [hu] at hun
      rw [if_neg (by rw [hun]; decide)] at hs
      rw [if_pos rfl]
      split at hs
      · next s1 h1 =>
        split at h1
        · cases h1
          cases hs
          obtain ⟨hkk, -⟩ := tiled_offset _ _ _ _ hi.tiled (contact_cids_nodup hL.coh)
          have hc := contact_cids hL.coh
          rw [hL.items] at hc
          have hnf : ∀ c, (s.contactObj c).nForce = (obj c).nForce := fun c => by unfold Contact.nForce; rw [hk]
          have : s.k = nForces obj (r.items.filterMap Item.cid?) := by
            rw [hkk, Nat.zero_add, hc]; unfold nForces; simp only [hnf]
          exact ⟨h.limits, h.trans, by rw [← this], rfl⟩
        · cases h1
      · cases hs
  | setContact i u =>
    have key : ∀ c', (applySet (s.contactObj i) u).state? = some c' → ∀ c,
        ForceLimits.of (Function.update s.contactObj i c' c) =
          Function.update st.limits i ((st.limits i).after (obj i).kind u) c := by
      intro c' hc c
      by_cases e : c = i
      · subst e
        rw [Function.update_self, Function.update_self, (limits_set hc).2, hk, h.limits]
      · rw [Function.update_of_ne e, Function.update_of_ne e]; exact h.limits c
    simp only [step] at hs
    split at hs
    · next c _ h' => cases hs; exact ⟨key c (by rw [h']; rfl), h.trans, h.forces, h.unread⟩
    · next c h' => cases hs; exact ⟨key c (by rw [h']; rfl), h.trans, h.forces, h.unread⟩
    · cases hs
    · cases hs
  | setAssociated tid n => simp only [step] at hs; cases hs; exact ⟨h.limits, h.trans, h.forces, h.unread⟩
  | _ => exact plain trivial

/-- A history. -/
theorem run_story {nd : Bool} {W : World} {obj : Nat → Contact K} (hw : Hygienic W) :
    ∀ (ops : List (Op K)) (s s' : State K) (r : Registry K) (L : List (LItem K)) (st : Story K), Inv W s → Impl W s r L →
    (∀ c, (s.contactObj c).name = (obj c).name) → (∀ c, (s.contactObj c).kind = (obj c).kind) → Tells s st →
    Along nd W (Tidy W) s ops → run nd W s ops = some s' →
    Tells s' (st.after obj W r (outcomes nd W s ops)) := by
  intro ops
  induction ops with
  | nil =>
    intro s s' r L st _ _ _ _ h _ hr
    simp only [run, Option.some.injEq] at hr
    subst hr
    exact h
  | cons o os ih =>
    intro s s' r L st hi hL hn hk h hal hr
    simp only [run] at hr
    simp only [Along] at hal
    split at hr
    · next s1 hs =>
      rw [hs] at hal
      obtain ⟨n1, L1, p1, -⟩ := step_impl hw hi hL o hal.1 hs
      simp only [outcomes, hs, Story.after]
      have hnm : cnames s = fun c => (obj c).name := funext hn
      rw [hnm] at p1
      exact ih s1 s' _ L1 _ (step_keeps hi o hs).1 p1 (fun c => (congrFun n1.names c).trans (hn c))
        (fun c => (congrFun n1.kinds c).trans (hk c)) (step_story hi hL hn hk h o hs) hal.2 hr
    · cases hr

/-- An orderly history. -/
theorem tidy_story {nd : Bool} {W : World} {robot : Robot K} {obj : Nat → Contact K} {assoc : Nat → String}
    {ops : List (Op K)} {s : State K} (h : TidyRun nd W robot obj assoc ops s) :
    Tells s ((Story.begin obj).after obj W Registry.empty (outcomes nd W (init robot obj assoc) ops)) := by
  have hi0 := inv_init W robot h.motors obj (shaped_of_built h.built) assoc
  obtain ⟨i1, -⟩ := init_impl W robot obj assoc
  exact run_story h.hygienic ops _ s _ [] _ hi0 i1 (fun _ => rfl) (fun _ => rfl) ⟨fun _ => rfl, rfl, rfl, rfl⟩ h.tidy h.run

end Tsid.Formulation
