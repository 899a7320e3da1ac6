import Verif.Lemmas.Refinement

/-!
# The formulation refines the registry, over whole histories
-/

set_option linter.unusedSectionVars false

namespace Tsid.Formulation

open Spec

variable {K : Type} [Field K] [LinearOrder K] [HasSqrt K]

/-- State `s` implements the registrations `r`, the items being backed by the constraint objects in `L`. -/
structure Impl (W : World) (s : State K) (r : Registry K) (L : List (LItem K)) : Prop where
  coh : Coh W s L
  items : L.map Prod.fst = r.items
  measured : s.measured = r.measured
  time : s.t = r.time
  breaking : s.trans.map (fun tr => (tr.tEnd, tr.cid)) = r.breaking

/-- Names, classes and number of unactuated degrees of freedom are kept. -/
structure SameNames (s s' : State K) : Prop where
  names : cnames s' = cnames s
  kinds : ckinds s' = ckinds s
  nu : s'.nu = s.nu

theorem SameNames.refl (s : State K) : SameNames s s := ⟨rfl, rfl, rfl⟩

theorem SameNames.trans {s s' s'' : State K} (h : SameNames s s') (h' : SameNames s' s'') : SameNames s s'' :=
  ⟨h'.names.trans h.names, h'.kinds.trans h.kinds, h'.nu.trans h.nu⟩

theorem SameRest.names {s s' : State K} (h : SameRest s s') : SameNames s s' :=
  ⟨by unfold cnames; rw [h.obj], by unfold ckinds; rw [h.obj], h.nu⟩

theorem count_congr {W : World} {s s' : State K} {L : List (LItem K)} (hn : SameNames s s') (h1 : s'.nEq = s.nEq)
    (h2 : s'.nIn = s.nIn) {o : Int × Int} (h : Count o W s L) : Count o W s' L := by
  unfold Count at h ⊢
  rw [hn.kinds, hn.nu, h1, h2]
  exact h

theorem updateObj_names {s : State K} {cid : Nat} {c : Contact K} (h : (s.contactObj cid).SameId c) :
    SameNames s { s with contactObj := Function.update s.contactObj cid c } := by
  refine ⟨?_, ?_, rfl⟩
  · funext d
    show (Function.update s.contactObj cid c d).name = (s.contactObj d).name
    by_cases e : d = cid
    · subst e; rw [Function.update_self]; exact h.2
    · rw [Function.update_of_ne e]
  · funext d
    show (Function.update s.contactObj cid c d).kind = (s.contactObj d).kind
    by_cases e : d = cid
    · subst e; rw [Function.update_self]; exact h.1
    · rw [Function.update_of_ne e]

theorem removeContactNow_not_throw {nd : Bool} {s s' : State K} {n : String} :
    removeContactNow nd s n ≠ .throw s' := by
  unfold removeContactNow
  dsimp only
  intro h
  split at h
  · cases h
  · split at h
    · cases h
    · split at h <;> cases h

/-- What the loop over the pending transitions does to the registrations. -/
theorem runTransitions_coh {nd : Bool} {W : World} (hw : Hygienic W) {L : List (LItem K)} :
    ∀ (l pre : List (Transition K)) (s s' : State K), Inv W s → Coh W s L →
    (runTransitions nd pre l s).state? = some s' → s.trans = pre ++ l →
    SameNames s s' ∧ s'.measured = s.measured ∧ s'.t = s.t ∧
    ((∃ a, runTransitions nd pre l s = .throw a) → Coh W s' L ∧ s'.trans = s.trans ∧ (∀ o, Count o W s L → Count o W s' L)) ∧
    (runTransitions nd pre l s = .ok s' () →
      match l.find? (fun tr => decide (tr.tEnd < s.t)) with
      | none => Coh W s' L ∧ s'.trans = s.trans ∧ (∀ o, Count o W s L → Count o W s' L)
      | some tr =>
        Coh W s' (L.filter fun x => !x.1.isContact (cnames s) (cnames s tr.cid)) ∧
        s'.trans = pre ++ l.eraseP (fun tr => decide (tr.tEnd < s.t)) ∧
        (∀ o, Count o W s L → Count o W s' (L.filter fun x => !x.1.isContact (cnames s) (cnames s tr.cid)))) := by
  intro l
  induction l with
  | nil =>
    intro pre s s' hi hc hs ht
    simp only [runTransitions, Res.state?, Option.some.injEq] at hs
    subst hs
    refine ⟨SameNames.refl _, rfl, rfl, fun _ => ⟨hc, rfl, fun _ => id⟩, fun _ => ?_⟩
    exact ⟨hc, rfl, fun _ => id⟩
  | cons tr rest ih =>
    intro pre s s' hi hc hs ht
    unfold runTransitions at hs ⊢
    split at hs
    · simp [Res.state?] at hs
    next hnd =>
    rw [if_neg hnd]
    split at hs
    · next hle =>
      rw [if_pos hle]
      have hnot : (decide (tr.tEnd < s.t)) = false := by simpa using hle
      have hg := Contact.good_setMaxNormalForce (hi.pre.shaped tr.cid) (interpolate tr s.t)
      split at hs
      · next c' b hset =>
        rw [hset] at hg
        obtain ⟨g1, g2⟩ := hg c' rfl
        have hk := keeps_updateObj hi tr.cid c' g1 g2
        have hn := updateObj_names g2
        have hc1 : Coh W { s with contactObj := Function.update s.contactObj tr.cid c' } L :=
          coh_congr hc rfl rfl rfl rfl rfl rfl hn.names
        obtain ⟨i1, i2, i3, i4, i5⟩ := ih (pre ++ [tr]) _ s' hk.1 hc1 hs (by rw [ht]; simp)
        have hcnt : ∀ o, Count o W s L → Count o W { s with contactObj := Function.update s.contactObj tr.cid c' } L :=
          fun o => count_congr hn rfl rfl
        refine ⟨hn.trans i1, i2, i3, ?_, ?_⟩
        · intro hex
          obtain ⟨j1, j2, j3⟩ := i4 hex
          exact ⟨j1, j2, fun o h => j3 o (hcnt o h)⟩
        · intro hok
          have i5 := i5 hok
          simp only [List.find?_cons, hnot]
          rw [List.eraseP_cons_of_neg (by simp [hnot])]
          rw [hn.names] at i5
          revert i5
          show (match List.find? (fun tr => decide (tr.tEnd < s.t)) rest with
            | none => _ | some tr => _) → _
          cases List.find? (fun tr => decide (tr.tEnd < s.t)) rest with
          | none => rintro ⟨j1, j2, j3⟩; exact ⟨j1, j2, fun o h => j3 o (hcnt o h)⟩
          | some tr' =>
            rintro ⟨j1, j2, j3⟩
            exact ⟨j1, by rw [j2]; simp, fun o h => j3 o (hcnt o h)⟩
      · next c' hset =>
        simp only [Res.state?, Option.some.injEq] at hs
        subst hs
        refine ⟨SameNames.refl _, rfl, rfl, fun _ => ⟨hc, rfl, fun _ => id⟩, fun h => by cases h⟩
      · simp [Res.state?] at hs
      · simp [Res.state?] at hs
    · next hle =>
      rw [if_neg hle]
      have hyes : (decide (tr.tEnd < s.t)) = true := by simpa using hle
      split at hs
      · next s1 b hrem =>
        simp only [Res.state?, Option.some.injEq] at hs
        obtain ⟨r1, r2, r3, r4⟩ := removeContactNow_coh hw hi hc hrem
        subst hs
        refine ⟨⟨r3.names.names, r3.names.kinds, r3.nu⟩, r3.measured, r3.t, ?_, ?_⟩
        · rintro ⟨a, h⟩; cases h
        · intro _
          simp only [List.find?_cons, hyes]
          rw [List.eraseP_cons_of_pos (by simp [hyes])]
          exact ⟨coh_congr r1 rfl rfl rfl rfl rfl rfl rfl, rfl, r4⟩
      · next s1 hrem => exact absurd hrem removeContactNow_not_throw
      · simp [Res.state?] at hs
      · simp [Res.state?] at hs

theorem map_fst_filter {L : List (LItem K)} (q : Item K → Bool) :
    (L.filter fun x => q x.1).map Prod.fst = (L.map Prod.fst).filter q := by
  rw [List.filter_map]; rfl

theorem contact_find {W : World} {s : State K} {L : List (LItem K)} (hc : Coh W s L) (n : String) :
    (s.contacts.find? (fun c => (s.contactObj c.cid).name == n)).map ContactLevel.cid =
      ((L.map Prod.fst).filterMap Item.cid?).find? (fun c => cnames s c == n) := by
  have e : (L.map Prod.fst).filterMap Item.cid? = s.contacts.map ContactLevel.cid := by
    have h1 : s.contacts.map ContactLevel.cid = (s.contacts.map strip).map Prod.fst := by
      rw [List.map_map]; rfl
    rw [h1, hc.contacts, List.map_filterMap, List.filterMap_map]
    apply filterMap_congr_mem
    rintro ⟨it, a, b, c⟩ _
    cases it <;> rfl
  rw [e, List.find?_map]
  rfl

/-- Every call respecting the naming discipline acts on the registrations as specified. -/
theorem step_impl {nd : Bool} {W : World} {s s' : State K} {r : Registry K} {L : List (LItem K)} (hw : Hygienic W)
    (hi : Inv W s) (h : Impl W s r L) (o : Op K) (ht : Tidy W s o) (hs : (step nd W s o).state? = some s') :
    SameNames s s' ∧ ∃ L', Impl W s' (r.next W (cnames s) (step nd W s o).threw o) L' ∧
      (∀ c, Count c W s L → KeepsForceRows W s o → Count c W s' L') := by
  obtain ⟨hc, h1, h2, h3, h4⟩ := h
  have same : SameNames s s' → s'.hqp = s.hqp → s'.baseId = s.baseId → s'.motions = s.motions → s'.forces = s.forces →
      s'.acts = s.acts → s'.contacts = s.contacts → s'.measured = s.measured → s'.t = s.t → s'.trans = s.trans →
      s'.nEq = s.nEq → s'.nIn = s.nIn → Impl W s' r L ∧ (∀ c, Count c W s L → KeepsForceRows W s o → Count c W s' L) := by
    intro hn e1 e2 e3 e4 e5 e6 e7 e8 e9 e10 e11
    refine ⟨⟨coh_congr hc e1 e2 e3 e4 e5 (by rw [e6]) hn.names, h1, by rw [e7, h2], by rw [e8, h3], by rw [e9, h4]⟩,
      fun o hk _ => count_congr hn e10 e11 hk⟩
  have added : ∀ (fam : Family) (tid p : Nat) (w : K), AddedTask W s s' L fam tid p w →
      SameNames s s' ∧ ∃ L', Impl W s' { r with items := r.items ++ [.task fam tid p w] } L' ∧
        (∀ c, Count c W s L → KeepsForceRows W s o → Count c W s' L') := by
    intro fam tid p w ⟨a1, a2, a3⟩
    exact ⟨a2.names, _, ⟨a1, by simp [h1], by rw [a2.measured, h2], by rw [a2.t, h3], by rw [a2.trans, h4]⟩,
      fun o hk _ => a3 o hk⟩
  have rest : ∀ {L' : List (LItem K)} {items : List (Item K)}, SameRest s s' → Coh W s' L' →
      L'.map Prod.fst = items → Impl W s' { r with items := items } L' := by
    intro L' items a2 a1 e
    exact ⟨a1, e, by rw [a2.measured, h2], by rw [a2.t, h3], by rw [a2.trans, h4]⟩
  cases o with
  | addMotionTask tid w p dur =>
    simp only [step, void] at hs ⊢
    cases hr : addMotionTask W s tid w p dur with
    | ok s1 b =>
      rw [hr] at hs
      cases hs
      exact added _ _ _ _ (addMotionTask_coh hi hc ht hr).2
    | throw s1 =>
      rw [hr] at hs
      cases hs
      have : s' = s := by
        unfold addMotionTask at hr
        split at hr
        · split at hr
          · split at hr <;> cases hr
          · cases hr; rfl
        · cases hr; rfl
      subst this
      exact ⟨SameNames.refl _, L, ⟨hc, h1, h2, h3, h4⟩, fun o hk _ => hk⟩
    | abort => rw [hr] at hs; cases hs
    | ub => rw [hr] at hs; cases hs
  | addForceTask tid w p dur =>
    simp only [step, void] at hs ⊢
    cases hr : addForceTask W s tid w p dur with
    | ok s1 b =>
      rw [hr] at hs
      cases hs
      exact added _ _ _ _ (addForceTask_coh hi hc ht hr).2
    | throw s1 =>
      rw [hr] at hs
      cases hs
      have : s' = s := by
        unfold addForceTask at hr
        split at hr
        · split at hr
          · split at hr <;> cases hr
          · cases hr; rfl
        · cases hr; rfl
      subst this
      exact ⟨SameNames.refl _, L, ⟨hc, h1, h2, h3, h4⟩, fun o hk _ => hk⟩
    | abort => rw [hr] at hs; cases hs
    | ub => rw [hr] at hs; cases hs
  | addActuationTask tid w p dur =>
    simp only [step, void] at hs ⊢
    cases hr : addActuationTask W s tid w p dur with
    | ok s1 b =>
      rw [hr] at hs
      cases hs
      exact added _ _ _ _ (addActuationTask_coh hi hc ht hr).2
    | throw s1 =>
      rw [hr] at hs
      cases hs
      have : s' = s := by
        unfold addActuationTask at hr
        split at hr
        · split at hr
          · split at hr <;> cases hr
          · cases hr; rfl
        · cases hr; rfl
      subst this
      exact ⟨SameNames.refl _, L, ⟨hc, h1, h2, h3, h4⟩, fun o hk _ => hk⟩
    | abort => rw [hr] at hs; cases hs
    | ub => rw [hr] at hs; cases hs
  | updateTaskWeight n w =>
    simp only [step, void] at hs ⊢
    cases hr : updateTaskWeight s n w with
    | ok s1 b =>
      rw [hr] at hs
      cases hs
      obtain ⟨a1, a2, a3, a4⟩ := updateTaskWeight_coh hw hi hc hr
      refine ⟨a2.names, _, rest a2 a1 ?_, fun o hk _ => a4 o hk⟩
      rw [← h1, List.map_map, List.map_map]; rfl
    | throw s1 => unfold updateTaskWeight at hr; split at hr <;> cases hr
    | abort => rw [hr] at hs; cases hs
    | ub => rw [hr] at hs; cases hs
  | addRigidContact cid wf wm p =>
    simp only [step, void] at hs ⊢
    cases hr : addRigidContact s cid wf wm p with
    | ok s1 b =>
      rw [hr] at hs
      cases hs
      obtain ⟨-, a1, a2, a4⟩ := addRigidContact_coh hi hc ht hr
      exact ⟨a2.names, _, rest a2 a1 (by simp [h1]), fun o hk _ => a4 o hk⟩
    | throw s1 =>
      unfold addRigidContact at hr
      dsimp only at hr
      split at hr
      · cases hr
      · split at hr
        · cases hr
        · split at hr <;> cases hr
    | abort => rw [hr] at hs; cases hs
    | ub => rw [hr] at hs; cases hs
  | updateRigidContactWeights n wf wm =>
    simp only [step, void] at hs ⊢
    cases hr : updateRigidContactWeights s n wf wm with
    | ok s1 b =>
      rw [hr] at hs
      cases hs
      obtain ⟨a1, a2, a3, a4⟩ := updateRigidContactWeights_coh hw hi hc hr
      refine ⟨a2.names, _, rest a2 a1 ?_, fun o hk _ => a4 o hk⟩
      rw [← h1, List.map_map, List.map_map]; rfl
    | throw s1 => unfold updateRigidContactWeights at hr; split at hr <;> cases hr
    | abort => rw [hr] at hs; cases hs
    | ub => rw [hr] at hs; cases hs
  | addMeasuredForce m =>
    simp only [step, void, addMeasuredForce, Res.state?, Option.some.injEq] at hs
    subst hs
    exact ⟨⟨rfl, rfl, rfl⟩, L, ⟨coh_congr hc rfl rfl rfl rfl rfl rfl rfl, h1, by
      show s.measured ++ [m] = r.measured ++ [m]
      rw [h2], h3, h4⟩, fun o hk _ => hk⟩
  | removeMeasuredForce n =>
    simp only [step, void, removeMeasuredForce] at hs ⊢
    by_cases hany : (s.measured.any fun m => W.mfName m == n) = true
    · rw [if_pos hany] at hs
      simp only [Res.state?, Option.some.injEq] at hs
      subst hs
      exact ⟨⟨rfl, rfl, rfl⟩, L, ⟨coh_congr hc rfl rfl rfl rfl rfl rfl rfl, h1, by
        show List.eraseP _ s.measured = List.eraseP _ r.measured
        rw [h2], h3, h4⟩, fun o hk _ => hk⟩
    · rw [if_neg hany] at hs
      simp only [Res.state?, Option.some.injEq] at hs
      subst hs
      refine ⟨SameNames.refl _, L, ⟨hc, h1, ?_, h3, h4⟩, fun o hk _ => hk⟩
      show s.measured = List.eraseP _ r.measured
      rw [← h2, List.eraseP_of_forall_not]
      intro m hm hmn
      exact hany (List.any_eq_true.2 ⟨m, hm, hmn⟩)
  | removeTask n =>
    simp only [step, void] at hs ⊢
    cases hr : removeTask nd W s n with
    | ok s1 b =>
      rw [hr] at hs
      cases hs
      obtain ⟨a1, a2, a3, a4⟩ := removeTask_coh hw hi hc ht hr
      refine ⟨a3.names, _, rest a3 a1 ?_, fun o hk hf => a4 o hk ?_⟩
      · rw [map_fst_filter (fun it => !it.isTask W n), h1]
      · intro tl htl hn
        exact hf tl htl (by simpa [levelNamed] using hn)
    | throw s1 =>
      unfold removeTask at hr
      dsimp only at hr
      split at hr
      · cases hr
      · split at hr
        · cases hr
        · split at hr
          · cases hr
          · split at hr <;> cases hr
    | abort => rw [hr] at hs; cases hs
    | ub => rw [hr] at hs; cases hs
  | removeRigidContact n dur =>
    simp only [step, void, removeRigidContact] at hs ⊢
    by_cases hd : 0 < dur
    · rw [if_pos hd] at hs ⊢
      have hf := contact_find hc n
      rw [h1] at hf
      cases hfind : s.contacts.find? (fun c => (s.contactObj c.cid).name == n) with
      | none =>
        rw [hfind] at hs hf
        simp only [Option.map_none] at hf
        cases hs
        refine ⟨SameNames.refl _, L, ?_, fun o hk _ => hk⟩
        simp only [Res.threw, Registry.next, if_pos hd, ← hf, Bool.false_eq_true, if_false]
        exact ⟨hc, h1, h2, h3, h4⟩
      | some c =>
        rw [hfind] at hs hf
        simp only [Option.map_some] at hf
        dsimp only at hs ⊢
        generalize (if c.index + (s.contactObj c.cid).nForce ≤ s.f.size then
          (s.contactObj c.cid).getNormalForce (s.f.segment c.index (s.contactObj c.cid).nForce)
          else some (s.contactObj c.cid).fMax) = fs at hs ⊢
        cases fs with
        | none =>
          cases hs
          exact ⟨SameNames.refl _, L, ⟨hc, h1, h2, h3, h4⟩, fun o hk _ => hk⟩
        | some f0 =>
          cases hs
          refine ⟨⟨rfl, rfl, rfl⟩, L, ?_, fun o hk _ => hk⟩
          simp only [Res.threw, Registry.next, if_pos hd, ← hf, Bool.false_eq_true, if_false]
          refine ⟨coh_congr hc rfl rfl rfl rfl rfl rfl rfl, h1, h2, h3, ?_⟩
          simp [h4, h3]
    · rw [if_neg hd] at hs ⊢
      cases hr : removeContactNow nd s n with
      | ok s1 b =>
        rw [hr] at hs
        cases hs
        obtain ⟨a1, a2, a3, a4⟩ := removeContactNow_coh hw hi hc hr
        refine ⟨a3.names, _, ?_, fun o hk _ => a4 o hk⟩
        simp only [Res.threw, Registry.next, if_neg hd, Bool.false_eq_true, if_false, Registry.dropContact]
        exact rest a3 a1 (by rw [map_fst_filter (fun it => !it.isContact (cnames s) n), h1])
      | throw s1 => exact absurd hr removeContactNow_not_throw
      | abort => rw [hr] at hs; cases hs
      | ub => rw [hr] at hs; cases hs
  | removeFromHqpData n => exact absurd ht id
  | resizeHqpData =>
    simp only [step, Res.state?, Option.some.injEq] at hs
    subst hs
    have hn : SameNames s (resizeHqpData s) := ⟨rfl, rfl, rfl⟩
    exact ⟨hn, L, same hn rfl rfl rfl rfl rfl rfl rfl rfl rfl rfl rfl⟩
  | compute cy t =>
    have hi0 : Inv W { s with t := t } := (keeps_misc hi t s.measured s.trans s.decoded s.dv s.f s.tau).1
    have hc0 : Coh W { s with t := t } L := coh_congr hc rfl rfl rfl rfl rfl rfl rfl
    simp only [step, computeProblemData] at hs ⊢
    cases hr : runTransitions nd [] s.trans { s with t := t } with
    | ok s1 u =>
      rw [hr] at hs
      obtain ⟨n1, n2, n3, -, n5⟩ := runTransitions_coh hw s.trans [] _ s1 hi0 hc0 (by rw [hr]; rfl) rfl
      have n5 := n5 hr
      have hi1 := (runTransitions_keeps (nd := nd) _ _ _ s1 hi0 (by rw [hr]; rfl)).1
      dsimp only at hs ⊢
      cases ha : assemble cy s1 with
      | none => rw [ha] at hs; cases hs
      | some s2 =>
        rw [ha] at hs
        cases hs
        have he := (assemble_spec hi1.pre ha).eq
        have m1 : SameNames s1 s' := by
          refine ⟨?_, ?_, ?_⟩
          · unfold cnames; rw [he]
          · unfold ckinds; rw [he]
          · rw [he]
        have m2 : ∀ {L'}, Coh W s1 L' → Coh W s' L' := fun hL =>
          coh_congr hL (by rw [he]) (by rw [he]) (by rw [he]) (by rw [he]) (by rw [he]) (by rw [he]) m1.names
        have m3 : ∀ {o} {L'}, Count o W s1 L' → Count o W s' L' := fun hL =>
          count_congr m1 (by rw [he]) (by rw [he]) hL
        have n1' : SameNames s s' := SameNames.trans (s' := s1) ⟨n1.names, n1.kinds, n1.nu⟩ m1
        have hmeas : s'.measured = r.measured := by rw [he]; exact n2.trans h2
        have htime : s'.t = t := by rw [he]; exact n3
        have htr : s'.trans = s1.trans := by rw [he]
        refine ⟨n1', ?_⟩
        simp only [Res.threw, Registry.next, Registry.expire, Bool.false_eq_true, if_false]
        have hfb : r.breaking.find? (fun b => decide (b.1 < t)) =
            (s.trans.find? (fun tr => decide (tr.tEnd < t))).map (fun tr => (tr.tEnd, tr.cid)) := by
          rw [← h4, List.find?_map]; rfl
        have heb : r.breaking.eraseP (fun b => decide (b.1 < t)) =
            (s.trans.eraseP (fun tr => decide (tr.tEnd < t))).map (fun tr => (tr.tEnd, tr.cid)) := by
          rw [← h4, List.eraseP_map]; rfl
        rw [hfb]
        cases hfd : s.trans.find? (fun tr => decide (tr.tEnd < t)) with
        | none =>
          rw [hfd] at n5
          obtain ⟨p1, p2, p3⟩ := n5
          refine ⟨L, ⟨m2 p1, h1, hmeas, htime, ?_⟩, fun o hk _ => m3 (p3 o hk)⟩
          rw [htr, p2]; exact h4
        | some tr =>
          rw [hfd] at n5
          obtain ⟨p1, p2, p3⟩ := n5
          refine ⟨_, ⟨m2 p1, ?_, hmeas, htime, ?_⟩, fun o hk _ => m3 (p3 o hk)⟩
          · rw [map_fst_filter (fun it => !it.isContact _ _), h1]; rfl
          · rw [htr, p2, heb]; rfl
    | throw s1 =>
      rw [hr] at hs
      cases hs
      obtain ⟨n1, n2, n3, n4, -⟩ := runTransitions_coh hw s.trans [] _ s' hi0 hc0 (by rw [hr]; rfl) rfl
      obtain ⟨p1, p2, p3⟩ := n4 ⟨s', hr⟩
      refine ⟨⟨n1.names, n1.kinds, n1.nu⟩, L, ⟨p1, h1, n2.trans h2, n3, ?_⟩, fun o hk _ => p3 o hk⟩
      rw [p2]; exact h4
    | abort => rw [hr] at hs; cases hs
    | ub => rw [hr] at hs; cases hs
  | decode x =>
    simp only [step] at hs ⊢
    cases hd : decodeSolution s x with
    | none => rw [hd] at hs; cases hs
    | some s1 =>
      rw [hd] at hs
      cases hs
      unfold decodeSolution at hd
      split at hd
      · cases hd
        exact ⟨SameNames.refl _, L, ⟨hc, h1, h2, h3, h4⟩, fun o hk _ => hk⟩
      · split at hd
        · cases hd
          exact ⟨⟨rfl, rfl, rfl⟩, L, same ⟨rfl, rfl, rfl⟩ rfl rfl rfl rfl rfl rfl rfl rfl rfl rfl rfl⟩
        · cases hd
  | setContact cid u =>
    have hg := good_applySet (hi.pre.shaped cid) u
    simp only [step] at hs ⊢
    cases hr : applySet (s.contactObj cid) u with
    | ok c a =>
      rw [hr] at hs hg
      cases hs
      have hn := updateObj_names (hg c rfl).2
      exact ⟨hn, L, same hn rfl rfl rfl rfl rfl rfl rfl rfl rfl rfl rfl⟩
    | throw c =>
      rw [hr] at hs hg
      cases hs
      have hn := updateObj_names (hg c rfl).2
      exact ⟨hn, L, same hn rfl rfl rfl rfl rfl rfl rfl rfl rfl rfl rfl⟩
    | abort => rw [hr] at hs; cases hs
    | ub => rw [hr] at hs; cases hs
  | setAssociated tid n =>
    simp only [step, Res.state?, Option.some.injEq] at hs
    subst hs
    exact ⟨⟨rfl, rfl, rfl⟩, L, same ⟨rfl, rfl, rfl⟩ rfl rfl rfl rfl rfl rfl rfl rfl rfl rfl rfl⟩

/-! ## Histories -/

theorem run_impl {nd : Bool} {W : World} (hw : Hygienic W) : ∀ (ops : List (Op K)) (s s' : State K) (r : Registry K)
    (L : List (LItem K)), Inv W s → Impl W s r L → Along nd W (Tidy W) s ops → run nd W s ops = some s' →
    SameNames s s' ∧ ∃ L', Impl W s' (r.after W (cnames s) (outcomes nd W s ops)) L' ∧
      (∀ c, Count c W s L → Along nd W (KeepsForceRows W) s ops → Count c W s' L') := by
  intro ops
  induction ops with
  | nil =>
    intro s s' r L _ h _ hr
    simp only [run, Option.some.injEq] at hr
    subst hr
    exact ⟨SameNames.refl _, L, h, fun _ hk _ => hk⟩
  | cons o os ih =>
    intro s s' r L hi h hal hr
    simp only [run] at hr
    simp only [Along] at hal
    split at hr
    · next s1 hs =>
      rw [hs] at hal
      obtain ⟨n1, L1, p1, p2⟩ := step_impl hw hi h o hal.1 hs
      obtain ⟨n2, L2, q1, q2⟩ := ih s1 s' _ L1 (step_keeps hi o hs).1 p1 hal.2 hr
      refine ⟨n1.trans n2, L2, ?_, ?_⟩
      · simp only [outcomes, hs, Registry.after, List.foldl_cons]
        rw [← n1.names]
        rw [← n1.names] at q1
        exact q1
      · intro c hk hal'
        simp only [Along, hs] at hal'
        exact q2 c (p2 c hk hal'.1) hal'.2
    · cases hr

theorem shaped_of_built {obj : Nat → Contact K}
    (hobj : ∀ cid, ∃ name kind points normal mu fMin fMax,
      obj cid = Contact.new name kind points normal mu fMin fMax) (c : Nat) : (obj c).Shaped := by
  obtain ⟨name, kind, points, normal, mu, fMin, fMax, e⟩ := hobj c
  rw [e]
  exact Contact.shaped_new _ _ _ _ _ _ _

theorem init_impl (W : World) (robot : Robot K) (obj : Nat → Contact K) (assoc : Nat → String) :
    Impl W (init robot obj assoc) Registry.empty [] ∧ Count (0, 0) W (init robot obj assoc) [] := by
  refine ⟨⟨⟨rfl, rfl, rfl, rfl, rfl, by simp, by simp⟩, rfl, rfl, rfl, rfl⟩, ?_, ?_⟩
  · simp [init]
  · simp [init]

/-- A tidy history leads to a state that implements its registrations. -/
theorem tidy_impl {nd : Bool} {W : World} {robot : Robot K} {obj : Nat → Contact K} {assoc : Nat → String}
    {ops : List (Op K)} {s : State K} (h : TidyRun nd W robot obj assoc ops s) :
    Inv W s ∧ SameNames (init robot obj assoc) s ∧
    ∃ L, Impl W s (registrations nd W robot obj assoc ops) L ∧
      (Along nd W (KeepsForceRows W) (init robot obj assoc) ops → Count (0, 0) W s L) := by
  have hi0 := inv_init W robot h.motors obj (shaped_of_built h.built) assoc
  obtain ⟨i1, i2⟩ := init_impl W robot obj assoc
  obtain ⟨n, L, p1, p2⟩ := run_impl h.hygienic ops _ s _ [] hi0 i1 h.tidy h.run
  exact ⟨run_inv ops _ s hi0 h.run, n, L, p1, p2 _ i2⟩

/-- The lines of the problem of an item. -/
theorem ents_entries {W : World} {s : State K} {L : List (LItem K)} (hi : Inv W s) (hc : Coh W s L) {x : LItem K}
    (hx : x ∈ L) (lvl : Nat) (hlvl : lvl < 2) :
    (ents lvl x).map (fun e => (⟨e.1, (s.heap e.2).name, (s.heap e.2).kind, (s.heap e.2).mat.rows⟩ : Entry K)) =
      Item.entries W (cnames s) (ckinds s) lvl x.1 := by
  obtain ⟨it, a, b, c⟩ := x
  cases it with
  | task fam tid p w =>
    have hcell := mem_taskOf hi hc hx
    have hk : heapKind (W.task tid).kind = entryKind (W.task tid).kind := by
      cases (W.task tid).kind <;> rfl
    simp only [ents, Item.entries]
    split
    · simp only [List.map_cons, List.map_nil, List.cons.injEq, and_true, Entry.mk.injEq, true_and]
      exact ⟨hcell.name, hcell.kind.trans hk, hcell.rows⟩
    · rfl
  | contact cid p wm wf =>
    obtain ⟨cl, hcl, rfl, rfl, rfl, rfl⟩ := mem_contactOf hc hx
    have hcell := (hi.pre.contactCells cl hcl).1
    have e1 : (s.heap cl.motion).mat.rows = Contact.kindMotion (ckinds s cl.cid) := hcell.mRows
    have e2 : (s.heap cl.force).mat.rows = Contact.kindIneqRows (ckinds s cl.cid) := hcell.fRows
    have e3 : (s.heap cl.reg).mat.rows = Contact.kindRegRows (ckinds s cl.cid) := hcell.rRows
    have n1 : (s.heap cl.motion).name = cnames s cl.cid ++ "_motion_task" := hcell.mName
    have n2 : (s.heap cl.force).name = cnames s cl.cid ++ "_force_constraint" := hcell.fName
    have n3 : (s.heap cl.reg).name = cnames s cl.cid ++ "_force_reg_task" := hcell.rName
    have h01 : lvl = 0 ∨ lvl = 1 := by omega
    rcases h01 with rfl | rfl
    · by_cases hp : p = 0 <;>
        simp [ents, Item.entries, hp, e1, e2, n1, n2, hcell.mKind, hcell.fKind]
    · by_cases hp : p = 1 <;>
        simp [ents, Item.entries, hp, e1, e3, n1, n3, hcell.mKind, hcell.rKind]

/-- The problem held by the formulation is the one its registrations call for. -/
theorem entries_eq {W : World} {s : State K} {r : Registry K} {L : List (LItem K)} (hi : Inv W s)
    (h : Impl W s r L) : entries s = r.problem W (cnames s) (ckinds s) s.nu := by
  have lev : ∀ lvl, lvl < 2 → (L.flatMap (ents lvl)).map
      (fun e => (⟨e.1, (s.heap e.2).name, (s.heap e.2).kind, (s.heap e.2).mat.rows⟩ : Entry K)) =
      r.items.flatMap (Item.entries W (cnames s) (ckinds s) lvl) := by
    intro lvl hl
    rw [List.map_flatMap, ← h.items, List.flatMap_map]
    exact flatMap_congr_mem fun x hx => ents_entries hi h.coh hx lvl hl
  unfold entries Registry.problem
  rw [h.coh.hqp]
  simp only [List.map_cons, List.map_nil, lev 0 (by omega), lev 1 (by omega), hi.pre.baseName, hi.pre.baseKind,
    hi.pre.baseRows]

end Tsid.Formulation
