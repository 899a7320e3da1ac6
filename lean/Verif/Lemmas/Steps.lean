import Verif.Lemmas.Assemble
import Verif.Spec.Formulation

/-!
# Every call preserves the structural invariant
-/

set_option linter.unusedSectionVars false

namespace Tsid.Formulation

open Spec

open Finset

variable {K : Type} [Field K] [LinearOrder K] [HasSqrt K]

/-- The invariant, and cleanliness of the force tasks if they were clean before. -/
def Keeps (W : World) (s s' : State K) : Prop := Inv W s' ∧ (ForceClean s → ForceClean s')

theorem keeps_refl {W : World} {s : State K} (h : Inv W s) : Keeps W s s := ⟨h, id⟩

theorem Keeps.trans {W : World} {s s' s'' : State K} (h : Keeps W s s') (h' : Keeps W s' s'') :
    Keeps W s s'' := ⟨h'.1, fun hc => h'.2 (h.2 hc)⟩

/-! ## Initial state -/

theorem inv_init (W : World) (robot : Robot K) (hna : robot.na ≤ robot.nv) (obj : Nat → Contact K)
    (hobj : ∀ c, (obj c).Shaped) (assoc : Nat → String) : Inv W (init robot obj assoc) := by
  refine ⟨?_, ?_, rfl⟩
  · refine
      { len := rfl, nuLe := Nat.sub_le _ _, rnv := rfl
        rna := by show robot.na = robot.nv - (robot.nv - robot.na); omega
        idsLt := ?_
        noBound := fun id => by simp [init, Constraint.mkEq]
        eqVec := fun id _ => ⟨rfl, rfl⟩
        ineqVec := fun id h => by simp [init, Constraint.mkEq] at h
        nodup := by simp [refs, init, taskRefs]
        refsLt := by simp [refs, init, taskRefs]
        baseName := rfl, baseKind := rfl, baseRows := rfl
        motionCells := by simp [init], forceCells := by simp [init], actCells := by simp [init]
        contactCells := by simp [init], shaped := hobj }
    intro id hid
    simp [hqpIds, init] at hid
    subst hid
    simp [init]
  · refine
      { idsCols := ?_, baseCols := rfl, baseZero := fun _ _ _ => rfl, actZero := by simp [init]
        fZero := by simp [init], rZero := by simp [init], jcRows := rfl, jcCols := rfl
        jcZero := fun _ _ _ => rfl }
    intro id _
    rfl

theorem forceClean_init (robot : Robot K) (obj : Nat → Contact K) (assoc : Nat → String) :
    ForceClean (init robot obj assoc) := by
  intro tl htl; simp [init] at htl

/-! ## Changes of the HQP data that add no reference -/

theorem keeps_hqp {W : World} {s : State K} (h : Inv W s) (hqp : List (List (K × Nat)))
    (hl : hqp.length = 2) (hsub : ∀ id ∈ hqpIds hqp, id ∈ hqpIds s.hqp) :
    Keeps W s { s with hqp := hqp } := by
  refine ⟨⟨?_, ?_, h.tiled⟩, ?_⟩
  · exact { h.pre with
      len := hl
      idsLt := fun id hid => h.pre.idsLt id (hsub id hid)
      motionCells := fun tl htl => ⟨{ (h.pre.motionCells tl htl).1 with }, (h.pre.motionCells tl htl).2⟩
      forceCells := fun tl htl => ⟨{ (h.pre.forceCells tl htl).1 with }, (h.pre.forceCells tl htl).2⟩
      actCells := fun tl htl => { h.pre.actCells tl htl with }
      contactCells := fun cl hcl =>
        ⟨{ (h.pre.contactCells cl hcl).1 with }, (h.pre.contactCells cl hcl).2⟩ }
  · exact { h.sized with
      idsCols := fun id hid => h.sized.idsCols id (hsub id hid)
      actZero := fun tl htl hid => h.sized.actZero tl htl (hsub _ hid)
      fZero := fun cl hcl hid => h.sized.fZero cl hcl (hsub _ hid)
      rZero := fun cl hcl hid => h.sized.rZero cl hcl (hsub _ hid) }
  · intro hc tl htl hid
    exact hc tl htl (hsub _ hid)

omit [Field K] [LinearOrder K] [HasSqrt K] in
theorem hqpIds_eq (hqp : List (List (K × Nat))) : hqpIds hqp = (hqp.map (List.map Prod.snd)).flatten := by
  simp [hqpIds, List.map_flatten]

theorem setWeight_ids (heap : Nat → Constraint K) (name : String) (w : K) (l : List (K × Nat)) :
    (setWeight heap name w l).1.map Prod.snd = l.map Prod.snd := by
  induction l with
  | nil => rfl
  | cons e l ih =>
    unfold setWeight
    split
    · rfl
    · simp only [List.map_cons, ih]

theorem setWeightLevels_ids (heap : Nat → Constraint K) (name : String) (w : K) (l : List (List (K × Nat))) :
    (setWeightLevels heap name w l).1.map (List.map Prod.snd) = l.map (List.map Prod.snd) := by
  induction l with
  | nil => rfl
  | cons e l ih =>
    unfold setWeightLevels
    dsimp only
    split
    · simp only [List.map_cons, setWeight_ids]
    · simp only [List.map_cons, ih]

theorem scanLevel_ids (heap : Nat → Constraint K) (name : String) (wf wm : K) (l : List (K × Nat)) :
    ∀ rf mf, (scanLevel heap name wf wm l rf mf).out.map Prod.snd = l.map Prod.snd := by
  induction l with
  | nil => intros; rfl
  | cons e l ih =>
    intro rf mf
    unfold scanLevel
    repeat' split
    all_goals simp only [List.map_cons, ih]

theorem scanLevels_ids (heap : Nat → Constraint K) (name : String) (wf wm : K) (l : List (List (K × Nat))) :
    ∀ rf mf, (scanLevels heap name wf wm l rf mf).1.map (List.map Prod.snd) = l.map (List.map Prod.snd) := by
  induction l with
  | nil => intros; rfl
  | cons e l ih =>
    intro rf mf
    unfold scanLevels
    dsimp only
    split
    · simp only [List.map_cons, scanLevel_ids]
    · simp only [List.map_cons, scanLevel_ids, ih]

theorem keeps_ids {W : World} {s : State K} (h : Inv W s) (hqp : List (List (K × Nat)))
    (hids : hqp.map (List.map Prod.snd) = s.hqp.map (List.map Prod.snd)) :
    Keeps W s { s with hqp := hqp } := by
  apply keeps_hqp h
  · have := congrArg List.length hids
    simp only [List.length_map] at this
    rw [this]; exact h.pre.len
  · intro id hid
    rw [hqpIds_eq, hids, ← hqpIds_eq] at hid
    exact hid

theorem removeFromLevels_sublist (heap : Nat → Constraint K) (name : String) (l : List (List (K × Nat))) :
    (removeFromLevels heap name l).1.length = l.length ∧
    (removeFromLevels heap name l).1.flatten.Sublist l.flatten := by
  induction l with
  | nil => simp [removeFromLevels]
  | cons e l ih =>
    unfold removeFromLevels
    split
    · refine ⟨rfl, ?_⟩
      simp only [List.flatten_cons]
      exact (List.eraseP_sublist).append_right _
    · refine ⟨by simp [ih.1], ?_⟩
      simp only [List.flatten_cons]
      exact ih.2.append_left _

theorem removeFromHqpData_keeps {W : World} {s : State K} (h : Inv W s) (name : String) :
    Keeps W s (removeFromHqpData s name).1 := by
  unfold removeFromHqpData
  apply keeps_hqp h
  · rw [(removeFromLevels_sublist _ _ _).1]; exact h.pre.len
  · intro id hid
    unfold hqpIds at hid ⊢
    exact ((removeFromLevels_sublist s.heap name s.hqp).2.map Prod.snd).subset hid

/-! ## Removal of tasks -/

theorem sublist_refs {s s' : State K} (hb : s'.baseId = s.baseId)
    (hm : s'.motions.Sublist s.motions) (hf : s'.forces.Sublist s.forces) (ha : s'.acts.Sublist s.acts)
    (hc : s'.contacts.Sublist s.contacts) : (refs s').Sublist (refs s) := by
  unfold refs taskRefs
  rw [hb]
  apply List.Sublist.cons_cons
  exact (hm.map _).append ((hf.map _).append ((ha.map _).append (hc.flatMap _)))

/-- Dropping tasks (and changing the counters). -/
theorem keeps_drop {W : World} {s : State K} (h : Inv W s) (m f a : List TaskLevel) (e i : Int)
    (hm : m.Sublist s.motions) (hf : f.Sublist s.forces) (ha : a.Sublist s.acts) :
    Keeps W s { s with motions := m, forces := f, acts := a, nEq := e, nIn := i } := by
  have hr : (refs { s with motions := m, forces := f, acts := a, nEq := e, nIn := i }).Sublist (refs s) :=
    sublist_refs rfl hm hf ha (List.Sublist.refl _)
  refine ⟨⟨?_, ?_, h.tiled⟩, ?_⟩
  · exact { h.pre with
      nodup := hr.nodup h.pre.nodup
      refsLt := fun id hid => h.pre.refsLt id (hr.subset hid)
      motionCells := fun tl htl =>
        ⟨{ (h.pre.motionCells tl (hm.subset htl)).1 with }, (h.pre.motionCells tl (hm.subset htl)).2⟩
      forceCells := fun tl htl =>
        ⟨{ (h.pre.forceCells tl (hf.subset htl)).1 with }, (h.pre.forceCells tl (hf.subset htl)).2⟩
      actCells := fun tl htl => { h.pre.actCells tl (ha.subset htl) with }
      contactCells := fun cl hcl =>
        ⟨{ (h.pre.contactCells cl hcl).1 with }, (h.pre.contactCells cl hcl).2⟩ }
  · exact { h.sized with actZero := fun tl htl => h.sized.actZero tl (ha.subset htl) }
  · intro hc tl htl
    exact hc tl (hf.subset htl)

theorem removeTask_keeps {nd : Bool} {W : World} {s s' : State K} (h : Inv W s) (name : String)
    (hs : (removeTask nd W s name).state? = some s') : Keeps W s s' := by
  have h1 := removeFromHqpData_keeps h name
  unfold removeTask at hs
  dsimp only at hs
  generalize removeFromHqpData s name = r at h1 hs
  obtain ⟨s1, found⟩ := r
  simp only at h1 hs
  split at hs
  · simp [Res.state?] at hs
  · split at hs
    · next l hl =>
      simp only [Res.state?, Option.some.injEq] at hs
      subst hs
      refine h1.trans ?_
      split
      · split
        · exact keeps_drop h1.1 _ _ _ _ _ List.eraseP_sublist (List.Sublist.refl _) (List.Sublist.refl _)
        · exact keeps_drop h1.1 _ _ _ _ _ List.eraseP_sublist (List.Sublist.refl _) (List.Sublist.refl _)
      · exact keeps_drop h1.1 _ _ _ _ _ List.eraseP_sublist (List.Sublist.refl _) (List.Sublist.refl _)
    · split at hs
      · simp only [Res.state?, Option.some.injEq] at hs
        subst hs
        exact h1.trans
          (keeps_drop h1.1 _ _ _ _ _ (List.Sublist.refl _) List.eraseP_sublist (List.Sublist.refl _))
      · split at hs
        · simp only [Res.state?, Option.some.injEq] at hs
          subst hs
          refine h1.trans ?_
          split
          · split
            · exact keeps_drop h1.1 _ _ _ _ _ (List.Sublist.refl _) (List.Sublist.refl _) List.eraseP_sublist
            · exact keeps_drop h1.1 _ _ _ _ _ (List.Sublist.refl _) (List.Sublist.refl _) List.eraseP_sublist
          · exact keeps_drop h1.1 _ _ _ _ _ (List.Sublist.refl _) (List.Sublist.refl _) List.eraseP_sublist
        · simp only [Res.state?, Option.some.injEq] at hs
          subst hs
          exact h1

/-! ## Removal of contacts -/

theorem reindex_tiled (obj : Nat → Contact K) : ∀ (l : List ContactLevel) (k0 : Nat),
    Tiled obj k0 (reindex obj k0 l) (k0 + (l.map fun c => (obj c.cid).nForce).sum) := by
  intro l
  induction l with
  | nil => intro k0; simp [reindex, Tiled]
  | cons c cs ih =>
    intro k0
    simp only [reindex, Tiled, List.map_cons, List.sum_cons, true_and]
    rw [← Nat.add_assoc]
    exact ih _

theorem tiled_sum (obj : Nat → Contact K) : ∀ (l : List ContactLevel) (k0 k1 : Nat), Tiled obj k0 l k1 →
    k1 = k0 + (l.map fun c => (obj c.cid).nForce).sum := by
  intro l
  induction l with
  | nil => intro k0 k1 h; simp only [Tiled] at h; subst h; simp
  | cons c cs ih =>
    intro k0 k1 h
    simp only [Tiled] at h
    rw [ih _ _ h.2, List.map_cons, List.sum_cons, Nat.add_assoc]

theorem reindex_of_tiled (obj : Nat → Contact K) : ∀ (l : List ContactLevel) (k0 k1 : Nat), Tiled obj k0 l k1 →
    reindex obj k0 l = l := by
  intro l
  induction l with
  | nil => intro k0 k1 h; rfl
  | cons c cs ih =>
    intro k0 k1 h
    simp only [Tiled] at h
    simp only [reindex]
    rw [ih _ _ h.2, ← h.1]

theorem reindex_crefs (obj : Nat → Contact K) : ∀ (l : List ContactLevel) (k0 : Nat),
    (reindex obj k0 l).flatMap crefs = l.flatMap crefs := by
  intro l
  induction l with
  | nil => intro k0; rfl
  | cons c cs ih => intro k0; simp [reindex, ih, crefs]

theorem mem_reindex (obj : Nat → Contact K) : ∀ (l : List ContactLevel) (k0 : Nat) (c : ContactLevel),
    c ∈ reindex obj k0 l → ∃ d ∈ l, d.cid = c.cid ∧ d.motion = c.motion ∧ d.force = c.force ∧ d.reg = c.reg := by
  intro l
  induction l with
  | nil => intro k0 c h; simp [reindex] at h
  | cons a as ih =>
    intro k0 c h
    simp only [reindex, List.mem_cons] at h
    rcases h with rfl | h
    · exact ⟨a, by simp, rfl, rfl, rfl, rfl⟩
    · obtain ⟨d, hd, e⟩ := ih _ _ h
      exact ⟨d, by simp [hd], e⟩

/-- `Pre` for a smaller contact list and other counters. -/
theorem pre_contacts {W : World} {s : State K} (h : Pre W s) (cs : List ContactLevel) (k : Nat) (e i : Int)
    (hc : cs.Sublist s.contacts) : Pre W { s with contacts := cs, k := k, nEq := e, nIn := i } := by
  have hr : (refs { s with contacts := cs, k := k, nEq := e, nIn := i }).Sublist (refs s) :=
    sublist_refs rfl (List.Sublist.refl _) (List.Sublist.refl _) (List.Sublist.refl _) hc
  exact { h with
    nodup := hr.nodup h.nodup
    refsLt := fun id hid => h.refsLt id (hr.subset hid)
    motionCells := fun tl htl => ⟨{ (h.motionCells tl htl).1 with }, (h.motionCells tl htl).2⟩
    forceCells := fun tl htl => ⟨{ (h.forceCells tl htl).1 with }, (h.forceCells tl htl).2⟩
    actCells := fun tl htl => { h.actCells tl htl with }
    contactCells := fun cl hcl =>
      ⟨{ (h.contactCells cl (hc.subset hcl)).1 with }, (h.contactCells cl (hc.subset hcl)).2⟩ }

theorem pre_reindex {W : World} {s : State K} (h : Pre W s) (k0 : Nat) :
    Pre W { s with contacts := reindex s.contactObj k0 s.contacts } := by
  have hr : refs { s with contacts := reindex s.contactObj k0 s.contacts } = refs s := by
    simp [refs, reindex_crefs]
  exact { h with
    nodup := by rw [hr]; exact h.nodup
    refsLt := by rw [hr]; exact h.refsLt
    motionCells := fun tl htl => ⟨{ (h.motionCells tl htl).1 with }, (h.motionCells tl htl).2⟩
    forceCells := fun tl htl => ⟨{ (h.forceCells tl htl).1 with }, (h.forceCells tl htl).2⟩
    actCells := fun tl htl => { h.actCells tl htl with }
    contactCells := fun cl hcl => by
      obtain ⟨d, hd, e1, e2, e3, e4⟩ := mem_reindex _ _ _ _ hcl
      obtain ⟨c1, c2⟩ := h.contactCells d hd
      rw [e2] at c2
      refine ⟨⟨?_, ?_, ?_, ?_, ?_, ?_, ?_, ?_, ?_⟩, c2⟩
      · rw [← e1, ← e2]; exact c1.mName
      · rw [← e2]; exact c1.mKind
      · rw [← e1, ← e2]; exact c1.mRows
      · rw [← e1, ← e3]; exact c1.fName
      · rw [← e3]; exact c1.fKind
      · rw [← e1, ← e3]; exact c1.fRows
      · rw [← e1, ← e4]; exact c1.rName
      · rw [← e4]; exact c1.rKind
      · rw [← e1, ← e4]; exact c1.rRows }

theorem sum_eraseP (f : ContactLevel → Nat) (p : ContactLevel → Bool) : ∀ (l : List ContactLevel)
    (c : ContactLevel), l.find? p = some c → ((l.eraseP p).map f).sum + f c = (l.map f).sum := by
  intro l
  induction l with
  | nil => intro c h; simp at h
  | cons a as ih =>
    intro c h
    rw [List.find?_cons] at h
    cases hp : p a with
    | true =>
      rw [hp] at h
      cases h
      rw [List.eraseP_cons_of_pos hp]
      simp only [List.map_cons, List.sum_cons]
      omega
    | false =>
      rw [hp] at h
      rw [List.eraseP_cons_of_neg (by simp [hp])]
      simp only [List.map_cons, List.sum_cons]
      have := ih c h
      omega

/-- After a resize every force task is clean. -/
theorem forceClean_resize {W : World} {s : State K} (h : Pre W s) (cs : List ContactLevel) :
    ForceClean { resizeHqpData s with contacts := cs } := by
  intro tl _ hid i j _
  exact resize_zero h (Or.inl hid) i j

theorem removeContactNow_keeps {nd : Bool} {W : World} {s s' : State K} (h : Inv W s) (name : String)
    (hs : (removeContactNow nd s name).state? = some s') : Keeps W s s' := by
  have h1 := removeFromHqpData_keeps h (name ++ "_motion_task")
  have h2 := h1.trans (removeFromHqpData_keeps h1.1 (name ++ "_force_constraint"))
  have h3 := h2.trans (removeFromHqpData_keeps h2.1 (name ++ "_force_reg_task"))
  unfold removeContactNow at hs
  dsimp only at hs
  generalize hr3 : removeFromHqpData (removeFromHqpData (removeFromHqpData s (name ++ "_motion_task")).1
    (name ++ "_force_constraint")).1 (name ++ "_force_reg_task") = r3 at h3 hs
  obtain ⟨s3, f3⟩ := r3
  simp only at h3 hs
  split at hs
  · simp [Res.state?] at hs
  · split at hs
    · simp [Res.state?] at hs
    · split at hs
      · next c hc =>
        simp only [Res.state?, Option.some.injEq] at hs
        subst hs
        have hp := h3.1.pre
        have hp4 := pre_contacts hp (s3.contacts.eraseP fun c => (s3.contactObj c.cid).name == name)
          (s3.k - (s3.contactObj c.cid).nForce)
          (if decide (getTaskPriority s (name ++ "_motion_task") = some 0) = true
            then s3.nEq - (s3.heap c.motion).rows else s3.nEq)
          (s3.nIn - (s3.heap c.force).rows) List.eraseP_sublist
        have hk : s3.k - (s3.contactObj c.cid).nForce = 0 +
            ((s3.contacts.eraseP fun c => (s3.contactObj c.cid).name == name).map
              fun c => (s3.contactObj c.cid).nForce).sum := by
          have e1 := tiled_sum _ _ _ _ h3.1.tiled
          have e2 := sum_eraseP (fun c => (s3.contactObj c.cid).nForce) _ _ _ hc
          omega
        refine ⟨⟨?_, ?_, ?_⟩, ?_⟩
        · exact pre_reindex (resize_pre hp4) 0
        · exact resize_sized hp4 _
        · show Tiled s3.contactObj 0 (reindex s3.contactObj 0 _) (s3.k - (s3.contactObj c.cid).nForce)
          rw [hk]
          exact reindex_tiled _ _ _
        · intro _
          exact forceClean_resize hp4 _
      · simp only [Res.state?, Option.some.injEq] at hs
        subst hs
        rw [reindex_of_tiled _ _ _ _ h3.1.tiled]
        exact h3

/-! ## Contact objects -/

theorem forceBlock_congr {obj obj' : Nat → Contact K} (h : ∀ c, (obj c).SameId (obj' c))
    (cs : List ContactLevel) (k : Nat) (a : String) :
    forceBlock obj' cs k a = forceBlock obj cs k a := by
  unfold forceBlock
  have e1 : ∀ c, (obj' c).name = (obj c).name := fun c => (h c).2
  have e2 : ∀ c, (obj' c).nForce = (obj c).nForce := fun c => by
    unfold Contact.nForce; rw [(h c).1]
  simp only [e1, e2]

theorem tiled_congr {obj obj' : Nat → Contact K} (h : ∀ c, (obj c).SameId (obj' c)) :
    ∀ (cs : List ContactLevel) (k0 k1 : Nat), Tiled obj k0 cs k1 → Tiled obj' k0 cs k1 := by
  intro cs
  induction cs with
  | nil => intro k0 k1 h; exact h
  | cons c cs ih =>
    intro k0 k1 ht
    simp only [Tiled] at ht ⊢
    refine ⟨ht.1, ?_⟩
    have : (obj' c.cid).nForce = (obj c.cid).nForce := by unfold Contact.nForce; rw [(h c.cid).1]
    rw [this]
    exact ih _ _ ht.2

theorem keeps_obj {W : World} {s : State K} (h : Inv W s) (obj : Nat → Contact K)
    (hsh : ∀ c, (obj c).Shaped) (hid : ∀ c, (s.contactObj c).SameId (obj c)) :
    Keeps W s { s with contactObj := obj } := by
  have en : ∀ c, (obj c).nForce = (s.contactObj c).nForce := fun c => by
    unfold Contact.nForce; rw [(hid c).1]
  refine ⟨⟨?_, ?_, tiled_congr hid _ _ _ h.tiled⟩, ?_⟩
  · exact { h.pre with
      motionCells := fun tl htl => ⟨{ (h.pre.motionCells tl htl).1 with }, (h.pre.motionCells tl htl).2⟩
      forceCells := fun tl htl => ⟨{ (h.pre.forceCells tl htl).1 with }, (h.pre.forceCells tl htl).2⟩
      actCells := fun tl htl => { h.pre.actCells tl htl with }
      contactCells := fun cl hcl => by
        obtain ⟨c1, c2⟩ := h.pre.contactCells cl hcl
        refine ⟨⟨?_, c1.mKind, ?_, ?_, c1.fKind, ?_, ?_, c1.rKind, ?_⟩, c2⟩
        · exact c1.mName.trans (by rw [(hid _).2])
        · exact c1.mRows.trans (by unfold Contact.nMotion; rw [(hid _).1])
        · exact c1.fName.trans (by rw [(hid _).2])
        · exact c1.fRows.trans (by rw [(hid _).1])
        · exact c1.rName.trans (by rw [(hid _).2])
        · exact c1.rRows.trans (by rw [(hid _).1])
      shaped := hsh }
  · exact { h.sized with
      fZero := fun cl hcl hi => by
        show ZeroOutside _ _ (obj cl.cid).nForce
        rw [en]; exact h.sized.fZero cl hcl hi
      rZero := fun cl hcl hi => by
        show ZeroOutside _ _ (obj cl.cid).nForce
        rw [en]; exact h.sized.rZero cl hcl hi }
  · intro hc tl htl hi
    show ZeroOutside _ (s.nv + (forceBlock obj s.contacts s.k (s.assoc tl.tid)).1)
      (forceBlock obj s.contacts s.k (s.assoc tl.tid)).2
    rw [forceBlock_congr hid]
    exact hc tl htl hi

theorem keeps_updateObj {W : World} {s : State K} (h : Inv W s) (cid : Nat) (c : Contact K)
    (hsh : c.Shaped) (hid : (s.contactObj cid).SameId c) :
    Keeps W s { s with contactObj := Function.update s.contactObj cid c } := by
  apply keeps_obj h
  · intro d
    by_cases e : d = cid
    · subst e; rw [Function.update_self]; exact hsh
    · rw [Function.update_of_ne e]; exact h.pre.shaped d
  · intro d
    by_cases e : d = cid
    · subst e; rw [Function.update_self]; exact hid
    · rw [Function.update_of_ne e]; exact ⟨rfl, rfl⟩

/-- Fields that the invariant does not look at. -/
theorem keeps_misc {W : World} {s : State K} (h : Inv W s) (t : K) (ms : List Nat) (tr : List (Transition K))
    (d : Bool) (dv f tau : Vec K) :
    Keeps W s { s with t := t, measured := ms, trans := tr, decoded := d, dv := dv, f := f, tau := tau } := by
  refine ⟨⟨?_, { h.sized with }, h.tiled⟩, fun hc => hc⟩
  exact { h.pre with
    motionCells := fun tl htl => ⟨{ (h.pre.motionCells tl htl).1 with }, (h.pre.motionCells tl htl).2⟩
    forceCells := fun tl htl => ⟨{ (h.pre.forceCells tl htl).1 with }, (h.pre.forceCells tl htl).2⟩
    actCells := fun tl htl => { h.pre.actCells tl htl with }
    contactCells := fun cl hcl =>
      ⟨{ (h.pre.contactCells cl hcl).1 with }, (h.pre.contactCells cl hcl).2⟩ }

theorem keeps_trans {W : World} {s : State K} (h : Inv W s) (tr : List (Transition K)) :
    Keeps W s { s with trans := tr } := keeps_misc h s.t s.measured tr s.decoded s.dv s.f s.tau

/-! ## Transitions -/

theorem runTransitions_keeps {nd : Bool} {W : World} : ∀ (l pre : List (Transition K)) (s s' : State K),
    Inv W s → (runTransitions nd pre l s).state? = some s' → Keeps W s s' := by
  intro l
  induction l with
  | nil =>
    intro pre s s' h hs
    simp only [runTransitions, Res.state?, Option.some.injEq] at hs
    subst hs
    exact keeps_refl h
  | cons tr rest ih =>
    intro pre s s' h hs
    unfold runTransitions at hs
    split at hs
    · simp [Res.state?] at hs
    · split at hs
      · have hg := Contact.good_setMaxNormalForce (h.pre.shaped tr.cid) (interpolate tr s.t)
        split at hs
        · next c' b hc =>
          rw [hc] at hg
          obtain ⟨g1, g2⟩ := hg c' rfl
          have hk := keeps_updateObj h tr.cid c' g1 g2
          exact hk.trans (ih _ _ _ hk.1 hs)
        · simp only [Res.state?, Option.some.injEq] at hs
          subst hs; exact keeps_refl h
        · simp [Res.state?] at hs
        · simp [Res.state?] at hs
      · split at hs
        · next s1 b hc =>
          simp only [Res.state?, Option.some.injEq] at hs
          have hk := removeContactNow_keeps (nd := nd) h (s.contactObj tr.cid).name (s' := s1) (by rw [hc]; rfl)
          subst hs
          exact hk.trans (keeps_trans hk.1 _)
        · next s1 hc =>
          simp only [Res.state?, Option.some.injEq] at hs
          subst hs
          exact removeContactNow_keeps (nd := nd) h (s.contactObj tr.cid).name (by rw [hc]; rfl)
        · simp [Res.state?] at hs
        · simp [Res.state?] at hs

theorem computeProblemData_keeps {nd : Bool} {W : World} {cy : Cycle K} {t : K} {s s' : State K} (h : Inv W s)
    (hs : (computeProblemData nd cy t s).state? = some s') : Keeps W s s' := by
  have h0 : Keeps W s { s with t := t } := keeps_misc h t s.measured s.trans s.decoded s.dv s.f s.tau
  unfold computeProblemData at hs
  dsimp only at hs
  split at hs
  · next s1 u hc =>
    have h1 := h0.trans (runTransitions_keeps (nd := nd) _ _ _ s1 h0.1 (by rw [hc]; rfl))
    split at hs
    · next s2 ha =>
      simp only [Res.state?, Option.some.injEq] at hs
      subst hs
      exact h1.trans ⟨assemble_inv h1.1 ha, fun hf => assemble_forceClean h1.1.pre hf ha⟩
    · simp [Res.state?] at hs
  · next s1 hc =>
    simp only [Res.state?, Option.some.injEq] at hs
    subst hs
    exact h0.trans (runTransitions_keeps (nd := nd) _ _ _ s1 h0.1 (by rw [hc]; rfl))
  · simp [Res.state?] at hs
  · simp [Res.state?] at hs

/-! ## Additions -/

/-- A heap that agrees with the old one below `next`, with one more id in the HQP data, keeps everything. -/
theorem addTask_shape {W : World} {s : State K} {tid p : Nat} {w : K} {s1 : State K} {id : Nat}
    (ha : addTask W s tid w p = some (s1, id)) :
    id = s.next ∧ p < s.hqp.length ∧
    ∃ (hqp : List (List (K × Nat))) (e i : Int),
      pushLevel s.hqp p (w, s.next) = some hqp ∧
      s1 = { s with heap := Function.update s.heap s.next
                      (if (W.task tid).kind = .equality
                        then Constraint.mkEq (W.task tid).cname (W.task tid).rows (s.nv + s.k)
                        else Constraint.mkIneq (W.task tid).cname (W.task tid).rows (s.nv + s.k))
                    next := s.next + 1, hqp := hqp, nEq := e, nIn := i } := by
  unfold addTask at ha
  dsimp only at ha
  split at ha
  · cases ha
  next hqp2 hq =>
  obtain ⟨g1, g2⟩ := growLevels_push hq
  simp only [Option.some.injEq, Prod.mk.injEq] at ha
  obtain ⟨rfl, rfl⟩ := ha
  exact ⟨rfl, g1, hqp2, _, _, g2, rfl⟩

theorem newCell_facts (info : TaskInfo) (n : Nat) :
    let c : Constraint K := if info.kind = .equality then Constraint.mkEq info.cname info.rows n
      else Constraint.mkIneq info.cname info.rows n
    c.kind = heapKind info.kind ∧ c.name = info.cname ∧ c.mat = Mat.zero info.rows n ∧
    (c.kind = .equality → c.lb = Constraint.noVec ∧ c.ub = Constraint.noVec) ∧
    (c.kind = .inequality → c.vec = Constraint.noVec) := by
  intro c
  by_cases hk : info.kind = .equality
  · have hc : c = Constraint.mkEq info.cname info.rows n := if_pos hk
    rw [hc]
    refine ⟨?_, rfl, rfl, fun _ => ⟨rfl, rfl⟩, fun h => by simp [Constraint.mkEq] at h⟩
    rw [hk]; rfl
  · have hc : c = Constraint.mkIneq info.cname info.rows n := if_neg hk
    rw [hc]
    refine ⟨?_, rfl, rfl, fun h => by simp [Constraint.mkIneq] at h, fun _ => rfl⟩
    unfold heapKind
    cases hk' : info.kind <;> simp_all [Constraint.mkIneq]

/-- The state after one constraint `c` was pushed and the task lists were replaced. -/
abbrev withTask (s : State K) (c : Constraint K) (hqp : List (List (K × Nat))) (e i : Int)
    (m f a : List TaskLevel) : State K :=
  { s with heap := Function.update s.heap s.next c, next := s.next + 1, hqp := hqp,
           nEq := e, nIn := i, motions := m, forces := f, acts := a }

/-- Adding one constraint `c` with fresh id `s.next` and registering it in one of the three task lists. -/
theorem keeps_addTask {W : World} {s : State K} (h : Inv W s) (tid p : Nat) (w : K)
    (hqp : List (List (K × Nat))) (e i : Int) (hq : pushLevel s.hqp p (w, s.next) = some hqp)
    (c : Constraint K) (hc1 : c.kind = heapKind (W.task tid).kind) (hc2 : c.name = (W.task tid).cname)
    (hc3 : c.mat = Mat.zero (W.task tid).rows (s.nv + s.k))
    (hc4 : c.kind = .equality → c.lb = Constraint.noVec ∧ c.ub = Constraint.noVec)
    (hc5 : c.kind = .inequality → c.vec = Constraint.noVec)
    (m f a : List TaskLevel)
    (hl : (m = s.motions ++ [⟨tid, p, s.next⟩] ∧ f = s.forces ∧ a = s.acts) ∨
          (m = s.motions ∧ f = s.forces ++ [⟨tid, p, s.next⟩] ∧ a = s.acts) ∨
          (m = s.motions ∧ f = s.forces ∧ a = s.acts ++ [⟨tid, p, s.next⟩])) :
    Keeps W s (withTask s c hqp e i m f a) := by
  have hids := pushLevel_ids hq
  have hmem : ∀ id, id ∈ hqpIds hqp ↔ id = s.next ∨ id ∈ hqpIds s.hqp := by
    intro id
    rw [hids.mem_iff, List.mem_cons]
  have hne : ∀ id ∈ refs s, id ≠ s.next := fun id hid => Nat.ne_of_lt (h.pre.refsLt id hid)
  have hne' : ∀ id ∈ hqpIds s.hqp, id ≠ s.next := fun id hid => Nat.ne_of_lt (h.pre.idsLt id hid)
  have hperm : (refs (withTask s c hqp e i m f a)).Perm (s.next :: refs s) := by
    unfold refs taskRefs
    simp only
    refine List.Perm.trans ?_ (List.Perm.swap _ _ _)
    apply List.Perm.cons
    rcases hl with ⟨rfl, rfl, rfl⟩ | ⟨rfl, rfl, rfl⟩ | ⟨rfl, rfl, rfl⟩
    · simp only [List.map_append, List.map_cons, List.map_nil, List.append_assoc]
      exact List.perm_middle
    · simp only [List.map_append, List.map_cons, List.map_nil, List.append_assoc]
      refine List.Perm.trans ?_ List.perm_middle
      exact List.Perm.append_left _ List.perm_middle
    · simp only [List.map_append, List.map_cons, List.map_nil, List.append_assoc]
      refine List.Perm.trans ?_ List.perm_middle
      refine List.Perm.append_left _ ?_
      refine List.Perm.trans ?_ List.perm_middle
      exact List.Perm.append_left _ List.perm_middle
  have hbase : s.baseId ∈ refs s := by simp [refs]
  have up : ∀ id ∈ refs s, Function.update s.heap s.next c id = s.heap id :=
    fun id hid => Function.update_of_ne (hne id hid) _ _
  have up' : ∀ id ∈ hqpIds s.hqp, Function.update s.heap s.next c id = s.heap id :=
    fun id hid => Function.update_of_ne (hne' id hid) _ _
  have hnew : TaskCell W (withTask s c hqp e i m f a) ⟨tid, p, s.next⟩ := by
    constructor <;> simp only [Function.update_self]
    · exact hc2
    · exact hc1
    · rw [hc3]; rfl
  have hold : ∀ tl, tl.cref ∈ refs s → TaskCell W s tl →
      TaskCell W (withTask s c hqp e i m f a) tl := by
    intro tl hr ht
    constructor <;> simp only [up _ hr]
    · exact ht.name
    · exact ht.kind
    · exact ht.rows
  have rm : ∀ tl ∈ s.motions, tl.cref ∈ refs s := fun tl htl => by
    have : tl.cref ∈ taskRefs s.motions := List.mem_map_of_mem htl
    simp [refs, this]
  have rf : ∀ tl ∈ s.forces, tl.cref ∈ refs s := fun tl htl => by
    have : tl.cref ∈ taskRefs s.forces := List.mem_map_of_mem htl
    simp [refs, this]
  have ra : ∀ tl ∈ s.acts, tl.cref ∈ refs s := fun tl htl => by
    have : tl.cref ∈ taskRefs s.acts := List.mem_map_of_mem htl
    simp [refs, this]
  have rc : ∀ cl ∈ s.contacts, ∀ id ∈ crefs cl, id ∈ refs s := fun cl hcl id hid => by
    have : id ∈ s.contacts.flatMap crefs := List.mem_flatMap.2 ⟨cl, hcl, hid⟩
    simp only [refs, List.mem_cons, List.mem_append, this, or_true]
  have hm : ∀ tl ∈ m, tl ∈ s.motions ∨ tl = ⟨tid, p, s.next⟩ := by
    intro tl htl
    rcases hl with ⟨rfl, rfl, rfl⟩ | ⟨rfl, rfl, rfl⟩ | ⟨rfl, rfl, rfl⟩ <;> simp_all
  have hf : ∀ tl ∈ f, tl ∈ s.forces ∨ tl = ⟨tid, p, s.next⟩ := by
    intro tl htl
    rcases hl with ⟨rfl, rfl, rfl⟩ | ⟨rfl, rfl, rfl⟩ | ⟨rfl, rfl, rfl⟩ <;> simp_all
  have ha : ∀ tl ∈ a, tl ∈ s.acts ∨ tl = ⟨tid, p, s.next⟩ := by
    intro tl htl
    rcases hl with ⟨rfl, rfl, rfl⟩ | ⟨rfl, rfl, rfl⟩ | ⟨rfl, rfl, rfl⟩ <;> simp_all
  have cz : ∀ i j, (Function.update s.heap s.next c s.next).mat i j = 0 := by
    intro i j; rw [Function.update_self, hc3]; rfl
  refine ⟨⟨?_, ?_, h.tiled⟩, ?_⟩
  · refine { h.pre with
      len := (pushLevel_length hq).trans h.pre.len
      idsLt := ?_, noBound := ?_, eqVec := ?_, ineqVec := ?_
      nodup := ?_, refsLt := ?_, baseName := ?_, baseKind := ?_, baseRows := ?_
      motionCells := ?_, forceCells := ?_, actCells := ?_, contactCells := ?_ }
    · intro id hid
      show id < s.next + 1
      rcases (hmem id).1 hid with rfl | h'
      · omega
      · have := h.pre.idsLt id h'; omega
    · intro id
      show (Function.update s.heap s.next c id).kind ≠ _
      by_cases e' : id = s.next
      · subst e'; rw [Function.update_self, hc1]
        cases (W.task tid).kind <;> simp [heapKind]
      · rw [Function.update_of_ne e']; exact h.pre.noBound id
    · intro id
      show (Function.update s.heap s.next c id).kind = _ → (Function.update s.heap s.next c id).lb = _ ∧
        (Function.update s.heap s.next c id).ub = _
      by_cases e' : id = s.next
      · subst e'; rw [Function.update_self]; exact hc4
      · rw [Function.update_of_ne e']; exact h.pre.eqVec id
    · intro id
      show (Function.update s.heap s.next c id).kind = _ → (Function.update s.heap s.next c id).vec = _
      by_cases e' : id = s.next
      · subst e'; rw [Function.update_self]; exact hc5
      · rw [Function.update_of_ne e']; exact h.pre.ineqVec id
    · rw [hperm.nodup_iff, List.nodup_cons]
      exact ⟨fun hin => hne _ hin rfl, h.pre.nodup⟩
    · intro id hid
      rw [hperm.mem_iff, List.mem_cons] at hid
      show id < s.next + 1
      rcases hid with rfl | hid
      · omega
      · have := h.pre.refsLt id hid; omega
    · show (Function.update s.heap s.next c s.baseId).name = _
      rw [up _ hbase]; exact h.pre.baseName
    · show (Function.update s.heap s.next c s.baseId).kind = _
      rw [up _ hbase]; exact h.pre.baseKind
    · show (Function.update s.heap s.next c s.baseId).mat.rows = _
      rw [up _ hbase]; exact h.pre.baseRows
    · intro tl htl
      rcases hm tl htl with h' | rfl
      · obtain ⟨c1, c2⟩ := h.pre.motionCells tl h'
        refine ⟨hold tl (rm tl h') c1, ?_⟩
        show ZeroFrom (Function.update s.heap s.next c tl.cref).mat s.nv
        rw [up _ (rm tl h')]; exact c2
      · exact ⟨hnew, fun i j _ => cz i j⟩
    · intro tl htl
      rcases hf tl htl with h' | rfl
      · obtain ⟨c1, c2⟩ := h.pre.forceCells tl h'
        refine ⟨hold tl (rf tl h') c1, ?_⟩
        show ZeroBelow (Function.update s.heap s.next c tl.cref).mat s.nv
        rw [up _ (rf tl h')]; exact c2
      · exact ⟨hnew, fun i j _ => cz i j⟩
    · intro tl htl
      rcases ha tl htl with h' | rfl
      · exact hold tl (ra tl h') (h.pre.actCells tl h')
      · exact hnew
    · intro cl hcl
      obtain ⟨c1, c2⟩ := h.pre.contactCells cl hcl
      have r1 := rc cl hcl cl.motion (by simp [crefs])
      have r2 := rc cl hcl cl.force (by simp [crefs])
      have r3 := rc cl hcl cl.reg (by simp [crefs])
      refine ⟨?_, ?_⟩
      · constructor <;> simp only [up _ r1, up _ r2, up _ r3]
        · exact c1.mName
        · exact c1.mKind
        · exact c1.mRows
        · exact c1.fName
        · exact c1.fKind
        · exact c1.fRows
        · exact c1.rName
        · exact c1.rKind
        · exact c1.rRows
      · show ZeroFrom (Function.update s.heap s.next c cl.motion).mat s.nv
        rw [up _ r1]; exact c2
  · refine { h.sized with
      idsCols := ?_, baseCols := ?_, baseZero := ?_, actZero := ?_, fZero := ?_, rZero := ?_ }
    · intro id hid
      show (Function.update s.heap s.next c id).mat.cols = s.nv + s.k
      rcases (hmem id).1 hid with rfl | h'
      · rw [Function.update_self, hc3]; rfl
      · rw [up' _ h']; exact h.sized.idsCols id h'
    · show (Function.update s.heap s.next c s.baseId).mat.cols = s.nv + s.k
      rw [up _ hbase]; exact h.sized.baseCols
    · show ZeroFrom (Function.update s.heap s.next c s.baseId).mat (s.nv + s.k)
      rw [up _ hbase]; exact h.sized.baseZero
    · intro tl htl hid
      show ZeroFrom (Function.update s.heap s.next c tl.cref).mat (s.nv + s.k)
      rcases ha tl htl with h' | rfl
      · rcases (hmem _).1 hid with he | hid
        · exact absurd he (hne _ (ra tl h'))
        · rw [up' _ hid]; exact h.sized.actZero tl h' hid
      · exact fun i j _ => cz i j
    · intro cl hcl hid
      have r2 := rc cl hcl cl.force (by simp [crefs])
      show ZeroOutside (Function.update s.heap s.next c cl.force).mat (s.nv + cl.index)
        (s.contactObj cl.cid).nForce
      rcases (hmem _).1 hid with he | hid
      · exact absurd he (hne _ r2)
      · rw [up' _ hid]; exact h.sized.fZero cl hcl hid
    · intro cl hcl hid
      have r2 := rc cl hcl cl.reg (by simp [crefs])
      show ZeroOutside (Function.update s.heap s.next c cl.reg).mat (s.nv + cl.index)
        (s.contactObj cl.cid).nForce
      rcases (hmem _).1 hid with he | hid
      · exact absurd he (hne _ r2)
      · rw [up' _ hid]; exact h.sized.rZero cl hcl hid
  · intro hcl tl htl hid
    show ZeroOutside (Function.update s.heap s.next c tl.cref).mat
      (s.nv + (forceBlock s.contactObj s.contacts s.k (s.assoc tl.tid)).1)
      (forceBlock s.contactObj s.contacts s.k (s.assoc tl.tid)).2
    rcases hf tl htl with h' | rfl
    · rcases (hmem _).1 hid with he | hid
      · exact absurd he (hne _ (rf tl h'))
      · rw [up' _ hid]; exact hcl tl h' hid
    · exact fun i j _ => cz i j

theorem addMotionTask_keeps {W : World} {s s' : State K} (h : Inv W s) {tid p : Nat} {w dur : K}
    (hs : (addMotionTask W s tid w p dur).state? = some s') : Keeps W s s' := by
  unfold addMotionTask at hs
  split at hs
  · split at hs
    · split at hs
      · simp [Res.state?] at hs
      · next s1 id ha =>
        simp only [Res.state?, Option.some.injEq] at hs
        subst hs
        obtain ⟨rfl, hp, hqp, e, i, hq, rfl⟩ := addTask_shape ha
        obtain ⟨c1, c2, c3, c4, c5⟩ := newCell_facts (K := K) (W.task tid) (s.nv + s.k)
        exact keeps_addTask h tid p w hqp e i hq _ c1 c2 c3 c4 c5 _ _ _ (Or.inl ⟨rfl, rfl, rfl⟩)
    · simp only [Res.state?, Option.some.injEq] at hs
      subst hs; exact keeps_refl h
  · simp only [Res.state?, Option.some.injEq] at hs
    subst hs; exact keeps_refl h

theorem addForceTask_keeps {W : World} {s s' : State K} (h : Inv W s) {tid p : Nat} {w dur : K}
    (hs : (addForceTask W s tid w p dur).state? = some s') : Keeps W s s' := by
  unfold addForceTask at hs
  split at hs
  · split at hs
    · split at hs
      · simp [Res.state?] at hs
      · next s1 id ha =>
        simp only [Res.state?, Option.some.injEq] at hs
        subst hs
        obtain ⟨rfl, hp, hqp, e, i, hq, rfl⟩ := addTask_shape ha
        obtain ⟨c1, c2, c3, c4, c5⟩ := newCell_facts (K := K) (W.task tid) (s.nv + s.k)
        exact keeps_addTask h tid p w hqp e i hq _ c1 c2 c3 c4 c5 _ _ _ (Or.inr (Or.inl ⟨rfl, rfl, rfl⟩))
    · simp only [Res.state?, Option.some.injEq] at hs
      subst hs; exact keeps_refl h
  · simp only [Res.state?, Option.some.injEq] at hs
    subst hs; exact keeps_refl h

theorem addActuationTask_keeps {W : World} {s s' : State K} (h : Inv W s) {tid p : Nat} {w dur : K}
    (hs : (addActuationTask W s tid w p dur).state? = some s') : Keeps W s s' := by
  unfold addActuationTask at hs
  split at hs
  · split at hs
    · split at hs
      · simp [Res.state?] at hs
      · next s1 id ha =>
        simp only [Res.state?, Option.some.injEq] at hs
        subst hs
        obtain ⟨rfl, hp, hqp, e, i, hq, rfl⟩ := addTask_shape ha
        obtain ⟨c1, c2, c3, c4, c5⟩ := newCell_facts (K := K) (W.task tid) (s.nv + s.k)
        exact keeps_addTask h tid p w hqp e i hq _ c1 c2 c3 c4 c5 _ _ _ (Or.inr (Or.inr ⟨rfl, rfl, rfl⟩))
    · simp only [Res.state?, Option.some.injEq] at hs
      subst hs; exact keeps_refl h
  · simp only [Res.state?, Option.some.injEq] at hs
    subst hs; exact keeps_refl h

theorem tiled_append (obj : Nat → Contact K) (c : ContactLevel) : ∀ (l : List ContactLevel) (k0 k1 : Nat),
    Tiled obj k0 l k1 → c.index = k1 → Tiled obj k0 (l ++ [c]) (k1 + (obj c.cid).nForce) := by
  intro l
  induction l with
  | nil => intro k0 k1 h hc; simp only [Tiled] at h; subst h; simp [Tiled, hc]
  | cons a as ih =>
    intro k0 k1 h hc
    simp only [Tiled, List.cons_append] at h ⊢
    exact ⟨h.1, ih _ _ h.2 hc⟩

theorem addRigidContact_keeps {W : World} {s s' : State K} (h : Inv W s) {cid p : Nat} {wf wm : K}
    (hs : (addRigidContact s cid wf wm p).state? = some s') : Keeps W s s' := by
  unfold addRigidContact at hs
  dsimp only at hs
  have hp1 : Pre W { s with k := s.k + (s.contactObj cid).nForce } :=
    pre_contacts h.pre s.contacts _ s.nEq s.nIn (List.Sublist.refl _)
  have hp := resize_pre hp1
  have hz := resize_sized hp1 s.contacts
  have hz0 : ∀ id ∈ hqpIds s.hqp, ∀ i j,
      ((resizeHqpData { s with k := s.k + (s.contactObj cid).nForce }).heap id).mat i j = 0 :=
    fun id hid i j => resize_zero hp1 (Or.inl hid) i j
  generalize hs1 : resizeHqpData { s with k := s.k + (s.contactObj cid).nForce } = s1 at hs hp hz hz0
  have e_hqp : s1.hqp = s.hqp := by rw [← hs1]; rfl
  have e_k : s1.k = s.k + (s.contactObj cid).nForce := by rw [← hs1]; rfl
  have e_o : s1.contactObj = s.contactObj := by rw [← hs1]; rfl
  have e_c : s1.contacts = s.contacts := by rw [← hs1]; rfl
  have e_f : s1.forces = s.forces := by rw [← hs1]; rfl
  have hz : Sized s1 := by rw [← e_c] at hz; exact hz
  rw [← e_hqp] at hz0
  split at hs
  · simp [Res.state?] at hs
  next hqp1 hq1 =>
  split at hs
  · simp [Res.state?] at hs
  next hqp2 hq2 =>
  split at hs
  · simp [Res.state?] at hs
  next hqp3 hq3 =>
  simp only [Res.state?, Option.some.injEq] at hs
  subst hs
  have hmem : ∀ id, id ∈ hqpIds hqp3 ↔
      id = s1.next + 2 ∨ id = s1.next + 1 ∨ id = s1.next ∨ id ∈ hqpIds s1.hqp := by
    intro id
    rw [(pushLevel_ids hq3).mem_iff, List.mem_cons, (pushLevel_ids hq2).mem_iff, List.mem_cons,
      (pushLevel_ids hq1).mem_iff, List.mem_cons]
  have hlt : ∀ id ∈ refs s1, id < s1.next := hp.refsLt
  have hlt' : ∀ id ∈ hqpIds s1.hqp, id < s1.next := hp.idsLt
  generalize hheap : Function.update (Function.update (Function.update s1.heap
    s1.next (Constraint.mkEq ((s.contactObj cid).name ++ "_motion_task") (s.contactObj cid).nMotion
      (s1.nv + s1.k)))
    (s1.next + 1) (Constraint.mkIneq ((s.contactObj cid).name ++ "_force_constraint")
      (s.contactObj cid).forceIneq.rows (s1.nv + s1.k)))
    (s1.next + 2) (Constraint.mkEq ((s.contactObj cid).name ++ "_force_reg_task")
      (s.contactObj cid).forceReg.rows (s1.nv + s1.k)) = heap
  have n1 : heap s1.next = Constraint.mkEq ((s.contactObj cid).name ++ "_motion_task")
      (s.contactObj cid).nMotion (s1.nv + s1.k) := by
    rw [← hheap, Function.update_of_ne (by omega), Function.update_of_ne (by omega), Function.update_self]
  have n2 : heap (s1.next + 1) = Constraint.mkIneq ((s.contactObj cid).name ++ "_force_constraint")
      (s.contactObj cid).forceIneq.rows (s1.nv + s1.k) := by
    rw [← hheap, Function.update_of_ne (by omega), Function.update_self]
  have n3 : heap (s1.next + 2) = Constraint.mkEq ((s.contactObj cid).name ++ "_force_reg_task")
      (s.contactObj cid).forceReg.rows (s1.nv + s1.k) := by
    rw [← hheap, Function.update_self]
  have old : ∀ id, id ≠ s1.next → id ≠ s1.next + 1 → id ≠ s1.next + 2 → heap id = s1.heap id := by
    intro id h1 h2 h3
    rw [← hheap, Function.update_of_ne h3, Function.update_of_ne h2, Function.update_of_ne h1]
  have oldLt : ∀ id, id < s1.next → heap id = s1.heap id := by
    intro id hid
    exact old id (by omega) (by omega) (by omega)
  have any : ∀ (P : Constraint K → Prop), (∀ id, P (s1.heap id)) →
      P (Constraint.mkEq ((s.contactObj cid).name ++ "_motion_task") (s.contactObj cid).nMotion (s1.nv + s1.k)) →
      P (Constraint.mkIneq ((s.contactObj cid).name ++ "_force_constraint")
        (s.contactObj cid).forceIneq.rows (s1.nv + s1.k)) →
      P (Constraint.mkEq ((s.contactObj cid).name ++ "_force_reg_task") (s.contactObj cid).forceReg.rows
        (s1.nv + s1.k)) → ∀ id, P (heap id) := by
    intro P h0 h1 h2 h3 id
    by_cases e1 : id = s1.next
    · rw [e1, n1]; exact h1
    by_cases e2 : id = s1.next + 1
    · rw [e2, n2]; exact h2
    by_cases e3 : id = s1.next + 2
    · rw [e3, n3]; exact h3
    rw [old id e1 e2 e3]; exact h0 id
  have rm : ∀ tl ∈ s1.motions, tl.cref < s1.next := fun tl htl => hlt _ (by
    have : tl.cref ∈ taskRefs s1.motions := List.mem_map_of_mem htl
    simp [refs, this])
  have rf : ∀ tl ∈ s1.forces, tl.cref < s1.next := fun tl htl => hlt _ (by
    have : tl.cref ∈ taskRefs s1.forces := List.mem_map_of_mem htl
    simp [refs, this])
  have ra : ∀ tl ∈ s1.acts, tl.cref < s1.next := fun tl htl => hlt _ (by
    have : tl.cref ∈ taskRefs s1.acts := List.mem_map_of_mem htl
    simp [refs, this])
  have rc : ∀ cl ∈ s1.contacts, ∀ id ∈ crefs cl, id < s1.next := fun cl hcl id hid => hlt _ (by
    have : id ∈ s1.contacts.flatMap crefs := List.mem_flatMap.2 ⟨cl, hcl, hid⟩
    simp only [refs, List.mem_cons, List.mem_append, this, or_true])
  have rb : s1.baseId < s1.next := hlt _ (by simp [refs])
  have hlt3 : ∀ id, id < s1.next → id ∈ hqpIds hqp3 → id ∈ hqpIds s1.hqp := by
    intro id hid hin
    rcases (hmem id).1 hin with e | e | e | e
    · omega
    · omega
    · omega
    · exact e
  have hsh := h.pre.shaped cid
  refine ⟨⟨?_, ?_, ?_⟩, ?_⟩
  · refine { hp with
      len := ?_, idsLt := ?_, noBound := ?_, eqVec := ?_, ineqVec := ?_
      nodup := ?_, refsLt := ?_, baseName := ?_, baseKind := ?_, baseRows := ?_
      motionCells := ?_, forceCells := ?_, actCells := ?_, contactCells := ?_ }
    · show hqp3.length = 2
      rw [pushLevel_length hq3, pushLevel_length hq2, pushLevel_length hq1]; exact hp.len
    · intro id hid
      show id < s1.next + 3
      rcases (hmem id).1 hid with e | e | e | e
      · omega
      · omega
      · omega
      · have := hlt' id e; omega
    · show ∀ id, (heap id).kind ≠ .bound
      exact any (fun c => c.kind ≠ .bound) hp.noBound (by simp [Constraint.mkEq]) (by simp [Constraint.mkIneq])
        (by simp [Constraint.mkEq])
    · show ∀ id, (heap id).kind = .equality → (heap id).lb = Constraint.noVec ∧ (heap id).ub = Constraint.noVec
      exact any (fun c => c.kind = .equality → c.lb = Constraint.noVec ∧ c.ub = Constraint.noVec) hp.eqVec
        (fun _ => ⟨rfl, rfl⟩) (fun h => by simp [Constraint.mkIneq] at h) (fun _ => ⟨rfl, rfl⟩)
    · show ∀ id, (heap id).kind = .inequality → (heap id).vec = Constraint.noVec
      exact any (fun c => c.kind = .inequality → c.vec = Constraint.noVec) hp.ineqVec
        (fun h => by simp [Constraint.mkEq] at h) (fun _ => rfl) (fun h => by simp [Constraint.mkEq] at h)
    · have hn : (refs s1 ++ [s1.next, s1.next + 1, s1.next + 2]).Nodup := by
        rw [List.nodup_append]
        refine ⟨hp.nodup, by simp, ?_⟩
        intro a ha b hb
        have := hlt a ha
        simp only [List.mem_cons, List.not_mem_nil, or_false] at hb
        omega
      have he : refs { s1 with
          heap := heap, next := s1.next + 3, hqp := hqp3
          contacts := s1.contacts ++ [⟨cid, s.k, s1.next, s1.next + 1, s1.next + 2⟩]
          nEq := if p = 0 then s1.nEq + (s.contactObj cid).nMotion else s1.nEq
          nIn := s1.nIn + (s.contactObj cid).forceIneq.rows } =
          refs s1 ++ [s1.next, s1.next + 1, s1.next + 2] := by
        simp [refs, crefs]
      rw [he]; exact hn
    · intro id hid
      have hid' : id ∈ refs s1 ++ [s1.next, s1.next + 1, s1.next + 2] := by
        have he : refs { s1 with
          heap := heap, next := s1.next + 3, hqp := hqp3
          contacts := s1.contacts ++ [⟨cid, s.k, s1.next, s1.next + 1, s1.next + 2⟩]
          nEq := if p = 0 then s1.nEq + (s.contactObj cid).nMotion else s1.nEq
          nIn := s1.nIn + (s.contactObj cid).forceIneq.rows } =
          refs s1 ++ [s1.next, s1.next + 1, s1.next + 2] := by
          simp [refs, crefs]
        rw [← he]; exact hid
      show id < s1.next + 3
      rw [List.mem_append] at hid'
      rcases hid' with h' | h'
      · have := hlt id h'; omega
      · simp only [List.mem_cons, List.not_mem_nil, or_false] at h'; omega
    · show (heap s1.baseId).name = _
      rw [oldLt _ rb]; exact hp.baseName
    · show (heap s1.baseId).kind = _
      rw [oldLt _ rb]; exact hp.baseKind
    · show (heap s1.baseId).mat.rows = _
      rw [oldLt _ rb]; exact hp.baseRows
    · intro tl htl
      obtain ⟨c1, c2⟩ := hp.motionCells tl htl
      have o := oldLt _ (rm tl htl)
      refine ⟨⟨?_, ?_, ?_⟩, ?_⟩
      · show (heap tl.cref).name = _; rw [o]; exact c1.name
      · show (heap tl.cref).kind = _; rw [o]; exact c1.kind
      · show (heap tl.cref).mat.rows = _; rw [o]; exact c1.rows
      · show ZeroFrom (heap tl.cref).mat _; rw [o]; exact c2
    · intro tl htl
      obtain ⟨c1, c2⟩ := hp.forceCells tl htl
      have o := oldLt _ (rf tl htl)
      refine ⟨⟨?_, ?_, ?_⟩, ?_⟩
      · show (heap tl.cref).name = _; rw [o]; exact c1.name
      · show (heap tl.cref).kind = _; rw [o]; exact c1.kind
      · show (heap tl.cref).mat.rows = _; rw [o]; exact c1.rows
      · show ZeroBelow (heap tl.cref).mat _; rw [o]; exact c2
    · intro tl htl
      have c1 := hp.actCells tl htl
      have o := oldLt _ (ra tl htl)
      refine ⟨?_, ?_, ?_⟩
      · show (heap tl.cref).name = _; rw [o]; exact c1.name
      · show (heap tl.cref).kind = _; rw [o]; exact c1.kind
      · show (heap tl.cref).mat.rows = _; rw [o]; exact c1.rows
    · intro cl hcl
      have hcl' : cl ∈ s1.contacts ++ [(⟨cid, s.k, s1.next, s1.next + 1, s1.next + 2⟩ : ContactLevel)] := hcl
      rw [List.mem_append, List.mem_singleton] at hcl'
      rcases hcl' with h' | rfl
      · obtain ⟨c1, c2⟩ := hp.contactCells cl h'
        have o1 := oldLt _ (rc cl h' cl.motion (by simp [crefs]))
        have o2 := oldLt _ (rc cl h' cl.force (by simp [crefs]))
        have o3 := oldLt _ (rc cl h' cl.reg (by simp [crefs]))
        refine ⟨?_, ?_⟩
        · constructor <;> simp only [o1, o2, o3]
          · exact c1.mName
          · exact c1.mKind
          · exact c1.mRows
          · exact c1.fName
          · exact c1.fKind
          · exact c1.fRows
          · exact c1.rName
          · exact c1.rKind
          · exact c1.rRows
        · show ZeroFrom (heap cl.motion).mat _; rw [o1]; exact c2
      · refine ⟨?_, ?_⟩
        · constructor <;> simp only [n1, n2, n3, e_o] <;> try rfl
          · show (s.contactObj cid).forceIneq.rows = _
            rw [rows_eq (by rw [hsh.ineqKind]; simp)]; exact hsh.ineqRows
          · show (s.contactObj cid).forceReg.rows = _
            rw [rows_eq (by rw [hsh.regKind]; simp)]; exact hsh.regRows
        · show ZeroFrom (heap s1.next).mat _
          rw [n1]; exact fun _ _ _ => rfl
  · refine
      { idsCols := ?_, baseCols := ?_, baseZero := ?_, actZero := ?_, fZero := ?_, rZero := ?_
        jcRows := hz.jcRows, jcCols := hz.jcCols, jcZero := hz.jcZero }
    · intro id hid
      show (heap id).mat.cols = s1.nv + s1.k
      rcases (hmem id).1 hid with e | e | e | e
      · rw [e, n3]; rfl
      · rw [e, n2]; rfl
      · rw [e, n1]; rfl
      · rw [oldLt _ (hlt' _ e)]; exact hz.idsCols id e
    · show (heap s1.baseId).mat.cols = s1.nv + s1.k
      rw [oldLt _ rb]; exact hz.baseCols
    · show ZeroFrom (heap s1.baseId).mat (s1.nv + s1.k)
      rw [oldLt _ rb]; exact hz.baseZero
    · intro tl htl hid
      have hl := ra tl htl
      show ZeroFrom (heap tl.cref).mat (s1.nv + s1.k)
      rw [oldLt _ hl]; exact hz.actZero tl htl (hlt3 _ hl hid)
    · intro cl hcl hid
      have hcl' : cl ∈ s1.contacts ++ [(⟨cid, s.k, s1.next, s1.next + 1, s1.next + 2⟩ : ContactLevel)] := hcl
      rw [List.mem_append, List.mem_singleton] at hcl'
      show ZeroOutside (heap cl.force).mat (s1.nv + cl.index) (s1.contactObj cl.cid).nForce
      rcases hcl' with h' | rfl
      · have hl := rc cl h' cl.force (by simp [crefs])
        rw [oldLt _ hl]; exact hz.fZero cl h' (hlt3 _ hl hid)
      · show ZeroOutside (heap (s1.next + 1)).mat _ _
        rw [n2]; exact fun _ _ _ => rfl
    · intro cl hcl hid
      have hcl' : cl ∈ s1.contacts ++ [(⟨cid, s.k, s1.next, s1.next + 1, s1.next + 2⟩ : ContactLevel)] := hcl
      rw [List.mem_append, List.mem_singleton] at hcl'
      show ZeroOutside (heap cl.reg).mat (s1.nv + cl.index) (s1.contactObj cl.cid).nForce
      rcases hcl' with h' | rfl
      · have hl := rc cl h' cl.reg (by simp [crefs])
        rw [oldLt _ hl]; exact hz.rZero cl h' (hlt3 _ hl hid)
      · show ZeroOutside (heap (s1.next + 2)).mat _ _
        rw [n3]; exact fun _ _ _ => rfl
  · show Tiled s1.contactObj 0 (s1.contacts ++ [⟨cid, s.k, s1.next, s1.next + 1, s1.next + 2⟩]) s1.k
    rw [e_o, e_c, e_k]
    exact tiled_append s.contactObj ⟨cid, s.k, s1.next, s1.next + 1, s1.next + 2⟩ _ _ _ h.tiled rfl
  · intro _ tl htl hid i j _
    have hl := rf tl htl
    show (heap tl.cref).mat i j = 0
    rw [oldLt _ hl]; exact hz0 _ (hlt3 _ hl hid) i j

/-! ## All calls -/

theorem decode_keeps {W : World} {s s' : State K} (h : Inv W s) {x : Vec K}
    (hs : decodeSolution s x = some s') : Keeps W s s' := by
  unfold decodeSolution at hs
  split at hs
  · cases hs; exact keeps_refl h
  · split at hs
    · cases hs
      exact keeps_misc h s.t s.measured s.trans true _ _ _
    · cases hs

theorem inv_assoc {W : World} {s : State K} (h : Inv W s) (assoc : Nat → String) :
    Inv W { s with assoc := assoc } := by
  refine ⟨?_, { h.sized with }, h.tiled⟩
  exact { h.pre with
    motionCells := fun tl htl => ⟨{ (h.pre.motionCells tl htl).1 with }, (h.pre.motionCells tl htl).2⟩
    forceCells := fun tl htl => ⟨{ (h.pre.forceCells tl htl).1 with }, (h.pre.forceCells tl htl).2⟩
    actCells := fun tl htl => { h.pre.actCells tl htl with }
    contactCells := fun cl hcl =>
      ⟨{ (h.pre.contactCells cl hcl).1 with }, (h.pre.contactCells cl hcl).2⟩ }

/-- Every call preserves the invariant, and cleanliness of the force tasks unless it re-associates one. -/
theorem step_keeps {nd : Bool} {W : World} {s s' : State K} (h : Inv W s) (o : Op K)
    (hs : (step nd W s o).state? = some s') :
    Inv W s' ∧ (NoReassociation s o → ForceClean s → ForceClean s') := by
  have of : Keeps W s s' → Inv W s' ∧ (NoReassociation s o → ForceClean s → ForceClean s') :=
    fun hk => ⟨hk.1, fun _ => hk.2⟩
  cases o with
  | addMotionTask tid w p dur => exact of (addMotionTask_keeps h (by simpa [step, void_state?] using hs))
  | addForceTask tid w p dur => exact of (addForceTask_keeps h (by simpa [step, void_state?] using hs))
  | addActuationTask tid w p dur =>
    exact of (addActuationTask_keeps h (by simpa [step, void_state?] using hs))
  | updateTaskWeight n w =>
    apply of
    simp only [step, void_state?, updateTaskWeight] at hs
    split at hs
    · simp only [Res.state?, Option.some.injEq] at hs
      subst hs; exact keeps_refl h
    · next l0 ls hh =>
      simp only [Res.state?, Option.some.injEq] at hs
      subst hs
      apply keeps_ids h
      rw [hh]
      simp only [List.map_cons, setWeightLevels_ids]
  | addRigidContact cid wf wm p => exact of (addRigidContact_keeps h (by simpa [step, void_state?] using hs))
  | updateRigidContactWeights n wf wm =>
    apply of
    simp only [step, void_state?, updateRigidContactWeights] at hs
    split at hs
    · simp only [Res.state?, Option.some.injEq] at hs
      subst hs; exact keeps_refl h
    · next l0 ls hh =>
      simp only [Res.state?, Option.some.injEq] at hs
      subst hs
      apply keeps_ids h
      rw [hh]
      simp only [List.map_cons, scanLevels_ids]
  | addMeasuredForce m =>
    apply of
    simp only [step, void_state?, addMeasuredForce] at hs
    simp only [Res.state?, Option.some.injEq] at hs
    subst hs
    exact keeps_misc h s.t _ s.trans s.decoded s.dv s.f s.tau
  | removeMeasuredForce n =>
    apply of
    simp only [step, void_state?, removeMeasuredForce] at hs
    split at hs
    · simp only [Res.state?, Option.some.injEq] at hs
      subst hs
      exact keeps_misc h s.t _ s.trans s.decoded s.dv s.f s.tau
    · simp only [Res.state?, Option.some.injEq] at hs
      subst hs; exact keeps_refl h
  | removeTask n => exact of (removeTask_keeps (nd := nd) h n (by simpa [step, void_state?] using hs))
  | removeRigidContact n dur =>
    apply of
    simp only [step, void_state?, removeRigidContact] at hs
    split at hs
    · split at hs
      · simp only [Res.state?, Option.some.injEq] at hs
        subst hs; exact keeps_refl h
      · split at hs
        · simp only [Res.state?, Option.some.injEq] at hs
          subst hs; exact keeps_refl h
        · simp only [Res.state?, Option.some.injEq] at hs
          subst hs; exact keeps_trans h _
    · exact removeContactNow_keeps (nd := nd) h n hs
  | removeFromHqpData n =>
    apply of
    simp only [step, Res.state?, Option.some.injEq] at hs
    subst hs
    exact removeFromHqpData_keeps h n
  | resizeHqpData =>
    apply of
    simp only [step, Res.state?, Option.some.injEq] at hs
    subst hs
    exact ⟨⟨resize_pre h.pre, resize_sized h.pre s.contacts, h.tiled⟩,
      fun _ => forceClean_resize h.pre s.contacts⟩
  | compute cy t => exact of (computeProblemData_keeps (nd := nd) h hs)
  | decode x =>
    apply of
    simp only [step] at hs
    split at hs
    · next s1 hd =>
      simp only [Res.state?, Option.some.injEq] at hs
      subst hs
      exact decode_keeps h hd
    · simp [Res.state?] at hs
  | setContact cid u =>
    apply of
    have hg := good_applySet (h.pre.shaped cid) u
    simp only [step] at hs
    split at hs
    · next c a hc =>
      simp only [Res.state?, Option.some.injEq] at hs
      subst hs
      obtain ⟨g1, g2⟩ := hg c (by rw [hc]; rfl)
      exact keeps_updateObj h cid c g1 g2
    · next c hc =>
      simp only [Res.state?, Option.some.injEq] at hs
      subst hs
      obtain ⟨g1, g2⟩ := hg c (by rw [hc]; rfl)
      exact keeps_updateObj h cid c g1 g2
    · simp [Res.state?] at hs
    · simp [Res.state?] at hs
  | setAssociated tid n =>
    simp only [step, Res.state?, Option.some.injEq] at hs
    subst hs
    refine ⟨inv_assoc h _, ?_⟩
    intro hno hc tl htl hid
    show ZeroOutside _
      (s.nv + (forceBlock s.contactObj s.contacts s.k (Function.update s.assoc tid n tl.tid)).1)
      (forceBlock s.contactObj s.contacts s.k (Function.update s.assoc tid n tl.tid)).2
    have e : Function.update s.assoc tid n tl.tid = s.assoc tl.tid := by
      by_cases e' : tl.tid = tid
      · rcases hno with h' | h'
        · rw [e', Function.update_self, h']
        · exact absurd e' (h' tl htl)
      · rw [Function.update_of_ne e']
    rw [e]
    exact hc tl htl hid

/-- The invariant holds in every reachable state. -/
theorem run_inv {nd : Bool} {W : World} : ∀ (ops : List (Op K)) (s s' : State K), Inv W s →
    run nd W s ops = some s' → Inv W s' := by
  intro ops
  induction ops with
  | nil => intro s s' h hr; simp only [run, Option.some.injEq] at hr; subst hr; exact h
  | cons o os ih =>
    intro s s' h hr
    simp only [run] at hr
    split at hr
    · next s1 hs => exact ih s1 s' (step_keeps h o hs).1 hr
    · cases hr

/-- Force tasks are clean in every state reached without re-association. -/
theorem run_clean {nd : Bool} {W : World} : ∀ (ops : List (Op K)) (s s' : State K), Inv W s → ForceClean s →
    Along nd W NoReassociation s ops → run nd W s ops = some s' → ForceClean s' := by
  intro ops
  induction ops with
  | nil => intro s s' _ hc _ hr; simp only [run, Option.some.injEq] at hr; subst hr; exact hc
  | cons o os ih =>
    intro s s' h hc hal hr
    simp only [run] at hr
    simp only [Along] at hal
    split at hr
    · next s1 hs =>
      rw [hs] at hal
      obtain ⟨k1, k2⟩ := step_keeps h o hs
      exact ih s1 s' k1 (k2 hal.1 hc) hal.2 hr
    · cases hr

end Tsid.Formulation
