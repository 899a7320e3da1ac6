import Verif.Lemmas.Contents
import Verif.Lemmas.History
import Verif.Spec.Sizes

/-!
# The assembly does not fail on constraints of the announced sizes
-/

set_option linter.unusedSectionVars false

namespace Tsid.Formulation

open Spec Finset

variable {K : Type} [Field K] [LinearOrder K] [HasSqrt K]

theorem removeContactNow_not_ub {nd : Bool} {s : State K} {n : String} : (removeContactNow nd s n).isUB = false := by
  unfold removeContactNow
  dsimp only
  split
  · rfl
  · split
    · rfl
    · split <;> rfl

theorem setMaxNormalForce_not_ub (c : Contact K) (f : K) : (c.setMaxNormalForce f).isUB = false := by
  unfold Contact.setMaxNormalForce
  split
  · rfl
  · split <;> rfl

theorem runTransitions_not_ub {nd : Bool} : ∀ (l pre : List (Transition K)) (s : State K),
    (runTransitions nd pre l s).isUB = false := by
  intro l
  induction l with
  | nil => intro pre s; rfl
  | cons tr rest ih =>
    intro pre s
    unfold runTransitions
    split
    · rfl
    split
    · have := setMaxNormalForce_not_ub (s.contactObj tr.cid) (interpolate tr s.t)
      split
      · exact ih _ _
      · rfl
      · rfl
      · next h => rw [h] at this; exact this
    · have := removeContactNow_not_ub (nd := nd) (s := s) (n := (s.contactObj tr.cid).name)
      split
      · rfl
      · rfl
      · rfl
      · next h => rw [h] at this; exact this

theorem sumTorques_isSome (cy : Cycle K) (nv : Nat) : ∀ (l : List Nat) (h : Vec K),
    (∀ m ∈ l, (cy.torque m).size = nv) → (sumTorques cy nv l h).isSome := by
  intro l
  induction l with
  | nil => intro h _; rfl
  | cons m ms ih =>
    intro h hm
    unfold sumTorques
    rw [if_pos (hm m (by simp))]
    exact ih _ fun x hx => hm x (by simp [hx])

/-- Sizes needed by one contact. -/
structure ContactFits (cy : Cycle K) (obj : Nat → Contact K) (nv k : Nat) (h : Nat → Constraint K)
    (cl : ContactLevel) : Prop where
  mRows : (cy.contactMotion cl.cid).mat.rows = (h cl.motion).mat.rows
  mCols : (cy.contactMotion cl.cid).mat.cols = nv
  mRoom : nv ≤ (h cl.motion).mat.cols
  gRows : (obj cl.cid).forceGen.rows = (cy.contactMotion cl.cid).mat.rows
  gCols : (obj cl.cid).forceGen.cols = (obj cl.cid).nForce
  room : cl.index + (obj cl.cid).nForce ≤ k
  fRows : (obj cl.cid).forceIneq.mat.rows = (h cl.force).mat.rows
  fCols : (obj cl.cid).forceIneq.mat.cols = (obj cl.cid).nForce
  fRoom : (h cl.force).mat.cols = nv + k
  rRows : (obj cl.cid).forceReg.mat.rows = (h cl.reg).mat.rows
  rCols : (obj cl.cid).forceReg.mat.cols = (obj cl.cid).nForce
  rRoom : (h cl.reg).mat.cols = nv + k

theorem assembleContact_isSome {cy : Cycle K} {obj : Nat → Contact K} {nv k : Nat} {a : Asm K} {cl : ContactLevel}
    (hn : (crefs cl).Nodup) (hf : ContactFits cy obj nv k a.1 cl) (hr : a.2.rows = k) (hc : a.2.cols = nv) :
    ∃ a', assembleContact cy obj nv a cl = some a' ∧ a'.2.rows = k ∧ a'.2.cols = nv := by
  simp only [crefs, List.nodup_cons, List.mem_cons, List.not_mem_nil, or_false, not_or] at hn
  obtain ⟨⟨n1, n2⟩, n3, -⟩ := hn
  have n3 : cl.force ≠ cl.reg := n3
  unfold assembleContact
  have room := hf.room
  have e1 := Mat.setCols_isSome (j0 := 0) hf.mRows hf.mCols (by have := hf.mRoom; omega)
  have e2 := Mat.setRows_isSome (A := a.2) (j0 := cl.index) (n := (obj cl.cid).nForce)
    (B := (obj cl.cid).forceGen.transpose.mul (cy.contactMotion cl.cid).mat)
    (by simp [Mat.mul, Mat.transpose, hf.gCols]) (by simp [Mat.mul, hf.mCols, hc]) (by omega)
  have e3 := Mat.setCols_isSome (j0 := nv + cl.index) hf.fRows hf.fCols (by rw [hf.fRoom]; omega)
  have e4 := Mat.setCols_isSome (j0 := nv + cl.index) hf.rRows hf.rCols (by rw [hf.rRoom]; omega)
  simp only [e1, e2, if_pos hf.gRows, Function.update_of_ne (Ne.symm n1), e3, Function.update_of_ne (Ne.symm n2),
    Function.update_of_ne (Ne.symm n3), e4]
  exact ⟨_, rfl, hr, hc⟩

theorem assembleContacts_isSome {cy : Cycle K} {obj : Nat → Contact K} {nv k : Nat} :
    ∀ (l : List ContactLevel) (a : Asm K), (l.flatMap crefs).Nodup →
    (∀ cl ∈ l, ContactFits cy obj nv k a.1 cl) → a.2.rows = k → a.2.cols = nv →
    ∃ a', assembleContacts cy obj nv l a = some a' ∧ a'.2.rows = k ∧ a'.2.cols = nv := by
  intro l
  induction l with
  | nil => intro a _ _ h1 h2; exact ⟨a, rfl, h1, h2⟩
  | cons cl cls ih =>
    intro a hnd hf h1 h2
    rw [List.flatMap_cons, List.nodup_append] at hnd
    obtain ⟨hn1, hn2, hdisj⟩ := hnd
    obtain ⟨a', ha, r1, r2⟩ := assembleContact_isSome hn1 (hf cl (by simp)) h1 h2
    unfold assembleContacts
    rw [ha]
    refine ih a' hn2 ?_ r1 r2
    intro b hb
    obtain ⟨-, -, -, c4, -⟩ := assembleContact_some cy obj nv a a' cl hn1 ha
    have hb' : ∀ id ∈ crefs b, a'.1 id = a.1 id := by
      intro id hid
      refine c4 id fun hid' => hdisj id hid' id (List.mem_flatMap.2 ⟨b, hb, hid⟩) rfl
    have f := hf b (by simp [hb])
    have m1 := hb' b.motion (by simp [crefs])
    have m2 := hb' b.force (by simp [crefs])
    have m3 := hb' b.reg (by simp [crefs])
    exact
      { mRows := m1 ▸ f.mRows, mCols := f.mCols, mRoom := m1 ▸ f.mRoom, gRows := f.gRows, gCols := f.gCols
        room := f.room, fRows := m2 ▸ f.fRows, fCols := f.fCols, fRoom := m2 ▸ f.fRoom, rRows := m3 ▸ f.rRows
        rCols := f.rCols, rRoom := m3 ▸ f.rRoom }

/-- The assembly succeeds if no cell fails. -/
theorem assemble_isSome {W : World} {cy : Cycle K} {s : State K} (hp : Pre W s)
    (hcon : ∀ cl ∈ s.contacts, ContactFits cy s.contactObj s.nv s.k s.heap cl)
    (hjr : s.Jc.rows = s.k) (hjc : s.Jc.cols = s.nv)
    (htor : ∀ m ∈ s.measured, (cy.torque m).size = s.nv)
    (hbase : ∀ Jc : Mat K, Jc.rows = s.k → ∀ hfext,
      (baseCell s (s.robot.mass cy.M) cy.nle hfext Jc (s.heap s.baseId)).isSome)
    (hmot : ∀ tl ∈ s.motions, (motionCell cy s.nv tl (s.heap tl.cref)).isSome)
    (hfor : ∀ tl ∈ s.forces, (forceCell cy s.nv
      (fun tid => forceBlock s.contactObj s.contacts s.k (s.assoc tid)) tl (s.heap tl.cref)).isSome)
    (hact : ∀ tl ∈ s.acts, ∀ Jc : Mat K, Jc.rows = s.k → ∀ hfext : Vec K,
      (actCell cy s.nv s.k ((s.robot.mass cy.M).bottomRows (s.nv - s.nu))
        ((cy.nle.tail (s.nv - s.nu)).sub (hfext.tail (s.nv - s.nu)))
        (Jc.rightCols (s.nv - s.nu)) tl (s.heap tl.cref)).isSome) :
    (assemble cy s).isSome := by
  obtain ⟨⟨b1, b2, b3, b4⟩, ⟨nm, nf, na, nc⟩, dm, df, da⟩ := refs_disjoint hp
  unfold assemble
  dsimp only
  obtain ⟨⟨h1, Jc⟩, hC, jr, jc⟩ := assembleContacts_isSome s.contacts (s.heap, s.Jc) nc hcon hjr hjc
  obtain ⟨-, c2⟩ := assembleContacts_spec _ _ _ _ _ _ nc hC
  simp only at c2 jr jc
  rw [hC]
  obtain ⟨hfext, hT⟩ := Option.isSome_iff_exists.1 (sumTorques_isSome cy s.nv s.measured (Vec.zero s.nv) htor)
  rw [hT]
  dsimp only
  obtain ⟨bc, hB⟩ := Option.isSome_iff_exists.1 (hbase Jc jr hfext)
  have hB' : assembleBase s (s.robot.mass cy.M) cy.nle hfext Jc h1 = some (Function.update h1 s.baseId bc) := by
    rw [assembleBase_local, c2 _ b4, hB]; rfl
  rw [hB']
  dsimp only
  set h2 := Function.update h1 s.baseId bc
  have e2 : ∀ id, id ≠ s.baseId → id ∉ s.contacts.flatMap crefs → h2 id = s.heap id := by
    intro id i1 i2
    show Function.update h1 s.baseId bc id = _
    rw [Function.update_of_ne i1, c2 _ i2]
  have hM := loop_isSome (assembleMotion cy s.nv) (motionCell cy s.nv) TaskLevel.cref
    (assembleMotion_local cy s.nv) s.motions h2 nm (by
      intro tl htl
      have hin : tl.cref ∈ taskRefs s.motions := List.mem_map_of_mem htl
      rw [e2 _ (fun e => b1 (e ▸ hin)) (dm _ hin).2.2]
      exact hmot tl htl)
  obtain ⟨h3, hM⟩ := Option.isSome_iff_exists.1 hM
  rw [hM]
  dsimp only
  obtain ⟨-, m2⟩ := loop_local _ (motionCell cy s.nv) TaskLevel.cref
    (assembleMotion_local cy s.nv) _ _ _ nm hM
  have hF := loop_isSome (assembleForce cy s.nv
    (fun tid => forceBlock s.contactObj s.contacts s.k (s.assoc tid))) (forceCell cy s.nv _) TaskLevel.cref
    (assembleForce_local cy s.nv _) s.forces h3 nf (by
      intro tl htl
      have hin : tl.cref ∈ taskRefs s.forces := List.mem_map_of_mem htl
      rw [m2 _ (fun h' => (dm _ h').1 hin), e2 _ (fun e => b2 (e ▸ hin)) (df _ hin).2]
      exact hfor tl htl)
  obtain ⟨h4, hF⟩ := Option.isSome_iff_exists.1 hF
  rw [hF]
  dsimp only
  obtain ⟨-, f2⟩ := loop_local _ (forceCell cy s.nv _) TaskLevel.cref
    (assembleForce_local cy s.nv _) _ _ _ nf hF
  have hA := loop_isSome (assembleAct cy s.nv s.k ((s.robot.mass cy.M).bottomRows (s.nv - s.nu))
    ((cy.nle.tail (s.nv - s.nu)).sub (hfext.tail (s.nv - s.nu))) (Jc.rightCols (s.nv - s.nu)))
    (actCell cy s.nv s.k _ _ _) TaskLevel.cref
    (assembleAct_local cy s.nv s.k _ _ _) s.acts h4 na (by
      intro tl htl
      have hin : tl.cref ∈ taskRefs s.acts := List.mem_map_of_mem htl
      rw [f2 _ (fun h' => (df _ h').1 hin), m2 _ (fun h' => (dm _ h').2.1 hin),
        e2 _ (fun e => b3 (e ▸ hin)) (da _ hin)]
      exact hact tl htl Jc jr hfext)
  obtain ⟨h5, hA⟩ := Option.isSome_iff_exists.1 hA
  rw [hA]
  rfl

/-- The registrations after the loop over the pending transitions. -/
theorem transitions_impl {nd : Bool} {W : World} {s s1 : State K} {r : Registry K} {L : List (LItem K)} {t : K}
    (hw : Hygienic W) (hi : Inv W s) (h : Impl W s r L)
    (hr : runTransitions nd [] s.trans { s with t := t } = .ok s1 ()) :
    Inv W s1 ∧ SameNames s s1 ∧ s1.measured = r.measured ∧ s1.assoc = s.assoc ∧ s1.robot = s.robot ∧
    ∃ L', Coh W s1 L' ∧ L'.map Prod.fst = (r.expire (cnames s) t).items := by
  obtain ⟨hc, h1, h2, h3, h4⟩ := h
  have hi0 : Inv W { s with t := t } := (keeps_misc hi t s.measured s.trans s.decoded s.dv s.f s.tau).1
  have hc0 : Coh W { s with t := t } L := coh_congr hc rfl rfl rfl rfl rfl rfl rfl
  obtain ⟨n1, n2, n3, -, n5⟩ := runTransitions_coh hw s.trans [] _ s1 hi0 hc0 (by rw [hr]; rfl) rfl
  have n5 := n5 hr
  have hi1 := (runTransitions_keeps (nd := nd) _ _ _ s1 hi0 (by rw [hr]; rfl)).1
  obtain ⟨r1, r2, -⟩ := runTransitions_robot (nd := nd) _ _ _ s1 (by rw [hr]; rfl)
  refine ⟨hi1, ⟨n1.names, n1.kinds, n1.nu⟩, n2.trans h2, r2, r1, ?_⟩
  have hfb : r.breaking.find? (fun b => decide (b.1 < t)) =
      (s.trans.find? (fun tr => decide (tr.tEnd < t))).map (fun tr => (tr.tEnd, tr.cid)) := by
    rw [← h4, List.find?_map]; rfl
  simp only [Registry.expire]
  rw [hfb]
  cases hfd : s.trans.find? (fun tr => decide (tr.tEnd < t)) with
  | none =>
    rw [hfd] at n5
    exact ⟨L, n5.1, h1⟩
  | some tr =>
    rw [hfd] at n5
    refine ⟨_, n5.1, ?_⟩
    rw [map_fst_filter (fun it => !it.isContact _ _), h1]; rfl

theorem motionCell_isSome {W : World} {cy : Cycle K} {nv cols : Nat} {s : State K} {tl : TaskLevel}
    (hc : TaskCell W s tl) (hcols : (s.heap tl.cref).mat.cols = cols) (hr : nv ≤ cols)
    (hf : FitsOn (W.task tl.tid).kind (W.task tl.tid).rows nv (cy.motionOut tl.tid)) :
    (motionCell cy nv tl (s.heap tl.cref)).isSome := by
  obtain ⟨f1, f2, f3, f4⟩ := hf
  have hk := hc.kind
  have hrow := hc.rows
  unfold WellFormed at f2
  unfold motionCell
  dsimp only
  rw [← f1] at hk
  have room : 0 + nv ≤ (s.heap tl.cref).mat.cols := by omega
  cases hkk : (cy.motionOut tl.tid).kind <;> rw [hkk] at hk f2 <;> simp only [heapKind] at hk <;> simp only [hk]
  · rw [Mat.setCols_isSome (by omega) f4 room]; rfl
  · rw [Mat.setCols_isSome (by omega) f4 room]; rfl
  · rw [Mat.setCols_isSome (n := nv) (B := Mat.identity nv) (by simp only [Mat.identity]; omega) rfl room]; rfl

theorem forceCell_isSome {W : World} {cy : Cycle K} {nv cols : Nat} {s : State K} {tl : TaskLevel}
    {blk : Nat → Nat × Nat} (hc : TaskCell W s tl) (hcols : (s.heap tl.cref).mat.cols = cols)
    (hr : nv + (blk tl.tid).1 + (blk tl.tid).2 ≤ cols)
    (hf : FitsOn (W.task tl.tid).kind (W.task tl.tid).rows (blk tl.tid).2 (cy.forceOut tl.tid)) :
    (forceCell cy nv blk tl (s.heap tl.cref)).isSome := by
  obtain ⟨f1, f2, f3, f4⟩ := hf
  have hk := hc.kind
  have hrow := hc.rows
  unfold WellFormed at f2
  unfold forceCell
  dsimp only
  rw [← f1] at hk
  have room : nv + (blk tl.tid).1 + (blk tl.tid).2 ≤ (s.heap tl.cref).mat.cols := by omega
  cases hkk : (cy.forceOut tl.tid).kind <;> rw [hkk] at hk f2 <;> simp only [heapKind] at hk <;> simp only [hk]
  · rw [Mat.setCols_isSome (by omega) f4 room]; rfl
  · rw [Mat.setCols_isSome (by omega) f4 room]; rfl
  · rw [Mat.setCols_isSome (n := (blk tl.tid).2) (B := Mat.identity (blk tl.tid).2) (by simp only [Mat.identity]; omega) rfl room]; rfl

theorem actCell_isSome {W : World} {cy : Cycle K} {nv k na : Nat} {s : State K} {tl : TaskLevel} {Ma Ja : Mat K}
    {ha : Vec K} (hc : TaskCell W s tl) (hcols : (s.heap tl.cref).mat.cols = nv + k)
    (hMr : Ma.rows = na) (hMc : Ma.cols = nv) (hJr : Ja.rows = k) (hJc : Ja.cols = na) (hh : ha.size = na)
    (hf : FitsOn (W.task tl.tid).kind (W.task tl.tid).rows na (cy.actOut tl.tid)) :
    (actCell cy nv k Ma ha Ja tl (s.heap tl.cref)).isSome := by
  obtain ⟨f1, f2, f3, f4⟩ := hf
  have hk := hc.kind
  have hrow := hc.rows
  unfold WellFormed at f2
  unfold actCell
  dsimp only
  rw [← f1] at hk
  cases hkk : (cy.actOut tl.tid).kind <;> rw [hkk] at hk f2 <;> simp only [heapKind] at hk <;> simp only [hk]
  · rw [if_pos ⟨by omega, f2, trivial⟩, Mat.setCols_isSome (by simp only [Mat.mul]; omega) (by simp [Mat.mul, hMc]) (by omega)]
    simp only [Option.bind_some]
    rw [Mat.setCols_isSome (by simp only [Mat.mul, Mat.neg]; omega) (by simp [Mat.mul, Mat.transpose, hJr])
      (by simp only; omega)]
    rfl
  · rw [if_pos ⟨by omega, f2.1, f2.2, trivial⟩,
      Mat.setCols_isSome (by simp only [Mat.mul]; omega) (by simp [Mat.mul, hMc]) (by omega)]
    simp only [Option.bind_some]
    rw [Mat.setCols_isSome (by simp only [Mat.mul, Mat.neg]; omega) (by simp [Mat.mul, Mat.transpose, hJr])
      (by simp only; omega)]
    rfl
  · rw [if_pos ⟨by omega, by omega, trivial⟩, Mat.setCols_isSome (by omega) hMc (by omega)]
    simp only [Option.bind_some]
    rw [Mat.setCols_isSome (by simp only [Mat.transpose, Mat.neg]; omega) (by simp [Mat.transpose, Mat.neg, hJr])
      (by simp only; omega)]
    rfl

theorem baseCell_isSome {W : World} {s : State K} {mass Jc : Mat K} {nle hfext : Vec K} (hi : Inv W s)
    (hMc : mass.cols = s.nv) (hJr : Jc.rows = s.k) :
    (baseCell s mass nle hfext Jc (s.heap s.baseId)).isSome := by
  have h1 := hi.pre.baseRows
  have h2 := hi.sized.baseCols
  unfold baseCell
  rw [Mat.setCols_isSome (by simp only [Mat.topRows]; omega) (by simp [Mat.topRows, hMc]) (by omega)]
  simp only [Option.bind_some]
  rw [Mat.setCols_isSome (by simp only [Mat.transpose, Mat.neg, Mat.leftCols]; omega)
    (by simp [Mat.transpose, Mat.neg, Mat.leftCols, hJr]) (by simp only; omega)]
  rfl

/-- The assembly succeeds when the constraints handed over fit. -/
theorem assemble_fits {W : World} {cy : Cycle K} {s : State K} {L : List (LItem K)} (hi : Inv W s) (hc : Coh W s L)
    (hcy : CycleSizes s.nv cy) (htor : ∀ m ∈ s.measured, (cy.torque m).size = s.nv)
    (hfit : ∀ it ∈ L.map Prod.fst, it.Fits W s.contactObj s.assoc s.nv (s.nv - s.nu)
      ((L.map Prod.fst).filterMap Item.cid?) cy) :
    (assemble cy s).isSome := by
  obtain ⟨m1, m2, m3⟩ := hcy
  have hn := contact_cids_nodup hc
  rw [contact_cids hc] at hfit
  obtain ⟨tk, toff⟩ := tiled_offset _ _ _ _ hi.tiled hn
  have tb := (tiled_bounds _ _ _ _ hi.tiled).2
  rw [Nat.zero_add] at tk
  have hcell : ∀ {fam tid p w a b c}, ((Item.task fam tid p w, a, b, c) : LItem K) ∈ L → a ∈ hqpIds s.hqp := by
    intro fam tid p w a b c hx
    exact ents_mem hc hx (hc.levels _ hx) (e := (w, a)) (by simp [ents, itemLevel])
  have hmemtask : ∀ {fam} {tl : TaskLevel}, tl ∈ L.filterMap (taskOf fam) →
      ∃ p w b c, ((Item.task fam tl.tid p w, tl.cref, b, c) : LItem K) ∈ L := by
    intro fam tl h
    obtain ⟨⟨it, a, b, c⟩, hx, he⟩ := List.mem_filterMap.1 h
    cases it with
    | task f tid p w =>
      simp only [taskOf] at he
      split at he
      · next hf =>
        cases he
        exact ⟨p, w, b, c, hf ▸ hx⟩
      · cases he
    | contact => cases he
  refine assemble_isSome hi.pre ?_ hi.sized.jcRows hi.sized.jcCols htor ?_ ?_ ?_ ?_
  · intro cl hcl
    have hst : strip cl ∈ L.filterMap contactOf := by
      rw [← hc.contacts]; exact List.mem_map_of_mem hcl
    obtain ⟨⟨it, a, b, c⟩, hx, he⟩ := List.mem_filterMap.1 hst
    cases it with
    | task => cases he
    | contact cid p wm wf =>
      simp only [contactOf, strip, Option.some.injEq, Prod.mk.injEq] at he
      obtain ⟨rfl, rfl, rfl, rfl⟩ := he
      obtain ⟨g1, g2, g3, g4⟩ := hfit _ (List.mem_map_of_mem hx)
      have cc := (hi.pre.contactCells cl hcl).1
      have sh := hi.pre.shaped cl.cid
      have im := ents_mem hc hx (hc.levels _ hx) (e := (wm, cl.motion)) (by simp [ents, itemLevel])
      have iff0 := ents_mem hc hx (lvl := 0) (by omega) (e := (1, cl.force)) (by simp [ents])
      have ir := ents_mem hc hx (lvl := 1) (by omega) (e := (wf, cl.reg)) (by simp [ents])
      exact
        { mRows := g3.trans cc.mRows.symm, mCols := g4
          mRoom := by rw [hi.sized.idsCols _ im]; omega
          gRows := by rw [g3, sh.genRows]; rfl
          gCols := sh.genCols, room := (tb cl hcl).2
          fRows := sh.ineqRows.trans cc.fRows.symm, fCols := sh.ineqCols, fRoom := hi.sized.idsCols _ iff0
          rRows := sh.regRows.trans cc.rRows.symm, rCols := sh.regCols, rRoom := hi.sized.idsCols _ ir }
  · intro Jc hJ hfext
    exact baseCell_isSome hi m2 hJ
  · intro tl htl
    obtain ⟨p, w, b, c, hx⟩ := hmemtask (hc.motions ▸ htl)
    exact motionCell_isSome (hi.pre.motionCells tl htl).1 (hi.sized.idsCols _ (hcell hx)) (by omega)
      (hfit _ (List.mem_map_of_mem hx))
  · intro tl htl
    obtain ⟨p, w, b, c, hx⟩ := hmemtask (hc.forces ▸ htl)
    have hf := hfit _ (List.mem_map_of_mem hx)
    refine forceCell_isSome (hi.pre.forceCells tl htl).1 (hi.sized.idsCols _ (hcell hx)) ?_ ?_
    · simp only [forceBlock]
      split
      · split
        · next cl hcl =>
          have := (tb cl (List.mem_of_find?_eq_some hcl)).2
          simp only; omega
        · simp only; omega
      · simp only; omega
    · simp only [Item.Fits] at hf
      rcases hf with ⟨e, hf⟩ | ⟨e, cid, hcid, hnm, hf⟩
      · simp only [forceBlock]
        rw [if_neg (by simpa using e), tk]
        exact hf
      · simp only [forceBlock]
        rw [if_pos e]
        obtain ⟨cl0, hcl0, rfl⟩ := List.mem_map.1 hcid
        cases hfd : s.contacts.find? (fun cl => s.assoc tl.tid == (s.contactObj cl.cid).name) with
        | none =>
          have := List.find?_eq_none.1 hfd cl0 hcl0
          simp [hnm] at this
        | some cl =>
          have e1 : s.assoc tl.tid = (s.contactObj cl.cid).name := by simpa using List.find?_some hfd
          have hnd := contact_names_nodup hc
          have : cl = cl0 := List.inj_on_of_nodup_map hnd (List.mem_of_find?_eq_some hfd) hcl0 (by
            show cnames s cl.cid = cnames s cl0.cid
            unfold cnames; rw [← e1, hnm])
          subst this
          exact hf
  · intro tl htl Jc hJ hfext
    obtain ⟨p, w, b, c, hx⟩ := hmemtask (hc.acts ▸ htl)
    exact actCell_isSome (hi.pre.actCells tl htl) (hi.sized.idsCols _ (hcell hx)) rfl m2 hJ rfl rfl
      (hfit _ (List.mem_map_of_mem hx))

end Tsid.Formulation

namespace Tsid.Spec

variable {K : Type}

theorem Item.Fits.congr {W : World} {obj obj' : Nat → Contact K} {assoc : Nat → String} {nv na : Nat}
    {cids : List Nat} {cy : Cycle K} {it : Item K} (hn : ∀ c, (obj' c).name = (obj c).name)
    (hk : ∀ c, (obj' c).kind = (obj c).kind) (h : it.Fits W obj assoc nv na cids cy) :
    it.Fits W obj' assoc nv na cids cy := by
  have hf : ∀ c, (obj' c).nForce = (obj c).nForce := fun c => by unfold Contact.nForce; rw [hk]
  have hm : ∀ c, (obj' c).nMotion = (obj c).nMotion := fun c => by unfold Contact.nMotion; rw [hk]
  have hs : nForces obj' cids = nForces obj cids := by unfold nForces; simp only [hf]
  cases it with
  | task fam tid p w =>
    cases fam with
    | motion => exact h
    | force =>
      simp only [Item.Fits, hs, hn, hf] at h ⊢
      exact h
    | actuation => exact h
  | contact cid p wm wf =>
    simp only [Item.Fits, hm] at h ⊢
    exact h

end Tsid.Spec
