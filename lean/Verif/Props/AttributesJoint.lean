import Verif.Lemmas.Attributes
import Verif.Model.Sqrt

/-!
# C95: reading the settings of joint tasks

Posture, actuation bounds, actuation equality, joint limits.
-/

set_option linter.unusedSectionVars false

namespace Tsid
open Spec.Attributes

variable {K : Type}

/-! ## Posture -/

section
variable [Field K] [LinearOrder K] [FloorRing K]

theorem posture_compute_same {R : PostureRobot K} {s s' : Posture K} {q v : Vec K}
    (h : (Posture.step R s (.compute q v)).state? = some s') :
    s'.kp = s.kp ∧ s'.kd = s.kd ∧ s'.ref = s.ref ∧ s'.m.mask = s.m.mask ∧ s'.m.con.kind = s.m.con.kind := by
  simp only [Posture.step, Posture.compute] at h
  split at h
  · rename_i hc
    cases h
    split at hc <;> try cases hc
    split at hc <;> try cases hc
    split at hc <;> try cases hc
    exact ⟨rfl, rfl, rfl, rfl, rfl⟩
  · rename_i hc
    split at hc <;> try cases hc
    split at hc <;> try cases hc
    split at hc <;> try cases hc
  all_goals cases h

theorem posture_readStep [IsStrictOrderedRing K] (R : PostureRobot K) (hna : R.na ≤ R.nv) (a : SE3Attr) :
    ReadStep (fun s => s.m.con.kind ≠ .bound) (postureCalls a) (Posture.step R) (posture a)
      (fun s => Posture.read .cpp s a) := by
  intro s o hI hP
  cases o with
  | setMask m =>
    constructor
    · intro s' u h
      simp only [Posture.step, Posture.setMask] at h
      split at h <;> try cases h
      rename_i m' u' hm
      have h1 := masked_mask (s := s.m) (s' := m') (by rw [hm]; rfl)
      have h2 := masked_kind (s := s.m) (s' := m') (by rw [hm]; rfl)
      refine ⟨by show m'.con.kind ≠ _; rw [h2]; exact hI, ?_⟩
      cases a <;> try rfl
      have hs : m.size = R.na := by
        by_contra hs; rw [setMask_size hs] at hm; cases hm
      rw [if_pos hs] at h1
      show Reading.vec m'.mask = _
      rw [h1]; rfl
    · intro s' h
      simp only [Posture.step, Posture.setMask] at h
      split at h <;> try cases h
      rename_i m' hm
      have h2 := masked_kind (s := s.m) (s' := m') (by rw [hm]; rfl)
      refine ⟨by show m'.con.kind ≠ _; rw [h2]; exact hI, ?_⟩
      cases a <;> try rfl
      have := masked_throw hP (by omega) hI hm
      show Reading.vec m'.mask = Reading.vec s.m.mask
      rw [this]
  | setKp k =>
    constructor
    · intro s' u h
      simp only [Posture.step, Posture.setKp] at h
      split at h <;> cases h
      cases a <;> exact ⟨hI, rfl⟩
    · intro s' h
      simp only [Posture.step, Posture.setKp] at h
      split at h <;> cases h
      exact ⟨hI, rfl⟩
  | setKd k =>
    constructor
    · intro s' u h
      simp only [Posture.step, Posture.setKd] at h
      split at h <;> cases h
      cases a <;> exact ⟨hI, rfl⟩
    · intro s' h
      simp only [Posture.step, Posture.setKd] at h
      split at h <;> cases h
      exact ⟨hI, rfl⟩
  | setReference r =>
    constructor
    · intro s' u h
      simp only [Posture.step, Posture.setReference] at h
      split at h <;> try cases h
      split at h <;> try cases h
      split at h <;> cases h
      cases a <;> exact ⟨hI, rfl⟩
    · intro s' h
      simp only [Posture.step, Posture.setReference] at h
      split at h
      · split at h
        · split at h <;> cases h
          exact ⟨hI, rfl⟩
        · cases h; exact ⟨hI, rfl⟩
      · cases h; exact ⟨hI, rfl⟩
  | compute q v =>
    have key : ∀ s', (Posture.step R s (.compute q v)).state? = some s' →
        s'.m.con.kind ≠ .bound ∧ Posture.read .cpp s' a = Posture.read .cpp s a := by
      intro s' hs'
      obtain ⟨h1, h2, h3, h4, h5⟩ := posture_compute_same hs'
      refine ⟨h5 ▸ hI, ?_⟩
      cases a <;> simp only [Posture.read, h1, h2, h3, h4]
    constructor
    · intro s' u h
      have := key s' (by rw [h]; rfl)
      cases a <;> exact this
    · intro s' h
      exact key s' (by rw [h]; rfl)

theorem posture_initial [IsStrictOrderedRing K] {R : PostureRobot K} {name : String} {s : Posture K}
    (h : Posture.new R name = .ok s ()) (a : SE3Attr) :
    s.m.con.kind ≠ .bound ∧ Posture.read .cpp s a = .value (postureInitial R.nqa R.na a) := by
  unfold Posture.new Posture.setMask at h
  split at h <;> try cases h
  rename_i m' u hm
  have h1 := masked_mask (s := (Posture.pre R name).m) (s' := m') (by rw [hm]; rfl)
  have h2 := masked_kind (s := (Posture.pre R name).m) (s' := m') (by rw [hm]; rfl)
  rw [if_pos rfl] at h1
  refine ⟨by show m'.con.kind ≠ _; rw [h2]; simp [Posture.pre, Constraint.mkEq], ?_⟩
  cases a
  · exact congrArg (fun l => Reading.value [l]) (toList_zero _)
  · exact congrArg (fun l => Reading.value [l]) (toList_zero _)
  · show Reading.value [m'.mask.toList] = _
    rw [h1, toList_const]; rfl
  · show Reading.value [(Vec.zero R.nqa : Vec K).toList, (Vec.zero R.na : Vec K).toList, (Vec.zero R.na : Vec K).toList] = _
    rw [toList_zero, toList_zero]; rfl

/-- C95, `TaskJointPosture`: the getters return what was last accepted, and so do the Python attributes (the mask
provided that all masks have the entries 0 and 1). -/
theorem C95_posture_partial [IsStrictOrderedRing K] (X : Reader) {R : PostureRobot K} (hna : R.na ≤ R.nv) {name : String}
    {s : Posture K} (h : Posture.new R name = .ok s ()) {a : SE3Attr} (ha : X = .cpp ∨ a ≠ .reference) :
    Reads (postureCalls a) (Posture.step R) (posture a) (fun s => Posture.read X s a) s
      (postureInitial R.nqa R.na a) := by
  have hi := posture_initial h a
  have hc := reads_of (posture_readStep R hna a) hi.1 hi.2
  cases X with
  | cpp => exact hc
  | python => cases a with
    | reference => simp at ha
    | kp => exact hc
    | kd => exact hc
    | mask => exact hc

/-- C95, finding: `mask()` returns the last mask of the right size passed to `setMask`, accepted or not. -/
theorem C95_posture_mask_exact [IsStrictOrderedRing K] (X : Reader) {R : PostureRobot K} {name : String} {s s' : Posture K}
    (h : Posture.new R name = .ok s ()) {ops : List (Posture.Op K)} (hr : runOps (Posture.step R) s ops = some s') :
    Posture.read X s' .mask = .value (lastPassed (postureStored R.na) [List.replicate R.na 1] ops) := by
  have hX : ∀ t : Posture K, Posture.read X t .mask = Posture.read .cpp t .mask := fun _ => rfl
  rw [hX]
  refine passed_of (read := fun t => Posture.read .cpp t .mask) ?_ ops (posture_initial h .mask).2 hr
  intro t o t' ht
  cases o with
  | setMask m =>
    have hm : t'.m.mask = if m.size = R.na then m else t.m.mask := by
      simp only [Posture.step, Posture.setMask] at ht
      split at ht
      · rename_i m' _ hm; cases ht
        exact masked_mask (s := t.m) (s' := m') (by rw [hm]; rfl)
      · rename_i m' hm; cases ht
        exact masked_mask (s := t.m) (s' := m') (by rw [hm]; rfl)
      all_goals cases ht
    simp only [Posture.read, postureStored]
    rw [hm]
    by_cases hs : m.size = R.na
    · simp only [if_pos hs]; rfl
    · simp only [if_neg hs]
  | setKp k =>
    simp only [Posture.step, Posture.setKp] at ht
    split at ht <;> (cases ht; rfl)
  | setKd k =>
    simp only [Posture.step, Posture.setKd] at ht
    split at ht <;> (cases ht; rfl)
  | setReference r =>
    simp only [Posture.step, Posture.setReference] at ht
    split at ht
    · split at ht
      · split at ht <;> (cases ht; rfl)
      · cases ht; rfl
    · cases ht; rfl
  | compute q v =>
    have := (posture_compute_same ht).2.2.2.1
    simp only [Posture.read, postureStored, this]

end

/-! ## Actuation bounds -/

section
variable [Field K] [LinearOrder K] [FloorRing K] [IsStrictOrderedRing K]

theorem count_sel {m : Vec K} : (m.toList.count 1) = (sel m (List.range m.size)).length := by
  rw [Vec.toList, sel, List.count, List.countP_map, List.countP_eq_length_filter]
  congr 1

theorem actBounds_readStep (na : Nat) (X : Reader) (a : ActAttr) :
    ReadStep (fun s : Masked K => s.con.kind = .inequality) actMasks (ActBounds.step na) (actBoundsReset a)
      (fun s => ActBounds.read X s a) := by
  intro s o hI hP
  have hk : s.con.kind ≠ .bound := by rw [hI]; simp
  cases o with
  | mask m =>
    constructor
    · intro s' u h
      simp only [ActBounds.step, ActBounds.setMask] at h
      have hs : m.size = na := by
        by_contra hs; rw [setMask_size hs] at h; cases h
      have hv : Spec.ValidMask na m := ⟨hs, fun i hi => hP i (by omega)⟩
      rw [setMask_ok hv (by omega) hk] at h
      cases h
      refine ⟨?_, ?_⟩
      · simp only [maskCon, hI]
      · have hc := count_sel (m := m)
        rw [hs] at hc
        cases a
        · rfl
        · show Reading.value [(maskCon s.con _ _).lb.toList] = Reading.value [List.replicate (m.toList.count 1) 0]
          rw [hc]
          simp only [maskCon, hI, toList_zero]
        · show Reading.value [(maskCon s.con _ _).ub.toList] = Reading.value [List.replicate (m.toList.count 1) 0]
          rw [hc]
          simp only [maskCon, hI, toList_zero]
    · intro s' h
      simp only [ActBounds.step, ActBounds.setMask] at h
      have := masked_throw hP (by omega) hk h
      rw [this]
      exact ⟨hI, rfl⟩
  | setBounds l u =>
    constructor
    · intro s' w h
      simp only [ActBounds.step, ActBounds.setBounds] at h
      split at h <;> try cases h
      split at h <;> cases h
      cases a <;> exact ⟨hI, rfl⟩
    · intro s' h
      simp only [ActBounds.step, ActBounds.setBounds] at h
      split at h
      · split at h <;> cases h
        exact ⟨hI, rfl⟩
      · cases h; exact ⟨hI, rfl⟩

theorem actBounds_new (name : String) (na : Nat) (X : Reader) (a : ActAttr) :
    ∃ s : Masked K, ActBounds.new name na = .ok s () ∧ s.con.kind = .inequality ∧
      ActBounds.read X s a = .value (actInitial na a) := by
  have hv : Spec.ValidMask na (⟨na, fun _ => 1⟩ : Vec K) := ⟨rfl, fun i _ => Or.inr rfl⟩
  have hn := setMask_ok (s := (⟨Vec.zero 0, [], Constraint.mkIneq name na na⟩ : Masked K)) (off := 0) (cols := na)
    (w := fun _ => 1) hv (by omega) (by simp [Constraint.mkIneq])
  have hlen : (sel (⟨na, fun _ => 1⟩ : Vec K) (List.range na)).length = na := by simp [sel]
  refine ⟨_, hn, by simp [maskCon, Constraint.mkIneq], ?_⟩
  cases a
  · exact congrArg (fun l => Reading.value [l]) (toList_const na 1)
  · simp only [ActBounds.read, maskCon, Constraint.mkIneq, hlen]
    exact congrArg (fun l => Reading.value [l]) (toList_zero na)
  · simp only [ActBounds.read, maskCon, Constraint.mkIneq, hlen]
    exact congrArg (fun l => Reading.value [l]) (toList_zero na)

/-- C95, `TaskActuationBounds`: for masks with the entries 0 and 1, `mask()` returns the mask last accepted; the bounds
returned are those last accepted, but every accepted mask has replaced them by zeros, one for each selected joint. -/
theorem C95_actBounds_partial (X : Reader) {name : String} {na : Nat} {s : Masked K}
    (h : ActBounds.new name na = .ok s ()) (a : ActAttr) :
    Reads actMasks (ActBounds.step na) (actBoundsReset a) (fun s => ActBounds.read X s a) s (actInitial na a) := by
  obtain ⟨s', hs', hk, hr⟩ := actBounds_new (K := K) name na X a
  rw [h] at hs'
  cases hs'
  exact reads_of (actBounds_readStep na X a) hk hr

/-- C95, finding: the bounds that were accepted are forgotten when a mask is set, even the mask that is already set:
for every number of joints but zero. -/
theorem C95_actBounds_forgotten (X : Reader) {name : String} {na : Nat} (hna : 0 < na) {s : Masked K}
    (h : ActBounds.new name na = .ok s ()) :
    ¬ Reads actMasks (ActBounds.step na) (actBounds .upper) (fun s => ActBounds.read X s .upper) s
      [List.replicate na 0] := by
  intro hR
  have hE := C95_actBounds_partial X h .upper
  obtain ⟨t0, ht0, hk0, -⟩ := actBounds_new (K := K) name na X .mask
  rw [h] at ht0
  cases ht0
  let one : Vec K := ⟨na, fun _ => 1⟩
  let ops : List (ActBounds.Op K) := [.mask one, .setBounds one one, .mask one]
  have hv : Spec.ValidMask na one := ⟨rfl, fun i _ => Or.inr rfl⟩
  have hP : ∀ o ∈ ops, actMasks o := by
    intro o ho
    simp only [ops, List.mem_cons, List.not_mem_nil, or_false] at ho
    rcases ho with rfl | rfl | rfl
    · exact fun i _ => Or.inr rfl
    · trivial
    · exact fun i _ => Or.inr rfl
  have hlen : (sel one (List.range na)).length = na := by simp [sel, one]
  have hb : s.con.kind ≠ .bound := by rw [hk0]; simp
  let s1 : Masked K := ⟨one, (sel one (List.range na)).map some,
    maskCon s.con (sel one (List.range na)).length
      (selMat (sel one (List.range na)).length na 0 (fun _ => 1) (sel one (List.range na)))⟩
  have h1 : ActBounds.step na s (.mask one) = .ok s1 () := setMask_ok hv (by omega) hb
  have hd : ((one.size : Nat) : Int) = s1.dim := by
    have := trunc_sum_mask hv
    rw [hlen] at this
    exact this.symm
  let s2 : Masked K := { s1 with con := { s1.con with lb := one, ub := one } }
  have h2 : ActBounds.step na s1 (.setBounds one one) = .ok s2 () := by
    show ActBounds.setBounds s1 one one = _
    rw [ActBounds.setBounds, if_pos hd, if_pos hd]
  have hk1 : s1.con.kind ≠ .bound := by simp [s1, maskCon, hk0]
  have h3 : ∃ s3, ActBounds.step na s2 (.mask one) = .ok s3 () := ⟨_, setMask_ok hv (by omega) hk1⟩
  obtain ⟨s3, h3⟩ := h3
  have hrun : runOps (ActBounds.step na) s ops = some s3 := by
    simp only [ops, runOps, h1, h2, h3, Res.state?]
  have e1 := hR ops hP s3 hrun
  have e2 := hE ops hP s3 hrun
  rw [e2] at e1
  simp only [ops, lastAccepted, h1, h2, h3, actBounds, actBoundsReset, Option.getD_some, Option.getD_none] at e1
  have hl : one.toList = List.replicate na 1 := toList_const na 1
  have hc : one.toList.count 1 = na := by rw [hl]; simp
  rw [hc, hl] at e1
  injection e1 with e1
  injection e1 with e1
  have := congrArg (fun l => l[0]?) e1
  simp [hna] at this

/-! ## Actuation equality -/

theorem refill_same {na : Nat} {s s' : ActEq K} (h : (ActEq.refill na s).state? = some s') :
    s'.ref = s.ref ∧ s'.weights = s.weights ∧ s'.m.mask = s.m.mask ∧ s'.m.con.kind = s.m.con.kind := by
  unfold ActEq.refill at h
  split at h
  · cases h; exact ⟨rfl, rfl, rfl, rfl⟩
  · cases h

theorem refill_throw {na : Nat} {s s' : ActEq K} : ActEq.refill na s ≠ .throw s' := by
  unfold ActEq.refill
  split <;> simp

theorem actEq_readStep (na : Nat) (X : Reader) (a : ActEqAttr) :
    ReadStep (fun s : ActEq K => s.m.con.kind ≠ .bound) (actEqMasks a) (ActEq.step na) (actEq a)
      (fun s => ActEq.read X s a) := by
  intro s o hI hP
  cases o with
  | mask m =>
    constructor
    · intro s' u h
      simp only [ActEq.step, ActEq.setMask] at h
      split at h <;> try cases h
      rename_i m' u' hm
      have h1 := masked_mask (s := s.m) (s' := m') (by rw [hm]; rfl)
      have h2 := masked_kind (s := s.m) (s' := m') (by rw [hm]; rfl)
      obtain ⟨e1, e2, e3, e4⟩ := refill_same (s' := s') (by rw [h]; rfl)
      refine ⟨by show s'.m.con.kind ≠ _; rw [e4]; show m'.con.kind ≠ _; rw [h2]; exact hI, ?_⟩
      have hs : m.size = na := by
        by_contra hs; rw [setMask_size hs] at hm; cases hm
      rw [if_pos hs] at h1
      cases a
      · show Reading.vec s'.m.mask = _
        rw [e3]
        show Reading.vec m'.mask = _
        rw [h1]; rfl
      · exact congrArg Reading.vec e1
      · exact congrArg Reading.vec e2
    · intro s' h
      simp only [ActEq.step, ActEq.setMask] at h
      split at h
      · exact absurd h refill_throw
      · rename_i m' hm
        cases h
        have h2 := masked_kind (s := s.m) (s' := m') (by rw [hm]; rfl)
        refine ⟨by show m'.con.kind ≠ _; rw [h2]; exact hI, ?_⟩
        cases a <;> try rfl
        have := masked_throw hP (by omega) hI hm
        show Reading.vec m'.mask = Reading.vec s.m.mask
        rw [this]
      all_goals cases h
  | setReference r =>
    constructor
    · intro s' u h
      simp only [ActEq.step, ActEq.setReference] at h
      split at h <;> try cases h
      obtain ⟨e1, e2, e3, e4⟩ := refill_same (s' := s') (by rw [h]; rfl)
      refine ⟨by show s'.m.con.kind ≠ _; rw [e4]; exact hI, ?_⟩
      cases a
      · exact congrArg Reading.vec e3
      · exact congrArg Reading.vec e1
      · exact congrArg Reading.vec e2
    · intro s' h
      simp only [ActEq.step, ActEq.setReference] at h
      split at h
      · exact absurd h refill_throw
      · cases h; exact ⟨hI, rfl⟩
  | setWeights w =>
    constructor
    · intro s' u h
      simp only [ActEq.step, ActEq.setWeights] at h
      split at h <;> try cases h
      split at h <;> try cases h
      obtain ⟨e1, e2, e3, e4⟩ := refill_same (s' := s') (by rw [h]; rfl)
      refine ⟨by show s'.m.con.kind ≠ _; rw [e4]; exact hI, ?_⟩
      cases a
      · exact congrArg Reading.vec e3
      · exact congrArg Reading.vec e1
      · exact congrArg Reading.vec e2
    · intro s' h
      simp only [ActEq.step, ActEq.setWeights] at h
      split at h
      · split at h
        · exact absurd h refill_throw
        · cases h
      · cases h; exact ⟨hI, rfl⟩

/-- C95, `TaskActuationEquality`: the getters return what was last accepted, and so do the Python attributes (the mask
provided that all masks have the entries 0 and 1). -/
theorem C95_actEq_partial (X : Reader) {name : String} {na : Nat} {s : ActEq K}
    (h : ActEq.new name na = .ok s ()) (a : ActEqAttr) :
    Reads (actEqMasks a) (ActEq.step na) (actEq a) (fun s => ActEq.read X s a) s (actEqInitial na a) := by
  unfold ActEq.new ActEq.setMask at h
  split at h <;> try cases h
  rename_i m' u hm
  have h1 := masked_mask (s := (⟨Vec.zero 0, [], Constraint.mkEq name na na⟩ : Masked K)) (s' := m') (by rw [hm]; rfl)
  have h2 := masked_kind (s := (⟨Vec.zero 0, [], Constraint.mkEq name na na⟩ : Masked K)) (s' := m') (by rw [hm]; rfl)
  rw [if_pos rfl] at h1
  obtain ⟨e1, e2, e3, e4⟩ := refill_same (s' := s) (by rw [h]; rfl)
  refine reads_of (actEq_readStep na X a) ?_ ?_
  · rw [e4]; show m'.con.kind ≠ _; rw [h2]; simp [Constraint.mkEq]
  · cases a
    · show Reading.value [s.m.mask.toList] = _
      rw [e3]
      show Reading.value [m'.mask.toList] = _
      rw [h1, toList_const]; rfl
    · show Reading.value [s.ref.toList] = _
      rw [e1]; exact congrArg (fun l => Reading.value [l]) (toList_zero na)
    · show Reading.value [s.weights.toList] = _
      rw [e2]; exact congrArg (fun l => Reading.value [l]) (toList_const na 1)

/-- C95, finding: a mask of the right size with other entries than 0 and 1 is never accepted, and if the call returns to
the program, then the getters of the actuation tasks return it all the same. -/
theorem C95_rejected_masks (X : Reader) {na : Nat} {m : Vec K} (hs : m.size = na) (hm : ¬ ZeroOne m) (s : Masked K)
    (e : ActEq K) :
    (∀ s', ActBounds.step na s (.mask m) ≠ .ok s' ()) ∧
    (∀ s', ActBounds.step na s (.mask m) = .throw s' → ActBounds.read X s' .mask = .value [m.toList]) ∧
    (∀ e', ActEq.step na e (.mask m) ≠ .ok e' ()) ∧
    (∀ e', ActEq.step na e (.mask m) = .throw e' → ActEq.read X e' .mask = .value [m.toList]) := by
  have hv : ¬ Spec.ValidMask na m := fun h => hm fun i hi => h.2 i (by omega)
  refine ⟨setMask_bad hv, ?_, ?_, ?_⟩
  · intro s' h
    have := masked_mask (s := s) (s' := s') (by rw [show s.setMask na na 0 (fun _ => 1) m = .throw s' from h]; rfl)
    rw [if_pos hs] at this
    show Reading.value [s'.mask.toList] = _
    rw [this]
  · intro e' h
    simp only [ActEq.step, ActEq.setMask] at h
    split at h
    · rename_i m' _ hm'; exact setMask_bad hv m' hm'
    all_goals cases h
  · intro e' h
    simp only [ActEq.step, ActEq.setMask] at h
    split at h
    · exact absurd h refill_throw
    · rename_i m' hm'
      cases h
      have := masked_mask (s := e.m) (s' := m') (by rw [hm']; rfl)
      rw [if_pos hs] at this
      show Reading.value [m'.mask.toList] = _
      rw [this]
    all_goals cases h

end

/-! ## Joint limits -/

section
variable [Field K] [LinearOrder K]

theorem jointBounds_readStep (X : Reader) (a : BoundsAttr) :
    ReadStep (fun _ => True) (fun _ => True) (JointBounds.step (K := K)) (jointBounds a)
      (fun s => JointBounds.read X s a) := by
  intro s o _ _
  cases o with
  | setTimeStep dt =>
    constructor
    · intro s' u h
      simp only [JointBounds.step, JointBounds.setTimeStep] at h
      split at h <;> cases h
      cases a <;> exact ⟨trivial, rfl⟩
    · intro s' h
      simp only [JointBounds.step, JointBounds.setTimeStep] at h
      split at h <;> cases h
      exact ⟨trivial, rfl⟩
  | setVelocityBounds l u =>
    constructor
    · intro s' w h
      simp only [JointBounds.step, JointBounds.setVelocityBounds] at h
      split at h <;> try cases h
      split at h <;> cases h
      cases a <;> exact ⟨trivial, rfl⟩
    · intro s' h
      simp only [JointBounds.step, JointBounds.setVelocityBounds] at h
      split at h
      · split at h <;> cases h
        exact ⟨trivial, rfl⟩
      · cases h; exact ⟨trivial, rfl⟩
  | setAccelerationBounds l u =>
    constructor
    · intro s' w h
      simp only [JointBounds.step, JointBounds.setAccelerationBounds] at h
      split at h <;> try cases h
      split at h <;> cases h
      cases a <;> exact ⟨trivial, rfl⟩
    · intro s' h
      simp only [JointBounds.step, JointBounds.setAccelerationBounds] at h
      split at h
      · split at h <;> cases h
        exact ⟨trivial, rfl⟩
      · cases h; exact ⟨trivial, rfl⟩
  | setMask m =>
    constructor
    · intro s' u h; cases h; cases a <;> exact ⟨trivial, rfl⟩
    · intro s' h; cases h
  | compute v =>
    constructor
    · intro s' u h
      simp only [JointBounds.step, JointBounds.compute] at h
      split at h <;> try cases h
      rename_i hc
      split at hc <;> cases hc
      cases a <;> exact ⟨trivial, rfl⟩
    · intro s' h
      simp only [JointBounds.step, JointBounds.compute] at h
      split at h <;> try cases h
      rename_i hc
      split at hc <;> cases hc

/-- C95, `TaskJointBounds`: the getters return the limits last accepted. -/
theorem C95_jointBounds (X : Reader) {name : String} {nv na : Nat} {dt : K} {s : JointBounds K}
    (h : JointBounds.new name nv na dt = some s) (a : BoundsAttr) :
    Reads (fun _ => True) (JointBounds.step (K := K)) (jointBounds a) (fun s => JointBounds.read X s a) s
      (boundsInitial na a) := by
  refine reads_of (jointBounds_readStep X a) trivial ?_
  unfold JointBounds.new at h
  split at h <;> cases h
  cases a <;> exact congrArg (fun l => Reading.value [l]) (toList_const na _)

variable [FloorRing K] [HasSqrt K]

theorem limits_readStep [IsStrictOrderedRing K] {a : LimitsAttr} (ha : a ≠ .inheritedMask) :
    ReadStep (fun s : PosVelAcc K => s.m.con.kind ≠ .bound ∧ s.na ≤ s.nv) (limitMasks a) (PosVelAcc.step (K := K)) (limits a)
      (fun s => PosVelAcc.read .cpp s a) := by
  intro s o hI hP
  cases o with
  | setTimeStep dt =>
    constructor
    · intro s' u h
      simp only [PosVelAcc.step, PosVelAcc.setTimeStep] at h
      split at h <;> cases h
      cases a <;> exact ⟨hI, rfl⟩
    · intro s' h
      simp only [PosVelAcc.step, PosVelAcc.setTimeStep] at h
      split at h <;> cases h
      exact ⟨hI, rfl⟩
  | setPositionBounds l u =>
    constructor
    · intro s' w h
      simp only [PosVelAcc.step, PosVelAcc.setPositionBounds] at h
      split at h <;> try cases h
      split at h <;> cases h
      cases a <;> exact ⟨hI, rfl⟩
    · intro s' h
      simp only [PosVelAcc.step, PosVelAcc.setPositionBounds] at h
      split at h
      · split at h <;> cases h
        exact ⟨hI, rfl⟩
      · cases h; exact ⟨hI, rfl⟩
  | setVelocityBounds u =>
    constructor
    · intro s' w h
      simp only [PosVelAcc.step, PosVelAcc.setVelocityBounds] at h
      split at h <;> cases h
      cases a <;> exact ⟨hI, rfl⟩
    · intro s' h
      simp only [PosVelAcc.step, PosVelAcc.setVelocityBounds] at h
      split at h <;> cases h
      exact ⟨hI, rfl⟩
  | setAccelerationBounds u =>
    constructor
    · intro s' w h
      simp only [PosVelAcc.step, PosVelAcc.setAccelerationBounds] at h
      split at h <;> cases h
      cases a <;> exact ⟨hI, rfl⟩
    · intro s' h
      simp only [PosVelAcc.step, PosVelAcc.setAccelerationBounds] at h
      split at h <;> cases h
      exact ⟨hI, rfl⟩
  | setImposeBounds p v w c =>
    constructor
    · intro s' u h; cases h; cases a <;> exact ⟨hI, rfl⟩
    · intro s' h; cases h
  | setMask m =>
    constructor
    · intro s' u h
      simp only [PosVelAcc.step, PosVelAcc.setMask] at h
      split at h <;> try cases h
      rename_i m' u' hm
      have h1 := masked_mask (s := s.m) (s' := m') (by rw [hm]; rfl)
      have h2 := masked_kind (s := s.m) (s' := m') (by rw [hm]; rfl)
      refine ⟨⟨by show m'.con.kind ≠ _; rw [h2]; exact hI.1, hI.2⟩, ?_⟩
      have hs : m.size = s.na := by
        by_contra hs; rw [setMask_size hs] at hm; cases hm
      rw [if_pos hs] at h1
      cases a <;> try rfl
      · show Reading.vec m'.mask = _
        rw [h1]; rfl
      · exact absurd rfl ha
    · intro s' h
      simp only [PosVelAcc.step, PosVelAcc.setMask] at h
      split at h <;> try cases h
      rename_i m' hm
      have h2 := masked_kind (s := s.m) (s' := m') (by rw [hm]; rfl)
      refine ⟨⟨by show m'.con.kind ≠ _; rw [h2]; exact hI.1, hI.2⟩, ?_⟩
      cases a <;> try rfl
      have := masked_throw hP (by have := hI.2; omega) hI.1 hm
      show Reading.vec m'.mask = Reading.vec s.m.mask
      rw [this]
  | compute q v =>
    constructor
    · intro s' u h
      simp only [PosVelAcc.step, PosVelAcc.compute] at h
      split at h <;> try cases h
      rename_i hc
      split at hc <;> cases hc
      cases a <;> exact ⟨hI, rfl⟩
    · intro s' h
      simp only [PosVelAcc.step, PosVelAcc.compute] at h
      split at h <;> try cases h
      rename_i hc
      split at hc <;> cases hc

/-- C95, `TaskJointPosVelAccBounds`: the getters except `getMask()` return what was last accepted (`mask()` provided
that all masks have the entries 0 and 1). -/
theorem C95_limits_partial [IsStrictOrderedRing K] (X : Reader) {name : String} {nv na : Nat} (hna : na ≤ nv) {dt : K}
    {s : PosVelAcc K} (h : PosVelAcc.new name nv na dt = some s) {a : LimitsAttr} (ha : a ≠ .inheritedMask)
    (hX : X = .cpp ∨ a ≠ .mask) :
    Reads (limitMasks a) (PosVelAcc.step (K := K)) (limits a) (fun s => PosVelAcc.read X s a) s (limitsInitial na a) := by
  have hc : Reads (limitMasks a) (PosVelAcc.step (K := K)) (limits a) (fun s => PosVelAcc.read .cpp s a) s
      (limitsInitial na a) := by
    unfold PosVelAcc.new PosVelAcc.setMask at h
    split at h <;> try cases h
    split at h <;> try cases h
    rename_i hn
    split at hn <;> try cases hn
    rename_i m' u hm
    have h1 := masked_mask (s := (PosVelAcc.pre name nv na dt).m) (s' := m') (by rw [hm]; rfl)
    have h2 := masked_kind (s := (PosVelAcc.pre name nv na dt).m) (s' := m') (by rw [hm]; rfl)
    rw [if_pos (show na = (PosVelAcc.pre name nv na dt).na from rfl)] at h1
    refine reads_of (limits_readStep ha) ⟨?_, hna⟩ ?_
    · show m'.con.kind ≠ _
      rw [h2]; simp [PosVelAcc.pre, Constraint.mkIneq]
    · cases a
      · exact congrArg (fun l => Reading.value [l]) (toList_const na _)
      · exact congrArg (fun l => Reading.value [l]) (toList_const na _)
      · exact congrArg (fun l => Reading.value [l]) (toList_const na _)
      · exact congrArg (fun l => Reading.value [l]) (toList_const na _)
      · show Reading.value [m'.mask.toList] = _
        rw [h1, toList_const]; rfl
      · exact absurd rfl ha
  cases X with
  | cpp => exact hc
  | python => cases a with
    | inheritedMask => exact absurd rfl ha
    | mask => simp at hX
    | posLower => exact hc
    | posUpper => exact hc
    | vel => exact hc
    | acc => exact hc

omit [HasSqrt K] in
/-- C95, finding: `getMask()` of a `TaskJointPosVelAccBounds` returns the empty vector and `hasMask()` returns false,
whatever mask is set: the class hides the member that they read. -/
theorem C95_limits_getMask (s : PosVelAcc K) :
    PosVelAcc.read .cpp s .inheritedMask = .value [[]] ∧ s.hasMask = false := ⟨rfl, rfl⟩

end

/-! ## Examples -/

/-- A robot with two joints on a fixed base. -/
def attrRobot : PostureRobot ℚ := ⟨2, 2, 2, Vec.zero 2, fun a b => b.sub a⟩

/-- The lists read. -/
def attrLists : Reading ℚ → List (List ℚ)
  | .value l => l
  | _ => []

/-- A gain is accepted, another one is rejected because of its size, a mask is accepted, another one is rejected because
of an entry: the gains are the first, the mask is the second. -/
def attrPostureOps : List (Posture.Op ℚ) :=
  [.setKp ⟨2, fun i => if i = 0 then 3 else 4⟩, .setKp ⟨3, fun _ => 9⟩, .setMask ⟨2, fun i => if i = 0 then 1 else 0⟩,
    .compute ⟨2, fun _ => 1⟩ ⟨2, fun _ => 1⟩, .setMask ⟨2, fun i => if i = 0 then 0 else 2⟩]

example : ((Posture.new attrRobot "posture").state?.bind fun s =>
    (runOps (Posture.step attrRobot) s attrPostureOps).map fun s' =>
      (attrLists (Posture.read .python s' .kp), attrLists (Posture.read .python s' .mask))) =
    some ([[3, 4]], [[0, 2]]) := by
  decide +kernel

example : ((Posture.new attrRobot "posture").state?.map fun s =>
    (lastAccepted (Posture.step attrRobot) (posture .kp) (postureInitial 2 2 .kp) s attrPostureOps,
      lastAccepted (Posture.step attrRobot) (posture .mask) (postureInitial 2 2 .mask) s attrPostureOps)) =
    some ([[3, 4]], [[1, 0]]) := by
  decide +kernel

/-- Bounds on two torques, then a mask that selects one of them. -/
def attrActOps : List (ActBounds.Op ℚ) :=
  [.setBounds ⟨2, fun _ => -5⟩ ⟨2, fun _ => 5⟩, .setBounds ⟨1, fun _ => -6⟩ ⟨2, fun _ => 6⟩,
    .mask ⟨2, fun i => if i = 0 then 0 else 1⟩]

example : ((ActBounds.new (K := ℚ) "torque" 2).state?.bind fun s =>
    (runOps (ActBounds.step 2) s (attrActOps.take 2)).map fun s' =>
      (attrLists (ActBounds.read .cpp s' .lower), attrLists (ActBounds.read .cpp s' .upper))) =
    some ([[-5, -5]], [[5, 5]]) := by
  decide +kernel

example : ((ActBounds.new (K := ℚ) "torque" 2).state?.bind fun s =>
    (runOps (ActBounds.step 2) s attrActOps).map fun s' =>
      (attrLists (ActBounds.read .cpp s' .lower), attrLists (ActBounds.read .cpp s' .upper))) =
    some ([[0]], [[0]]) := by
  decide +kernel

/-- A mask with the entry 2 is stored and rejected. -/
example : ¬ ZeroOne (⟨2, fun i => if i = 0 then 0 else 2⟩ : Vec ℚ) := by
  intro h
  have := h 1 (by decide)
  revert this
  decide +kernel

example : ((ActEq.new (K := ℚ) "torque" 2).state?.bind fun s =>
    match ActEq.step 2 s (.mask ⟨2, fun i => if i = 0 then 0 else 2⟩) with
    | .throw s' => some (attrLists (ActEq.read .python s' .mask))
    | _ => none) = some [[0, 2]] := by
  decide +kernel

/-- Limits of two joints. -/
example : ((PosVelAcc.new (K := ℚ) "limits" 8 2 (1 / 100)).bind fun s =>
    (runOps (PosVelAcc.step (K := ℚ)) s [.setPositionBounds ⟨2, fun _ => -2⟩ ⟨2, fun _ => 3⟩, .setVelocityBounds ⟨1, fun _ => 7⟩,
      .setMask ⟨2, fun i => if i = 0 then 1 else 0⟩]).map fun s' =>
      (attrLists (PosVelAcc.read .python s' .posUpper), attrLists (PosVelAcc.read .python s' .vel),
        attrLists (PosVelAcc.read .cpp s' .mask), attrLists (PosVelAcc.read .cpp s' .inheritedMask))) =
    some ([[3, 3]], [[10000000000, 10000000000]], [[1, 0]], [[]]) := by
  decide +kernel

example : ((JointBounds.new (K := ℚ) "limits" 8 2 (1 / 100)).bind fun s =>
    (runOps (JointBounds.step (K := ℚ)) s [.setVelocityBounds ⟨2, fun _ => -2⟩ ⟨2, fun _ => 3⟩,
      .setVelocityBounds ⟨2, fun _ => -9⟩ ⟨1, fun _ => 9⟩, .compute ⟨8, fun _ => 1⟩]).map fun s' =>
      (attrLists (JointBounds.read .python s' .velLower), attrLists (JointBounds.read .python s' .velUpper))) =
    some ([[-2, -2]], [[3, 3]]) := by
  decide +kernel

end Tsid
