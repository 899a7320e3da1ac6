import Verif.Lemmas.Attributes

/-!
# C95: reading a setting yields what was last accepted

For every class with setters: the getter of C++ and the attribute of Python, after any history of calls.
-/

set_option linter.unusedSectionVars false

namespace Tsid
open Spec.Attributes

variable {K : Type}

/-! ## Frames -/

section
variable [Field K] [LinearOrder K] [FloorRing K]

theorem se3_readStep (log3 : M3 K → V3 K) (a : SE3Attr) :
    ReadStep (fun _ => True) (se3Calls a) (SE3Task.step log3) (se3 a) (fun s => SE3Task.read .cpp s a) := by
  intro s o _ hP
  cases o with
  | setMask g m =>
    have hm := cartRows_setMask (g := g) (cols := s.nv) (s := s.rows) (m := m)
    constructor
    · intro s' u h
      refine ⟨trivial, ?_⟩
      simp only [SE3Task.step, SE3Task.setMask] at h
      split at h
      · rename_i r _ hr
        cases h
        have := hm.1 r hr
        cases a <;> simp only [SE3Task.read, se3]
        rw [this]; rfl
      all_goals cases h
    · intro s' h
      simp only [SE3Task.step, SE3Task.setMask] at h
      split at h
      · cases h
      · rename_i r hr; exact absurd hr (hm.2 r)
      all_goals cases h
  | setKp k =>
    constructor <;> intro s' <;> simp only [SE3Task.step, SE3Task.setKp] <;> split
    all_goals first | (intro u h; cases h; cases a <;> exact ⟨trivial, rfl⟩) | (intro h; cases h; exact ⟨trivial, rfl⟩) |
      (intro u h; cases h) | (intro h; cases h)
  | setKd k =>
    constructor <;> intro s' <;> simp only [SE3Task.step, SE3Task.setKd] <;> split
    all_goals first | (intro u h; cases h; cases a <;> exact ⟨trivial, rfl⟩) | (intro h; cases h; exact ⟨trivial, rfl⟩) |
      (intro u h; cases h) | (intro h; cases h)
  | setReference r =>
    constructor
    · intro s' u h
      simp only [SE3Task.step, SE3Task.setReference] at h
      split at h
      · split at h
        · cases h; cases a <;> exact ⟨trivial, rfl⟩
        · cases h
      · cases h
    · intro s' h
      simp only [SE3Task.step, SE3Task.setReference] at h
      split at h
      · split at h <;> cases h
      · rename_i hne
        cases h
        cases a with
        | reference => exact absurd hP hne
        | _ => exact ⟨trivial, rfl⟩
  | setReferencePose M =>
    have hv : ∃ p, M.toVector (Sample.zero 12 6 : Sample K).pos = some p := ⟨_, if_pos rfl⟩
    obtain ⟨p, hp⟩ := hv
    have hsz : p.size = 12 := by
      unfold SE3.toVector at hp; rw [if_pos (show (Sample.zero 12 6 : Sample K).pos.size = 12 from rfl)] at hp; cases hp; rfl
    have hstep : SE3Task.step log3 s (.setReferencePose M) = SE3Task.setReference s { Sample.zero 12 6 with pos := p } := by
      simp only [SE3Task.step, SE3Task.setReferencePose, hp]
    rw [SE3Task.setReference, if_pos hsz, if_pos ⟨rfl, rfl⟩] at hstep
    constructor
    · intro s' u h
      rw [hstep] at h
      cases h
      refine ⟨trivial, ?_⟩
      cases a <;> try rfl
      show Reading.value [p.toList, (Vec.zero 6 : Vec K).toList, (Vec.zero 6 : Vec K).toList] = _
      rw [toVector_coeffs hp, toList_zero]
      rfl
    · intro s' h
      rw [hstep] at h
      cases h
  | useLocalFrame b =>
    constructor
    · intro s' u h; cases h; cases a <;> exact ⟨trivial, rfl⟩
    · intro s' h; cases h
  | compute k =>
    constructor
    · intro s' u h
      simp only [SE3Task.step, SE3Task.compute] at h
      split at h <;> try cases h
      rename_i s1 c hc
      split at hc <;> try cases hc
      split at hc <;> try cases hc
      split at hc <;> try cases hc
      rename_i r hr
      have := fill_mask _ _ _ _ hr
      refine ⟨trivial, ?_⟩
      cases a <;> try rfl
      show Reading.vec r.mask = Reading.vec s.rows.mask
      rw [this]
    · intro s' h
      simp only [SE3Task.step, SE3Task.compute] at h
      split at h <;> try cases h
      rename_i hc
      split at hc
      · split at hc
        · split at hc <;> cases hc
        · cases hc
      all_goals (cases hc; cases a <;> exact ⟨trivial, rfl⟩)

/-- A new task for a frame. -/
theorem se3_initial {g : Nat → K} {name : String} {nv : Nat} {b : Bool} {s : SE3Task K}
    (h : SE3Task.new g name nv b = .ok s ()) (a : SE3Attr) : SE3Task.read .cpp s a = .value (se3Initial 12 6 a) := by
  unfold SE3Task.new at h
  split at h
  · unfold SE3Task.setMask at h
    split at h <;> try cases h
    rename_i r _ hr
    have := cartRows_setMask.1 r hr
    cases a
    · exact congrArg (fun l => Reading.value [l]) (toList_zero 6)
    · exact congrArg (fun l => Reading.value [l]) (toList_zero 6)
    · show Reading.value [r.mask.toList] = _
      rw [this, toList_const]; rfl
    · show Reading.value [(Vec.zero 12 : Vec K).toList, (Vec.zero 6 : Vec K).toList, (Vec.zero 6 : Vec K).toList] = _
      rw [toList_zero, toList_zero]; rfl
  · cases h

/-- C95, `TaskSE3Equality`: the getters return what was last accepted (the getter of the reference provided that all
samples have 12 coefficients). -/
theorem C95_se3_partial (log3 : M3 K → V3 K) {g : Nat → K} {name : String} {nv : Nat} {b : Bool} {s : SE3Task K}
    (h : SE3Task.new g name nv b = .ok s ()) (a : SE3Attr) :
    Reads (se3Calls a) (SE3Task.step log3) (se3 a) (fun s => SE3Task.read .cpp s a) s (se3Initial 12 6 a) :=
  reads_of (se3_readStep log3 a) trivial (se3_initial h a)

/-- C95: from Python the gains are read as in C++. -/
theorem C95_se3_python (log3 : M3 K → V3 K) {g : Nat → K} {name : String} {nv : Nat} {b : Bool} {s : SE3Task K}
    (h : SE3Task.new g name nv b = .ok s ()) {a : SE3Attr} (ha : a = .kp ∨ a = .kd) :
    Reads (fun _ => True) (SE3Task.step log3) (se3 a) (fun s => SE3Task.read .python s a) s (se3Initial 12 6 a) := by
  intro ops _ s' hs'
  rcases ha with rfl | rfl
  · exact C95_se3_partial log3 h .kp ops (fun o _ => by cases o <;> trivial) s' hs'
  · exact C95_se3_partial log3 h .kd ops (fun o _ => by cases o <;> trivial) s' hs'

/-- C95, finding: the Python attribute `mask` of a `TaskSE3Equality` is `None`, whatever was set. -/
theorem C95_se3_python_mask (s : SE3Task K) : SE3Task.read .python s .mask = .none := rfl

/-- C95, finding: a reference that `setReference` rejects is returned by `getReference` all the same. -/
theorem C95_se3_rejected (log3 : M3 K → V3 K) (s : SE3Task K) (r : Sample K) (h : r.pos.size ≠ 12) :
    ∃ s', SE3Task.step log3 s (.setReference r) = .throw s' ∧ SE3Task.read .cpp s' .reference = .value (parts r) :=
  ⟨{ s with ref := r }, by simp only [SE3Task.step, SE3Task.setReference, if_neg h], rfl⟩

theorem twoFrames_readStep (nd : Bool) (log3 : M3 K → V3 K) (a : GainAttr) :
    ReadStep (fun _ => True) (fun _ => True) (TwoFrames.step nd log3) (twoFrames a)
      (fun s => TwoFrames.read .cpp s a) := by
  intro s o _ _
  cases o with
  | setMask g m =>
    have hm := cartRows_setMask (g := g) (cols := s.nv) (s := s.rows) (m := m)
    constructor
    · intro s' u h
      refine ⟨trivial, ?_⟩
      simp only [TwoFrames.step, TwoFrames.setMask] at h
      split at h
      · rename_i r _ hr
        cases h
        have := hm.1 r hr
        cases a <;> simp only [TwoFrames.read, twoFrames]
        rw [this]; rfl
      all_goals cases h
    · intro s' h
      simp only [TwoFrames.step, TwoFrames.setMask] at h
      split at h
      · cases h
      · rename_i r hr; exact absurd hr (hm.2 r)
      all_goals cases h
  | setKp k =>
    constructor
    · intro s' u h
      simp only [TwoFrames.step, TwoFrames.setKp] at h
      split at h
      · cases h; cases a <;> exact ⟨trivial, rfl⟩
      · split at h <;> cases h
        cases a <;> exact ⟨trivial, rfl⟩
    · intro s' h
      simp only [TwoFrames.step, TwoFrames.setKp] at h
      split at h
      · cases h
      · split at h <;> cases h
  | setKd k =>
    constructor
    · intro s' u h
      simp only [TwoFrames.step, TwoFrames.setKd] at h
      split at h
      · cases h; cases a <;> exact ⟨trivial, rfl⟩
      · split at h <;> cases h
        cases a <;> exact ⟨trivial, rfl⟩
    · intro s' h
      simp only [TwoFrames.step, TwoFrames.setKd] at h
      split at h
      · cases h
      · split at h <;> cases h
  | compute k1 k2 =>
    constructor
    · intro s' u h
      simp only [TwoFrames.step, TwoFrames.compute] at h
      split at h <;> try cases h
      rename_i s1 c hc
      split at hc <;> try cases hc
      split at hc <;> try cases hc
      rename_i r hr
      have := fill_mask _ _ _ _ hr
      refine ⟨trivial, ?_⟩
      cases a <;> try rfl
      show Reading.vec r.mask = Reading.vec s.rows.mask
      rw [this]
    · intro s' h
      simp only [TwoFrames.step, TwoFrames.compute] at h
      split at h <;> try cases h
      rename_i hc
      split at hc
      · split at hc <;> cases hc
      · cases hc

theorem twoFrames_initial {g : Nat → K} {name : String} {nv : Nat} {s : TwoFrames K}
    (h : TwoFrames.new g name nv = .ok s ()) (a : GainAttr) : TwoFrames.read .cpp s a = .value (gainInitial 6 a) := by
  unfold TwoFrames.new TwoFrames.setMask at h
  split at h <;> try cases h
  rename_i r _ hr
  have := cartRows_setMask.1 r hr
  cases a
  · exact congrArg (fun l => Reading.value [l]) (toList_zero 6)
  · exact congrArg (fun l => Reading.value [l]) (toList_zero 6)
  · show Reading.value [r.mask.toList] = _
    rw [this, toList_const]; rfl

/-- C95, `TaskTwoFramesEquality`: in every build, the getters return what was last accepted. -/
theorem C95_twoFrames (nd : Bool) (log3 : M3 K → V3 K) {g : Nat → K} {name : String} {nv : Nat} {s : TwoFrames K}
    (h : TwoFrames.new g name nv = .ok s ()) (a : GainAttr) :
    Reads (fun _ => True) (TwoFrames.step nd log3) (twoFrames a) (fun s => TwoFrames.read .cpp s a) s (gainInitial 6 a) :=
  reads_of (twoFrames_readStep nd log3 a) trivial (twoFrames_initial h a)

/-- C95: from Python the gains are read as in C++. -/
theorem C95_twoFrames_python (nd : Bool) (log3 : M3 K → V3 K) {g : Nat → K} {name : String} {nv : Nat} {s : TwoFrames K}
    (h : TwoFrames.new g name nv = .ok s ()) {a : GainAttr} (ha : a ≠ .mask) :
    Reads (fun _ => True) (TwoFrames.step nd log3) (twoFrames a) (fun s => TwoFrames.read .python s a) s
      (gainInitial 6 a) := by
  intro ops hP s' hs'
  cases a with
  | kp => exact C95_twoFrames nd log3 h .kp ops hP s' hs'
  | kd => exact C95_twoFrames nd log3 h .kd ops hP s' hs'
  | mask => exact absurd rfl ha

/-- C95, finding: the Python attribute `mask` of a `TaskTwoFramesEquality` is `None`, whatever was set. -/
theorem C95_twoFrames_python_mask (s : TwoFrames K) : TwoFrames.read .python s .mask = .none := rfl

theorem com_readStep (a : SE3Attr) :
    ReadStep (fun _ => True) (fun _ => True) (ComTask.step (K := K)) (com a) (fun s => ComTask.read .cpp s a) := by
  intro s o _ _
  cases o with
  | setMask g m =>
    have hm := cartRows_setMask (g := g) (cols := s.nv) (s := s.rows) (m := m)
    constructor
    · intro s' u h
      refine ⟨trivial, ?_⟩
      simp only [ComTask.step, ComTask.setMask] at h
      split at h <;> try cases h
      split at h
      · rename_i r _ hr
        cases h
        have := hm.1 r hr
        cases a <;> simp only [ComTask.read, com]
        rw [this]; rfl
      all_goals cases h
    · intro s' h
      simp only [ComTask.step, ComTask.setMask] at h
      split at h
      · split at h
        · cases h
        · rename_i r hr; exact absurd hr (hm.2 r)
        all_goals cases h
      · cases h; exact ⟨trivial, rfl⟩
  | setKp k =>
    constructor
    · intro s' u h
      simp only [ComTask.step, ComTask.setKp] at h
      split at h <;> cases h
      rename_i hk
      refine ⟨trivial, ?_⟩
      cases a <;> try rfl
      exact congrArg (fun l => Reading.value [l]) (toList_v3 hk)
    · intro s' h
      simp only [ComTask.step, ComTask.setKp] at h
      split at h <;> cases h
      exact ⟨trivial, rfl⟩
  | setKd k =>
    constructor
    · intro s' u h
      simp only [ComTask.step, ComTask.setKd] at h
      split at h <;> cases h
      rename_i hk
      refine ⟨trivial, ?_⟩
      cases a <;> try rfl
      exact congrArg (fun l => Reading.value [l]) (toList_v3 hk)
    · intro s' h
      simp only [ComTask.step, ComTask.setKd] at h
      split at h <;> cases h
      exact ⟨trivial, rfl⟩
  | setReference r =>
    constructor
    · intro s' u h; cases h; cases a <;> exact ⟨trivial, rfl⟩
    · intro s' h; cases h
  | compute k =>
    constructor
    · intro s' u h
      simp only [ComTask.step, ComTask.compute] at h
      split at h <;> try cases h
      rename_i s1 c hc
      split at hc <;> try cases hc
      split at hc <;> try cases hc
      rename_i r hr
      have := fill_mask _ _ _ _ hr
      refine ⟨trivial, ?_⟩
      cases a <;> try rfl
      show Reading.vec r.mask = Reading.vec s.rows.mask
      rw [this]
    · intro s' h
      simp only [ComTask.step, ComTask.compute] at h
      split at h <;> try cases h
      rename_i hc
      split at hc
      · split at hc <;> cases hc
      · cases hc

theorem com_initial {g : Nat → K} {name : String} {nv : Nat} {s : ComTask K}
    (h : ComTask.new g name nv = .ok s ()) (a : SE3Attr) : ComTask.read .cpp s a = .value (se3Initial 3 3 a) := by
  unfold ComTask.new ComTask.setMask at h
  split at h <;> try cases h
  split at h <;> try cases h
  rename_i r _ hr
  have := cartRows_setMask.1 r hr
  cases a
  · rfl
  · rfl
  · show Reading.value [r.mask.toList] = _
    rw [this, toList_const]; rfl
  · show Reading.value [(Vec.zero 3 : Vec K).toList, (Vec.zero 3 : Vec K).toList, (Vec.zero 3 : Vec K).toList] = _
    rw [toList_zero]; rfl

/-- C95, `TaskComEquality`: the getters return what was last accepted; so do the Python attributes `Kp`, `Kd`, `mask`. -/
theorem C95_com (R : Reader) {g : Nat → K} {name : String} {nv : Nat} {s : ComTask K}
    (h : ComTask.new g name nv = .ok s ()) {a : SE3Attr} (ha : R = .cpp ∨ a ≠ .reference) :
    Reads (fun _ => True) (ComTask.step (K := K)) (com a) (fun s => ComTask.read R s a) s (se3Initial 3 3 a) := by
  have hc := reads_of (com_readStep a) trivial (com_initial h a)
  cases R with
  | cpp => exact hc
  | python => cases a with
    | reference => simp at ha
    | kp => exact hc
    | kd => exact hc
    | mask => exact hc

end

/-! ## Angular momentum -/

section
variable [Field K]

theorem am_readStep (a : SE3Attr) :
    ReadStep (fun _ => True) (fun _ => True) (AmTask.step (K := K)) (am a) (fun s => AmTask.read .cpp s a) := by
  intro s o _ _
  cases o with
  | setMask m =>
    constructor
    · intro s' u h; cases h; cases a <;> exact ⟨trivial, rfl⟩
    · intro s' h; cases h
  | setKp k =>
    constructor
    · intro s' u h
      simp only [AmTask.step, AmTask.setKp] at h
      split at h <;> cases h
      rename_i hk
      refine ⟨trivial, ?_⟩
      cases a <;> try rfl
      exact congrArg (fun l => Reading.value [l]) (toList_v3 hk)
    · intro s' h
      simp only [AmTask.step, AmTask.setKp] at h
      split at h <;> cases h
      exact ⟨trivial, rfl⟩
  | setKd k =>
    constructor
    · intro s' u h
      simp only [AmTask.step, AmTask.setKd] at h
      split at h <;> cases h
      rename_i hk
      refine ⟨trivial, ?_⟩
      cases a <;> try rfl
      exact congrArg (fun l => Reading.value [l]) (toList_v3 hk)
    · intro s' h
      simp only [AmTask.step, AmTask.setKd] at h
      split at h <;> cases h
      exact ⟨trivial, rfl⟩
  | setReference r =>
    constructor
    · intro s' u h; cases h; cases a <;> exact ⟨trivial, rfl⟩
    · intro s' h; cases h
  | compute v A d =>
    constructor
    · intro s' u h
      simp only [AmTask.step] at h
      split at h <;> try cases h
      rename_i s1 c hc
      unfold AmTask.compute at hc
      split at hc <;> try cases hc
      simp only at hc
      split at hc <;> try cases hc
      split at hc <;> try cases hc
      cases a <;> exact ⟨trivial, rfl⟩
    · intro s' h
      simp only [AmTask.step] at h
      split at h <;> try cases h
      rename_i hc
      unfold AmTask.compute at hc
      split at hc <;> try cases hc
      simp only at hc
      split at hc
      · split at hc <;> cases hc
      · cases hc; cases a <;> exact ⟨trivial, rfl⟩
      · cases hc

/-- C95, `TaskAMEquality`: the getters return what was last accepted; so do the Python attributes `Kp`, `Kd`. -/
theorem C95_am (R : Reader) (g : Nat → K) (name : String) (nv : Nat) {a : SE3Attr}
    (ha : R = .cpp ∨ a = .kp ∨ a = .kd) :
    Reads (fun _ => True) (AmTask.step (K := K)) (am a) (fun s => AmTask.read R s a) (AmTask.new g name nv)
      (amInitial a) := by
  have hc : Reads (fun _ => True) (AmTask.step (K := K)) (am a) (fun s => AmTask.read .cpp s a) (AmTask.new g name nv)
      (amInitial a) := by
    refine reads_of (am_readStep a) trivial ?_
    cases a
    · rfl
    · rfl
    · rfl
    · show Reading.value [(Vec.zero 3 : Vec K).toList, (Vec.zero 3 : Vec K).toList, (Vec.zero 3 : Vec K).toList] = _
      rw [toList_zero]; rfl
  cases R with
  | cpp => exact hc
  | python =>
    rcases ha with h | rfl | rfl
    · cases h
    · exact hc
    · exact hc

end

/-! ## Gains of the contacts -/

section
variable [Field K] [LinearOrder K] [FloorRing K]

theorem point_readStep (log3 : M3 K → V3 K) (R : Reader) (d : Bool) :
    ReadStep (fun _ => True) (fun _ => True) (PointMotion.step log3) (pointGains d)
      (fun s => PointMotion.read R s d) := by
  intro s o _ _
  cases o with
  | setKp g k =>
    constructor
    · intro s' u h
      simp only [PointMotion.step, SE3Task.setKp] at h
      by_cases hk : k.size = 3
      swap
      · rw [if_neg hk] at h; cases h
      rw [if_pos hk] at h
      rw [if_pos gains6_size] at h
      cases h
      refine ⟨trivial, ?_⟩
      cases d
      · exact congrArg (fun l => Reading.value [l]) (toList_head hk)
      · rfl
    · intro s' h
      simp only [PointMotion.step, SE3Task.setKp] at h
      split at h
      · rw [if_pos gains6_size] at h; cases h
      · cases h; exact ⟨trivial, rfl⟩
  | setKd g k =>
    constructor
    · intro s' u h
      simp only [PointMotion.step, SE3Task.setKd] at h
      by_cases hk : k.size = 3
      swap
      · rw [if_neg hk] at h; cases h
      rw [if_pos hk] at h
      rw [if_pos gains6_size] at h
      cases h
      refine ⟨trivial, ?_⟩
      cases d
      · rfl
      · exact congrArg (fun l => Reading.value [l]) (toList_head hk)
    · intro s' h
      simp only [PointMotion.step, SE3Task.setKd] at h
      split at h
      · rw [if_pos gains6_size] at h; cases h
      · cases h; exact ⟨trivial, rfl⟩
  | setReference M =>
    have hs := se3_readStep log3
    constructor
    · intro s' u h
      refine ⟨trivial, ?_⟩
      obtain ⟨p, hp⟩ : ∃ p, M.toVector (Sample.zero 12 6 : Sample K).pos = some p := ⟨_, if_pos rfl⟩
      simp only [PointMotion.step, SE3Task.setReferencePose, hp, SE3Task.setReference] at h
      split at h
      · split at h <;> cases h
        cases d <;> rfl
      · cases h
    · intro s' h
      refine ⟨trivial, ?_⟩
      obtain ⟨p, hp⟩ : ∃ p, M.toVector (Sample.zero 12 6 : Sample K).pos = some p := ⟨_, if_pos rfl⟩
      simp only [PointMotion.step, SE3Task.setReferencePose, hp, SE3Task.setReference] at h
      split at h
      · split at h <;> cases h
      · cases h; cases d <;> rfl
  | useLocalFrame b =>
    constructor
    · intro s' u h; cases h; cases d <;> exact ⟨trivial, rfl⟩
    · intro s' h; cases h
  | compute k =>
    constructor
    · intro s' u h
      simp only [PointMotion.step, SE3Task.step, SE3Task.compute] at h
      split at h <;> try cases h
      rename_i s1 c hc
      split at hc <;> try cases hc
      split at hc <;> try cases hc
      split at hc <;> try cases hc
      cases d <;> exact ⟨trivial, rfl⟩
    · intro s' h
      simp only [PointMotion.step, SE3Task.step, SE3Task.compute] at h
      split at h <;> try cases h
      rename_i hc
      split at hc
      · split at hc
        · split at hc <;> cases hc
        · cases hc
      all_goals (cases hc; cases d <;> exact ⟨trivial, rfl⟩)

/-- C95, `ContactPoint`: `Kp()` and `Kd()` return the three gains last accepted, in C++ and in Python. -/
theorem C95_point (log3 : M3 K → V3 K) (R : Reader) {g g' : Nat → K} {name : String} {nv : Nat} {b : Bool}
    {s : SE3Task K} (h : PointMotion.new g g' name nv b = .ok s ()) (d : Bool) :
    Reads (fun _ => True) (PointMotion.step log3) (pointGains d) (fun s => PointMotion.read R s d) s
      [List.replicate 3 0] := by
  refine reads_of (point_readStep log3 R d) trivial ?_
  unfold PointMotion.new at h
  split at h
  · rename_i s0 u h0
    unfold SE3Task.new at h0
    split at h0 <;> try cases h0
    unfold SE3Task.setMask at h0 h
    split at h0 <;> try cases h0
    split at h <;> try cases h
    cases d <;> exact congrArg (fun l => Reading.value [l]) (toList_zero 3)
  · rename_i hn
    exact absurd h (hn s ())

theorem pair_readStep (nd : Bool) (log3 : M3 K → V3 K) (R : Reader) (d : Bool) :
    ReadStep (fun _ => True) (fun _ => True) (PairMotion.step nd log3) (pairGains d)
      (fun s => PairMotion.read R s d) := by
  intro s o _ _
  cases o with
  | setKp g k =>
    constructor
    · intro s' u h
      simp only [PairMotion.step, TwoFrames.setKp] at h
      split at h
      · rename_i hk
        rw [if_pos gains6_size] at h
        cases h
        refine ⟨trivial, ?_⟩
        cases d
        · exact congrArg (fun l => Reading.value [l]) (toList_head hk)
        · rfl
      · split at h <;> cases h
    · intro s' h
      simp only [PairMotion.step, TwoFrames.setKp] at h
      split at h
      · rw [if_pos gains6_size] at h; cases h
      · split at h <;> cases h
  | setKd g k =>
    constructor
    · intro s' u h
      simp only [PairMotion.step, TwoFrames.setKd] at h
      split at h
      · rename_i hk
        rw [if_pos gains6_size] at h
        cases h
        refine ⟨trivial, ?_⟩
        cases d
        · rfl
        · exact congrArg (fun l => Reading.value [l]) (toList_head hk)
      · split at h <;> cases h
    · intro s' h
      simp only [PairMotion.step, TwoFrames.setKd] at h
      split at h
      · rw [if_pos gains6_size] at h; cases h
      · split at h <;> cases h
  | compute k1 k2 =>
    constructor
    · intro s' u h
      simp only [PairMotion.step, TwoFrames.step, TwoFrames.compute] at h
      split at h <;> try cases h
      rename_i s1 c hc
      split at hc <;> try cases hc
      split at hc <;> try cases hc
      cases d <;> exact ⟨trivial, rfl⟩
    · intro s' h
      simp only [PairMotion.step, TwoFrames.step, TwoFrames.compute] at h
      split at h <;> try cases h
      rename_i hc
      split at hc
      · split at hc <;> cases hc
      · cases hc

/-- C95, `ContactTwoFramePositions`: `Kp()` and `Kd()` return the three gains last accepted, in C++ and in Python. -/
theorem C95_pair (nd : Bool) (log3 : M3 K → V3 K) (R : Reader) {g g' : Nat → K} {name : String} {nv : Nat}
    {s : TwoFrames K} (h : PairMotion.new g g' name nv = .ok s ()) (d : Bool) :
    Reads (fun _ => True) (PairMotion.step nd log3) (pairGains d) (fun s => PairMotion.read R s d) s
      [List.replicate 3 0] := by
  refine reads_of (pair_readStep nd log3 R d) trivial ?_
  unfold PairMotion.new at h
  split at h
  · rename_i s0 u h0
    unfold TwoFrames.new TwoFrames.setMask at h0
    unfold TwoFrames.setMask at h
    split at h0 <;> try cases h0
    split at h <;> try cases h
    cases d <;> exact congrArg (fun l => Reading.value [l]) (toList_zero 3)
  · rename_i hn
    exact absurd h (hn s ())

end

/-! ## Examples -/

/-- Gains, a rejected gain, a mask, a pose and a rejected sample. -/
def attrFrameOps : List (SE3Task.Op ℚ) :=
  [.setKp ⟨6, fun i => i⟩, .setKp ⟨5, fun _ => 9⟩, .setMask (fun _ => 0) ⟨6, fun i => if i < 2 then 1 else 0⟩,
    .setReferencePose SE3.one, .setReference ⟨⟨1, fun _ => 8⟩, ⟨6, fun _ => 0⟩, ⟨6, fun _ => 0⟩⟩]

/-- What is read from a frame task after a history of calls. -/
def attrFrame (R : Reader) (a : SE3Attr) (ops : List (SE3Task.Op ℚ)) : Option (List (List ℚ)) :=
  ((SE3Task.new (fun _ => 0) "frame" 7 true).state?.bind fun s => runOps (SE3Task.step fun _ => 0) s ops).bind fun s =>
    match SE3Task.read R s a with
    | .value l => some l
    | _ => none

example : attrFrame .cpp .kp attrFrameOps = some [[0, 1, 2, 3, 4, 5]] := by decide +kernel
example : attrFrame .python .kp attrFrameOps = some [[0, 1, 2, 3, 4, 5]] := by decide +kernel
example : attrFrame .cpp .mask attrFrameOps = some [[1, 1, 0, 0, 0, 0]] := by decide +kernel
example : attrFrame .python .mask attrFrameOps = none := by decide +kernel
example : attrFrame .cpp .reference (attrFrameOps.take 4) =
    some [[0, 0, 0, 1, 0, 0, 0, 1, 0, 0, 0, 1], [0, 0, 0, 0, 0, 0], [0, 0, 0, 0, 0, 0]] := by decide +kernel
example : attrFrame .cpp .reference attrFrameOps = some [[8], [0, 0, 0, 0, 0, 0], [0, 0, 0, 0, 0, 0]] := by
  decide +kernel

example : ∀ o ∈ attrFrameOps.take 4, se3Calls .reference o := by
  intro o ho
  simp only [attrFrameOps, List.take, List.mem_cons, List.not_mem_nil, or_false] at ho
  rcases ho with rfl | rfl | rfl | rfl <;> trivial

/-- The gains of a point contact: a size other than three is rejected. -/
example : ((PointMotion.new (fun _ => (0 : ℚ)) (fun _ => 0) "point" 7 true).state?.bind fun s =>
    runOps (PointMotion.step fun _ => 0) s [.setKp (fun _ => 77) ⟨3, fun i => i + 1⟩, .setKp (fun _ => 77) ⟨6, fun _ => 9⟩]).bind
    (fun s => match PointMotion.read .python s false with | .value l => some l | _ => none) = some [[1, 2, 3]] := by
  decide +kernel

end Tsid
