import Verif.Lemmas.Mask
import Verif.Spec.JointTasks

/-!
# Histories of `TaskJointPosture`, `TaskActuationEquality` and `TaskActuationBounds`
-/

set_option linter.unusedSectionVars false

namespace Tsid

open Spec Finset

variable {K : Type} [Field K] [LinearOrder K] [IsStrictOrderedRing K] [FloorRing K]

theorem adm_ones (na : Nat) : ValidMask na (⟨na, fun _ => 1⟩ : Vec K) := ⟨rfl, fun _ _ => Or.inr rfl⟩

theorem count_ones (na n : Nat) : countSelected (⟨na, fun _ => 1⟩ : Vec K) n = n := by
  induction n with
  | zero => rfl
  | succ n ih => rw [countSelected, ih, if_pos rfl]

/-- The constraint kept by an equality task with the mask `m` and the value `w` written for a joint. -/
structure MaskInv (na cols off : Nat) (w : Nat → K) (m : Vec K) (s : Masked K) : Prop where
  mask : s.mask = m
  adm : ValidMask na m
  axes : s.axes = (sel m (List.range na)).map some
  kind : s.con.kind = .equality
  mat : s.con.mat = selMat (sel m (List.range na)).length cols off w (sel m (List.range na))
  size : s.con.vec.size = (sel m (List.range na)).length

theorem maskInv_setMask {na cols off : Nat} {w : Nat → K} {s : Masked K} {m : Vec K} (hcol : off + na ≤ cols)
    (h : ValidMask na m) (hk : s.con.kind = .equality) :
    ∃ s', s.setMask na cols off w m = .ok s' () ∧ MaskInv na cols off w m s' := by
  refine ⟨_, setMask_ok h hcol (by rw [hk]; decide), ?_⟩
  refine ⟨rfl, h, rfl, ?_, ?_, ?_⟩ <;> simp [maskCon, hk, Vec.zero]

/-! ## Posture -/

namespace Posture

/-- What holds of the task between two calls. -/
structure Inv (R : PostureRobot K) (p : PostureSettings K) (s : Posture K) : Prop where
  kp : s.kp = p.kp
  kd : s.kd = p.kd
  ref : s.ref = p.ref
  pos : p.ref.pos.size = R.nqa
  aug : s.refAug.size = R.neutral.size
  base : ∀ i, i < R.neutral.size - R.nqa → s.refAug i = R.neutral i
  m : MaskInv R.na R.nv (R.nv - R.na) (fun _ => 1) p.mask s.m

theorem inv_new {R : PostureRobot K} {name : String} (hna : R.na ≤ R.nv) :
    ∃ s, new R name = .ok s () ∧ Inv R (PostureSettings.fresh R) s := by
  obtain ⟨m, h1, h2⟩ := maskInv_setMask (w := fun _ => (1 : K)) (s := (pre R name).m) (cols := R.nv)
    (off := R.nv - R.na) (by omega) (adm_ones R.na) rfl
  refine ⟨{ pre R name with m := m }, ?_, rfl, rfl, rfl, rfl, rfl, fun _ _ => rfl, h2⟩
  unfold new setMask
  rw [h1]

theorem target_eq {R : PostureRobot K} {p : PostureSettings K} {s : Posture K} (hi : Inv R p s) :
    augment R s.refAug s.ref.pos = p.target R := by
  unfold augment PostureSettings.target
  rw [hi.aug, hi.ref]
  congr 1
  funext i
  by_cases h : i < R.neutral.size - R.nqa
  · rw [if_neg (by omega), if_pos h]; exact hi.base i h
  · rw [if_pos (by omega), if_neg h]

theorem compute_ok {R : PostureRobot K} {p : PostureSettings K} {s : Posture K} {q v : Vec K} (hi : Inv R p s)
    (hna : R.na ≤ R.nv) (hqa : R.nqa ≤ R.neutral.size) (hd : ∀ a b, (R.difference a b).size = R.nv)
    (hv : v.size = R.nv) :
    ∃ s' c, s.compute R q v = .ok s' c ∧ Inv R p s' ∧ s'.m.con = c ∧
      (∀ j, s'.aDes j = p.law R q v j) ∧ s'.aDes.size = R.na ∧
      (∀ i, i < R.na → p.mask i = 1 → c.vec (countSelected p.mask i) = p.law R q v i) := by
  have hlaw : ∀ j, -(s.kp j * ((R.difference (p.target R) q).tail R.na) j) -
      s.kd j * ((v.tail R.na).sub s.ref.vel) j + s.ref.acc j = p.law R q v j := by
    intro j
    simp only [PostureSettings.law, Vec.tail, Vec.sub, hd, hv, hi.kp, hi.kd, hi.ref]
    ring
  obtain ⟨b, hb1, hb2, hb3⟩ := fillVec_ok (na := R.na) (m := p.mask) (v := s.m.con.vec)
    (fun j => -(s.kp j * ((R.difference (p.target R) q).tail R.na) j) -
      s.kd j * ((v.tail R.na).sub s.ref.vel) j + s.ref.acc j) (by rw [hi.m.size])
  rw [← hi.m.axes] at hb1
  unfold compute
  rw [if_pos ⟨by rw [hi.aug]; exact hqa, by rw [hi.ref]; exact hi.pos, by rw [hv]; exact hna⟩]
  simp only [target_eq hi]
  rw [if_pos (by rw [hd]; exact hna)]
  simp only [hb1]
  refine ⟨_, _, rfl, ⟨hi.kp, hi.kd, hi.ref, hi.pos, rfl, ?_, ?_⟩, rfl, hlaw, rfl, ?_⟩
  · intro i h
    simp only [PostureSettings.target]
    rw [if_pos h]
  · exact ⟨hi.m.mask, hi.m.adm, hi.m.axes, hi.m.kind, hi.m.mat, by simp only; rw [hb2]; exact hi.m.size⟩
  · intro i hlt h1
    simp only
    rw [hb3 _ _ (getElem?_sel hlt h1)]
    exact hlaw i

theorem inv_step {R : PostureRobot K} {p : PostureSettings K} {s s' : Posture K} {o : Op K} (hi : Inv R p s)
    (hna : R.na ≤ R.nv) (hqa : R.nqa ≤ R.neutral.size) (hd : ∀ a b, (R.difference a b).size = R.nv)
    (hv : ∀ q v, o = .compute q v → v.size = R.nv)
    (hg : PostureSettings.GoodMask R.na o) (h : (s.step R o).state? = some s') : Inv R (p.after R o) s' := by
  cases o with
  | setMask m =>
    simp only [step, setMask, PostureSettings.after] at h ⊢
    by_cases hsz : m.size = R.na
    · obtain ⟨m', h1, h2⟩ := maskInv_setMask (w := fun _ => (1 : K)) (s := s.m) (cols := R.nv) (off := R.nv - R.na)
        (by omega) (hg hsz) hi.m.kind
      rw [h1] at h
      cases h
      rw [if_pos hsz]
      exact ⟨hi.kp, hi.kd, hi.ref, hi.pos, hi.aug, hi.base, h2⟩
    · rw [setMask_size hsz] at h
      cases h
      rw [if_neg hsz]
      exact hi
  | setKp k =>
    simp only [step, setKp, PostureSettings.after] at h ⊢
    split at h <;> next hk => cases h; simp only [hk, if_true, if_false]; first
      | exact ⟨rfl, hi.kd, hi.ref, hi.pos, hi.aug, hi.base, hi.m⟩ | exact hi
  | setKd k =>
    simp only [step, setKd, PostureSettings.after] at h ⊢
    split at h <;> next hk => cases h; simp only [hk, if_true, if_false]; first
      | exact ⟨hi.kp, rfl, hi.ref, hi.pos, hi.aug, hi.base, hi.m⟩ | exact hi
  | setReference r =>
    simp only [step, setReference, PostureSettings.after] at h ⊢
    by_cases h1 : r.pos.size = R.nqa
    · by_cases h2 : r.vel.size = R.na
      · by_cases h3 : r.acc.size = R.na
        · rw [if_pos h1, if_pos h2, if_pos h3] at h
          rw [if_pos ⟨h1, h2, h3⟩]
          cases h
          exact ⟨hi.kp, hi.kd, rfl, h1, hi.aug, hi.base, hi.m⟩
        · rw [if_pos h1, if_pos h2, if_neg h3] at h
          rw [if_neg (fun h => h3 h.2.2)]
          cases h; exact hi
      · rw [if_pos h1, if_neg h2] at h
        rw [if_neg (fun h => h2 h.2.1)]
        cases h; exact hi
    · rw [if_neg h1] at h
      rw [if_neg (fun h => h1 h.1)]
      cases h; exact hi
  | compute q v =>
    obtain ⟨s1, c, h1, h2, _⟩ := compute_ok (q := q) hi hna hqa hd (hv q v rfl)
    simp only [step, h1] at h
    cases h
    exact h2

theorem inv_run {R : PostureRobot K} (hna : R.na ≤ R.nv) (hqa : R.nqa ≤ R.neutral.size)
    (hd : ∀ a b, (R.difference a b).size = R.nv) :
    ∀ {os : List (Op K)} {p : PostureSettings K} {s s' : Posture K}, Inv R p s →
      (∀ o ∈ os, PostureSettings.GoodMask R.na o) → (∀ q v, Op.compute q v ∈ os → v.size = R.nv) →
      runOps (step R) s os = some s' → Inv R (p.afterAll R os) s' := by
  intro os
  induction os with
  | nil => intro p s s' hi _ _ h; cases h; exact hi
  | cons o os ih =>
    intro p s s' hi hg hv h
    rw [runOps] at h
    cases hs : (s.step R o).state? with
    | none => rw [hs] at h; cases h
    | some s1 =>
      rw [hs] at h
      exact ih (inv_step hi hna hqa hd (fun q v e => hv q v (by rw [e]; exact List.mem_cons_self))
        (hg o List.mem_cons_self) hs)
        (fun o' h' => hg o' (List.mem_cons_of_mem _ h')) (fun q v h' => hv q v (List.mem_cons_of_mem _ h')) h

end Posture

/-! ## Actuation equality -/

namespace ActEq

/-- What holds of the task between two calls. -/
structure Inv (na : Nat) (p : TorqueSettings K) (s : ActEq K) : Prop where
  ref : s.ref = p.ref
  weights : s.weights = p.weights
  m : MaskInv na na 0 p.weights.get p.mask s.m
  vec : ∀ i, i < na → p.mask i = 1 → s.m.con.vec (countSelected p.mask i) = p.ref i * p.weights i

theorem refill_ok {na : Nat} {p : TorqueSettings K} {s : ActEq K} (h1 : s.ref = p.ref) (h2 : s.weights = p.weights)
    (h3 : MaskInv na na 0 p.weights.get p.mask s.m) : ∃ s', refill na s = .ok s' () ∧ Inv na p s' := by
  obtain ⟨b, hb1, hb2, hb3⟩ := fillVec_ok (na := na) (m := p.mask) (v := s.m.con.vec)
    (fun i => s.ref i * s.weights i) (by rw [h3.size])
  rw [← h3.axes] at hb1
  unfold refill
  rw [hb1]
  refine ⟨_, rfl, h1, h2, ⟨h3.mask, h3.adm, h3.axes, h3.kind, h3.mat, by simp only; rw [hb2]; exact h3.size⟩, ?_⟩
  intro i hlt h
  simp only
  rw [hb3 _ _ (getElem?_sel hlt h), h1, h2]

theorem setMask_adm {na : Nat} {p : TorqueSettings K} {s : ActEq K} {m : Vec K} (h1 : s.ref = p.ref)
    (h2 : s.weights = p.weights) (hk : s.m.con.kind = .equality) (hm : ValidMask na m) :
    ∃ s', setMask na s m = .ok s' () ∧ Inv na { p with mask := m } s' := by
  obtain ⟨m', e1, e2⟩ := maskInv_setMask (w := s.weights.get) (s := s.m) (cols := na) (off := 0) (by omega) hm hk
  unfold setMask
  rw [e1]
  exact refill_ok (p := { p with mask := m }) h1 h2 (by rw [h2] at e2; exact e2)

theorem inv_new {name : String} {na : Nat} :
    ∃ s : ActEq K, new name na = .ok s () ∧ Inv na (TorqueSettings.fresh na) s :=
  setMask_adm (p := TorqueSettings.fresh na) rfl rfl rfl (adm_ones na)

theorem reweigh_selMat {na : Nat} {m : Vec K} (w w' : Nat → K) :
    reweigh w ((sel m (List.range na)).map some)
        (selMat (sel m (List.range na)).length na 0 w' (sel m (List.range na))) =
      selMat (sel m (List.range na)).length na 0 w (sel m (List.range na)) := by
  unfold reweigh selMat
  congr 1
  funext k j
  simp only [List.getElem?_map, Nat.zero_add]
  cases (sel m (List.range na))[k]? with
  | none => rfl
  | some i =>
    simp only [Option.map_some]
    by_cases h : j = i
    · rw [if_pos h, if_pos h]
    · rw [if_neg h, if_neg h, if_neg h]

theorem inv_step {na : Nat} {p : TorqueSettings K} {s : ActEq K} {o : Op K} (hi : Inv na p s)
    (hg : TorqueSettings.GoodMask na o) : ∃ s', (s.step na o).state? = some s' ∧ Inv na (p.after na o) s' := by
  cases o with
  | mask m =>
    simp only [step, TorqueSettings.after]
    by_cases hsz : m.size = na
    · obtain ⟨s', h1, h2⟩ := setMask_adm (p := p) hi.ref hi.weights hi.m.kind (hg hsz)
      rw [h1, if_pos hsz]
      exact ⟨s', rfl, h2⟩
    · unfold setMask
      rw [setMask_size hsz, if_neg hsz]
      exact ⟨s, rfl, hi⟩
  | setReference r =>
    simp only [step, setReference, TorqueSettings.after]
    by_cases hsz : r.size = na
    · obtain ⟨s', h1, h2⟩ := refill_ok (na := na) (p := { p with ref := r }) (s := { s with ref := r }) rfl hi.weights hi.m
      rw [if_pos hsz, if_pos hsz, h1]
      exact ⟨s', rfl, h2⟩
    · rw [if_neg hsz, if_neg hsz]
      exact ⟨s, rfl, hi⟩
  | setWeights w =>
    simp only [step, setWeights, TorqueSettings.after]
    by_cases hsz : w.size = na
    · have hr : s.m.axes.length ≤ s.m.con.mat.rows := by rw [hi.m.axes, hi.m.mat]; simp [selMat]
      obtain ⟨s', h1, h2⟩ := refill_ok (na := na) (p := { p with weights := w })
        (s := { s with weights := w, m := { s.m with con := { s.m.con with
          mat := reweigh w.get s.m.axes s.m.con.mat } } }) hi.ref rfl
        ⟨hi.m.mask, hi.m.adm, hi.m.axes, hi.m.kind, by simp only [hi.m.axes, hi.m.mat]; exact reweigh_selMat _ _,
          hi.m.size⟩
      rw [if_pos hsz, if_pos hsz, if_pos hr, h1]
      exact ⟨s', rfl, h2⟩
    · rw [if_neg hsz, if_neg hsz]
      exact ⟨s, rfl, hi⟩

theorem inv_run {na : Nat} : ∀ {os : List (Op K)} {p : TorqueSettings K} {s : ActEq K}, Inv na p s →
    (∀ o ∈ os, TorqueSettings.GoodMask na o) →
    ∃ s', runOps (step na) s os = some s' ∧ Inv na (p.afterAll na os) s' := by
  intro os
  induction os with
  | nil => intro p s hi _; exact ⟨s, rfl, hi⟩
  | cons o os ih =>
    intro p s hi hg
    obtain ⟨s1, h1, h2⟩ := inv_step hi (hg o List.mem_cons_self)
    obtain ⟨s', h3, h4⟩ := ih h2 (fun o' h' => hg o' (List.mem_cons_of_mem _ h'))
    exact ⟨s', by rw [runOps, h1]; exact h3, h4⟩

end ActEq

/-! ## Actuation bounds -/

namespace ActBounds

/-- What holds of the task between two calls. -/
structure Inv (na : Nat) (p : TorqueLimits K) (s : Masked K) : Prop where
  mask : s.mask = p.mask
  adm : ValidMask na p.mask
  kind : s.con.kind = .inequality
  mat : s.con.mat = selMat (sel p.mask (List.range na)).length na 0 (fun _ => 1) (sel p.mask (List.range na))
  lb : s.con.lb = p.lower
  ub : s.con.ub = p.upper
  lbSize : p.lower.size = countSelected p.mask na
  ubSize : p.upper.size = countSelected p.mask na

theorem setMask_adm {na : Nat} {s : Masked K} {m : Vec K} (hk : s.con.kind = .inequality) (hm : ValidMask na m) :
    ∃ s', setMask na s m = .ok s' () ∧
      Inv na ⟨m, Vec.zero (countSelected m na), Vec.zero (countSelected m na)⟩ s' := by
  refine ⟨_, setMask_ok hm (by omega) (by rw [hk]; decide), ?_⟩
  refine ⟨rfl, hm, ?_, ?_, ?_, ?_, rfl, rfl⟩ <;> simp [maskCon, hk, length_sel]

theorem inv_new {name : String} {na : Nat} :
    ∃ s : Masked K, new name na = .ok s () ∧ Inv na (TorqueLimits.fresh na) s := by
  obtain ⟨s, h1, h2⟩ := setMask_adm (na := na) (s := (⟨Vec.zero 0, [], Constraint.mkIneq name na na⟩ : Masked K)) rfl
    (adm_ones na)
  rw [count_ones] at h2
  exact ⟨s, h1, h2⟩

theorem inv_step {na : Nat} {p : TorqueLimits K} {s : Masked K} {o : Op K} (hi : Inv na p s)
    (hg : TorqueLimits.GoodMask na o) : ∃ s', (step na s o).state? = some s' ∧ Inv na (p.after na o) s' := by
  cases o with
  | mask m =>
    simp only [step, TorqueLimits.after]
    by_cases hsz : m.size = na
    · obtain ⟨s', h1, h2⟩ := setMask_adm hi.kind (hg hsz)
      rw [h1, if_pos hsz]
      exact ⟨s', rfl, h2⟩
    · unfold setMask
      rw [setMask_size hsz, if_neg hsz]
      exact ⟨s, rfl, hi⟩
  | setBounds l u =>
    have hdim : s.dim = ((countSelected p.mask na : Nat) : Int) := by
      unfold Masked.dim
      rw [hi.mask, trunc_sum_mask hi.adm, length_sel]
    simp only [step, setBounds, TorqueLimits.after, hdim, Nat.cast_inj]
    by_cases h1 : l.size = countSelected p.mask na
    · by_cases h2 : u.size = countSelected p.mask na
      · rw [if_pos h1, if_pos h2, if_pos ⟨h1, h2⟩]
        exact ⟨_, rfl, hi.mask, hi.adm, hi.kind, hi.mat, rfl, rfl, h1, h2⟩
      · rw [if_pos h1, if_neg h2, if_neg (fun h => h2 h.2)]
        exact ⟨s, rfl, hi⟩
    · rw [if_neg h1, if_neg (fun h => h1 h.1)]
      exact ⟨s, rfl, hi⟩

theorem inv_run {na : Nat} : ∀ {os : List (Op K)} {p : TorqueLimits K} {s : Masked K}, Inv na p s →
    (∀ o ∈ os, TorqueLimits.GoodMask na o) →
    ∃ s', runOps (step na) s os = some s' ∧ Inv na (p.afterAll na os) s' := by
  intro os
  induction os with
  | nil => intro p s hi _; exact ⟨s, rfl, hi⟩
  | cons o os ih =>
    intro p s hi hg
    obtain ⟨s1, h1, h2⟩ := inv_step hi (hg o List.mem_cons_self)
    obtain ⟨s', h3, h4⟩ := ih h2 (fun o' h' => hg o' (List.mem_cons_of_mem _ h'))
    exact ⟨s', by rw [runOps, h1]; exact h3, h4⟩

end ActBounds

end Tsid
