import Verif.Lemmas.SolverRun

/-!
# Two objects that assemble the same problem

The parts written so far agree; what has not been written yet may differ.
-/

set_option linter.unusedSectionVars false

namespace Tsid

variable {K : Type}

/-- Same size, same rows below `k`. -/
def Mat.Upto (k : Nat) (A B : Mat K) : Prop :=
  A.rows = B.rows ∧ A.cols = B.cols ∧ ∀ i j, i < k → j < A.cols → A i j = B i j

/-- Same size, same entries below `k`. -/
def Vec.Upto (k : Nat) (a b : Vec K) : Prop := a.size = b.size ∧ ∀ i, i < k → a i = b i

theorem Mat.Upto.setRows {k n : Nat} {A B A' C : Mat K} (h : Mat.Upto k A B) (e : A.setRows k n C = some A') :
    ∃ B', B.setRows k n C = some B' ∧ Mat.Upto (k + n) A' B' := by
  obtain ⟨h1, h2, h3⟩ := h
  obtain ⟨c1, c2, c3, rfl⟩ := Mat.setRows_some e
  refine ⟨_, Mat.setRows_isSome c1 (by omega) (by omega), h1, h2, ?_⟩
  intro i j hi hj
  dsimp only at hj ⊢
  split
  · rfl
  · exact h3 i j (by omega) hj

theorem Vec.Upto.setSeg {k n : Nat} {a b a' c : Vec K} (h : Vec.Upto k a b) (e : a.setSeg k n c = some a') :
    ∃ b', b.setSeg k n c = some b' ∧ Vec.Upto (k + n) a' b' := by
  obtain ⟨h1, h2⟩ := h
  obtain ⟨c1, c2, rfl⟩ := Vec.setSeg_some e
  refine ⟨_, Vec.setSeg_isSome c1 (by omega), h1, ?_⟩
  intro i hi
  dsimp only
  split
  · rfl
  · exact h2 i (by omega)

namespace Solver

open Finset Spec

variable {R : Type} [Field K] [CharZero K] [LinearOrder K] [IsStrictOrderedRing K]

/-- What a back-end must satisfy for two objects to assemble the same data. -/
structure Agrees (B : Backend K R) (Inv : Nat → R → Level K → Prop) (Good : State K R → Nat → Level K → Prop)
    (Ag Same : R → R → Prop) : Prop where
  resize : ∀ (fresh fresh' : Nat → Nat → K) (nd nd' : Bool) (s t : State K R) (n : Nat) (l : Level K),
    Good s n l → Good t n l → ∀ s' t',
    B.resize fresh nd { s with rows := B.pre l s.rows } n (B.count l).1 (B.count l).2 = .ok s' () →
    B.resize fresh' nd' { t with rows := B.pre l t.rows } n (B.count l).1 (B.count l).2 = .ok t' () →
    Ag (B.start s'.rows) (B.start t'.rows)
  put : ∀ (n : Nat) (r t r' : R) (w : K) (c : Constraint K) (l : Level K), Inv n r ((w, c) :: l) → Ag r t →
    B.put n r c = some r' → ∃ t', B.put n t c = some t' ∧ Ag r' t'
  same : ∀ (n : Nat) (r t : R), Inv n r [] → Ag r t → Same r t

theorem Agrees.putAll {B : Backend K R} {Inv : Nat → R → Level K → Prop} {Good : State K R → Nat → Level K → Prop}
    {Upto : R → (Nat → K) → Prop} {Ag Same : R → R → Prop} (hw : Works B Inv Upto) (h : Agrees B Inv Good Ag Same)
    {n : Nat} : ∀ (l : Level K) (r t r' : R), LevelOK n l → Inv n r l → Ag r t → Solver.putAll B n l r = some r' →
      ∃ t', Solver.putAll B n l t = some t' ∧ Ag r' t' := by
  intro l
  induction l with
  | nil => intro r t r' _ _ ha e; cases e; exact ⟨t, rfl, ha⟩
  | cons q l ih =>
    intro r t r' hl hi ha e
    obtain ⟨w, c⟩ := q
    obtain ⟨hc1, hc2⟩ := hl (w, c) (by simp)
    simp only [Solver.putAll] at e
    split at e
    · next r1 e1 =>
      obtain ⟨r1', e1', i1, _⟩ := hw.put n r w c l hc1 hc2 hi
      rw [e1] at e1'
      cases e1'
      obtain ⟨t1, f1, a1⟩ := h.put n r t r1 w c l hi ha e1
      obtain ⟨t2, f2, a2⟩ := ih r1 t1 r' (fun q hq => hl q (by simp [hq])) i1 a1 e
      exact ⟨t2, by simp only [Solver.putAll, f1, f2], a2⟩
    · cases e

/-- The cost of level 1 only depends on the sizes. -/
theorem cost_same {B : Backend K R} {reg : Bool} {l : Level K} {s t s' t' : State K R} (h1 : s.H.rows = t.H.rows)
    (h2 : s.H.cols = t.H.cols) (h3 : s.g.size = t.g.size) (e : cost B reg (some l) s = .ok s' ())
    (f : cost B reg (some l) t = .ok t' ()) :
    s'.H = t'.H ∧ s'.g = t'.g ∧ s'.rows = s.rows ∧ t'.rows = t.rows := by
  unfold cost at e f
  simp only [h1, h2, h3] at e
  cases hc : costLoop l (Mat.zero t.H.rows t.H.cols, Vec.zero t.g.size) with
  | ok q u =>
    simp only [hc] at e f
    cases e
    cases f
    exact ⟨rfl, rfl, rfl, rfl⟩
  | throw q => simp only [hc] at e; cases e
  | abort => simp only [hc] at e; cases e
  | ub => simp only [hc] at e; cases e

/-- **Two objects, one problem.** -/
theorem Agrees.retrieve {B : Backend K R} {Inv : Nat → R → Level K → Prop} {Upto Final : R → (Nat → K) → Prop}
    {Good : State K R → Nat → Level K → Prop} {Extra : Nat → Level K → (Nat → K) → Prop} {Ag Same : R → R → Prop}
    (hf : Fits B Inv Upto Final Good Extra) (h : Agrees B Inv Good Ag Same) (fresh fresh' : Nat → Nat → K)
    (nd nd' reg : Bool) {s t : State K R} {n : Nat} {l0 l1 : Level K} (hs : Good s n l0) (ht : Good t n l0)
    (ha : Admissible n l0 (some l1)) :
    ∃ s' t', Solver.retrieve B fresh nd s [l0, l1] reg = .ok s' () ∧
      Solver.retrieve B fresh' nd' t [l0, l1] reg = .ok t' () ∧ s'.n = t'.n ∧ Same s'.rows t'.rows ∧
      s'.H = t'.H ∧ s'.g = t'.g := by
  have ha' := ha
  obtain ⟨hne, hl0, hl1⟩ := ha
  cases l0 with
  | nil => exact absurd rfl hne
  | cons q l =>
    obtain ⟨w, c0⟩ := q
    have hc0 : c0.cols = n := (hl0 (w, c0) (by simp)).2
    have hany : ∀ b : Bool, (!b && ((w, c0) :: l).any fun q => decide (q.2.cols ≠ c0.cols)) = false := by
      intro b
      have : ((w, c0) :: l).any (fun q => decide (q.2.cols ≠ c0.cols)) = false := by
        rw [List.any_eq_false]
        intro q hq
        have := (hl0 q hq).2
        simp [this, hc0]
      rw [this, Bool.and_false]
    obtain ⟨s1, e1, n1, H1, H2, g1, i1, _⟩ := hf.resize fresh nd s n _ hs
    obtain ⟨t1, f1, m1, G1, G2, k1, j1, _⟩ := hf.resize fresh' nd' t n _ ht
    have hag := h.resize fresh fresh' nd nd' s t n _ hs ht s1 t1 e1 f1
    obtain ⟨r, e2, i2, _⟩ := hf.works.putAll _ _ hl0 i1
    obtain ⟨q, f2, j2, _⟩ := hf.works.putAll _ _ hl0 j1
    obtain ⟨q', f2', hag'⟩ := h.putAll hf.works _ _ _ _ hl0 i1 hag e2
    rw [f2] at f2'
    cases f2'
    obtain ⟨s2, e3, a1, _⟩ := cost_ok (B := B) (reg := reg) (s := { s1 with rows := r }) hl1 H1 H2 g1
    obtain ⟨t2, f3, b1, _⟩ := cost_ok (B := B) (reg := reg) (s := { t1 with rows := q }) hl1 G1 G2 k1
    have hc := cost_same (s := { s1 with rows := r }) (t := { t1 with rows := q }) (H1.trans G1.symm) (H2.trans G2.symm)
      (g1.trans k1.symm) e3 f3
    refine ⟨s2, t2, ?_, ?_, ?_, ?_, hc.1, hc.2.1⟩
    · simp only [Solver.retrieve]
      rw [if_neg (by simp)]
      simp only [hany, Bool.false_eq_true, if_false]
      rw [hc0, e1]
      simp only
      rw [n1, e2, ← n1]
      exact e3
    · simp only [Solver.retrieve]
      rw [if_neg (by simp)]
      simp only [hany, Bool.false_eq_true, if_false]
      rw [hc0, f1]
      simp only
      rw [m1, f2, ← m1]
      exact f3
    · rw [a1, b1]; exact n1.trans m1.symm
    · rw [hc.2.2.1, hc.2.2.2]
      exact h.same n r q i2 hag'

theorem Mat.Upto.same {k : Nat} {A B : Mat K} (h : Mat.Upto k A B) (e : A.rows = k) : A.Same B :=
  ⟨h.1, h.2.1, fun i j hi hj => h.2.2 i j (by omega) hj⟩

theorem Vec.Upto.same {k : Nat} {a b : Vec K} (h : Vec.Upto k a b) (e : a.size = k) : a.Same b :=
  ⟨h.1, fun i hi => h.2 i (by omega)⟩

/-! ## The back-ends -/

def Eiq.Ag (r t : EiqRows K) : Prop :=
  r.iEq = t.iEq ∧ r.iIn = t.iIn ∧ Mat.Upto r.iEq r.CE t.CE ∧ Vec.Upto r.iEq r.ce0 t.ce0 ∧ Mat.Upto r.iIn r.CI t.CI ∧
  Vec.Upto r.iIn r.ci0 t.ci0

theorem Eiq.put_ag {n : Nat} {r t r' : EiqRows K} {c : Constraint K} (h : Eiq.Ag r t) (e : Eiq.put n r c = some r') :
    ∃ t', Eiq.put n t c = some t' ∧ Eiq.Ag r' t' := by
  obtain ⟨h1, h2, h3, h4, h5, h6⟩ := h
  have pair : ∀ k A A' lb ub, Eiq.putPair r k A A' lb ub = some r' →
      ∃ t', Eiq.putPair t k A A' lb ub = some t' ∧ Eiq.Ag r' t' := by
    intro k A A' lb ub e
    unfold Eiq.putPair at e ⊢
    split at e
    · next e1 e2 =>
      obtain ⟨M, f1, a1⟩ := h5.setRows e1
      obtain ⟨v, f2, a2⟩ := h6.setSeg e2
      split at e
      · next e3 e4 =>
        obtain ⟨M', f3, a3⟩ := a1.setRows e3
        obtain ⟨v', f4, a4⟩ := a2.setSeg e4
        cases e
        rw [h2] at f1 f2 f3 f4
        exact ⟨{ t with CI := M', ci0 := v', iIn := t.iIn + k + k }, by simp only [f1, f2, f3, f4], h1, by dsimp only; rw [h2], h3, h4, a3, a4⟩
      · cases e
    · cases e
  unfold Eiq.put at e ⊢
  have h7 := h5.2.1
  split at e
  · split at e
    · next e1 e2 =>
      obtain ⟨M, f1, a1⟩ := h3.setRows e1
      obtain ⟨v, f2, a2⟩ := h4.setSeg e2
      cases e
      rw [h1] at f1 f2
      exact ⟨{ t with CE := M, ce0 := v, iEq := t.iEq + c.rows }, by simp only [f1, f2], by dsimp only; rw [h1], h2, a1, a2, h5, h6⟩
    · cases e
  · exact pair _ _ _ _ _ e
  · rw [← h7]; exact pair _ _ _ _ _ e

theorem Eiq.agrees (rg : Bool → Bool) : Agrees { (eiq : Backend K (EiqRows K)) with reg := rg } Eiq.Inv
    (fun s _ _ => Eiq.Sized s) Eiq.Ag EiqSame where
  resize := by
    intro fresh fresh' nd nd' s t n l hs ht s' t' e f
    obtain ⟨s2, e', a1, a2, a3, h1, h2, h3, h4, h5, h6, h7, h8, h9⟩ :=
      Eiq.resize_sized fresh nd n (count l).1 (count l).2 hs
    obtain ⟨t2, f', b1, b2, b3, k1, k2, k3, k4, k5, k6, k7, k8, k9⟩ :=
      Eiq.resize_sized fresh' nd' n (count l).1 (count l).2 ht
    cases e'.symm.trans e
    cases f'.symm.trans f
    refine ⟨rfl, rfl, ⟨?_, ?_, ?_⟩, ⟨?_, ?_⟩, ⟨?_, ?_, ?_⟩, ⟨?_, ?_⟩⟩ <;> simp only [eiq]
    all_goals first | omega | (intros; omega)
  put := fun n r t r' w c l _ h e => Eiq.put_ag h e
  same := by
    intro n r t ⟨h1, h2, h3, h4, h5, h6⟩ ⟨a1, a2, a3, a4, a5, a6⟩
    simp only [count, Nat.add_zero, Nat.mul_zero] at h3 h5
    exact ⟨Mat.Upto.same a3 h3, Vec.Upto.same a4 (by omega), Mat.Upto.same a5 h5, Vec.Upto.same a6 (by omega)⟩

theorem Rt.agrees : Agrees (rt : Backend K (EiqRows K)) Eiq.Inv
    (fun s n l => Eiq.Sized s ∧ n = s.n ∧ count l = (s.neq, s.nin)) Eiq.Ag EiqSame where
  resize := by
    intro fresh fresh' nd nd' s t n l ⟨hs, hn, hc⟩ ⟨ht, hn', hc'⟩ s' t' e f
    have e' : Rt.resize fresh nd s n (count l).1 (count l).2 = .ok s () := by
      unfold Rt.resize
      rw [if_pos ⟨hn, by rw [hc], by rw [hc]⟩]
    have f' : Rt.resize fresh' nd' t n (count l).1 (count l).2 = .ok t () := by
      unfold Rt.resize
      rw [if_pos ⟨hn', by rw [hc'], by rw [hc']⟩]
    cases e'.symm.trans e
    cases f'.symm.trans f
    rw [hc] at hc'
    obtain ⟨c1, c2⟩ := Prod.mk.inj hc'
    obtain ⟨h1, h2, h3, h4, h5, h6, h7, h8, h9⟩ := hs
    obtain ⟨k1, k2, k3, k4, k5, k6, k7, k8, k9⟩ := ht
    refine ⟨rfl, rfl, ⟨?_, ?_, ?_⟩, ⟨?_, ?_⟩, ⟨?_, ?_, ?_⟩, ⟨?_, ?_⟩⟩ <;> simp only [rt, eiq]
    all_goals first | omega | (intros; omega)
  put := fun n r t r' w c l _ h e => Eiq.put_ag h e
  same := (Eiq.agrees id).same

def Prox.Ag (r t : ProxRows K) : Prop :=
  r.iEq = t.iEq ∧ r.iIn = t.iIn ∧ Mat.Upto r.iEq r.CE t.CE ∧ Vec.Upto r.iEq r.ce0 t.ce0 ∧ Mat.Upto r.iIn r.CI t.CI ∧
  Vec.Upto r.iIn r.lb t.lb ∧ Vec.Upto r.iIn r.ub t.ub

theorem Prox.put_ag {n : Nat} {r t r' : ProxRows K} {c : Constraint K} (h : Prox.Ag r t)
    (e : Prox.put n r c = some r') : ∃ t', Prox.put n t c = some t' ∧ Prox.Ag r' t' := by
  obtain ⟨h1, h2, h3, h4, h5, h6, h8⟩ := h
  have pair : ∀ k A lb ub, Prox.putPair r k A lb ub = some r' →
      ∃ t', Prox.putPair t k A lb ub = some t' ∧ Prox.Ag r' t' := by
    intro k A lb ub e
    unfold Prox.putPair at e ⊢
    split at e
    · next e1 e2 e3 =>
      obtain ⟨M, f1, a1⟩ := h5.setRows e1
      obtain ⟨v, f2, a2⟩ := h6.setSeg e2
      obtain ⟨u, f3, a3⟩ := h8.setSeg e3
      cases e
      rw [h2] at f1 f2 f3
      exact ⟨{ t with CI := M, lb := v, ub := u, iIn := t.iIn + k }, by simp only [f1, f2, f3], h1, by dsimp only; rw [h2], h3, h4, a1, a2, a3⟩
    · cases e
  unfold Prox.put at e ⊢
  have h7 := h5.2.1
  split at e
  · split at e
    · next e1 e2 =>
      obtain ⟨M, f1, a1⟩ := h3.setRows e1
      obtain ⟨v, f2, a2⟩ := h4.setSeg e2
      cases e
      rw [h1] at f1 f2
      exact ⟨{ t with CE := M, ce0 := v, iEq := t.iEq + c.rows }, by simp only [f1, f2], by dsimp only; rw [h1], h2, a1, a2, h5, h6, h8⟩
    · cases e
  · exact pair _ _ _ _ e
  · rw [← h7]; exact pair _ _ _ _ e

theorem Prox.agrees : Agrees (prox : Backend K (ProxRows K)) Prox.Inv (fun s _ _ => Prox.Sized s) Prox.Ag ProxSame where
  resize := by
    intro fresh fresh' nd nd' s t n l hs ht s' t' e f
    obtain ⟨s2, e', a1, a2, a3, h1, h2, h3, h4, h5, h6, h7, h8, h9, h10⟩ :=
      Prox.resize_sized fresh nd n (count l).1 (count l).2 hs
    obtain ⟨t2, f', b1, b2, b3, k1, k2, k3, k4, k5, k6, k7, k8, k9, k10⟩ :=
      Prox.resize_sized fresh' nd' n (count l).1 (count l).2 ht
    cases e'.symm.trans e
    cases f'.symm.trans f
    refine ⟨rfl, rfl, ⟨?_, ?_, ?_⟩, ⟨?_, ?_⟩, ⟨?_, ?_, ?_⟩, ⟨?_, ?_⟩, ⟨?_, ?_⟩⟩ <;> simp only [prox]
    all_goals first | omega | (intros; omega)
  put := fun n r t r' w c l _ h e => Prox.put_ag (n := n) h e
  same := by
    intro n r t ⟨h1, h2, h3, h4, h5, h6, h7⟩ ⟨a1, a2, a3, a4, a5, a6, a7⟩
    simp only [count, Nat.add_zero] at h3 h5
    exact ⟨Mat.Upto.same a3 h3, Vec.Upto.same a4 (by omega), Mat.Upto.same a5 h5, Vec.Upto.same a6 (by omega),
      Vec.Upto.same a7 (by omega)⟩

def Osqp.Ag (r t : OsqpRows K) : Prop :=
  r.iIn = t.iIn ∧ Mat.Upto r.iIn r.CI t.CI ∧ Vec.Upto r.iIn r.lb t.lb ∧ Vec.Upto r.iIn r.ub t.ub

theorem Osqp.put_ag {n : Nat} {r t r' : OsqpRows K} {c : Constraint K} (h : Osqp.Ag r t)
    (e : Osqp.put n r c = some r') : ∃ t', Osqp.put n t c = some t' ∧ Osqp.Ag r' t' := by
  obtain ⟨h2, h5, h6, h8⟩ := h
  have pair : ∀ k A lb ub, Osqp.putPair r k A lb ub = some r' →
      ∃ t', Osqp.putPair t k A lb ub = some t' ∧ Osqp.Ag r' t' := by
    intro k A lb ub e
    unfold Osqp.putPair at e ⊢
    split at e
    · next e1 e2 e3 =>
      obtain ⟨M, f1, a1⟩ := h5.setRows e1
      obtain ⟨v, f2, a2⟩ := h6.setSeg e2
      obtain ⟨u, f3, a3⟩ := h8.setSeg e3
      cases e
      rw [h2] at f1 f2 f3
      exact ⟨{ t with CI := M, lb := v, ub := u, iIn := t.iIn + k }, by simp only [f1, f2, f3], by dsimp only; rw [h2], a1, a2, a3⟩
    · cases e
  unfold Osqp.put at e ⊢
  have h7 := h5.2.1
  split at e
  · exact pair _ _ _ _ e
  · exact pair _ _ _ _ e
  · rw [← h7]; exact pair _ _ _ _ e

theorem Osqp.agrees : Agrees (osqp : Backend K (OsqpRows K)) Osqp.Inv (fun s _ _ => Osqp.Sized s) Osqp.Ag OsqpSame where
  resize := by
    intro fresh fresh' nd nd' s t n l hs ht s' t' e f
    obtain ⟨s2, e', a1, a2, a3, h1, h2, h3, h4, h5, h6, h7⟩ :=
      Osqp.resize_sized fresh nd n (count l).1 (count l).2 hs
    obtain ⟨t2, f', b1, b2, b3, k1, k2, k3, k4, k5, k6, k7⟩ :=
      Osqp.resize_sized fresh' nd' n (count l).1 (count l).2 ht
    cases e'.symm.trans e
    cases f'.symm.trans f
    refine ⟨rfl, ⟨?_, ?_, ?_⟩, ⟨?_, ?_⟩, ⟨?_, ?_⟩⟩ <;> simp only [osqp]
    all_goals first | omega | (intros; omega)
  put := fun n r t r' w c l _ h e => Osqp.put_ag (n := n) h e
  same := by
    intro n r t ⟨h2, h5, h6, h7⟩ ⟨a2, a5, a6, a7⟩
    simp only [count, Nat.add_zero] at h5
    exact ⟨Mat.Upto.same a5 h5, Vec.Upto.same a6 (by omega), Vec.Upto.same a7 (by omega)⟩

def Mad.Ag (r t : MadRows K) : Prop :=
  r.i = t.i ∧ Mat.Upto r.i r.C t.C ∧ Vec.Upto r.i r.cl t.cl ∧ Vec.Upto r.i r.cu t.cu ∧ r.hasBounds = t.hasBounds ∧
  (r.hasBounds = true → r.lb.Same t.lb ∧ r.ub.Same t.ub)

theorem Mad.put_ag {n : Nat} {r t r' : MadRows K} {c : Constraint K} (h : Mad.Ag r t)
    (hb : c.kind = .bound → r.hasBounds = true)
    (e : Mad.put n r c = some r') : ∃ t', Mad.put n t c = some t' ∧ Mad.Ag r' t' := by
  obtain ⟨h2, h5, h6, h8, h9, h10⟩ := h
  have pair : ∀ k A lb ub, Mad.putPair r k A lb ub = some r' →
      ∃ t', Mad.putPair t k A lb ub = some t' ∧ Mad.Ag r' t' := by
    intro k A lb ub e
    unfold Mad.putPair at e ⊢
    split at e
    · next e1 e2 e3 =>
      obtain ⟨M, f1, a1⟩ := h5.setRows e1
      obtain ⟨v, f2, a2⟩ := h6.setSeg e2
      obtain ⟨u, f3, a3⟩ := h8.setSeg e3
      cases e
      rw [h2] at f1 f2 f3
      exact ⟨{ t with C := M, cl := v, cu := u, i := t.i + k }, by simp only [f1, f2, f3], by dsimp only; rw [h2], a1,
        a2, a3, h9, h10⟩
    · cases e
  unfold Mad.put at e ⊢
  split at e
  · exact pair _ _ _ _ e
  · exact pair _ _ _ _ e
  · next hk =>
    split at e
    · next hs =>
      cases e
      obtain ⟨⟨k1, k2⟩, k3, k4⟩ := h10 (hb hk)
      refine ⟨{ t with
        lb := ⟨t.lb.size, fun i => max (t.lb i) (c.lb i)⟩
        ub := ⟨t.ub.size, fun i => min (t.ub i) (c.ub i)⟩ },
        by rw [if_pos ⟨k1.symm.trans hs.1, k3.symm.trans hs.2⟩], h2, h5, h6, h8, h9, ?_⟩
      intro _
      refine ⟨⟨k1, fun i hi => ?_⟩, ⟨k3, fun i hi => ?_⟩⟩
      · dsimp only at hi ⊢; rw [k2 i hi]
      · dsimp only at hi ⊢; rw [k4 i hi]
    · cases e

theorem Mad.agrees : Agrees (mad : Backend K (MadRows K)) Mad.Inv
    (fun s n l => Mad.Sized s ∧ (hasBound l → n = s.n → s.rows.lb.size = n ∧ s.rows.ub.size = n)) Mad.Ag MadSame where
  resize := by
    intro fresh fresh' nd nd' s t n l ⟨hs, hb⟩ ⟨ht, hb'⟩ s' t' e f
    obtain ⟨s2, e', a1, a2, ⟨h1, h2, h3, h4, h5, h6, h7⟩, a4, a5⟩ :=
      Mad.resize_sized fresh nd (s := { s with rows := mad.pre l s.rows }) n (Mad.count l).1 (Mad.count l).2 hs
    obtain ⟨t2, f', b1, b2, ⟨k1, k2, k3, k4, k5, k6, k7⟩, b4, b5⟩ :=
      Mad.resize_sized fresh' nd' (s := { t with rows := mad.pre l t.rows }) n (Mad.count l).1 (Mad.count l).2 ht
    cases e'.symm.trans e
    cases f'.symm.trans f
    have hany : (l.any fun q => decide (q.2.kind = .bound)) = true ↔ hasBound l := by
      simp [hasBound]
    have a4' : s'.rows.hasBounds = l.any fun q => decide (q.2.kind = .bound) := a4
    have b4' : t'.rows.hasBounds = l.any fun q => decide (q.2.kind = .bound) := b4
    by_cases hh : hasBound l
    · have h' := hany.2 hh
      obtain ⟨c1, c2⟩ := a5 h' (hb hh)
      obtain ⟨d1, d2⟩ := b5 h' (hb' hh)
      simp only [mad, a4', b4', h', if_true]
      refine ⟨rfl, ⟨?_, ?_, ?_⟩, ⟨?_, ?_⟩, ⟨?_, ?_⟩, ?_, fun _ => ⟨⟨?_, ?_⟩, ⟨?_, ?_⟩⟩⟩
      all_goals first | rfl | (dsimp only; omega) | (intros; omega) | (intros; rfl)
    · have h' : (l.any fun q => decide (q.2.kind = .bound)) = false := by
        rw [← Bool.not_eq_true, hany]; exact hh
      simp only [mad, a4', b4', h', Bool.false_eq_true, if_false]
      refine ⟨rfl, ⟨?_, ?_, ?_⟩, ⟨?_, ?_⟩, ⟨?_, ?_⟩, ?_, fun h => ?_⟩
      all_goals first | rfl | (dsimp only; omega) | (intros; omega) | skip
      cases h
  put := fun n r t r' w c l hi h e => Mad.put_ag (n := n) h (fun hk => hi.2.2.2.2.1 ⟨(w, c), by simp, hk⟩) e
  same := by
    intro n r t ⟨h2, h5, h6, h7, _⟩ ⟨a2, a5, a6, a7, a8, a9⟩
    simp only [Mad.count, Nat.add_zero] at h5
    exact ⟨Mat.Upto.same a5 h5, Vec.Upto.same a6 (by omega), Vec.Upto.same a7 (by omega), a8, a9⟩

end Solver

end Tsid
