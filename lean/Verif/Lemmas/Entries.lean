import Verif.Lemmas.Decode

/-!
# Meaning of the assembled entries
-/

set_option linter.unusedSectionVars false

namespace Tsid

open Finset

variable {K : Type} [Field K] [LinearOrder K] [HasSqrt K]

/-- Row of a matrix after a block assignment into columns that are zero elsewhere. -/
theorem Spec.row_setCols {A B A' : Mat K} {j0 n : Nat} (h : A.setCols j0 n B = some A')
    (hz : ∀ i j, j < A.cols → ¬ (j0 ≤ j ∧ j < j0 + n) → A i j = 0) (x : Nat → K) (i : Nat) :
    Spec.row A' x i = Spec.row B (fun c => x (j0 + c)) i := by
  obtain ⟨h1, h2, h3, h4⟩ := Mat.setCols_some h
  have hc : A'.cols = A.cols := by rw [h4]
  rw [Spec.row_block A' x i j0 n (by rw [hc]; exact h3)]
  · unfold Spec.row
    rw [h2]
    apply Finset.sum_congr rfl
    intro c hc
    rw [mem_range] at hc
    congr 1
    rw [h4]
    show (if _ then _ else _) = _
    rw [if_pos (by omega)]
    congr 1
    omega
  · intro j hj hn
    rw [hc] at hj
    rw [h4]
    show (if _ then _ else _) = _
    rw [if_neg hn]
    exact hz i j hj hn

theorem Spec.row_identity (n : Nat) (x : Nat → K) (i : Nat) (h : i < n) :
    Spec.row (Mat.identity n) x i = x i := by
  unfold Spec.row Mat.identity
  simp only [ite_mul, one_mul, zero_mul]
  rw [Finset.sum_ite_eq]
  simp [h]

theorem says_equality {d c : Constraint K} {x y : Nat → K} (hd : d.kind = .equality) (hc : c.kind = .equality)
    (hr : d.mat.rows = c.mat.rows)
    (h : ∀ i, i < d.mat.rows → Spec.row d.mat x i - d.vec i = Spec.row c.mat y i - c.vec i) :
    Spec.SaysSame d x c y := by
  refine ⟨?_, fun _ => ⟨hd, hr, h⟩⟩
  unfold Spec.Sat
  rw [hd, hc]
  simp only
  constructor
  · intro hs i hi
    have h1 := h i (hr ▸ hi)
    have h2 := hs i (hr ▸ hi)
    rw [h2, sub_self] at h1
    exact (sub_eq_zero.1 h1.symm)
  · intro hs i hi
    have h1 := h i hi
    have h2 := hs i (hr ▸ hi)
    rw [h2, sub_self] at h1
    exact (sub_eq_zero.1 h1)

theorem says_inequality [IsStrictOrderedRing K] {d c : Constraint K} {x y : Nat → K}
    (hd : d.kind = .inequality) (hc : c.kind = .inequality) (hr : d.mat.rows = c.mat.rows)
    (hl : ∀ i, i < d.mat.rows → Spec.row d.mat x i - d.lb i = Spec.row c.mat y i - c.lb i)
    (hu : ∀ i, i < d.mat.rows → Spec.row d.mat x i - d.ub i = Spec.row c.mat y i - c.ub i) :
    Spec.SaysSame d x c y := by
  refine ⟨?_, fun h => by rw [hc] at h; cases h⟩
  unfold Spec.Sat
  rw [hd, hc]
  simp only
  constructor
  · intro hs i hi
    have h1 := hl i (hr ▸ hi)
    have h2 := hu i (hr ▸ hi)
    obtain ⟨h3, h4⟩ := hs i (hr ▸ hi)
    constructor <;> linarith
  · intro hs i hi
    have h1 := hl i hi
    have h2 := hu i hi
    obtain ⟨h3, h4⟩ := hs i (hr ▸ hi)
    constructor <;> linarith

theorem says_bound [IsStrictOrderedRing K] {d c : Constraint K} {x y : Nat → K}
    (hd : d.kind = .inequality) (hc : c.kind = .bound) (hr : d.mat.rows = c.lb.size)
    (hl : ∀ i, i < d.mat.rows → Spec.row d.mat x i - d.lb i = y i - c.lb i)
    (hu : ∀ i, i < d.mat.rows → Spec.row d.mat x i - d.ub i = y i - c.ub i) :
    Spec.SaysSame d x c y := by
  refine ⟨?_, fun h => by rw [hc] at h; cases h⟩
  unfold Spec.Sat
  rw [hd, hc]
  simp only
  constructor
  · intro hs i hi
    have h1 := hl i (hr ▸ hi)
    have h2 := hu i (hr ▸ hi)
    obtain ⟨h3, h4⟩ := hs i (hr ▸ hi)
    constructor <;> linarith
  · intro hs i hi
    have h1 := hl i hi
    have h2 := hu i hi
    obtain ⟨h3, h4⟩ := hs i (hr ▸ hi)
    constructor <;> linarith

/-- `SaysSame` only looks at the columns of `c`. -/
theorem says_congr {d c : Constraint K} {x y y' : Nat → K} (n : Nat) (hm : c.kind ≠ .bound → c.mat.cols ≤ n)
    (hb : c.kind = .bound → c.lb.size ≤ n) (hy : ∀ i, i < n → y i = y' i)
    (h : Spec.SaysSame d x c y) : Spec.SaysSame d x c y' := by
  have hrow : c.kind ≠ .bound → ∀ i, Spec.row c.mat y i = Spec.row c.mat y' i := by
    intro hk i
    apply Finset.sum_congr rfl
    intro j hj
    rw [mem_range] at hj
    rw [hy j (lt_of_lt_of_le hj (hm hk))]
  refine ⟨h.1.trans ?_, ?_⟩
  · unfold Spec.Sat
    cases hk : c.kind with
    | equality =>
      simp only
      constructor <;> intro hs i hi
      · rw [← hrow (by simp [hk])]; exact hs i hi
      · rw [hrow (by simp [hk])]; exact hs i hi
    | inequality =>
      simp only
      constructor <;> intro hs i hi
      · rw [← hrow (by simp [hk])]; exact hs i hi
      · rw [hrow (by simp [hk])]; exact hs i hi
    | bound =>
      simp only
      constructor <;> intro hs i hi
      · rw [← hy i (lt_of_lt_of_le hi (hb hk))]; exact hs i hi
      · rw [hy i (lt_of_lt_of_le hi (hb hk))]; exact hs i hi
  · intro hk
    obtain ⟨h1, h2, h3⟩ := h.2 hk
    refine ⟨h1, h2, fun i hi => ?_⟩
    rw [h3 i hi]
    unfold Spec.residual
    rw [hrow (by simp [hk])]

namespace Formulation

variable [IsStrictOrderedRing K]

/-- A block constraint written into zero columns says what the block says. -/
theorem says_block {d c : Constraint K} {A : Mat K} {j0 n : Nat} {x : Nat → K} (d' : Constraint K)
    (hz : ∀ i j, j < d.mat.cols → ¬ (j0 ≤ j ∧ j < j0 + n) → d.mat i j = 0)
    (hA : d.mat.setCols j0 n A = some d'.mat)
    (h : (c.kind = .equality ∧ A = c.mat ∧ d'.kind = .equality ∧ d'.vec = c.vec) ∨
         (c.kind = .inequality ∧ A = c.mat ∧ d'.kind = .inequality ∧ d'.lb = c.lb ∧ d'.ub = c.ub) ∨
         (c.kind = .bound ∧ A = Mat.identity n ∧ d'.kind = .inequality ∧ d'.lb = c.lb ∧ d'.ub = c.ub ∧
          c.lb.size = n)) :
    Spec.SaysSame d' x c (fun i => x (j0 + i)) := by
  have hrow := Spec.row_setCols hA hz x
  obtain ⟨p1, p2, p3, p4⟩ := Mat.setCols_some hA
  have hrows : d'.mat.rows = A.rows := by rw [p1, p4]
  rcases h with ⟨h1, h2, h3, h4⟩ | ⟨h1, h2, h3, h4, h5⟩ | ⟨h1, h2, h3, h4, h5, h6⟩
  · subst h2
    exact says_equality h3 h1 hrows (fun i _ => by rw [hrow, h4])
  · subst h2
    exact says_inequality h3 h1 hrows (fun i _ => by rw [hrow, h4]) (fun i _ => by rw [hrow, h5])
  · subst h2
    refine says_bound h3 h1 (by rw [hrows, h6]; rfl) ?_ ?_
    · intro i hi
      rw [hrow, Spec.row_identity _ _ _ (by rw [hrows] at hi; exact hi), h4]
    · intro i hi
      rw [hrow, Spec.row_identity _ _ _ (by rw [hrows] at hi; exact hi), h5]

theorem motion_says {W : World} {cy : Cycle K} {s1 s : State K} (hi : Inv W s1) (hA : Assembled cy s1 s)
    {tl : TaskLevel} (htl : tl ∈ s.motions)
    (hb : (cy.motionOut tl.tid).kind = .bound → (cy.motionOut tl.tid).lb.size = s.nv) (x : Nat → K) :
    Spec.SaysSame (s.heap tl.cref) x (cy.motionOut tl.tid) x := by
  have e_m : s.motions = s1.motions := by rw [hA.eq]
  have e_nv : s.nv = s1.nv := by rw [hA.eq]
  rw [e_m] at htl
  have hc := hA.motions tl htl
  have hz := (hi.pre.motionCells tl htl).2
  have hz' : ∀ i j, j < (s1.heap tl.cref).mat.cols → ¬ (0 ≤ j ∧ j < 0 + s1.nv) → (s1.heap tl.cref).mat i j = 0 := by
    intro i j _ hj
    exact hz i j (by omega)
  have key : Spec.SaysSame (s.heap tl.cref) x (cy.motionOut tl.tid) (fun i => x (0 + i)) := by
    unfold motionCell at hc
    dsimp only at hc
    split at hc
    · next hk =>
      split at hc
      · next hd =>
        rw [Option.map_eq_some_iff] at hc
        obtain ⟨A, hA', he⟩ := hc
        rw [← he]
        exact says_block _ hz' hA' (Or.inl ⟨hk, rfl, hd, rfl⟩)
      · cases hc
    · next hk =>
      split at hc
      · next hd =>
        rw [Option.map_eq_some_iff] at hc
        obtain ⟨A, hA', he⟩ := hc
        rw [← he]
        exact says_block _ hz' hA' (Or.inr (Or.inl ⟨hk, rfl, hd, rfl, rfl⟩))
      · cases hc
    · next hk =>
      split at hc
      · next hd =>
        rw [Option.map_eq_some_iff] at hc
        obtain ⟨A, hA', he⟩ := hc
        rw [← he]
        exact says_block _ hz' hA' (Or.inr (Or.inr ⟨hk, rfl, hd, rfl, rfl, by rw [hb hk, e_nv]⟩))
      · cases hc
  simpa using key

theorem force_says {cy : Cycle K} {s1 s : State K} (hf : ForceClean s1)
    (hA : Assembled cy s1 s)
    {tl : TaskLevel} (htl : tl ∈ s.forces) (hid : tl.cref ∈ hqpIds s.hqp)
    (hb : (cy.forceOut tl.tid).kind = .bound →
      (cy.forceOut tl.tid).lb.size = (forceBlock s.contactObj s.contacts s.k (s.assoc tl.tid)).2)
    (x : Nat → K) :
    Spec.SaysSame (s.heap tl.cref) x (cy.forceOut tl.tid)
      (fun i => x (s.nv + (forceBlock s.contactObj s.contacts s.k (s.assoc tl.tid)).1 + i)) := by
  have e_m : s.forces = s1.forces := by rw [hA.eq]
  have e_h : s.hqp = s1.hqp := by rw [hA.eq]
  have e_nv : s.nv = s1.nv := by rw [hA.eq]
  have e_o : s.contactObj = s1.contactObj := by rw [hA.eq]
  have e_c : s.contacts = s1.contacts := by rw [hA.eq]
  have e_k : s.k = s1.k := by rw [hA.eq]
  have e_a : s.assoc = s1.assoc := by rw [hA.eq]
  rw [e_m] at htl
  rw [e_h] at hid
  rw [e_o, e_c, e_k, e_a] at hb ⊢
  rw [e_nv]
  have hc := hA.forces tl htl
  have hz := hf tl htl hid
  have hz' : ∀ i j, j < (s1.heap tl.cref).mat.cols →
      ¬ (s1.nv + (forceBlock s1.contactObj s1.contacts s1.k (s1.assoc tl.tid)).1 ≤ j ∧
        j < s1.nv + (forceBlock s1.contactObj s1.contacts s1.k (s1.assoc tl.tid)).1 +
          (forceBlock s1.contactObj s1.contacts s1.k (s1.assoc tl.tid)).2) →
      (s1.heap tl.cref).mat i j = 0 := fun i j _ hj => hz i j hj
  unfold forceCell at hc
  dsimp only at hc
  split at hc
  · next hk =>
    split at hc
    · next hd =>
      rw [Option.map_eq_some_iff] at hc
      obtain ⟨A, hA', he⟩ := hc
      rw [← he]
      exact says_block _ hz' hA' (Or.inl ⟨hk, rfl, hd, rfl⟩)
    · cases hc
  · next hk =>
    split at hc
    · next hd =>
      rw [Option.map_eq_some_iff] at hc
      obtain ⟨A, hA', he⟩ := hc
      rw [← he]
      exact says_block _ hz' hA' (Or.inr (Or.inl ⟨hk, rfl, hd, rfl, rfl⟩))
    · cases hc
  · next hk =>
    split at hc
    · next hd =>
      rw [Option.map_eq_some_iff] at hc
      obtain ⟨A, hA', he⟩ := hc
      rw [← he]
      exact says_block _ hz' hA' (Or.inr (Or.inr ⟨hk, rfl, hd, rfl, rfl, hb hk⟩))
    · cases hc

theorem contact_says {W : World} {cy : Cycle K} {s1 s : State K} (hi : Inv W s1) (hA : Assembled cy s1 s)
    {cl : ContactLevel} (hcl : cl ∈ s.contacts) (x : Nat → K) :
    ((cy.contactMotion cl.cid).kind = .equality →
      Spec.SaysSame (s.heap cl.motion) x (cy.contactMotion cl.cid) x) ∧
    (cl.force ∈ hqpIds s.hqp →
      Spec.SaysSame (s.heap cl.force) x (s.contactObj cl.cid).forceIneq (fun i => x (s.nv + cl.index + i))) ∧
    (cl.reg ∈ hqpIds s.hqp →
      Spec.SaysSame (s.heap cl.reg) x (s.contactObj cl.cid).forceReg (fun i => x (s.nv + cl.index + i))) := by
  have e_h : s.hqp = s1.hqp := by rw [hA.eq]
  have e_nv : s.nv = s1.nv := by rw [hA.eq]
  have e_o : s.contactObj = s1.contactObj := by rw [hA.eq]
  have e_c : s.contacts = s1.contacts := by rw [hA.eq]
  rw [e_c] at hcl
  rw [e_h, e_nv, e_o]
  obtain ⟨c1, c2, c3, -⟩ := hA.contacts cl hcl
  obtain ⟨cc, hz⟩ := hi.pre.contactCells cl hcl
  have hsh := hi.pre.shaped cl.cid
  refine ⟨?_, ?_, ?_⟩
  · intro hk
    have hz' : ∀ i j, j < (s1.heap cl.motion).mat.cols → ¬ (0 ≤ j ∧ j < 0 + s1.nv) →
        (s1.heap cl.motion).mat i j = 0 := by
      intro i j _ hj
      exact hz i j (by omega)
    unfold contactMotionCell at c1
    rw [Option.map_eq_some_iff] at c1
    obtain ⟨A, hA', he⟩ := c1
    rw [← he]
    have := says_block (c := cy.contactMotion cl.cid) (x := x)
      { s1.heap cl.motion with mat := A, vec := (cy.contactMotion cl.cid).vec } hz' hA'
      (Or.inl ⟨hk, rfl, cc.mKind, rfl⟩)
    simpa using this
  · intro hid
    have hz' := hi.sized.fZero cl hcl hid
    unfold contactForceCell at c2
    rw [Option.map_eq_some_iff] at c2
    obtain ⟨A, hA', he⟩ := c2
    rw [← he]
    exact says_block _ (fun i j _ => hz' i j) hA' (Or.inr (Or.inl ⟨hsh.ineqKind, rfl, cc.fKind, rfl, rfl⟩))
  · intro hid
    have hz' := hi.sized.rZero cl hcl hid
    unfold contactRegCell at c3
    rw [Option.map_eq_some_iff] at c3
    obtain ⟨A, hA', he⟩ := c3
    rw [← he]
    exact says_block _ (fun i j _ => hz' i j) hA' (Or.inl ⟨hsh.regKind, rfl, cc.rKind, rfl⟩)

/-- Rows of `[B Ma, -B Jaᵀ] x`. -/
theorem row_two {A A1 A2 B C : Mat K} {nv k : Nat} (hc : A.cols = nv + k) (h1 : A.setCols 0 nv B = some A1)
    (h2 : A1.setCols (A1.cols - k) k C = some A2) (x : Nat → K) (i : Nat) :
    Spec.row A2 x i = Spec.row B x i + Spec.row C (fun j => x (nv + j)) i := by
  obtain ⟨p1, p2, p3, p4⟩ := Mat.setCols_some h1
  obtain ⟨q1, q2, q3, q4⟩ := Mat.setCols_some h2
  have hA1 : A1.cols = nv + k := by rw [p4]; exact hc
  have hA2 : A2.cols = nv + k := by rw [q4]; exact hA1
  have hk : A1.cols - k = nv := by omega
  rw [hk] at q4
  rw [Spec.row_split _ _ _ nv k hA2]
  unfold Spec.row
  rw [p2, q2]
  congr 1
  · apply Finset.sum_congr rfl
    intro j hj
    rw [mem_range] at hj
    congr 1
    rw [q4]
    show (if _ then _ else _) = _
    rw [if_neg (by omega), p4]
    show (if _ then _ else _) = _
    rw [if_pos (by omega)]
    simp
  · apply Finset.sum_congr rfl
    intro j hj
    rw [mem_range] at hj
    congr 1
    rw [q4]
    show (if _ then _ else _) = _
    rw [if_pos (by omega)]
    simp

omit [LinearOrder K] [HasSqrt K] [IsStrictOrderedRing K] in
theorem row_mul (A B : Mat K) (x : Nat → K) (i : Nat) :
    Spec.row (A.mul B) x i = ∑ l ∈ range A.cols, A i l * Spec.row B x l := by
  unfold Spec.row Mat.mul
  simp only [Finset.sum_mul, Finset.mul_sum]
  rw [Finset.sum_comm]
  apply Finset.sum_congr rfl
  intro l _
  apply Finset.sum_congr rfl
  intro j _
  ring

omit [LinearOrder K] [HasSqrt K] [IsStrictOrderedRing K] in
theorem row_neg (A : Mat K) (x : Nat → K) (i : Nat) : Spec.row A.neg x i = - Spec.row A x i := by
  unfold Spec.row Mat.neg
  rw [← Finset.sum_neg_distrib]
  apply Finset.sum_congr rfl
  intro j _
  ring

theorem act_says {W : World} {cy : Cycle K} {s1 s : State K} (hi : Inv W s1) (hA : Assembled cy s1 s)
    (hc : Spec.CycleSizes s.nv cy)
    {tl : TaskLevel} (htl : tl ∈ s.acts) (hid : tl.cref ∈ hqpIds s.hqp) (x : Vec K) {s' : State K}
    (hd : Decoded cy s x s') :
    Spec.SaysSame (s.heap tl.cref) x (cy.actOut tl.tid) s'.tau := by
  have e := hA.eq
  have e_m : s.acts = s1.acts := by rw [e]
  have e_h : s.hqp = s1.hqp := by rw [e]
  have e_nv : s.nv = s1.nv := by rw [e]
  have e_nu : s.nu = s1.nu := by rw [e]
  have e_o : s.contactObj = s1.contactObj := by rw [e]
  have e_c : s.contacts = s1.contacts := by rw [e]
  have e_k : s.k = s1.k := by rw [e]
  have e_r : s.robot = s1.robot := by rw [e]
  have e_ms : s.measured = s1.measured := by rw [e]
  rw [e_m] at htl
  rw [e_h] at hid
  have hnu := hi.pre.nuLe
  obtain ⟨cs1, cs2, cs3⟩ := hc
  obtain ⟨t1, t2, t3⟩ := sumTorques_spec cy _ _ _ _ hA.torques
  have t1 : s.hfext.size = s.nv := by rw [t1, e_nv]; rfl
  have hcell := hA.acts tl htl
  have hcols := hi.sized.idsCols _ hid
  -- abbreviations
  generalize hMa : (s1.robot.mass cy.M).bottomRows (s1.nv - s1.nu) = Ma at hcell
  generalize hha : (cy.nle.tail (s1.nv - s1.nu)).sub (s.hfext.tail (s1.nv - s1.nu)) = ha at hcell
  generalize hJa : s.Jc.rightCols (s1.nv - s1.nu) = Ja at hcell
  have htau : ∀ l, s'.tau l = ha l + Spec.row Ma x l - Spec.row Ja.transpose (fun j => x (s1.nv + j)) l := by
    intro l
    rw [hd.tau l]
    obtain ⟨j1, j2, j3⟩ := assembled_jac hi hA (fun j => x (s.nv + j)) (s.nu + l)
    rw [← e_c, ← e_o] at j3
    rw [j3, ← hMa, ← hha, ← hJa]
    simp only [Vec.sub, Spec.row, Mat.bottomRows, Mat.transpose, Mat.rightCols, Vec.tail]
    have i1 : cy.nle.size - (s1.nv - s1.nu) = s.nu := by rw [cs3, e_nu, e_nv]; omega
    have i2 : s.hfext.size - (s1.nv - s1.nu) = s.nu := by rw [t1, e_nu, e_nv]; omega
    have i3 : (s1.robot.mass cy.M).rows - (s1.nv - s1.nu) = s.nu := by
      show cy.M.rows - _ = _; rw [cs1, e_nu, e_nv]; omega
    have i4 : (s1.robot.mass cy.M).cols = s.nv := cs2
    have i5 : s.Jc.cols - (s1.nv - s1.nu) = s.nu := by rw [j2, e_nu]; omega
    rw [i1, i2, i3, i4, i5, t3, ← e_ms, e_r, j1, ← e_nv]
    simp [Vec.zero]
  have hmul : ∀ (A : Mat K) (i : Nat),
      Spec.row (A.mul Ma) x i + Spec.row (A.neg.mul Ja.transpose) (fun j => x (s1.nv + j)) i =
      Spec.row A s'.tau i - (A.mulVec ha) i := by
    intro A i
    rw [row_mul, row_mul]
    unfold Spec.row
    simp only [Mat.mulVec, Mat.neg, neg_mul]
    rw [← Finset.sum_add_distrib, ← Finset.sum_sub_distrib]
    apply Finset.sum_congr rfl
    intro l _
    rw [htau l]
    simp only [Spec.row]
    ring
  unfold actCell at hcell
  dsimp only at hcell
  split at hcell
  · next hk =>
    split at hcell
    · next hd' =>
      rw [Option.bind_eq_some_iff] at hcell
      obtain ⟨A1, hA1, hcell⟩ := hcell
      rw [Option.map_eq_some_iff] at hcell
      obtain ⟨A2, hA2, he⟩ := hcell
      rw [← he]
      have hrows := (setCols_two hA1 hA2).1
      refine says_equality hd'.2.2 hk (hrows.trans (Mat.setCols_some hA1).1.symm) ?_
      intro i _
      show Spec.row A2 x i - ((cy.actOut tl.tid).vec.sub _) i = _
      rw [row_two hcols hA1 hA2, hmul]
      simp only [Vec.sub]
      ring
    · cases hcell
  · next hk =>
    split at hcell
    · next hd' =>
      rw [Option.bind_eq_some_iff] at hcell
      obtain ⟨A1, hA1, hcell⟩ := hcell
      rw [Option.map_eq_some_iff] at hcell
      obtain ⟨A2, hA2, he⟩ := hcell
      rw [← he]
      have hrows := (setCols_two hA1 hA2).1
      refine says_inequality hd'.2.2.2 hk (hrows.trans (Mat.setCols_some hA1).1.symm) ?_ ?_
      · intro i _
        show Spec.row A2 x i - ((cy.actOut tl.tid).lb.sub _) i = _
        rw [row_two hcols hA1 hA2, hmul]
        simp only [Vec.sub]
        ring
      · intro i _
        show Spec.row A2 x i - ((cy.actOut tl.tid).ub.sub _) i = _
        rw [row_two hcols hA1 hA2, hmul]
        simp only [Vec.sub]
        ring
    · cases hcell
  · next hk =>
    split at hcell
    · next hd' =>
      rw [Option.bind_eq_some_iff] at hcell
      obtain ⟨A1, hA1, hcell⟩ := hcell
      rw [Option.map_eq_some_iff] at hcell
      obtain ⟨A2, hA2, he⟩ := hcell
      rw [← he]
      have hrows := (setCols_two hA1 hA2).1
      refine says_bound hd'.2.2 hk ?_ ?_ ?_
      · rw [hd'.1, ← hha]
        refine hrows.trans ?_
        rw [← (Mat.setCols_some hA1).1, ← hMa]
        rfl
      · intro i _
        show Spec.row A2 x i - ((cy.actOut tl.tid).lb.sub _) i = _
        rw [row_two hcols hA1 hA2, row_neg, htau]
        simp only [Vec.sub]
        ring
      · intro i _
        show Spec.row A2 x i - ((cy.actOut tl.tid).ub.sub _) i = _
        rw [row_two hcols hA1 hA2, row_neg, htau]
        simp only [Vec.sub]
        ring
    · cases hcell

end Formulation

end Tsid
