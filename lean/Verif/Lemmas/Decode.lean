import Verif.Lemmas.Steps
import Verif.Spec.Formulation

/-!
# Assembled problem in terms of the decoded solution
-/

set_option linter.unusedSectionVars false

namespace Tsid.Formulation

open Finset

variable {K : Type} [Field K] [LinearOrder K] [HasSqrt K]

theorem reachable_inv {nd : Bool} {W : World} {s : State K} (h : Spec.Reachable nd W s) : Inv W s := by
  obtain ⟨robot, obj, assoc, ops, hna, hobj, hr⟩ := h
  refine run_inv ops _ s (inv_init W robot hna obj ?_ assoc) hr
  intro c
  obtain ⟨name, kind, points, normal, mu, fMin, fMax, e⟩ := hobj c
  rw [e]
  exact Contact.shaped_new _ _ _ _ _ _ _

/-- `computeProblemData` ends with an assembly. -/
theorem compute_ok {nd : Bool} {cy : Cycle K} {t : K} {s0 s : State K}
    (h : computeProblemData nd cy t s0 = .ok s ()) :
    ∃ s1, (runTransitions nd [] s0.trans { s0 with t := t }) = .ok s1 () ∧ assemble cy s1 = some s := by
  unfold computeProblemData at h
  dsimp only at h
  split at h
  · next s1 u hc =>
    split at h
    · next s2 ha =>
      simp only [Res.ok.injEq, and_true] at h
      subst h
      exact ⟨s1, hc, ha⟩
    · cases h
  · cases h
  · cases h
  · cases h

/-- State before the assembly, with everything known about it. -/
theorem compute_spec {nd : Bool} {W : World} {cy : Cycle K} {t : K} {s0 s : State K} (h0 : Inv W s0)
    (h : computeProblemData nd cy t s0 = .ok s ()) :
    ∃ s1, Inv W s1 ∧ (ForceClean s0 → ForceClean s1) ∧ assemble cy s1 = some s ∧ Assembled cy s1 s ∧
      Inv W s ∧ (ForceClean s0 → ForceClean s) := by
  obtain ⟨s1, ht, ha⟩ := compute_ok h
  have k0 : Keeps W s0 { s0 with t := t } :=
    keeps_misc h0 t s0.measured s0.trans s0.decoded s0.dv s0.f s0.tau
  have k1 := k0.trans (runTransitions_keeps (nd := nd) _ _ _ s1 k0.1 (by rw [ht]; rfl))
  exact ⟨s1, k1.1, k1.2, ha, assemble_spec k1.1.pre ha, assemble_inv k1.1 ha,
    fun hc => assemble_forceClean k1.1.pre (k1.2 hc) ha⟩

theorem sumTorques_spec (cy : Cycle K) (nv : Nat) : ∀ (l : List Nat) (h h' : Vec K),
    sumTorques cy nv l h = some h' →
    h'.size = h.size ∧ (∀ m ∈ l, (cy.torque m).size = nv) ∧
    ∀ i, h' i = h i + ((l.map cy.torque).map fun t => t i).sum := by
  intro l
  induction l with
  | nil =>
    intro h h' e
    simp only [sumTorques, Option.some.injEq] at e
    subst e
    simp
  | cons m ms ih =>
    intro h h' e
    unfold sumTorques at e
    split at e
    · next hm =>
      obtain ⟨i1, i2, i3⟩ := ih _ _ e
      refine ⟨i1, ?_, ?_⟩
      · intro m' hm'
        rcases List.mem_cons.1 hm' with rfl | hm'
        · exact hm
        · exact i2 m' hm'
      · intro i
        rw [i3 i]
        simp only [Vec.add, List.map_cons, List.sum_cons]
        ring
    · cases e

/-- `Jcᵀ f`, row by row. -/
theorem jacT_contactTerms (cy : Cycle K) (obj : Nat → Contact K) (Jc : Mat K) (f : Nat → K) (i : Nat) :
    ∀ (l : List ContactLevel) (k0 k1 : Nat), Tiled obj k0 l k1 →
      (∀ cl ∈ l, (obj cl.cid).forceGen.cols = (obj cl.cid).nForce ∧
        (obj cl.cid).forceGen.rows = (cy.contactMotion cl.cid).mat.rows ∧
        ∀ c, c < (obj cl.cid).nForce → Jc (cl.index + c) i =
          ∑ r ∈ range (obj cl.cid).forceGen.rows,
            (obj cl.cid).forceGen r c * (cy.contactMotion cl.cid).mat r i) →
      Spec.contactTerms (l.map fun cl => ((cy.contactMotion cl.cid).mat, (obj cl.cid).forceGen)) k0 f i =
        ∑ j ∈ range (k1 - k0), Jc (k0 + j) i * f (k0 + j) := by
  intro l
  induction l with
  | nil =>
    intro k0 k1 ht _
    simp only [Tiled] at ht
    subst ht
    simp [Spec.contactTerms]
  | cons cl cls ih =>
    intro k0 k1 ht hl
    simp only [Tiled] at ht
    obtain ⟨hi, ht⟩ := ht
    obtain ⟨g1, g2, g3⟩ := hl cl (by simp)
    have hle := (tiled_bounds obj cls _ _ ht).1
    simp only [List.map_cons, Spec.contactTerms]
    rw [g1, ih _ _ ht (fun c hc => hl c (by simp [hc]))]
    have hsplit : k1 - k0 = (obj cl.cid).nForce + (k1 - (k0 + (obj cl.cid).nForce)) := by omega
    rw [hsplit, Finset.sum_range_add]
    congr 1
    · unfold Spec.contactTerm
      rw [g1]
      have : ∀ j ∈ range (obj cl.cid).nForce, Jc (k0 + j) i * f (k0 + j) =
          ∑ r ∈ range (obj cl.cid).forceGen.rows,
            (cy.contactMotion cl.cid).mat r i * ((obj cl.cid).forceGen r j * f (k0 + j)) := by
        intro j hj
        rw [mem_range] at hj
        rw [← hi, g3 j hj, Finset.sum_mul]
        apply Finset.sum_congr rfl
        intro r _
        ring
      rw [Finset.sum_congr rfl this, Finset.sum_comm, g2]
      apply Finset.sum_congr rfl
      intro r _
      rw [Finset.mul_sum]
    · apply Finset.sum_congr rfl
      intro j _
      rw [Nat.add_assoc]

/-- After the assembly: the contact Jacobian in terms of the registered contacts. -/
theorem assembled_jac {W : World} {cy : Cycle K} {s s' : State K} (hi : Inv W s) (ha : Assembled cy s s')
    (f : Nat → K) (i : Nat) :
    s'.Jc.rows = s.k ∧ s'.Jc.cols = s.nv ∧
    Spec.contactTerms (s.contacts.map fun cl => ((cy.contactMotion cl.cid).mat, (s.contactObj cl.cid).forceGen))
      0 f i = ∑ j ∈ range s.k, s'.Jc j i * f j := by
  obtain ⟨h1, hj⟩ := ha.jac
  obtain ⟨j1, j2, j3, j4, j5, j6⟩ := assembleContacts_jac cy s.contactObj s.nv s.contacts 0 s.k _ _ hi.tiled hj
  refine ⟨j1.trans hi.sized.jcRows, j2.trans hi.sized.jcCols, ?_⟩
  rw [jacT_contactTerms cy s.contactObj s'.Jc f i s.contacts 0 s.k hi.tiled]
  · simp
  · intro cl hcl
    refine ⟨(hi.pre.shaped cl.cid).genCols, (ha.contacts cl hcl).2.2.2, ?_⟩
    intro c hc
    exact (j6 cl hcl).2.2 c i hc

/-- Result of decoding a vector of the right size right after the assembly. -/
structure Decoded (cy : Cycle K) (s : State K) (x : Vec K) (s' : State K) : Prop where
  run : decodeSolution s x = some s'
  dvSize : s'.dv.size = s.nv
  dv : ∀ i, s'.dv i = x i
  fSize : s'.f.size = s.k
  f : ∀ i, s'.f i = x (s.nv + i)
  tauSize : s'.tau.size = s.nv - s.nu
  tau : ∀ i, s'.tau i =
    (cy.nle (s.nu + i) - ((s.measured.map cy.torque).map fun t => t (s.nu + i)).sum) +
      (∑ j ∈ range s.nv, s.robot.mass cy.M (s.nu + i) j * x j) -
      Spec.contactTerms
        (s.contacts.map fun cl => ((cy.contactMotion cl.cid).mat, (s.contactObj cl.cid).forceGen)) 0
        (fun j => x (s.nv + j)) (s.nu + i)

theorem decodeSolution_eq {s : State K} {x : Vec K} (hd : s.decoded = false) (h1 : s.nv ≤ x.size)
    (h2 : s.k ≤ x.size) : decodeSolution s x = some { s with
      dv := x.head s.nv, f := x.tail s.k
      tau := (((s.nle.tail (s.nv - s.nu)).sub (s.hfext.tail (s.nv - s.nu))).add
        ((s.mass.bottomRows (s.nv - s.nu)).mulVec (x.head s.nv))).sub
        ((s.Jc.rightCols (s.nv - s.nu)).transpose.mulVec (x.tail s.k))
      decoded := true } := by
  unfold decodeSolution
  rw [hd, if_neg (by simp), if_pos ⟨h1, h2⟩]

theorem decode_spec {W : World} {cy : Cycle K} {s1 s : State K} (hi : Inv W s1) (ha : assemble cy s1 = some s)
    (hc : Spec.CycleSizes s.nv cy) (x : Vec K) (hx : x.size = nVar s) :
    ∃ s', Decoded cy s x s' := by
  have hA := assemble_spec hi.pre ha
  have e := hA.eq
  have e_nv : s.nv = s1.nv := by rw [e]
  have e_k : s.k = s1.k := by rw [e]
  have e_nu : s.nu = s1.nu := by rw [e]
  have e_d : s.decoded = false := by rw [e]
  have e_m : s.mass = s1.robot.mass cy.M := by rw [e]
  have e_n : s.nle = cy.nle := by rw [e]
  have e_r : s.robot = s1.robot := by rw [e]
  have e_c : s.contacts = s1.contacts := by rw [e]
  have e_o : s.contactObj = s1.contactObj := by rw [e]
  have e_ms : s.measured = s1.measured := by rw [e]
  have hnu : s.nu ≤ s.nv := by rw [e_nv, e_nu]; exact hi.pre.nuLe
  obtain ⟨c1, c2, c3⟩ := hc
  unfold nVar at hx
  obtain ⟨t1, t2, t3⟩ := sumTorques_spec cy _ _ _ _ hA.torques
  have t1 : s.hfext.size = s.nv := by rw [t1, e_nv]; rfl
  have hd := decodeSolution_eq (s := s) (x := x) e_d (by omega) (by omega)
  refine ⟨_, ⟨hd, ?_, ?_, ?_, ?_, ?_, ?_⟩⟩
  · rfl
  · intro i; rfl
  · rfl
  · intro i
    show x (x.size - s.k + i) = x (s.nv + i)
    congr 1; omega
  · show s.nv - s.nu = _; rfl
  · intro i
    obtain ⟨j1, j2, j3⟩ := assembled_jac hi hA (fun j => x (s.nv + j)) (s.nu + i)
    rw [← e_c, ← e_o, ← e_k] at j3
    rw [j3]
    simp only [Vec.sub, Vec.add, Mat.mulVec, Mat.bottomRows, Mat.transpose, Mat.rightCols, Vec.tail, Vec.head]
    have i1 : s.nle.size - (s.nv - s.nu) = s.nu := by rw [e_n, c3]; omega
    have i2 : s.hfext.size - (s.nv - s.nu) = s.nu := by rw [t1]; omega
    have i3 : s.mass.rows - (s.nv - s.nu) = s.nu := by
      rw [e_m]; show cy.M.rows - _ = _; rw [c1]; omega
    have i4 : s.mass.cols = s.nv := by rw [e_m]; exact c2
    have i5 : s.Jc.cols - (s.nv - s.nu) = s.nu := by rw [j2, ← e_nv]; omega
    have i6 : s.Jc.rows = s.k := by rw [j1, e_k]
    rw [i1, i2, i3, i4, i5, i6, e_n, t3, ← e_ms, e_m, e_r]
    simp only [Vec.zero, zero_add]
    have i7 : x.size - s.k = s.nv := by omega
    rw [i7]

/-- The base-dynamics row after the assembly. -/
theorem base_row {W : World} {cy : Cycle K} {s1 s : State K} (hi : Inv W s1) (ha : assemble cy s1 = some s)
    (x : Vec K) :
    (s.heap s.baseId).kind = .equality ∧ (s.heap s.baseId).mat.rows = s.nu ∧
    ∀ i, (Spec.row (s.heap s.baseId).mat x i =
      (∑ j ∈ range s.nv, s.robot.mass cy.M i j * x j) -
      Spec.contactTerms
        (s.contacts.map fun cl => ((cy.contactMotion cl.cid).mat, (s.contactObj cl.cid).forceGen)) 0
        (fun j => x (s.nv + j)) i) ∧
      (s.heap s.baseId).vec i = -(cy.nle i - ((s.measured.map cy.torque).map fun t => t i).sum) := by
  have hA := assemble_spec hi.pre ha
  have e := hA.eq
  have e_nv : s.nv = s1.nv := by rw [e]
  have e_k : s.k = s1.k := by rw [e]
  have e_nu : s.nu = s1.nu := by rw [e]
  have e_b : s.baseId = s1.baseId := by rw [e]
  have e_r : s.robot = s1.robot := by rw [e]
  have e_c : s.contacts = s1.contacts := by rw [e]
  have e_o : s.contactObj = s1.contactObj := by rw [e]
  have e_ms : s.measured = s1.measured := by rw [e]
  obtain ⟨t1, t2, t3⟩ := sumTorques_spec cy _ _ _ _ hA.torques
  have hb := hA.base
  have hsh := (baseCell_spec hi.pre.baseKind hb).1
  rw [e_b]
  refine ⟨hsh.kind.trans hi.pre.baseKind, hsh.rows.trans (hi.pre.baseRows.trans e_nu.symm), ?_⟩
  intro i
  have hcols : (s.heap s1.baseId).mat.cols = s.nv + s.k := by
    rw [hsh.cols, hi.sized.baseCols, e_nv, e_k]
  unfold baseCell at hb
  rw [Option.bind_eq_some_iff] at hb
  obtain ⟨A1, hA1, hb⟩ := hb
  rw [Option.map_eq_some_iff] at hb
  obtain ⟨A2, hA2, hb⟩ := hb
  obtain ⟨p1, p2, p3, p4⟩ := Mat.setCols_some hA1
  obtain ⟨q1, q2, q3, q4⟩ := Mat.setCols_some hA2
  constructor
  · rw [Spec.row_split _ _ _ s.nv s.k hcols]
    obtain ⟨j1, j2, j3⟩ := assembled_jac hi hA (fun j => x (s.nv + j)) i
    rw [← e_c, ← e_o, ← e_k] at j3
    rw [j3, sub_eq_add_neg, ← Finset.sum_neg_distrib]
    have hA1c : A1.cols - s1.k = s.nv := by
      rw [p4]; show (s1.heap s1.baseId).mat.cols - s1.k = s.nv
      rw [hi.sized.baseCols, e_nv]; omega
    rw [hA1c] at q4
    congr 1
    · apply Finset.sum_congr rfl
      intro j hj
      rw [mem_range] at hj
      congr 1
      rw [← hb]
      show A2 i j = _
      rw [q4]
      show (if _ then _ else _) = _
      rw [if_neg (by omega), p4]
      show (if _ then _ else _) = _
      rw [if_pos (by omega)]
      simp [Mat.topRows, e_r]
    · apply Finset.sum_congr rfl
      intro j hj
      rw [mem_range] at hj
      rw [← neg_mul]
      congr 1
      rw [← hb]
      show A2 i (s.nv + j) = _
      rw [q4]
      show (if _ then _ else _) = _
      rw [if_pos (by omega)]
      simp [Mat.neg, Mat.transpose, Mat.leftCols]
  · rw [← hb]
    simp only [Vec.neg, Vec.sub, Vec.head]
    rw [t3, ← e_ms]
    simp [Vec.zero]

end Tsid.Formulation
