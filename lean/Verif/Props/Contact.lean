import Verif.Lemmas.ContactSetters

/-!
# C22 - C26: contact objects
-/

set_option linter.unusedSectionVars false

namespace Tsid.Props

open Spec Formulation Finset

variable {K : Type} [Field K] [LinearOrder K] [HasSqrt K]

/-! ## C24 -/

/-- **C24.** After any history of setter calls with arbitrary arguments (exceptions being caught), the force
constraint and the force generator are those of a new contact with the current parameters, and the parameters are
those of the last accepted calls. -/
theorem C24_coherent {name : String} {kind : ContactKind} {points : Nat → V3 K} {normal : V3 K} {mu fMin fMax : K}
    {us : List (ContactSet K)} {c : Contact K}
    (h : applySets (Contact.new name kind points normal mu fMin fMax) us = some c) :
    let p := paramsAfter (Contact.new name kind points normal mu fMin fMax)
      (newParams kind points normal mu fMin fMax) us
    c.forceIneq = (Contact.new name kind p.points p.normal p.mu p.fMin p.fMax).forceIneq ∧
    c.forceGen = (Contact.new name kind p.points p.normal p.mu p.fMin p.fMax).forceGen ∧
    c.points = p.points ∧ c.normal = p.normal ∧ c.mu = p.mu ∧ c.fMin = p.fMin ∧ c.fMax = p.fMax ∧
    c.fRef = p.fRef ∧ c.regW = p.regW := by
  have hh := holds_sets us _ c _ (holds_new name kind points normal mu fMin fMax) h
  exact ⟨hh.ineq, hh.gen, hh.points, hh.normal, hh.mu, hh.fMin, hh.fMax, hh.fRef, hh.regW⟩

/-- **C24, rejected calls.** A call is rejected exactly for the arguments that are not acceptable (the call being
defined at all), and then changes nothing. -/
theorem C24_rejected {c : Contact K} {u : ContactSet K} (hu : (applySet c u).isUB = false) :
    ((applySet c u).isThrow = true ↔ ¬ Accepts c u) ∧ ∀ c', applySet c u = .throw c' → c' = c := by
  cases u with
  | points P =>
    simp only [applySet, Contact.setContactPoints, Accepts] at hu ⊢
    cases hk : c.kind
    · simp [hk, void, Res.isUB] at hu
    · simp only
      by_cases e1 : P.rows = 3 <;> by_cases e2 : P.cols = 4 <;> simp [e1, e2, void, Res.isThrow]
    · simp [hk, void, Res.isUB] at hu
  | normal n =>
    simp only [applySet, Contact.setContactNormal, Accepts]
    cases hk : c.kind <;> by_cases e1 : n.size = 3 <;> simp [e1, void, Res.isThrow]
  | friction mu =>
    simp only [applySet, Contact.setFrictionCoefficient, Accepts]
    cases hk : c.kind <;> by_cases e1 : 0 < mu <;> simp [e1, void, Res.isThrow] <;> simpa using e1
  | fMin m =>
    simp only [applySet, Contact.setMinNormalForce, Accepts]
    cases hk : c.kind <;> by_cases e1 : 0 < m ∧ m ≤ c.fMax <;> simp only [if_pos, if_neg, e1, void, Res.isThrow] <;>
      simp <;> simpa using e1
  | fMax m =>
    simp only [applySet, Contact.setMaxNormalForce, Accepts]
    cases hk : c.kind <;> by_cases e1 : c.fMin ≤ m <;> simp only [if_pos, if_neg, e1, void, Res.isThrow] <;>
      simp <;> simpa using e1
  | forceRef f =>
    simp only [applySet, Contact.setForceReference, Accepts] at hu ⊢
    cases hk : c.kind <;> simp only [hk] at hu ⊢ <;> split at hu <;> simp_all [Res.isThrow, Res.isUB]
  | regWeights w =>
    simp only [applySet, Contact.setRegularizationWeights, Accepts] at hu ⊢
    split at hu <;> simp_all [Res.isThrow, Res.isUB]

/-- **C24, ordered limits.** On a point or 6d contact `fMin ≤ fMax` is preserved by every history. -/
theorem C24_limits {c c' : Contact K} (hk : c.kind ≠ .twoFrames) (h0 : c.fMin ≤ c.fMax) :
    ∀ {us : List (ContactSet K)}, applySets c us = some c' → c'.fMin ≤ c'.fMax := by
  intro us
  induction us generalizing c with
  | nil =>
    intro h
    simp only [applySets, Option.some.injEq] at h
    exact h ▸ h0
  | cons u us ih =>
    intro h
    simp only [applySets] at h
    cases hu : (applySet c u).state? with
    | none => rw [hu] at h; cases h
    | some d =>
      rw [hu] at h
      have key : d.kind = c.kind ∧ d.fMin ≤ d.fMax := by
        cases u <;> simp only [applySet, Contact.setContactPoints, Contact.setContactNormal,
          Contact.setFrictionCoefficient, Contact.setMinNormalForce, Contact.setMaxNormalForce,
          Contact.setForceReference, Contact.setRegularizationWeights] at hu <;>
          (repeat' split at hu) <;>
          simp only [void, Res.state?, Option.some.injEq, reduceCtorEq] at hu <;> subst hu <;>
          simp_all [Contact.updateForceGenerator, Contact.updateForceInequality, Contact.updateForceReg]
        all_goals (repeat' split) <;> simp_all
      exact ih (by rw [key.1]; exact hk) key.2 h

/-- The limits of a `ContactTwoFramePositions` are not checked: a history may leave an empty force interval. -/
theorem C24_twoFrames_unordered : ∃ c : Contact ℚ,
    applySets (Contact.new "c" .twoFrames (fun _ => 0) ⟨0, 0, 1⟩ 1 (-10) 10) [.fMin 20] = some c ∧ c.fMax < c.fMin :=
  ⟨_, rfl, by decide +kernel⟩

example : ∃ c : Contact ℚ, applySets (Contact.new "c" .sixD (fun _ => 0) ⟨0, 0, 1⟩ (1 / 2) 1 10)
    [.fMax 5, .friction (-1), .fMin 6, .normal ⟨3, fun i => if i = 0 then 1 else 0⟩, .friction 2, .fMin 3] = some c ∧
    c.fMin = 3 ∧ c.fMax = 5 ∧ c.mu = 2 ∧ c.forceIneq.lb 16 = 3 ∧ c.forceIneq.ub 16 = 5 ∧ c.forceIneq.mat 16 3 = 1 :=
  ⟨_, rfl, by decide +kernel⟩

/-! ## C22 -/

section
variable [IsStrictOrderedRing K] [LawfulSqrt K]

/-- The force constraint of a new contact. -/
theorem sat_new {name : String} {kind : ContactKind} (hk : kind ≠ .twoFrames) {points : Nat → V3 K} {n : V3 K}
    {mu fMin fMax : K} (f : Nat → K) : Sat (Contact.new name kind points n mu fMin fMax).forceIneq f ↔
      (∀ i, i < nPoints kind → Pyramid n (Contact.tangent1 n) (Contact.tangent2 n) mu (cornerForce f i) ∧
        BelowLimit n (Contact.tangent1 n) (Contact.tangent2 n) mu (cornerForce f i)) ∧
      fMin ≤ ∑ i ∈ range (nPoints kind), n.dot (cornerForce f i) ∧
      ∑ i ∈ range (nPoints kind), n.dot (cornerForce f i) ≤ fMax := by
  cases kind
  · exact Contact.sat_friction f
  · exact Contact.sat_friction f
  · exact absurd rfl hk

/-- **C22.** After any history of setter calls that leaves a unit normal, there are two tangents, orthonormal with
the normal, such that the force constraint of a point or 6d contact accepts a force vector exactly when at every
contact point the components along the tangents are at most `mu` times the normal component (within the built-in
limit), and the total normal force lies in `[fMin, fMax]`. -/
theorem C22_friction {name : String} {kind : ContactKind} {points : Nat → V3 K} {normal : V3 K} {mu fMin fMax : K}
    {us : List (ContactSet K)} {c : Contact K} (hk : kind ≠ .twoFrames)
    (h : applySets (Contact.new name kind points normal mu fMin fMax) us = some c) :
    let p := paramsAfter (Contact.new name kind points normal mu fMin fMax)
      (newParams kind points normal mu fMin fMax) us
    p.normal.dot p.normal = 1 →
    ∃ t1 t2 : V3 K, Orthonormal t1 t2 p.normal ∧ ∀ f : Nat → K, Sat c.forceIneq f ↔
      (∀ i, i < nPoints kind → Pyramid p.normal t1 t2 p.mu (cornerForce f i) ∧
        BelowLimit p.normal t1 t2 p.mu (cornerForce f i)) ∧
      p.fMin ≤ ∑ i ∈ range (nPoints kind), p.normal.dot (cornerForce f i) ∧
      ∑ i ∈ range (nPoints kind), p.normal.dot (cornerForce f i) ≤ p.fMax := by
  intro p hn
  refine ⟨_, _, Contact.tangents_orthonormal hn, fun f => ?_⟩
  have hh := holds_sets us _ c _ (holds_new name kind points normal mu fMin fMax) h
  rw [hh.ineq]
  exact sat_new hk f

/-- A unit normal away from the axes. -/
example : ∃ c : Contact ℝ, applySets (Contact.new "c" .sixD (fun _ => 0) ⟨0, 0, 1⟩ (1 / 2) 1 10)
    [.normal ⟨3, fun i => if i = 0 then 3 / 5 else if i = 1 then 0 else 4 / 5⟩] = some c ∧
    c.normal.dot c.normal = 1 :=
  ⟨_, rfl, by
    show (3 / 5 : ℝ) * (3 / 5) + 0 * 0 + 4 / 5 * (4 / 5) = 1
    norm_num⟩

/-! ## C23 -/

/-- **C23, completeness.** Every force of the Coulomb cone with admissible normal component (and within the built-in
limit) is accepted by the force constraint of a point contact. -/
theorem C23_cone_accepted {name : String} {points : Nat → V3 K} {n : V3 K} {mu fMin fMax : K} (hn : n.dot n = 1)
    (hmu : 0 ≤ mu) (f : Nat → K) (hf : Coulomb n mu (cornerForce f 0)) (h1 : fMin ≤ n.dot (cornerForce f 0))
    (h2 : n.dot (cornerForce f 0) ≤ fMax) (hl : 2 * (mu * n.dot (cornerForce f 0)) ≤ 10 ^ 10) :
    Sat (Contact.new name .point points n mu fMin fMax).forceIneq f := by
  have ho := Contact.tangents_orthonormal hn
  have hp := tangential_sq ho (cornerForce f 0)
  obtain ⟨c1, c2⟩ := hf
  rw [hp] at c2
  have hm : 0 ≤ mu * n.dot (cornerForce f 0) := mul_nonneg hmu c1
  have a1 : |(Contact.tangent1 n).dot (cornerForce f 0)| ≤ mu * n.dot (cornerForce f 0) := by
    apply abs_le_of_sq_le_sq _ hm
    nlinarith [mul_self_nonneg ((Contact.tangent2 n).dot (cornerForce f 0))]
  have a2 : |(Contact.tangent2 n).dot (cornerForce f 0)| ≤ mu * n.dot (cornerForce f 0) := by
    apply abs_le_of_sq_le_sq _ hm
    nlinarith [mul_self_nonneg ((Contact.tangent1 n).dot (cornerForce f 0))]
  refine (sat_new (by decide) f).2 ⟨?_, ?_, ?_⟩
  · intro i hi
    obtain rfl : i = 0 := Nat.lt_one_iff.1 hi
    exact ⟨⟨a1, a2⟩, by linarith, by linarith⟩
  · simpa [nPoints] using h1
  · simpa [nPoints] using h2

/-- **C23, partial soundness.** A force accepted by the force constraint of a point or 6d contact lies, at every
contact point, in the Coulomb cone of coefficient `√2 mu`.  (Missing: the cone of coefficient `mu`, which the
accepted forces leave, see `C23_outside_cone`.) -/
theorem C23_soundness_partial {name : String} {kind : ContactKind} (hk : kind ≠ .twoFrames) {points : Nat → V3 K}
    {n : V3 K} {mu fMin fMax : K} (hn : n.dot n = 1) (hmu : 0 < mu) (f : Nat → K)
    (hf : Sat (Contact.new name kind points n mu fMin fMax).forceIneq f) {i : Nat} (hi : i < nPoints kind) :
    Coulomb n (sqrt 2 * mu) (cornerForce f i) := by
  have ho := Contact.tangents_orthonormal hn
  have hs : (sqrt 2 : K) * sqrt 2 = 2 := LawfulSqrt.sq_sqrt 2 (by norm_num)
  have key : Pyramid n (Contact.tangent1 n) (Contact.tangent2 n) mu (cornerForce f i) :=
    (((sat_new hk f).1 hf).1 i hi).1
  obtain ⟨a1, a2⟩ := key
  have h0 : 0 ≤ mu * n.dot (cornerForce f i) := le_trans (abs_nonneg _) a1
  refine ⟨nonneg_of_mul_nonneg_right h0 hmu, ?_⟩
  rw [tangential_sq ho]
  have b1 := sq_le_sq' (by linarith [neg_abs_le ((Contact.tangent1 n).dot (cornerForce f i))])
    ((le_abs_self _).trans a1)
  have b2 := sq_le_sq' (by linarith [neg_abs_le ((Contact.tangent2 n).dot (cornerForce f i))])
    ((le_abs_self _).trans a2)
  calc _ ≤ 2 * ((mu * n.dot (cornerForce f i)) * (mu * n.dot (cornerForce f i))) := by nlinarith
    _ = sqrt 2 * sqrt 2 * ((mu * n.dot (cornerForce f i)) * (mu * n.dot (cornerForce f i))) := by rw [hs]
    _ = _ := by ring

/-- C23 is false of every point contact that can push: for every unit normal and friction coefficient there is an
accepted force outside the Coulomb cone. -/
theorem C23_outside_cone (name : String) (points : Nat → V3 K) {n : V3 K} {mu fMin fMax a : K} (hn : n.dot n = 1)
    (hmu : 0 < mu) (ha : 0 < a) (h1 : fMin ≤ a) (h2 : a ≤ fMax) (hl : 2 * (mu * a) ≤ 10 ^ 10) :
    ∃ f : Nat → K, Sat (Contact.new name .point points n mu fMin fMax).forceIneq f ∧
      n.dot (cornerForce f 0) = a ∧ ¬ Coulomb n mu (cornerForce f 0) := by
  have ho := Contact.tangents_orthonormal hn
  obtain ⟨o1, o2, o3, o4, o5, o6⟩ := ho
  set t1 := Contact.tangent1 n with ht1
  set t2 := Contact.tangent2 n with ht2
  let v : V3 K := ⟨a * (n.x + mu * t1.x + mu * t2.x), a * (n.y + mu * t1.y + mu * t2.y),
    a * (n.z + mu * t1.z + mu * t2.z)⟩
  let f : Nat → K := fun i => v.get i
  have hv : cornerForce f 0 = v := rfl
  have e1 : t1.dot v = mu * a := by
    simp only [V3.dot, v] at *
    linear_combination a * o5 + a * mu * o1 + a * mu * o4
  have e2 : t2.dot v = mu * a := by
    simp only [V3.dot, v] at *
    linear_combination a * o6 + a * mu * o4 + a * mu * o2
  have e3 : n.dot v = a := by
    simp only [V3.dot, v] at *
    linear_combination a * o3 + a * mu * o5 + a * mu * o6
  have hpos : 0 < mu * a := mul_pos hmu ha
  refine ⟨f, (sat_new (by decide) f).2 ⟨?_, ?_, ?_⟩, ?_, ?_⟩
  · intro i hi
    obtain rfl : i = 0 := Nat.lt_one_iff.1 hi
    rw [hv]
    refine ⟨⟨?_, ?_⟩, ?_, ?_⟩ <;> simp only [← ht1, ← ht2, e1, e2, e3, abs_of_pos hpos] <;> linarith
  · simpa [nPoints, hv, e3] using h1
  · simpa [nPoints, hv, e3] using h2
  · rw [hv, e3]
  · rw [hv]
    rintro ⟨-, hc⟩
    rw [tangential_sq ⟨o1, o2, o3, o4, o5, o6⟩, e1, e2, e3] at hc
    nlinarith [mul_pos hpos hpos]

example : ∃ f : Nat → ℝ, Sat (Contact.new "c" .point (fun _ => 0) ⟨0, 0, 1⟩ (1 / 2) 1 10).forceIneq f ∧
    (⟨0, 0, 1⟩ : V3 ℝ).dot (cornerForce f 0) = 4 ∧ ¬ Coulomb ⟨0, 0, 1⟩ (1 / 2) (cornerForce f 0) :=
  C23_outside_cone "c" _ (by simp [V3.dot]) (by norm_num) (by norm_num) (by norm_num) (by norm_num) (by norm_num)

example : Coulomb (⟨0, 0, 1⟩ : V3 ℝ) (1 / 2) (cornerForce (fun i => if i = 2 then 5 else 1) 0) := by
  norm_num [Coulomb, tangential, cornerForce, V3.dot, V3.smul, HSub.hSub, Sub.sub]

end

/-! ## C25 -/

/-- **C25.** For every Jacobian, force vector and history of setter calls, the generalized force `(Tᵀ J)ᵀ f` that a
6d contact adds to the equations of motion is the sum over the four current contact points of the transposed Jacobian
of the point (its velocity in the directions of the joint velocities) applied to the force at the point. -/
theorem C25_force_generator {name : String} {points : Nat → V3 K} {normal : V3 K} {mu fMin fMax : K}
    {us : List (ContactSet K)} {c : Contact K}
    (h : applySets (Contact.new name .sixD points normal mu fMin fMax) us = some c) (J : Mat K) (f : Nat → K)
    (q : Nat) :
    let p := paramsAfter (Contact.new name .sixD points normal mu fMin fMax)
      (newParams .sixD points normal mu fMin fMax) us
    ∑ r ∈ range 12, (c.forceGen.transpose.mul J) r q * f r =
      ∑ i ∈ range 4, (pointVelocity (jacLin J q) (jacAng J q) (p.points i)).dot (cornerForce f i) := by
  intro p
  have hh := holds_sets us _ c _ (holds_new name .sixD points normal mu fMin fMax) h
  rw [hh.gen]
  have e : (Contact.new name .sixD p.points p.normal p.mu p.fMin p.fMax).forceGen = Contact.forceGen6d p.points := rfl
  rw [e]
  rw [show 12 = 3 * 4 from rfl, sum_triples]
  apply sum_congr rfl
  intro i hi
  have hi4 := mem_range.1 hi
  have a1 : 3 * i / 3 = i := by omega
  have a2 : (3 * i + 1) / 3 = i := by omega
  have a3 : (3 * i + 2) / 3 = i := by omega
  have b1 : 3 * i % 3 = 0 := by omega
  have b2 : (3 * i + 1) % 3 = 1 := by omega
  have b3 : (3 * i + 2) % 3 = 2 := by omega
  simp only [Mat.mul, Mat.transpose, Contact.forceGen6d, sum_range_succ, range_zero, sum_empty, a1, a2, a3, b1, b2, b3,
    pointVelocity, jacLin, jacAng, cornerForce, M3.skew, M3.get, V3.get, V3.dot, V3.cross]
  norm_num
  show _ = (_ + _) * _ + (_ + _) * _ + (_ + _) * _
  ring

/-- **C25, point contacts.** A point contact applies its force at the origin of its frame. -/
theorem C25_point {name : String} {kind : ContactKind} (hk : kind ≠ .sixD) {points : Nat → V3 K} {normal : V3 K}
    {mu fMin fMax : K} {us : List (ContactSet K)} {c : Contact K}
    (h : applySets (Contact.new name kind points normal mu fMin fMax) us = some c) (J : Mat K) (f : Nat → K) (q : Nat) :
    ∑ r ∈ range 3, (c.forceGen.transpose.mul J) r q * f r = (jacLin J q).dot (cornerForce f 0) := by
  have hh := holds_sets us _ c _ (holds_new name kind points normal mu fMin fMax) h
  rw [hh.gen]
  have e : ∀ p : Params K, (Contact.new name kind p.points p.normal p.mu p.fMin p.fMax).forceGen = Mat.identity 3 := by
    intro p
    cases kind
    · rfl
    · exact absurd rfl hk
    · rfl
  rw [e]
  simp only [Mat.mul, Mat.transpose, Mat.identity, sum_range_succ, range_zero, sum_empty, jacLin, cornerForce, V3.dot]
  norm_num

example : ∃ c : Contact ℚ, applySets (Contact.new "c" .sixD (fun _ => 0) ⟨0, 0, 1⟩ (1 / 2) 1 10)
    [.points ⟨3, 4, fun i j => (i : ℚ) + 2 * (j : ℚ)⟩] = some c ∧
    ∑ r ∈ range 12, (c.forceGen.transpose.mul ⟨6, 7, fun i j => (i : ℚ) * (j : ℚ) + 1⟩) r 2 * (r : ℚ) = 214 :=
  ⟨_, rfl, by decide +kernel⟩

/-! ## C26 -/

/-- Residual of the regularisation task, in terms of the contact points at the last refresh. -/
theorem reg_residual {name : String} {kind : ContactKind} {c : Contact K} {p : Params K} (h : Holds name kind c p)
    (f : Nat → K) {i : Nat} (hi : i < c.forceReg.mat.rows) :
    residual c.forceReg f i = p.regW i * (wrench (nPoints kind) p.regPoints f i - p.fRef i) := by
  rw [h.reg] at hi ⊢
  cases kind with
  | sixD =>
    have hi : i < 6 := hi
    have e : residual (Contact.updateForceReg { Contact.new name .sixD p.regPoints p.normal p.mu p.fMin p.fMax with
        regW := p.regW
        fRef := p.fRef }).forceReg f i =
        ∑ j ∈ range 12, p.regW i * Contact.forceGen6d p.regPoints i j * f j - p.regW i * p.fRef i := rfl
    rw [e]
    have key : ∑ j ∈ range 12, Contact.forceGen6d p.regPoints i j * f j = wrench 4 p.regPoints f i := by
      rw [show 12 = 3 * 4 from rfl, sum_triples]
      unfold wrench
      split
      · next h3 =>
        apply sum_congr rfl
        intro j hj
        have b1 : 3 * j % 3 = 0 := by omega
        have b2 : (3 * j + 1) % 3 = 1 := by omega
        have b3 : (3 * j + 2) % 3 = 2 := by omega
        obtain rfl | rfl | rfl : i = 0 ∨ i = 1 ∨ i = 2 := by omega
        all_goals simp [Contact.forceGen6d, b1, b2, b3, cornerForce, V3.get]
      · next h3 =>
        apply sum_congr rfl
        intro j hj
        have a1 : 3 * j / 3 = j := by omega
        have a2 : (3 * j + 1) / 3 = j := by omega
        have a3 : (3 * j + 2) / 3 = j := by omega
        have b1 : 3 * j % 3 = 0 := by omega
        have b2 : (3 * j + 1) % 3 = 1 := by omega
        have b3 : (3 * j + 2) % 3 = 2 := by omega
        obtain rfl | rfl | rfl : i = 3 ∨ i = 4 ∨ i = 5 := by omega
        all_goals
          simp [Contact.forceGen6d, a1, a2, a3, b1, b2, b3, cornerForce, V3.get, V3.cross, M3.skew, M3.get]
          try ring
    have : ∑ j ∈ range 12, p.regW i * Contact.forceGen6d p.regPoints i j * f j =
        p.regW i * ∑ j ∈ range 12, Contact.forceGen6d p.regPoints i j * f j := by
      rw [mul_sum]; exact sum_congr rfl fun _ _ => by ring
    rw [this, key]
    show _ = p.regW i * (wrench 4 p.regPoints f i - p.fRef i)
    ring
  | point =>
    have hi : i < 3 := hi
    have e : residual (Contact.updateForceReg { Contact.new name .point p.regPoints p.normal p.mu p.fMin p.fMax with
        regW := p.regW
        fRef := p.fRef }).forceReg f i =
        ∑ j ∈ range 3, (if i = j then p.regW i else 0) * f j - p.regW i * p.fRef i := rfl
    rw [e]
    obtain rfl | rfl | rfl : i = 0 ∨ i = 1 ∨ i = 2 := by omega
    all_goals
      simp [wrench, nPoints, cornerForce, V3.get]
      try ring
  | twoFrames =>
    have hi : i < 3 := hi
    have e : residual (Contact.updateForceReg { Contact.new name .twoFrames p.regPoints p.normal p.mu p.fMin p.fMax with
        regW := p.regW
        fRef := p.fRef }).forceReg f i =
        ∑ j ∈ range 3, (if i = j then p.regW i else 0) * f j - p.regW i * p.fRef i := rfl
    rw [e]
    obtain rfl | rfl | rfl : i = 0 ∨ i = 1 ∨ i = 2 := by omega
    all_goals
      simp [wrench, nPoints, cornerForce, V3.get]
      try ring

/-- **C26, partial.** After any history of setter calls in which the contact points have not been changed since the
last call that refreshes the regularisation (`setForceReference`, `setRegularizationTaskWeightVector` or the
constructor), the residual of the force regularisation is the weighted deviation of the contact wrench from the
reference.  (Missing: `setContactPoints` does not refresh the regularisation, see `C26_stale`.) -/
theorem C26_regularisation_partial {name : String} {kind : ContactKind} {points : Nat → V3 K} {normal : V3 K}
    {mu fMin fMax : K} {us : List (ContactSet K)} {c : Contact K}
    (h : applySets (Contact.new name kind points normal mu fMin fMax) us = some c) :
    let p := paramsAfter (Contact.new name kind points normal mu fMin fMax)
      (newParams kind points normal mu fMin fMax) us
    (kind = .sixD → p.regPoints = p.points) → ∀ (f : Nat → K) (i : Nat), i < c.forceReg.mat.rows →
      residual c.forceReg f i = p.regW i * (wrench (nPoints kind) p.points f i - p.fRef i) := by
  intro p hp f i hi
  have hh := holds_sets us _ c _ (holds_new name kind points normal mu fMin fMax) h
  rw [reg_residual hh f hi]
  by_cases hk : kind = .sixD
  · rw [hp hk]
  · have hi3 : i < 3 := by
      rw [hh.reg] at hi
      cases kind
      · exact hi
      · exact absurd rfl hk
      · exact hi
    simp only [wrench, if_pos hi3]
    rfl

/-- The case in which the regularisation has been refreshed after a change of the points. -/
example : ∃ c : Contact ℚ, applySets (Contact.new "c" .sixD (fun _ => 0) ⟨0, 0, 1⟩ (1 / 2) 1 10)
    [.points ⟨3, 4, fun i j => (i : ℚ) + 2 * (j : ℚ)⟩, .forceRef ⟨6, fun i => (i : ℚ)⟩] = some c ∧
    residual c.forceReg (fun j => (j : ℚ)) 3 = 2 * (wrench 4 c.points (fun j => (j : ℚ)) 3 - 3) ∧
    residual c.forceReg (fun j => (j : ℚ)) 3 ≠ 0 :=
  ⟨_, rfl, by decide +kernel⟩

/-- C26 is false after `setContactPoints`: the moment of the forces is then still computed from the old points. -/
theorem C26_stale : ∃ c : Contact ℚ,
    applySets (Contact.new "c" .sixD (fun _ => ⟨0, 0, 0⟩) ⟨0, 0, 1⟩ (1 / 2) 1 10)
      [.points ⟨3, 4, fun i _ => if i = 0 then 1 else 0⟩] = some c ∧
    (c.points 0).x = 1 ∧ c.regW 4 = 2 ∧ c.fRef 4 = 0 ∧
    wrench 4 c.points (fun j => if j = 2 then 1 else 0) 4 = -1 ∧
    residual c.forceReg (fun j => if j = 2 then 1 else 0) 4 = 0 :=
  ⟨_, rfl, by decide +kernel⟩

end Tsid.Props
