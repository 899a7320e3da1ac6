import Verif.Props.Contact
import Verif.Lemmas.Geometry

/-!
# C22: contact normals of any length

`setContactNormal` accepts any vector with three entries (`contact-6d.cpp` 151-158, `contact-point.cpp` likewise) and the
rows of the friction constraint use it as it is (71-89), while the tangents are normalised.
-/

set_option linter.unusedSectionVars false

namespace Tsid.Props

open Finset Spec Formulation

variable {K : Type} [Field K] [LinearOrder K] [HasSqrt K] [IsStrictOrderedRing K] [LawfulSqrt K]

/-- The first tangent does not vanish if the normal is not shorter than the threshold of the code. -/
theorem rawT1_long {n : V3 K} (h : 1 / 10 ^ 10 ≤ n.dot n) : 0 < (Contact.rawT1 n).dot (Contact.rawT1 n) := by
  have hs := Contact.norm_sq (n.cross V3.unitX)
  have h0 : 0 ≤ (n.cross V3.unitX).norm := LawfulSqrt.sqrt_nonneg _
  simp only [V3.dot, V3.cross, V3.unitX] at hs h
  unfold Contact.rawT1
  dsimp only
  split
  · next hlt =>
    have : (n.cross V3.unitX).norm * (n.cross V3.unitX).norm < 1 / 100000 * (1 / 100000) :=
      mul_self_lt_mul_self h0 hlt
    simp only [V3.cross, V3.unitX] at this
    simp only [V3.dot, V3.cross, V3.unitY]
    nlinarith
  · next hge =>
    push Not at hge
    have : 1 / 100000 * (1 / 100000) ≤ (n.cross V3.unitX).norm * (n.cross V3.unitX).norm :=
      mul_self_le_mul_self (by norm_num) hge
    simp only [V3.dot]
    simp only [V3.cross, V3.unitX] at this ⊢
    nlinarith

theorem tangents_long {n : V3 K} (h : 1 / 10 ^ 10 ≤ n.dot n) :
    Orthonormal (Contact.tangent1 n) (Contact.tangent2 n) n.normalized := by
  have hn : 0 < n.dot n := lt_of_lt_of_le (by positivity) h
  have p1 := rawT1_long h
  have o1 := Contact.rawT1_orth n
  have p2 : 0 < (n.cross (Contact.rawT1 n)).dot (n.cross (Contact.rawT1 n)) := by
    have : (n.cross (Contact.rawT1 n)).dot (n.cross (Contact.rawT1 n)) =
        n.dot n * (Contact.rawT1 n).dot (Contact.rawT1 n) - n.dot (Contact.rawT1 n) * n.dot (Contact.rawT1 n) := by
      simp only [V3.dot, V3.cross]; ring
    rw [this, o1, zero_mul, sub_zero]
    exact mul_pos hn p1
  refine ⟨Contact.normalized_unit p1, Contact.normalized_unit p2, Contact.normalized_unit hn, ?_, ?_, ?_⟩
  · unfold Contact.tangent1 Contact.tangent2
    rw [Contact.normalized_dot p1, Contact.dot_comm, Contact.normalized_dot p2]
    have : (n.cross (Contact.rawT1 n)).dot (Contact.rawT1 n) = 0 := by simp only [V3.dot, V3.cross]; ring
    rw [this]; simp
  · unfold Contact.tangent1
    rw [Contact.normalized_dot p1, Contact.dot_comm, Contact.normalized_dot hn, o1]; simp
  · unfold Contact.tangent2
    rw [Contact.normalized_dot p2, Contact.dot_comm, Contact.normalized_dot hn]
    have : n.dot (n.cross (Contact.rawT1 n)) = 0 := by simp only [V3.dot, V3.cross]; ring
    rw [this]; simp

/-- **C22, normals of any length.** After any history of setter calls that leaves a normal of length `L`, at least
`10⁻⁵`, the constraint of a point or 6d contact is the friction pyramid about the direction of the normal with the
coefficient `L mu` instead of `mu`, and it is `L` times the total normal force that is kept in `[fMin, fMax]`. -/
theorem C22_any_normal {name : String} {kind : ContactKind} {points : Nat → V3 K} {normal : V3 K} {mu fMin fMax : K}
    {us : List (ContactSet K)} {c : Contact K} (hk : kind ≠ .twoFrames)
    (h : applySets (Contact.new name kind points normal mu fMin fMax) us = some c) :
    let p := paramsAfter (Contact.new name kind points normal mu fMin fMax)
      (newParams kind points normal mu fMin fMax) us
    ∀ L : K, 1 / 10 ^ 5 ≤ L → p.normal.dot p.normal = L * L →
    ∃ u t1 t2 : V3 K, p.normal = V3.smul L u ∧ Orthonormal t1 t2 u ∧ ∀ f : Nat → K, Sat c.forceIneq f ↔
      (∀ i, i < nPoints kind → Pyramid u t1 t2 (L * p.mu) (cornerForce f i) ∧
        BelowLimit u t1 t2 (L * p.mu) (cornerForce f i)) ∧
      p.fMin ≤ L * ∑ i ∈ range (nPoints kind), u.dot (cornerForce f i) ∧
      L * ∑ i ∈ range (nPoints kind), u.dot (cornerForce f i) ≤ p.fMax := by
  intro p L hL hn
  have hL0 : 0 < L := lt_of_lt_of_le (by positivity) hL
  have hsq : 1 / 10 ^ 10 ≤ p.normal.dot p.normal := by
    rw [hn]
    have := mul_self_le_mul_self (by positivity : (0 : K) ≤ 1 / 10 ^ 5) hL
    refine le_trans (le_of_eq ?_) this
    norm_num
  have hpos : 0 < p.normal.dot p.normal := lt_of_lt_of_le (by positivity) hsq
  have hlen : p.normal.norm = L := by
    have h1 := Contact.norm_sq p.normal
    rw [hn] at h1
    have h2 : 0 ≤ p.normal.norm := LawfulSqrt.sqrt_nonneg _
    exact (mul_self_inj h2 hL0.le).1 h1
  have hdir : p.normal = V3.smul L p.normal.normalized := by
    unfold V3.normalized
    rw [if_pos hpos, hlen]
    ext <;> simp only [V3.smul] <;> field_simp
  have hdot : ∀ v, p.normal.dot v = L * p.normal.normalized.dot v := by
    intro v
    rw [Contact.normalized_dot hpos, hlen]
    field_simp
  refine ⟨_, _, _, hdir, tangents_long hsq, fun f => ?_⟩
  have hh := holds_sets us _ c _ (holds_new name kind points normal mu fMin fMax) h
  rw [hh.ineq, sat_new hk f]
  have hmu : ∀ v, p.mu * p.normal.dot v = L * p.mu * p.normal.normalized.dot v := by
    intro v; rw [hdot]; ring
  have hsum : ∑ i ∈ range (nPoints kind), p.normal.dot (cornerForce f i) =
      L * ∑ i ∈ range (nPoints kind), p.normal.normalized.dot (cornerForce f i) := by
    rw [mul_sum]
    exact sum_congr rfl fun i _ => hdot _
  unfold Pyramid BelowLimit
  simp only [← hmu, ← hsum]
  exact Iff.rfl

/-- A normal of length two that is accepted. -/
example : ∃ c : Contact ℝ, applySets (Contact.new "c" .sixD (fun _ => 0) ⟨0, 0, 1⟩ (1 / 2) 1 10)
    [.normal ⟨3, fun i => if i = 2 then 2 else 0⟩] = some c ∧ c.normal.dot c.normal = (2 : ℝ) * 2 :=
  ⟨_, rfl, by
    show (0 : ℝ) * 0 + 0 * 0 + 2 * 2 = 2 * 2
    norm_num⟩

/-- **A normal of another length changes the friction coefficient**: with a vertical normal of length two and the
coefficient one half, a force is accepted that lies outside the cone of coefficient `√2 / 2`, and a normal force of six with
limits from one to ten is refused. -/
theorem C22_long_normal : ∃ c : Contact ℝ,
    applySets (Contact.new "c" .point (fun _ => 0) ⟨0, 0, 1⟩ (1 / 2) 1 10)
      [.normal ⟨3, fun i => if i = 2 then 2 else 0⟩] = some c ∧
    (∃ f : Nat → ℝ, Sat c.forceIneq f ∧ (⟨0, 0, 1⟩ : V3 ℝ).dot (cornerForce f 0) = 4 ∧
      ¬ Coulomb ⟨0, 0, 1⟩ (sqrt 2 * (1 / 2)) (cornerForce f 0)) ∧
    (∃ f : Nat → ℝ, ¬ Sat c.forceIneq f ∧ Coulomb ⟨0, 0, 1⟩ (1 / 2) (cornerForce f 0) ∧
      1 ≤ (⟨0, 0, 1⟩ : V3 ℝ).dot (cornerForce f 0) ∧ (⟨0, 0, 1⟩ : V3 ℝ).dot (cornerForce f 0) ≤ 10) := by
  have hnorm : ∀ (v : V3 ℝ) (a : ℝ), 0 ≤ a → v.dot v = a * a → v.norm = a := by
    intro v a ha hv
    have h1 := Contact.norm_sq v
    rw [hv] at h1
    exact (mul_self_inj (LawfulSqrt.sqrt_nonneg _) ha).1 h1
  have hraw : Contact.rawT1 (⟨0, 0, 2⟩ : V3 ℝ) = ⟨0, 2, 0⟩ := by
    unfold Contact.rawT1
    dsimp only
    have e : V3.cross (⟨0, 0, 2⟩ : V3 ℝ) V3.unitX = ⟨0, 2, 0⟩ := by ext <;> simp [V3.cross, V3.unitX]
    rw [e, hnorm _ 2 (by norm_num) (by simp [V3.dot]), if_neg (by norm_num)]
  have ht1 : Contact.tangent1 (⟨0, 0, 2⟩ : V3 ℝ) = ⟨0, 1, 0⟩ := by
    unfold Contact.tangent1 V3.normalized
    rw [hraw, hnorm _ 2 (by norm_num) (by simp [V3.dot]), if_pos (by norm_num [V3.dot])]
    ext <;> norm_num
  have ht2 : Contact.tangent2 (⟨0, 0, 2⟩ : V3 ℝ) = ⟨-1, 0, 0⟩ := by
    unfold Contact.tangent2 V3.normalized
    rw [hraw, show V3.cross (⟨0, 0, 2⟩ : V3 ℝ) ⟨0, 2, 0⟩ = ⟨-4, 0, 0⟩ by ext <;> norm_num [V3.cross],
      hnorm _ 4 (by norm_num) (by norm_num [V3.dot]), if_pos (by norm_num [V3.dot])]
    ext <;> norm_num
  have h2 : (sqrt 2 : ℝ) * sqrt 2 = 2 := LawfulSqrt.sq_sqrt 2 (by norm_num)
  refine ⟨_, rfl, ⟨fun _ => 4, ?_, by norm_num [V3.dot, cornerForce], ?_⟩,
    ⟨fun i => if i = 2 then 6 else 0, ?_, ?_, by norm_num [V3.dot, cornerForce], by norm_num [V3.dot, cornerForce]⟩⟩
  · show Sat (Contact.new "c" .point (fun _ => 0) (⟨0, 0, 2⟩ : V3 ℝ) (1 / 2) 1 10).forceIneq _
    rw [sat_new (by decide), ht1, ht2]
    refine ⟨?_, by norm_num [nPoints, (by decide : ContactKind.point ≠ .sixD), V3.dot, cornerForce], by norm_num [nPoints, (by decide : ContactKind.point ≠ .sixD), V3.dot, cornerForce]⟩
    intro i _
    norm_num [Pyramid, BelowLimit, V3.dot, cornerForce]
  · rintro ⟨-, h⟩
    norm_num [tangential, cornerForce, V3.dot, V3.smul, V3.sub_def] at h
    nlinarith
  · show ¬ Sat (Contact.new "c" .point (fun _ => 0) (⟨0, 0, 2⟩ : V3 ℝ) (1 / 2) 1 10).forceIneq _
    rw [sat_new (by decide), ht1, ht2]
    rintro ⟨-, -, h⟩
    norm_num [nPoints, (by decide : ContactKind.point ≠ .sixD), V3.dot, cornerForce] at h
  · norm_num [Coulomb, tangential, cornerForce, V3.dot, V3.smul, V3.sub_def]

/-- **A normal shorter than the threshold loses friction altogether**: with a normal `(0, ε, 0)` for
`0 < ε < 10⁻⁵` both tangents of the code are zero, and a force is accepted whatever its tangential part. -/
theorem C22_short_normal {name : String} {points : Nat → V3 K} {e mu fMin fMax : K} (he : 0 < e) (he' : e < 1 / 100000)
    (f : Nat → K) :
    Sat (Contact.new name .point points ⟨0, e, 0⟩ mu fMin fMax).forceIneq f ↔
      0 ≤ mu * (e * f 1) ∧ mu * (e * f 1) ≤ 10 ^ 10 ∧ fMin ≤ e * f 1 ∧ e * f 1 ≤ fMax := by
  have hx : V3.cross (⟨0, e, 0⟩ : V3 K) V3.unitX = ⟨0, 0, -e⟩ := by
    ext <;> simp [V3.cross, V3.unitX]
  have hy : V3.cross (⟨0, e, 0⟩ : V3 K) V3.unitY = ⟨0, 0, 0⟩ := by
    ext <;> simp [V3.cross, V3.unitY]
  have hnorm : (⟨0, 0, -e⟩ : V3 K).norm = e := by
    have h1 := Contact.norm_sq (⟨0, 0, -e⟩ : V3 K)
    have h2 : 0 ≤ (⟨0, 0, -e⟩ : V3 K).norm := LawfulSqrt.sqrt_nonneg _
    have h3 : (⟨0, 0, -e⟩ : V3 K).dot ⟨0, 0, -e⟩ = e * e := by simp [V3.dot]
    rw [h3] at h1
    exact (mul_self_inj h2 he.le).1 h1
  have hraw : Contact.rawT1 (⟨0, e, 0⟩ : V3 K) = ⟨0, 0, 0⟩ := by
    unfold Contact.rawT1
    dsimp only
    rw [hx, hnorm, if_pos he', hy]
  have hz : (⟨0, 0, 0⟩ : V3 K).normalized = ⟨0, 0, 0⟩ := by
    unfold V3.normalized
    simp [V3.dot]
  have ht1 : Contact.tangent1 (⟨0, e, 0⟩ : V3 K) = ⟨0, 0, 0⟩ := by
    unfold Contact.tangent1
    rw [hraw, hz]
  have ht2 : Contact.tangent2 (⟨0, e, 0⟩ : V3 K) = ⟨0, 0, 0⟩ := by
    unfold Contact.tangent2
    rw [hraw, show V3.cross (⟨0, e, 0⟩ : V3 K) ⟨0, 0, 0⟩ = ⟨0, 0, 0⟩ by ext <;> simp [V3.cross], hz]
  rw [sat_new (by decide) f, ht1, ht2]
  have hd : (⟨0, e, 0⟩ : V3 K).dot (cornerForce f 0) = e * f 1 := by simp [V3.dot, cornerForce]
  have hd0 : (⟨0, 0, 0⟩ : V3 K).dot (cornerForce f 0) = 0 := by simp [V3.dot]
  simp only [nPoints, reduceCtorEq, if_false, sum_range_one, hd]
  constructor
  · rintro ⟨h1, h2, h3⟩
    obtain ⟨⟨a, -⟩, b, -⟩ := h1 0 (by decide)
    rw [hd, hd0, abs_zero] at a b
    exact ⟨a, by linarith, h2, h3⟩
  · rintro ⟨h1, h2, h3, h4⟩
    refine ⟨?_, h3, h4⟩
    intro i hi
    obtain rfl : i = 0 := Nat.lt_one_iff.1 hi
    unfold Pyramid BelowLimit
    rw [hd, hd0, abs_zero]
    exact ⟨⟨h1, h1⟩, by linarith, by linarith⟩

/-- A millionth of the vertical in the second axis; the force has a tangential part a thousand times its normal part. -/
example : Sat (Contact.new "c" .point (fun _ => 0) (⟨0, 1 / 1000000, 0⟩ : V3 ℝ) (1 / 2) (1 / 1000000) 10).forceIneq
    (fun i => if i = 1 then 1 else 1000) := by
  rw [C22_short_normal (by norm_num) (by norm_num)]
  norm_num

end Tsid.Props
