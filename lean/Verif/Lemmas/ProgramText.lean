import Verif.Spec.ProgramText
import Verif.Lemmas.ProgramReg
import Verif.Props.Contact

/-!
# Lemmas about what the text of a program asks for
-/

set_option linter.unusedSectionVars false

namespace Tsid.Props

open Spec Formulation Finset

variable {K : Type} [Field K] [LinearOrder K] [IsStrictOrderedRing K] [FloorRing K] [HasSqrt K]

/-! ## Entries beyond the size do not matter -/

theorem row_congr {A : Mat K} {n : Nat} (hn : A.cols = n) {y z : Nat → K} (h : ∀ j, j < n → y j = z j) (i : Nat) :
    row A y i = row A z i := by
  unfold row
  exact sum_congr rfl fun j hj => by rw [h j (by rw [← hn]; exact mem_range.1 hj)]

theorem sat_congr {kind : Kind} {r n : Nat} {c : Constraint K} (hc : FitsOn kind r n c) {y z : Nat → K}
    (h : ∀ j, j < n → y j = z j) : Sat c y ↔ Sat c z := by
  obtain ⟨h1, h2, h3, h4⟩ := hc
  unfold Sat
  simp only [row_congr h4 h]
  split
  · exact Iff.rfl
  · exact Iff.rfl
  · next hk =>
    unfold WellFormed at h2
    rw [hk] at h2
    dsimp only at h2
    refine forall₂_congr fun i hi => ?_
    rw [h i (by omega)]

theorem sq_congr {kind : Kind} {r n : Nat} {c : Constraint K} (hc : FitsOn kind r n c) {y z : Nat → K}
    (h : ∀ j, j < n → y j = z j) : sqResidual c y = sqResidual c z := by
  unfold sqResidual Spec.residual
  simp only [row_congr hc.2.2.2 h]

theorem corner_congr {kind : ContactKind} {f g : Nat → K} (h : ∀ i, i < Contact.kindForce kind → f i = g i) {j : Nat}
    (hj : j < nPoints kind) : cornerForce f j = cornerForce g j := by
  have : 3 * j + 2 < Contact.kindForce kind := by
    cases kind <;> simp only [nPoints, Contact.kindForce, if_true, reduceCtorEq, if_false] at hj ⊢ <;> omega
  unfold cornerForce
  rw [h _ (by omega), h _ (by omega), h _ this]

theorem wrench_congr {kind : ContactKind} {f g : Nat → K} (h : ∀ i, i < Contact.kindForce kind → f i = g i)
    (points : Nat → V3 K) (i : Nat) : wrench (nPoints kind) points f i = wrench (nPoints kind) points g i := by
  unfold wrench
  split <;> exact sum_congr rfl fun j hj => by rw [corner_congr h (mem_range.1 hj)]

theorem reg_congr {kind : ContactKind} {f g : Nat → K} (h : ∀ i, i < Contact.kindForce kind → f i = g i)
    (p : RegSettings K) : p.Error kind f = p.Error kind g := by
  unfold RegSettings.Error
  simp only [wrench_congr h]

theorem respected_congr {kind : ContactKind} {f g : Nat → K} (h : ∀ i, i < Contact.kindForce kind → f i = g i)
    (p : ForceLimits K) : p.Respected kind f ↔ p.Respected kind g := by
  have hs : ∑ i ∈ range (nPoints kind), p.normal.dot (cornerForce f i) =
      ∑ i ∈ range (nPoints kind), p.normal.dot (cornerForce g i) :=
    sum_congr rfl fun j hj => by rw [corner_congr h (mem_range.1 hj)]
  have hp : (∀ i, i < nPoints kind →
      Pyramid p.normal (Contact.tangent1 p.normal) (Contact.tangent2 p.normal) p.mu (cornerForce f i) ∧
      BelowLimit p.normal (Contact.tangent1 p.normal) (Contact.tangent2 p.normal) p.mu (cornerForce f i)) ↔
      ∀ i, i < nPoints kind →
      Pyramid p.normal (Contact.tangent1 p.normal) (Contact.tangent2 p.normal) p.mu (cornerForce g i) ∧
      BelowLimit p.normal (Contact.tangent1 p.normal) (Contact.tangent2 p.normal) p.mu (cornerForce g i) :=
    forall₂_congr fun i hi => by rw [corner_congr h hi]
  unfold ForceLimits.Respected
  cases kind with
  | twoFrames =>
    dsimp only
    exact forall₂_congr fun i hi => by rw [h i hi]
  | point => dsimp only; rw [hs, hp]
  | sixD => dsimp only; rw [hs, hp]

/-! ## Wrenches -/

/-- The force generator of a contact computes the wrench of the point forces about the points of the text. -/
theorem gen_wrench {c : Contact K} {kind : ContactKind} {r : RegSettings K} (h : HasReg c kind r) :
    c.forceGen.rows = nWrench kind ∧ c.forceGen.cols = Contact.kindForce kind ∧
    ∀ (f : Nat → K) i, i < nWrench kind →
      ∑ j ∈ range c.forceGen.cols, c.forceGen i j * f j = wrench (nPoints kind) r.points f i := by
  obtain ⟨p, hp, -, -, h3, -⟩ := h
  rw [hp.gen, ← h3]
  cases kind with
  | sixD =>
    refine ⟨rfl, rfl, fun f i hi => ?_⟩
    have hi : i < 6 := hi
    show ∑ j ∈ range 12, Contact.forceGen6d p.points i j * f j = wrench 4 p.points f i
    rw [show 12 = 3 * 4 from rfl, sum_triples]
    unfold wrench
    split
    · next h3 =>
      apply sum_congr rfl
      intro j hj
      have b1 : 3 * j % 3 = 0 := by omega
      have b2 : (3 * j + 1) % 3 = 1 := by omega
      have b3 : (3 * j + 2) % 3 = 2 := by omega
      obtain rfl | rfl | rfl : i = 0 ∨ i = 1 ∨ i = 2 := by omega
      all_goals simp [Contact.forceGen6d, b1, b2, b3, cornerForce, V3.get]
    · next h3 =>
      apply sum_congr rfl
      intro j hj
      have a1 : 3 * j / 3 = j := by omega
      have a2 : (3 * j + 1) / 3 = j := by omega
      have a3 : (3 * j + 2) / 3 = j := by omega
      have b1 : 3 * j % 3 = 0 := by omega
      have b2 : (3 * j + 1) % 3 = 1 := by omega
      have b3 : (3 * j + 2) % 3 = 2 := by omega
      obtain rfl | rfl | rfl : i = 3 ∨ i = 4 ∨ i = 5 := by omega
      all_goals
        simp [Contact.forceGen6d, a1, a2, a3, b1, b2, b3, cornerForce, V3.get, V3.cross, M3.skew, M3.get]
        try ring
  | point =>
    refine ⟨rfl, rfl, fun f i hi => ?_⟩
    have hi : i < 3 := hi
    show ∑ j ∈ range 3, Mat.identity 3 i j * f j = _
    obtain rfl | rfl | rfl : i = 0 ∨ i = 1 ∨ i = 2 := by omega
    all_goals simp [wrench, nPoints, cornerForce, V3.get, Mat.identity, sum_range_succ]
  | twoFrames =>
    refine ⟨rfl, rfl, fun f i hi => ?_⟩
    have hi : i < 3 := hi
    show ∑ j ∈ range 3, Mat.identity 3 i j * f j = _
    obtain rfl | rfl | rfl : i = 0 ∨ i = 1 ∨ i = 2 := by omega
    all_goals simp [wrench, nPoints, cornerForce, V3.get, Mat.identity, sum_range_succ]

/-! ## D'Alembert's principle -/

/-- Row by row, or for every velocity. -/
theorem all_velocities {n : Nat} {a b : Nat → K} :
    (∀ i, i < n → a i = b i) ↔ ∀ v : Nat → K, ∑ i ∈ range n, a i * v i = ∑ i ∈ range n, b i * v i := by
  constructor
  · intro h v
    exact sum_congr rfl fun i hi => by rw [h i (mem_range.1 hi)]
  · intro h i hi
    have := h fun j => if j = i then 1 else 0
    simpa [hi] using this

theorem motor_power {nv nu na : Nat} (h : nu + na = nv) (tau v : Nat → K) :
    ∑ i ∈ range nv, (if i < nu then 0 else tau (i - nu)) * v i = ∑ i ∈ range na, tau i * v (nu + i) := by
  rw [← h, sum_range_add]
  have h1 : ∑ i ∈ range nu, (if i < nu then 0 else tau (i - nu)) * v i = 0 :=
    sum_eq_zero fun i hi => by rw [if_pos (mem_range.1 hi), zero_mul]
  rw [h1, zero_add]
  refine sum_congr rfl fun i _ => ?_
  rw [if_neg (by omega), Nat.add_sub_cancel_left]

theorem torque_power (l : List (Vec K)) (n : Nat) (v : Nat → K) :
    ∑ i ∈ range n, (l.map fun t => t i).sum * v i = (l.map fun t => ∑ i ∈ range n, t i * v i).sum := by
  induction l with
  | nil => simp
  | cons a l ih => simp only [List.map_cons, List.sum_cons, add_mul, sum_add_distrib, ih]

theorem contact_power (J T : Mat K) (off n : Nat) (f v : Nat → K) :
    ∑ i ∈ range n, contactTerm J T off f i * v i =
      ∑ r ∈ range J.rows, (∑ c ∈ range T.cols, T r c * f (off + c)) * ∑ i ∈ range n, J r i * v i := by
  unfold contactTerm
  simp only [sum_mul]
  rw [sum_comm]
  refine sum_congr rfl fun r _ => ?_
  rw [← sum_mul, mul_sum]
  refine sum_congr rfl fun i _ => ?_
  ring

/-- The power of all contacts, whose forces are stacked in `f`. -/
theorem contacts_power {obj : Nat → Contact K} (J T : Nat → Mat K) (n : Nat) (f v : Nat → K) :
    ∀ (l : List ContactLevel) (off k : Nat), Tiled obj off l k → (∀ cl ∈ l, (T cl.cid).cols = (obj cl.cid).nForce) →
    ∑ i ∈ range n, contactTerms (l.map fun cl => (J cl.cid, T cl.cid)) off f i * v i =
      (l.map fun cl => ∑ r ∈ range (J cl.cid).rows, (∑ c ∈ range (T cl.cid).cols, T cl.cid r c * f (cl.index + c)) *
        ∑ i ∈ range n, J cl.cid r i * v i).sum
  | [], _, _, _, _ => by simp [contactTerms]
  | cl :: l, off, k, ht, hc => by
    obtain ⟨h1, h2⟩ := ht
    simp only [List.map_cons, contactTerms, add_mul, sum_add_distrib, List.sum_cons]
    rw [contact_power, hc cl (by simp), contacts_power J T n f v l _ k h2 (fun c hc' => hc c (by simp [hc'])), h1]

/-! ## Stacked forces -/

/-- Forces given contact by contact can be stacked. -/
theorem stack_forces {obj : Nat → Contact K} (g : Nat → Nat → K) :
    ∀ (l : List ContactLevel) (off k : Nat), Tiled obj off l k →
    ∃ f : Nat → K, ∀ cl ∈ l, ∀ i, i < (obj cl.cid).nForce → f (cl.index + i) = g cl.cid i
  | [], _, _, _ => ⟨fun _ => 0, by simp⟩
  | cl :: l, off, k, ht => by
    obtain ⟨h1, h2⟩ := ht
    obtain ⟨f, hf⟩ := stack_forces g l _ k h2
    refine ⟨fun i => if i < off + (obj cl.cid).nForce then g cl.cid (i - off) else f i, ?_⟩
    intro c hc i hi
    rcases List.mem_cons.1 hc with rfl | hc
    · dsimp only
      rw [if_pos (by omega), h1, Nat.add_sub_cancel_left]
    · have := ((tiled_bounds _ _ _ _ h2).2 c hc).1
      dsimp only
      rw [if_neg (by omega)]
      exact hf c hc i hi

/-- The squares of the stacked forces, contact by contact. -/
theorem stacked_squares {obj : Nat → Contact K} (f : Nat → K) :
    ∀ (l : List ContactLevel) (off k : Nat), Tiled obj off l k →
    ∑ i ∈ range (k - off), f (off + i) * f (off + i) =
      (l.map fun cl => ∑ i ∈ range (obj cl.cid).nForce, f (cl.index + i) ^ 2).sum
  | [], off, k, ht => by
    have : off = k := ht
    subst this
    simp
  | cl :: l, off, k, ht => by
    obtain ⟨h1, h2⟩ := ht
    have hle := (tiled_bounds _ _ _ _ h2).1
    rw [List.map_cons, List.sum_cons, ← stacked_squares f l _ k h2,
      show k - off = (obj cl.cid).nForce + (k - (off + (obj cl.cid).nForce)) by omega, sum_range_add, h1]
    congr 1
    · exact sum_congr rfl fun i _ => by ring
    · exact sum_congr rfl fun i _ => by rw [Nat.add_assoc]

/-- The sum over the pressures of all points, contact by contact. -/
theorem stacked_pressures {obj : Nat → Contact K} (pose : Nat → SE3 K) (n : V3 K) (f : Nat → K) (F : V3 K → K) :
    ∀ (l : List ContactLevel) (off k : Nat), Tiled obj off l k →
    ((pressures n (fun _ => M3.one) off (l.map fun cl => ⟨obj cl.cid, cl.index, pose cl.cid⟩) f).map fun q =>
      q.force * F q.point).sum =
      (l.map fun cl => ∑ j ∈ range (nPoints (obj cl.cid).kind), n.dot (cornerForce (fun i => f (cl.index + i)) j) *
        F ((pose cl.cid).trans + (pose cl.cid).rot.mulVec ((obj cl.cid).points j))).sum
  | [], _, _, _ => rfl
  | cl :: l, off, k, ht => by
    obtain ⟨h1, h2⟩ := ht
    have hk : (obj cl.cid).nForce = 3 * Contact.kindPoints (obj cl.cid).kind := by
      unfold Contact.nForce; cases (obj cl.cid).kind <;> rfl
    have hp : Contact.kindPoints (obj cl.cid).kind = nPoints (obj cl.cid).kind := by
      cases (obj cl.cid).kind <;> rfl
    rw [hk] at h2
    simp only [List.map_cons, pressures, List.map_append, List.sum_append, List.sum_cons]
    rw [stacked_pressures pose n f F l _ k h2, h1, List.map_map, hp]
    congr 1
    have hr : ∀ (m : Nat) (G : Nat → K), ((List.range m).map G).sum = ∑ j ∈ range m, G j := fun m G => by
      induction m with
      | zero => rfl
      | succ m ih => rw [List.range_succ, List.map_append, List.sum_append, ih, sum_range_succ]; simp
    rw [hr]
    refine sum_congr rfl fun j _ => ?_
    show n.dot (M3.one.mulVec _) * _ = _
    rw [show ∀ w : V3 K, M3.one.mulVec w = w from fun w => by
      ext <;> simp [M3.one, M3.mulVec]]
    rfl

end Tsid.Props
