import Verif.Spec.Support
import Verif.Props.Contact
import Verif.Props.ForceTasks
import Verif.Props.EndToEnd

/-!
# C86: the centre of pressure lies in the support polygon
-/

set_option linter.unusedSectionVars false

namespace Tsid.Props

open Spec Finset Formulation

variable {K : Type} [Field K]

/-! ## Wrenches -/

theorem gen6d_wrench (P : Nat → V3 K) (f : Nat → K) : 
    netForce (Contact.forceGen6d P) f = cornerForce f 0 + cornerForce f 1 + cornerForce f 2 + cornerForce f 3 ∧
    netMoment (Contact.forceGen6d P) f = (P 0).cross (cornerForce f 0) + (P 1).cross (cornerForce f 1) +
      (P 2).cross (cornerForce f 2) + (P 3).cross (cornerForce f 3) := by
  have e : ∀ i, row (Contact.forceGen6d P) f i = ∑ j ∈ range 12, Contact.forceGen6d P i j * f j := fun _ => rfl
  constructor
  · ext <;> simp only [netForce, e, sum_range_succ, range_zero, sum_empty, V3.add_def, cornerForce] <;>
      norm_num [Contact.forceGen6d]
  · ext <;> simp only [netMoment, e, sum_range_succ, range_zero, sum_empty, V3.add_def, cornerForce, V3.cross] <;>
      norm_num [Contact.forceGen6d, M3.skew, M3.get, V3.get] <;> ring

/-- The centre of pressure of four forces at points of a plane. -/
theorem isCop_iff {n : V3 K} {h : K} {P F : Nat → V3 K} (hp : ∀ j, j < 4 → n.dot (P j) = h) (q : V3 K) :
    IsCop n h (F 0 + F 1 + F 2 + F 3)
      ((P 0).cross (F 0) + (P 1).cross (F 1) + (P 2).cross (F 2) + (P 3).cross (F 3)) q ↔
      n.dot q = h ∧ ∀ i, i < 3 → (n.dot (F 0) + n.dot (F 1) + n.dot (F 2) + n.dot (F 3)) * q.get i =
        n.dot (F 0) * (P 0).get i + n.dot (F 1) * (P 1).get i + n.dot (F 2) * (P 2).get i +
        n.dot (F 3) * (P 3).get i := by
  have h0 := hp 0 (by omega)
  have h1 := hp 1 (by omega)
  have h2 := hp 2 (by omega)
  have h3 := hp 3 (by omega)
  refine and_congr_right fun hq => ?_
  simp only [V3.dot] at h0 h1 h2 h3 hq
  constructor
  · intro hc i hi
    have hx := congrArg V3.x hc
    have hy := congrArg V3.y hc
    have hz := congrArg V3.z hc
    simp only [V3.cross, V3.add_def, V3.sub_def, V3.zero_def] at hx hy hz
    match i, hi with
    | 0, _ =>
      simp only [V3.dot, V3.get]
      linear_combination (-1) * hx - (F 0).x * h0 - (F 1).x * h1 - (F 2).x * h2 - (F 3).x * h3 +
        ((F 0).x + (F 1).x + (F 2).x + (F 3).x) * hq
    | 1, _ =>
      simp only [V3.dot, V3.get]
      linear_combination (-1) * hy - (F 0).y * h0 - (F 1).y * h1 - (F 2).y * h2 - (F 3).y * h3 +
        ((F 0).y + (F 1).y + (F 2).y + (F 3).y) * hq
    | 2, _ =>
      simp only [V3.dot, V3.get]
      linear_combination (-1) * hz - (F 0).z * h0 - (F 1).z * h1 - (F 2).z * h2 - (F 3).z * h3 +
        ((F 0).z + (F 1).z + (F 2).z + (F 3).z) * hq
  · intro hc
    have hx := hc 0 (by omega)
    have hy := hc 1 (by omega)
    have hz := hc 2 (by omega)
    simp only [V3.dot, V3.get] at hx hy hz
    ext
    · simp only [V3.cross, V3.add_def, V3.sub_def, V3.zero_def]
      linear_combination (-1) * hx - (F 0).x * h0 - (F 1).x * h1 - (F 2).x * h2 - (F 3).x * h3 +
        ((F 0).x + (F 1).x + (F 2).x + (F 3).x) * hq
    · simp only [V3.cross, V3.add_def, V3.sub_def, V3.zero_def]
      linear_combination (-1) * hy - (F 0).y * h0 - (F 1).y * h1 - (F 2).y * h2 - (F 3).y * h3 +
        ((F 0).y + (F 1).y + (F 2).y + (F 3).y) * hq
    · simp only [V3.cross, V3.add_def, V3.sub_def, V3.zero_def]
      linear_combination (-1) * hz - (F 0).z * h0 - (F 1).z * h1 - (F 2).z * h2 - (F 3).z * h3 +
        ((F 0).z + (F 1).z + (F 2).z + (F 3).z) * hq

variable [LinearOrder K] [IsStrictOrderedRing K]

theorem pyramid_push {n t1 t2 f : V3 K} {mu : K} (hmu : 0 < mu) (h : Pyramid n t1 t2 mu f) : 0 ≤ n.dot f :=
  nonneg_of_mul_nonneg_right ((abs_nonneg _).trans h.1) hmu

/-- A force of the Coulomb cone lies in the pyramid of every pair of tangents. -/
theorem coulomb_pyramid {n t1 t2 f : V3 K} {mu : K} (ho : Orthonormal t1 t2 n) (hmu : 0 ≤ mu) (h : Coulomb n mu f) :
    Pyramid n t1 t2 mu f := by
  obtain ⟨c1, c2⟩ := h
  rw [tangential_sq ho] at c2
  have hm : 0 ≤ mu * n.dot f := mul_nonneg hmu c1
  exact ⟨abs_le_of_sq_le_sq (by nlinarith [mul_self_nonneg (t2.dot f)]) hm,
    abs_le_of_sq_le_sq (by nlinarith [mul_self_nonneg (t1.dot f)]) hm⟩

theorem dot_smul (n f : V3 K) (a : K) : n.dot (V3.smul a f) = a * n.dot f := by
  simp only [V3.dot, V3.smul]; ring

variable [HasSqrt K] [LawfulSqrt K]

/-- **C86, surface contacts.** After any history of setter calls on a surface contact with a unit normal, positive
friction and a positive lower limit of the force, whose points lie in a plane orthogonal to the normal: every force
vector that the force constraint accepts has exactly one centre of pressure on that plane, and it lies in the convex
hull of the contact points. -/
theorem C86_surface {name : String} {points : Nat → V3 K} {normal : V3 K} {mu fMin fMax : K}
    {us : List (ContactSet K)} {c : Contact K}
    (h : applySets (Contact.new name .sixD points normal mu fMin fMax) us = some c) :
    let p := paramsAfter (Contact.new name .sixD points normal mu fMin fMax)
      (newParams .sixD points normal mu fMin fMax) us
    p.normal.dot p.normal = 1 → 0 < p.mu → 0 < p.fMin → ∀ d : K, (∀ j, j < 4 → p.normal.dot (p.points j) = d) →
    ∀ f : Nat → K, Sat c.forceIneq f →
      ∃ q, InHull (corners p.points) q ∧
        ∀ q', IsCop p.normal d (netForce c.forceGen f) (netMoment c.forceGen f) q' ↔ q' = q := by
  intro p hn hmu hmin d hd f hf
  obtain ⟨t1, t2, ho, hiff⟩ := C22_friction (by decide) h hn
  obtain ⟨hpyr, hlo, -⟩ := (hiff f).1 hf
  have hg : c.forceGen = Contact.forceGen6d p.points := (C24_coherent h).2.1
  have a0 := pyramid_push hmu (hpyr 0 (by decide)).1
  have a1 := pyramid_push hmu (hpyr 1 (by decide)).1
  have a2 := pyramid_push hmu (hpyr 2 (by decide)).1
  have a3 := pyramid_push hmu (hpyr 3 (by decide)).1
  change 0 ≤ p.normal.dot _ at a0 a1 a2 a3
  have hN : 0 < p.normal.dot (cornerForce f 0) + p.normal.dot (cornerForce f 1) + p.normal.dot (cornerForce f 2) +
      p.normal.dot (cornerForce f 3) := by
    have e : ∑ i ∈ range (nPoints .sixD), p.normal.dot (cornerForce f i) =
      p.normal.dot (cornerForce f 0) + p.normal.dot (cornerForce f 1) + p.normal.dot (cornerForce f 2) +
      p.normal.dot (cornerForce f 3) := by simp [nPoints, sum_range_succ]
    rw [← e]
    exact hmin.trans_le hlo
  rw [hg, (gen6d_wrench p.points f).1, (gen6d_wrench p.points f).2]
  set b0 := p.normal.dot (cornerForce f 0) with hb0
  set b1 := p.normal.dot (cornerForce f 1) with hb1
  set b2 := p.normal.dot (cornerForce f 2) with hb2
  set b3 := p.normal.dot (cornerForce f 3) with hb3
  set N := b0 + b1 + b2 + b3 with hNd
  have hN0 : N ≠ 0 := hN.ne'
  let q : V3 K := V3.ofFn fun i => (b0 * (p.points 0).get i + b1 * (p.points 1).get i + b2 * (p.points 2).get i +
    b3 * (p.points 3).get i) / N
  have hq : ∀ i, i < 3 → q.get i = (b0 * (p.points 0).get i + b1 * (p.points 1).get i + b2 * (p.points 2).get i +
      b3 * (p.points 3).get i) / N := by
    intro i hi
    match i, hi with
    | 0, _ => rfl
    | 1, _ => rfl
    | 2, _ => rfl
  have hplane : p.normal.dot q = d := by
    have h0 := hd 0 (by omega)
    have h1 := hd 1 (by omega)
    have h2 := hd 2 (by omega)
    have h3 := hd 3 (by omega)
    simp only [V3.dot] at h0 h1 h2 h3 ⊢
    have x := hq 0 (by omega)
    have y := hq 1 (by omega)
    have z := hq 2 (by omega)
    simp only [V3.get] at x y z
    rw [x, y, z]
    field_simp
    linear_combination b0 * h0 + b1 * h1 + b2 * h2 + b3 * h3
  refine ⟨q, ⟨[b0 / N, b1 / N, b2 / N, b3 / N], rfl, ?_, ?_, ?_⟩, ?_⟩
  · intro a ha
    simp only [List.mem_cons, List.not_mem_nil, or_false] at ha
    rcases ha with rfl | rfl | rfl | rfl
    · exact div_nonneg a0 hN.le
    · exact div_nonneg a1 hN.le
    · exact div_nonneg a2 hN.le
    · exact div_nonneg a3 hN.le
  · simp only [List.sum_cons, List.sum_nil]
    field_simp
    rw [hNd]; ring
  · intro i hi
    rw [hq i hi]
    simp only [corners, List.zipWith_cons_cons, List.zipWith_nil_right, List.sum_cons, List.sum_nil]
    field_simp
    ring
  · intro q'
    refine (isCop_iff (F := fun j => cornerForce f j) hd q').trans ⟨?_, ?_⟩
    · rintro ⟨-, he⟩
      apply V3.ext_get
      intro i hi
      rw [hq i hi, eq_div_iff hN0, mul_comm]
      exact he i hi
    · rintro rfl
      refine ⟨hplane, fun i hi => ?_⟩
      show N * q.get i = _
      rw [hq i hi]
      exact mul_div_cancel₀ _ hN0

/-- **C86, every force at a point of the surface.** A force in the Coulomb cone, with a normal component within the
limits, that acts at a point of the convex hull of the contact points is transmitted by some accepted force vector. -/
theorem C86_transmits {name : String} {points : Nat → V3 K} {normal : V3 K} {mu fMin fMax : K}
    {us : List (ContactSet K)} {c : Contact K}
    (h : applySets (Contact.new name .sixD points normal mu fMin fMax) us = some c) :
    let p := paramsAfter (Contact.new name .sixD points normal mu fMin fMax)
      (newParams .sixD points normal mu fMin fMax) us
    p.normal.dot p.normal = 1 → 0 ≤ p.mu → ∀ F q : V3 K, Coulomb p.normal p.mu F → p.fMin ≤ p.normal.dot F →
    p.normal.dot F ≤ p.fMax → 2 * (p.mu * p.normal.dot F) ≤ 10 ^ 10 → InHull (corners p.points) q →
    ∃ f : Nat → K, Sat c.forceIneq f ∧ netForce c.forceGen f = F ∧ netMoment c.forceGen f = q.cross F := by
  intro p hn hmu F q hF hlo hhi hlim hq
  obtain ⟨t1, t2, ho, hiff⟩ := C22_friction (by decide) h hn
  have hg : c.forceGen = Contact.forceGen6d p.points := (C24_coherent h).2.1
  obtain ⟨w, hlen, hw, hsum, hpt⟩ := hq
  obtain ⟨w0, w1, w2, w3, rfl⟩ : ∃ w0 w1 w2 w3, w = [w0, w1, w2, w3] := by
    match w, hlen with
    | [a, b, c, d], _ => exact ⟨a, b, c, d, rfl⟩
  simp only [List.sum_cons, List.sum_nil, add_zero] at hsum
  have hx := hpt 0 (by omega)
  have hy := hpt 1 (by omega)
  have hz := hpt 2 (by omega)
  simp only [corners, List.zipWith_cons_cons, List.zipWith_nil_right, List.sum_cons, List.sum_nil, V3.get] at hx hy hz
  let W : Nat → K := fun j => match j with | 0 => w0 | 1 => w1 | 2 => w2 | _ => w3
  let f : Nat → K := fun k => W (k / 3) * F.get (k % 3)
  have hf : ∀ j, cornerForce f j = V3.smul (W j) F := by
    intro j
    have a1 : 3 * j / 3 = j := by omega
    have a2 : (3 * j + 1) / 3 = j := by omega
    have a3 : (3 * j + 2) / 3 = j := by omega
    have b1 : 3 * j % 3 = 0 := by omega
    have b2 : (3 * j + 1) % 3 = 1 := by omega
    have b3 : (3 * j + 2) % 3 = 2 := by omega
    simp only [cornerForce, f, a1, a2, a3, b1, b2, b3, V3.smul, V3.get]
  have hW0 : ∀ j, 0 ≤ W j := by
    intro j
    match j with
    | 0 => exact hw w0 (by simp)
    | 1 => exact hw w1 (by simp)
    | 2 => exact hw w2 (by simp)
    | _ + 3 => exact hw w3 (by simp)
  have hW1 : ∀ j, W j ≤ 1 := by
    have p0 := hW0 0
    have p1 := hW0 1
    have p2 := hW0 2
    have p3 := hW0 3
    change 0 ≤ w0 at p0
    change 0 ≤ w1 at p1
    change 0 ≤ w2 at p2
    change 0 ≤ w3 at p3
    intro j
    match j with
    | 0 => show w0 ≤ 1; linarith
    | 1 => show w1 ≤ 1; linarith
    | 2 => show w2 ≤ 1; linarith
    | _ + 3 => show w3 ≤ 1; linarith
  obtain ⟨g1, g2⟩ := coulomb_pyramid ho hmu hF
  have hm : 0 ≤ p.mu * p.normal.dot F := (abs_nonneg _).trans g1
  refine ⟨f, (hiff f).2 ⟨fun i _ => ?_, ?_, ?_⟩, ?_, ?_⟩
  · rw [hf]
    have k0 := hW0 i
    have k1 := hW1 i
    refine ⟨⟨?_, ?_⟩, ?_, ?_⟩
    · rw [dot_smul, dot_smul, abs_mul, abs_of_nonneg k0]; nlinarith
    · rw [dot_smul, dot_smul, abs_mul, abs_of_nonneg k0]; nlinarith
    · rw [dot_smul, dot_smul, abs_mul, abs_of_nonneg k0]
      change _ ≤ p.mu * p.normal.dot F at g1
      change p.mu * (W i * p.normal.dot F) + _ ≤ _
      nlinarith
    · rw [dot_smul, dot_smul, abs_mul, abs_of_nonneg k0]
      change _ ≤ p.mu * p.normal.dot F at g2
      change p.mu * (W i * p.normal.dot F) + _ ≤ _
      nlinarith
  · have e : ∑ i ∈ range (nPoints .sixD), p.normal.dot (cornerForce f i) = p.normal.dot F := by
      simp only [nPoints, if_true, sum_range_succ, range_zero, sum_empty, hf, dot_smul, W]
      linear_combination p.normal.dot F * hsum
    exact hlo.trans_eq e.symm
  · have e : ∑ i ∈ range (nPoints .sixD), p.normal.dot (cornerForce f i) = p.normal.dot F := by
      simp only [nPoints, if_true, sum_range_succ, range_zero, sum_empty, hf, dot_smul, W]
      linear_combination p.normal.dot F * hsum
    exact e.le.trans hhi
  · rw [hg, (gen6d_wrench p.points f).1, hf, hf, hf, hf]
    ext <;> simp only [V3.add_def, V3.smul, W]
    · linear_combination F.x * hsum
    · linear_combination F.y * hsum
    · linear_combination F.z * hsum
  · rw [hg, (gen6d_wrench p.points f).2, hf, hf, hf, hf]
    ext <;> simp only [V3.add_def, V3.smul, V3.cross, W]
    · linear_combination F.y * hz - F.z * hy
    · linear_combination F.z * hx - F.x * hz
    · linear_combination F.x * hy - F.y * hx

/-! ## Several contacts -/

theorem hull_pressures {l : List (Pressure K)} (h : ∀ p ∈ l, 0 ≤ p.force) (ht : 0 < totalForce l) :
    InHull (l.map Pressure.point) (centreOfPressure l) := by
  have hz : ∀ (g : Pressure K → K) (m : List (Pressure K)),
      (List.zipWith (fun a b => a * b) (m.map fun p => p.force / totalForce l) (m.map g)).sum =
        (m.map fun p => p.force * g p).sum / totalForce l := by
    intro g m
    induction m with
    | nil => simp
    | cons a m ih =>
      simp only [List.map_cons, List.zipWith_cons_cons, List.sum_cons, ih]
      rw [add_div, mul_div_right_comm]
  have hz' : ∀ (i : Nat), (List.zipWith (fun a (p : V3 K) => a * p.get i) (l.map fun p => p.force / totalForce l)
      (l.map Pressure.point)).sum = (l.map fun p => p.force * p.point.get i).sum / totalForce l := by
    intro i
    rw [← hz fun p => p.point.get i]
    congr 1
    rw [List.zipWith_map, List.zipWith_map]
  refine ⟨l.map fun p => p.force / totalForce l, by simp, ?_, ?_, ?_⟩
  · intro a ha
    obtain ⟨p, hp, rfl⟩ := List.mem_map.1 ha
    exact div_nonneg (h p hp) ht.le
  · have e : ∀ m : List (Pressure K), (m.map fun p => p.force / totalForce l).sum = totalForce m / totalForce l := by
      intro m
      induction m with
      | nil => simp [totalForce]
      | cons a m ih =>
        rw [List.map_cons, List.sum_cons, ih, ← add_div]
        rfl
    rw [e, div_self ht.ne']
  · intro i hi
    rw [hz' i]
    match i, hi with
    | 0, _ => rfl
    | 1, _ => rfl
    | 2, _ => rfl

theorem kindPoints_eq (k : ContactKind) : Contact.kindPoints k = nPoints k := by cases k <;> rfl

/-- The points of the pressures are the points of the contacts. -/
theorem pressures_points (N : V3 K) (axes : CopContact K → M3 K) (f : Nat → K) (cs : List (CopContact K)) :
    ∀ off, (pressures N axes off cs f).map Pressure.point = worldPoints cs := by
  induction cs with
  | nil => intro off; rfl
  | cons a as ih =>
    intro off
    rw [pressures, List.map_append, ih, List.map_map, show worldPoints (a :: as) = _ ++ worldPoints as
      from List.flatMap_cons, kindPoints_eq]
    congr 1
    refine List.map_congr_left fun j _ => ?_
    simp only [Function.comp_apply, SE3.actPoint, V3.add_def]
    ext <;> simp only [add_comm]

/-- The forces along the normal of the ground of contacts that respect their limits. -/
theorem pressures_push {N : V3 K} {f : Nat → K} (cs : List (CopContact K)) : ∀ off, Stacked off cs →
    (∀ c ∈ cs, c.contact.kind ≠ .twoFrames ∧ 0 < c.contact.mu ∧ 0 < c.contact.fMin ∧ c.pose.rot.Orthogonal ∧
      c.pose.rot.mulVec c.contact.normal = N ∧ WithinLimits c.contact fun i => f (c.index + i)) →
    (∀ p ∈ pressures N (fun c => c.pose.rot) off cs f, 0 ≤ p.force) ∧
    (cs ≠ [] → 0 < totalForce (pressures N (fun c => c.pose.rot) off cs f)) := by
  induction cs with
  | nil => intro off _ _; exact ⟨fun p hp => (by cases hp), fun h => absurd rfl h⟩
  | cons a as ih =>
    intro off hs hall
    obtain ⟨hidx, hs⟩ := hs
    have hn : a.contact.nForce = 3 * Contact.kindPoints a.contact.kind := nForce_eq _
    rw [hn] at hs
    obtain ⟨ih1, ih2⟩ := ih _ hs fun c hc => hall c (List.mem_cons_of_mem _ hc)
    obtain ⟨hk, hmu, hmin, hrot, hN, hlim⟩ := hall a List.mem_cons_self
    have hdot : ∀ v : V3 K, N.dot (a.pose.rot.mulVec v) = a.contact.normal.dot v := by
      intro v
      have e := transpose_mulVec_mul hrot v
      have ex := congrArg V3.x e
      have ey := congrArg V3.y e
      have ez := congrArg V3.z e
      simp only [M3.mulVec, M3.transpose] at ex ey ez
      rw [← hN]
      simp only [V3.dot, M3.mulVec]
      linear_combination a.contact.normal.x * ex + a.contact.normal.y * ey + a.contact.normal.z * ez
    have hlim' : (∃ t1 t2 : V3 K, Orthonormal t1 t2 a.contact.normal ∧ ∀ i, i < nPoints a.contact.kind →
        Pyramid a.contact.normal t1 t2 a.contact.mu (cornerForce (fun i => f (a.index + i)) i)) ∧
        a.contact.fMin ≤ ∑ i ∈ range (nPoints a.contact.kind),
          a.contact.normal.dot (cornerForce (fun i => f (a.index + i)) i) := by
      unfold WithinLimits at hlim
      cases hk' : a.contact.kind with
      | point => rw [hk'] at hlim; exact ⟨hlim.1, hlim.2.1⟩
      | sixD => rw [hk'] at hlim; exact ⟨hlim.1, hlim.2.1⟩
      | twoFrames => exact absurd hk' hk
    obtain ⟨⟨t1, t2, -, hpyr⟩, hlo⟩ := hlim'
    rw [hidx] at hpyr hlo
    have hhead : ∀ p ∈ (List.range (Contact.kindPoints a.contact.kind)).map (fun j =>
        (⟨a.pose.trans + a.pose.rot.mulVec (a.contact.points j),
          N.dot (a.pose.rot.mulVec ⟨f (off + 3 * j), f (off + 3 * j + 1), f (off + 3 * j + 2)⟩)⟩ : Pressure K)),
        0 ≤ p.force := by
      intro p hp
      obtain ⟨j, hj, rfl⟩ := List.mem_map.1 hp
      rw [List.mem_range, kindPoints_eq] at hj
      show 0 ≤ N.dot _
      rw [hdot]
      exact pyramid_push hmu (hpyr j hj)
    have hsum : totalForce ((List.range (Contact.kindPoints a.contact.kind)).map (fun j =>
        (⟨a.pose.trans + a.pose.rot.mulVec (a.contact.points j),
          N.dot (a.pose.rot.mulVec ⟨f (off + 3 * j), f (off + 3 * j + 1), f (off + 3 * j + 2)⟩)⟩ : Pressure K))) =
        ∑ i ∈ range (nPoints a.contact.kind), a.contact.normal.dot (cornerForce (fun i => f (off + i)) i) := by
      rw [totalForce, List.map_map, kindPoints_eq, sum_range_list]
      refine sum_congr rfl fun j _ => ?_
      simp only [Function.comp_apply, hdot]
      rfl
    rw [pressures]
    refine ⟨fun p hp => ?_, fun _ => ?_⟩
    · rcases List.mem_append.1 hp with hp | hp
      · exact hhead p hp
      · exact ih1 p hp
    · rw [totalForce, List.map_append, List.sum_append]
      have h1 := hsum
      rw [totalForce] at h1
      rw [h1]
      have h2 : 0 ≤ totalForce (pressures N (fun c => c.pose.rot) (off + 3 * Contact.kindPoints a.contact.kind) as f) := by
        apply List.sum_nonneg
        intro x hx
        obtain ⟨p, hp, rfl⟩ := List.mem_map.1 hx
        exact ih1 p hp
      rw [totalForce] at h2
      linarith

/-- **C86, several contacts.** For any number of point and surface contacts with positive friction and positive lower
limits, whose normals are the normal of the ground in the world: when their forces respect their limits, the total
normal force is positive and the centre of pressure lies in the convex hull of all contact points. -/
theorem C86_support_polygon (cs : List (CopContact K)) (hne : cs ≠ []) (hst : Stacked 0 cs) (N : V3 K) (f : Nat → K)
    (h : ∀ c ∈ cs, c.contact.kind ≠ .twoFrames ∧ 0 < c.contact.mu ∧ 0 < c.contact.fMin ∧ c.pose.rot.Orthogonal ∧
      c.pose.rot.mulVec c.contact.normal = N ∧ WithinLimits c.contact fun i => f (c.index + i)) :
    0 < totalForce (pressures N (fun c => c.pose.rot) 0 cs f) ∧
    InHull (worldPoints cs) (centreOfPressure (pressures N (fun c => c.pose.rot) 0 cs f)) := by
  obtain ⟨h1, h2⟩ := pressures_push cs 0 hst h
  refine ⟨h2 hne, ?_⟩
  rw [← pressures_points N (fun c => c.pose.rot) f cs 0]
  exact hull_pressures h1 (h2 hne)

/-- **C86, references out of reach.** After any history of calls of a centre-of-pressure task: when the reference lies
outside the convex hull of the contact points, no vector of contact forces satisfies both the constraint of the task and
the limits of the contacts. -/
theorem C86_out_of_reach {name : String} {hist : List (CopTask.Op K)} {s : CopTask K}
    (hrun : runOps CopTask.step (CopTask.new name) hist = some s) (g : Nat → Nat → K) (cs : List (CopContact K))
    (hne : cs ≠ []) (hst : Stacked 0 cs) :
    let N := (CopSettings.fresh.afterAll hist).normal
    (∀ c ∈ cs, c.contact.kind ≠ .twoFrames ∧ 0 < c.contact.mu ∧ 0 < c.contact.fMin ∧ c.pose.rot.Orthogonal ∧
      c.pose.rot.mulVec N = N ∧ c.contact.normal = N) →
    ¬ InHull (worldPoints cs) (CopSettings.fresh.afterAll hist).ref →
    ∃ s' con, s.step (.compute5 g cs) = .ok s' (some con) ∧
      ∀ f : Nat → K, ¬ (Sat con f ∧ ∀ c ∈ cs, WithinLimits c.contact fun i => f (c.index + i)) := by
  intro N hc hout
  obtain ⟨s', con, hs, -, -, -, -, hiff⟩ := C40_partial hrun g cs hst (fun c hm => (hc c hm).1) (fun c => c.pose.rot)
    (fun c hm => by
      obtain ⟨-, -, -, ho, hN, -⟩ := hc c hm
      have := transpose_mulVec_mul ho N
      rwa [hN] at this)
  refine ⟨s', con, hs, fun f ⟨hsat, hlim⟩ => ?_⟩
  obtain ⟨hpos, hin⟩ := C86_support_polygon cs hne hst N f fun c hm => by
    obtain ⟨a1, a2, a3, a4, a5, a6⟩ := hc c hm
    exact ⟨a1, a2, a3, a4, by rw [a6, a5], hlim c hm⟩
  have := ((hiff f).2 hpos.ne').1 hsat
  rw [this] at hin
  exact hout hin

/-! ## A control cycle -/

theorem tiled_stacked {obj : Nat → Contact K} (pose : Nat → SE3 K) : ∀ (l : List ContactLevel) (k0 k1 : Nat),
    Formulation.Tiled obj k0 l k1 → Stacked k0 (l.map fun cl => (⟨obj cl.cid, cl.index, pose cl.cid⟩ : CopContact K)) := by
  intro l
  induction l with
  | nil => intro k0 k1 _; trivial
  | cons c cs ih => intro k0 k1 h; exact ⟨h.1, ih _ _ h.2⟩

/-- **C86, control cycles (partial, as C65).** In every cycle, with contacts as in `C86_support_polygon` for the current
placements of their frames: every vector that is feasible for level 0 of the assembled problem decodes to contact forces
whose centre of pressure lies in the convex hull of the points of all registered contacts.  Missing: as C65. -/
theorem C86_cycle_partial {nd : Bool} {W : World} {robot : Robot K} {obj : Nat → Contact K} {assoc : Nat → String}
    {ops : List (Op K)} {s0 s : State K} {cy : Cycle K} {t : K} (h : TidyRun nd W robot obj assoc ops s0)
    (hno : Along nd W NoReassociation (init robot obj assoc) ops)
    (hs : CycleSizes robot.nv cy) (hc : computeProblemData nd cy t s0 = .ok s ()) {items : List (Item K)}
    (hit : items = ((registrations nd W robot obj assoc ops).expire (fun c => (obj c).name) t).items)
    (hf : ∀ it ∈ items, it.Fits W obj s0.assoc robot.nv robot.na (items.filterMap Item.cid?) cy)
    (N : V3 K) (hN : N.dot N = 1) (pose : Nat → SE3 K) (hsome : items.filterMap Item.cid? ≠ [])
    (hcon : ∀ cid ∈ items.filterMap Item.cid?, (s.contactObj cid).kind ≠ .twoFrames ∧ 0 < (s.contactObj cid).mu ∧
      0 < (s.contactObj cid).fMin ∧ (pose cid).rot.Orthogonal ∧ (pose cid).rot.mulVec (s.contactObj cid).normal = N)
    {l0 l1 : Level K} (hp : Spec.problem s = [l0, l1]) {x : Vec K} (hx : x.size = nVar s) (hfe : Feasible l0 x) :
    let cs : List (CopContact K) := s.contacts.map fun cl => ⟨s.contactObj cl.cid, cl.index, pose cl.cid⟩
    s.contacts.map ContactLevel.cid = items.filterMap Item.cid? ∧
    ∃ f, (getContactForces s x).val? = some f ∧
      0 < totalForce (pressures N (fun c => c.pose.rot) 0 cs f) ∧
      InHull (worldPoints cs) (centreOfPressure (pressures N (fun c => c.pose.rot) 0 cs f)) := by
  intro cs
  have hunit : ∀ cid ∈ items.filterMap Item.cid?, (s.contactObj cid).kind ≠ .twoFrames →
      (s.contactObj cid).normal.dot (s.contactObj cid).normal = 1 := by
    intro cid hm _
    obtain ⟨-, -, -, ho, hr⟩ := hcon cid hm
    have e := transpose_mulVec_mul ho (s.contactObj cid).normal
    rw [hr] at e
    rw [← hN, ← hr]
    have ex := congrArg V3.x e
    have ey := congrArg V3.y e
    have ez := congrArg V3.z e
    rw [← hr] at ex ey ez
    simp only [M3.mulVec, M3.transpose] at ex ey ez
    simp only [V3.dot, M3.mulVec]
    linear_combination (-(s.contactObj cid).normal.x) * ex - (s.contactObj cid).normal.y * ey -
      (s.contactObj cid).normal.z * ez
  have hcons := feasible_consistent h hno hs hc (hit ▸ hf) (hit ▸ hunit) hp hx hfe
  rw [← hit] at hcons
  obtain ⟨hi0, hn, L, hL, -⟩ := tidy_impl h
  obtain ⟨s1, hi, -, ha, hA, his, -⟩ := compute_spec hi0 hc
  have hrob : s.robot = robot := by
    have e1 : s0.robot = robot := run_robot ops _ _ h.run
    have e2 := step_robot (nd := nd) (W := W) (s := s0) (o := .compute cy t) (s' := s)
      (by simp only [step, hc]; rfl)
    exact e2.trans e1
  have hnv : s.nv = robot.nv := by rw [← his.pre.rnv, hrob]
  have hcn : cnames s0 = fun c => (obj c).name := hn.names
  have hst : (step nd W s0 (.compute cy t)) = .ok s () := hc
  obtain ⟨n1, L', hI, -⟩ := step_impl (nd := nd) h.hygienic hi0 hL (.compute cy t) trivial (s' := s) (by rw [hst]; rfl)
  rw [hst] at hI
  have hI' : Impl W s ((registrations nd W robot obj assoc ops).expire (cnames s0) t) L' := hI
  rw [hcn] at hI'
  have hitems : L'.map Prod.fst = items := by rw [hI'.items, hit]
  have hcids : items.filterMap Item.cid? = s.contacts.map ContactLevel.cid := by
    rw [← hitems]; exact contact_cids hI'.coh
  have hnd : (contactNames s).Nodup := contact_names_nodup hI'.coh
  obtain ⟨s', hd⟩ := decode_spec hi ha (by rw [hnv]; exact hs) x hx
  refine ⟨hcids.symm, s'.f, by simp [getContactForces, hd.run, Res.val?], ?_⟩
  have hfx : s'.f.get = fun j => x (s.nv + j) := by funext i; exact hd.f i
  refine C86_support_polygon cs ?_ (tiled_stacked pose _ _ _ his.tiled) N s'.f ?_
  · intro e
    rw [hcids] at hsome
    have : s.contacts = [] := List.map_eq_nil_iff.1 e
    rw [this] at hsome
    exact hsome rfl
  · intro c hm
    obtain ⟨cl, hcl, rfl⟩ := List.mem_map.1 hm
    have hmem : cl.cid ∈ items.filterMap Item.cid? := hcids ▸ List.mem_map_of_mem hcl
    obtain ⟨b1, b2, b3, b4, b5⟩ := hcon _ hmem
    refine ⟨b1, b2, b3, b4, b5, ?_⟩
    obtain ⟨it, hit1, hit2⟩ := List.mem_filterMap.1 hmem
    cases it with
    | task fam tid p w => cases hit2
    | contact cid p wm wf =>
      cases hit2
      obtain ⟨fc, g1, g2⟩ := hcons.contactForce _ _ _ _ hit1
      obtain ⟨fc', f1, f2, f3⟩ := contactForces_val hi hA hd _ (find_contact hnd hcl)
      rw [g1] at f1
      cases f1
      have e : fc.get = fun i => s'.f (cl.index + i) := by
        funext i
        refine (f3 i).trans ?_
        rw [show s'.f (cl.index + i) = x (s.nv + (cl.index + i)) from hd.f _, Nat.add_assoc]
      have g2' : WithinLimits (s.contactObj cl.cid) fc.get := g2
      rw [e] at g2'
      exact g2'

/-! ## Examples: a square sole -/

namespace SoleDemo

noncomputable def sole : Contact ℝ := Contact.new "sole" .sixD RealDemo.square ⟨0, 0, 1⟩ (1 / 2) 1 40

theorem unit : (⟨0, 0, 1⟩ : V3 ℝ).dot ⟨0, 0, 1⟩ = 1 := by norm_num [V3.dot]

/-- The point (1/2, 0, 0) lies on the sole. -/
theorem on_sole : InHull (corners RealDemo.square) ⟨1 / 2, 0, 0⟩ := by
  refine ⟨[1 / 2, 1 / 4, 0, 1 / 4], rfl, ?_, by norm_num, ?_⟩
  · intro a ha
    simp only [List.mem_cons, List.not_mem_nil, or_false] at ha
    rcases ha with rfl | rfl | rfl | rfl <;> norm_num
  · intro i hi
    obtain rfl | rfl | rfl : i = 0 ∨ i = 1 ∨ i = 2 := by omega
    all_goals
      simp only [corners, List.zipWith_cons_cons, List.zipWith_nil_right, List.sum_cons, List.sum_nil, V3.get,
        RealDemo.square]
      norm_num

/-- The point (2, 0, 0) does not. -/
theorem off_sole : ¬ InHull (corners RealDemo.square) ⟨2, 0, 0⟩ := by
  rintro ⟨w, hlen, hw, hsum, hpt⟩
  obtain ⟨w0, w1, w2, w3, rfl⟩ : ∃ w0 w1 w2 w3, w = [w0, w1, w2, w3] := by
    match w, hlen with
    | [a, b, c, d], _ => exact ⟨a, b, c, d, rfl⟩
  have hx := hpt 0 (by omega)
  simp only [corners, List.zipWith_cons_cons, List.zipWith_nil_right, List.sum_cons, List.sum_nil, V3.get,
    RealDemo.square] at hx hsum
  have h2 := hw w2 (by simp)
  have h3 := hw w3 (by simp)
  linarith

/-- A vertical force of 4 at (1/2, 0, 0) is transmitted, and (1/2, 0, 0) is its centre of pressure. -/
example : ∃ f : Nat → ℝ, Sat sole.forceIneq f ∧ netForce sole.forceGen f = ⟨0, 0, 4⟩ ∧
    netMoment sole.forceGen f = (⟨1 / 2, 0, 0⟩ : V3 ℝ).cross ⟨0, 0, 4⟩ :=
  C86_transmits (us := []) (c := sole) rfl unit (by norm_num [paramsAfter, newParams]) _ _
    (by norm_num [Coulomb, tangential, V3.dot, V3.smul, V3.sub_def, paramsAfter, newParams])
    (by norm_num [V3.dot, paramsAfter, newParams]) (by norm_num [V3.dot, paramsAfter, newParams])
    (by norm_num [V3.dot, paramsAfter, newParams]) on_sole

/-- The hypotheses of `C86_surface` hold of the sole. -/
example : ∀ f : Nat → ℝ, Sat sole.forceIneq f → ∃ q, InHull (corners RealDemo.square) q ∧
    ∀ q', IsCop ⟨0, 0, 1⟩ 0 (netForce sole.forceGen f) (netMoment sole.forceGen f) q' ↔ q' = q :=
  C86_surface (us := []) (c := sole) rfl unit (by norm_num [paramsAfter, newParams])
    (by norm_num [paramsAfter, newParams]) 0 (fun j hj => by
      obtain rfl | rfl | rfl | rfl : j = 0 ∨ j = 1 ∨ j = 2 ∨ j = 3 := by omega
      all_goals norm_num [paramsAfter, newParams, V3.dot, RealDemo.square])

/-- The sole on the ground at the origin. -/
noncomputable def stance : List (CopContact ℝ) := [⟨sole, 0, ⟨M3.one, ⟨0, 0, 0⟩⟩⟩]

theorem world_points : worldPoints stance = corners RealDemo.square := by
  have e : ∀ v : V3 ℝ, SE3.actPoint ⟨M3.one, ⟨0, 0, 0⟩⟩ v = v := by
    intro v
    rw [SE3.actPoint, one_mulVec]
    ext <;> simp [V3.add_def]
  show [SE3.actPoint ⟨M3.one, ⟨0, 0, 0⟩⟩ (RealDemo.square 0), SE3.actPoint ⟨M3.one, ⟨0, 0, 0⟩⟩ (RealDemo.square 1),
    SE3.actPoint ⟨M3.one, ⟨0, 0, 0⟩⟩ (RealDemo.square 2), SE3.actPoint ⟨M3.one, ⟨0, 0, 0⟩⟩ (RealDemo.square 3)] = _
  simp only [e]
  rfl

/-- The reference (2, 0, 0) of a centre-of-pressure task is out of reach of the sole. -/
example : ∃ s s' : CopTask ℝ, ∃ con, runOps CopTask.step (CopTask.new "cop") [.setReference ⟨2, 0, 0⟩] = some s ∧
    s.step (.compute5 (fun _ _ => 0) stance) = .ok s' (some con) ∧
    ∀ f : Nat → ℝ, ¬ (Sat con f ∧ ∀ c ∈ stance, WithinLimits c.contact fun i => f (c.index + i)) := by
  obtain ⟨s', con, h1, h2⟩ := C86_out_of_reach (K := ℝ) (name := "cop") (hist := [.setReference ⟨2, 0, 0⟩]) rfl
    (fun _ _ => 0) stance (by simp [stance]) ⟨rfl, trivial⟩ (fun c hc => by
      rw [List.mem_singleton.1 hc]
      refine ⟨fun h => (by cases h), ?_, ?_, ⟨?_, ?_⟩, ?_, rfl⟩
      · show (0 : ℝ) < 1 / 2; norm_num
      · show (0 : ℝ) < 1; norm_num
      · simp [M3.mul, M3.mulVec, M3.one, M3.transpose]
      · simp [M3.mul, M3.mulVec, M3.one, M3.transpose]
      · exact one_mulVec _) (by rw [world_points]; exact off_sole)
  exact ⟨_, s', con, rfl, h1, h2⟩

/-- A control cycle with one contact, whose problem can be solved. -/
example : ∃ s, computeProblemData false RealDemo.cycle 0 RealDemo.s3 = .ok s () ∧
    ∃ f, (getContactForces s RealDemo.standing).val? = some f ∧
    InHull (worldPoints (s.contacts.map fun cl => (⟨s.contactObj cl.cid, cl.index, ⟨M3.one, ⟨3, 0, 0⟩⟩⟩ : CopContact ℝ)))
      (centreOfPressure (pressures ⟨0, 0, 1⟩ (fun c => c.pose.rot) 0
        (s.contacts.map fun cl => ⟨s.contactObj cl.cid, cl.index, ⟨M3.one, ⟨3, 0, 0⟩⟩⟩) f)) := by
  obtain ⟨s, hc, ho⟩ := RealDemo.computes
  obtain ⟨l0, l1, hp, hx, hfe⟩ := RealDemo.feasible hc ho
  obtain ⟨-, f, h1, -, h2⟩ := C86_cycle_partial RealDemo.tidyRun RealDemo.noReassociation ⟨rfl, rfl, rfl⟩ hc
    RealDemo.items.symm RealDemo.fits ⟨0, 0, 1⟩ unit (fun _ => ⟨M3.one, ⟨3, 0, 0⟩⟩) (by simp [Item.cid?])
    (fun cid _ => by
      rw [ho]
      refine ⟨fun h => (by cases h), ?_, ?_, ⟨?_, ?_⟩, ?_⟩
      · show (0 : ℝ) < 1 / 2; norm_num
      · show (0 : ℝ) < 1; norm_num
      · simp [M3.mul, M3.mulVec, M3.one, M3.transpose]
      · simp [M3.mul, M3.mulVec, M3.one, M3.transpose]
      · exact one_mulVec _) hp hx hfe
  exact ⟨s, hc, f, h1, h2⟩

end SoleDemo

end Tsid.Props
