import Verif.Lemmas.RoundTrip
import Verif.Lemmas.Decode
import Verif.Spec.Problem

/-!
# Contents of the problem after the assembly
-/

set_option linter.unusedSectionVars false

namespace Tsid.Formulation

open Spec Finset

variable {K : Type} [Field K] [LinearOrder K] [HasSqrt K]

/-- The common form of `motionCell` and `forceCell`. -/
def genCell (j0 n : Nat) (c d : Constraint K) : Option (Constraint K) :=
  match c.kind with
  | .equality => if d.kind = .equality then
      (d.mat.setCols j0 n c.mat).map fun A => { d with mat := A, vec := c.vec } else none
  | .inequality => if d.kind = .inequality then
      (d.mat.setCols j0 n c.mat).map fun A => { d with mat := A, lb := c.lb, ub := c.ub } else none
  | .bound => if d.kind = .inequality then
      (d.mat.setCols j0 n (Mat.identity n)).map fun A => { d with mat := A, lb := c.lb, ub := c.ub } else none

theorem setCols_block {A B A' : Mat K} {j0 n : Nat} (h : A.setCols j0 n B = some A') (hz : ZeroOutside A j0 n) :
    A' = block A.rows A.cols j0 n B.get := by
  obtain ⟨-, -, -, rfl⟩ := Mat.setCols_some h
  unfold block
  congr 1
  funext i j
  split
  · rfl
  · next hj => exact hz i j hj

theorem genCell_embed {j0 n : Nat} {c d d' : Constraint K} (h : genCell j0 n c d = some d')
    (hz : ZeroOutside d.mat j0 n)
    (he : d.kind = .equality → d.lb = Constraint.noVec ∧ d.ub = Constraint.noVec)
    (hin : d.kind = .inequality → d.vec = Constraint.noVec) :
    d' = embed d.name d.mat.rows d.mat.cols j0 n c := by
  unfold genCell at h
  unfold embed
  split at h
  · next hk =>
    split at h
    · next hd =>
      rw [Option.map_eq_some_iff] at h
      obtain ⟨A, hA, rfl⟩ := h
      rw [setCols_block hA hz, (he hd).1, (he hd).2, hd]
      simp only [hk]
    · cases h
  · next hk =>
    split at h
    · next hd =>
      rw [Option.map_eq_some_iff] at h
      obtain ⟨A, hA, rfl⟩ := h
      rw [setCols_block hA hz, hin hd, hd]
      simp only [hk]
    · cases h
  · next hk =>
    split at h
    · next hd =>
      rw [Option.map_eq_some_iff] at h
      obtain ⟨A, hA, rfl⟩ := h
      rw [setCols_block hA hz, hin hd, hd]
      simp only [hk]
      rfl
    · cases h

/-! ## Offsets -/

theorem tiled_offset (obj : Nat → Contact K) : ∀ (l : List ContactLevel) (k0 k1 : Nat), Tiled obj k0 l k1 →
    (l.map ContactLevel.cid).Nodup →
    k1 = k0 + nForces obj (l.map ContactLevel.cid) ∧
    ∀ cl ∈ l, cl.index = k0 + offset obj (l.map ContactLevel.cid) cl.cid := by
  intro l
  induction l with
  | nil =>
    intro k0 k1 h _
    simp only [Tiled] at h
    simp [nForces, h]
  | cons c cs ih =>
    intro k0 k1 h hn
    simp only [Tiled] at h
    simp only [List.map_cons, List.nodup_cons] at hn
    obtain ⟨i1, i2⟩ := ih _ _ h.2 hn.2
    constructor
    · rw [i1]; simp [nForces]; omega
    · intro b hb
      simp only [List.map_cons, offset]
      rcases List.mem_cons.1 hb with rfl | hb
      · rw [if_pos rfl]; exact h.1
      · have hne : c.cid ≠ b.cid := fun e => hn.1 (e ▸ List.mem_map_of_mem hb)
        rw [if_neg hne, i2 b hb]; omega

/-- The contact Jacobian after the loop, over all indices. -/
theorem jac_stacked (cy : Cycle K) (obj : Nat → Contact K) (Jc : Mat K) : ∀ (l : List ContactLevel) (k0 k1 : Nat),
    Tiled obj k0 l k1 →
    (∀ cl ∈ l, ∀ c i, c < (obj cl.cid).nForce → Jc (cl.index + c) i =
      ∑ r ∈ range (obj cl.cid).forceGen.rows, (obj cl.cid).forceGen r c * (cy.contactMotion cl.cid).mat r i) →
    (∀ r i, k1 ≤ r → Jc r i = 0) →
    ∀ r i, Jc (k0 + r) i = stackedJac obj (fun c => (cy.contactMotion c).mat) (l.map ContactLevel.cid) r i := by
  intro l
  induction l with
  | nil =>
    intro k0 k1 h _ hz r i
    simp only [Tiled] at h
    exact hz _ _ (by omega)
  | cons c cs ih =>
    intro k0 k1 h hl hz r i
    simp only [Tiled] at h
    simp only [List.map_cons, stackedJac]
    split
    · next hr =>
      rw [← h.1]
      exact hl c (by simp) r i hr
    · next hr =>
      have := ih _ _ h.2 (fun b hb => hl b (by simp [hb])) hz (r - (obj c.cid).nForce) i
      rw [← this]
      congr 1
      omega

theorem contact_cids_nodup {W : World} {s : State K} {L : List (LItem K)} (hc : Coh W s L) :
    (s.contacts.map ContactLevel.cid).Nodup := by
  have h := contact_names_nodup hc
  exact List.Nodup.of_map (fun c => cnames s c) (by rw [List.map_map]; exact h)

theorem contact_cids {W : World} {s : State K} {L : List (LItem K)} (hc : Coh W s L) :
    (L.map Prod.fst).filterMap Item.cid? = s.contacts.map ContactLevel.cid := by
  have h1 : s.contacts.map ContactLevel.cid = (s.contacts.map strip).map Prod.fst := by
    rw [List.map_map]; rfl
  rw [h1, hc.contacts, List.map_filterMap, List.filterMap_map]
  apply filterMap_congr_mem
  rintro ⟨it, a, b, c⟩ _
  cases it <;> rfl

theorem forceBlock_vars {obj : Nat → Contact K} {l : List ContactLevel} {k : Nat} (ht : Tiled obj 0 l k)
    (hn : (l.map ContactLevel.cid).Nodup) (a : String) :
    forceBlock obj l k a = forceVars obj (l.map ContactLevel.cid) a := by
  obtain ⟨h1, h2⟩ := tiled_offset obj l 0 k ht hn
  unfold forceBlock forceVars
  by_cases ha : a = ""
  · rw [if_neg (by simpa using ha), if_pos ha, h1, Nat.zero_add]
  · rw [if_pos ha, if_neg ha, List.find?_map]
    have e : (fun cl : ContactLevel => a == (obj cl.cid).name) =
        ((fun c => (obj c).name == a) ∘ ContactLevel.cid) := by
      funext cl
      simp only [Function.comp]
      exact Bool.beq_comm
    rw [e]
    cases hf : l.find? ((fun c => (obj c).name == a) ∘ ContactLevel.cid) with
    | none => simp [h1]
    | some cl =>
      have := h2 cl (List.mem_of_find?_eq_some hf)
      simp [this]

theorem Vec.ext' {a b : Vec K} (h1 : a.size = b.size) (h2 : ∀ i, a i = b i) : a = b := by
  cases a; cases b
  simp only at h1
  subst h1
  congr 1
  funext i
  exact h2 i

theorem Mat.ext' {a b : Mat K} (h1 : a.rows = b.rows) (h0 : a.cols = b.cols) (h2 : ∀ i j, a i j = b i j) : a = b := by
  cases a; cases b
  simp only at h1 h0
  subst h1 h0
  congr 1
  funext i j
  exact h2 i j

/-- Two column blocks side by side, over an all-zero remainder. -/
theorem setCols_side {A A1 A2 B C : Mat K} {nv k : Nat} (hc : A.cols = nv + k) (hz : ZeroFrom A (nv + k))
    (h1 : A.setCols 0 nv B = some A1) (h2 : A1.setCols (A1.cols - k) k C = some A2) :
    A2 = sideBySide A.rows nv k B.get C.get := by
  obtain ⟨p1, p2, p3, rfl⟩ := Mat.setCols_some h1
  obtain ⟨q1, q2, q3, rfl⟩ := Mat.setCols_some h2
  refine Mat.ext' rfl hc ?_
  intro i j
  have e : A.cols - k = nv := by omega
  simp only [sideBySide, e]
  by_cases hj : j < nv
  · rw [if_neg (by omega), if_pos (by omega), if_pos hj]; simp
  · by_cases hj' : j < nv + k
    · rw [if_pos (by omega), if_neg hj, if_pos hj']
    · rw [if_neg (by omega), if_neg (by omega), if_neg hj, if_neg hj', hz i j (by omega)]

/-- The environment of a control cycle. -/
def envOf (s : State K) (cy : Cycle K) : Env K := ⟨s.nv, s.nu, s.robot.mass cy.M, s.contactObj, s.assoc, cy⟩

/-- Jacobian and bias force after the assembly. -/
theorem assembled_env {W : World} {cy : Cycle K} {s1 s : State K} (hi : Inv W s1) (hA : Assembled cy s1 s) :
    s.Jc = ⟨s1.k, s1.nv, stackedJac s1.contactObj (fun c => (cy.contactMotion c).mat)
      (s1.contacts.map ContactLevel.cid)⟩ ∧
    s.hfext = ⟨s1.nv, fun i => ((s1.measured.map cy.torque).map fun t => t i).sum⟩ := by
  obtain ⟨h1, hj⟩ := hA.jac
  obtain ⟨j1, j2, j3, j4, j5, j6⟩ := assembleContacts_jac cy s1.contactObj s1.nv s1.contacts 0 s1.k _ _ hi.tiled hj
  obtain ⟨t1, t2, t3⟩ := sumTorques_spec cy _ _ _ _ hA.torques
  constructor
  · refine Mat.ext' (j1.trans hi.sized.jcRows) (j2.trans hi.sized.jcCols) ?_
    intro i j
    have := jac_stacked cy s1.contactObj s.Jc s1.contacts 0 s1.k hi.tiled
      (fun cl hcl c i hc => (j6 cl hcl).2.2 c i hc) (fun r i hr => by
        rw [j5 r i (by omega)]; exact hi.sized.jcZero r i hr) i j
    rwa [Nat.zero_add] at this
  · refine Vec.ext' (t1.trans rfl) ?_
    intro i
    rw [t3]
    simp [Vec.zero]

theorem base_contents {W : World} {cy : Cycle K} {s1 s : State K} {L : List (LItem K)} (hi : Inv W s1)
    (hc : Coh W s1 L) (hA : Assembled cy s1 s) :
    s.heap s1.baseId = baseConstraint (envOf s1 cy) (s1.contacts.map ContactLevel.cid) s1.measured := by
  obtain ⟨e1, e2⟩ := assembled_env hi hA
  obtain ⟨hk, -⟩ := tiled_offset _ _ _ _ hi.tiled (contact_cids_nodup hc)
  rw [Nat.zero_add] at hk
  have hb := hA.base
  rw [e1, e2] at hb
  unfold baseCell at hb
  rw [Option.bind_eq_some_iff] at hb
  obtain ⟨A1, hA1, hb⟩ := hb
  rw [Option.map_eq_some_iff] at hb
  obtain ⟨A2, hA2, hb⟩ := hb
  rw [← hb, setCols_side hi.sized.baseCols hi.sized.baseZero hA1 hA2]
  obtain ⟨v1, v2⟩ := hi.pre.eqVec _ hi.pre.baseKind
  rw [hi.pre.baseName, hi.pre.baseKind, hi.pre.baseRows, v1, v2]
  unfold baseConstraint
  simp only [envOf, ← hk]
  rfl

theorem act_contents {W : World} {cy : Cycle K} {s1 s : State K} {L : List (LItem K)} (hi : Inv W s1)
    (hc : Coh W s1 L) (hcs : CycleSizes s1.nv cy) (hA : Assembled cy s1 s) {tl : TaskLevel} (htl : tl ∈ s1.acts)
    (hid : tl.cref ∈ hqpIds s1.hqp) :
    s.heap tl.cref = actConstraint (envOf s1 cy) (s1.contacts.map ContactLevel.cid) s1.measured
      (W.task tl.tid).cname (W.task tl.tid).rows (cy.actOut tl.tid) := by
  obtain ⟨e1, e2⟩ := assembled_env hi hA
  obtain ⟨hk, -⟩ := tiled_offset _ _ _ _ hi.tiled (contact_cids_nodup hc)
  rw [Nat.zero_add] at hk
  have hnu := hi.pre.nuLe
  obtain ⟨z1, z2, z3⟩ := hcs
  have hcell := hi.pre.actCells tl htl
  have h := hA.acts tl htl
  have hha : (cy.nle.tail (s1.nv - s1.nu)).sub (s.hfext.tail (s1.nv - s1.nu)) =
      ⟨s1.nv - s1.nu, fun i => bias (envOf s1 cy) s1.measured (s1.nu + i)⟩ := by
    refine Vec.ext' rfl ?_
    intro i
    rw [e2]
    simp only [Vec.sub, Vec.tail, bias, envOf, z3]
    rw [show s1.nv - (s1.nv - s1.nu) = s1.nu by omega]
  have hMa : (s1.robot.mass cy.M).bottomRows (s1.nv - s1.nu) =
      ⟨s1.nv - s1.nu, cy.M.cols, fun i j => s1.robot.mass cy.M (s1.nu + i) j⟩ := by
    refine Mat.ext' rfl rfl ?_
    intro i j
    simp only [Mat.bottomRows]
    rw [show (s1.robot.mass cy.M).rows = s1.nv from z1, show s1.nv - (s1.nv - s1.nu) = s1.nu by omega]
  have hJa : s.Jc.rightCols (s1.nv - s1.nu) =
      ⟨s1.k, s1.nv - s1.nu, fun r i => stackedJac s1.contactObj (fun c => (cy.contactMotion c).mat)
      (s1.contacts.map ContactLevel.cid) r (s1.nu + i)⟩ := by
    rw [e1]
    refine Mat.ext' rfl rfl ?_
    intro i j
    simp only [Mat.rightCols]
    rw [show s1.nv - (s1.nv - s1.nu) = s1.nu by omega]
  rw [hha, hMa, hJa] at h
  unfold actCell at h
  dsimp only at h
  unfold actConstraint
  simp only [envOf] at *
  rw [← hk]
  split at h
  · next hkd =>
    split at h
    · next hcond =>
      rw [Option.bind_eq_some_iff] at h
      obtain ⟨A1, hA1, h⟩ := h
      rw [Option.map_eq_some_iff] at h
      obtain ⟨A2, hA2, h⟩ := h
      rw [← h, setCols_side (hi.sized.idsCols _ hid) (hi.sized.actZero tl htl hid) hA1 hA2, hcell.name, hcell.rows,
        hcond.2.2, (hi.pre.eqVec _ hcond.2.2).1, (hi.pre.eqVec _ hcond.2.2).2]
      simp only [hkd]
      rfl
    · cases h
  · next hkd =>
    split at h
    · next hcond =>
      rw [Option.bind_eq_some_iff] at h
      obtain ⟨A1, hA1, h⟩ := h
      rw [Option.map_eq_some_iff] at h
      obtain ⟨A2, hA2, h⟩ := h
      rw [← h, setCols_side (hi.sized.idsCols _ hid) (hi.sized.actZero tl htl hid) hA1 hA2, hcell.name, hcell.rows,
        hcond.2.2.2, hi.pre.ineqVec _ hcond.2.2.2]
      simp only [hkd]
      rfl
    · cases h
  · next hkd =>
    split at h
    · next hcond =>
      rw [Option.bind_eq_some_iff] at h
      obtain ⟨A1, hA1, h⟩ := h
      rw [Option.map_eq_some_iff] at h
      obtain ⟨A2, hA2, h⟩ := h
      rw [← h, setCols_side (hi.sized.idsCols _ hid) (hi.sized.actZero tl htl hid) hA1 hA2, hcell.name, hcell.rows,
        hcond.2.2, hi.pre.ineqVec _ hcond.2.2]
      simp only [hkd]
      rfl
    · cases h

theorem motion_contents {W : World} {cy : Cycle K} {s1 s : State K} (hi : Inv W s1) (hA : Assembled cy s1 s)
    {tl : TaskLevel} (htl : tl ∈ s1.motions) (hid : tl.cref ∈ hqpIds s1.hqp) :
    s.heap tl.cref = embed (W.task tl.tid).cname (W.task tl.tid).rows (s1.nv + s1.k) 0 s1.nv
      (cy.motionOut tl.tid) := by
  obtain ⟨hcell, hz⟩ := hi.pre.motionCells tl htl
  have h : genCell 0 s1.nv (cy.motionOut tl.tid) (s1.heap tl.cref) = some (s.heap tl.cref) := hA.motions tl htl
  rw [genCell_embed h (fun i j hj => hz i j (by omega)) (hi.pre.eqVec _) (hi.pre.ineqVec _), hcell.name, hcell.rows,
    hi.sized.idsCols _ hid]

theorem force_contents {W : World} {cy : Cycle K} {s1 s : State K} (hi : Inv W s1) (hf : ForceClean s1)
    (hA : Assembled cy s1 s) {tl : TaskLevel} (htl : tl ∈ s1.forces) (hid : tl.cref ∈ hqpIds s1.hqp) :
    s.heap tl.cref = embed (W.task tl.tid).cname (W.task tl.tid).rows (s1.nv + s1.k)
      (s1.nv + (forceBlock s1.contactObj s1.contacts s1.k (s1.assoc tl.tid)).1)
      (forceBlock s1.contactObj s1.contacts s1.k (s1.assoc tl.tid)).2 (cy.forceOut tl.tid) := by
  obtain ⟨hcell, -⟩ := hi.pre.forceCells tl htl
  have h : genCell (s1.nv + (forceBlock s1.contactObj s1.contacts s1.k (s1.assoc tl.tid)).1)
      (forceBlock s1.contactObj s1.contacts s1.k (s1.assoc tl.tid)).2 (cy.forceOut tl.tid) (s1.heap tl.cref) =
      some (s.heap tl.cref) := hA.forces tl htl
  rw [genCell_embed h (hf tl htl hid) (hi.pre.eqVec _) (hi.pre.ineqVec _), hcell.name, hcell.rows,
    hi.sized.idsCols _ hid]

theorem contact_contents {W : World} {cy : Cycle K} {s1 s : State K} (hi : Inv W s1) (hA : Assembled cy s1 s)
    {cl : ContactLevel} (hcl : cl ∈ s1.contacts) :
    (cl.motion ∈ hqpIds s1.hqp → s.heap cl.motion =
      ⟨(s1.contactObj cl.cid).name ++ "_motion_task", .equality,
        block (s1.contactObj cl.cid).nMotion (s1.nv + s1.k) 0 s1.nv (cy.contactMotion cl.cid).mat.get,
        (cy.contactMotion cl.cid).vec, Constraint.noVec, Constraint.noVec⟩) ∧
    (cl.force ∈ hqpIds s1.hqp → s.heap cl.force =
      ⟨(s1.contactObj cl.cid).name ++ "_force_constraint", .inequality,
        block (Contact.kindIneqRows (s1.contactObj cl.cid).kind) (s1.nv + s1.k) (s1.nv + cl.index)
          (s1.contactObj cl.cid).nForce (s1.contactObj cl.cid).forceIneq.mat.get,
        Constraint.noVec, (s1.contactObj cl.cid).forceIneq.lb, (s1.contactObj cl.cid).forceIneq.ub⟩) ∧
    (cl.reg ∈ hqpIds s1.hqp → s.heap cl.reg =
      ⟨(s1.contactObj cl.cid).name ++ "_force_reg_task", .equality,
        block (Contact.kindRegRows (s1.contactObj cl.cid).kind) (s1.nv + s1.k) (s1.nv + cl.index)
          (s1.contactObj cl.cid).nForce (s1.contactObj cl.cid).forceReg.mat.get,
        (s1.contactObj cl.cid).forceReg.vec, Constraint.noVec, Constraint.noVec⟩) := by
  obtain ⟨hc, hz⟩ := hi.pre.contactCells cl hcl
  obtain ⟨h1, h2, h3, -⟩ := hA.contacts cl hcl
  refine ⟨?_, ?_, ?_⟩
  · intro hid
    unfold contactMotionCell at h1
    rw [Option.map_eq_some_iff] at h1
    obtain ⟨A, hA, h1⟩ := h1
    rw [← h1, setCols_block hA (fun i j hj => hz i j (by omega)), hc.mName, hc.mKind, hc.mRows,
      hi.sized.idsCols _ hid, (hi.pre.eqVec _ hc.mKind).1, (hi.pre.eqVec _ hc.mKind).2]
  · intro hid
    unfold contactForceCell at h2
    rw [Option.map_eq_some_iff] at h2
    obtain ⟨A, hA, h2⟩ := h2
    rw [← h2, setCols_block hA (hi.sized.fZero cl hcl hid), hc.fName, hc.fKind, hc.fRows,
      hi.sized.idsCols _ hid, hi.pre.ineqVec _ hc.fKind]
  · intro hid
    unfold contactRegCell at h3
    rw [Option.map_eq_some_iff] at h3
    obtain ⟨A, hA, h3⟩ := h3
    rw [← h3, setCols_block hA (hi.sized.rZero cl hcl hid), hc.rName, hc.rKind, hc.rRows,
      hi.sized.idsCols _ hid, (hi.pre.eqVec _ hc.rKind).1, (hi.pre.eqVec _ hc.rKind).2]

theorem ents_mem {W : World} {s : State K} {L : List (LItem K)} (hc : Coh W s L) {x : LItem K} (hx : x ∈ L)
    {lvl : Nat} (hl : lvl < 2) {e : K × Nat} (he : e ∈ ents lvl x) : e.2 ∈ hqpIds s.hqp := by
  rw [mem_hqpIds, hc.hqp]
  have h : e ∈ L.flatMap (ents lvl) := List.mem_flatMap.2 ⟨x, hx, he⟩
  obtain rfl | rfl : lvl = 0 ∨ lvl = 1 := by omega
  · exact ⟨_, List.mem_cons_self, e, List.mem_cons_of_mem _ h, rfl⟩
  · exact ⟨_, List.mem_cons_of_mem _ List.mem_cons_self, e, h, rfl⟩

/-- The lines of an item after the assembly. -/
theorem ents_lines {W : World} {cy : Cycle K} {s1 s : State K} {L : List (LItem K)} (hi : Inv W s1)
    (hc : Coh W s1 L) (hf : ForceClean s1) (hcs : CycleSizes s1.nv cy) (hA : Assembled cy s1 s) {x : LItem K}
    (hx : x ∈ L) {lvl : Nat} (hl : lvl < 2) :
    (ents lvl x).map (fun e => (e.1, s.heap e.2)) =
      x.1.lines W (envOf s1 cy) (s1.contacts.map ContactLevel.cid) s1.measured lvl := by
  have hn := contact_cids_nodup hc
  obtain ⟨hk, hoff⟩ := tiled_offset _ _ _ _ hi.tiled hn
  simp only [Nat.zero_add] at hk hoff
  have hid := fun e => ents_mem hc hx hl (e := e)
  obtain ⟨it, a, b, c⟩ := x
  cases it with
  | task fam tid p w =>
    simp only [ents, Item.lines] at hid ⊢
    split
    · next hp =>
      rw [if_pos hp] at hid
      have hid := hid (w, a) (by simp)
      simp only [List.map_cons, List.map_nil, List.cons.injEq, Prod.mk.injEq, true_and, and_true]
      have key : ∀ f, f = fam → (⟨tid, p, a⟩ : TaskLevel) ∈ L.filterMap (taskOf f) := by
        intro f hf
        rw [List.mem_filterMap]
        exact ⟨_, hx, by simp [taskOf, hf]⟩
      cases fam with
      | motion =>
        rw [motion_contents hi hA (tl := ⟨tid, p, a⟩) (hc.motions ▸ key _ rfl) hid]
        simp only [taskConstraint, envOf, ← hk]
      | force =>
        rw [force_contents hi hf hA (tl := ⟨tid, p, a⟩) (hc.forces ▸ key _ rfl) hid, forceBlock_vars hi.tiled hn]
        simp only [taskConstraint, envOf, ← hk]
      | actuation =>
        rw [act_contents hi hc hcs hA (tl := ⟨tid, p, a⟩) (hc.acts ▸ key _ rfl) hid]
        rfl
    · rfl
  | contact cid p wm wf =>
    obtain ⟨cl, hcl, rfl, rfl, rfl, rfl⟩ := mem_contactOf hc hx
    obtain ⟨h1, h2, h3⟩ := contact_contents hi hA hcl
    simp only [ents, List.mem_append] at hid
    simp only [ents, Item.lines, List.map_append]
    congr 1
    · congr 1
      · split
        · next hp =>
          have := h1 (hid (wm, cl.motion) (Or.inl (Or.inl (by rw [if_pos hp]; simp))))
          simp only [List.map_cons, List.map_nil, this, contactMotionConstraint, envOf, ← hk]
        · rfl
      · split
        · next hp =>
          have := h2 (hid (1, cl.force) (Or.inl (Or.inr (by rw [if_pos hp]; simp))))
          simp only [List.map_cons, List.map_nil, this, contactForceConstraint, envOf, ← hk, hoff cl hcl]
        · rfl
    · split
      · next hp =>
        have := h3 (hid (wf, cl.reg) (Or.inr (by rw [if_pos hp]; simp)))
        simp only [List.map_cons, List.map_nil, this, contactRegConstraint, envOf, ← hk, hoff cl hcl]
      · rfl

/-- The whole problem after the assembly is the specified function of the registered objects. -/
theorem problem_contents {W : World} {cy : Cycle K} {s1 s : State K} {L : List (LItem K)} (hi : Inv W s1)
    (hc : Coh W s1 L) (hf : ForceClean s1) (hcs : CycleSizes s1.nv cy) (ha : assemble cy s1 = some s) :
    problem s = contents W (envOf s1 cy) (L.map Prod.fst) s1.measured := by
  have hA := assemble_spec hi.pre ha
  have e : s.hqp = s1.hqp := by rw [hA.eq]
  have key : ∀ lvl, lvl < 2 → (L.flatMap (ents lvl)).map (fun e => (e.1, s.heap e.2)) =
      (L.map Prod.fst).flatMap (Item.lines W (envOf s1 cy) (s1.contacts.map ContactLevel.cid) s1.measured lvl) := by
    intro lvl hl
    rw [List.map_flatMap, List.flatMap_map]
    apply List.flatMap_congr
    intro x hx
    exact ents_lines hi hc hf hcs hA hx hl
  unfold problem contents
  simp only [contact_cids hc]
  rw [e, hc.hqp]
  simp only [List.map_cons, List.map_nil, key 0 (by omega), key 1 (by omega), base_contents hi hc hA]

end Tsid.Formulation

namespace Tsid.Formulation

open Spec Finset

variable {K : Type} [Field K] [LinearOrder K] [HasSqrt K]

/-- A successful control cycle: the problem is the specified function of the registrations it leaves. -/
theorem cycle_contents {nd : Bool} {W : World} {cy : Cycle K} {t : K} {s0 s : State K} {r : Registry K}
    {L : List (LItem K)} (hw : Hygienic W) (hi : Inv W s0) (h : Impl W s0 r L) (hf : ForceClean s0)
    (hc : computeProblemData nd cy t s0 = .ok s ()) (hs : CycleSizes s.nv cy) :
    problem s = contents W (envOf s cy) (r.expire (cnames s0) t).items r.measured ∧
    s.contacts.map ContactLevel.cid = (r.expire (cnames s0) t).items.filterMap Item.cid? ∧
    s.k = nForces s.contactObj ((r.expire (cnames s0) t).items.filterMap Item.cid?) := by
  have hst : (step nd W s0 (.compute cy t)) = .ok s () := hc
  obtain ⟨hn, L', hI, -⟩ := step_impl (nd := nd) hw hi h (.compute cy t) trivial (s' := s) (by rw [hst]; rfl)
  rw [hst] at hI
  have hI' : Impl W s (r.expire (cnames s0) t) L' := hI
  obtain ⟨s1, hi1, hf1, ha, hA, his, -⟩ := compute_spec hi hc
  have e := hA.eq
  have e1 : s1.contactObj = s.contactObj := by rw [e]
  have hc1 : Coh W s1 L' := by
    refine coh_congr hI'.coh ?_ ?_ ?_ ?_ ?_ ?_ ?_
    · rw [e]
    · rw [e]
    · rw [e]
    · rw [e]
    · rw [e]
    · rw [e]
    · unfold cnames; rw [e1]
  have e2 : envOf s1 cy = envOf s cy := by unfold envOf; rw [e]
  have e3 : s1.measured = (r.expire (cnames s0) t).measured := by rw [← hI'.measured, e]
  have e4 : s1.nv = s.nv := by rw [e]
  have e5 : (r.expire (cnames s0) t).measured = r.measured := by
    unfold Registry.expire; split <;> rfl
  have hp := problem_contents hi1 hc1 (hf1 hf) (by rw [e4]; exact hs) ha
  have hcid := contact_cids hI'.coh
  rw [hI'.items] at hcid
  refine ⟨?_, hcid.symm, ?_⟩
  · rw [hp, e2, e3, e5, hI'.items]
  · obtain ⟨hk, -⟩ := tiled_offset _ _ _ _ his.tiled (contact_cids_nodup hI'.coh)
    rw [hk, Nat.zero_add, hcid]

theorem tidy_clean {nd : Bool} {W : World} {robot : Robot K} {obj : Nat → Contact K} {assoc : Nat → String}
    {ops : List (Op K)} {s : State K} (h : TidyRun nd W robot obj assoc ops s)
    (hno : Along nd W NoReassociation (init robot obj assoc) ops) : ForceClean s :=
  run_clean ops _ s (inv_init W robot h.motors obj (shaped_of_built h.built) assoc)
    (forceClean_init robot obj assoc) hno h.run

/-- The transitions act on the contact objects independently of everything else. -/
theorem runTransitions_obj {nd : Bool} : ∀ (l pre : List (Transition K)) (s1 s2 s1' s2' : State K),
    s1.t = s2.t → s1.contactObj = s2.contactObj →
    runTransitions nd pre l s1 = .ok s1' () → runTransitions nd pre l s2 = .ok s2' () →
    s1'.contactObj = s2'.contactObj ∧ s1'.assoc = s1.assoc ∧ s1'.robot = s1.robot ∧ s1'.nv = s1.nv ∧
      s1'.nu = s1.nu := by
  intro l
  induction l with
  | nil =>
    intro pre s1 s2 s1' s2' _ ho h1 h2
    simp only [runTransitions, Res.ok.injEq, and_true] at h1 h2
    subst h1 h2
    exact ⟨ho, rfl, rfl, rfl, rfl⟩
  | cons tr rest ih =>
    intro pre s1 s2 s1' s2' ht ho h1 h2
    unfold runTransitions at h1 h2
    rw [← ht, ← ho] at h2
    split at h1
    · cases h1
    next hnd =>
    rw [if_neg hnd] at h2
    split at h1
    · next hle =>
      rw [if_pos hle] at h2
      split at h1
      · next c' b hset =>
        rw [hset] at h2
        exact ih (pre ++ [tr]) { s1 with contactObj := Function.update s1.contactObj tr.cid c' }
          { s2 with t := s1.t, contactObj := Function.update s1.contactObj tr.cid c' } s1' s2' rfl rfl h1 h2
      · cases h1
      · cases h1
      · cases h1
    · next hle =>
      rw [if_neg hle] at h2
      have key : ∀ (s s' : State K) (n : String) (b : Bool), removeContactNow nd s n = .ok s' b →
          s'.contactObj = s.contactObj ∧ s'.assoc = s.assoc ∧ s'.robot = s.robot ∧ s'.nv = s.nv ∧ s'.nu = s.nu := by
        intro s s' n b h
        unfold removeContactNow at h
        dsimp only at h
        split at h
        · cases h
        · split at h
          · cases h
          · split at h <;> (cases h; exact ⟨rfl, rfl, rfl, rfl, rfl⟩)
      split at h1
      · next sa b hra =>
        split at h2
        · next sb b' hrb =>
          cases h1
          cases h2
          have a := key _ _ _ _ hra
          have b := key _ _ _ _ hrb
          exact ⟨a.1.trans (ho.trans b.1.symm), a.2⟩
        · cases h2
        · cases h2
        · cases h2
      · cases h1
      · cases h1
      · cases h1

/-- What a control cycle leaves alone, and how it acts on the contact objects. -/
theorem compute_env {nd : Bool} {W : World} {cy : Cycle K} {t : K} {s0 s u0 u : State K} (hi : Inv W s0)
    (hiu : Inv W u0) (ho : s0.contactObj = u0.contactObj) (htr : s0.trans = u0.trans) (ha : s0.assoc = u0.assoc)
    (hr : s0.robot = u0.robot) (hc : computeProblemData nd cy t s0 = .ok s ())
    (hcu : computeProblemData nd cy t u0 = .ok u ()) : envOf s cy = envOf u cy := by
  obtain ⟨s1, h1, a1⟩ := compute_ok hc
  obtain ⟨u1, h2, a2⟩ := compute_ok hcu
  obtain ⟨s1', i1, -, b1, A1, -⟩ := compute_spec hi hc
  obtain ⟨u1', j1, -, b2, A2, -⟩ := compute_spec hiu hcu
  have nv1 : s0.nv = u0.nv := by rw [← hi.pre.rnv, ← hiu.pre.rnv, hr]
  have nu1 : s0.nu = u0.nu := by
    have x1 := hi.pre.rna
    have x2 := hiu.pre.rna
    have x3 := hi.pre.nuLe
    have x4 := hiu.pre.nuLe
    rw [hr] at x1
    omega
  have h1' : runTransitions nd [] u0.trans { s0 with t := t } = .ok s1 () := by rw [← htr]; exact h1
  obtain ⟨c1, c2, c3, c4, c5⟩ := runTransitions_obj _ _ _ _ _ _ (by rfl) (by exact ho) h1' h2
  obtain ⟨-, d2, d3, d4, d5⟩ := runTransitions_obj _ _ _ _ _ _ (by rfl) (by exact ho.symm) h2 h1'
  have E1 : Assembled cy s1 s := assemble_spec (runTransitions_keeps (nd := nd) _ _ _ s1
    (keeps_misc hi t s0.measured s0.trans s0.decoded s0.dv s0.f s0.tau).1 (by rw [h1]; rfl)).1.pre a1
  have E2 : Assembled cy u1 u := assemble_spec (runTransitions_keeps (nd := nd) _ _ _ u1
    (keeps_misc hiu t u0.measured u0.trans u0.decoded u0.dv u0.f u0.tau).1 (by rw [h2]; rfl)).1.pre a2
  have f1 := E1.eq
  have f2 := E2.eq
  have g1 : envOf s cy = envOf s1 cy := by unfold envOf; rw [f1]
  have g2 : envOf u cy = envOf u1 cy := by unfold envOf; rw [f2]
  rw [g1, g2]
  unfold envOf
  rw [c1, c2, c3, c4, c5, d2, d3, d4, d5]
  simp only [ha, hr, nv1, nu1]

end Tsid.Formulation
