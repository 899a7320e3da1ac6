import Verif.Lemmas.Registry

/-!
# The formulation refines the registry
-/

set_option linter.unusedSectionVars false

namespace Tsid.Formulation

open Spec

variable {K : Type} [Field K] [LinearOrder K] [HasSqrt K]

/-! ## Additions -/

theorem push_levels {α : Type} {l0 l1 : List α} {p : Nat} {x : α} {h : List (List α)}
    (hp : pushLevel [l0, l1] p x = some h) :
    p < 2 ∧ h = [l0 ++ (if p = 0 then [x] else []), l1 ++ (if p = 1 then [x] else [])] := by
  obtain ⟨h1, rfl⟩ := pushLevel_some hp
  have h2 : p < 2 := h1
  have : p = 0 ∨ p = 1 := by omega
  rcases this with rfl | rfl <;> simp

theorem addTask_eq {W : World} {s s1 : State K} {tid p : Nat} {w : K} {id : Nat}
    (ha : addTask W s tid w p = some (s1, id)) (hl : s.hqp.length = 2) :
    id = s.next ∧ p < 2 ∧ ∃ hqp, pushLevel s.hqp p (w, s.next) = some hqp ∧
      s1 = { s with heap := s1.heap, next := s.next + 1, hqp := hqp,
                    nEq := (if (W.task tid).kind = .equality ∧ p = 0 then s.nEq + (W.task tid).rows else s.nEq),
                    nIn := (if (W.task tid).kind ≠ .equality ∧ p = 0 then s.nIn + (W.task tid).rows else s.nIn) } := by
  unfold addTask at ha
  dsimp only at ha
  split at ha
  · cases ha
  · next hqp2 hq =>
    obtain ⟨h1, h2⟩ := growLevels_push hq
    rw [hl] at h1
    cases ha
    exact ⟨rfl, h1, hqp2, h2, rfl⟩

/-- Adding a task of family `fam`: what the new state must look like. -/
theorem coh_add {W : World} {s s' : State K} {L : List (LItem K)} {fam : Family} {tid p : Nat} {w : K}
    {hqp : List (List (K × Nat))} (hc : Coh W s L)
    (hf : ∀ tl ∈ s.motions ++ (s.forces ++ s.acts), (W.task tl.tid).name ≠ (W.task tid).name)
    (hp : pushLevel s.hqp p (w, s.next) = some hqp) (e1 : s'.hqp = hqp) (e2 : s'.baseId = s.baseId)
    (e3 : s'.motions = s.motions ++ (if fam = .motion then [⟨tid, p, s.next⟩] else []))
    (e4 : s'.forces = s.forces ++ (if fam = .force then [⟨tid, p, s.next⟩] else []))
    (e5 : s'.acts = s.acts ++ (if fam = .actuation then [⟨tid, p, s.next⟩] else []))
    (e6 : s'.contacts = s.contacts) (e7 : s'.contactObj = s.contactObj) :
    Coh W s' (L ++ [(.task fam tid p w, s.next, 0, 0)]) := by
  rw [hc.hqp] at hp
  obtain ⟨p2, rfl⟩ := push_levels hp
  have nmeq : cnames s' = cnames s := by unfold cnames; rw [e7]
  have tk : ∀ f, (L ++ [((.task fam tid p w, s.next, 0, 0) : LItem K)]).filterMap (taskOf f) =
      L.filterMap (taskOf f) ++ (if fam = f then [⟨tid, p, s.next⟩] else []) := by
    intro f
    rw [List.filterMap_append]
    by_cases h : fam = f <;> simp [taskOf, h]
  constructor
  · rw [e1, e2]
    simp [ents]
  · rw [e3, tk, hc.motions]
  · rw [e4, tk, hc.forces]
  · rw [e5, tk, hc.acts]
  · rw [e6, hc.contacts, List.filterMap_append]
    simp [contactOf]
  · rw [nmeq, List.map_append, List.nodup_append']
    refine ⟨hc.keys, by simp, ?_⟩
    intro k hk hk'
    simp only [List.map_cons, List.map_nil, List.mem_singleton] at hk'
    subst hk'
    obtain ⟨⟨it, a, b, c⟩, hx, e⟩ := List.mem_map.1 hk
    cases it with
    | contact _ _ _ _ => simp [key] at e
    | task f tid' p' w' =>
      simp only [key, Prod.mk.injEq, true_and] at e
      have hm : (⟨tid', p', a⟩ : TaskLevel) ∈ L.filterMap (taskOf f) :=
        List.mem_filterMap.2 ⟨_, hx, by simp [taskOf]⟩
      refine hf ⟨tid', p', a⟩ ?_ e
      rw [hc.motions, hc.forces, hc.acts, List.mem_append, List.mem_append]
      cases f with
      | motion => exact Or.inl hm
      | force => exact Or.inr (Or.inl hm)
      | actuation => exact Or.inr (Or.inr hm)
  · intro x hx
    rcases List.mem_append.1 hx with h | h
    · exact hc.levels x h
    · rw [List.mem_singleton] at h
      subst h
      exact p2

theorem count_add {W : World} {s s' : State K} {L : List (LItem K)} {fam : Family} {tid p : Nat} {w : K}
    {o : Int × Int} (h : Count o W s L) (e1 : s'.nEq = if (W.task tid).kind = .equality ∧ p = 0 then s.nEq + (W.task tid).rows else s.nEq)
    (e2 : s'.nIn = if (W.task tid).kind ≠ .equality ∧ p = 0 then s.nIn + (W.task tid).rows else s.nIn)
    (e3 : s'.nu = s.nu) (e7 : s'.contactObj = s.contactObj) (i : Nat × Nat × Nat) :
    Count o W s' (L ++ [(.task fam tid p w, i)]) := by
  have ck : ckinds s' = ckinds s := by unfold ckinds; rw [e7]
  unfold Count
  rw [ck, e1, e2, e3, h.1, h.2, List.map_append, List.map_append, List.sum_append, List.sum_append]
  simp only [List.map_cons, List.map_nil, List.sum_cons, List.sum_nil, eq0, in0]
  constructor
  · split <;> push_cast <;> ring
  · split <;> push_cast <;> ring

/-- Result of an addition of a task. -/
structure AddedTask (W : World) (s s' : State K) (L : List (LItem K)) (fam : Family) (tid p : Nat) (w : K) : Prop where
  coh : Coh W s' (L ++ [(.task fam tid p w, s.next, 0, 0)])
  rest : SameRest s s'
  count : ∀ o, Count o W s L → Count o W s' (L ++ [(.task fam tid p w, s.next, 0, 0)])

theorem addMotionTask_coh {W : World} {s s' : State K} {L : List (LItem K)} {tid p : Nat} {w dur : K} {r : Bool}
    (hi : Inv W s) (hc : Coh W s L)
    (hf : ∀ tl ∈ s.motions ++ (s.forces ++ s.acts), (W.task tl.tid).name ≠ (W.task tid).name)
    (h : addMotionTask W s tid w p dur = .ok s' r) : r = true ∧ AddedTask W s s' L .motion tid p w := by
  unfold addMotionTask at h
  split at h
  · split at h
    · split at h
      · cases h
      · next s1 id ha =>
        obtain ⟨rfl, hp, hqp, hq, e⟩ := addTask_eq ha hi.pre.len
        rw [e] at h
        cases h
        refine ⟨rfl, ?_, ⟨rfl, rfl, rfl, rfl, rfl, rfl, rfl⟩, fun o hk => ?_⟩
        · exact coh_add hc hf hq rfl rfl rfl (by simp) (by simp) rfl rfl
        · apply count_add hk <;> rfl
    · cases h
  · cases h

theorem addForceTask_coh {W : World} {s s' : State K} {L : List (LItem K)} {tid p : Nat} {w dur : K} {r : Bool}
    (hi : Inv W s) (hc : Coh W s L)
    (hf : ∀ tl ∈ s.motions ++ (s.forces ++ s.acts), (W.task tl.tid).name ≠ (W.task tid).name)
    (h : addForceTask W s tid w p dur = .ok s' r) : r = true ∧ AddedTask W s s' L .force tid p w := by
  unfold addForceTask at h
  split at h
  · split at h
    · split at h
      · cases h
      · next s1 id ha =>
        obtain ⟨rfl, hp, hqp, hq, e⟩ := addTask_eq ha hi.pre.len
        rw [e] at h
        cases h
        refine ⟨rfl, ?_, ⟨rfl, rfl, rfl, rfl, rfl, rfl, rfl⟩, fun o hk => ?_⟩
        · exact coh_add hc hf hq rfl rfl (by simp) rfl (by simp) rfl rfl
        · apply count_add hk <;> rfl
    · cases h
  · cases h

theorem addActuationTask_coh {W : World} {s s' : State K} {L : List (LItem K)} {tid p : Nat} {w dur : K} {r : Bool}
    (hi : Inv W s) (hc : Coh W s L)
    (hf : ∀ tl ∈ s.motions ++ (s.forces ++ s.acts), (W.task tl.tid).name ≠ (W.task tid).name)
    (h : addActuationTask W s tid w p dur = .ok s' r) : r = true ∧ AddedTask W s s' L .actuation tid p w := by
  unfold addActuationTask at h
  split at h
  · split at h
    · split at h
      · cases h
      · next s1 id ha =>
        obtain ⟨rfl, hp, hqp, hq, e⟩ := addTask_eq ha hi.pre.len
        rw [e] at h
        cases h
        refine ⟨rfl, ?_, ⟨rfl, rfl, rfl, rfl, rfl, rfl, rfl⟩, fun o hk => ?_⟩
        · exact coh_add hc hf hq rfl rfl (by simp) (by simp) rfl rfl rfl
        · apply count_add hk <;> rfl
    · cases h
  · cases h

theorem addRigidContact_coh {W : World} {s s' : State K} {L : List (LItem K)} {cid p : Nat} {wf wm : K} {r : Bool}
    (hi : Inv W s) (hc : Coh W s L)
    (hf : ∀ cl ∈ s.contacts, (s.contactObj cl.cid).name ≠ (s.contactObj cid).name)
    (h : addRigidContact s cid wf wm p = .ok s' r) :
    r = true ∧ Coh W s' (L ++ [(.contact cid p wm wf, s.next, s.next + 1, s.next + 2)]) ∧ SameRest s s' ∧
    (∀ o, Count o W s L → Count o W s' (L ++ [(.contact cid p wm wf, s.next, s.next + 1, s.next + 2)])) := by
  unfold addRigidContact at h
  dsimp only at h
  split at h
  · cases h
  next h1 hq1 =>
  split at h
  · cases h
  next h2 hq2 =>
  split at h
  · cases h
  next h3 hq3 =>
  have hq1' : pushLevel s.hqp p (wm, s.next) = some h1 := hq1
  have hq2' : pushLevel h1 0 ((1 : K), s.next + 1) = some h2 := hq2
  have hq3' : pushLevel h2 1 (wf, s.next + 2) = some h3 := hq3
  rw [hc.hqp] at hq1'
  obtain ⟨p2, rfl⟩ := push_levels hq1'
  obtain ⟨-, rfl⟩ := push_levels hq2'
  obtain ⟨-, rfl⟩ := push_levels hq3'
  have hrows : (s.contactObj cid).forceIneq.rows = Contact.kindIneqRows (ckinds s cid) := by
    have := hi.pre.shaped cid
    rw [rows_eq (by rw [this.ineqKind]; decide), this.ineqRows]; rfl
  have tn : ∀ f, (L ++ [((.contact cid p wm wf, s.next, s.next + 1, s.next + 2) : LItem K)]).filterMap (taskOf f) =
      L.filterMap (taskOf f) := by
    intro f
    rw [List.filterMap_append]
    exact List.append_nil _
  cases h
  refine ⟨rfl, ?_, ⟨rfl, rfl, rfl, rfl, rfl, rfl, rfl⟩, ?_⟩
  · constructor
    · have : p = 0 ∨ p = 1 := by omega
      rcases this with rfl | rfl
      · simp [ents, resizeHqpData]
      · simp [ents, resizeHqpData]
    · rw [tn]; exact hc.motions
    · rw [tn]; exact hc.forces
    · rw [tn]; exact hc.acts
    · rw [List.filterMap_append, ← hc.contacts]
      simp [contactOf, resizeHqpData, strip]
    · show (List.map (fun x : LItem K => key W (cnames s) x.1) _).Nodup
      rw [List.map_append, List.nodup_append']
      refine ⟨hc.keys, by simp, ?_⟩
      intro k hk hk'
      simp only [List.map_cons, List.map_nil, List.mem_singleton] at hk'
      subst hk'
      obtain ⟨⟨it, a, b, c⟩, hx, e⟩ := List.mem_map.1 hk
      cases it with
      | task _ _ _ _ => simp [key] at e
      | contact cid' p' wm' wf' =>
        simp only [key, Prod.mk.injEq, true_and] at e
        obtain ⟨cl, hcl, rfl, -⟩ := mem_contactOf hc hx
        exact hf cl hcl e
    · intro x hx
      rcases List.mem_append.1 hx with h | h
      · exact hc.levels x h
      · rw [List.mem_singleton] at h
        subst h
        exact p2
  · intro o hk
    have k1 : s.nEq = _ := hk.1
    have k2 : s.nIn = _ := hk.2
    constructor
    · show (if p = 0 then s.nEq + ((s.contactObj cid).nMotion : Int) else s.nEq) =
        (s.nu : Int) + ((List.map (fun x : LItem K => eq0 W (ckinds s) x.1) (L ++ _)).sum : Nat) + o.1
      rw [k1, List.map_append, List.sum_append]
      simp only [List.map_cons, List.map_nil, List.sum_cons, List.sum_nil, eq0]
      split
      · push_cast
        have : (s.contactObj cid).nMotion = Contact.kindMotion (ckinds s cid) := rfl
        rw [this]; ring
      · push_cast; ring
    · show s.nIn + ((s.contactObj cid).forceIneq.rows : Int) =
        ((List.map (fun x : LItem K => in0 W (ckinds s) x.1) (L ++ _)).sum : Nat) + o.2
      rw [k2, List.map_append, List.sum_append, hrows]
      simp only [List.map_cons, List.map_nil, List.sum_cons, List.sum_nil, in0]
      push_cast
      ring

/-! ## Weights -/

/-- Change the item, keep the constraint objects. -/
def onItem (f : Item K → Item K) (x : LItem K) : LItem K := (f x.1, x.2)

theorem coh_weights {W : World} {s : State K} {L : List (LItem K)} {l1 : List (K × Nat)} (f : Item K → Item K)
    (hc : Coh W s L) (h1 : l1 = (L.map (onItem f)).flatMap (ents 1))
    (h0 : ∀ x ∈ L, ents 0 (onItem f x) = ents 0 x)
    (ht : ∀ fam x, taskOf fam (onItem f x) = taskOf fam x) (hcn : ∀ x, contactOf (onItem f x) = contactOf x)
    (hk : ∀ nm it, key W nm (f it) = key W nm it) (hl : ∀ it, itemLevel (f it) = itemLevel it) :
    Coh W { s with hqp := [(1, s.baseId) :: L.flatMap (ents 0), l1] } (L.map (onItem f)) := by
  have tk : ∀ fam, (L.map (onItem f)).filterMap (taskOf fam) = L.filterMap (taskOf fam) := by
    intro fam
    rw [List.filterMap_map]
    exact filterMap_congr_mem fun x _ => ht fam x
  constructor
  · have e0 : (L.map (onItem f)).flatMap (ents 0) = L.flatMap (ents 0) := by
      rw [List.flatMap_map]; exact flatMap_congr_mem h0
    rw [e0, ← h1]
  · rw [tk]; exact hc.motions
  · rw [tk]; exact hc.forces
  · rw [tk]; exact hc.acts
  · show s.contacts.map strip = _
    rw [List.filterMap_map, hc.contacts]
    exact (filterMap_congr_mem fun x _ => hcn x).symm
  · show (List.map (fun x : LItem K => key W (cnames s) x.1) _).Nodup
    rw [List.map_map]
    have : (fun x : LItem K => key W (cnames s) x.1) ∘ onItem f = fun x => key W (cnames s) x.1 := by
      funext x; exact hk _ _
    rw [this]
    exact hc.keys
  · intro x hx
    obtain ⟨y, hy, rfl⟩ := List.mem_map.1 hx
    show itemLevel (f y.1) < 2
    rw [hl]
    exact hc.levels y hy

theorem count_weights {W : World} {s : State K} {L : List (LItem K)} {hqp : List (List (K × Nat))}
    (f : Item K → Item K) (h1 : ∀ it, eq0 W (ckinds s) (f it) = eq0 W (ckinds s) it)
    (h2 : ∀ it, in0 W (ckinds s) (f it) = in0 W (ckinds s) it) {o : Int × Int} (h : Count o W s L) :
    Count o W { s with hqp := hqp } (L.map (onItem f)) := by
  unfold Count at h ⊢
  simp only [List.map_map]
  have e1 : (fun x : LItem K => eq0 W (ckinds { s with hqp := hqp }) x.1) ∘ onItem f =
      fun x => eq0 W (ckinds s) x.1 := by
    funext x; exact h1 _
  have e2 : (fun x : LItem K => in0 W (ckinds { s with hqp := hqp }) x.1) ∘ onItem f =
      fun x => in0 W (ckinds s) x.1 := by
    funext x; exact h2 _
  rw [e1, e2]
  exact h

theorem level1_nodup {W : World} {s : State K} {L : List (LItem K)} (hw : Hygienic W) (hi : Inv W s)
    (hc : Coh W s L) : ((L.flatMap (ents 1)).map (entryName s.heap)).Nodup := by
  have hu := names_nodup hw hi hc
  rw [hc.hqp] at hu
  simp only [List.flatten_cons, List.flatten_nil, List.append_nil, List.map_append] at hu
  exact (List.nodup_append'.1 hu).2.1

theorem updateTaskWeight_coh {W : World} {s s' : State K} {L : List (LItem K)} {n : String} {w : K} {r : Bool}
    (hw : Hygienic W) (hi : Inv W s) (hc : Coh W s L) (h : updateTaskWeight s n w = .ok s' r) :
    Coh W s' (L.map (onItem (Item.setWeight W (cnames s) n w))) ∧ SameRest s s' ∧
    (r = true ↔ ∃ e ∈ L.flatMap (ents 1), (s.heap e.2).name = n) ∧
    (∀ o, Count o W s L → Count o W s' (L.map (onItem (Item.setWeight W (cnames s) n w)))) := by
  have hu1 := level1_nodup hw hi hc
  have hcell := cellNames_of hw hi hc
  unfold updateTaskWeight at h
  rw [hc.hqp] at h
  simp only [setWeightLevels, setWeight_map s.heap n w _ hu1] at h
  have hlev : ∀ x ∈ L, (ents 1 x).map (fun e => if named s.heap n e = true then (w, e.2) else e) =
      ents 1 (onItem (Item.setWeight W (cnames s) n w) x) := by
    rintro ⟨it, a, b, c⟩ hx
    have hn := hcell _ hx
    have hp := hc.levels _ hx
    cases it with
    | task fam tid p w0 =>
      simp only [CellNames] at hn
      simp only [ents, onItem, Item.setWeight, (hw tid).1]
      by_cases hp1 : p = 1
      · by_cases e : (W.task tid).name = n <;> simp [hp1, named, hn, e]
      · simp [hp1]
    | contact cid p wm wf =>
      simp only [CellNames] at hn
      simp only [ents, onItem, Item.setWeight]
      by_cases hp1 : p = 1
      · by_cases e1 : cnames s cid ++ "_motion_task" = n <;>
          by_cases e2 : cnames s cid ++ "_force_reg_task" = n <;> simp [hp1, named, hn, e1, e2]
      · by_cases e2 : cnames s cid ++ "_force_reg_task" = n <;> simp [hp1, named, hn, e2]
  have hh : L.flatMap (fun x => (ents 1 x).map (fun e => if named s.heap n e = true then (w, e.2) else e)) =
      (L.map (onItem (Item.setWeight W (cnames s) n w))).flatMap (ents 1) := by
    rw [List.flatMap_map]
    exact flatMap_congr_mem hlev
  have hmap : (L.flatMap (ents 1)).map (fun e => if named s.heap n e = true then (w, e.2) else e) =
      (L.map (onItem (Item.setWeight W (cnames s) n w))).flatMap (ents 1) := by
    rw [List.map_flatMap]; exact hh
  have hany : (L.flatMap (ents 1)).any (named s.heap n) = true ↔ ∃ e ∈ L.flatMap (ents 1), (s.heap e.2).name = n := by
    rw [List.any_eq_true]
    simp only [named, beq_iff_eq]
  have hsame : (L.flatMap (ents 1)).any (named s.heap n) = false →
      (L.flatMap (ents 1)).map (fun e => if named s.heap n e = true then (w, e.2) else e) = L.flatMap (ents 1) := by
    intro hf
    rw [List.map_congr_left (g := id), List.map_id]
    intro e he
    rw [List.any_eq_false] at hf
    rw [if_neg (hf e he), id]
  have coh := coh_weights (s := s) (Item.setWeight W (cnames s) n w) hc hmap
    (by
      rintro ⟨it, a, b, c⟩ hx
      cases it with
      | task fam tid p w0 =>
        by_cases hp : p = 0 <;> simp [ents, onItem, Item.setWeight, hp]
      | contact cid p wm wf =>
        by_cases hp : p = 0 <;> simp [ents, onItem, Item.setWeight, hp])
    (by rintro fam ⟨it, a, b, c⟩; cases it <;> rfl) (by rintro ⟨it, a, b, c⟩; cases it <;> rfl)
    (by intro nm it; cases it <;> rfl) (by intro it; cases it <;> rfl)
  have cnt : ∀ hqp o, Count o W s L → Count o W { s with hqp := hqp } (L.map (onItem (Item.setWeight W (cnames s) n w))) :=
    fun hqp o => count_weights _ (by intro it; cases it <;> rfl) (by intro it; cases it <;> rfl)
  split at h
  · next ht =>
    cases h
    exact ⟨coh, ⟨rfl, rfl, rfl, rfl, rfl, rfl, rfl⟩, by simpa using hany.1 ht, cnt _⟩
  · next hf =>
    rw [Bool.not_eq_true] at hf
    rw [hsame hf] at coh
    cases h
    refine ⟨coh, ⟨rfl, rfl, rfl, rfl, rfl, rfl, rfl⟩, ?_, cnt _⟩
    constructor
    · intro e; cases e
    · intro hex
      rw [hany.2 hex] at hf; cases hf

theorem updateRigidContactWeights_coh {W : World} {s s' : State K} {L : List (LItem K)} {n : String} {wf wm : K}
    {r : Bool} (hw : Hygienic W) (hi : Inv W s) (hc : Coh W s L)
    (h : updateRigidContactWeights s n wf wm = .ok s' r) :
    Coh W s' (L.map (onItem (Item.setContactWeights (cnames s) n wf wm))) ∧ SameRest s s' ∧
    (r = true ↔ ∃ cid p wm0 wf0 i, (Item.contact cid p wm0 wf0, i) ∈ L ∧ cnames s cid = n ∧ (wm < 0 ∨ p ≠ 0)) ∧
    (∀ o, Count o W s L → Count o W s' (L.map (onItem (Item.setContactWeights (cnames s) n wf wm)))) := by
  have hu1 := level1_nodup hw hi hc
  have hcell := cellNames_of hw hi hc
  unfold updateRigidContactWeights at h
  rw [hc.hqp] at h
  obtain ⟨g1, g2⟩ := scanLevel_map s.heap n wf wm (L.flatMap (ents 1)) false false hu1 (fun e => by cases e)
    (fun e => by cases e)
  have hlev : ∀ x ∈ L, (ents 1 x).map (scanEntry s.heap n wf wm) =
      ents 1 (onItem (Item.setContactWeights (cnames s) n wf wm) x) := by
    rintro ⟨it, a, b, c⟩ hx
    have hn := hcell _ hx
    cases it with
    | task fam tid p w0 =>
      simp only [CellNames] at hn
      have hres := (hw tid).2
      unfold Reserved at hres
      push Not at hres
      have hr := hres.2 n
      simp only [ents, onItem, Item.setContactWeights]
      by_cases hp1 : p = 1 <;> simp [hp1, scanEntry, named, hn, hr]
    | contact cid p wm0 wf0 =>
      simp only [CellNames] at hn
      simp only [ents, onItem, Item.setContactWeights]
      by_cases e : cnames s cid = n
      · subst e
        have m := motion_ne_reg (cnames s cid) (cnames s cid)
        by_cases hp1 : p = 1
        · by_cases hwf : 0 ≤ wf <;> by_cases hwm : 0 ≤ wm <;> simp [hp1, scanEntry, named, hn, m, hwf, hwm]
        · by_cases hwf : 0 ≤ wf <;> simp [hp1, scanEntry, named, hn, hwf]
      · have e1 : ∀ s', cnames s cid ++ s' ≠ n ++ s' := fun s' h => e (suffix_inj h)
        have m1 := motion_ne_reg (cnames s cid) n
        have m2 := (motion_ne_reg n (cnames s cid)).symm
        by_cases hp1 : p = 1 <;> simp [hp1, scanEntry, named, hn, e, e1, m1, m2]
  have hmap : (L.flatMap (ents 1)).map (scanEntry s.heap n wf wm) =
      (L.map (onItem (Item.setContactWeights (cnames s) n wf wm))).flatMap (ents 1) := by
    rw [List.map_flatMap, List.flatMap_map]
    exact flatMap_congr_mem hlev
  have anyr : ∀ m, (L.flatMap (ents 1)).any (named s.heap m) = true ↔
      ∃ x ∈ L, ∃ e ∈ ents 1 x, (s.heap e.2).name = m := by
    intro m
    rw [List.any_eq_true]
    simp only [named, beq_iff_eq, List.mem_flatMap]
    constructor
    · rintro ⟨e, ⟨x, hx, he⟩, hm⟩; exact ⟨x, hx, e, he, hm⟩
    · rintro ⟨x, hx, e, he, hm⟩; exact ⟨e, ⟨x, hx, he⟩, hm⟩
  have hreg : (L.flatMap (ents 1)).any (named s.heap (n ++ "_force_reg_task")) = true ↔
      ∃ cid p wm0 wf0 i, (Item.contact cid p wm0 wf0, i) ∈ L ∧ cnames s cid = n := by
    rw [anyr]
    constructor
    · rintro ⟨⟨it, a, b, c⟩, hx, e, he, hm⟩
      have hn := hcell _ hx
      cases it with
      | task fam tid p w0 =>
        simp only [CellNames] at hn
        have hres := (hw tid).2
        unfold Reserved at hres
        push Not at hres
        simp only [ents, List.mem_ite_nil_right, List.mem_singleton] at he
        obtain ⟨-, rfl⟩ := he
        rw [hn] at hm
        exact absurd hm (hres.2 n).2.2
      | contact cid p wm0 wf0 =>
        refine ⟨cid, p, wm0, wf0, _, hx, ?_⟩
        simp only [CellNames] at hn
        simp only [ents, List.mem_append, List.mem_ite_nil_right, List.mem_singleton] at he
        rcases he with (⟨_, rfl⟩ | ⟨h0, rfl⟩) | ⟨_, rfl⟩
        · rw [hn.1] at hm; exact absurd hm (motion_ne_reg _ _)
        · exact absurd h0 (by decide)
        · rw [hn.2.2] at hm; exact suffix_inj hm
    · rintro ⟨cid, p, wm0, wf0, ⟨a, b, c⟩, hx, rfl⟩
      have hn := hcell _ hx
      simp only [CellNames] at hn
      exact ⟨_, hx, (wf0, c), by simp [ents], hn.2.2⟩
  have hmot : (L.flatMap (ents 1)).any (named s.heap (n ++ "_motion_task")) = true ↔
      ∃ cid p wm0 wf0 i, (Item.contact cid p wm0 wf0, i) ∈ L ∧ cnames s cid = n ∧ p ≠ 0 := by
    rw [anyr]
    constructor
    · rintro ⟨⟨it, a, b, c⟩, hx, e, he, hm⟩
      have hn := hcell _ hx
      cases it with
      | task fam tid p w0 =>
        simp only [CellNames] at hn
        have hres := (hw tid).2
        unfold Reserved at hres
        push Not at hres
        simp only [ents, List.mem_ite_nil_right, List.mem_singleton] at he
        obtain ⟨-, rfl⟩ := he
        rw [hn] at hm
        exact absurd hm (hres.2 n).1
      | contact cid p wm0 wf0 =>
        simp only [CellNames] at hn
        simp only [ents, List.mem_append, List.mem_ite_nil_right, List.mem_singleton] at he
        rcases he with (⟨hp, rfl⟩ | ⟨h0, rfl⟩) | ⟨_, rfl⟩
        · rw [hn.1] at hm
          exact ⟨cid, p, wm0, wf0, _, hx, suffix_inj hm, by omega⟩
        · exact absurd h0 (by decide)
        · rw [hn.2.2] at hm; exact absurd hm.symm (motion_ne_reg _ _)
    · rintro ⟨cid, p, wm0, wf0, ⟨a, b, c⟩, hx, rfl, hp⟩
      have hn := hcell _ hx
      have hl := hc.levels _ hx
      simp only [itemLevel] at hl
      simp only [CellNames] at hn
      have hp1 : p = 1 := by omega
      exact ⟨_, hx, (wm0, a), by simp [ents, hp1], hn.1⟩
  have coh := coh_weights (s := s) (Item.setContactWeights (cnames s) n wf wm) hc hmap
    (by
      rintro ⟨it, a, b, c⟩ hx
      cases it with
      | task fam tid p w0 => rfl
      | contact cid p wm wf =>
        by_cases hp : p = 0 <;> simp [ents, onItem, Item.setContactWeights, hp])
    (by rintro fam ⟨it, a, b, c⟩; cases it <;> rfl) (by rintro ⟨it, a, b, c⟩; cases it <;> rfl)
    (by intro nm it; cases it <;> rfl) (by intro it; cases it <;> rfl)
  have cnt : ∀ hqp o, Count o W s L →
      Count o W { s with hqp := hqp } (L.map (onItem (Item.setContactWeights (cnames s) n wf wm))) :=
    fun hqp o => count_weights _ (by intro it; cases it <;> rfl) (by intro it; cases it <;> rfl)
  have hret : ((scanLevel s.heap n wf wm (L.flatMap (ents 1)) false false).returned = true) ↔
      ∃ cid p wm0 wf0 i, (Item.contact cid p wm0 wf0, i) ∈ L ∧ cnames s cid = n ∧ (wm < 0 ∨ p ≠ 0) := by
    rw [g2, hreg, hmot]
    constructor
    · rintro (⟨⟨cid, p, wm0, wf0, i, hx, hn⟩, h | h | ⟨cid', p', wm', wf', i', hx', hn', hp'⟩⟩ | ⟨_, h⟩)
      · cases h
      · exact ⟨cid, p, wm0, wf0, i, hx, hn, Or.inl h⟩
      · exact ⟨cid', p', wm', wf', i', hx', hn', Or.inr hp'⟩
      · cases h
    · rintro ⟨cid, p, wm0, wf0, i, hx, hn, h | h⟩
      · exact Or.inl ⟨⟨cid, p, wm0, wf0, i, hx, hn⟩, Or.inr (Or.inl h)⟩
      · exact Or.inl ⟨⟨cid, p, wm0, wf0, i, hx, hn⟩, Or.inr (Or.inr ⟨cid, p, wm0, wf0, i, hx, hn, h⟩)⟩
  simp only [scanLevels] at h
  split at h
  · next ht =>
    rw [g1] at h
    cases h
    exact ⟨coh, ⟨rfl, rfl, rfl, rfl, rfl, rfl, rfl⟩, by simpa using hret.1 ht, cnt _⟩
  · next hf =>
    rw [g1] at h
    cases h
    refine ⟨coh, ⟨rfl, rfl, rfl, rfl, rfl, rfl, rfl⟩, ?_, cnt _⟩
    constructor
    · intro e; cases e
    · intro hex
      exact absurd (hret.2 hex) hf

end Tsid.Formulation
