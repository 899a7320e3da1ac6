import Verif.Lemmas.ProgramText
import Verif.Props.LimitsKept
import Verif.Lemmas.Convex

/-!
# C99: the solution is determined by the text of the program
-/

set_option linter.unusedSectionVars false

namespace Tsid.Props

open Spec Formulation Finset

variable {K : Type} [Field K] [LinearOrder K] [IsStrictOrderedRing K] [FloorRing K] [HasSqrt K] [LawfulSqrt K]

/-! ## What is known after a cycle -/

/-- What is decoded from a vector. -/
structure Reads (S : Setup K) (s : Program.State K) (x : Vec K) (d : Decoded K) : Prop where
  dvSize : d.dv.size = S.robot.nv
  dv : ∀ i, d.dv i = x i
  f : ∀ i, d.f i = x (S.robot.nv + i)
  tauSize : d.tau.size = S.robot.na
  ofSize : ∀ cl ∈ s.form.contacts, (d.of (S.obj cl.cid).name).size = Contact.kindForce (S.obj cl.cid).kind
  of : ∀ cl ∈ s.form.contacts, ∀ i, d.of (S.obj cl.cid).name i = x (S.robot.nv + cl.index + i)

/-- What is known after a cycle. -/
structure Facts (E : Program.Env K) (W : World) (S : Setup K) (ops : List (Program.Op K)) (w : Snapshot K) (t : K)
    (s : Program.State K) : Prop where
  nVar : nVar s.form = S.robot.nv + s.form.k
  cids : S.cids E W ops t = s.form.contacts.map ContactLevel.cid
  names : ∀ c, (s.form.contactObj c).name = (S.obj c).name
  kinds : ∀ c, (s.form.contactObj c).kind = (S.obj c).kind
  tiled : Tiled s.form.contactObj 0 s.form.contacts s.form.k
  decode : ∀ x : Vec K, x.size = Formulation.nVar s.form → ∃ d : Decoded K,
    d.From s.form x ((S.cids E W ops t).map fun c => (S.obj c).name) ∧ Reads S s x d ∧
    ∀ i, S.robot.nv - S.robot.na ≤ i → i < S.robot.nv →
      (∑ j ∈ range S.robot.nv, S.robot.mass w.M i j * d.dv j) + w.nle i = d.tau (i - (S.robot.nv - S.robot.na)) +
        contactTerms ((S.cids E W ops t).map fun c => ((s.motion c).con.mat, (s.form.contactObj c).forceGen)) 0 d.f i +
        (((S.registry E W ops t).measured.map fun m => (s.measured m).tau).map fun t => t i).sum
  contact : ∀ c ∈ S.cids E W ops t, FitsOn .equality (nWrench (S.obj c).kind) S.robot.nv (s.motion c).con ∧
    (S.cdecl c).Moves E w (contactCalls c ops) (s.motion c).con.mat ∧
    ∀ y, sqResidual (s.motion c).con y = (S.cdecl c).Error E w (contactCalls c ops) y
  measured : ∀ m ∈ (S.registry E W ops t).measured,
    (S.mdecl m).Contributes S.robot.nv w (measuredCalls m ops) (s.measured m).tau
  family : ∀ fam tid p k, .task fam tid p k ∈ (S.registry E W ops t).items →
    (fam = .force ↔ S.decl tid = .cop ∨ ∃ dt c n, S.decl tid = .force dt c n)
  task : ∀ fam tid p k, .task fam tid p k ∈ (S.registry E W ops t).items → ∃ n r,
    (fam = .motion → n = S.robot.nv) ∧ (fam = .actuation → n = S.robot.na) ∧ FitsOn (S.decl tid).kind r n (s.task tid).con ∧
    ((S.decl tid).Upright w → ∀ y, Sat (s.task tid).con y ↔ (S.decl tid).Asks E (ctx E w s.form) (taskCalls tid ops)
        (history E S.start ops tid) (s.task tid) y) ∧
    ((S.decl tid).kind = .equality → ∀ y, sqResidual (s.task tid).con y =
      (S.decl tid).Error E (ctx E w s.form) (taskCalls tid ops) (history E S.start ops tid) y)

theorem facts {E : Program.Env K} {W : World} {S : Setup K} {ops : List (Program.Op K)} {s0 s : Program.State K}
    (h : GoodProgram E W S ops s0) {w : Snapshot K} {t : K} (hw : SnapshotOk E.robot.nv w)
    (hm : MayCycle E W S ops w t) (hc : Program.compute E w t s0 = .ok s ()) : Facts E W S ops w t s := by
  obtain ⟨ht, hno⟩ := program_tidy h
  have hform := Program.compute_form hc
  obtain ⟨f, s1, f', hf, hs, ha, rfl⟩ := Program.compute_ok hc
  obtain ⟨ta, mo, me, hs', -, hfits⟩ := program_fits h hw hm hf
  have hcy : cycleOf E w t s0 = Program.cycle w s1 := by simp only [cycleOf, hf, hs]
  obtain ⟨-, hmot, hmea, htask⟩ := Program.computeObjects_some hs
  rw [hs] at hs'
  cases hs'
  rw [hcy] at hform
  have hre : Reachable E.ndebug W s0.form :=
    ⟨S.robot, S.obj, fun tid => (S.task tid).assoc, _, ht.motors, ht.built, ht.run⟩
  obtain ⟨hrob, hnv, hnu, hasc, hmeas, hnames, hkinds, hnd, L, hcoh, hitems⟩ := cycle_end ht hform
  have hsz : CycleSizes f'.nv (Program.cycle w ⟨f, ta, mo, me⟩) := by
    rw [hnv, ← h.nv]; exact ⟨hw.mRows, hw.mCols, hw.nle⟩
  obtain ⟨q1, q2, q3, q4, q5⟩ := assemble_lists ha
  obtain ⟨hinv, -, L0, hL0, -⟩ := tidy_impl ht
  obtain ⟨hi1, -, -, -, e3, -⟩ := transitions_impl ht.hygienic hinv hL0 hf
  have fnv : f.nv = S.robot.nv := by rw [← hi1.pre.rnv, e3, run_robot _ _ _ ht.run]; rfl
  have fna : f.nv - f.nu = S.robot.na := by rw [← hi1.pre.rna, e3, run_robot _ _ _ ht.run]; rfl
  obtain ⟨s2, hi2, -, ha2, hA, hinvs, -⟩ := compute_spec hinv hform
  have hitems' : (S.registry E W ops t).items = L.map Prod.fst := hitems.symm
  have hmeas' : (S.registry E W ops t).measured =
      (registrations E.ndebug W S.robot S.obj (fun tid => (S.task tid).assoc) (formCalls E S.start ops)).measured := by
    unfold Setup.registry Registry.expire
    split <;> rfl
  have hctx : ctx E w f' = ctx E w f := by simp only [ctx, q2, q3]
  have hR : RobotOk E.robot := ⟨by rw [h.nv, h.na]; exact h.motors, h.nqa, h.difference⟩
  have hnodup : (computed f).Nodup := by rw [← q1]; exact computed_nodup hcoh
  have hcids : (S.registry E W ops t).items.filterMap Item.cid? = f'.contacts.map ContactLevel.cid := by
    rw [hitems']; exact contact_cids hcoh
  have hcnd : (f.contacts.map ContactLevel.cid).Nodup := by rw [← q2]; exact contact_cids_nodup hcoh
  have hforce : ∀ c, Contact.kindForce (S.obj c).kind = (f'.contactObj c).nForce := fun c => by
    unfold Contact.nForce; rw [hkinds]
  have hna : f'.nv - f'.nu = S.robot.na := by
    rw [hnv, hnu]; have := ht.motors; omega
  refine ⟨?_, hcids, hnames, hkinds, hinvs.tiled, ?_, ?_, ?_, ?_, ?_⟩
  · show f'.nv + f'.k = _
    rw [hnv]
  · intro x hx
    obtain ⟨s', hdec⟩ := decode_spec hi2 ha2 hsz x hx
    have hof : ∀ cl ∈ f'.contacts, ∃ fc, (getContactForcesOf f' (S.obj cl.cid).name x).val? = some fc ∧
        fc.size = (f'.contactObj cl.cid).nForce ∧ ∀ i, fc i = x (f'.nv + cl.index + i) := by
      intro cl hcl
      have := contactForces_val hi2 hA hdec (S.obj cl.cid).name (cl := cl) (by
        rw [← hnames]; exact find_contact hnd hcl)
      exact this
    refine ⟨⟨s'.dv, s'.f, s'.tau, fun n => ((getContactForcesOf f' n x).val?).getD (Vec.zero 0)⟩, ⟨?_, ?_, ?_, ?_⟩,
      ⟨hdec.dvSize.trans hnv, hdec.dv, fun i => by rw [← hnv]; exact hdec.f i, hdec.tauSize.trans hna, ?_, ?_⟩, ?_⟩
    · simp [getAccelerations, hdec.run, Res.val?]
    · simp [getContactForces, hdec.run, Res.val?]
    · simp [getActuatorForces, hdec.run, Res.val?]
    · intro n hn
      have hn : n ∈ ((S.registry E W ops t).items.filterMap Item.cid?).map fun c => (S.obj c).name := hn
      rw [hcids, List.map_map] at hn
      obtain ⟨cl, hcl, rfl⟩ := List.mem_map.1 hn
      obtain ⟨fc, a1, -⟩ := hof cl hcl
      show (getContactForcesOf f' (S.obj cl.cid).name x).val? =
        some (((getContactForcesOf f' (S.obj cl.cid).name x).val?).getD (Vec.zero 0))
      rw [a1]
      rfl
    · intro cl hcl
      obtain ⟨fc, a1, a2, -⟩ := hof cl hcl
      dsimp only
      rw [a1, hforce]
      exact a2
    · intro cl hcl i
      obtain ⟨fc, a1, -, a3⟩ := hof cl hcl
      dsimp only
      rw [a1, ← hnv]
      exact a3 i
    · intro i hi1 hi2
      have e := hdec.tau (i - (S.robot.nv - S.robot.na))
      rw [hnu, hnv, hrob, hmeas, show S.robot.nv - S.robot.na + (i - (S.robot.nv - S.robot.na)) = i by omega] at e
      have hfo : (fun j => x (S.robot.nv + j)) = s'.f.get := by
        funext j; rw [← hnv]; exact (hdec.f j).symm
      have hdv : ∀ j, s'.dv j = x j := hdec.dv
      rw [hfo] at e
      dsimp only
      rw [e]
      simp only [hdv]
      have e1 : (S.cids E W ops t).map (fun c => ((mo c).con.mat, (f'.contactObj c).forceGen)) =
          f'.contacts.map fun cl => ((mo cl.cid).con.mat, (f'.contactObj cl.cid).forceGen) := by
        rw [show S.cids E W ops t = _ from hcids, List.map_map]
        rfl
      rw [e1, hmeas']
      simp only [Program.cycle]
      ring
  · intro c hcc
    have hcc : c ∈ (S.registry E W ops t).items.filterMap Item.cid? := hcc
    have hmem : c ∈ f.contacts.map ContactLevel.cid := by rw [← q2, ← hcids]; exact hcc
    obtain ⟨it, hit, hci⟩ := List.mem_filterMap.1 hcc
    have hfit := hfits it hit
    cases it with
    | task => cases hci
    | contact cid p wm wf =>
      cases hci
      obtain ⟨l, r1, r2, r3⟩ := Program.run_motion h.run c
      have hb := h.builtContact c
      rw [← h.nv] at hb
      obtain ⟨-, k2⟩ := contact_error hb r1 (h.contactArgs c) r2 r3 hw (each_once hmot hcnd hmem)
      obtain ⟨-, k3, -⟩ := contact_demands hb r1 (h.contactArgs c) r2 r3 hw (each_once hmot hcnd hmem)
      refine ⟨?_, k3, k2⟩
      have hfit : FitsOn .equality (f.contactObj c).nMotion f.nv (mo c).con := hfit
      rw [fnv] at hfit
      have e2 : (f.contactObj c).nMotion = nWrench (S.obj c).kind := by
        unfold Contact.nMotion
        rw [← hkinds, q3]
        cases (f.contactObj c).kind <;> rfl
      rw [e2] at hfit
      exact hfit
  · intro m hmm
    rw [hmeas', ← hmeas, q4] at hmm
    have e := Program.iter_measured _ _ _ (each_iter hmea m)
    obtain ⟨n, hn⟩ : ∃ n, f.measured.count m = n + 1 :=
      ⟨f.measured.count m - 1, by have := List.count_pos_iff.2 hmm; omega⟩
    rw [hn] at e
    have e : me m = _ := e
    show (S.mdecl m).Contributes S.robot.nv w (measuredCalls m ops) (me m).tau
    rw [e]
    exact measured_contributes (s := S.start) (h.builtMeasured m) h.run n
  · intro fam tid p k hin
    have hcl := Program.registered_class h.run hin
    have hb := h.built tid
    obtain ⟨g1, g2, g3⟩ := cols_family (ctx E w f) (taskCalls tid ops) hb
    constructor
    · rintro rfl
      rcases g3 hcl with ⟨hd, -⟩ | ⟨dt, c, n, hd, -⟩
      · exact .inl hd
      · exact .inr ⟨dt, c, n, hd⟩
    · intro hd
      have : (S.task tid).isForce = true ∧ (S.task tid).isMotion = false ∧ (S.task tid).isActuation = false := by
        rcases hd with hd | ⟨dt, c, n, hd⟩ <;> rw [hd] at hb <;> simp only [TaskDecl.Built] at hb <;> rw [hb] <;>
          exact ⟨rfl, rfl, rfl⟩
      cases fam with
      | force => rfl
      | motion => rw [show (S.task tid).isMotion = true from hcl] at this; cases this.2.1
      | actuation => rw [show (S.task tid).isActuation = true from hcl] at this; cases this.2.2
  · intro fam tid p k hin
    have hcl := Program.registered_class h.run hin
    have hb := h.built tid
    have hfit := hfits _ hin
    obtain ⟨k1, k2⟩ := hm.announced fam tid p k hin
    have hmem : tid ∈ computed f := by rw [← q1]; exact mem_computed hcoh (hitems' ▸ hin)
    have hst : Stacked 0 (ctx E w f').cop := stacked_of_tiled _ _ _ _ _ hinvs.tiled
    have hcc : (s0.task tid).compute E (ctx E w f') = some (ta tid) := by
      rw [hctx]; exact each_once htask hnodup hmem
    have hsame : SameText (taskCalls tid ops) (history E S.start ops tid) :=
      fun σ F hF p => Program.fold_history hF h.run p
    have hnm : ∀ dt contact cname, S.decl tid = .force dt contact cname →
        lastName ((taskCalls tid ops).filterMap force?) cname ≠ "" ∧
        lastName ((taskCalls tid ops).filterMap force?) cname ∈ (ctx E w f').names := by
      intro dt c n hd
      have hsup := hm.supported _ _ _ _ hin
      rw [hd] at hsup
      obtain ⟨hn, hcid, hcn, -, -⟩ := hsup
      rw [hcids] at hcid
      obtain ⟨cl, hcl', e0⟩ := List.mem_map.1 hcid
      refine ⟨hn, ?_⟩
      rw [← hcn, ← hnames, ← e0]
      exact List.mem_map.2 ⟨cl, hcl', rfl⟩
    have hex : ∃ n, (fam = .motion → n = S.robot.nv) ∧ (fam = .actuation → n = S.robot.na) ∧
        FitsOn (S.decl tid).kind (W.task tid).rows n (ta tid).con := by
      rw [← k1]
      cases fam with
      | motion => exact ⟨f.nv, fun _ => fnv, fun e => (by cases e), hfit⟩
      | actuation => exact ⟨_, fun e => (by cases e), fun _ => fna, hfit⟩
      | force =>
        rcases hfit with ⟨-, hfit⟩ | ⟨-, c, -, -, hfit⟩
        · exact ⟨_, fun e => (by cases e), fun e => (by cases e), hfit⟩
        · exact ⟨_, fun e => (by cases e), fun e => (by cases e), hfit⟩
    obtain ⟨n, n1, n2, n3⟩ := hex
    refine ⟨n, _, n1, n2, n3, fun hup => ?_, fun hk => ?_⟩
    · exact task_asks hR hb (Program.run_task h.run tid) (history_good h tid) hsame (x := ctx E w f') hw hst hnm hcc hup
    · exact (task_error hR hb (Program.run_task h.run tid) (history_good h tid) hsame (x := ctx E w f') hw hst hnm hcc
        hk).2

/-! ## What is decoded and what the text says -/

/-- The behaviour and what is decoded agree. -/
structure Agrees (S : Setup K) (s : Program.State K) (b : Behaviour K) (d : Decoded K) : Prop where
  dv : ∀ i, i < S.robot.nv → d.dv i = b.dv i
  tau : ∀ i, i < S.robot.na → d.tau i = b.tau i
  of : ∀ cl ∈ s.form.contacts, ∀ i, i < Contact.kindForce (S.obj cl.cid).kind →
    d.of (S.obj cl.cid).name i = b.force cl.cid i
  f : ∀ cl ∈ s.form.contacts, ∀ i, i < Contact.kindForce (S.obj cl.cid).kind → d.f (cl.index + i) = b.force cl.cid i

section

variable {E : Program.Env K} {W : World} {S : Setup K} {ops : List (Program.Op K)} {w : Snapshot K} {t : K}
  {s : Program.State K} {x : Vec K} {d : Decoded K} {b : Behaviour K}

theorem agrees_of (F : Facts E W S ops w t s)
    (hd : d.From s.form x ((S.cids E W ops t).map fun c => (S.obj c).name)) (hr : Reads S s x d)
    (hb : b.Decodes E W S ops t s.form x) : Agrees S s b d := by
  obtain ⟨⟨y1, a1, -, a2⟩, ⟨y2, b1, -, b2⟩, hf⟩ := hb
  rw [hd.dv] at a1
  rw [hd.tau] at b1
  cases a1
  cases b1
  have hof : ∀ cl ∈ s.form.contacts, ∀ i, i < Contact.kindForce (S.obj cl.cid).kind →
      d.of (S.obj cl.cid).name i = b.force cl.cid i := by
    intro cl hcl i hi
    have hm : cl.cid ∈ S.cids E W ops t := by rw [F.cids]; exact List.mem_map_of_mem hcl
    obtain ⟨y, c1, -, c2⟩ := hf _ hm
    rw [hd.of _ (List.mem_map.2 ⟨_, hm, rfl⟩)] at c1
    cases c1
    exact c2 i hi
  refine ⟨a2, b2, hof, fun cl hcl i hi => ?_⟩
  rw [← hof cl hcl i hi, hr.of cl hcl, hr.f, Nat.add_assoc]

/-- Contacts, one by one. -/
theorem cids_sum (F : Facts E W S ops w t s) (g : Nat → K) :
    ((S.cids E W ops t).map g).sum = (s.form.contacts.map fun cl => g cl.cid).sum := by
  rw [F.cids, List.map_map]
  rfl

theorem moves_velocity {J : Mat K} {c : ContactDecl} {calls : List (ContactCall K)} (hk : J.cols = E.robot.nv)
    (h : c.Moves E w calls J) (v : Nat → K) {i : Nat} (hi : i < nWrench c.kind) :
    ∑ j ∈ range E.robot.nv, J i j * v j = c.velocity E w calls v i := by
  have hrow : ∑ j ∈ range E.robot.nv, J i j * v j = row J v i := by unfold row; rw [hk]
  rw [hrow]
  cases c with
  | point fr => exact h.2.2 i hi v
  | sixD fr => exact h.2.2 i hi v
  | pair f1 f2 => exact h.2.2 i hi v

theorem contributes_power {nv : Nat} {τ : Vec K} {m : MeasuredDecl} {calls : List (MeasuredCall K)}
    (h : m.Contributes nv w calls τ) (v : Nat → K) : ∑ i ∈ range nv, τ i * v i = m.power nv w calls v := by
  cases m with
  | wrench fr supp => exact h.2 v
  | force fr supp => exact h.2 v

/-- The equations of motion, or the balance of powers for every velocity. -/
theorem balanced_iff (F : Facts E W S ops w t s) (hnv : E.robot.nv = S.robot.nv) (hna : S.robot.na ≤ S.robot.nv)
    (hcl : ∀ cid, (S.cdecl cid).kind = (S.obj cid).kind)
    (hg : ∀ cid, HasReg (s.form.contactObj cid) (S.obj cid).kind (S.regOf ops cid)) (ha : Agrees S s b d) :
    EquationsOfMotion S.robot.nv (S.robot.nv - S.robot.na) (S.robot.mass w.M) w.nle
      ((S.cids E W ops t).map fun c => ((s.motion c).con.mat, (s.form.contactObj c).forceGen))
      ((S.registry E W ops t).measured.map fun m => (s.measured m).tau) d.dv d.f d.tau ↔ S.Balanced E W ops w t b := by
  unfold EquationsOfMotion Setup.Balanced
  rw [all_velocities]
  refine forall_congr' fun v => ?_
  have hl : ∑ i ∈ range S.robot.nv, ((∑ j ∈ range S.robot.nv, S.robot.mass w.M i j * d.dv j) + w.nle i) * v i =
      ∑ i ∈ range S.robot.nv, ((∑ j ∈ range S.robot.nv, S.robot.mass w.M i j * b.dv j) + w.nle i) * v i := by
    refine sum_congr rfl fun i _ => ?_
    congr 2
    exact sum_congr rfl fun j hj => by rw [ha.dv j (mem_range.1 hj)]
  rw [hl]
  simp only [add_mul, sum_add_distrib]
  rw [motor_power (by omega : S.robot.nv - S.robot.na + S.robot.na = S.robot.nv), torque_power,
    show (S.cids E W ops t).map (fun c => ((s.motion c).con.mat, (s.form.contactObj c).forceGen)) =
      s.form.contacts.map fun cl => ((s.motion cl.cid).con.mat, (s.form.contactObj cl.cid).forceGen) by
      rw [F.cids, List.map_map]; rfl,
    contacts_power (obj := s.form.contactObj) (fun c => (s.motion c).con.mat) (fun c => (s.form.contactObj c).forceGen)
      _ _ _ _ _ _ F.tiled (fun cl _ => by
        rw [(gen_wrench (hg cl.cid)).2.1]; unfold Contact.nForce; rw [F.kinds]), cids_sum F, List.map_map]
  have h1 : ∑ i ∈ range S.robot.na, d.tau i * v (S.robot.nv - S.robot.na + i) =
      ∑ i ∈ range S.robot.na, b.tau i * v (S.robot.nv - S.robot.na + i) :=
    sum_congr rfl fun i hi => by rw [ha.tau i (mem_range.1 hi)]
  have h2 : (s.form.contacts.map fun cl => ∑ r ∈ range (s.motion cl.cid).con.mat.rows,
      (∑ c ∈ range (s.form.contactObj cl.cid).forceGen.cols, (s.form.contactObj cl.cid).forceGen r c * d.f (cl.index + c)) *
        ∑ i ∈ range S.robot.nv, (s.motion cl.cid).con.mat r i * v i) =
      s.form.contacts.map fun cl => ∑ i ∈ range (nWrench (S.obj cl.cid).kind),
        S.wrenchOf ops b cl.cid i * (S.cdecl cl.cid).velocity E w (contactCalls cl.cid ops) v i := by
    refine List.map_congr_left fun cl hcl' => ?_
    obtain ⟨k1, k2, -⟩ := F.contact cl.cid (by rw [F.cids]; exact List.mem_map_of_mem hcl')
    obtain ⟨-, -, g3⟩ := gen_wrench (hg cl.cid)
    rw [k1.2.2.1]
    refine sum_congr rfl fun i hi => ?_
    rw [← hnv, moves_velocity (k1.2.2.2.trans hnv.symm) k2 v (by rw [hcl]; exact mem_range.1 hi),
      g3 (fun j => d.f (cl.index + j)) i (mem_range.1 hi)]
    congr 1
    exact wrench_congr (fun j hj => ha.f cl hcl' j hj) _ _
  have h3 : ((S.registry E W ops t).measured.map
      ((fun t : Vec K => ∑ i ∈ range S.robot.nv, t i * v i) ∘ fun m => (s.measured m).tau)) =
      (S.registry E W ops t).measured.map fun m => (S.mdecl m).power S.robot.nv w (measuredCalls m ops) v :=
    List.map_congr_left fun m hm => contributes_power (F.measured m hm) v
  rw [h1, h2, h3]

/-! ## Tasks -/

theorem error_alone {f : Tsid.State K} {td : TaskDecl K} {calls hist : List (TaskCall K)} {y : Nat → K}
    (h1 : td ≠ .cop) (h2 : ∀ dt c n, td ≠ .force dt c n) :
    td.Error E (ctx E w f) calls hist y = td.Error E (alone S w) calls [] y := by
  cases td <;> first | rfl | exact (h1 rfl).elim | exact (h2 _ _ _ rfl).elim

theorem miss_alone {fam : Family} {tid : Nat} (h1 : S.decl tid ≠ .cop) (h2 : ∀ dt c n, S.decl tid ≠ .force dt c n) :
    S.miss E W ops w t b fam tid = (S.decl tid).Error E (alone S w) (taskCalls tid ops) [] (b.part fam) := by
  unfold Setup.miss
  split
  · next e => exact (h2 _ _ _ e).elim
  · next e => exact (h1 e).elim
  · rfl

/-- The error of a registered task. -/
theorem miss_eq (F : Facts E W S ops w t s) (hm : MayCycle E W S ops w t)
    (hg : ∀ cid, HasReg (s.form.contactObj cid) (S.obj cid).kind (S.regOf ops cid)) (ha : Agrees S s b d)
    {fam : Family} {tid p : Nat} {k : K} (hin : .task fam tid p k ∈ (S.registry E W ops t).items)
    (hk : (S.decl tid).kind = .equality) :
    (S.decl tid).Error E (ctx E w s.form) (taskCalls tid ops) (history E S.start ops tid) (S.read ops d fam tid) =
      S.miss E W ops w t b fam tid := by
  have hfam := F.family fam tid p k hin
  by_cases hf : fam = .force
  · subst hf
    rcases hfam.1 rfl with hd | ⟨dt, c, n, hd⟩
    · simp only [Setup.read, Setup.miss, hd, TaskDecl.Error]
      refine sum_congr rfl fun i _ => ?_
      congr 1
      unfold Setup.pressureMoment
      dsimp only
      rw [cids_sum F]
      have := stacked_pressures (obj := s.form.contactObj) (fun c => (w.frame (E.contactFrame c)).pose)
        ((CopSettings.fresh (K := K)).afterAll ((taskCalls tid ops).filterMap cop?)).normal d.f
        (fun q => q.get i - ((CopSettings.fresh (K := K)).afterAll ((taskCalls tid ops).filterMap cop?)).ref.get i)
        _ _ _ F.tiled
      refine Eq.trans this ?_
      congr 1
      refine List.map_congr_left fun cl hcl => ?_
      obtain ⟨q, hq, -, -, hq3, -⟩ := hg cl.cid
      rw [F.kinds]
      refine sum_congr rfl fun j hj => ?_
      rw [corner_congr (fun i hi => ha.f cl hcl i hi) (mem_range.1 hj), hq.points, hq3]
    · have hsup := hm.supported _ _ _ _ hin
      rw [hd] at hsup
      obtain ⟨hn, hcid, hcn, -, -⟩ := hsup
      have hcid' : lastContact ((taskCalls tid ops).filterMap force?) c ∈ S.cids E W ops t := hcid
      rw [F.cids] at hcid'
      obtain ⟨cl, hcl, e0⟩ := List.mem_map.1 hcid'
      simp only [Setup.read, Setup.miss, hd, TaskDecl.Error]
      rw [← hcn, ← e0]
      obtain ⟨g1, g2, g3⟩ := gen_wrench (hg cl.cid)
      show ∑ i ∈ range (s.form.contactObj cl.cid).forceGen.rows, _ = _
      rw [g1]
      refine sum_congr rfl fun i hi => ?_
      congr 2
      refine (g3 _ i (mem_range.1 hi)).trans ?_
      exact wrench_congr (fun j hj => ha.of cl hcl j hj) _ _
  · have h1 : S.decl tid ≠ .cop := fun e => hf (hfam.2 (.inl e))
    have h2 : ∀ dt c n, S.decl tid ≠ .force dt c n := fun dt c n e => hf (hfam.2 (.inr ⟨dt, c, n, e⟩))
    rw [miss_alone h1 h2, ← error_alone h1 h2 (f := s.form) (hist := history E S.start ops tid)]
    obtain ⟨n, r, n1, n2, hfit, -, hres⟩ := F.task fam tid p k hin
    rw [← hres hk, ← hres hk]
    cases fam with
    | force => exact (hf rfl).elim
    | motion => exact sq_congr hfit fun j hj => ha.dv j (by rw [← n1 rfl]; exact hj)
    | actuation => exact sq_congr hfit fun j hj => ha.tau j (by rw [← n2 rfl]; exact hj)

/-- What a registered task of priority 0 asks for. -/
theorem wants_iff {s0 : Program.State K} (h : GoodProgram E W S ops s0) (hw : SnapshotOk E.robot.nv w)
    (hc : Program.compute E w t s0 = .ok s ()) (F : Facts E W S ops w t s) (hm : MayCycle E W S ops w t)
    (hg : ∀ cid, HasReg (s.form.contactObj cid) (S.obj cid).kind (S.regOf ops cid)) (ha : Agrees S s b d)
    (hv : S.Viable E W ops w t) {fam : Family} {tid : Nat} {k : K}
    (hin : .task fam tid 0 k ∈ (S.registry E W ops t).items) (hu : (S.decl tid).Upright w) :
    (S.decl tid).Asks E (ctx E w s.form) (taskCalls tid ops) (history E S.start ops tid) (s.task tid)
      (S.read ops d fam tid) ↔ S.Wants E W ops w t b fam tid := by
  have hfam := F.family fam tid 0 k hin
  obtain ⟨n, r, n1, n2, hfit, hsat, -⟩ := F.task fam tid 0 k hin
  have heq : (S.decl tid).kind = .equality → ((S.decl tid).Error E (ctx E w s.form) (taskCalls tid ops)
      (history E S.start ops tid) (S.read ops d fam tid) = 0 ↔ S.miss E W ops w t b fam tid = 0) := fun hk => by
    rw [miss_eq F hm hg ha hin hk]
  have hcongr : fam ≠ .force → ((S.decl tid).Asks E (ctx E w s.form) (taskCalls tid ops) (history E S.start ops tid)
      (s.task tid) (S.read ops d fam tid) ↔ (S.decl tid).Asks E (ctx E w s.form) (taskCalls tid ops)
      (history E S.start ops tid) (s.task tid) (b.part fam)) := by
    intro hf
    rw [← hsat hu, ← hsat hu]
    cases fam with
    | force => exact (hf rfl).elim
    | motion => exact sat_congr hfit fun j hj => ha.dv j (by rw [← n1 rfl]; exact hj)
    | actuation => exact sat_congr hfit fun j hj => ha.tau j (by rw [← n2 rfl]; exact hj)
  have hne : S.decl tid ≠ .cop → (∀ dt c n, S.decl tid ≠ .force dt c n) → fam ≠ .force := fun h1 h2 e => by
    rcases hfam.1 e with e | ⟨dt, c, n, e⟩
    · exact h1 e
    · exact h2 _ _ _ e
  unfold Setup.Wants
  split
  · next dt hd =>
    obtain ⟨v1, v2, v3⟩ := hv fam tid k dt hin hd
    rw [hcongr (hne (by rw [hd]; simp) (by rw [hd]; simp))]
    have hcl := Program.registered_class h.run hin
    have hb := h.built tid
    rw [hd] at hb
    obtain ⟨q, -, hq⟩ := hb
    have hmo : fam = .motion := by
      rw [hq] at hcl
      cases fam <;> first | rfl | cases hcl
    subst hmo
    exact C104_asks h hw hc hin hd v2 v1 v3 _ _ _ _
  · next g dt hd =>
    rw [hcongr (hne (by rw [hd]; simp) (by rw [hd]; simp)), hd]
    exact Iff.rfl
  · next dt hd =>
    rw [hcongr (hne (by rw [hd]; simp) (by rw [hd]; simp)), hd]
    exact Iff.rfl
  · next hd =>
    rw [hcongr (hne (by rw [hd]; simp) (by rw [hd]; simp)), hd]
    exact Iff.rfl
  · next h1 h2 h3 h4 =>
    have hk : (S.decl tid).kind = .equality := by
      revert h1 h2 h3 h4
      cases S.decl tid <;> intro h1 h2 h3 h4 <;> first | rfl | skip
      · exact (h2 _ _ rfl).elim
      · exact (h3 _ rfl).elim
      · exact (h1 _ rfl).elim
      · exact (h4 rfl).elim
    rw [← heq hk]
    revert h1 h2 h3 h4
    cases S.decl tid <;> intro h1 h2 h3 h4 <;> first | exact Iff.rfl | skip
    · exact (h2 _ _ rfl).elim
    · exact (h3 _ rfl).elim
    · exact (h1 _ rfl).elim
    · exact (h4 rfl).elim

/-- The getters determine what is decoded. -/
theorem reads_of (F : Facts E W S ops w t s) (hx : x.size = nVar s.form)
    (hd : d.From s.form x ((S.cids E W ops t).map fun c => (S.obj c).name)) : Reads S s x d := by
  obtain ⟨d0, h0, hr, -⟩ := F.decode x hx
  have e1 := h0.dv
  have e2 := h0.f
  have e3 := h0.tau
  rw [hd.dv] at e1
  rw [hd.f] at e2
  rw [hd.tau] at e3
  have e1 := Option.some.inj e1
  have e2 := Option.some.inj e2
  have e3 := Option.some.inj e3
  have e4 : ∀ cl ∈ s.form.contacts, d.of (S.obj cl.cid).name = d0.of (S.obj cl.cid).name := by
    intro cl hcl
    have hm : (S.obj cl.cid).name ∈ (S.cids E W ops t).map fun c => (S.obj c).name :=
      List.mem_map.2 ⟨_, by rw [F.cids]; exact List.mem_map_of_mem hcl, rfl⟩
    have := h0.of _ hm
    rw [hd.of _ hm] at this
    exact Option.some.inj this
  exact ⟨by rw [e1]; exact hr.dvSize, by rw [e1]; exact hr.dv, by rw [e2]; exact hr.f, by rw [e3]; exact hr.tauSize,
    fun cl hcl => by rw [e4 cl hcl]; exact hr.ofSize cl hcl, fun cl hcl => by rw [e4 cl hcl]; exact hr.of cl hcl⟩

end

/-- The same for any limits of contact forces that the objects have. -/
theorem exact_with {lim : Nat → ForceLimits K} {E : Program.Env K} {W : World} {S : Setup K} {ops : List (Program.Op K)}
    {s0 s : Program.State K} (h : GoodProgram E W S ops s0) {w : Snapshot K} {t : K} (hw : SnapshotOk E.robot.nv w)
    (hm : MayCycle E W S ops w t) (hc : Program.compute E w t s0 = .ok s ()) 
    (hlim : ∀ c ∈ S.cids E W ops t, ForceLimits.of (s.form.contactObj c) = lim c)
    (hu : ∀ fam tid k, .task fam tid 0 k ∈ (S.registry E W ops t).items → (S.decl tid).Upright w)
    (hv : S.Viable E W ops w t)
    (heq : ∀ fam tid k, .task fam tid 1 k ∈ (S.registry E W ops t).items → (S.decl tid).kind = .equality)
    {l0 l1 : Level K} (hp : problem s.form = [l0, l1]) {x : Vec K} (hx : x.size = nVar s.form) {b : Behaviour K}
    (hb : b.Decodes E W S ops t s.form x) :
    (Feasible l0 x ↔ IntendedWith lim E W S ops w t b) ∧ lsqCost l1 x = S.losses E W ops w t b ∧
      sqNorm (nVar s.form) x = S.effort E W ops t b := by
  have F := facts h hw hm hc
  have hg : ∀ cid, HasReg (s.form.contactObj cid) (S.obj cid).kind (S.regOf ops cid) := fun cid => reg_text h hc cid
  obtain ⟨d, hd, hcost⟩ := C89_partial h hw hc hp heq (force_contacts hm) hx
  have hr := reads_of F hx hd
  have ha := agrees_of F hd hr hb
  have hcerr : ∀ c ∈ S.cids E W ops t, (S.cdecl c).Error E w (contactCalls c ops) d.dv =
      (S.cdecl c).Error E w (contactCalls c ops) b.dv := by
    intro c hc
    obtain ⟨k1, -, k3⟩ := F.contact c hc
    rw [← k3, ← k3]
    exact sq_congr k1 ha.dv
  have hforce : ∀ c ∈ S.cids E W ops t, ∀ i, i < Contact.kindForce (S.obj c).kind →
      d.of (S.obj c).name i = b.force c i := by
    intro c hc
    rw [F.cids] at hc
    obtain ⟨cl, hcl, rfl⟩ := List.mem_map.1 hc
    exact ha.of cl hcl
  have hcid : ∀ {cid p wm wf}, Item.contact cid p wm wf ∈ (S.registry E W ops t).items → cid ∈ S.cids E W ops t :=
    fun hin => List.mem_filterMap.2 ⟨_, hin, rfl⟩
  refine ⟨?_, ?_, ?_⟩
  · rw [C92_partial h hw hm hc hu hp hx hd]
    have hbal := balanced_iff F h.nv h.motors hm.classes hg ha
    constructor
    · rintro ⟨o1, o2, o3, o4⟩
      refine ⟨hbal.1 o1, fun fam tid k hin => ?_, fun cid wm wf hin => ?_, fun cid p wm wf hin => ?_⟩
      · exact (wants_iff h hw hc F hm hg ha hv hin (hu _ _ _ hin)).1 (o2 fam tid k hin)
      · rw [← hcerr _ (hcid hin)]; exact o3 _ _ _ hin
      · have := o4 _ _ _ _ hin
        rw [hlim cid (hcid hin)] at this
        exact (respected_congr (hforce _ (hcid hin)) _).1 this
    · rintro ⟨o1, o2, o3, o4⟩
      refine ⟨hbal.2 o1, fun fam tid k hin => ?_, fun cid wm wf hin => ?_, fun cid p wm wf hin => ?_⟩
      · exact (wants_iff h hw hc F hm hg ha hv hin (hu _ _ _ hin)).2 (o2 fam tid k hin)
      · rw [hcerr _ (hcid hin)]; exact o3 _ _ _ hin
      · rw [hlim cid (hcid hin)]
        exact (respected_congr (hforce _ (hcid hin)) _).2 (o4 _ _ _ _ hin)
  · rw [hcost]
    unfold Setup.cost Setup.losses
    congr 2
    refine List.map_congr_left fun it hin => ?_
    cases it with
    | task fam tid p k =>
      simp only [Setup.penalty, Setup.loss]
      split
      · next hp1 =>
        subst hp1
        rw [← miss_eq F hm hg ha hin (heq _ _ _ hin)]
        unfold Setup.read
        cases fam <;> first | rfl | (cases S.decl tid <;> rfl)
      · rfl
    | contact cid p wm wf =>
      simp only [Setup.penalty, Setup.loss]
      rw [hcerr _ (hcid hin), reg_congr (hforce _ (hcid hin))]
      rfl
  · unfold sqNorm Setup.effort
    rw [F.nVar, sum_range_add, cids_sum F]
    congr 1
    · refine sum_congr rfl fun i hi => ?_
      rw [← ha.dv i (mem_range.1 hi), hr.dv]
      ring
    · have := stacked_squares (obj := s.form.contactObj) d.f _ _ _ F.tiled
      simp only [Nat.sub_zero, Nat.zero_add] at this
      have e : ∑ i ∈ range s.form.k, x (S.robot.nv + i) * x (S.robot.nv + i) = ∑ i ∈ range s.form.k, d.f i * d.f i :=
        sum_congr rfl fun i _ => by rw [hr.f]
      refine e.trans (this.trans ?_)
      congr 1
      refine List.map_congr_left fun cl hcl => ?_
      have : (s.form.contactObj cl.cid).nForce = Contact.kindForce (S.obj cl.cid).kind := by
        unfold Contact.nForce; rw [F.kinds]
      rw [this]
      exact sum_congr rfl fun i hi => by rw [ha.f cl hcl i (mem_range.1 hi)]

/-- **C99 (partial).** What the problem that is handed to the solver says about a vector is what the text of the program
says about the behaviour that is decoded from it: the vector is feasible exactly when the behaviour obeys the text, its
cost is the loss that the text describes, and the regularisation weighs accelerations and forces.
Missing: as in C92; no contact is being removed gradually; the limits that tasks of combined joint limits at priority 0
impose can be kept (`Viable`). -/
theorem C99_exact_partial {E : Program.Env K} {W : World} {S : Setup K} {ops : List (Program.Op K)}
    {s0 s : Program.State K} (h : GoodProgram E W S ops s0) {w : Snapshot K} {t : K} (hw : SnapshotOk E.robot.nv w)
    (hm : MayCycle E W S ops w t) (hc : Program.compute E w t s0 = .ok s ()) (hn : NoGradualRemoval ops)
    (hu : ∀ fam tid k, .task fam tid 0 k ∈ (S.registry E W ops t).items → (S.decl tid).Upright w)
    (hv : S.Viable E W ops w t)
    (heq : ∀ fam tid k, .task fam tid 1 k ∈ (S.registry E W ops t).items → (S.decl tid).kind = .equality)
    {l0 l1 : Level K} (hp : problem s.form = [l0, l1]) {x : Vec K} (hx : x.size = nVar s.form) {b : Behaviour K}
    (hb : b.Decodes E W S ops t s.form x) :
    (Feasible l0 x ↔ Intended E W S ops w t b) ∧ lsqCost l1 x = S.losses E W ops w t b ∧
      sqNorm (nVar s.form) x = S.effort E W ops t b :=
  exact_with h hw hm hc (fun cid _ => C92_limits h hc hn cid) hu hv heq hp hx hb

/-- **C99, the getters.** Whatever a solver returns, the getters return a behaviour. -/
theorem C99_decodes {E : Program.Env K} {W : World} {S : Setup K} {ops : List (Program.Op K)}
    {s0 s : Program.State K} (h : GoodProgram E W S ops s0) {w : Snapshot K} {t : K} (hw : SnapshotOk E.robot.nv w)
    (hm : MayCycle E W S ops w t) (hc : Program.compute E w t s0 = .ok s ()) {x : Vec K} (hx : x.size = nVar s.form) :
    ∃ b : Behaviour K, b.Decodes E W S ops t s.form x := by
  have F := facts h hw hm hc
  obtain ⟨d, hd, hr, -⟩ := F.decode x hx
  refine ⟨⟨d.dv, d.tau, fun c => d.of (S.obj c).name⟩, ⟨d.dv, hd.dv, hr.dvSize, fun _ _ => rfl⟩,
    ⟨d.tau, hd.tau, hr.tauSize, fun _ _ => rfl⟩, fun c hcm => ?_⟩
  refine ⟨_, hd.of _ (List.mem_map.2 ⟨_, hcm, rfl⟩), ?_, fun _ _ => rfl⟩
  rw [F.cids] at hcm
  obtain ⟨cl, hcl, rfl⟩ := List.mem_map.1 hcm
  exact hr.ofSize cl hcl

/-- **C99, nothing is out of reach.** Every behaviour that satisfies the laws of mechanics is decoded from some vector:
the reduction to accelerations and forces loses nothing. -/
theorem C99_every {E : Program.Env K} {W : World} {S : Setup K} {ops : List (Program.Op K)}
    {s0 s : Program.State K} (h : GoodProgram E W S ops s0) {w : Snapshot K} {t : K} (hw : SnapshotOk E.robot.nv w)
    (hm : MayCycle E W S ops w t) (hc : Program.compute E w t s0 = .ok s ()) {b : Behaviour K}
    (hb : S.Balanced E W ops w t b) : ∃ x : Vec K, x.size = nVar s.form ∧ b.Decodes E W S ops t s.form x := by
  have F := facts h hw hm hc
  have hg : ∀ cid, HasReg (s.form.contactObj cid) (S.obj cid).kind (S.regOf ops cid) := fun cid => reg_text h hc cid
  obtain ⟨g, hgf⟩ := stack_forces (obj := s.form.contactObj) b.force _ _ _ F.tiled
  let x : Vec K := ⟨nVar s.form, fun i => if i < S.robot.nv then b.dv i else g (i - S.robot.nv)⟩
  obtain ⟨d, hd, hr, hrow⟩ := F.decode x rfl
  have hfo : ∀ i, d.f i = g i := fun i => by
    rw [hr.f]
    show (if S.robot.nv + i < S.robot.nv then _ else g (S.robot.nv + i - S.robot.nv)) = _
    rw [if_neg (by omega), Nat.add_sub_cancel_left]
  have hdv : ∀ i, i < S.robot.nv → d.dv i = b.dv i := fun i hi => by
    rw [hr.dv]
    show (if i < S.robot.nv then _ else _) = _
    rw [if_pos hi]
  have hf : ∀ cl ∈ s.form.contacts, ∀ i, i < Contact.kindForce (S.obj cl.cid).kind →
      d.f (cl.index + i) = b.force cl.cid i := fun cl hcl i hi => by
    rw [hfo]
    refine hgf cl hcl i ?_
    unfold Contact.nForce
    rw [F.kinds]
    exact hi
  have hof : ∀ cl ∈ s.form.contacts, ∀ i, i < Contact.kindForce (S.obj cl.cid).kind →
      d.of (S.obj cl.cid).name i = b.force cl.cid i := fun cl hcl i hi => by
    rw [← hf cl hcl i hi, hr.of cl hcl, hr.f, Nat.add_assoc]
  -- the torques follow
  have ha : Agrees S s b { d with tau := ⟨S.robot.na, b.tau⟩ } := ⟨hdv, fun _ _ => rfl, hof, hf⟩
  have hdyn := (balanced_iff F h.nv h.motors hm.classes hg ha).2 hb
  have htau : ∀ i, i < S.robot.na → d.tau i = b.tau i := by
    intro i hi
    have hle := h.motors
    have e1 := hdyn (S.robot.nv - S.robot.na + i) (by omega)
    have e2 := hrow (S.robot.nv - S.robot.na + i) (by omega) (by omega)
    rw [if_neg (by omega)] at e1
    rw [Nat.add_sub_cancel_left] at e1 e2
    have e3 := e2.symm.trans e1
    have := add_right_cancel (add_right_cancel e3)
    exact this
  refine ⟨x, rfl, ⟨d.dv, hd.dv, hr.dvSize, hdv⟩, ⟨d.tau, hd.tau, hr.tauSize, htau⟩, fun c hcm => ?_⟩
  have hmem := hcm
  rw [F.cids] at hcm
  obtain ⟨cl, hcl, rfl⟩ := List.mem_map.1 hcm
  exact ⟨_, hd.of _ (List.mem_map.2 ⟨_, hmem, rfl⟩), hr.ofSize cl hcl, hof cl hcl⟩

/-! ## Together with `solve` -/

/-- One back-end. -/
theorem fulfils_of {lim : Nat → ForceLimits K} {R C : Type} {D : Solve.Driver K R C} {u0 : Solve.Object K R} {Sat : R → (Nat → K) → Prop}
    {Success : Solve.Answer C K → Prop} {reg : Bool} {E : Program.Env K} {W : World} {S : Setup K}
    {ops : List (Program.Op K)} {w : Snapshot K} {t : K} {s : Program.State K} {l0 l1 : Level K}
    {Obj : Vec K → Solve.Objective K → Prop} (hp : problem s.form = [l0, l1])
    (hx : ∀ x : Vec K, x.size = nVar s.form → ∃ b : Behaviour K, b.Decodes E W S ops t s.form x)
    (hd : ∀ (x : Vec K) (b : Behaviour K), x.size = nVar s.form → b.Decodes E W S ops t s.form x →
      (Feasible l0 x ↔ IntendedWith lim E W S ops w t b) ∧ lsqCost l1 x = S.losses E W ops w t b ∧
      sqNorm (nVar s.form) x = S.effort E W ops t b)
    (he : ∀ b : Behaviour K, IntendedWith lim E W S ops w t b → ∃ x : Vec K, x.size = nVar s.form ∧ b.Decodes E W S ops t s.form x)
    (h : SolvesProblem D E.ndebug u0 Sat Success (nVar s.form) reg l0 l1 Obj) :
    FulfilsWith lim D u0 Sat Success reg E W S ops w t s := by
  intro hist u hh hu fresh freshI engine hso
  obtain ⟨u', e, -, -, hz, g⟩ := h hist u hh hu fresh freshI engine hso
  obtain ⟨b, hb⟩ := hx _ hz
  obtain ⟨d1, d2, d3⟩ := hd _ _ hz hb
  rw [hp]
  refine ⟨u', e, b, hb, fun hs => ?_⟩
  obtain ⟨⟨g1, -, g2⟩, -⟩ := g hs
  refine ⟨g1, d1.1 g2.1, fun b' hb' => ?_⟩
  obtain ⟨y, hy, hdy⟩ := he b' hb'
  obtain ⟨e1, e2, e3⟩ := hd _ _ hy hdy
  have := g2.2 y (e1.2 hb')
  unfold target at this
  rw [d2, e2, d3, e3] at this
  exact this

/-- **C99, with the solver (partial).** Whenever the external solver keeps its promises and succeeds, the accelerations,
torques and contact forces that the getters return obey the text of the program, and no accelerations, torques and contact
forces that obey the text have a smaller objective.  Neither the problem, nor its variables, nor the objects of the library
occur in this statement.  Missing: as in `C99_exact_partial` and C90. -/
theorem C99_best_partial {E : Program.Env K} {W : World} {S : Setup K} {ops : List (Program.Op K)} {s0 s : Program.State K}
    (h : GoodProgram E W S ops s0) {w : Snapshot K} {t : K} (hw : SnapshotOk E.robot.nv w)
    (hm : MayCycle E W S ops w t) (hc : Program.compute E w t s0 = .ok s ()) (hn : NoGradualRemoval ops)
    (hu : ∀ fam tid k, .task fam tid 0 k ∈ (S.registry E W ops t).items → (S.decl tid).Upright w)
    (hv : S.Viable E W ops w t)
    (heq : ∀ fam tid k, .task fam tid 1 k ∈ (S.registry E W ops t).items → (S.decl tid).kind = .equality)
    (b : Bool) (t0 : Status.HQPStatus) (i : Int) (v : Solve.Objective K) :
    Fulfils Solve.eiq (Solve.Eiq.init t0 i v) EiqSat (fun a => ∃ w, a.objective = .num w) true E W S ops w t s ∧
    Fulfils Solve.fast (Solve.Eiq.init t0 i v) EiqSat (fun a => a.code = .optimal) true E W S ops w t s ∧
    (∀ fresh freshI neq nin, (problem s.form).head?.map Solver.count = some (neq, nin) →
      Fulfils Solve.rt (Solve.Rt.init fresh freshI (nVar s.form) neq nin t0 i v) EiqSat (fun a => a.code = .optimal)
        true E W S ops w t s) ∧
    Fulfils Solve.prox (Solve.Prox.init t0 i v) ProxSat (fun a => a.code = .solved) false E W S ops w t s ∧
    Fulfils Solve.osqp (Solve.Osqp.init t0 i v) OsqpSat (fun a => a.code = .solved) false E W S ops w t s ∧
    Fulfils Solve.mad (Solve.Mad.init b t0 i v) MadSat (fun a => a.code = .ok) true E W S ops w t s := by
  obtain ⟨l0, l1, hp, ha, hb⟩ := program_admissible h hw hm hc heq
  have hx := fun (x : Vec K) (hx : x.size = nVar s.form) => C99_decodes h hw hm hc hx
  have hd := fun (x : Vec K) (b : Behaviour K) (hx : x.size = nVar s.form) (hb : b.Decodes E W S ops t s.form x) =>
    C99_exact_partial h hw hm hc hn hu hv heq hp hx hb
  have he := fun (b : Behaviour K) (hb : Intended E W S ops w t b) => C99_every h hw hm hc hb.dynamics
  obtain ⟨k1, k2, k3, k4, k5, k6⟩ := C85_solves_partial E.ndebug b t0 i v ha
  refine ⟨fulfils_of hp hx hd he k1, fulfils_of hp hx hd he k2, fun fresh freshI neq nin hcnt => ?_,
    fulfils_of hp hx hd he k4, fulfils_of hp hx hd he k5, fulfils_of hp hx hd he (k6 hb)⟩
  rw [hp] at hcnt
  simp only [List.head?_cons, Option.map_some, Option.some.injEq] at hcnt
  have := k3 fresh freshI
  rw [hcnt] at this
  exact fulfils_of hp hx hd he this

/-- **C99, from the text alone (partial).** A well-typed program in a release build that removes no contact gradually and
ends with a control cycle runs, the cycle returns, and every back-end whose external solver keeps its promises and
succeeds delivers accelerations, torques and contact forces that obey the text and are the best of all that obey it.
Missing: as in `C99_exact_partial`, C90 and C91. -/
theorem C99_program_partial {E : Program.Env K} {W : World} {S : Setup K} {ops : List (Program.Op K)} {w : Snapshot K}
    {t : K} (h : WellTyped E W S (ops ++ [.compute w t])) (hnd : E.ndebug = true) (hn : NoGradualRemoval ops)
    (hu : ∀ fam tid k, .task fam tid 0 k ∈ (S.registry E W ops t).items → (S.decl tid).Upright w)
    (hv : S.Viable E W ops w t)
    (heq : ∀ fam tid k, .task fam tid 1 k ∈ (S.registry E W ops t).items → (S.decl tid).kind = .equality)
    (b : Bool) (t0 : Status.HQPStatus) (i : Int) (v : Solve.Objective K) :
    ∃ s0 s, Program.run E S.start ops = some s0 ∧ Program.compute E w t s0 = .ok s () ∧
      Fulfils Solve.eiq (Solve.Eiq.init t0 i v) EiqSat (fun a => ∃ w, a.objective = .num w) true E W S ops w t s ∧
      Fulfils Solve.fast (Solve.Eiq.init t0 i v) EiqSat (fun a => a.code = .optimal) true E W S ops w t s ∧
      (∀ fresh freshI neq nin, (problem s.form).head?.map Solver.count = some (neq, nin) →
        Fulfils Solve.rt (Solve.Rt.init fresh freshI (nVar s.form) neq nin t0 i v) EiqSat
          (fun a => a.code = .optimal) true E W S ops w t s) ∧
      Fulfils Solve.prox (Solve.Prox.init t0 i v) ProxSat (fun a => a.code = .solved) false E W S ops w t s ∧
      Fulfils Solve.osqp (Solve.Osqp.init t0 i v) OsqpSat (fun a => a.code = .solved) false E W S ops w t s ∧
      Fulfils Solve.mad (Solve.Mad.init b t0 i v) MadSat (fun a => a.code = .ok) true E W S ops w t s := by
  obtain ⟨h0, hmay⟩ := wellTyped_init h
  obtain ⟨s0, hr, hg⟩ := C91_runs h0 hnd
  obtain ⟨s, hc⟩ := C92_returns hg hmay.1 hmay.2 hn
  exact ⟨s0, s, hr, hc, C99_best_partial hg hmay.1 hmay.2 hc hn hu hv heq b t0 i v⟩

/-! ## There is one best behaviour -/

theorem sqResidual_mid (c : Constraint K) (x y : Nat → K) : 2 * sqResidual c (mid x y) ≤ sqResidual c x + sqResidual c y := by
  unfold sqResidual Spec.residual
  rw [mul_sum, ← sum_add_distrib]
  refine sum_le_sum fun i _ => ?_
  rw [row_mid]
  nlinarith [sq_nonneg (row c.mat x i - row c.mat y i)]

theorem lsqCost_mid {l : Level K} (hl : ∀ q ∈ l, 0 ≤ q.1) (x y : Nat → K) :
    2 * lsqCost l (mid x y) ≤ lsqCost l x + lsqCost l y := by
  unfold lsqCost
  induction l with
  | nil => simp
  | cons q l ih =>
    have h1 := ih fun p hp => hl p (List.mem_cons_of_mem _ hp)
    have h2 := mul_le_mul_of_nonneg_left (sqResidual_mid q.2 x y) (hl q List.mem_cons_self)
    simp only [List.map_cons, List.sum_cons]
    linarith

theorem sqNorm_mid (n : Nat) (x y : Nat → K) :
    sqNorm n x + sqNorm n y - 2 * sqNorm n (mid x y) = 1 / 2 * sqNorm n fun i => x i - y i := by
  unfold sqNorm mid
  rw [mul_sum, mul_sum, ← sum_add_distrib, ← sum_sub_distrib]
  exact sum_congr rfl fun i _ => by ring

/-- **C99, uniqueness (partial).** With the regularisation and weights that are not negative, all best behaviours have the
same accelerations, torques and contact forces.  Missing: as in `C99_exact_partial`. -/
theorem C99_unique_partial {E : Program.Env K} {W : World} {S : Setup K} {ops : List (Program.Op K)}
    {s0 s : Program.State K} (h : GoodProgram E W S ops s0) {w : Snapshot K} {t : K} (hw : SnapshotOk E.robot.nv w)
    (hm : MayCycle E W S ops w t) (hc : Program.compute E w t s0 = .ok s ()) (hn : NoGradualRemoval ops)
    (hu : ∀ fam tid k, .task fam tid 0 k ∈ (S.registry E W ops t).items → (S.decl tid).Upright w)
    (hv : S.Viable E W ops w t)
    (heq : ∀ fam tid k, .task fam tid 1 k ∈ (S.registry E W ops t).items → (S.decl tid).kind = .equality)
    (hpos : ∀ it ∈ (S.registry E W ops t).items, NonNegative it) {b b' : Behaviour K} (hb : Best E W S ops w t true b)
    (hb' : Best E W S ops w t true b') : S.Same (S.cids E W ops t) b b' := by
  obtain ⟨l0, l1, hp, ha, -⟩ := program_admissible h hw hm hc heq
  have hl := program_weights h hw hc hp hpos
  obtain ⟨x, hx, hdx⟩ := C99_every h hw hm hc hb.1.dynamics
  obtain ⟨y, hy, hdy⟩ := C99_every h hw hm hc hb'.1.dynamics
  have hz : (⟨nVar s.form, mid x y⟩ : Vec K).size = nVar s.form := rfl
  obtain ⟨bz, hdz⟩ := C99_decodes h hw hm hc hz
  obtain ⟨x1, x2, x3⟩ := C99_exact_partial h hw hm hc hn hu hv heq hp hx hdx
  obtain ⟨y1, y2, y3⟩ := C99_exact_partial h hw hm hc hn hu hv heq hp hy hdy
  obtain ⟨z1, z2, z3⟩ := C99_exact_partial h hw hm hc hn hu hv heq hp hz hdz
  have hiz := z1.1 (feasible_mid (x1.2 hb.1) (y1.2 hb'.1))
  have a1 := hb.2 _ hiz
  have a2 := hb'.2 _ hiz
  unfold Setup.aim at a1 a2
  rw [if_pos rfl, if_pos rfl, ← x2, ← x3, ← z2, ← z3] at a1
  rw [if_pos rfl, if_pos rfl, ← y2, ← y3, ← z2, ← z3] at a2
  have c1 := lsqCost_mid hl x y
  have c2 := sqNorm_mid (nVar s.form) x.get y.get
  have e1 : lsqCost l1 (⟨nVar s.form, mid x y⟩ : Vec K) = lsqCost l1 (mid x y) := rfl
  have e2 : sqNorm (nVar s.form) (⟨nVar s.form, mid x y⟩ : Vec K) = sqNorm (nVar s.form) (mid x y) := rfl
  rw [e1, e2] at a1 a2
  have hr : (0 : K) < Solver.defaultReg := defaultReg_pos
  have hle : Solver.defaultReg * sqNorm (nVar s.form) (fun i => x.get i - y.get i) ≤ 0 := by
    have := congrArg (fun q => Solver.defaultReg * q) c2
    simp only [mul_sub, mul_add] at this
    linarith
  have h0 : sqNorm (nVar s.form) (fun i => x.get i - y.get i) ≤ 0 := by
    by_contra hne
    have := mul_pos hr (not_le.1 hne)
    linarith
  have hxy : ∀ i, i < nVar s.form → x i = y i := by
    intro i hi
    have h1 : (x i - y i) * (x i - y i) ≤ sqNorm (nVar s.form) (fun i => x.get i - y.get i) :=
      single_le_sum (f := fun i => (x.get i - y.get i) * (x.get i - y.get i)) (fun j _ => mul_self_nonneg _) (mem_range.2 hi)
    have h2 : (x i - y i) * (x i - y i) = 0 := le_antisymm (h1.trans h0) (mul_self_nonneg _)
    exact sub_eq_zero.1 (mul_self_eq_zero.1 h2)
  -- equal vectors are decoded to equal behaviours
  have F := facts h hw hm hc
  obtain ⟨d, hd, hrd, hrow⟩ := F.decode x hx
  obtain ⟨e, he, hre, hrow'⟩ := F.decode y hy
  have g1 := agrees_of F hd hrd hdx
  have g2 := agrees_of F he hre hdy
  have hk := F.nVar
  have hdv : ∀ i, i < S.robot.nv → d.dv i = e.dv i := fun i hi => by rw [hrd.dv, hre.dv, hxy i (by omega)]
  have hff : ∀ cl ∈ s.form.contacts, ∀ i, i < Contact.kindForce (S.obj cl.cid).kind → b.force cl.cid i = b'.force cl.cid i := by
    intro cl hcl i hi
    have hb := ((tiled_bounds _ _ _ _ F.tiled).2 cl hcl).2
    unfold Contact.nForce at hb
    rw [F.kinds] at hb
    rw [← g1.f cl hcl i hi, ← g2.f cl hcl i hi, hrd.f, hre.f, hxy _ (by omega)]
  have hdvb : ∀ i, i < S.robot.nv → b.dv i = b'.dv i := fun i hi => by rw [← g1.dv i hi, ← g2.dv i hi, hdv i hi]
  refine ⟨hdvb, fun i hi => ?_, fun c hcm => ?_⟩
  · -- the torques are determined by the equations of motion
    have hg : ∀ cid, HasReg (s.form.contactObj cid) (S.obj cid).kind (S.regOf ops cid) := fun cid => reg_text h hc cid
    have hle := h.motors
    have q1 := hb.1.dynamics fun j => if j = S.robot.nv - S.robot.na + i then 1 else 0
    have q2 := hb'.1.dynamics fun j => if j = S.robot.nv - S.robot.na + i then 1 else 0
    have hl : ∀ v : Nat → K, ∑ i ∈ range S.robot.nv, ((∑ j ∈ range S.robot.nv, S.robot.mass w.M i j * b.dv j) + w.nle i) * v i =
        ∑ i ∈ range S.robot.nv, ((∑ j ∈ range S.robot.nv, S.robot.mass w.M i j * b'.dv j) + w.nle i) * v i := by
      intro v
      refine sum_congr rfl fun i _ => ?_
      congr 2
      exact sum_congr rfl fun j hj => by rw [hdvb j (mem_range.1 hj)]
    have hcw : ∀ v : Nat → K, ((S.cids E W ops t).map fun c => ∑ i ∈ range (nWrench (S.obj c).kind),
        S.wrenchOf ops b c i * (S.cdecl c).velocity E w (contactCalls c ops) v i) =
        (S.cids E W ops t).map fun c => ∑ i ∈ range (nWrench (S.obj c).kind),
        S.wrenchOf ops b' c i * (S.cdecl c).velocity E w (contactCalls c ops) v i := by
      intro v
      refine List.map_congr_left fun c hcm => sum_congr rfl fun i _ => ?_
      rw [F.cids] at hcm
      obtain ⟨cl, hcl, rfl⟩ := List.mem_map.1 hcm
      congr 1
      exact wrench_congr (hff cl hcl) _ _
    rw [hl, hcw, q2] at q1
    have q3 := add_right_cancel (add_right_cancel q1)
    have hs : ∀ τ : Nat → K, ∑ j ∈ range S.robot.na,
        τ j * (if S.robot.nv - S.robot.na + j = S.robot.nv - S.robot.na + i then (1 : K) else 0) = τ i := by
      intro τ
      simp [hi]
    rw [hs, hs] at q3
    exact q3.symm
  · rw [F.cids] at hcm
    obtain ⟨cl, hcl, rfl⟩ := List.mem_map.1 hcm
    exact hff cl hcl

/-- **C99, all back-ends agree (partial).** Two back-ends with regularisation that solve the same program return the same
accelerations, torques and contact forces, whatever was solved before with either. -/
theorem C99_agree_partial {E : Program.Env K} {W : World} {S : Setup K} {ops : List (Program.Op K)}
    {s0 s : Program.State K} (h : GoodProgram E W S ops s0) {w : Snapshot K} {t : K} (hw : SnapshotOk E.robot.nv w)
    (hm : MayCycle E W S ops w t) (hc : Program.compute E w t s0 = .ok s ()) (hn : NoGradualRemoval ops)
    (hu : ∀ fam tid k, .task fam tid 0 k ∈ (S.registry E W ops t).items → (S.decl tid).Upright w)
    (hv : S.Viable E W ops w t)
    (heq : ∀ fam tid k, .task fam tid 1 k ∈ (S.registry E W ops t).items → (S.decl tid).kind = .equality)
    (hpos : ∀ it ∈ (S.registry E W ops t).items, NonNegative it)
    {R R' C C' : Type} {D : Solve.Driver K R C} {D' : Solve.Driver K R' C'} {u0 : Solve.Object K R} {u0' : Solve.Object K R'}
    {Sat : R → (Nat → K) → Prop} {Sat' : R' → (Nat → K) → Prop} {Success : Solve.Answer C K → Prop}
    {Success' : Solve.Answer C' K → Prop} (f : Fulfils D u0 Sat Success true E W S ops w t s)
    (f' : Fulfils D' u0' Sat' Success' true E W S ops w t s)
    {hist : List (SolveCall K R C)} {hist' : List (SolveCall K R' C')} {u u1 : Solve.Object K R} {u' u1' : Solve.Object K R'}
    (hh : ∀ c ∈ hist, c.Sized) (hr : solves D E.ndebug u0 hist = some u)
    (hh' : ∀ c ∈ hist', c.Sized) (hr' : solves D' E.ndebug u0' hist' = some u')
    {fresh freshI engine fresh' freshI' engine'} (he : Sound Sat Success engine) (he' : Sound Sat' Success' engine')
    (hs : Solve.solve D fresh freshI E.ndebug engine u (problem s.form) = .ok u1 ())
    (hs' : Solve.solve D' fresh' freshI' E.ndebug engine' u' (problem s.form) = .ok u1' ())
    (ho : Success (engine u1.st (start D fresh freshI u u1)))
    (ho' : Success' (engine' u1'.st (start D' fresh' freshI' u' u1'))) :
    ∃ b b' : Behaviour K, b.Decodes E W S ops t s.form u1.out.x ∧ b'.Decodes E W S ops t s.form u1'.out.x ∧
      S.Same (S.cids E W ops t) b b' := by
  obtain ⟨v, e, b, hb, g⟩ := f hist u hh hr fresh freshI engine he
  obtain ⟨v', e', b', hb', g'⟩ := f' hist' u' hh' hr' fresh' freshI' engine' he'
  rw [hs] at e
  rw [hs'] at e'
  cases e
  cases e'
  exact ⟨b, b', hb, hb', C99_unique_partial h hw hm hc hn hu hv heq hpos (g ho).2 (g' ho').2⟩

/-! ## The order of the registrations -/

/-- **C99, the order does not matter.** Rearranging a program changes neither what it asks for nor what it minimises. -/
theorem C99_order {E : Program.Env K} {W : World} {S : Setup K} {ops ops' : List (Program.Op K)} {t : K}
    (h : Rearranged E W S ops ops' t) (w : Snapshot K) (b : Behaviour K) :
    (Intended E W S ops w t b ↔ Intended E W S ops' w t b) ∧
    ∀ reg, S.aim E W ops w t reg b = S.aim E W ops' w t reg b := by
  have hcp : (S.cids E W ops t).Perm (S.cids E W ops' t) := h.items.filterMap _
  have hreg : ∀ c, S.regOf ops c = S.regOf ops' c := fun c => by unfold Setup.regOf; rw [h.sets]
  have hlim : ∀ c, S.limitsOf ops c = S.limitsOf ops' c := fun c => by unfold Setup.limitsOf; rw [h.sets]
  have hpm : ∀ p i, S.pressureMoment E W ops w t b p i = S.pressureMoment E W ops' w t b p i := by
    intro p i
    unfold Setup.pressureMoment
    simp only [hreg]
    exact (hcp.map _).sum_eq
  have hmiss : ∀ fam tid, S.miss E W ops w t b fam tid = S.miss E W ops' w t b fam tid := by
    intro fam tid
    unfold Setup.miss Setup.wrenchOf
    simp only [hreg, hpm, h.task, h.history]
  have hwant : ∀ fam tid, S.Wants E W ops w t b fam tid ↔ S.Wants E W ops' w t b fam tid := by
    intro fam tid
    unfold Setup.Wants
    have : Spec.limitsOf E.robot.na tid ops = Spec.limitsOf E.robot.na tid ops' := by
      unfold Spec.limitsOf; rw [h.task]
    simp only [hmiss, h.task, this]
  have hbal : S.Balanced E W ops w t b ↔ S.Balanced E W ops' w t b := by
    unfold Setup.Balanced
    refine forall_congr' fun v => ?_
    have e1 := (hcp.map fun c => ∑ i ∈ range (nWrench (S.obj c).kind),
      S.wrenchOf ops b c i * (S.cdecl c).velocity E w (contactCalls c ops) v i).sum_eq
    have e2 := (h.measured.map fun m => (S.mdecl m).power S.robot.nv w (measuredCalls m ops) v).sum_eq
    rw [e1, e2]
    unfold Setup.wrenchOf
    simp only [hreg, h.contact, h.force]
  refine ⟨?_, fun reg => ?_⟩
  · constructor
    · rintro ⟨o1, o2, o3, o4⟩
      refine ⟨hbal.1 o1, fun fam tid k hin => (hwant fam tid).1 (o2 fam tid k (h.items.mem_iff.2 hin)),
        fun cid wm wf hin => ?_, fun cid p wm wf hin => ?_⟩
      · rw [← h.contact]; exact o3 _ _ _ (h.items.mem_iff.2 hin)
      · rw [← hlim]; exact o4 _ _ _ _ (h.items.mem_iff.2 hin)
    · rintro ⟨o1, o2, o3, o4⟩
      refine ⟨hbal.2 o1, fun fam tid k hin => (hwant fam tid).2 (o2 fam tid k (h.items.mem_iff.1 hin)),
        fun cid wm wf hin => ?_, fun cid p wm wf hin => ?_⟩
      · rw [h.contact]; exact o3 _ _ _ (h.items.mem_iff.1 hin)
      · rw [hlim]; exact o4 _ _ _ _ (h.items.mem_iff.1 hin)
  · have hloss : S.loss E W ops w t b = S.loss E W ops' w t b := by
      funext it
      cases it <;> simp only [Setup.loss, hmiss, hreg, h.contact]
    have heff : S.effort E W ops t b = S.effort E W ops' t b := by
      unfold Setup.effort
      rw [(hcp.map _).sum_eq]
    unfold Setup.aim Setup.losses
    rw [heff, hloss, (h.items.map _).sum_eq]

/-- **C99, rearranged programs have the same solution (partial).** Two orderly programs that make the same calls on every
object and register the same objects in different orders: if both are solved, with back-ends that regularise, then the
accelerations, the torques and the forces of every contact are the same.  (The variables and rows of the two problems are
in different orders.)  Missing: as in `C99_exact_partial`. -/
theorem C99_rearranged_partial {E : Program.Env K} {W : World} {S : Setup K} {ops ops' : List (Program.Op K)}
    {s0 s : Program.State K} (h : GoodProgram E W S ops s0) {w : Snapshot K} {t : K} (hw : SnapshotOk E.robot.nv w)
    (hm : MayCycle E W S ops w t) (hc : Program.compute E w t s0 = .ok s ()) (hn : NoGradualRemoval ops)
    (hu : ∀ fam tid k, .task fam tid 0 k ∈ (S.registry E W ops t).items → (S.decl tid).Upright w)
    (hv : S.Viable E W ops w t)
    (heq : ∀ fam tid k, .task fam tid 1 k ∈ (S.registry E W ops t).items → (S.decl tid).kind = .equality)
    (hpos : ∀ it ∈ (S.registry E W ops t).items, NonNegative it) (hr : Rearranged E W S ops ops' t)
    {b b' : Behaviour K} (hb : Best E W S ops w t true b) (hb' : Best E W S ops' w t true b') :
    S.Same (S.cids E W ops t) b b' := by
  refine C99_unique_partial h hw hm hc hn hu hv heq hpos hb ⟨(C99_order hr w b').1.2 hb'.1, fun a ha => ?_⟩
  rw [(C99_order hr w b').2, (C99_order hr w a).2]
  exact hb'.2 a ((C99_order hr w a).1.1 ha)

namespace ArmDemo

/-- The tasks of the arm are no force tasks and its joint limits are not those of `TaskJointPosVelAccBounds`. -/
theorem viable : setup.Viable env world ops snap 0 := by
  intro fam tid k dt h e
  rw [items] at h
  simp only [List.mem_cons, List.not_mem_nil, or_false, reduceCtorEq, false_or, Item.task.injEq] at h
  rcases h with ⟨-, rfl, h, -⟩ | ⟨-, rfl, -⟩ <;> cases e

/-- The hypotheses of C99 can be met, and there is a behaviour that obeys the text. -/
example : ∃ s0 s b, GoodProgram env world setup ops s0 ∧ Program.compute env snap 0 s0 = .ok s () ∧
    b.Decodes env world setup ops 0 s.form resting ∧ Intended env world setup ops snap 0 b := by
  obtain ⟨m, f, hm, ha, hc⟩ := computes
  obtain ⟨l0, l1, h1, h2, h3⟩ := feasible hm ha
  obtain ⟨b, hb⟩ := C99_decodes good snapOk mayCycle hc h2
  exact ⟨_, _, b, good, hc, hb,
    (C99_exact_partial good snapOk mayCycle hc noRemoval upright viable equalities h1 h2 hb).1.1 h3⟩

/-- From the text of the program of the arm to the best behaviour, in a release build. -/
example : ∃ s0 s, Program.run release setup.start ops = some s0 ∧ Program.compute release snap 0 s0 = .ok s () ∧
    Fulfils Solve.prox (Solve.Prox.init .unknown 0 .nan) ProxSat (fun a => a.code = .solved) false release world setup ops
      snap 0 s := by
  obtain ⟨s0, s, h1, h2, h3⟩ := C99_program_partial release_typed rfl noRemoval (by
      intro fam tid k h
      rw [release_items] at h
      simp only [List.mem_cons, List.not_mem_nil, or_false, reduceCtorEq, false_or, Item.task.injEq] at h
      rcases h with ⟨-, -, h, -⟩ | ⟨-, rfl, -⟩
      · cases h
      · trivial) (by
      intro fam tid k dt h e
      rw [release_items] at h
      simp only [List.mem_cons, List.not_mem_nil, or_false, reduceCtorEq, false_or, Item.task.injEq] at h
      rcases h with ⟨-, rfl, -⟩ | ⟨-, rfl, -⟩ <;> cases e) (by
      intro fam tid k h
      rw [release_items] at h
      simp only [List.mem_cons, List.not_mem_nil, or_false, reduceCtorEq, false_or, Item.task.injEq] at h
      rcases h with ⟨-, rfl, -⟩ | ⟨-, -, h, -⟩
      · rfl
      · cases h) true .unknown 0 .nan
  exact ⟨s0, s, h1, h2, h3.2.2.2.1⟩

/-- The program of the arm with its registrations in the opposite order. -/
noncomputable def backwards : List (Program.Op ℝ) :=
  [.task 0 (.am (.setKp ⟨3, fun _ => 2⟩)),
   .task 1 (.jointBounds (.setAccelerationBounds ⟨3, fun _ => -1⟩ ⟨3, fun _ => 1⟩)),
   .motion 0 (.point (.setKp (fun _ => 0) ⟨3, fun _ => 5⟩)),
   .measured 0 (.force (.setForce ⟨0, 0, 2⟩)),
   .form (.addMeasuredForce 0),
   .form (.addMotionTask 1 1 0 0),
   .form (.addRigidContact 0 1 1 0),
   .form (.addMotionTask 0 2 1 0)]

noncomputable def g1 : Tsid.State ℝ := { f0 with measured := f0.measured ++ [0] }
noncomputable def g2 : Tsid.State ℝ := added world g1 1 1 0
noncomputable def g3 : Tsid.State ℝ := ((Formulation.step false world g2 (.addRigidContact 0 1 1 0)).state?).getD g2
noncomputable def g4 : Tsid.State ℝ := added world g3 0 2 1

theorem bstep5 : Program.step env ⟨f0, tasks2, motions1, pushes1⟩ (.form (.addMeasuredForce 0)) =
    .ok ⟨g1, tasks2, motions1, pushes1⟩ () := rfl
theorem bstep6 : Program.step env ⟨g1, tasks2, motions1, pushes1⟩ (.form (.addMotionTask 1 1 0 0)) =
    .ok ⟨g2, tasks2, motions1, pushes1⟩ () := by
  have := added_step (W := Program.world env ⟨g1, tasks2, motions1, pushes1⟩) (s := g1) (tid := 1) (w := 1) (p := 0)
    (by norm_num) rfl
  rw [added_task (task1 g1)] at this
  exact step_form rfl this
theorem bstep7 : Program.step env ⟨g2, tasks2, motions1, pushes1⟩ (.form (.addRigidContact 0 1 1 0)) =
    .ok ⟨g3, tasks2, motions1, pushes1⟩ () := rfl
theorem bstep8 : Program.step env ⟨g3, tasks2, motions1, pushes1⟩ (.form (.addMotionTask 0 2 1 0)) =
    .ok ⟨g4, tasks2, motions1, pushes1⟩ () := by
  have := added_step (W := Program.world env ⟨g3, tasks2, motions1, pushes1⟩) (s := g3) (tid := 0) (w := 2) (p := 1)
    (by norm_num) rfl
  rw [added_task (task0 g3)] at this
  exact step_form rfl this

theorem backwards_registry : (setup.registry env world backwards 0).items =
    [.task .motion 1 0 1, .contact 0 0 1 1, .task .motion 0 1 2] ∧
    (setup.registry env world backwards 0).measured = [0] := by
  have hf : formCalls env setup.start backwards =
      [.addMeasuredForce 0, .addMotionTask 1 1 0 0, .addRigidContact 0 1 1 0, .addMotionTask 0 2 1 0] := by
    simp only [backwards, formCalls, formCall, step1, step2, step3, step4, bstep5, bstep6, bstep7, bstep8, Res.state?]
    rfl
  have e1 : Formulation.step false world f0 (.addMeasuredForce 0) = .ok g1 () := rfl
  have e2 : Formulation.step false world g1 (.addMotionTask 1 1 0 0) = .ok g2 () := added_step (by norm_num) rfl
  have e3 : Formulation.step false world g2 (.addRigidContact 0 1 1 0) = .ok g3 () := rfl
  have e4 : Formulation.step false world g3 (.addMotionTask 0 2 1 0) = .ok g4 () := added_step (by norm_num) rfl
  have : outcomes false world f0 [.addMeasuredForce 0, .addMotionTask 1 1 0 0, .addRigidContact 0 1 1 0,
      .addMotionTask 0 2 1 0] = [(.addMeasuredForce 0, false), (.addMotionTask 1 1 0 0, false),
      (.addRigidContact 0 1 1 0, false), (.addMotionTask 0 2 1 0, false)] := by
    simp only [outcomes, e1, e2, e3, e4, Res.state?, Res.threw]
  unfold Setup.registry
  rw [hf]
  unfold registrations
  rw [show init setup.robot setup.obj (fun tid => (setup.task tid).assoc) = f0 from rfl,
    show env.ndebug = false from rfl, this]
  exact ⟨rfl, rfl⟩

/-- Registering everything in the opposite order is a rearrangement. -/
theorem rearranged : Rearranged env world setup ops backwards 0 where
  items := by
    rw [items, backwards_registry.1]
    exact (List.Perm.swap _ _ _).trans ((List.Perm.cons _ (List.Perm.swap _ _ _)).trans (List.Perm.swap _ _ _))
  measured := by
    rw [backwards_registry.2]
    have e : ∀ (nm : Nat → String) (r : Registry ℝ) (t : ℝ), (r.expire nm t).measured = r.measured := by
      intro nm r t
      unfold Registry.expire
      split <;> rfl
    unfold Setup.registry
    rw [form_calls, e]
    exact List.Perm.of_eq measured
  task := fun _ => rfl
  contact := fun _ => rfl
  sets := fun _ => rfl
  force := fun _ => rfl
  history := fun tid => by
    simp only [ops, backwards, history, step1, step2, step3, step4, step5, step6, step7, step8, bstep5, bstep6, bstep7,
      bstep8, Res.state?]
    rfl

/-- Both programs ask for the same. -/
example (b : Behaviour ℝ) : Intended env world setup ops snap 0 b ↔ Intended env world setup backwards snap 0 b :=
  (C99_order rearranged snap b).1

end ArmDemo

end Tsid.Props
