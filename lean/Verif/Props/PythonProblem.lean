import Verif.Spec.PythonProblem
import Verif.Props.SolverOutput
import Verif.Props.Constraint

/-!
# C101: problems put together by hand in Python
-/

set_option linter.unusedSectionVars false

namespace Tsid.Props

open Spec Python

variable {K : Type}

theorem lastOr_snoc {α : Type} (a b : α) (l : List α) : lastOr a (l ++ [b]) = b := by
  unfold lastOr; rw [List.getLast?_concat]; rfl

theorem maker_fits [Zero K] [One K] (m : Maker K) :
    (Maker.Fits m → ∃ c, m.make = some c ∧ Holding m [] c) ∧ (¬ Maker.Fits m → m.make = none) := by
  cases m with
  | eq n A b =>
    simp only [Maker.Fits, Maker.make, Constraint.newEq]
    exact ⟨fun h => by rw [if_pos h]; exact ⟨_, rfl, rfl, rfl, rfl, rfl, rfl, rfl⟩, fun h => by rw [if_neg h]⟩
  | ineq n A lb ub =>
    simp only [Maker.Fits, Maker.make, Constraint.newIneq]
    refine ⟨fun h => by rw [if_pos h.1, if_pos h.2]; exact ⟨_, rfl, rfl, rfl, rfl, rfl, rfl, rfl⟩, fun h => ?_⟩
    split_ifs with h1 h2
    · exact absurd ⟨h1, h2⟩ h
    · rfl
    · rfl
  | bound n lb ub =>
    simp only [Maker.Fits, Maker.make, Constraint.newBound]
    exact ⟨fun h => by rw [if_pos h]; exact ⟨_, rfl, rfl, rfl, rfl, rfl, rfl, rfl⟩, fun h => by rw [if_neg h]⟩
  | eqZero n r c => exact ⟨fun _ => ⟨_, rfl, rfl, rfl, rfl, rfl, rfl, rfl⟩, fun h => absurd trivial h⟩
  | ineqZero n r c => exact ⟨fun _ => ⟨_, rfl, rfl, rfl, rfl, rfl, rfl, rfl⟩, fun h => absurd trivial h⟩
  | boundZero n k => exact ⟨fun _ => ⟨_, rfl, rfl, rfl, rfl, rfl, rfl, rfl⟩, fun h => absurd trivial h⟩

/-- Matrices accepted so far have the size of the first. -/
theorem lastOr_size {m0 : Mat K} {P : Mat K → Prop} [DecidablePred P] (hP : ∀ A, P A → A.rows = m0.rows ∧ A.cols = m0.cols)
    {f : ConCall K → Option (Mat K)} (hf : ∀ u A, f u = some A → P A) (calls : List (ConCall K)) :
    (lastOr m0 (calls.filterMap f)).rows = m0.rows ∧ (lastOr m0 (calls.filterMap f)).cols = m0.cols := by
  unfold lastOr
  cases h : (calls.filterMap f).getLast? with
  | none => exact ⟨rfl, rfl⟩
  | some A =>
    obtain ⟨u, -, hu⟩ := List.mem_filterMap.1 (List.mem_of_getLast? h)
    exact hP A (hf u A hu)

theorem holding_size [Zero K] [One K] {m : Maker K} {calls : List (ConCall K)} {c : Constraint K} (h : Holding m calls c) :
    c.mat.rows = (Maker.matrix m).rows ∧ c.mat.cols = (Maker.matrix m).cols := by
  classical
  rw [h.matrix]
  refine lastOr_size (P := fun A => A.rows = (Maker.matrix m).rows ∧ A.cols = (Maker.matrix m).cols) (fun A h => h) ?_ calls
  intro u A hu
  cases u with
  | setMatrix B => dsimp only at hu; split at hu <;> cases hu; next h => exact h.2
  | _ => cases hu

/-- One call on a constraint. -/
theorem holding_apply [Zero K] [One K] {nd : Bool} {m : Maker K} {calls : List (ConCall K)} {c c' : Constraint K}
    (h : Holding m calls c) {u : ConCall K} (hu : ∀ r k, u ≠ .resize r k) (hs : (u.apply nd c).state? = some c') :
    Holding m (calls ++ [u]) c' := by
  have hsz := holding_size h
  obtain ⟨h1, h2, h3, h4, h5, h6⟩ := h
  cases u with
  | resize r k => exact absurd rfl (hu r k)
  | setMatrix A =>
    simp only [ConCall.apply, Constraint.setMatrix] at hs
    by_cases hb : c.kind = .bound
    · rw [if_pos hb] at hs
      cases hs
      rw [h2] at hb
      refine ⟨h1, h2, ?_, ?_, ?_, ?_⟩ <;> simp only [List.filterMap_append, List.filterMap_cons, List.filterMap_nil,
        List.append_nil] <;> try assumption
      rw [if_neg (fun hh => hh.1 hb)]
      simpa using h3
    · rw [if_neg hb] at hs
      rw [h2] at hb
      by_cases hc : c.mat.cols = A.cols ∧ c.mat.rows = A.rows
      · rw [if_pos hc.1, if_pos hc.2] at hs
        cases hs
        refine ⟨h1, h2, ?_, ?_, ?_, ?_⟩ <;> simp only [List.filterMap_append, List.filterMap_cons, List.filterMap_nil,
          List.append_nil] <;> try assumption
        rw [if_pos ⟨hb, by rw [← hsz.1, hc.2], by rw [← hsz.2, hc.1]⟩]
        exact (lastOr_snoc _ _ _).symm
      · have : c' = c := by
          split_ifs at hs <;> first | (cases hs; rfl) | exact absurd ⟨by assumption, by assumption⟩ hc
        subst this
        refine ⟨h1, h2, ?_, ?_, ?_, ?_⟩ <;> simp only [List.filterMap_append, List.filterMap_cons, List.filterMap_nil,
          List.append_nil] <;> try assumption
        rw [if_neg (fun hh => hc ⟨by rw [hsz.2, hh.2.2], by rw [hsz.1, hh.2.1]⟩)]
        simpa using h3
  | setVector b =>
    simp only [ConCall.apply, Constraint.setVector] at hs
    cases hk : c.kind <;> rw [hk] at hs h2 <;> dsimp only at hs
    · cases hs
      refine ⟨h1, h2, ?_, ?_, ?_, ?_⟩ <;> simp only [List.filterMap_append, List.filterMap_cons, List.filterMap_nil,
        List.append_nil] <;> try assumption
      rw [if_pos h2.symm]
      exact (lastOr_snoc _ _ _).symm
    all_goals
      cases nd <;> cases hs
      refine ⟨h1, hk.trans h2, ?_, ?_, ?_, ?_⟩ <;> simp only [List.filterMap_append, List.filterMap_cons, List.filterMap_nil,
        List.append_nil] <;> try assumption
      rw [if_neg (by rw [← h2]; exact fun h => (by cases h))]
      simpa using h4
  | setLowerBound b =>
    simp only [ConCall.apply, Constraint.setLowerBound] at hs
    cases hk : c.kind <;> rw [hk] at hs h2 <;> dsimp only at hs
    · cases nd <;> cases hs
      refine ⟨h1, hk.trans h2, ?_, ?_, ?_, ?_⟩ <;> simp only [List.filterMap_append, List.filterMap_cons, List.filterMap_nil,
        List.append_nil] <;> try assumption
      rw [if_neg (fun h => h h2.symm)]
      simpa using h5
    all_goals
      cases hs
      refine ⟨h1, h2, ?_, ?_, ?_, ?_⟩ <;> simp only [List.filterMap_append, List.filterMap_cons, List.filterMap_nil,
        List.append_nil] <;> try assumption
      rw [if_pos (by rw [← h2]; exact fun h => (by cases h))]
      exact (lastOr_snoc _ _ _).symm
  | setUpperBound b =>
    simp only [ConCall.apply, Constraint.setUpperBound] at hs
    cases hk : c.kind <;> rw [hk] at hs h2 <;> dsimp only at hs
    · cases nd <;> cases hs
      refine ⟨h1, hk.trans h2, ?_, ?_, ?_, ?_⟩ <;> simp only [List.filterMap_append, List.filterMap_cons, List.filterMap_nil,
        List.append_nil] <;> try assumption
      rw [if_neg (fun h => h h2.symm)]
      simpa using h6
    all_goals
      cases hs
      refine ⟨h1, h2, ?_, ?_, ?_, ?_⟩ <;> simp only [List.filterMap_append, List.filterMap_cons, List.filterMap_nil,
        List.append_nil] <;> try assumption
      rw [if_pos (by rw [← h2]; exact fun h => (by cases h))]
      exact (lastOr_snoc _ _ _).symm


theorem hand_run_snoc [Zero K] [One K] {nd : Bool} {o : HandCall K} : ∀ {ops : List (HandCall K)} {s s2 : Hand K},
    Hand.run nd s (ops ++ [o]) = some s2 → ∃ s1, Hand.run nd s ops = some s1 ∧ (Hand.step nd s1 o).state? = some s2
  | [], s, s2, h => by
    simp only [List.nil_append, Hand.run] at h
    split at h
    · next s' hs' => cases h; exact ⟨s, rfl, hs'⟩
    · cases h
  | p :: ps, s, s2, h => by
    simp only [List.cons_append, Hand.run] at h ⊢
    split at h
    · next s' hs' => exact hand_run_snoc h
    · cases h

theorem problemTextFrom_snoc {d : Nat} {o : HandCall K} : ∀ {ops past : List (HandCall K)},
    problemTextFrom d past (ops ++ [o]) = problemTextFrom d past ops ++ problemTextFrom d (past ++ ops) [o]
  | [], past => by simp [problemTextFrom]
  | p :: ps, past => by
    have ih := problemTextFrom_snoc (d := d) (o := o) (ops := ps) (past := past ++ [p])
    rw [show past ++ (p :: ps) = past ++ [p] ++ ps by simp]
    cases p with
    | appendLevel d' l =>
      simp only [List.cons_append, problemTextFrom]
      split
      · rw [ih]; rfl
      · exact ih
    | _ => simpa only [List.cons_append, problemTextFrom] using ih

/-- What is known after a program. -/
structure HandAt [Zero K] [One K] (ops : List (HandCall K)) (s : Hand K) : Prop where
  nCons : s.nCons = (makers ops).length
  nLevels : s.nLevels = levelsMade ops
  nProblems : s.nProblems = problemsMade ops
  level : ∀ l, s.level l = levelText l ops
  problem : ∀ d, (∀ n, .resize d n ∉ ops) → s.problem d = problemText d ops
  later : ∀ i, (makers ops).length ≤ i → conCalls i ops = []
  cons : ∀ i m, (makers ops)[i]? = some m → NeverResized i ops → Holding m (conCalls i ops) (s.cons i)
  refs : ∀ d, ∀ l ∈ s.problem d, ∀ e ∈ l, e.2 < s.nCons
  lrefs : ∀ l, ∀ e ∈ s.level l, e.2 < s.nCons

theorem scoped_snoc {ops : List (HandCall K)} {o : HandCall K} (h : Scoped (ops ++ [o])) : Scoped ops ∧ Known ops o := by
  refine ⟨fun pre p post e => h pre p (post ++ [o]) (by rw [e]; simp), h ops o [] rfl⟩

theorem hand_at [Zero K] [One K] {nd : Bool} (ops : List (HandCall K)) : ∀ {s : Hand K},
    Hand.run nd Hand.init ops = some s → Scoped ops → HandAt ops s := by
  induction ops using List.reverseRecOn with
  | nil =>
    intro s h _
    cases h
    exact ⟨rfl, rfl, rfl, fun _ => rfl, fun _ _ => rfl, fun _ _ => rfl, fun i m h => (by cases h),
      fun d l hl => (by cases hl), fun l e he => (by cases he)⟩
  | append_singleton ops o ih =>
    intro s2 h hs
    obtain ⟨s, h1, h2⟩ := hand_run_snoc h
    obtain ⟨hs1, hk⟩ := scoped_snoc hs
    have A := ih h1 hs1
    have hpt : ∀ d, problemText d (ops ++ [o]) = problemText d ops ++ problemTextFrom d ops [o] := fun d => by
      unfold problemText; rw [problemTextFrom_snoc, List.nil_append]
    have hres : ∀ d, (∀ n, HandCall.resize d n ∉ ops ++ [o]) → ∀ n, HandCall.resize d n ∉ ops :=
      fun d hd n hn => hd n (List.mem_append_left _ hn)
    cases o with
    | make m =>
      simp only [Hand.step] at h2
      by_cases hf : Maker.Fits m
      · obtain ⟨c, hc, hh⟩ := (maker_fits m).1 hf
        rw [hc] at h2
        cases h2
        have hm : makers (ops ++ [.make m]) = makers ops ++ [m] := by simp [makers, hf]
        have hcc : ∀ i, conCalls i (ops ++ [.make m]) = conCalls i ops := fun i => by simp [conCalls]
        refine ⟨by rw [hm, List.length_append, ← A.nCons]; rfl, ?_, ?_, fun l => ?_, fun d hd => ?_, fun i hi => ?_,
          fun i m' hi hn => ?_, fun d l hl e he => Nat.lt_succ_of_lt (A.refs d l hl e he),
          fun l e he => Nat.lt_succ_of_lt (A.lrefs l e he)⟩
        · simpa [levelsMade] using A.nLevels
        · simpa [problemsMade] using A.nProblems
        · simpa [levelText] using A.level l
        · rw [hpt]; simpa [problemTextFrom] using A.problem d (hres d hd)
        · rw [hcc]
          rw [hm, List.length_append] at hi
          exact A.later i (by omega)
        · rw [hcc]
          rw [hm] at hi
          dsimp only
          by_cases e : i = s.nCons
          · subst e
            rw [Function.update_self]
            rw [A.nCons, List.getElem?_append_right (le_refl _), Nat.sub_self] at hi
            cases hi
            rw [A.later _ (le_of_eq A.nCons.symm)]
            exact hh
          · rw [Function.update_of_ne e]
            have hlt : i < (makers ops).length := by
              have := (List.getElem?_eq_some_iff.1 hi).1
              rw [List.length_append, List.length_singleton, ← A.nCons] at this
              rw [← A.nCons]; omega
            rw [List.getElem?_append_left hlt] at hi
            exact A.cons i m' hi (fun r k hrk => hn r k (by rw [hcc]; exact hrk))
      · rw [(maker_fits m).2 hf] at h2
        cases h2
        have hm : makers (ops ++ [.make m]) = makers ops := by simp [makers, hf]
        have hcc : ∀ i, conCalls i (ops ++ [.make m]) = conCalls i ops := fun i => by simp [conCalls]
        refine ⟨by rw [hm]; exact A.nCons, ?_, ?_, fun l => ?_, fun d hd => ?_, fun i hi => ?_,
          fun i m' hi hn => ?_, A.refs, A.lrefs⟩
        · simpa [levelsMade] using A.nLevels
        · simpa [problemsMade] using A.nProblems
        · simpa [levelText] using A.level l
        · rw [hpt]; simpa [problemTextFrom] using A.problem d (hres d hd)
        · rw [hcc]; rw [hm] at hi; exact A.later i hi
        · rw [hcc]
          rw [hm] at hi
          exact A.cons i m' hi (fun r k hrk => hn r k (by rw [hcc]; exact hrk))
    | set j u =>
      have hj : j < s.nCons := by rw [A.nCons]; exact hk
      have hm : makers (ops ++ [.set j u]) = makers ops := by simp [makers]
      obtain ⟨c', hc', rfl⟩ : ∃ c', (u.apply nd (s.cons j)).state? = some c' ∧
          s2 = { s with cons := Function.update s.cons j c' } := by
        simp only [Hand.step, if_pos hj] at h2
        cases e : u.apply nd (s.cons j) with
        | ok c b => rw [e] at h2; cases h2; exact ⟨c, rfl, rfl⟩
        | throw c => rw [e] at h2; cases h2; exact ⟨c, rfl, rfl⟩
        | abort => rw [e] at h2; cases h2
        | ub => rw [e] at h2; cases h2
      have hcj : conCalls j (ops ++ [.set j u]) = conCalls j ops ++ [u] := by simp [conCalls]
      have hcn : ∀ i, i ≠ j → conCalls i (ops ++ [.set j u]) = conCalls i ops := fun i hi => by
        simp [conCalls, Ne.symm hi]
      refine ⟨by rw [hm]; exact A.nCons, ?_, ?_, fun l => ?_, fun d hd => ?_, fun i hi => ?_,
        fun i m' hi hn => ?_, A.refs, A.lrefs⟩
      · simpa [levelsMade] using A.nLevels
      · simpa [problemsMade] using A.nProblems
      · simpa [levelText] using A.level l
      · rw [hpt]; simpa [problemTextFrom] using A.problem d (hres d hd)
      · rw [hm] at hi
        rw [hcn i (by rw [A.nCons] at hj; omega)]
        exact A.later i hi
      · rw [hm] at hi
        dsimp only
        by_cases e : i = j
        · subst e
          rw [Function.update_self, hcj]
          refine holding_apply (A.cons i m' hi fun r k hrk => hn r k ?_) (fun r k hrk => hn r k ?_) hc'
          · rw [hcj]; exact List.mem_append_left _ hrk
          · rw [hcj, hrk]; exact List.mem_append_right _ (List.mem_singleton.2 rfl)
        · rw [Function.update_of_ne e, hcn i e]
          exact A.cons i m' hi (fun r k hrk => hn r k (by rw [hcn i e]; exact hrk))
    | newLevel =>
      cases h2
      have hm : makers (ops ++ [.newLevel]) = makers ops := by simp [makers]
      have hcc : ∀ i, conCalls i (ops ++ [.newLevel]) = conCalls i ops := fun i => by simp [conCalls]
      refine ⟨by rw [hm]; exact A.nCons, ?_, ?_, fun l => ?_, fun d hd => ?_, fun i hi => ?_,
        fun i m' hi hn => ?_, A.refs, A.lrefs⟩
      · have := A.nLevels; simp [levelsMade] at this ⊢; exact this
      · simpa [problemsMade] using A.nProblems
      · simpa [levelText] using A.level l
      · rw [hpt]; simpa [problemTextFrom] using A.problem d (hres d hd)
      · rw [hcc]; rw [hm] at hi; exact A.later i hi
      · rw [hcc]
        rw [hm] at hi
        exact A.cons i m' hi (fun r k hrk => hn r k (by rw [hcc]; exact hrk))
    | append l w j =>
      have hlj : l < s.nLevels ∧ j < s.nCons := by rw [A.nLevels, A.nCons]; exact hk
      simp only [Hand.step, if_pos hlj] at h2
      cases h2
      have hm : makers (ops ++ [.append l w j]) = makers ops := by simp [makers]
      have hcc : ∀ i, conCalls i (ops ++ [.append l w j]) = conCalls i ops := fun i => by simp [conCalls]
      refine ⟨by rw [hm]; exact A.nCons, ?_, ?_, fun l' => ?_, fun d hd => ?_, fun i hi => ?_,
        fun i m' hi hn => ?_, A.refs, fun l' e he => ?_⟩
      · simpa [levelsMade] using A.nLevels
      · simpa [problemsMade] using A.nProblems
      · dsimp only
        by_cases e : l' = l
        · subst e
          rw [Function.update_self, A.level]
          simp [levelText]
        · rw [Function.update_of_ne e, A.level]
          simp [levelText, Ne.symm e]
      · rw [hpt]; simpa [problemTextFrom] using A.problem d (hres d hd)
      · rw [hcc]; rw [hm] at hi; exact A.later i hi
      · rw [hcc]
        rw [hm] at hi
        exact A.cons i m' hi (fun r k hrk => hn r k (by rw [hcc]; exact hrk))
      · dsimp only at he
        by_cases e' : l' = l
        · subst e'
          rw [Function.update_self] at he
          rcases List.mem_append.1 he with he | he
          · exact A.lrefs _ e he
          · rw [List.mem_singleton.1 he]; exact hlj.2
        · rw [Function.update_of_ne e'] at he
          exact A.lrefs _ e he
    | newProblem =>
      cases h2
      have hm : makers (ops ++ [.newProblem]) = makers ops := by simp [makers]
      have hcc : ∀ i, conCalls i (ops ++ [.newProblem]) = conCalls i ops := fun i => by simp [conCalls]
      refine ⟨by rw [hm]; exact A.nCons, ?_, ?_, fun l => ?_, fun d hd => ?_, fun i hi => ?_,
        fun i m' hi hn => ?_, A.refs, A.lrefs⟩
      · simpa [levelsMade] using A.nLevels
      · have := A.nProblems; simp [problemsMade] at this ⊢; exact this
      · simpa [levelText] using A.level l
      · rw [hpt]; simpa [problemTextFrom] using A.problem d (hres d hd)
      · rw [hcc]; rw [hm] at hi; exact A.later i hi
      · rw [hcc]
        rw [hm] at hi
        exact A.cons i m' hi (fun r k hrk => hn r k (by rw [hcc]; exact hrk))
    | appendLevel d' l =>
      have hdl : d' < s.nProblems ∧ l < s.nLevels := by rw [A.nLevels, A.nProblems]; exact hk
      simp only [Hand.step, if_pos hdl] at h2
      cases h2
      have hm : makers (ops ++ [.appendLevel d' l]) = makers ops := by simp [makers]
      have hcc : ∀ i, conCalls i (ops ++ [.appendLevel d' l]) = conCalls i ops := fun i => by simp [conCalls]
      refine ⟨by rw [hm]; exact A.nCons, ?_, ?_, fun l' => ?_, fun d hd => ?_, fun i hi => ?_,
        fun i m' hi hn => ?_, fun d l' hl' e he => ?_, A.lrefs⟩
      · simpa [levelsMade] using A.nLevels
      · simpa [problemsMade] using A.nProblems
      · simpa [levelText] using A.level l'
      · dsimp only
        rw [hpt]
        by_cases e : d = d'
        · subst e
          rw [Function.update_self, A.problem d (hres d hd), A.level]
          simp [problemTextFrom]
        · rw [Function.update_of_ne e, A.problem d (hres d hd)]
          simp [problemTextFrom, Ne.symm e]
      · rw [hcc]; rw [hm] at hi; exact A.later i hi
      · rw [hcc]
        rw [hm] at hi
        exact A.cons i m' hi (fun r k hrk => hn r k (by rw [hcc]; exact hrk))
      · dsimp only at hl'
        by_cases e' : d = d'
        · subst e'
          rw [Function.update_self] at hl'
          rcases List.mem_append.1 hl' with hl' | hl'
          · exact A.refs _ _ hl' e he
          · rw [List.mem_singleton.1 hl'] at he; exact A.lrefs _ e he
        · rw [Function.update_of_ne e'] at hl'
          exact A.refs _ _ hl' e he
    | resize d' n =>
      have hd' : d' < s.nProblems := by rw [A.nProblems]; exact hk
      simp only [Hand.step, if_pos hd'] at h2
      cases h2
      have hm : makers (ops ++ [.resize d' n]) = makers ops := by simp [makers]
      have hcc : ∀ i, conCalls i (ops ++ [.resize d' n]) = conCalls i ops := fun i => by simp [conCalls]
      refine ⟨by rw [hm]; exact A.nCons, ?_, ?_, fun l' => ?_, fun d hd => ?_, fun i hi => ?_,
        fun i m' hi hn => ?_, fun d l' hl' e he => ?_, A.lrefs⟩
      · simpa [levelsMade] using A.nLevels
      · simpa [problemsMade] using A.nProblems
      · simpa [levelText] using A.level l'
      · dsimp only
        have e : d ≠ d' := fun e => hd n (by subst e; exact List.mem_append_right _ (List.mem_singleton.2 rfl))
        rw [hpt, Function.update_of_ne e, A.problem d (hres d hd)]
        simp [problemTextFrom]
      · rw [hcc]; rw [hm] at hi; exact A.later i hi
      · rw [hcc]
        rw [hm] at hi
        exact A.cons i m' hi (fun r k hrk => hn r k (by rw [hcc]; exact hrk))
      · dsimp only at hl'
        by_cases e' : d = d'
        · subst e'
          rw [Function.update_self] at hl'
          rcases List.mem_append.1 hl' with hl' | hl'
          · exact A.refs _ _ (List.mem_of_mem_take hl') e he
          · rw [List.eq_of_mem_replicate hl'] at he; cases he
        · rw [Function.update_of_ne e'] at hl'
          exact A.refs _ _ hl' e he


theorem forall₂_map_right {α β : Type} {R : α → β → Prop} {f : α → β} : ∀ {l : List α}, (∀ a ∈ l, R a (f a)) →
    List.Forall₂ R l (l.map f)
  | [], _ => .nil
  | _ :: _, h => .cons (h _ List.mem_cons_self) (forall₂_map_right fun a ha => h a (List.mem_cons_of_mem _ ha))

/-- **C101, what a solver gets.** A solver that is passed a problem put together by hand gets the levels appended to the
problem, each with the weights and constraints that it had when it was appended; the constraints contain what was last
set, before or after.  (Constraints of which the sizes were changed are left out.) -/
theorem C101_read_partial [Zero K] [One K] {nd : Bool} {ops : List (HandCall K)} {s : Hand K}
    (hrun : Hand.run nd Hand.init ops = some s) (hs : Scoped ops) {d : Nat} (hr : ∀ n, .resize d n ∉ ops)
    (hn : ∀ l ∈ problemText d ops, ∀ e ∈ l, NeverResized e.2 ops) : Delivered ops (problemText d ops) (s.read d) := by
  have A := hand_at ops hrun hs
  have hp := A.problem d hr
  unfold Hand.read Delivered
  rw [hp]
  refine forall₂_map_right fun l hl => forall₂_map_right fun e he => ⟨rfl, ?_⟩
  have hlt := A.refs d l (hp ▸ hl) e he
  rw [A.nCons] at hlt
  exact ⟨_, List.getElem?_eq_getElem hlt, A.cons e.2 _ (List.getElem?_eq_getElem hlt) (hn l hl e he)⟩

theorem hand_run_append [Zero K] [One K] {nd : Bool} {post : List (HandCall K)} : ∀ {pre : List (HandCall K)} {s s2 : Hand K},
    Hand.run nd s (pre ++ post) = some s2 → ∃ s1, Hand.run nd s pre = some s1 ∧ Hand.run nd s1 post = some s2
  | [], s, s2, h => ⟨s, rfl, h⟩
  | p :: ps, s, s2, h => by
    simp only [List.cons_append, Hand.run] at h ⊢
    split at h
    · next s' hs' => exact hand_run_append h
    · cases h

theorem scoped_append {pre post : List (HandCall K)} (h : Scoped (pre ++ post)) : Scoped pre :=
  fun a o b e => h a o (b ++ post) (by rw [e]; simp)

theorem hand_run_append_some [Zero K] [One K] {nd : Bool} {post : List (HandCall K)} :
    ∀ {pre : List (HandCall K)} {s s1 s2 : Hand K}, Hand.run nd s pre = some s1 → Hand.run nd s1 post = some s2 →
      Hand.run nd s (pre ++ post) = some s2
  | [], s, s1, s2, h0, h1 => by cases h0; exact h1
  | p :: ps, s, s1, s2, h0, h1 => by
    simp only [List.cons_append, Hand.run] at h0 ⊢
    split at h0
    · exact hand_run_append_some h0 h1
    · cases h0

theorem problem_after [Zero K] [One K] {nd : Bool} {pre : List (HandCall K)} {s : Hand K} {d : Nat}
    (h0 : Hand.run nd Hand.init pre = some s) (post : List (HandCall K)) : ∀ {s2 : Hand K},
    Hand.run nd s post = some s2 → Scoped (pre ++ post) → (∀ n, .resize d n ∉ post) →
      s2.problem d = s.problem d ++ problemTextFrom d pre post := by
  induction post using List.reverseRecOn with
  | nil => intro s2 h _ _; cases h; simp [problemTextFrom]
  | append_singleton post o ih =>
    intro s2 h hs hr
    obtain ⟨s1, h1, h2⟩ := hand_run_snoc h
    rw [← List.append_assoc] at hs
    obtain ⟨hs1, hk⟩ := scoped_snoc hs
    have ih := ih h1 hs1 (fun n hn => hr n (List.mem_append_left _ hn))
    have h01 : Hand.run nd Hand.init (pre ++ post) = some s1 := hand_run_append_some h0 h1
    have A := hand_at _ h01 hs1
    rw [problemTextFrom_snoc, ← List.append_assoc, ← ih]
    cases o with
    | make m =>
      simp only [Hand.step] at h2
      split at h2 <;> cases h2 <;> simp [problemTextFrom]
    | set j u =>
      simp only [Hand.step] at h2
      split at h2
      · split at h2 <;> cases h2 <;> simp [problemTextFrom]
      · cases h2; simp [problemTextFrom]
    | newLevel => cases h2; simp [problemTextFrom]
    | append l w j =>
      simp only [Hand.step] at h2
      split at h2 <;> cases h2 <;> simp [problemTextFrom]
    | newProblem => cases h2; simp [problemTextFrom]
    | appendLevel d' l =>
      have hdl : d' < s1.nProblems ∧ l < s1.nLevels := by rw [A.nLevels, A.nProblems]; exact hk
      simp only [Hand.step, if_pos hdl] at h2
      cases h2
      dsimp only
      by_cases e : d = d'
      · subst e
        rw [Function.update_self, A.level]
        simp [problemTextFrom]
      · rw [Function.update_of_ne e]
        simp [problemTextFrom, Ne.symm e]
    | resize d' n =>
      have e : d ≠ d' := fun e => hr n (by subst e; exact List.mem_append_right _ (List.mem_singleton.2 rfl))
      simp only [Hand.step] at h2
      split at h2 <;> cases h2
      · dsimp only
        rw [Function.update_of_ne e]
        simp [problemTextFrom]
      · simp [problemTextFrom]

/-- **C101, `resize` of a problem.** The levels appended after `resize(n)` follow the `n` levels that there are then: the
first ones of those appended before, and empty ones. -/
theorem C101_resize [Zero K] [One K] {nd : Bool} {pre post : List (HandCall K)} {s : Hand K} {d n : Nat}
    (hrun : Hand.run nd Hand.init (pre ++ .resize d n :: post) = some s) (hs : Scoped (pre ++ .resize d n :: post))
    (h1 : ∀ k, .resize d k ∉ pre) (h2 : ∀ k, .resize d k ∉ post) :
    s.problem d = (problemText d pre).take n ++ List.replicate (n - (problemText d pre).length) [] ++
      problemTextFrom d (pre ++ [.resize d n]) post := by
  rw [show pre ++ .resize d n :: post = (pre ++ [.resize d n]) ++ post by simp] at hrun hs
  obtain ⟨s1, r1, r2⟩ := hand_run_append hrun
  rw [problem_after r1 post r2 hs h2]
  congr 1
  obtain ⟨s0, r0, r3⟩ := hand_run_snoc r1
  obtain ⟨z0, hk⟩ := scoped_snoc (scoped_append hs)
  have A := hand_at _ r0 z0
  have hd : d < s0.nProblems := by rw [A.nProblems]; exact hk
  simp only [Hand.step, if_pos hd] at r3
  cases r3
  dsimp only
  rw [Function.update_self, A.problem d h1]
  rfl

/-- **C101, `resize` of a problem is of no use.** A problem that is resized to its two levels and then filled, as one does
in C++, has four levels, of which the first two are empty: all solvers refuse it. -/
theorem C101_resize_refused [Zero K] [One K] {nd : Bool} {pre post : List (HandCall K)} {s : Hand K} {d n : Nat}
    (hrun : Hand.run nd Hand.init (pre ++ .resize d n :: post) = some s) (hs : Scoped (pre ++ .resize d n :: post))
    (h1 : ∀ k, .resize d k ∉ pre) (h2 : ∀ k, .resize d k ∉ post) (hn : 2 ≤ n)
    (hp : problemTextFrom d (pre ++ [.resize d n]) post ≠ []) : 2 < (s.read d).length := by
  unfold Hand.read
  rw [List.length_map, C101_resize hrun hs h1 h2]
  have := List.length_pos_of_ne_nil hp
  simp only [List.length_append, List.length_take, List.length_replicate]
  omega

theorem apply_kind [Zero K] [One K] {nd : Bool} {c c' : Constraint K} {u : ConCall K}
    (h : (u.apply nd c).state? = some c') : c'.kind = c.kind := by
  cases u <;> simp only [ConCall.apply, Constraint.setMatrix, Constraint.setVector, Constraint.setLowerBound,
    Constraint.setUpperBound, Constraint.resize] at h
  all_goals
    split at h
    all_goals try split at h
    all_goals try split at h
    all_goals first | (cases h; rfl) | simp [forget, Res.state?] at h

theorem apply_runs [Zero K] [One K] {nd : Bool} {m : Maker K} {c : Constraint K} (hk : c.kind = Maker.kind m) (u : ConCall K) :
    (u.apply nd c).state?.isSome ↔ nd = true ∨ ConCall.Suits m u := by
  cases u <;> simp only [ConCall.apply, Constraint.setMatrix, Constraint.setVector, Constraint.setLowerBound,
    Constraint.setUpperBound, Constraint.resize, ConCall.Suits, ← hk]
  case setMatrix A => split_ifs <;> simp [forget, Res.state?]
  case resize r k => cases c.kind <;> simp [Res.state?]; split_ifs <;> simp [Res.state?]
  all_goals cases c.kind <;> cases nd <;> simp [forget, Res.state?]

theorem hand_kinds [Zero K] [One K] {nd : Bool} (ops : List (HandCall K)) : ∀ {s : Hand K},
    Hand.run nd Hand.init ops = some s → Scoped ops → ∀ i m, (makers ops)[i]? = some m → (s.cons i).kind = Maker.kind m := by
  induction ops using List.reverseRecOn with
  | nil => intro s _ _ i m h; cases h
  | append_singleton ops o ih =>
    intro s2 h hs i m hm
    obtain ⟨s, h1, h2⟩ := hand_run_snoc h
    obtain ⟨hs1, hk⟩ := scoped_snoc hs
    have A := hand_at ops h1 hs1
    have ih := ih h1 hs1
    cases o with
    | make m' =>
      simp only [Hand.step] at h2
      by_cases hf : Maker.Fits m'
      · obtain ⟨c, hc, hh⟩ := (maker_fits m').1 hf
        rw [hc] at h2
        cases h2
        have hmk : makers (ops ++ [.make m']) = makers ops ++ [m'] := by simp [makers, hf]
        rw [hmk] at hm
        dsimp only
        by_cases e : i = s.nCons
        · subst e
          rw [Function.update_self, hh.kind]
          rw [A.nCons, List.getElem?_append_right (le_refl _), Nat.sub_self] at hm
          cases hm
          rfl
        · rw [Function.update_of_ne e]
          have hlt : i < (makers ops).length := by
            have := (List.getElem?_eq_some_iff.1 hm).1
            rw [List.length_append, List.length_singleton, ← A.nCons] at this
            rw [← A.nCons]; omega
          rw [List.getElem?_append_left hlt] at hm
          exact ih i m hm
      · rw [(maker_fits m').2 hf] at h2
        cases h2
        have hmk : makers (ops ++ [.make m']) = makers ops := by simp [makers, hf]
        rw [hmk] at hm
        exact ih i m hm
    | set j u =>
      have hj : j < s.nCons := by rw [A.nCons]; exact hk
      have hmk : makers (ops ++ [.set j u]) = makers ops := by simp [makers]
      rw [hmk] at hm
      obtain ⟨c', hc', rfl⟩ : ∃ c', (u.apply nd (s.cons j)).state? = some c' ∧
          s2 = { s with cons := Function.update s.cons j c' } := by
        simp only [Hand.step, if_pos hj] at h2
        cases e : u.apply nd (s.cons j) with
        | ok c b => rw [e] at h2; cases h2; exact ⟨c, rfl, rfl⟩
        | throw c => rw [e] at h2; cases h2; exact ⟨c, rfl, rfl⟩
        | abort => rw [e] at h2; cases h2
        | ub => rw [e] at h2; cases h2
      dsimp only
      by_cases e : i = j
      · subst e
        rw [Function.update_self, apply_kind hc']
        exact ih i m hm
      · rw [Function.update_of_ne e]
        exact ih i m hm
    | newLevel => cases h2; exact ih i m (by simpa [makers] using hm)
    | append l w j =>
      simp only [Hand.step] at h2
      split at h2 <;> cases h2 <;> exact ih i m (by simpa [makers] using hm)
    | newProblem => cases h2; exact ih i m (by simpa [makers] using hm)
    | appendLevel d' l =>
      simp only [Hand.step] at h2
      split at h2 <;> cases h2 <;> exact ih i m (by simpa [makers] using hm)
    | resize d' n =>
      simp only [Hand.step] at h2
      split at h2 <;> cases h2 <;> exact ih i m (by simpa [makers] using hm)

theorem hand_run_snoc_some [Zero K] [One K] {nd : Bool} {o : HandCall K} : ∀ {ops : List (HandCall K)} {s s1 : Hand K},
    Hand.run nd s ops = some s1 → Hand.run nd s (ops ++ [o]) = (Hand.step nd s1 o).state?
  | [], s, s1, h => by
    cases h
    simp only [List.nil_append, Hand.run]
    cases (Hand.step nd s o).state? <;> rfl
  | p :: ps, s, s1, h => by
    simp only [List.cons_append, Hand.run] at h ⊢
    split at h
    · exact hand_run_snoc_some h
    · cases h

/-- **C101, programs run.** A program that uses no variable before it exists ends, in release builds; in debug builds it
does so exactly when no vector is given to an inequality or bound, and no limit to an equality (assertions). -/
theorem C101_runs [Zero K] [One K] (nd : Bool) (ops : List (HandCall K)) (hs : Scoped ops) :
    (Hand.run nd Hand.init ops).isSome ↔ nd = true ∨ AllSuit ops := by
  induction ops using List.reverseRecOn with
  | nil => exact ⟨fun _ => .inr fun pre i u post h => (by simp at h), fun _ => rfl⟩
  | append_singleton ops o ih =>
    obtain ⟨hs1, hk⟩ := scoped_snoc hs
    have ih := ih hs1
    have hall : AllSuit (ops ++ [o]) ↔ AllSuit ops ∧ ∀ i u, o = .set i u → ∀ m, (makers ops)[i]? = some m → ConCall.Suits m u := by
      refine ⟨fun h => ⟨fun pre i u post e => h pre i u (post ++ [o]) (by rw [e]; simp), fun i u e => h ops i u [] (by rw [e])⟩,
        fun h pre i u post e => ?_⟩
      rcases List.eq_nil_or_concat post with rfl | ⟨post', p, rfl⟩
      · have := List.append_inj' e (by simp)
        obtain ⟨e1, e2⟩ := this
        subst e1
        exact h.2 i u (by simpa using e2)
      · have e' : ops ++ [o] = (pre ++ .set i u :: post') ++ [p] := by rw [e]; simp
        obtain ⟨e1, -⟩ := List.append_inj' e' (by simp)
        exact h.1 pre i u post' e1
    cases h : Hand.run nd Hand.init ops with
    | none =>
      rw [h] at ih
      have hno : ¬ (nd = true ∨ AllSuit ops) := fun hh => by have := ih.2 hh; cases this
      constructor
      · intro hh
        obtain ⟨s2, h2⟩ := Option.isSome_iff_exists.1 hh
        obtain ⟨s1, r1, -⟩ := hand_run_snoc h2
        rw [h] at r1; cases r1
      · intro hh
        exact absurd (hh.imp id fun z => (hall.1 z).1) hno
    | some s =>
      rw [h] at ih
      have hyes := ih.1 rfl
      have A := hand_at ops h hs1
      rw [hand_run_snoc_some h, hall]
      by_cases hset : ∃ i u, o = .set i u
      · obtain ⟨j, u, rfl⟩ := hset
        have hj : j < s.nCons := by rw [A.nCons]; exact hk
        have hm := List.getElem?_eq_getElem (l := makers ops) hk
        have hkind := hand_kinds ops h hs1 j _ hm
        have key : (Hand.step nd s (.set j u)).state?.isSome ↔ (u.apply nd (s.cons j)).state?.isSome := by
          simp only [Hand.step, if_pos hj]
          cases u.apply nd (s.cons j) <;> simp [Res.state?]
        rw [key, apply_runs hkind]
        constructor
        · rintro (hh | hh)
          · exact .inl hh
          · rcases hyes with hy | hy
            · exact .inl hy
            · refine .inr ⟨hy, fun i' u' e m' hm' => ?_⟩
              cases e
              rw [hm] at hm'
              cases hm'
              exact hh
        · rintro (hh | hh)
          · exact .inl hh
          · exact .inr (hh.2 j u rfl _ hm)
      · have hstep : (Hand.step nd s o).state?.isSome := by
          cases o with
          | set i u => exact absurd ⟨i, u, rfl⟩ hset
          | make m => simp only [Hand.step]; split <;> rfl
          | newLevel => rfl
          | newProblem => rfl
          | append l w i => simp only [Hand.step]; split <;> rfl
          | appendLevel d l => simp only [Hand.step]; split <;> rfl
          | resize d n => simp only [Hand.step]; split <;> rfl
        refine ⟨fun _ => hyes.imp id fun hy => ⟨hy, fun i u e => absurd ⟨i, u, e⟩ hset⟩, fun _ => hstep⟩


theorem lastOr_prop {α : Type} {P : α → Prop} {a : α} (ha : P a) {l : List α} (hl : ∀ x ∈ l, P x) : P (lastOr a l) := by
  unfold lastOr
  cases h : l.getLast? with
  | none => exact ha
  | some x => exact hl x (List.mem_of_getLast? h)

/-- Constraints whose sizes agree in the text are well formed. -/
theorem holding_wellFormed [Zero K] [One K] {n : Nat} {m : Maker K} {calls : List (ConCall K)} {c : Constraint K}
    (hm : Maker.Fits m) (h : Holding m calls c) (hf : Fitting n m calls) : WellFormed c ∧ c.cols = n := by
  have hsz := holding_size h
  have hv : Maker.kind m = .equality → c.vec.size = (Maker.matrix m).rows := fun hk => by
    rw [h.vector]
    refine lastOr_prop (P := fun v : Vec K => v.size = (Maker.matrix m).rows) ?_ fun v hv => ?_
    · cases m <;> first | rfl | exact (Eq.symm hm) | cases hk
    · obtain ⟨u, hu, e⟩ := List.mem_filterMap.1 hv
      cases u <;> first | cases e | skip
      next b => dsimp only at e; rw [if_pos hk] at e; cases e; exact hf.2 _ hu hk
  have hl : Maker.kind m ≠ .equality → c.lb.size = (Maker.matrix m).rows := fun hk => by
    rw [h.lower]
    refine lastOr_prop (P := fun v : Vec K => v.size = (Maker.matrix m).rows) ?_ fun v hv => ?_
    · cases m <;> first | exact absurd rfl hk | rfl | exact hm.1.symm
    · obtain ⟨u, hu, e⟩ := List.mem_filterMap.1 hv
      cases u <;> first | cases e | skip
      next b => dsimp only at e; rw [if_pos hk] at e; cases e; exact hf.2 _ hu hk
  have hub : Maker.kind m ≠ .equality → c.ub.size = (Maker.matrix m).rows := fun hk => by
    rw [h.upper]
    refine lastOr_prop (P := fun v : Vec K => v.size = (Maker.matrix m).rows) ?_ fun v hv => ?_
    · cases m <;> first | exact absurd rfl hk | rfl | exact hm.2.symm | exact Eq.symm hm
    · obtain ⟨u, hu, e⟩ := List.mem_filterMap.1 hv
      cases u <;> first | cases e | skip
      next b => dsimp only at e; rw [if_pos hk] at e; cases e; exact hf.2 _ hu hk
  have hb : Maker.kind m = .bound → (Maker.matrix m).rows = (Maker.matrix m).cols := fun hk => by
    cases m <;> first | rfl | cases hk
  unfold WellFormed Constraint.cols
  cases hk : c.kind
  · rw [h.kind] at hk
    exact ⟨(hv hk).trans hsz.1.symm, hsz.2.trans hf.1⟩
  · rw [h.kind] at hk
    have hne : Maker.kind m ≠ .equality := by rw [hk]; exact fun h => (by cases h)
    exact ⟨⟨(hl hne).trans hsz.1.symm, (hub hne).trans hsz.1.symm⟩, hsz.2.trans hf.1⟩
  · rw [h.kind] at hk
    have hne : Maker.kind m ≠ .equality := by rw [hk]; exact fun h => (by cases h)
    exact ⟨⟨(hl hne).trans (hub hne).symm, hsz.1.trans (hl hne).symm, hsz.2.trans ((hb hk).symm.trans (hl hne).symm)⟩,
      (hl hne).trans ((hb hk).trans hf.1)⟩

theorem makers_fit {ops : List (HandCall K)} {m : Maker K} (h : m ∈ makers ops) : Maker.Fits m := by
  obtain ⟨o, -, e⟩ := List.mem_filterMap.1 h
  cases o with
  | make m' => dsimp only at e; split at e <;> cases e; assumption
  | _ => cases e

section Solves
variable [Field K] [LinearOrder K] [IsStrictOrderedRing K]

/-- **C101, solution (partial).** A program puts together a problem of two levels, of `n` variables each, with equalities
only in the second.  Then all solvers, however used before, solve the problem that the text of the program says.
Missing: constraints and problems whose sizes are changed later, and what `C85_solves_partial` leaves out. -/
theorem C101_solves_partial (nd b : Bool) (t : Status.HQPStatus) (i : Int) (v : Solve.Objective K)
    {ops : List (HandCall K)} {s : Hand K} (hrun : Hand.run nd Hand.init ops = some s) (hs : Scoped ops) {d n : Nat}
    (hr : ∀ k, .resize d k ∉ ops) {t0 t1 : List (K × Nat)} (ht : problemText d ops = [t0, t1]) (hne : t0 ≠ [])
    (hfit : ∀ e ∈ t0 ++ t1, NeverResized e.2 ops ∧ ∀ m, (makers ops)[e.2]? = some m → Fitting n m (conCalls e.2 ops))
    (heq : ∀ e ∈ t1, ∀ m, (makers ops)[e.2]? = some m → Maker.kind m = .equality) :
    ∃ l0 l1, s.read d = [l0, l1] ∧ Delivered ops [t0, t1] [l0, l1] ∧
    SolvesProblem Solve.eiq nd (Solve.Eiq.init t i v) EiqSat (fun a => ∃ w, a.objective = .num w) n true l0 l1
      (CostOf n true l1) ∧
    SolvesProblem Solve.fast nd (Solve.Eiq.init t i v) EiqSat (fun a => a.code = .optimal) n true l0 l1
      (CostOf n true l1) ∧
    (∀ fresh freshI, SolvesProblem Solve.rt nd
      (Solve.Rt.init fresh freshI n (Solver.count l0).1 (Solver.count l0).2 t i v) EiqSat (fun a => a.code = .optimal)
      n true l0 l1 (CostOf n true l1)) ∧
    SolvesProblem Solve.prox nd (Solve.Prox.init t i v) ProxSat (fun a => a.code = .solved) n false l0 l1
      (CostOf n false l1) ∧
    SolvesProblem Solve.osqp nd (Solve.Osqp.init t i v) OsqpSat (fun a => a.code = .solved) n false l0 l1
      (CostOf n false l1) ∧
    ((∀ e ∈ t0, ∀ m, (makers ops)[e.2]? = some m → Maker.kind m ≠ .bound) →
      SolvesProblem Solve.mad nd (Solve.Mad.init b t i v) MadSat (fun a => a.code = .ok) n true l0 l1
        fun _ v => v = .plusInfinity) := by
  have hd : Delivered ops [t0, t1] (s.read d) := by
    rw [← ht]
    refine C101_read_partial hrun hs hr fun l hl e he => (hfit e ?_).1
    rw [ht] at hl
    rcases List.mem_cons.1 hl with rfl | hl
    · exact List.mem_append_left _ he
    · rw [List.mem_singleton.1 hl] at he; exact List.mem_append_right _ he
  obtain ⟨l0, l1, hl⟩ : ∃ l0 l1, s.read d = [l0, l1] := by
    unfold Delivered at hd
    match hq : s.read d, hd with
    | [l0, l1], _ => exact ⟨l0, l1, rfl⟩
    | [], h => cases h
    | [_], h => cases h with | cons _ h => cases h
    | _ :: _ :: _ :: _, h => cases h with | cons _ h => cases h with | cons _ h => cases h
  rw [hl] at hd
  refine ⟨l0, l1, hl, hd, ?_⟩
  obtain ⟨h0, h1⟩ : List.Forall₂ _ t0 l0 ∧ List.Forall₂ _ t1 l1 := by
    cases hd with | cons a h => cases h with | cons c _ => exact ⟨a, c⟩
  have hback : ∀ {tt : List (K × Nat)} {l : Level K}, List.Forall₂ (fun e q => q.1 = e.1 ∧ ∃ m, (makers ops)[e.2]? = some m ∧
      Holding m (conCalls e.2 ops) q.2) tt l → ∀ q ∈ l, ∃ e ∈ tt, ∃ m, (makers ops)[e.2]? = some m ∧
      Holding m (conCalls e.2 ops) q.2 := by
    intro tt l h
    induction h with
    | nil => intro q hq; cases hq
    | cons a _ ih =>
      intro q hq
      rcases List.mem_cons.1 hq with rfl | hq
      · exact ⟨_, List.mem_cons_self, a.2⟩
      · obtain ⟨e, he, z⟩ := ih q hq
        exact ⟨e, List.mem_cons_of_mem _ he, z⟩
  have ok : ∀ {tt : List (K × Nat)} {l : Level K}, (∀ e ∈ tt, e ∈ t0 ++ t1) →
      List.Forall₂ (fun e q => q.1 = e.1 ∧ ∃ m, (makers ops)[e.2]? = some m ∧ Holding m (conCalls e.2 ops) q.2) tt l →
      LevelOK n l := by
    intro tt l hsub h q hq
    obtain ⟨e, he, m, hm, hh⟩ := hback h q hq
    exact holding_wellFormed (makers_fit (List.mem_of_getElem? hm)) hh ((hfit e (hsub e he)).2 m hm)
  have ha : Admissible n l0 (some l1) := by
    refine ⟨fun e => ?_, ok (fun e he => List.mem_append_left _ he) h0, fun l e => ?_⟩
    · subst e; cases h0; exact hne rfl
    · cases e
      refine ⟨fun q hq => ?_, ok (fun e he => List.mem_append_right _ he) h1⟩
      obtain ⟨e, he, m, hm, hh⟩ := hback h1 q hq
      rw [hh.kind]; exact heq e he m hm
  obtain ⟨k1, k2, k3, k4, k5, k6⟩ := C85_solves_partial nd b t i v ha
  refine ⟨k1, k2, k3, k4, k5, fun hnb => k6 ?_⟩
  rintro ⟨q, hq, hb⟩
  obtain ⟨e, he, m, hm, hh⟩ := hback h0 q hq
  exact hnb e he m hm (hh.kind.symm.trans hb)

end Solves

/-! ## The program of `/repo/tests/python/test_Solvers.py` -/

namespace HandDemo

/-- A row. -/
def rowOf (a b : ℚ) : Mat ℚ := ⟨1, 2, fun _ j => if j = 0 then a else b⟩

/-- A vector of one entry. -/
def one (a : ℚ) : Vec ℚ := ⟨1, fun _ => a⟩

/-- A cost, an inequality and an equality in two levels of a problem; the cost is changed afterwards, and the first level
gets another entry, which is not part of the problem. -/
def script : List (HandCall ℚ) :=
  [.newProblem,
   .make (.eq "c1" (rowOf 1 2) (one 3)),
   .make (.ineq "ini1" (rowOf 0 1) (one (-1)) (one 1)),
   .make (.eq "eq1" (rowOf 1 0) (one 1)),
   .newLevel, .append 0 1 2, .append 0 1 1,
   .newLevel, .append 1 1 0,
   .appendLevel 0 0, .appendLevel 0 1,
   .set 0 (.setMatrix (rowOf 2 2)), .set 0 (.setVector (one 4)),
   .append 0 1 0]

instance decKnown (pre : List (HandCall ℚ)) (o : HandCall ℚ) : Decidable (Known pre o) := by
  cases o <;> simp only [Known] <;> infer_instance

theorem scoped_of_take {ops : List (HandCall ℚ)} (h : ∀ k, (hk : k < ops.length) → Known (ops.take k) ops[k]) : Scoped ops := by
  rintro pre o post rfl
  have := h pre.length (by simp)
  simpa using this

theorem script_scoped : Scoped script := by
  refine scoped_of_take ?_
  decide +kernel

theorem script_runs : ∃ s, Hand.run false Hand.init script = some s :=
  Option.isSome_iff_exists.1 (by decide +kernel)

/-- The first level is the one at the time of `append`; the problem does not see what was appended later. -/
example : problemText 0 script = [[(1, 2), (1, 1)], [(1, 0)]] ∧ levelText 0 script = [(1, 2), (1, 1), (1, 0)] := by
  decide +kernel

example : (makers script).length = 3 ∧ (makers script).map Maker.kind = [.equality, .inequality, .equality] := by
  decide +kernel

/-- The hypotheses of `C101_solves_partial`. -/
theorem script_fits : ∀ e ∈ [((1 : ℚ), 2), (1, 1)] ++ [(1, 0)], NeverResized e.2 script ∧
    ∀ m, (makers script)[e.2]? = some m → Fitting 2 m (conCalls e.2 script) := by
  intro e he
  simp only [List.cons_append, List.nil_append, List.mem_cons, List.not_mem_nil, or_false] at he
  rcases he with rfl | rfl | rfl
  · refine ⟨fun r c h => (by simp [conCalls, script] at h), fun m hm => ?_⟩
    have : m = .eq "eq1" (rowOf 1 0) (one 1) := by
      simp [makers, script, Maker.Fits, rowOf, one] at hm; exact hm.symm
    subst this
    exact ⟨rfl, fun u hu => (by simp [conCalls, script] at hu)⟩
  · refine ⟨fun r c h => (by simp [conCalls, script] at h), fun m hm => ?_⟩
    have : m = .ineq "ini1" (rowOf 0 1) (one (-1)) (one 1) := by
      simp [makers, script, Maker.Fits, rowOf, one] at hm; exact hm.symm
    subst this
    exact ⟨rfl, fun u hu => (by simp [conCalls, script] at hu)⟩
  · refine ⟨fun r c h => (by simp [conCalls, script] at h), fun m hm => ?_⟩
    have : m = .eq "c1" (rowOf 1 2) (one 3) := by
      simp [makers, script, Maker.Fits, rowOf, one] at hm; exact hm.symm
    subst this
    refine ⟨rfl, fun u hu => ?_⟩
    simp [conCalls, script] at hu
    rcases hu with rfl | rfl
    · trivial
    · exact fun _ => rfl

example : ∀ e ∈ [((1 : ℚ), 0)], ∀ m, (makers script)[e.2]? = some m → Maker.kind m = .equality := by
  intro e he m hm
  rw [List.mem_singleton.1 he] at hm
  simp [makers, script, Maker.Fits, rowOf, one] at hm
  rw [← hm]; rfl

example : ∀ k, HandCall.resize 0 k ∉ script := fun k h => by simp [script] at h

/-- What the solver sees: the changed cost. -/
example : (Hand.run false Hand.init script).map (fun s => (s.read 0).map fun l => l.map fun q => (q.2.name, q.2.mat 0 0, q.2.vec.size)) =
    some [[("eq1", 1, 1), ("ini1", 0, 0)], [("c1", 2, 1)]] := by decide +kernel

/-- The problem filled after `resize(2)`. -/
def resizing : List (HandCall ℚ) :=
  [.newProblem, .make (.eq "c1" (rowOf 1 2) (one 3)), .newLevel, .append 0 1 0, .newLevel, .append 1 1 0,
   .resize 0 2, .appendLevel 0 0, .appendLevel 0 1]

example : Scoped resizing ∧ (Hand.run true Hand.init resizing).map (fun s => s.problem 0) = some [[], [], [(1, 0)], [(1, 0)]] := by
  refine ⟨scoped_of_take ?_, ?_⟩ <;> decide +kernel

/-- A vector given to an inequality: the program ends in release builds only. -/
example : (Hand.run true Hand.init [.make (.boundZero "b" 1), .set 0 (.setVector (one 1))]).isSome = true ∧
    (Hand.run false Hand.init [.make (.boundZero "b" 1), .set 0 (.setVector (one 1))]).isSome = false := by decide +kernel

end HandDemo

/-- **C101, sizes that do not agree.** After a vector of another size, which `setVector` accepts, the solver gets a
constraint that is not well formed. -/
theorem C101_unchecked_vector : ∃ (ops : List (HandCall ℚ)) (s : Hand ℚ), Hand.run false Hand.init ops = some s ∧ Scoped ops ∧
    problemText 0 ops = [[(1, 0)]] ∧ ∃ l, s.read 0 = [l] ∧ ∃ q ∈ l, ¬ WellFormed q.2 := by
  refine ⟨[.newProblem, .make (.eq "c" (HandDemo.rowOf 1 2) (HandDemo.one 3)), .newLevel, .append 0 1 0, .appendLevel 0 0,
    .set 0 (.setVector ⟨2, fun _ => 0⟩)], _, rfl, HandDemo.scoped_of_take (by decide +kernel), by decide +kernel, _, rfl, _,
    List.mem_singleton.2 rfl, ?_⟩
  intro h
  exact absurd (show (2 : Nat) = 1 from h) (by decide)

end Tsid.Props
