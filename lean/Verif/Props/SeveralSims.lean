import Verif.Model.SeveralSims
import Verif.Props.Views
import Verif.Props.SimLinks
import Verif.Props.Again
import Verif.Props.Carried

/-!
# Simulations of several problems (C114)
-/

namespace Sloth
open PyS Spec

section
variable {K : Type} [Field K] [LinearOrder K] (ext : Ext K) (I : Interp K)

theorem ManyS.on_some {m : ManyS K} {j : Nat} {p : ProblemObj} (h : m.prs[j]? = some p) (x : PyS K Unit) :
    m.on j x = ((x (m.s.under p)).1, { m with s := (x (m.s.under p)).2.under m.s.w.pr, prs := m.prs.set j (x (m.s.under p)).2.w.pr }) := by
  unfold ManyS.on; rw [h]

/-! ## A simulation without a problem -/

/-- What a run without a problem ends with: in the order in which Python meets the difficulties. -/
def Spec.bareRun (o : SimObj K) : Err :=
  match o.conf with
  | none => .typeError
  | some c =>
    if "problem_type" ∉ dkeys c ∨ "number_parameters_to_optimize" ∉ dkeys c then .keyError
    else if dget c "problem_type" = some .none then .attributeError
    else if (["linear", "nonlinear", "differential", "differential-algebraic"].any fun t => dget c "problem_type" = some (.str t)) = false then .unexpectedValue
    else if (["linear_solver", "nonlinear_solver", "differential_solver", "differential_algebraic_solver"].all fun k => k ∈ dkeys c) then .attributeError
    else .keyError

theorem ManyS.off_self {m : ManyS K} {x : PyS K Unit} {e : Except Err Unit} (h : x (m.s.under {}) = (e, m.s.under {})) : m.off x = (e, m) := by
  unfold ManyS.off
  rw [h]
  rfl

theorem dgetE_missing {c : Conf} {k : String} (h : k ∉ dkeys c) : dgetE c k = .error .keyError := by
  rw [dgetE, (dget_eq_none_iff ..).2 h]

theorem dgetE_present {c : Conf} {k : String} (h : k ∈ dkeys c) : ∃ v, dgetE c k = .ok v ∧ dget c k = some v := by
  cases hk : dget c k with
  | none => exact absurd h ((dget_eq_none_iff ..).1 hk)
  | some v => exact ⟨v, by rw [dgetE, hk], rfl⟩

theorem lift_error_run {α : Type} {x : Except Err α} {e : Err} (h : x = .error e) (s : SimWorld K) : (lift x : PyS K α) s = (.error e, s) := by rw [h]; rfl

/-- Without a block a solver is not created. -/
theorem createSolver_bare {s : SimWorld K} (hb : s.w.pr.block = none) (c : Conf) : createSolver ext c s =
    (.error (if (["linear_solver", "nonlinear_solver", "differential_solver", "differential_algebraic_solver"].all fun k => k ∈ dkeys c) then .attributeError else .keyError), s) := by
  unfold createSolver
  by_cases h1 : "linear_solver" ∈ dkeys c
  swap
  · rw [bind_of_error (lift_error_run (dgetE_missing h1) s)]; simp [h1]
  obtain ⟨v1, e1, -⟩ := dgetE_present h1
  rw [bind_lift_ok e1]
  by_cases h2 : "nonlinear_solver" ∈ dkeys c
  swap
  · rw [bind_of_error (lift_error_run (dgetE_missing h2) s)]; simp [h2]
  obtain ⟨v2, e2, -⟩ := dgetE_present h2
  rw [bind_lift_ok e2]
  by_cases h3 : "differential_solver" ∈ dkeys c
  swap
  · rw [bind_of_error (lift_error_run (dgetE_missing h3) s)]; simp [h3]
  obtain ⟨v3, e3, -⟩ := dgetE_present h3
  rw [bind_lift_ok e3]
  by_cases h4 : "differential_algebraic_solver" ∈ dkeys c
  swap
  · rw [bind_of_error (lift_error_run (dgetE_missing h4) s)]; simp [h4]
  obtain ⟨v4, e4, -⟩ := dgetE_present h4
  rw [bind_lift_ok e4, bind_of_error (e := .attributeError) (s1 := s) (by rw [getBlock, hb])]
  simp [h1, h2, h3, h4]

/-- The run of a simulation whose problem has no block. -/
theorem run_bare {s : SimWorld K} (hb : s.w.pr.block = none) {i : SRef} {o : SimObj K} (ho : s.sims[i]? = some o) (a : RunArgs) :
    runSimulation ext I i a s = (.error (Spec.bareRun o), s) := by
  unfold runSimulation
  rw [bind_of_ok (getSim_ok.2 ⟨ho, rfl⟩)]
  unfold Spec.bareRun
  cases hc : o.conf with
  | none => rfl
  | some c =>
    rw [bind_of_ok (lift_ok.2 ⟨rfl, rfl⟩)]
    simp only []
    by_cases h1 : "problem_type" ∈ dkeys c
    swap
    · rw [bind_of_error (lift_error_run (dgetE_missing h1) s), if_pos (.inl h1)]
    obtain ⟨pt, e1, g1⟩ := dgetE_present h1
    rw [bind_lift_ok e1]
    by_cases h2 : "number_parameters_to_optimize" ∈ dkeys c
    swap
    · rw [bind_of_error (lift_error_run (dgetE_missing h2) s), if_pos (.inr h2)]
    obtain ⟨n, e2, -⟩ := dgetE_present h2
    rw [bind_lift_ok e2, if_neg (by simp [h1, h2]), g1]
    by_cases hn : pt = .none
    · subst hn
      rw [if_pos rfl, bind_of_error (e := .attributeError) (s1 := s)]
      unfold askKind
      rw [if_pos rfl]
      show (getBlock >>= _) s = _
      rw [bind_of_error (e := .attributeError) (s1 := s) (by rw [getBlock, hb])]
    · rw [if_neg (by simpa using hn), bind_of_ok (a := none) (s1 := s) (by rw [askKind, if_neg hn]; rfl)]
      by_cases hr : runnable pt none = true
      · have hany : (["linear", "nonlinear", "differential", "differential-algebraic"].any fun t => some pt = some (CVal.str t)) = true := by
          unfold runnable at hr
          split at hr
          · cases hr
          · rename_i t _
            simp only [List.contains_eq_any_beq] at hr
            rw [List.any_eq_true] at hr ⊢
            obtain ⟨x, hx, hh⟩ := hr
            exact ⟨x, hx, by simpa using hh⟩
          · cases hr
        rw [if_neg (by rw [hany]; simp), hr]
        have hw : (when (!true) (PyS.raise .unexpectedValue) : PyS K Unit) s = (.ok (), s) := rfl
        rw [bind_of_ok hw, bind_of_error (createSolver_bare ext hb c)]
      · have hany : (["linear", "nonlinear", "differential", "differential-algebraic"].any fun t => some pt = some (CVal.str t)) = false := by
          rw [Bool.eq_false_iff]
          intro hh
          rw [List.any_eq_true] at hh
          obtain ⟨x, hx, hh⟩ := hh
          have : pt = .str x := by simpa using hh
          subst this
          exact hr (by unfold runnable; simpa using hx)
        rw [if_pos hany, bind_of_error (e := .unexpectedValue) (s1 := s)]
        rw [Bool.not_eq_true] at hr
        rw [hr]; rfl

/-- **C114.** Without a problem a simulation neither runs nor has a status: both are refused, with this exception, and nothing changes ... -/
theorem run_without_problem {m : ManyS K} {i : SRef} {o : SimObj K} (hl : m.links[i]? = some none) (ho : m.s.sims[i]? = some o) (a : RunArgs) :
    m.call ext I i (.run a) = (.error (Spec.bareRun o), m) ∧ m.call ext I i .status = (.error .attributeError, m) := by
  constructor
  · unfold ManyS.call
    rw [hl]
    exact ManyS.off_self (run_bare ext I (s := m.s.under {}) rfl ho a)
  · unfold ManyS.call
    rw [hl]
    refine ManyS.off_self ?_
    show (PyS.bind (getStatus i) fun _ => PyS.pure ()) _ = _
    have : (getStatus i : PyS K Nat) (m.s.under {}) = (.error .attributeError, m.s.under {}) := by
      unfold getStatus
      refine bind_of_error ?_
      unfold getResults
      rw [bind_of_ok (getSim_ok.2 ⟨(show (m.s.under {}).sims[i]? = some o from ho), rfl⟩)]
      exact bind_of_error rfl
    exact bind_of_error this

theorem ManyS.off_sims {m : ManyS K} {x : PyS K Unit} {e : Except Err Unit} {l : List (SimObj K)} (h : x (m.s.under {}) = (e, { m.s.under {} with sims := l })) :
    m.off x = (e, { m with s := { m.s with sims := l } }) := by
  unfold ManyS.off
  rw [h]
  rfl

/-- ... and it cannot be configured as dynamic unless the name of time is given, or the settings come from a file or a dictionary: then the problem is asked for
the name.  Otherwise the problem does not matter. -/
theorem configure_without_problem {m : ManyS K} {i : SRef} {o : SimObj K} (hl : m.links[i]? = some none) (ho : m.s.sims[i]? = some o) (kw : Conf) (f d : Option Conf) :
    (∀ k ∈ dkeys kw, k ∉ dkeys confDefaults → m.call ext I i (.configure kw f d) = (.error .typeError, m)) ∧
    (f = none → d = none → (∀ k ∈ dkeys kw, k ∈ dkeys confDefaults) → dget (dupdate confDefaults kw) "time_variable_name" = some .none →
      dget (dupdate confDefaults kw) "is_dynamic" = some (.bool true) → m.call ext I i (.configure kw f d) = (.error .attributeError, m)) ∧
    ((f ≠ none ∨ d ≠ none ∨ dget (dupdate confDefaults kw) "time_variable_name" ≠ some .none ∨ dget (dupdate confDefaults kw) "is_dynamic" ≠ some (.bool true)) → ∀ t,
      (∀ c, configure t kw f d = .ok c → m.call ext I i (.configure kw f d) = (.ok (), { m with s := { m.s with sims := m.s.sims.set i { o with conf := some c } } })) ∧
      ∀ e, configure t kw f d = .error e → m.call ext I i (.configure kw f d) = (.error e, m)) := by
  have hcall : m.call ext I i (.configure kw f d) = m.off (do when (asksTimeName kw f d) (PyS.raise .attributeError); setConfigurations i kw f d) := by
    unfold ManyS.call; rw [hl]; rfl
  have hbind : (∀ k ∈ dkeys kw, k ∈ dkeys confDefaults) → bindArgs kw = .ok (dupdate confDefaults kw) := fun h => by
    unfold bindArgs
    rw [if_pos]
    rw [List.all_eq_true]
    intro p hp
    obtain ⟨v, -, hv⟩ := dgetE_present (h p.1 (List.mem_map_of_mem hp))
    rw [hv]; rfl
  have hget : (PyS.get : PyS K _) (m.s.under {}) = (.ok (m.s.under {}), m.s.under {}) := rfl
  have hset : ∀ e, configure (m.s.under {}).w.pr.timeName kw f d = .error e → (setConfigurations i kw f d : PyS K Unit) (m.s.under {}) = (.error e, m.s.under {}) := fun e he => by
    unfold setConfigurations
    rw [bind_of_ok hget, bind_of_error (lift_error_run he _)]
  have hok : ∀ c, configure (m.s.under {}).w.pr.timeName kw f d = .ok c →
      (setConfigurations i kw f d : PyS K Unit) (m.s.under {}) = (.ok (), { m.s.under {} with sims := m.s.sims.set i { o with conf := some c } }) := fun c hc => by
    unfold setConfigurations
    rw [bind_of_ok hget, bind_lift_ok hc, bind_of_ok (getSim_ok.2 ⟨(show (m.s.under {}).sims[i]? = some o from ho), rfl⟩)]
    rfl
  have hpass : asksTimeName kw f d = false → ∀ x : PyS K Unit, (do when (asksTimeName kw f d) (PyS.raise .attributeError); x : PyS K Unit) (m.s.under {}) = x (m.s.under {}) := fun h x => by
    rw [h]
    have hw : (when false (PyS.raise .attributeError) : PyS K Unit) (m.s.under {}) = (.ok (), m.s.under {}) := rfl
    rw [bind_of_ok hw]
  refine ⟨fun k hk hn => ?_, fun hf hd hk h1 h2 => ?_, fun hq t => ?_⟩
  · have hb : bindArgs kw = .error .typeError := by
      unfold bindArgs
      rw [if_neg]
      intro hall
      rw [List.all_eq_true] at hall
      obtain ⟨p, hp, rfl⟩ := List.mem_map.mp hk
      have := hall p hp
      rw [(dget_eq_none_iff ..).2 hn] at this
      cases this
    rw [hcall]
    refine ManyS.off_self ?_
    rw [hpass (by unfold asksTimeName; rw [hb]; simp)]
    exact hset _ (by unfold configure; rw [hb]; rfl)
  · rw [hcall]
    refine ManyS.off_self ?_
    have : asksTimeName kw f d = true := by unfold asksTimeName; rw [hbind hk, hf, hd]; simp [h1, h2]
    rw [this]
    exact bind_of_error rfl
  · have hat : asksTimeName kw f d = false := by
      unfold asksTimeName
      rcases hq with h | h | h | h
      · cases f <;> simp_all
      · cases d <;> simp_all
      all_goals
        cases hb : bindArgs kw with
        | error e => simp
        | ok a =>
          have : a = dupdate confDefaults kw := by unfold bindArgs at hb; split at hb <;> cases hb; rfl
          subst this
          simp [h]
    have hsame : configure (m.s.under {}).w.pr.timeName kw f d = configure t kw f d := by
      unfold configure
      cases hb : bindArgs kw with
      | error e => rfl
      | ok a =>
        have : a = dupdate confDefaults kw := by unfold bindArgs at hb; split at hb <;> cases hb; rfl
        subst this
        have hsrc : ∀ t', confSource t' (dupdate confDefaults kw) f d = confSource t (dupdate confDefaults kw) f d := fun t' => by
          unfold confSource confFromArgs
          cases f <;> cases d <;> first | rfl | skip
          rcases hq with h | h | h | h
          · exact absurd rfl h
          · exact absurd rfl h
          · simp [h]
          · simp [h]
        show (dgetE _ _ >>= fun n => confOptimize n _) = (dgetE _ _ >>= fun n => confOptimize n _)
        rw [hsrc]
    refine ⟨fun c hc => ?_, fun e he => ?_⟩
    · rw [hcall]
      exact ManyS.off_sims (by rw [hpass hat]; exact hok c (hsame.trans hc))
    · rw [hcall]
      exact ManyS.off_self (by rw [hpass hat]; exact hset e (hsame.trans he))

/-! ## What a simulation leaves alone -/

theorem keeps_run_solver {τ : Type} {f : SimWorld K → τ} {i : SRef} (a : RunArgs) {s : SimWorld K}
    (hc : ∀ o c, s.sims[i]? = some o → o.conf = some c → f (createSolver ext c s).2 = f s)
    (h : ∀ o c sv s1, s.sims[i]? = some o → o.conf = some c → createSolver ext c s = (.ok sv, s1) → Keeps f (solveStore ext I i c sv))
    (hs : ∀ s o p, s.sims[i]? = some o → f { s with sims := s.sims.set i { o with status := p } } = f s) : f (runSimulation ext I i a s).2 = f s := by
  cases hos : s.sims[i]? with
  | none =>
    unfold runSimulation
    rw [bind_of_error (e := .exception "dangling") (s1 := s) (by rw [PyS.getSim, hos])]
  | some o =>
    cases hcf : o.conf with
    | none =>
      unfold runSimulation
      rw [bind_of_ok (getSim_ok.2 ⟨hos, rfl⟩), hcf]; rfl
    | some c =>
      unfold runSimulation
      rw [bind_of_ok (getSim_ok.2 ⟨hos, rfl⟩), bind_lift_ok (a := c) (by rw [hcf])]
      cases h1 : dgetE c "problem_type" with
      | error e => rw [bind_lift_error rfl]
      | ok pt =>
        rw [bind_lift_ok rfl]
        cases h2 : dgetE c "number_parameters_to_optimize" with
        | error e => rw [bind_lift_error rfl]
        | ok n =>
          rw [bind_lift_ok rfl]
          rcases ha : askKind pt s with ⟨e | k, s0⟩
          · rw [bind_of_error ha]
            exact congrArg f (askKind_reads ha)
          · obtain rfl := (askKind_same ha).symm
            rw [bind_of_ok ha]
            cases hrun : runnable pt k with
            | false => rw [Bool.not_false, bind_when_raise]
            | true =>
              rw [Bool.not_true, bind_when_false]
              have hc' := hc o c hos hcf
              cases hcs : createSolver ext c s with
              | mk x s1 =>
                rw [hcs] at hc'
                cases x with
                | error e => rw [bind_of_error hcs]; exact hc'
                | ok sv =>
                  rw [bind_of_ok hcs]
                  exact (Keeps.bind (keeps_sanity f ext a.sanity) (fun _ => Keeps.bind (h o c sv s1 hos hcf hcs) (fun _ => keeps_epilogue hs pt a.showMsg a.showResiduals)) s1).trans hc'

/-- The run of an algebraic problem leaves all domains as they are. -/
theorem algebraic_run_doms {i : SRef} {s : SimWorld K} {b : Block} (hb : s.w.pr.block = some b) (hk : b.problemType = some .linear ∨ b.problemType = some .nonlinear) (a : RunArgs) :
    (runSimulation ext I i a s).2.doms = s.doms := by
  refine keeps_run_solver ext I (f := fun s => s.doms) a (fun _ c _ _ => keeps_createSolver (f := fun s => s.doms) (fun _ _ => rfl) (fun _ _ _ _ => rfl) ext c s) ?_ (fun _ _ _ _ => rfl)
  intro o c sv s1 _ _ hcs
  obtain ⟨b', k, hb', hk', hcl⟩ := createSolver_kind hcs
  obtain rfl : b = b' := Option.some.inj (hb.symm.trans hb')
  rw [hk'] at hk
  have hsv : Keeps (fun s : SimWorld K => s.doms) (sv.solve ext I c) := by
    cases sv with
    | la m => exact Keeps.bind (keeps_laSolve (fun _ _ => rfl) _ _ _) fun _ => Keeps.pure _ _
    | nla m => exact Keeps.bind (keeps_nlaSolve (fun _ _ => rfl) _ _ _ _) fun _ => Keeps.pure _ _
    | d o => rcases hk with hk | hk <;> cases hk <;> exact absurd hcl (by simp [Spec.OfClass])
    | dae o => rcases hk with hk | hk <;> cases hk <;> exact absurd hcl (by simp [Spec.OfClass])
  unfold solveStore
  exact Keeps.bind hsv fun out => keeps_setSim (fun s o h => rfl) fun _ =>
    Keeps.bind (Keeps.lift _ _) fun d => Keeps.bind (Keeps.getSim _ _) fun _ => Keeps.modify fun _ => rfl

/-- The heap without its problem. -/
theorem withPr_of_core {w w' : World} (h : Spec.core w' = Spec.core w) (p : ProblemObj) : w'.withPr p = w.withPr p := by
  have := congrArg (fun w : World => w.withPr p) h
  exact this

/-- Everything in the heap but the block, which solvers write to. -/
theorem exec_core (i : SRef) (c : SimCall) (s : SimWorld K) : Spec.core ((c.op i).exec ext I s).2.w = Spec.core s.w := by
  cases c with
  | configure kw f d =>
    show Spec.core (setConfigurations i kw f d s).2.w = _
    unfold setConfigurations
    refine (Keeps.bind (f := fun s : SimWorld K => Spec.core s.w) (x := PyS.get) (fun _ => rfl) fun s1 => Keeps.bind (Keeps.lift _ _) fun c => Keeps.bind (Keeps.getSim _ _) fun o => ?_) s
    exact Keeps.modify fun _ => rfl
  | run a => exact (run_keeps_problem_partial ext I i a s).1
  | status => exact Keeps.bind (f := fun s : SimWorld K => Spec.core s.w) (keeps_getStatus fun _ _ _ _ => rfl) (fun _ => Keeps.pure _ _) s
  | reset =>
    refine (Keeps.bind (f := fun s : SimWorld K => Spec.core s.w) (Keeps.getSim _ _) fun o => ?_) s
    split
    · exact Keeps.bind (Keeps.getD _ _) fun _ => Keeps.modify fun _ => rfl
    · exact Keeps.pure _ _
    · exact Keeps.raise _ _

theorem exec_sims (i : SRef) (c : SimCall) (s : SimWorld K) {k : SRef} (hk : k ≠ i) : ((c.op i).exec ext I s).2.sims[k]? = s.sims[k]? := by
  cases c with
  | configure kw f d =>
    show (setConfigurations i kw f d s).2.sims[k]? = _
    unfold setConfigurations
    exact (Keeps.bind (f := fun s : SimWorld K => s.sims[k]?) (x := PyS.get) (fun _ => rfl) fun s1 => Keeps.bind (Keeps.lift _ _) fun c => Keeps.bind (Keeps.getSim _ _) fun o =>
      Keeps.modify fun _ => getElem?_set_other hk.symm _) s
  | run a => exact (run_leaves_others_partial ext I i a s).1 k hk
  | status => exact Keeps.bind (f := fun s : SimWorld K => s.sims[k]?) (keeps_getStatus fun _ _ _ _ => getElem?_set_other hk.symm _) (fun _ => Keeps.pure _ _) s
  | reset =>
    refine (Keeps.bind (f := fun s : SimWorld K => s.sims[k]?) (Keeps.getSim _ _) fun o => ?_) s
    split
    · exact Keeps.bind (Keeps.getD _ _) fun _ => Keeps.modify fun _ => rfl
    · exact Keeps.pure _ _
    · exact Keeps.raise _ _

/-- **C114.** A method of a simulation, whether it returns or raises, changes no model, equation or quantity, no other problem, no other simulation, and no simulation's
problem; its own problem is changed at most in the list of unknowns and the linear group of the block. -/
theorem call_leaves (m : ManyS K) (i : SRef) (c : SimCall) :
    (m.call ext I i c).2.links = m.links ∧ (m.call ext I i c).2.s.w = m.s.w ∧ (∀ k, k ≠ i → (m.call ext I i c).2.s.sims[k]? = m.s.sims[k]?) ∧
    (∀ k : Nat, m.links[i]? ≠ some (some k) → (m.call ext I i c).2.prs[k]? = m.prs[k]?) ∧
    ∀ (k : Nat) p, m.prs[k]? = some p → ∃ p', (m.call ext I i c).2.prs[k]? = some p' ∧ ∀ w : World, Spec.core (w.withPr p') = Spec.core (w.withPr p) := by
  unfold ManyS.call
  cases hl : m.links[i]? with
  | none => exact ⟨rfl, rfl, fun _ _ => rfl, fun _ _ => rfl, fun k p hp => ⟨p, hp, fun _ => rfl⟩⟩
  | some x =>
    cases x with
    | none =>
      have hcore : Spec.core (c.bare ext I i (m.s.under {})).2.w = Spec.core (m.s.under {}).w := by
        cases c with
        | configure kw f d => exact (Keeps.bind (f := fun s : SimWorld K => Spec.core s.w) (Keeps.when (Keeps.raise _ _)) fun _ => exec_core ext I i (.configure kw f d)) _
        | run a => exact exec_core ext I i (.run a) _
        | status => exact exec_core ext I i .status _
        | reset => exact exec_core ext I i .reset _
      have hsims : ∀ k, k ≠ i → (c.bare ext I i (m.s.under {})).2.sims[k]? = m.s.sims[k]? := fun k hk => by
        cases c with
        | configure kw f d => exact (Keeps.bind (f := fun s : SimWorld K => s.sims[k]?) (Keeps.when (Keeps.raise _ _)) fun _ s => exec_sims ext I i (.configure kw f d) s hk) _
        | run a => exact exec_sims ext I i (.run a) _ hk
        | status => exact exec_sims ext I i .status _ hk
        | reset => exact exec_sims ext I i .reset _ hk
      exact ⟨rfl, withPr_of_core hcore m.s.w.pr, hsims, fun _ _ => rfl, fun k p hp => ⟨p, hp, fun _ => rfl⟩⟩
    | some j =>
      simp only []
      cases hp : m.prs[j]? with
      | none =>
        unfold ManyS.on
        rw [hp]
        exact ⟨rfl, rfl, fun _ _ => rfl, fun _ _ => rfl, fun k p hp => ⟨p, hp, fun _ => rfl⟩⟩
      | some p =>
        rw [ManyS.on_some hp]
        have hcore := exec_core ext I i c (m.s.under p)
        refine ⟨rfl, withPr_of_core hcore m.s.w.pr, fun k hk => exec_sims ext I i c _ hk, fun k hk => getElem?_set_other (fun h => hk (by rw [h])) _, fun k q hq => ?_⟩
        by_cases hk : j = k
        · subst hk
          rw [hp] at hq; cases hq
          refine ⟨_, List.getElem?_set_self (List.getElem?_eq_some_iff.1 hp).1, fun w => ?_⟩
          have := congrArg (fun v : World => w.withPr v.pr) hcore
          exact this
        · exact ⟨q, (getElem?_set_other hk _).trans hq, fun _ => rfl⟩

/-! ## Simulations of different problems -/

theorem exec_confs {i : SRef} {c : SimCall} (hc : ∀ kw f d, c ≠ .configure kw f d) (s : SimWorld K) :
    ((c.op i).exec ext I s).2.sims.map SimObj.conf = s.sims.map SimObj.conf ∧ ((c.op i).exec ext I s).2.lists.length = s.lists.length := by
  have hset : ∀ (s : SimWorld K) (o o' : SimObj K), s.sims[i]? = some o → o'.conf = o.conf → (s.sims.set i o').map SimObj.conf = s.sims.map SimObj.conf := by
    intro s o o' ho h
    refine List.ext_getElem? fun k => ?_
    rw [List.getElem?_map, List.getElem?_map]
    by_cases hk : i = k
    · subst hk
      rw [List.getElem?_set_self (List.getElem?_eq_some_iff.1 ho).1, ho]
      simp [h]
    · rw [getElem?_set_other hk]
  cases c with
  | configure kw f d => exact absurd rfl (hc kw f d)
  | run a =>
    constructor
    · exact keeps_run (f := fun s => s.sims.map SimObj.conf) a
        (fun _ c _ _ => keeps_createSolver (f := fun s => s.sims.map SimObj.conf) (fun _ _ => rfl) (fun _ _ _ _ => rfl) ext c s)
        (fun _ _ => rfl) (fun _ _ => rfl) (fun _ _ _ _ _ _ _ _ _ _ _ _ => rfl) (fun s o p h => hset s o { o with output := p } h rfl)
        (fun s o p h => hset s o { o with domain := p } h rfl) (fun s o p h => hset s o { o with status := p } h rfl)
    · exact keeps_run (f := fun s : SimWorld K => s.lists.length) (ext := ext) (I := I) (i := i) a (s := s) (fun _ c _ _ => createSolver_lists_length ext c s)
        (fun _ _ => rfl) (fun _ _ => rfl) (fun _ _ _ _ _ _ _ _ _ _ _ _ => rfl) (fun _ _ _ _ => rfl) (fun _ _ _ _ => rfl) (fun _ _ _ _ => rfl)
  | status =>
    exact ⟨Keeps.bind (f := fun s : SimWorld K => s.sims.map SimObj.conf) (keeps_getStatus fun s o p h => hset s o { o with status := p } h rfl) (fun _ => Keeps.pure _ _) s,
      Keeps.bind (f := fun s : SimWorld K => s.lists.length) (keeps_getStatus fun s o p h => rfl) (fun _ => Keeps.pure _ _) s⟩
  | reset =>
    have : ∀ {τ : Type} (f : SimWorld K → τ), (∀ s l, f { s with doms := l } = f s) → Keeps f (resetSim i : PyS K Unit) := fun f hf => by
      refine Keeps.bind (Keeps.getSim _ _) fun o => ?_
      split
      · refine Keeps.bind (Keeps.getD _ _) fun _ => ?_
        exact Keeps.modify fun _ => hf _ _
      · exact Keeps.pure _ _
      · exact Keeps.raise _ _
    exact ⟨this (fun s => s.sims.map SimObj.conf) (fun _ _ => rfl) s, this (fun s => s.lists.length) (fun _ _ => rfl) s⟩

/-- Recording keeps the other domains. -/
theorem record_other {conf : Conf} {dom : CVal} {r : DRef} (h : dom ≠ .dom r) (rows : List (List K)) : Keeps (fun s : SimWorld K => s.doms[r]?) (record conf dom rows) := by
  unfold record
  split
  · next r' =>
    have hr : r' ≠ r := fun h' => h (by rw [h'])
    have hset : ∀ d : DomainObj K, Keeps (fun s : SimWorld K => s.doms[r]?) (setD r' d) := fun d _ => List.getElem?_set_ne hr
    refine Keeps.bind (Keeps.getD _ _) fun _ => Keeps.bind (Keeps.lift _ _) fun _ => Keeps.bind (hset _) fun _ => Keeps.bind (Keeps.lift _ _) fun m => ?_
    split
    · exact Keeps.bind (Keeps.lift _ _) fun _ => hset _
    · exact Keeps.raise _ _
  · exact Keeps.raise _ _

theorem solve_other {sv : SolverObj} {r : DRef} (hd : ∀ o, sv = .d o → o.domain ≠ .dom r) (hd' : ∀ o, sv = .dae o → o.domain ≠ .dom r) (conf : Conf) :
    Keeps (fun s : SimWorld K => s.doms[r]?) (sv.solve ext I conf) := by
  have hl : ∀ (s : SimWorld K) l, (fun s : SimWorld K => s.doms[r]?) { s with log := l } = (fun s : SimWorld K => s.doms[r]?) s := fun _ _ => rfl
  cases sv with
  | la m => exact Keeps.bind (keeps_laSolve hl _ _ _) fun _ => Keeps.pure _ _
  | nla m => exact Keeps.bind (keeps_nlaSolve hl _ _ _ _) fun _ => Keeps.pure _ _
  | d o =>
    show Keeps _ (dSolve ext I conf o)
    unfold dSolve
    exact Keeps.bind (Keeps.lift _ _) fun _ => Keeps.bind (Keeps.lift _ _) fun _ => Keeps.bind (Keeps.lift _ _) fun _ =>
      Keeps.bind (Keeps.lift _ _) fun _ => Keeps.bind (Keeps.lift _ _) fun _ => Keeps.bind (Keeps.get _) fun _ =>
      Keeps.bind (Keeps.lift _ _) fun _ => Keeps.bind (Keeps.lift _ _) fun _ => Keeps.bind (Keeps.when (Keeps.raise _ _)) fun _ =>
      Keeps.bind (Keeps.lift _ _) fun _ => Keeps.bind (keeps_integrate hl (fun _ _ _ _ _ => rfl) _ _ _ _) fun _ => Keeps.bind (Keeps.lift _ _) fun _ =>
      Keeps.bind (Keeps.lift _ _) fun _ => Keeps.bind (record_other (hd o rfl) _) fun _ => Keeps.pure _ _
  | dae o =>
    show Keeps _ (daeSolve ext I conf o)
    unfold daeSolve
    refine Keeps.bind (Keeps.lift _ _) fun _ => Keeps.bind (Keeps.lift _ _) fun _ => Keeps.bind (Keeps.lift _ _) fun _ =>
      Keeps.bind (Keeps.lift _ _) fun _ => Keeps.bind (Keeps.when (Keeps.raise _ _)) fun _ => Keeps.bind (Keeps.lift _ _) fun _ =>
      Keeps.bind (Keeps.get _) fun _ => Keeps.bind (Keeps.getBlock _) fun _ => Keeps.bind (Keeps.lift _ _) fun _ =>
      Keeps.bind (Keeps.lift _ _) fun _ => Keeps.bind (Keeps.lift _ _) fun _ => Keeps.bind ?_ fun _ => Keeps.bind (Keeps.lift _ _) fun _ =>
      Keeps.bind (Keeps.lift _ _) fun _ => Keeps.bind (record_other (hd' o rfl) _) fun _ => Keeps.pure _ _
    unfold integrateDae
    split
    · exact Keeps.bind (Keeps.lift _ _) fun _ => Keeps.bind (Keeps.lift _ _) fun _ => Keeps.bind (Keeps.lift _ _) fun _ =>
        Keeps.bind (keeps_called hl _) fun _ => Keeps.prog (fun _ => Keeps.lift _ _) _
    · exact Keeps.raise _ _

/-- The domain is neither named in the settings of the simulation nor the one it last recorded in. -/
def Spec.Free (r : DRef) (o : SimObj K) : Prop := (∀ c, o.conf = some c → dget c "domain" ≠ some (.dom r)) ∧ o.domain ≠ .dom r

/-- A method of a simulation leaves the domains alone that are not its own. -/
theorem exec_doms {i : SRef} (c : SimCall) {s : SimWorld K} {r : DRef} (h : ∀ o, s.sims[i]? = some o → Spec.Free r o) : ((c.op i).exec ext I s).2.doms[r]? = s.doms[r]? := by
  cases c with
  | configure kw f d =>
    show (setConfigurations i kw f d s).2.doms[r]? = _
    unfold setConfigurations
    refine (Keeps.bind (f := fun s : SimWorld K => s.doms[r]?) (x := PyS.get) (fun _ => rfl) fun s1 => Keeps.bind (Keeps.lift _ _) fun c => Keeps.bind (Keeps.getSim _ _) fun o => ?_) s
    exact Keeps.modify fun _ => rfl
  | run a =>
    refine keeps_run_solver ext I (f := fun s => s.doms[r]?) a (fun _ c _ _ => keeps_createSolver (f := fun s : SimWorld K => s.doms[r]?) (fun _ _ => rfl) (fun _ _ _ _ => rfl) ext c s) ?_
      (fun _ _ _ _ => rfl)
    intro o c sv s1 ho hc hcs
    have hne := (h o ho).1 c hc
    unfold solveStore
    exact Keeps.bind (solve_other ext I (fun o1 h1 hr => hne (createSolver_domain_dom hcs (.inl ⟨o1, h1, hr⟩))) (fun o1 h1 hr => hne (createSolver_domain_dom hcs (.inr ⟨o1, h1, hr⟩))) c) fun out =>
      keeps_setSim (fun s o h => rfl) fun _ => Keeps.bind (Keeps.lift _ _) fun d => Keeps.bind (Keeps.getSim _ _) fun _ => Keeps.modify fun _ => rfl
  | status => exact Keeps.bind (f := fun s : SimWorld K => s.doms[r]?) (keeps_getStatus fun _ _ _ _ => rfl) (fun _ => Keeps.pure _ _) s
  | reset =>
    show (resetSim i s).2.doms[r]? = _
    unfold resetSim
    cases ho : s.sims[i]? with
    | none => rw [bind_of_error (e := .exception "dangling") (s1 := s) (by rw [getSim, ho])]
    | some o =>
      rw [bind_of_ok (getSim_ok.2 ⟨ho, rfl⟩)]
      have hne := (h o ho).2
      generalize o.domain = dm at hne
      cases dm with
      | dom r' =>
        refine (Keeps.bind (f := fun s : SimWorld K => s.doms[r]?) (Keeps.getD _ _) fun d => ?_) s
        exact fun _ => List.getElem?_set_ne fun h' => hne (by rw [h'])
      | _ => rfl

/-- No call makes a list of argument names. -/
theorem exec_lists {i : SRef} (c : SimCall) (s : SimWorld K) : ((c.op i).exec ext I s).2.lists.length = s.lists.length := by
  cases c with
  | configure kw f d =>
    show (setConfigurations i kw f d s).2.lists.length = _
    unfold setConfigurations
    refine (Keeps.bind (f := fun s : SimWorld K => s.lists.length) (x := PyS.get) (fun _ => rfl) fun s1 => Keeps.bind (Keeps.lift _ _) fun c => Keeps.bind (Keeps.getSim _ _) fun o => ?_) s
    exact Keeps.modify fun _ => rfl
  | run a => exact (exec_confs ext I (c := .run a) (i := i) (by simp) s).2
  | status => exact (exec_confs ext I (c := .status) (i := i) (by simp) s).2
  | reset => exact (exec_confs ext I (c := .reset) (i := i) (by simp) s).2

/-- The call concerns another simulation than `k`, one with no problem or another than `l`, and no domain that the settings of `k` name. -/
def Spec.OfAnother (m : ManyS K) (k : SRef) (l : Nat) (x : SRef × SimCall) : Prop :=
  x.1 ≠ k ∧ m.links[x.1]? ≠ some (some l) ∧ ∀ o o' c r, m.s.sims[k]? = some o → o.conf = some c → dget c "domain" = some (.dom r) → m.s.sims[x.1]? = some o' → Spec.Free r o'

/-- Each of the calls does, at the time it is made. -/
def Spec.AllOfOthers (k : SRef) (l : Nat) : List (SRef × SimCall) → ManyS K → Prop
  | [], _ => True
  | x :: t, m => Spec.OfAnother m k l x ∧ Spec.AllOfOthers k l t (m.call ext I x.1 x.2).2

/-- What these calls keep. -/
structure Aside (k : SRef) (l : Nat) (c : Conf) (m m' : ManyS K) : Prop where
  links : m'.links[k]? = m.links[k]?
  w : m'.s.w = m.s.w
  prs : m'.prs[l]? = m.prs[l]?
  doms : ∀ r, dget c "domain" = some (.dom r) → m'.s.doms[r]? = m.s.doms[r]?
  lists : m'.s.lists.length = m.s.lists.length
  sim : m'.s.sims[k]? = m.s.sims[k]?

theorem aside_call {m : ManyS K} {k : SRef} {l : Nat} {x : SRef × SimCall} (h : Spec.OfAnother m k l x) {o : SimObj K} (ho : m.s.sims[k]? = some o) {c : Conf} (hc : o.conf = some c) :
    Aside k l c m (m.call ext I x.1 x.2).2 := by
  obtain ⟨i, y⟩ := x
  obtain ⟨hik, hl, hfree⟩ := h
  obtain ⟨h1, h2, h3, h4, -⟩ := call_leaves ext I m i y
  have hbare : ∀ s : SimWorld K, ((y.bare ext I i) s).2 = s ∨ ((y.bare ext I i) s).2 = ((y.op i).exec ext I s).2 := by
    intro s
    cases y with
    | configure kw f d =>
      have hw : SimCall.bare ext I i (.configure kw f d) s = (PyS.when (asksTimeName kw f d) (PyS.raise .attributeError) >>= fun _ => (SOp.configure i kw f d).exec ext I) s := rfl
      rw [hw]
      cases asksTimeName kw f d
      · exact .inr rfl
      · exact .inl rfl
    | run a => exact .inr rfl
    | status => exact .inr rfl
    | reset => exact .inr rfl
  have key : ∀ p : ProblemObj, (∀ r, dget c "domain" = some (.dom r) → ((y.op i).exec ext I (m.s.under p)).2.doms[r]? = m.s.doms[r]?) ∧
      ((y.op i).exec ext I (m.s.under p)).2.lists.length = m.s.lists.length := fun p =>
    ⟨fun r hr => exec_doms ext I y (s := m.s.under p) fun o' ho' => hfree o o' c r ho hc hr ho', exec_lists ext I y (m.s.under p)⟩
  have hds : (∀ r, dget c "domain" = some (.dom r) → (m.call ext I i y).2.s.doms[r]? = m.s.doms[r]?) ∧ (m.call ext I i y).2.s.lists.length = m.s.lists.length := by
    unfold ManyS.call
    cases hli : m.links[i]? with
    | none => exact ⟨fun _ _ => rfl, rfl⟩
    | some z =>
      cases z with
      | none =>
        simp only [ManyS.off, SimWorld.under]
        rcases hbare (m.s.under {}) with hb | hb
        · simp only [SimWorld.under] at hb
          rw [hb]
          exact ⟨fun _ _ => rfl, rfl⟩
        · simp only [SimWorld.under] at hb
          rw [hb]
          exact key {}
      | some j =>
        cases hp : m.prs[j]? with
        | none => simp only [ManyS.on, hp]; exact ⟨fun _ _ => trivial, trivial⟩
        | some p => simp only [ManyS.on_some hp]; exact key p
  exact ⟨by rw [h1], h2, h4 l hl, hds.1, hds.2, h3 k (Ne.symm hik)⟩

theorem aside_calls {k : SRef} {l : Nat} {c : Conf} : (cs : List (SRef × SimCall)) → {m : ManyS K} → Spec.AllOfOthers ext I k l cs m → {o : SimObj K} → m.s.sims[k]? = some o → o.conf = some c →
    Aside k l c m (ManyS.history ext I (cs.map fun x => .call x.1 x.2) m)
  | [], m, _, _, _, _ => ⟨rfl, rfl, rfl, fun _ _ => rfl, rfl, rfl⟩
  | x :: t, m, h, o, ho, hc => by
    have h1 := aside_call ext I h.1 ho hc
    have h2 := aside_calls t h.2 (h1.sim.trans ho) hc
    exact ⟨h2.links.trans h1.links, h2.w.trans h1.w, h2.prs.trans h1.prs, fun r hr => (h2.doms r hr).trans (h1.doms r hr), h2.lists.trans h1.lists, h2.sim.trans h1.sim⟩

/-- **C114.** Simulations of different problems with different domains do not disturb each other: whatever simulations of other problems (or of none) have been made to do in between,
with whatever outcome, a run ends as it would have ended without, with the same results and the same tables in its domain. -/
theorem runs_independent {m : ManyS K} {k : SRef} {l : Nat} {p : ProblemObj} (hk : m.links[k]? = some (some l)) (hp : m.prs[l]? = some p) {o : SimObj K}
    (ho : m.s.sims[k]? = some o) {c : Conf} (hc : o.conf = some c) {cs : List (SRef × SimCall)} (h : Spec.AllOfOthers ext I k l cs m) (a : RunArgs) :
    let m' := ManyS.history ext I (cs.map fun x => .call x.1 x.2) m
    (m'.call ext I k (.run a)).1 = (m.call ext I k (.run a)).1 ∧
    (∀ r, dget c "domain" = some (.dom r) → (m'.call ext I k (.run a)).2.s.doms[r]? = (m.call ext I k (.run a)).2.s.doms[r]?) ∧
    ((m.call ext I k (.run a)).1 = .ok () → (m'.call ext I k (.run a)).2.s.sims[k]?.map (fun o => (o.output, o.domain)) =
      (m.call ext I k (.run a)).2.s.sims[k]?.map fun o => (o.output, o.domain)) := by
  have hA := aside_calls ext I cs h ho hc
  intro m'
  change Aside k l c m m' at hA
  have hcall : m.call ext I k (.run a) = m.on l (runSimulation ext I k a) := by unfold ManyS.call; rw [hk]; rfl
  have hcall' : m'.call ext I k (.run a) = m'.on l (runSimulation ext I k a) := by unfold ManyS.call; rw [hA.links, hk]; rfl
  rw [hcall, hcall', ManyS.on_some hp, ManyS.on_some (by rw [hA.prs]; exact hp)]
  obtain ⟨h1, h2, h3⟩ := run_determined_own ext I k a (s := m'.s.under p) (t := m.s.under p) (hA.sim.trans ho) hc ho hc (by simp only [SimWorld.under, hA.w]) hA.lists hA.doms
  exact ⟨h1, h2, fun hok => h3 (h1.trans hok)⟩

/-- The problem is resolved, and algebraic. -/
def Spec.Algebraic (p : ProblemObj) : Prop := ∃ b, p.block = some b ∧ (b.problemType = some .linear ∨ b.problemType = some .nonlinear)

/-! ## Changing the problem of a simulation -/

/-- **C114.** The results of a simulation survive a change of its problem: if the new problem is resolved and algebraic, the simulation reports success without having been
run on it. -/
theorem results_survive_problem {m : ManyS K} {i : SRef} {o : SimObj K} (hi : i < m.links.length) (ho : m.s.sims[i]? = some o) {d : Dict String K} (hd : o.output = some (.dict d)) {j : Nat}
    {p : ProblemObj} (hp : m.prs[j]? = some p) (hk : Spec.Algebraic p) :
    (((MSOp.setProblem i (some j)).exec ext I m).2.call ext I i .status).1 = .ok () ∧
    ∃ o', (((MSOp.setProblem i (some j)).exec ext I m).2.call ext I i .status).2.s.sims[i]? = some o' ∧ o'.status = some 0 ∧ o'.output = o.output := by
  obtain ⟨b, hb, hk⟩ := hk
  have h1 : ((MSOp.setProblem i (some j)).exec ext I m).2 = { m with links := m.links.set i (some j) } := by rw [MSOp.exec, if_pos hi]
  have h2 : ({ m with links := m.links.set i (some j) } : ManyS K).call ext I i .status =
      ({ m with links := m.links.set i (some j) } : ManyS K).on j ((SOp.status i).exec ext I) := by
    unfold ManyS.call
    rw [show ({ m with links := m.links.set i (some j) } : ManyS K).links[i]? = some (some j) from List.getElem?_set_self hi]
    rfl
  have h3 : (SOp.status i).exec ext I (m.s.under p) = (.ok (), { m.s.under p with sims := m.s.sims.set i { o with status := some 0 } }) := by
    show PyS.bind (getStatus i) (fun _ => PyS.pure ()) (m.s.under p) = _
    simp only [PyS.bind, getStatus_algebraic (s := m.s.under p) ho hb hk hd, PyS.pure]
    rfl
  rw [h1, h2, ManyS.on_some (show ({ m with links := m.links.set i (some j) } : ManyS K).prs[j]? = some p from hp)]
  refine ⟨congrArg Prod.fst h3, ?_⟩
  refine ⟨{ o with status := some 0 }, ?_, rfl, rfl⟩
  show ((SOp.status i).exec ext I (m.s.under p)).2.sims[i]? = _
  rw [h3]
  exact List.getElem?_set_self (List.getElem?_eq_some_iff.1 ho).1

/-! ## Sessions with one problem -/

/-- The call of a session with one problem as a call of a program where all simulations have problem 0. -/
def Spec.alone : SOp K → MSOp K
  | .base o => .on 0 o
  | .newList l => .newList l
  | .newDomain n vs => .newDomain n vs
  | .domain r o => .domain r o
  | .newSim n => .newSim n (some 0)
  | .configure i kw f d => .call i (.configure kw f d)
  | .run i a => .call i (.run a)
  | .status i => .call i .status
  | .reset i => .call i .reset

/-- One problem, of which all simulations are. -/
structure OneP (m : ManyS K) (s : SimWorld K) : Prop where
  prs : m.prs = [s.w.pr]
  state : m.s = s.under {}
  links : m.links = List.replicate s.sims.length (some 0)

theorem exec_len (i : SRef) (c : SimCall) (s : SimWorld K) : ((c.op i).exec ext I s).2.sims.length = s.sims.length := by
  cases c with
  | configure kw f d =>
    show (setConfigurations i kw f d s).2.sims.length = _
    unfold setConfigurations
    refine (Keeps.bind (f := fun s : SimWorld K => s.sims.length) (x := PyS.get) (fun _ => rfl) fun s1 => Keeps.bind (Keeps.lift _ _) fun c => Keeps.bind (Keeps.getSim _ _) fun o => ?_) s
    exact Keeps.modify fun _ => List.length_set
  | run a => simpa using congrArg List.length (exec_confs ext I (c := .run a) (i := i) (by simp) s).1
  | status => simpa using congrArg List.length (exec_confs ext I (c := .status) (i := i) (by simp) s).1
  | reset => simpa using congrArg List.length (exec_confs ext I (c := .reset) (i := i) (by simp) s).1

/-- Called for a simulation that does not exist, nothing happens. -/
theorem exec_dangling {i : SRef} (c : SimCall) {s : SimWorld K} (hi : s.sims[i]? = none) : ((c.op i).exec ext I s).2 = s := by
  have hg : (getSim i : PyS K _) s = (.error (.exception "dangling"), s) := by rw [getSim, hi]
  cases c with
  | configure kw f d =>
    show (setConfigurations i kw f d s).2 = _
    unfold setConfigurations
    have hget : (PyS.get : PyS K _) s = (.ok s, s) := rfl
    rw [bind_of_ok hget]
    cases hc : configure s.w.pr.timeName kw f d with
    | error e => rw [bind_of_error (lift_error_run rfl s)]
    | ok c => rw [bind_lift_ok rfl, bind_of_error hg]
  | run a =>
    show (runSimulation ext I i a s).2 = _
    unfold runSimulation
    rw [bind_of_error hg]
  | status =>
    show (PyS.bind (getStatus i) (fun _ => PyS.pure ()) s).2 = s
    have : (getStatus i : PyS K Nat) s = (.error (.exception "dangling"), s) := bind_of_error (bind_of_error hg)
    simp only [PyS.bind, this]
  | reset =>
    show (resetSim i s).2 = s
    unfold resetSim
    rw [bind_of_error hg]

theorem onep_call {m : ManyS K} {s : SimWorld K} (h : OneP m s) (i : SRef) (c : SimCall) :
    OneP (m.call ext I i c).2 ((c.op i).exec ext I s).2 ∧ (i < s.sims.length → (m.call ext I i c).1 = ((c.op i).exec ext I s).1) := by
  by_cases hi : i < s.sims.length
  · have hl : m.links[i]? = some (some 0) := by rw [h.links]; simp [hi]
    have hp : m.prs[0]? = some s.w.pr := by rw [h.prs]; rfl
    have hs : m.s.under s.w.pr = s := by rw [h.state]; rfl
    have hc : m.call ext I i c = m.on 0 ((c.op i).exec ext I) := by unfold ManyS.call; rw [hl]
    rw [hc, ManyS.on_some hp, hs]
    refine ⟨⟨by rw [h.prs]; rfl, ?_, ?_⟩, fun _ => rfl⟩
    · show SimWorld.under m.s.w.pr _ = _
      rw [h.state]; rfl
    · show m.links = _
      rw [h.links, exec_len]
  · have hi' : s.sims[i]? = none := List.getElem?_eq_none (not_lt.mp hi)
    have hl : m.links[i]? = none := by rw [h.links]; simp [not_lt.mp hi]
    have hc : m.call ext I i c = (.error (.exception "dangling"), m) := by unfold ManyS.call; rw [hl]
    rw [hc, exec_dangling ext I c hi']
    exact ⟨h, fun h => absurd h hi⟩

theorem onep_exec {m : ManyS K} {s : SimWorld K} (h : OneP m s) (o : SOp K) :
    OneP ((Spec.alone o).exec ext I m).2 (o.exec ext I s).2 ∧ (SUses s.sizes o → ((Spec.alone o).exec ext I m).1 = (o.exec ext I s).1) := by
  have hp : m.prs[0]? = some s.w.pr := by rw [h.prs]; rfl
  have hs : m.s.under s.w.pr = s := by rw [h.state]; rfl
  cases o with
  | base o =>
    show OneP (m.on 0 (ofWorld o.run)).2 _ ∧ (_ → (m.on 0 (ofWorld o.run)).1 = _)
    rw [ManyS.on_some hp, hs]
    refine ⟨⟨by rw [h.prs]; rfl, ?_, ?_⟩, fun _ => rfl⟩
    · show SimWorld.under m.s.w.pr _ = _
      rw [h.state]; rfl
    · exact h.links
  | newList l =>
    obtain ⟨ms, mp, ml⟩ := m
    obtain ⟨rfl, rfl, rfl⟩ := h
    exact ⟨⟨rfl, rfl, rfl⟩, fun _ => rfl⟩
  | newDomain n vs =>
    obtain ⟨ms, mp, ml⟩ := m
    obtain ⟨rfl, rfl, rfl⟩ := h
    exact ⟨⟨rfl, rfl, rfl⟩, fun _ => rfl⟩
  | domain r o =>
    obtain ⟨ms, mp, ml⟩ := m
    obtain ⟨rfl, rfl, rfl⟩ := h
    have key : ∀ t : SimWorld K, (SOp.domain r o).exec ext I t = match t.doms[r]? with
        | some d => (.ok (), { t with doms := t.doms.set r (o.run d) })
        | none => (.error (.exception "dangling"), t) := fun t => by
      show (getD r >>= fun d => setD r (o.run d)) t = _
      rw [bind_eq, PyS.bind, getD]
      cases t.doms[r]? <;> rfl
    simp only [Spec.alone, MSOp.exec, ManyS.off, key]
    have hd : (SimWorld.under {} (SimWorld.under {} s)).doms[r]? = s.doms[r]? := rfl
    rw [hd]
    cases hr : s.doms[r]? with
    | none => exact ⟨⟨rfl, rfl, rfl⟩, fun _ => rfl⟩
    | some d => exact ⟨⟨rfl, rfl, rfl⟩, fun _ => rfl⟩
  | newSim n =>
    obtain ⟨ms, mp, ml⟩ := m
    obtain ⟨rfl, rfl, rfl⟩ := h
    refine ⟨⟨rfl, rfl, ?_⟩, fun _ => rfl⟩
    show List.replicate s.sims.length (some 0) ++ [some 0] = List.replicate (s.sims ++ [_]).length (some 0)
    rw [List.length_append, List.length_singleton, List.replicate_succ']
  | configure i kw f d => exact ⟨(onep_call ext I h i (.configure kw f d)).1, fun hu => (onep_call ext I h i (.configure kw f d)).2 hu.1⟩
  | run i a => exact onep_call ext I h i (.run a)
  | status i => exact onep_call ext I h i .status
  | reset i => exact onep_call ext I h i .reset

theorem onep_history : (ops : List (SOp K)) → {m : ManyS K} → {s : SimWorld K} → OneP m s →
    OneP (ManyS.history ext I (ops.map Spec.alone) m) (ops.foldl (fun s o => (o.exec ext I s).2) s)
  | [], _, _, h => h
  | o :: t, _, _, h => onep_history t (onep_exec ext I h o).1

/-- **C114.** With one problem, given to every simulation when it is created, a program with several problems possible is a session as in the other properties: the states agree,
and every call with existing arguments ends in the same way. -/
theorem one_problem_sessions (ops : List (SOp K)) :
    let m := ManyS.history ext I (.newProblem "" :: ops.map Spec.alone) { s := { w := World.init } }
    m.prs = [(simHistory ext I ops).w.pr] ∧ m.s.under (simHistory ext I ops).w.pr = simHistory ext I ops ∧
    ∀ o, SUses (simHistory ext I ops).sizes o → ((Spec.alone o).exec ext I m).1 = (o.exec ext I (simHistory ext I ops)).1 := by
  have h : OneP (ManyS.history ext I (.newProblem "" :: ops.map Spec.alone) { s := { w := World.init } }) (simHistory ext I ops) :=
    onep_history ext I ops (m := ((MSOp.newProblem "").exec ext I { s := { w := World.init } }).2) ⟨rfl, rfl, rfl⟩
  exact ⟨h.prs, by rw [h.state]; rfl, fun o => (onep_exec ext I h o).2⟩

/-! ## Exceptions -/

/-- A call whose arguments exist. -/
def Spec.MSUses (m : ManyS K) : MSOp K → Prop
  | .newProblem _ | .newDomain _ _ => True
  | .on j o => j < m.prs.length ∧ Uses m.s.w.sizes o
  | .newList l => ∀ c ∈ l, ValIn m.s.sizes c
  | .domain r _ => r < m.s.doms.length
  | .newSim _ j => ∀ j', j = some j' → j' < m.prs.length
  | .setProblem i j => i < m.s.sims.length ∧ ∀ j', j = some j' → j' < m.prs.length
  | .call i c => SUses m.s.sizes (c.op (K := K) i)

/-- A program of such calls. -/
def Spec.MSSensible (ext : Ext K) (I : Interp K) : List (MSOp K) → ManyS K → Prop
  | [], _ => True
  | o :: t, m => Spec.MSUses m o ∧ Spec.MSSensible ext I t (o.exec ext I m).2

/-- What a call can end with: what it can end with for its problem alone; without one, also `AttributeError`. -/
def Spec.MSMayRaise (ext : Ext K) (m : ManyS K) (e : Err) : MSOp K → Prop
  | .on j o => ∃ p, m.prs[j]? = some p ∧ MayRaise (m.s.w.withPr p) e o
  | .call i c => (∃ j p, m.links[i]? = some (some j) ∧ m.prs[j]? = some p ∧ SMayRaise ext (m.s.under p) e (c.op i)) ∨
      (m.links[i]? = some none ∧ (SMayRaise ext (m.s.under {}) e (c.op i) ∨ e = .attributeError))
  | _ => False

/-- What holds throughout a program. -/
structure MSound (m : ManyS K) : Prop where
  none : SimSound (m.s.under {})
  each : ∀ (j : Nat) p, m.prs[j]? = some p → SimSound (m.s.under p)
  len : m.links.length = m.s.sims.length
  links : ∀ j, some j ∈ m.links → j < m.prs.length

theorem SimSound.under {s s' : SimWorld K} (h' : SimSound s') {q : ProblemObj} (hq : SimSound (s.under q)) (hg : s.w.sizes.Le s'.w.sizes) (hle : s.w.Le s'.w) : SimSound (s'.under q) := by
  refine ⟨⟨linked_withPr h'.linked.w (ProblemIn.mono hg hq.linked.w.pr), h'.linked.lists, h'.linked.sims, h'.linked.default⟩,
    ⟨⟨fun m mo hm => (h'.whole.1.ms m mo hm).mono (World.Le.pr _ q), h'.whole.1.es⟩, h'.whole.2⟩, ?_⟩
  exact hq.problem.mono (((World.Le.pr (s.w.withPr q) s.w.pr).trans hle).trans (World.Le.pr _ q))

/-- How far the heap can have grown. -/
theorem sop_onward {s : SimWorld K} (hs : SimSound s) {o : SOp K} (ho : SUses s.sizes o) : s.w.sizes.Le (o.exec ext I s).2.w.sizes ∧ s.w.Le (o.exec ext I s).2.w := by
  have hsame : ∀ w' : World, Spec.core w' = Spec.core s.w → s.w.sizes.Le w'.sizes ∧ s.w.Le w' := fun w' h => by
    have h := withPr_of_core h s.w.pr
    have e : w' = (s.w.withPr s.w.pr).withPr w'.pr := by rw [← h]; rfl
    rw [e]
    exact ⟨Sizes.Le.refl _, World.Le.pr s.w _⟩
  cases o with
  | base o => exact ⟨(op_meets hs.linked.w ho).grows, le_stable.op o (by cases o <;> simp [Op.Allowed]) _⟩
  | newList l => exact hsame _ rfl
  | newDomain n vs => exact hsame _ rfl
  | newSim n => exact hsame _ rfl
  | domain r o =>
    refine hsame _ ?_
    exact (Keeps.bind (f := fun s : SimWorld K => Spec.core s.w) (Keeps.getD _ _) fun d => (Keeps.modify fun _ => rfl : Keeps _ (setD r (o.run d)))) s
  | configure i kw f d => exact hsame _ (exec_core ext I i (.configure kw f d) s)
  | run i a => exact hsame _ (exec_core ext I i (.run a) s)
  | status i => exact hsame _ (exec_core ext I i .status s)
  | reset i => exact hsame _ (exec_core ext I i .reset s)

theorem msound_on {m : ManyS K} (hm : MSound m) {j : Nat} {p : ProblemObj} (hp : m.prs[j]? = some p) {o : SOp K} (ho : SUses m.s.sizes o)
    (hlen : (o.exec ext I (m.s.under p)).2.sims.length = m.s.sims.length) : MSound (m.on j (o.exec ext I)).2 := by
  have hs := hm.each j p hp
  have h1 := (sop_sound (ext := ext) I hs (o := o) ho).1
  obtain ⟨h2, h3⟩ := sop_onward ext I hs (o := o) ho
  have h3' : m.s.w.Le (o.exec ext I (m.s.under p)).2.w := (World.Le.pr m.s.w p).trans h3
  have key : ∀ q, SimSound (m.s.under q) → SimSound ((o.exec ext I (m.s.under p)).2.under q) := fun q hq => h1.under hq h2 h3'
  rw [ManyS.on_some hp]
  refine ⟨key _ hm.none, fun k q hq => ?_, hm.len.trans hlen.symm, fun k hk => by rw [List.length_set]; exact hm.links k hk⟩
  by_cases hjk : j = k
  · subst hjk
    rw [List.getElem?_set_self (List.getElem?_eq_some_iff.1 hp).1] at hq
    cases hq
    exact h1
  · rw [getElem?_set_other hjk] at hq
    exact key q (hm.each k q hq)

theorem sound_off {m : ManyS K} (hm : MSound m) {o : SOp K} (ho : SUses m.s.sizes o) {l : List (Option Nat)} (hl : l.length = (o.exec ext I (m.s.under {})).2.sims.length)
    (hj : ∀ j, some j ∈ l → j < m.prs.length) : MSound { (m.off (o.exec ext I)).2 with links := l } := by
  have h1 := (sop_sound (ext := ext) I hm.none (o := o) ho).1
  obtain ⟨h2, h3⟩ := sop_onward ext I hm.none (o := o) ho
  have h3' : m.s.w.Le (o.exec ext I (m.s.under {})).2.w := (World.Le.pr m.s.w {}).trans h3
  have key : ∀ q, SimSound (m.s.under q) → SimSound ((o.exec ext I (m.s.under {})).2.under q) := fun q hq => h1.under hq h2 h3'
  exact ⟨key _ hm.none, fun k q hq => key q (hm.each k q hq), hl, hj⟩

/-- Every call keeps this, and ends only with what is listed. -/
theorem msop_sound {m : ManyS K} (hm : MSound m) {o : MSOp K} (ho : Spec.MSUses m o) :
    MSound (o.exec ext I m).2 ∧ ∀ e, (o.exec ext I m).1 = .error e → Spec.MSMayRaise ext m e o := by
  cases o with
  | newProblem n =>
    refine ⟨⟨hm.none, fun j p hp => ?_, hm.len, fun j hj => lt_of_lt_of_le (hm.links j hj) (by simp [MSOp.exec])⟩, fun e he => by cases he⟩
    change (m.prs ++ [({ name := n } : ProblemObj)])[j]? = some p at hp
    by_cases hj : j < m.prs.length
    · rw [List.getElem?_append_left hj] at hp
      exact hm.each j p hp
    · rw [List.getElem?_append_right (not_lt.mp hj)] at hp
      have : p = { name := n } := by
        have := List.mem_of_getElem? hp
        simpa using this
      subst this
      have h0 := hm.none
      exact ⟨⟨linked_withPr h0.linked.w (problemIn_empty n _), h0.linked.lists, h0.linked.sims, h0.linked.default⟩,
        ⟨⟨fun m mo hm => (h0.whole.1.ms m mo hm).mono (World.Le.pr _ _), h0.whole.1.es⟩, h0.whole.2⟩,
        ⟨(h0.problem.mono (World.Le.pr _ _)).models, (h0.problem.mono (World.Le.pr _ _)).vars, (h0.problem.mono (World.Le.pr _ _)).pars⟩⟩
  | on j o =>
    obtain ⟨p, hp⟩ : ∃ p, m.prs[j]? = some p := ⟨_, List.getElem?_eq_getElem ho.1⟩
    refine ⟨msound_on ext I hm hp (o := .base o) ho.2 rfl, fun e he => ⟨p, hp, ?_⟩⟩
    change (m.on j ((SOp.base o).exec ext I)).1 = _ at he
    rw [ManyS.on_some hp] at he
    exact (sop_sound (ext := ext) I (hm.each j p hp) (o := .base o) ho.2).2 e he
  | newList l => exact ⟨sound_off ext I hm (o := .newList l) ho hm.len hm.links, fun e he => by cases he⟩
  | newDomain n vs => exact ⟨sound_off ext I hm (o := .newDomain n vs) trivial hm.len hm.links, fun e he => by cases he⟩
  | domain r o =>
    refine ⟨sound_off ext I hm (o := .domain r o) ho (hm.len.trans ?_) hm.links, fun e he => ?_⟩
    · exact ((Keeps.bind (f := fun s : SimWorld K => s.sims.length) (Keeps.getD _ _) fun d => (Keeps.modify fun _ => rfl : Keeps _ (setD r (o.run d)))) (m.s.under {})).symm
    · exact ((sop_sound (ext := ext) I hm.none (o := .domain r o) ho).2 e he).elim
  | newSim n j =>
    refine ⟨sound_off ext I hm (o := .newSim n) trivial ?_ fun k hk => ?_, fun e he => by cases he⟩
    · show (m.links ++ [j]).length = (m.s.sims ++ [_]).length
      simp [hm.len]
    · rcases List.mem_append.mp hk with h | h
      · exact hm.links k h
      · exact ho k (List.mem_singleton.mp h).symm
  | setProblem i j =>
    have hi : i < m.links.length := by rw [hm.len]; exact ho.1
    rw [MSOp.exec, if_pos hi]
    refine ⟨⟨hm.none, hm.each, by rw [← hm.len]; exact List.length_set, fun k hk => ?_⟩, fun e he => by cases he⟩
    rcases List.mem_or_eq_of_mem_set hk with h | h
    · exact hm.links k h
    · exact ho.2 k h.symm
  | call i c =>
    have hi : i < m.s.sims.length := by cases c <;> first | exact ho | exact ho.1
    obtain ⟨x, hx⟩ : ∃ x, m.links[i]? = some x := ⟨_, List.getElem?_eq_getElem (by rw [hm.len]; exact hi)⟩
    cases x with
    | some j =>
      obtain ⟨p, hp⟩ : ∃ p, m.prs[j]? = some p := ⟨_, List.getElem?_eq_getElem (hm.links j (List.mem_of_getElem? hx))⟩
      have hc : (MSOp.call i c).exec ext I m = m.on j ((c.op i).exec ext I) := by show m.call ext I i c = _; unfold ManyS.call; rw [hx]
      rw [hc]
      refine ⟨msound_on ext I hm hp ho (exec_len ext I i c _), fun e he => .inl ⟨j, p, hx, hp, ?_⟩⟩
      rw [ManyS.on_some hp] at he
      exact (sop_sound (ext := ext) I (hm.each j p hp) ho).2 e he
    | none =>
      have hc : (MSOp.call i c).exec ext I m = m.off (c.bare ext I i) := by show m.call ext I i c = _; unfold ManyS.call; rw [hx]
      rw [hc]
      have hold : MSound (m.off ((c.op i).exec ext I)).2 := sound_off ext I hm ho (hm.len.trans (exec_len ext I i c (m.s.under {})).symm) hm.links
      have hexc : ∀ e, (m.off ((c.op i).exec ext I)).1 = .error e → SMayRaise ext (m.s.under {}) e (c.op i) := fun e he => (sop_sound (ext := ext) I hm.none ho).2 e he
      have hbare : m.off (c.bare ext I i) = m.off ((c.op i).exec ext I) ∨ m.off (c.bare ext I i) = (.error .attributeError, m) := by
        cases c with
        | configure kw f d =>
          cases hq : asksTimeName kw f d with
          | true => exact .inr (ManyS.off_self (by simp only [SimCall.bare, hq]; exact bind_of_error rfl))
          | false =>
            refine .inl ?_
            have : (SimCall.configure kw f d).bare ext I i (m.s.under {}) = ((SimCall.configure kw f d).op i).exec ext I (m.s.under {}) := by
              simp only [SimCall.bare, hq]
              exact bind_when_false _ _ _
            unfold ManyS.off
            rw [this]
        | run a => exact .inl rfl
        | status => exact .inl rfl
        | reset => exact .inl rfl
      rcases hbare with hb | hb <;> rw [hb]
      · exact ⟨hold, fun e he => .inr ⟨hx, .inl (hexc e he)⟩⟩
      · exact ⟨hm, fun e he => .inr ⟨hx, .inr (by cases he; rfl)⟩⟩

theorem msound_history : (ops : List (MSOp K)) → {m : ManyS K} → MSound m → Spec.MSSensible ext I ops m → MSound (ManyS.history ext I ops m)
  | [], _, hm, _ => hm
  | _ :: t, _, hm, h => msound_history t (msop_sound ext I hm h.1).1 h.2

theorem msound_init : MSound ({ s := { w := World.init } } : ManyS K) :=
  ⟨simSound_init, fun j p hp => (by cases hp), rfl, fun j hj => by cases hj⟩

/-- **C114.** In a program with several problems and simulations that passes existing objects only, a call ends only with the exceptions it can end with for its problem alone, and,
for a simulation without a problem, `AttributeError`. -/
theorem several_simulations_raise (ops : List (MSOp K)) (h : Spec.MSSensible ext I ops { s := { w := World.init } }) (o : MSOp K)
    (ho : Spec.MSUses (ManyS.history ext I ops { s := { w := World.init } }) o) {e : Err} (he : (o.exec ext I (ManyS.history ext I ops { s := { w := World.init } })).1 = .error e) :
    Spec.MSMayRaise ext (ManyS.history ext I ops { s := { w := World.init } }) e o :=
  (msop_sound ext I (msound_history ext I ops msound_init h) ho).2 e he

end
/-! ## Examples -/

namespace Ex
/-- Two problems with the same model, a simulation of each and one without a problem. -/
def twoSims : List (MSOp Rat) := [.newProblem "p", .newProblem "q"] ++ lin.map (.on 0) ++ [.on 1 (.addModels (.leaf 0)), .on 1 .resolve, .newSim "s" (some 0), .newSim "u" (some 1),
  .newSim "v" none, .call 0 (.configure [] none none), .call 1 (.configure [] none none), .call 2 (.configure [] none none), .call 0 (.run {})]
def twoSimsEnd : ManyS Rat := ManyS.history ext ratI twoSims { s := { w := World.init } }
end Ex

/-- Both problems are algebraic and resolved, both simulations run, and the third is refused. -/
example : Ex.twoSimsEnd.links = [some 0, some 1, none] ∧ (Ex.twoSimsEnd.prs.map fun p => p.block.map Block.problemType) = [some (some .linear), some (some .linear)] ∧
    (Ex.twoSimsEnd.s.sims.map fun o => o.output.isSome) = [true, false, false] ∧ ((Ex.twoSimsEnd.call Ex.ext Ex.ratI 1 (.run {})).1.toOption = some ()) ∧
    ((Ex.twoSimsEnd.call Ex.ext Ex.ratI 1 (.run {})).2.s.sims.map fun o => o.output.isSome) = [true, true, false] ∧
    (Ex.twoSimsEnd.s.sims[2]?.map Spec.bareRun) = some .attributeError := by
  decide +kernel

namespace Ex
/-- Does the settings' domain of `k` differ from those of `i`? -/
def free (m : ManyS Rat) (k i : SRef) : Bool :=
  match m.s.sims[k]?.bind fun o => o.conf.bind fun c => dget c "domain" with
  | some (.dom r) => m.s.sims[i]?.all fun o => decide ((o.conf.bind fun c => dget c "domain") ≠ some (.dom r) ∧ o.domain ≠ .dom r)
  | _ => true

theorem ofAnother {m : ManyS Rat} {k : SRef} {l : Nat} {x : SRef × SimCall} (h1 : x.1 ≠ k) (h2 : m.links[x.1]? ≠ some (some l)) (h3 : free m k x.1 = true) : Spec.OfAnother m k l x := by
  refine ⟨h1, h2, fun o o' c r ho hc hd ho' => ?_⟩
  simp only [free, ho, Option.bind_some, hc, hd, ho', Option.all_some, decide_eq_true_eq] at h3
  exact ⟨fun c' hc' h => h3.1 (by rw [hc']; exact h), h3.2⟩

/-- Two problems with the same differential equation, a simulation and a domain of each. -/
def twoOdes : List (MSOp Rat) := [.newProblem "p", .newProblem "q"] ++ ode.map (.on 0) ++ [.on 1 (.addModels (.leaf 0)), .on 1 (.time ["t_m"]), .on 1 (.initial [("x_m", 1), ("t_m", 0)]), .on 1 .resolve,
  .newDomain "d" ["t"], .newDomain "e" ["t"], .domain 0 (.distribute "x"), .domain 1 (.distribute "x"), .newSim "s" (some 0), .newSim "u" (some 1),
  .call 0 (.configure dyn none none), .call 1 (.configure (dyn.dropLast ++ [("domain", .dom 1)]) none none)]
def twoOdesEnd : ManyS Rat := ManyS.history ext ratI twoOdes { s := { w := World.init } }
def meanwhile : List (SRef × SimCall) := [(0, .run {}), (0, .status), (0, .run {}), (0, .reset), (0, .run {})]
end Ex

/-- The hypotheses of `runs_independent` are met by simulation 1 there, with runs, a reset and a refused run of simulation 0 in between. -/
example : Ex.twoOdesEnd.links[1]? = some (some 1) ∧ (Ex.twoOdesEnd.prs[1]?).isSome = true ∧ (Ex.twoOdesEnd.s.sims[1]?.bind fun o => o.conf.bind fun c => dget c "domain") = some (.dom 1) ∧
    Spec.AllOfOthers Ex.ext Ex.ratI 1 1 Ex.meanwhile Ex.twoOdesEnd := by
  refine ⟨by decide +kernel, by decide +kernel, by decide +kernel, ?_⟩
  exact ⟨Ex.ofAnother (by decide) (by decide +kernel) (by decide +kernel), Ex.ofAnother (by decide) (by decide +kernel) (by decide +kernel),
    Ex.ofAnother (by decide) (by decide +kernel) (by decide +kernel), Ex.ofAnother (by decide) (by decide +kernel) (by decide +kernel),
    Ex.ofAnother (by decide) (by decide +kernel) (by decide +kernel), trivial⟩

/-- What happens there: simulation 0 is integrated, refused, reset and integrated again; then simulation 1 returns with a table, as it would have before. -/
example : let m := ManyS.history Ex.ext Ex.ratI (Ex.meanwhile.map fun x => .call x.1 x.2) Ex.twoOdesEnd
    m.s.log = [.odeint, .odeint, .odeint] ∧ (m.s.doms.map fun d => decide (d.reset = d)) = [false, true] ∧
    (m.call Ex.ext Ex.ratI 1 (.run {})).1.toOption = some () ∧ ((m.call Ex.ext Ex.ratI 1 (.run {})).2.s.doms.map fun d => decide (d.reset = d)) = [false, false] := by
  decide +kernel

/-- **C114 fails for a shared domain.** Two simulations of different problems that record in the same domain disturb each other: a run that would return is refused once the other
simulation has been run. -/
theorem shared_domain_disturbs : ∃ m : ManyS Rat, m = ManyS.history Ex.ext Ex.ratI (Ex.twoOdes ++ [.call 1 (.configure Ex.dyn none none)]) { s := { w := World.init } } ∧
    m.links = [some 0, some 1] ∧ (m.call Ex.ext Ex.ratI 1 (.run {})).1.toOption = some () ∧
    ((m.call Ex.ext Ex.ratI 0 (.run {})).1.toOption = some ()) ∧ Ex.errOf ((m.call Ex.ext Ex.ratI 0 (.run {})).2.call Ex.ext Ex.ratI 1 (.run {})).1 = some .valueError :=
  ⟨_, rfl, by decide +kernel, by decide +kernel, by decide +kernel, by decide +kernel⟩

/-- Asked to be dynamic, the third cannot be configured; simulation 0, given problem 1, reports success at once. -/
example : Ex.errOf (Ex.twoSimsEnd.call Ex.ext Ex.ratI 2 (.configure [("is_dynamic", .bool true)] none none)).1 = some .attributeError ∧
    Ex.errOf (Ex.twoSimsEnd.call Ex.ext Ex.ratI 1 (.configure [("is_dynamic", .bool true)] none none)).1 = none ∧
    Ex.errOf ((((MSOp.setProblem 0 (some 1)).exec Ex.ext Ex.ratI Ex.twoSimsEnd).2).call Ex.ext Ex.ratI 0 .status).1 = none := by
  decide +kernel

end Sloth
