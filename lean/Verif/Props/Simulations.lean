import Verif.Lemmas.Solver
import Verif.Props.Blocks

/-!
# Properties of solvers and simulations (C35, C40-C42, C51, C52, C54, C55)
-/

namespace Sloth
open PyS

/-! ## C40: settings -/

/-- C40 for a dictionary of settings: every setting is the supplied one, or else the keyword argument, or else the default. -/
theorem settings_from_dict {tn : Option (List String)} {kw d c : Conf} (hd : DNodup d) (hk : DNodup kw)
    (hn : "number_parameters_to_optimize" ∉ dkeys kw) (h : configure tn kw none (some d) = .ok c) (k : String) :
    dget c k = ((dget d k).or (dget kw k)).or (dget confDefaults k) := by
  simp only [configure, bindArgs, bind_eq_ok] at h
  obtain ⟨a, ha, n, h2, h⟩ := h
  split at ha
  · cases ha
    have hn' : n = .num 0 := by
      have : dget (dupdate confDefaults kw) "number_parameters_to_optimize" = some (.num 0) := by
        rw [dget_dupdate_of_not_mem _ _ hn]; decide
      simpa [dgetE, this, eq_comm] using h2
    subst hn'
    simp only [confOptimize, true_or, if_true, confSource, Except.ok.injEq] at h
    subst h
    rw [dget_dupdate _ hd, dget_dupdate _ hk, Option.or_assoc]
  · cases ha

/-- The name of time as a setting. -/
def Spec.timeOf : Option (List String) → CVal
  | some l => .names l
  | none => .none

/-- C40 for keyword arguments: every setting is the argument or the default; only the name of time is taken from the problem when it is not
given and the simulation is said to be dynamic. -/
theorem settings_from_args {tn : Option (List String)} {kw c : Conf} (hk : DNodup kw) (h : configure tn kw none none = .ok c) (k : String) :
    dget c k =
      if k = "time_variable_name" ∧ (dget kw k = none ∨ dget kw k = some .none) ∧ dget kw "is_dynamic" = some (.bool true) then
        some (Spec.timeOf tn)
      else (dget kw k).or (dget confDefaults k) := by
  have hg : ∀ x, dget (dupdate confDefaults kw) x = (dget kw x).or (dget confDefaults x) := fun x => dget_dupdate _ hk x
  simp only [configure, bindArgs, bind_eq_ok] at h
  obtain ⟨a, ha, n, h2, h⟩ := h
  split at ha
  · cases ha
    have hc : c = confFromArgs tn (dupdate confDefaults kw) := by
      have h2' : dget (dupdate confDefaults kw) "number_parameters_to_optimize" = some n := by
        unfold dgetE at h2
        split at h2
        · next x hx => cases h2; exact hx
        · cases h2
      have h3 : dget (confFromArgs tn (dupdate confDefaults kw)) "number_parameters_to_optimize" = some n := by
        unfold confFromArgs
        split
        · rw [dget_dset_ne _ _ (by decide), h2']
        · exact h2'
      simp only [confOptimize, confSource] at h
      split at h
      · cases h; rfl
      · simp only [bind_eq_ok] at h
        obtain ⟨m, hm, h⟩ := h
        have : m = n := by simpa [dgetE, h3, eq_comm] using hm
        subst this
        simp only [if_true, Except.ok.injEq] at h
        exact h.symm
    subst hc
    have e1 : dget (dupdate confDefaults kw) "time_variable_name" = some .none ↔
        (dget kw "time_variable_name" = none ∨ dget kw "time_variable_name" = some .none) := by
      rw [hg]
      have : dget confDefaults "time_variable_name" = some .none := by decide
      rw [this]
      cases dget kw "time_variable_name" <;> simp
    have e2 : dget (dupdate confDefaults kw) "is_dynamic" = some (.bool true) ↔ dget kw "is_dynamic" = some (.bool true) := by
      rw [hg]
      have : dget confDefaults "is_dynamic" = some (.bool false) := by decide
      rw [this]
      cases dget kw "is_dynamic" <;> simp
    unfold confFromArgs
    by_cases hc : (dget kw "time_variable_name" = none ∨ dget kw "time_variable_name" = some .none) ∧ dget kw "is_dynamic" = some (.bool true)
    · rw [if_pos ⟨e1.2 hc.1, e2.2 hc.2⟩]
      by_cases hk' : k = "time_variable_name"
      · subst hk'
        rw [dget_dset_self, if_pos ⟨rfl, hc.1, hc.2⟩]
        cases tn <;> rfl
      · rw [dget_dset_ne _ _ (fun h => hk' h.symm), hg, if_neg (fun h => hk' h.1)]
    · rw [if_neg (fun h => hc ⟨e1.1 h.1, e2.1 h.2⟩), hg]
      split
      · next h => obtain ⟨rfl, h1, h2⟩ := h; exact absurd ⟨h1, h2⟩ hc
      · rfl
  · cases ha

/-- C40: unknown keyword arguments are refused. -/
theorem settings_unknown_refused {tn : Option (List String)} {kw : Conf} {file d : Option Conf} (h : ∃ k ∈ dkeys kw, k ∉ dkeys confDefaults) :
    configure tn kw file d = .error .typeError := by
  obtain ⟨k, hk, hn⟩ := h
  have : ¬ (kw.all fun p => (dget confDefaults p.1).isSome) = true := by
    rw [List.all_eq_true]
    intro hall
    obtain ⟨p, hp, rfl⟩ := List.mem_map.1 hk
    exact hn ((dget_isSome_iff _ _).1 (hall p hp))
  simp only [configure, bindArgs, if_neg this]
  rfl

/-- C40 fails for a file: the settings are those of the file alone, without any default. -/
theorem settings_file_drops_defaults (tn : Option (List String)) (f : Conf) (d : Option Conf) : configure tn [] (some f) d = .ok f := by
  simp only [configure, bindArgs, List.all_nil, if_true, ok_bind, dupdate_nil]
  have : dgetE confDefaults "number_parameters_to_optimize" = .ok (.num 0) := rfl
  rw [this]
  simp [confOptimize, confSource]

/-- C40 fails: the number of parameters to optimize given as an argument beats the one in the dictionary, unlike any other setting. -/
theorem settings_argument_beats_dict :
    (configure none [("number_parameters_to_optimize", .num 1), ("end_time", .num 5)] none
      (some [("number_parameters_to_optimize", .num 2), ("end_time", .num 7)])).map
        (fun c => (dget c "number_parameters_to_optimize", dget c "end_time")) = .ok (some (.num 1), some (.num 7)) := rfl

example : ∃ c, configure (some ["t"]) [("is_dynamic", .bool true), ("end_time", .num 3)] none none = .ok c ∧
    dget c "time_variable_name" = some (.names ["t"]) ∧ dget c "end_time" = some (.num 3) ∧ dget c "linear_solver" = some (.str "symbolicsys") :=
  ⟨_, rfl, rfl, rfl, rfl⟩

example : ∃ c, configure none [("end_time", .num 3)] none (some [("end_time", .num 7), ("mine", .none)]) = .ok c ∧
    dget c "end_time" = some (.num 7) ∧ dget c "mine" = some .none ∧ dget c "verbosity_solver" = some (.num 0) :=
  ⟨_, rfl, rfl, rfl, rfl⟩

section
variable {K : Type} [Field K] [LinearOrder K]

/-! ## C35, C54: the class of the solver -/

/-- The solver class for a kind of problem. -/
def Spec.OfClass : ProblemKind → SolverObj → Prop
  | .linear, .la _ => True
  | .nonlinear, .nla _ => True
  | .differential, .d _ => True
  | .dae, .dae _ => True
  | _, _ => False

theorem createSolver_kind {ext : Ext K} {conf : Conf} {s s' : SimWorld K} {sv : SolverObj} (h : createSolver ext conf s = (.ok sv, s')) :
    ∃ b k, s.w.pr.block = some b ∧ b.problemType = some k ∧ Spec.OfClass k sv := by
  unfold createSolver at h
  simp only [bind_ok, lift_ok, getBlock_ok] at h
  obtain ⟨lin, s1, ⟨_, rfl⟩, non, s2, ⟨_, rfl⟩, dif, s3, ⟨_, rfl⟩, dae, s4, ⟨_, rfl⟩, b, s5, ⟨hb, rfl⟩, h⟩ := h
  cases hk : b.problemType with
  | none => rw [hk] at h; exact absurd h raise_ok
  | some k =>
    refine ⟨b, k, hb, hk, ?_⟩
    rw [hk] at h
    cases k with
    | linear => simp only [solverFor, PyS.pure, Prod.mk.injEq, Except.ok.injEq] at h; rw [← h.1]; trivial
    | nonlinear =>
      simp only [solverFor, bind_ok, PyS.pure, Prod.mk.injEq, Except.ok.injEq] at h
      obtain ⟨_, _, _, h, _⟩ := h; rw [← h]; trivial
    | differential =>
      simp only [solverFor, bind_ok, PyS.pure, Prod.mk.injEq, Except.ok.injEq] at h
      obtain ⟨_, _, _, h, _⟩ := h; rw [← h]; trivial
    | dae =>
      simp only [solverFor, bind_ok, PyS.pure, Prod.mk.injEq, Except.ok.injEq] at h
      obtain ⟨_, _, _, h, _⟩ := h; rw [← h]; trivial

/-- C35 (solver class): the class of the solver created for a problem that was resolved in any session of written equations is decided
by the kinds of its equations, whatever the settings. -/
theorem solver_class (ops : List Op) (hs : Spec.Session ops) {s s' : SimWorld K} (hr : resolve (history ops World.init) = (.ok (), s.w))
    {ext : Ext K} {conf : Conf} {sv : SolverObj} (h : createSolver ext conf s = (.ok sv, s')) :
    ∃ b, s.w.pr.block = some b ∧ b.equations ≠ [] ∧
    ((∃ m, sv = .la m) ↔ ∀ r ∈ b.equations, Spec.OfKind s.w.es .linear r) ∧
    ((∃ o, sv = .d o) ↔ ∀ r ∈ b.equations, Spec.OfKind s.w.es .differential r) ∧
    ((∃ o, sv = .dae o) ↔ (∃ r ∈ b.equations, Spec.OfKind s.w.es .differential r) ∧ ∃ r ∈ b.equations, ¬ Spec.OfKind s.w.es .differential r) ∧
    ((∃ m, sv = .nla m) ↔ (∀ r ∈ b.equations, ¬ Spec.OfKind s.w.es .differential r) ∧ ∃ r ∈ b.equations, Spec.OfKind s.w.es .nonlinear r) := by
  obtain ⟨b, hb, _, k1, k2, k3, k4, k5⟩ := resolved_kind ops hs hr
  obtain ⟨b', k, hb', hk, hcl⟩ := createSolver_kind h
  obtain rfl : b = b' := Option.some.inj (hb.symm.trans hb')
  have hne : b.equations ≠ [] := fun h0 => by rw [k5.2 h0] at hk; cases hk
  rw [hk] at k1 k2 k3 k4
  refine ⟨b, hb, hne, ?_⟩
  rw [← k3, ← k4]
  have k1' : (∀ r ∈ b.equations, Spec.OfKind s.w.es .linear r) ↔ some k = some ProblemKind.linear :=
    ⟨fun h => k1.2 ⟨hne, h⟩, fun h => (k1.1 h).2⟩
  have k2' : (∀ r ∈ b.equations, Spec.OfKind s.w.es .differential r) ↔ some k = some ProblemKind.differential :=
    ⟨fun h => k2.2 ⟨hne, h⟩, fun h => (k2.1 h).2⟩
  rw [k1', k2']
  cases k <;> cases sv <;> simp [Spec.OfClass] at hcl ⊢

/-- The kind a name stands for. -/
def Spec.kindNamed : String → Option ProblemKind
  | "linear" => some .linear
  | "nonlinear" => some .nonlinear
  | "differential" => some .differential
  | "differential-algebraic" => some .dae
  | _ => none

/-- The setting that names the solver for a kind. -/
def Spec.settingFor : ProblemKind → String
  | .linear => "linear_solver"
  | .nonlinear => "nonlinear_solver"
  | .differential => "differential_solver"
  | .dae => "differential_algebraic_solver"

/-- Before the problem is resolved no solver is created. -/
theorem createSolver_unresolved (ext : Ext K) (c : Conf) {s : SimWorld K} (hb : s.w.pr.block = none) : ∃ e, createSolver ext c s = (.error e, s) := by
  unfold createSolver
  cases dgetE c "linear_solver" with
  | error e => exact ⟨e, rfl⟩
  | ok a =>
  cases dgetE c "nonlinear_solver" with
  | error e => exact ⟨e, rfl⟩
  | ok a =>
  cases dgetE c "differential_solver" with
  | error e => exact ⟨e, rfl⟩
  | ok a =>
  cases dgetE c "differential_algebraic_solver" with
  | error e => exact ⟨e, rfl⟩
  | ok a =>
    rw [bind_lift_ok rfl, bind_lift_ok rfl, bind_lift_ok rfl, bind_lift_ok rfl, bind_of_error (e := .attributeError) (s1 := s) (by rw [PyS.getBlock, hb])]
    exact ⟨_, rfl⟩

theorem run_unfold {ext : Ext K} {I : Interp K} {i : SRef} {a : RunArgs} {s : SimWorld K} {o : SimObj K} {c : Conf}
    (ho : s.sims[i]? = some o) (hc : o.conf = some c) {pt : CVal} (hpt : dget c "problem_type" = some pt) {n : CVal}
    (hn : dget c "number_parameters_to_optimize" = some n) {b : Block} (hb : s.w.pr.block = some b) :
    runSimulation ext I i a s = (if runnable pt b.problemType then (do
      let sv ← createSolver ext c
      Sloth.sanity ext a.sanity
      solveStore ext I i c sv
      epilogue i pt a.showMsg a.showResiduals) else PyS.raise .unexpectedValue) s := by
  unfold runSimulation
  rw [bind_of_ok (getSim_ok.2 ⟨ho, rfl⟩), bind_lift_ok (a := c) (by rw [hc]), bind_lift_ok (a := pt) (by rw [dgetE, hpt]),
    bind_lift_ok (a := n) (by rw [dgetE, hn]), ask_run hb]
  cases hr : runnable pt b.problemType
  · exact bind_when_raise _ _ _
  · exact bind_when_false _ _ _

/-- C54: a configured type that is none of the four (a text, or anything else but `None`) is refused, resolved or not, and nothing changes. -/
theorem configured_type_refused {ext : Ext K} {I : Interp K} {i : SRef} {a : RunArgs} {s : SimWorld K} {o : SimObj K} {c : Conf}
    (ho : s.sims[i]? = some o) (hc : o.conf = some c) {pt : CVal} (hpt : dget c "problem_type" = some pt) {n : CVal}
    (hn : dget c "number_parameters_to_optimize" = some n) (h0 : pt ≠ .none) (ht : ∀ t, pt = .str t → Spec.kindNamed t = none) :
    runSimulation ext I i a s = (.error .unexpectedValue, s) := by
  unfold runSimulation
  rw [bind_of_ok (getSim_ok.2 ⟨ho, rfl⟩), bind_lift_ok (a := c) (by rw [hc]), bind_lift_ok (a := pt) (by rw [dgetE, hpt]),
    bind_lift_ok (a := n) (by rw [dgetE, hn])]
  have hr : runnable pt none = false := by
    cases pt with
    | none => exact absurd rfl h0
    | str t =>
      have ht := ht t rfl
      unfold Spec.kindNamed at ht
      split at ht
      · cases ht
      · cases ht
      · cases ht
      · cases ht
      · next h1 h2 h3 h4 => simp only [runnable]; simpa using ⟨h1, h2, h3, h4⟩
    | _ => rfl
  have hk : (askKind pt : PyS K _) s = (.ok none, s) := by unfold askKind; rw [if_neg h0]; rfl
  rw [bind_of_ok hk, hr, Bool.not_false, bind_when_raise]

/-- C54: before the problem is resolved, a run is refused and changes nothing: with `AttributeError` if no type is configured, or one of the four and the
settings for the solvers are there. -/
theorem unresolved_run_refused {ext : Ext K} {I : Interp K} {i : SRef} {a : RunArgs} {s : SimWorld K} {o : SimObj K} {c : Conf}
    (ho : s.sims[i]? = some o) (hc : o.conf = some c) {pt : CVal} (hpt : dget c "problem_type" = some pt) {n : CVal}
    (hn : dget c "number_parameters_to_optimize" = some n) (hb : s.w.pr.block = none) (ht : pt = .none ∨ ∃ t k, pt = .str t ∧ Spec.kindNamed t = some k)
    (hs : ∀ k, ∃ v, dget c (Spec.settingFor k) = some v) :
    runSimulation ext I i a s = (.error .attributeError, s) := by
  unfold runSimulation
  rw [bind_of_ok (getSim_ok.2 ⟨ho, rfl⟩), bind_lift_ok (a := c) (by rw [hc]), bind_lift_ok (a := pt) (by rw [dgetE, hpt]),
    bind_lift_ok (a := n) (by rw [dgetE, hn])]
  rcases ht with rfl | ⟨t, k, rfl, ht⟩
  · have hk : (askKind .none : PyS K _) s = (.error .attributeError, s) := by
      unfold askKind
      rw [if_pos rfl]
      show (getBlock >>= fun b => PyS.pure b.problemType) s = _
      rw [bind_of_error (e := .attributeError) (s1 := s) (by rw [PyS.getBlock, hb])]
    rw [bind_of_error hk]
  · have hr : runnable (.str t) none = true := by
      unfold Spec.kindNamed at ht
      split at ht <;> first | (cases ht; done) | rfl
    have hk : (askKind (.str t) : PyS K _) s = (.ok none, s) := rfl
    obtain ⟨v1, h1⟩ := hs .linear
    obtain ⟨v2, h2⟩ := hs .nonlinear
    obtain ⟨v3, h3⟩ := hs .differential
    obtain ⟨v4, h4⟩ := hs .dae
    have hcs : createSolver ext c s = (.error .attributeError, s) := by
      unfold createSolver
      rw [bind_lift_ok (a := v1) (by rw [dgetE, show dget c "linear_solver" = _ from h1]), bind_lift_ok (a := v2) (by rw [dgetE, show dget c "nonlinear_solver" = _ from h2]),
        bind_lift_ok (a := v3) (by rw [dgetE, show dget c "differential_solver" = _ from h3]),
        bind_lift_ok (a := v4) (by rw [dgetE, show dget c "differential_algebraic_solver" = _ from h4]),
        bind_of_error (e := .attributeError) (s1 := s) (by rw [PyS.getBlock, hb])]
    rw [bind_of_ok hk, hr, Bool.not_true, bind_when_false, bind_of_error hcs]

/-- Sessions that configure an unknown type, no type, and a known one, and run without resolving. -/
example (ext : Ext ℚ) (I : Interp ℚ) :
    (runSimulation ext I 0 {} (simHistory ext I [.newSim "s", .configure 0 [("problem_type", .str "algebraic")] none none])).1 = .error .unexpectedValue ∧
    (runSimulation ext I 0 {} (simHistory ext I [.newSim "s", .configure 0 [] none none])).1 = .error .attributeError ∧
    (runSimulation ext I 0 {} (simHistory ext I [.newSim "s", .configure 0 [("problem_type", .str "linear")] none none])).1 = .error .attributeError := by
  refine ⟨?_, ?_, ?_⟩
  · rw [configured_type_refused rfl rfl (pt := .str "algebraic") rfl rfl (by decide) (fun t h => by cases h; rfl)]
  · rw [unresolved_run_refused rfl rfl (pt := .none) rfl rfl rfl (.inl rfl) (fun k => by cases k <;> exact ⟨_, rfl⟩)]
  · rw [unresolved_run_refused rfl rfl (pt := .str "linear") rfl rfl rfl (.inr ⟨_, _, rfl, rfl⟩) (fun k => by cases k <;> exact ⟨_, rfl⟩)]

/-- C54 (partial): a problem type that is none of the four is refused before anything happens.  If the configured type is the kind of the problem,
the solver of this type is created (`createSolver_kind`).  Missing: a configured type that differs from the kind of the problem, see
`configured_type_ignored`. -/
theorem configured_type_partial {ext : Ext K} {I : Interp K} {i : SRef} {a : RunArgs} {s : SimWorld K} {o : SimObj K} {c : Conf}
    (ho : s.sims[i]? = some o) (hc : o.conf = some c) {t : String} (hpt : dget c "problem_type" = some (.str t)) {n : CVal}
    (hn : dget c "number_parameters_to_optimize" = some n) {b : Block} (hb : s.w.pr.block = some b) :
    (Spec.kindNamed t = none → runSimulation ext I i a s = (.error .unexpectedValue, s)) ∧
    (Spec.kindNamed t = b.problemType → ∀ s' sv, createSolver ext c s = (.ok sv, s') → ∃ k, Spec.kindNamed t = some k ∧ Spec.OfClass k sv) := by
  constructor
  · intro ht
    rw [run_unfold ho hc hpt hn hb]
    have : runnable (.str t) b.problemType = false := by
      unfold Spec.kindNamed at ht
      split at ht
      · cases ht
      · cases ht
      · cases ht
      · cases ht
      · next h1 h2 h3 h4 => simp only [runnable]; simpa using ⟨h1, h2, h3, h4⟩
    rw [this]; rfl
  · intro ht s' sv h
    obtain ⟨b', k, hb', hk, hcl⟩ := createSolver_kind h
    obtain rfl : b = b' := Option.some.inj (hb.symm.trans hb')
    exact ⟨k, ht.trans hk, hcl⟩

/-- C54 fails for every problem and every configuration: with a configured type that is not the kind of the problem, the solver created is never of
the configured type. -/
theorem configured_type_ignored {ext : Ext K} {c : Conf} {s s' : SimWorld K} {b : Block} {k : ProblemKind}
    (hb : s.w.pr.block = some b) (hk : b.problemType ≠ some k) {sv : SolverObj} (h : createSolver ext c s = (.ok sv, s')) :
    ¬ Spec.OfClass k sv := by
  obtain ⟨b', k', hb', hk', hcl⟩ := createSolver_kind h
  obtain rfl : b = b' := Option.some.inj (hb.symm.trans hb')
  intro hcl'
  apply hk
  rw [hk']
  cases k <;> cases k' <;> cases sv <;> simp [Spec.OfClass] at hcl hcl' ⊢

/-! ## C51: creating a solver -/

/-- C51 (partial): creating a solver for a problem that is not mixed leaves models, equations and the problem exactly as they are, whether it
succeeds or raises.  Missing: mixed problems, see `dae_solver_changes_group`. -/
theorem create_keeps_problem_partial (ext : Ext K) (conf : Conf) (s : SimWorld K) {b : Block} (hb : s.w.pr.block = some b)
    (hk : b.problemType ≠ some .dae) : (createSolver ext conf s).2.w = s.w := by
  have key : ∀ lin non dif dae, Keeps (fun s : SimWorld K => s.w) (solverFor ext conf lin non dif dae b.problemType) := by
    intro lin non dif dae
    cases hk' : b.problemType with
    | none => exact Keeps.raise _ _
    | some k =>
      cases k with
      | linear => exact Keeps.pure _ _
      | nonlinear => exact Keeps.bind (Keeps.lift _ _) fun _ => Keeps.pure _ _
      | differential => exact Keeps.bind (keeps_dInit (fun _ _ => rfl) _ _) fun _ => Keeps.pure _ _
      | dae => exact absurd hk' hk
  have h4 : ∀ (x1 x2 x3 x4 : Except Err CVal) , ((do
      let lin ← lift x1
      let non ← lift x2
      let dif ← lift x3
      let dae ← lift x4
      let b ← getBlock
      solverFor ext conf lin non dif dae b.problemType : PyS K SolverObj) s).2.w = s.w := by
    intro x1 x2 x3 x4
    cases x1 with
    | error e => rfl
    | ok a1 => cases x2 with
      | error e => rfl
      | ok a2 => cases x3 with
        | error e => rfl
        | ok a3 => cases x4 with
          | error e => rfl
          | ok a4 =>
            rw [bind_lift_ok rfl, bind_lift_ok rfl, bind_lift_ok rfl, bind_lift_ok rfl, bind_of_ok (getBlock_ok.2 ⟨hb, rfl⟩)]
            exact key a1 a2 a3 a4 s
  exact h4 _ _ _ _

theorem eq_but_block {w w' : World}
    (h : ({ w' with pr := { w'.pr with block := none } } : World) = { w with pr := { w.pr with block := none } }) :
    w' = { w with pr := { w.pr with block := w'.pr.block } } := by
  obtain ⟨qs, es, ms, ps, pr, u, pu⟩ := w'
  obtain ⟨n, m, cn, v, p, ini, tn, el, bl⟩ := pr
  simp only [World.mk.injEq, ProblemObj.mk.injEq] at h
  obtain ⟨rfl, rfl, rfl, rfl, ⟨rfl, rfl, rfl, rfl, rfl, rfl, rfl, rfl, _⟩, rfl, rfl⟩ := h
  rfl

/-- C51: creating a solver, for any problem, changes at most the list of lists at the end of the linear group: the equations, the unknowns, the other
groups and all other objects stay. -/
theorem create_changes_at_most_tail (ext : Ext K) (conf : Conf) (s : SimWorld K) :
    ∀ s', (createSolver ext conf s).2 = s' → s'.w = { s.w with pr := { s.w.pr with block := s'.w.pr.block } } ∧
      s'.w.pr.block.map (fun b => { b with linearTail := [] }) = s.w.pr.block.map (fun b => { b with linearTail := [] }) := by
  rintro s' rfl
  have h1 := keeps_createSolver (K := K) (f := fun s => ({ s.w with pr := { s.w.pr with block := none } } : World)) (fun _ _ => rfl)
    (fun _ _ _ _ => rfl) ext conf s
  have h2 := keeps_createSolver (K := K) (f := fun s => s.w.pr.block.map (fun b => ({ b with linearTail := [] } : Block))) (fun _ _ => rfl)
    (fun s b l h => by simp [h]) ext conf s
  exact ⟨eq_but_block h1, h2⟩

/-- C51 fails for every mixed problem for which a solver is created: a list of equations has been put into the linear group, and the groups are no
longer a partition of the equations. -/
theorem dae_solver_changes_group {ext : Ext K} {conf : Conf} {s s' : SimWorld K} {b : Block} (hb : s.w.pr.block = some b)
    (hk : b.problemType = some .dae) {sv : SolverObj} (h : createSolver ext conf s = (.ok sv, s')) :
    s'.w.pr.block = some { b with linearTail := b.linearTail ++ [b.nonlinear] } ∧
      ∀ b', s'.w.pr.block = some b' → ¬ Spec.Partition s'.w.es b' := by
  unfold createSolver at h
  simp only [bind_ok, lift_ok, getBlock_ok] at h
  obtain ⟨lin, s1, ⟨_, rfl⟩, non, s2, ⟨_, rfl⟩, dif, s3, ⟨_, rfl⟩, dae, s4, ⟨_, rfl⟩, b', s5, ⟨hb', rfl⟩, h⟩ := h
  obtain rfl : b = b' := Option.some.inj (hb.symm.trans hb')
  rw [hk] at h
  simp only [solverFor, daeInit, bind_ok] at h
  obtain ⟨o, s6, ⟨dom, t1, h1, tvn, t2, h2, args, t3, h3, st, t4, h4, has, t5, h5, u1, t6, h6, u2, t7, h7, u3, t8, h8, cm, t9, h9, u4, t10, h10, h11⟩, h12⟩ := h
  have e1 := (lift_ok.1 h1).2
  have e2 := (lift_ok.1 h2).2
  have e3 := (lift_ok.1 h3).2
  have e4 : t4 = t3 := by
    simp only [PyS.get, Prod.mk.injEq] at h4
    exact h4.2.symm
  have e5 := (lift_ok.1 h5).2
  have e6 : t6 = t5 := by
    rcases when_ok.1 h6 with ⟨_, h⟩ | ⟨_, h⟩
    · exact absurd h raise_ok
    · exact h
  have e7 : t7.w.pr.block = some b := by
    have := keeps_appendArg (f := fun s : SimWorld K => s.w) (fun _ _ => rfl) tvn args t6
    rw [h7] at this
    rw [show t7.w = t6.w from this, e6, e5, e4, e3, e2, e1]; exact hb
  have e9 := (lift_ok.1 h9).2
  have e10 := (lift_ok.1 h10).2
  have e12 : s' = t8 := by
    simp only [PyS.pure, Prod.mk.injEq] at h11 h12
    rw [← h12.2, ← h11.2, e10, e9]
  have e8 : s'.w.pr.block = some { b with linearTail := b.linearTail ++ [b.nonlinear] } := by
    unfold daeSystem at h8
    rw [bind_of_ok (getBlock_ok.2 ⟨e7, rfl⟩)] at h8
    simp only [PyS.modify, Prod.mk.injEq] at h8
    rw [e12, ← h8.2]
  refine ⟨e8, fun b' hb' hp => ?_⟩
  have := hp.tail
  rw [e8] at hb'
  cases hb'
  simp at this

/-! ## C42: the sanity check comes first -/

theorem sanity_ok {ext : Ext K} {s s' : SimWorld K} (h : Sloth.sanity ext true s = (.ok (), s')) : (dofTest ext.sr s.w).1 = .ok () := by
  simp only [Sloth.sanity, PyS.when, if_true, PyS.ofWorld, Prod.mk.injEq] at h
  exact h.1

/-- C42: with the sanity check on, a run in which any numerical routine is called is a run of a problem with as many equations as unknowns (variables and
parameters without value; an explicitly occurring time variable counts as known). -/
theorem solver_called_only_if_square {ext : Ext K} {I : Interp K} {i : SRef} {a : RunArgs} (ha : a.sanity = true) {s : SimWorld K}
    (hlog : (runSimulation ext I i a s).2.log ≠ s.log) :
    ∃ b t, s.w.pr.block = some b ∧ timeDeclared ext.sr s.w.es b s.w.pr.timeName = .ok t ∧
      b.varList.length + unspecParams s.w.qs b.parameterDict = b.equationsList.length + (if t then 1 else 0) := by
  have keep : ∀ {α : Type} {x : PyS K α} {s : SimWorld K}, Keeps (fun s : SimWorld K => s.log) x → (x s).2.log = s.log := fun h => h _
  -- everything before the sanity check leaves the log alone
  cases ho : s.sims[i]? with
  | none =>
    exfalso; apply hlog
    unfold runSimulation
    rw [bind_of_error (e := .exception "dangling") (s1 := s) (by rw [PyS.getSim, ho])]
  | some o =>
    cases hc : o.conf with
    | none =>
      exfalso; apply hlog
      unfold runSimulation
      rw [bind_of_ok (getSim_ok.2 ⟨ho, rfl⟩), hc]; rfl
    | some c =>
      cases hpt : dget c "problem_type" with
      | none =>
        exfalso; apply hlog
        unfold runSimulation
        rw [bind_of_ok (getSim_ok.2 ⟨ho, rfl⟩), bind_lift_ok (a := c) (by rw [hc]), bind_lift_error (e := .keyError) (by rw [dgetE, hpt])]
      | some pt =>
        cases hn : dget c "number_parameters_to_optimize" with
        | none =>
          exfalso; apply hlog
          unfold runSimulation
          rw [bind_of_ok (getSim_ok.2 ⟨ho, rfl⟩), bind_lift_ok (a := c) (by rw [hc]), bind_lift_ok (a := pt) (by rw [dgetE, hpt]),
            bind_lift_error (e := .keyError) (by rw [dgetE, hn])]
        | some n =>
          cases hb : s.w.pr.block with
          | none =>
            exfalso; apply hlog
            unfold runSimulation
            rw [bind_of_ok (getSim_ok.2 ⟨ho, rfl⟩), bind_lift_ok (a := c) (by rw [hc]), bind_lift_ok (a := pt) (by rw [dgetE, hpt]),
              bind_lift_ok (a := n) (by rw [dgetE, hn])]
            rcases hk : askKind pt s with ⟨e | k, s1⟩
            · rw [bind_of_error hk, askKind_reads hk]
            · rw [bind_of_ok hk, askKind_reads hk]
              cases runnable pt k with
              | false => rw [Bool.not_false, bind_when_raise]
              | true =>
                obtain ⟨e, he⟩ := createSolver_unresolved ext c hb
                rw [Bool.not_true, bind_when_false, bind_of_error he]
          | some b =>
            rw [run_unfold ho hc hpt hn hb] at hlog
            split at hlog
            · cases hcs : createSolver ext c s with
              | mk r s1 =>
                have hl : s1.log = s.log := by
                  have := keeps_createSolver (K := K) (f := fun s => s.log) (fun _ _ => rfl) (fun _ _ _ _ => rfl) ext c s
                  rw [hcs] at this; exact this
                have hw : (s1.w.es, s1.w.qs, s1.w.pr.timeName, s1.w.pr.block.map fun b => (b.varList, b.parameterDict, b.equationsList, b.differential)) =
                    (s.w.es, s.w.qs, s.w.pr.timeName, s.w.pr.block.map fun b => (b.varList, b.parameterDict, b.equationsList, b.differential)) := by
                  have := keeps_createSolver (K := K) (f := fun s => (s.w.es, s.w.qs, s.w.pr.timeName,
                    s.w.pr.block.map fun b => (b.varList, b.parameterDict, b.equationsList, b.differential))) (fun _ _ => rfl)
                    (fun s b l h => by simp [h]) ext c s
                  rw [hcs] at this; exact this
                cases r with
                | error e => rw [bind_of_error hcs] at hlog; exact absurd hl hlog
                | ok sv =>
                  rw [bind_of_ok hcs, ha] at hlog
                  cases hsan : Sloth.sanity ext true s1 with
                  | mk r2 s2 =>
                    have hl2 : s2.log = s1.log := by
                      have := Keeps.when (b := true) (Keeps.ofWorld (K := K) (f := fun s => s.log) (fun _ _ => rfl) (dofTest ext.sr)) s1
                      rw [show PyS.when true (PyS.ofWorld (dofTest ext.sr)) s1 = (r2, s2) from hsan] at this; exact this
                    cases r2 with
                    | error e => rw [bind_of_error hsan] at hlog; exact absurd (hl2.trans hl) hlog
                    | ok u =>
                      have hd := sanity_ok hsan
                      simp only [Prod.mk.injEq, hb, Option.map_some] at hw
                      obtain ⟨w1, w2, w3, w4⟩ := hw
                      obtain ⟨b1, hb1, w4⟩ := Option.map_eq_some_iff.1 w4
                      simp only [Prod.mk.injEq] at w4
                      obtain ⟨v1, v2, v3, v4⟩ := w4
                      cases ht : timeDeclared ext.sr s1.w.es b1 s1.w.pr.timeName with
                      | error e =>
                        exfalso
                        simp [dofTest, hb1, ht] at hd
                      | ok t =>
                        have hv := ((dofTest_verdict hb1 ht).2.square).1 hd
                        refine ⟨b, t, rfl, ?_, ?_⟩
                        · rw [← ht, w1, w3]
                          cases s.w.pr.timeName <;> simp [timeDeclared, v4]
                        · rw [v1, v2, v3, w2] at hv; exact hv
            · exact absurd rfl hlog

end
end Sloth
