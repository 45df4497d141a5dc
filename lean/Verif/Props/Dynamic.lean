import Verif.Props.Domains
import Verif.Props.Odes
import Verif.Props.Carried

/-!
# Dynamic runs end as the integrator does (C101)
-/

namespace Sloth
open PyS

section
variable {K : Type} [Field K] [LinearOrder K]

/-- Settings of a dynamic run at equally spaced times, with the integrator `sv`. -/
structure Spec.Timed (c : Conf) (sv : CVal) (r : DRef) (l : LRef) (times : List String) (t0 t1 : Rat) (n : Nat) (comp : Bool) (m : Dict String String) : Prop where
  all : ∀ k ∈ dkeys confDefaults, ∃ v, dget c k = some v
  problemType : dget c "problem_type" = some .none
  integrator : dget c "differential_solver" = some sv
  domain : dget c "domain" = some (.dom r)
  args : dget c "arg_names" = some (.argNames l)
  time : dget c "time_variable_name" = some (.names times)
  start : dget c "initial_time" = some (.num t0)
  stop : dget c "end_time" = some (.num t1)
  steps : dget c "number_of_time_steps" = some (.num n)
  chosen : dget c "times_for_solution" = some .none
  compile : dget c "compile_equations" = some (.bool comp)
  quiet : dget c "print_output" = some (.bool false)
  names : dget c "variable_name_map" = some (.renames m)

/-- The domain waits for a table with one column for time and one for each of `k` unknowns. -/
structure Spec.Ready (d : DomainObj K) (x : String) (k : Nat) (f : Frame K) : Prop where
  last : d.indep.getLast? = some x
  table : d.values.bind (dget · x) = some f
  empty : f.rows = []
  width : f.cols.length = k + 1

/-- A table of `k` unknowns over time. -/
structure Spec.Table (k : Nat) (T : List K) (Y : List (List K)) : Prop where
  some : T ≠ []
  rows : T.length = Y.length
  cols : ∀ y ∈ Y, y.length = k

theorem elementary_run {ext : Ext K} {w : World} {b : Block} {times : List String} {sys : List (String × Stmt)} (hsys : Spec.OdeSystem ext w b times sys)
    (hc : b.problemType = some .differential) : ∃ f, b.elementary w.es .rhs = .ok f := by
  have h : ∀ (l : List ERef) (sys : List (String × Stmt)), List.Forall₂ (fun r p => ∃ e, w.es[r]? = some e ∧ Spec.Explicit p.2 p.1 ∧ e.Sides p.2) l sys →
      ∃ x, Block.getEquationList w.es (some .elementary) .rhs l = .ok x := by
    intro l sys h
    induction h with
    | nil => exact ⟨[], rfl⟩
    | cons hr _ ih =>
      obtain ⟨e, he, hx, hs⟩ := hr
      obtain ⟨ln, n, i, hel, _⟩ := explicit_sides (K := ℚ) hx hs
      obtain ⟨x, ih⟩ := ih
      refine ⟨n.sym :: x, ?_⟩
      unfold Block.getEquationList
      simp only [he, EqObj.symbolicObject, EqObj.getNode, hel, Option.getD_some, ok_bind, ih]
  obtain ⟨x, hx⟩ := h _ _ hsys.states
  rw [← differential_whole hsys.parts hc] at hx
  exact ⟨_, by unfold Block.elementary; rw [hx]; rfl⟩

theorem appendArg_run (tvn : CVal) {l : LRef} {s : SimWorld K} {x : List CVal} (h : s.lists[l]? = some x) :
    ∃ s', appendArg tvn (.argNames l) s = (.ok (), s') ∧ s'.w = s.w ∧ s'.sims = s.sims ∧ s'.doms = s.doms := by
  have hg : (getL l : PyS K _) s = (.ok x, s) := by unfold getL; rw [h]
  unfold appendArg
  simp only
  rw [bind_of_ok hg]
  cases hx : x.contains tvn with
  | true => exact ⟨s, rfl, rfl, rfl, rfl⟩
  | false => exact ⟨_, rfl, rfl, rfl, rfl⟩

/-- The creation of the solver. -/
theorem dInit_run {ext : Ext K} {c : Conf} {sv : CVal} {r : DRef} {l : LRef} {times : List String} {t0 t1 : Rat} {n : Nat} {comp : Bool} {m : Dict String String}
    (hc : Spec.Timed c sv r l times t0 t1 n comp m) {s : SimWorld K} {b : Block} (hb : s.w.pr.block = some b) (hk : b.problemType = some .differential)
    {sys : List (String × Stmt)} (hsys : Spec.OdeSystem ext s.w b times sys) (htime : ∀ t ∈ times, (dget s.w.pr.initial t).isSome = true)
    (hl : (s.lists[l]?).isSome = true) :
    ∃ o s', dInit sv c s = (.ok o, s') ∧ s'.w = s.w ∧ s'.sims = s.sims ∧ s'.doms = s.doms := by
  obtain ⟨cm, hcm⟩ := hc.all "compilation_mechanism" (by decide)
  obtain ⟨x, hx⟩ := Option.isSome_iff_exists.mp hl
  obtain ⟨s1, hy, hw, hs, hdd⟩ := appendArg_run (.names times) hx
  obtain ⟨d, hd, _⟩ := setUpDiffY_ok hsys.states [] (by simpa [dkeys] using hsys.distinct)
  have hd : setUpDiffY s.w.es b.differential = .ok d := hd
  obtain ⟨f, hf⟩ := elementary_run hsys hk
  have hcf : ∃ g, (compileIf (.bool comp) b : PyS K _) s1 = (.ok g, s1) := by
    unfold compileIf
    cases comp with
    | false => exact ⟨none, rfl⟩
    | true =>
      rw [if_pos (Or.inl rfl), bind_get]
      exact ⟨some f, by rw [hw, bind_lift_ok hf]; rfl⟩
  obtain ⟨g, hg⟩ := hcf
  unfold dInit
  rw [bind_lift_ok (dgetE_of hc.domain), bind_lift_ok (dgetE_of hc.chosen), bind_lift_ok (dgetE_of hc.time), bind_lift_ok (dgetE_of hc.args), bind_get,
    bind_lift_ok (a := true) (by simp only [hasInitialAll, Except.ok.injEq, List.all_eq_true]; exact htime),
    bind_of_ok (a := ()) (s1 := s) (by rfl), bind_of_ok hy, bind_of_ok (getBlock_ok.2 ⟨by rw [hw]; exact hb, rfl⟩), bind_lift_ok hd, bind_lift_ok (dgetE_of hcm),
    bind_lift_ok (dgetE_of hc.compile), bind_of_ok hg]
  exact ⟨_, _, rfl, hw, hs, hdd⟩

theorem record_run {c : Conf} {r : DRef} {m : Dict String String} (hm : dget c "variable_name_map" = some (.renames m)) {s : SimWorld K} {d : DomainObj K}
    (hd : s.doms[r]? = some d) {x : String} {k : Nat} {f : Frame K} (hr : Spec.Ready d x k f) {T : List K} {Y : List (List K)} (ht : Spec.Table k T Y) :
    ∃ d' f', record c (.dom r) (List.zipWith (fun a y => a :: y) T Y) s = (.ok (), { s with doms := s.doms.set r d' }) ∧
      d'.values.bind (dget · x) = some f' ∧ f'.rows = List.zipWith (fun a y => a :: y) T Y ∧ f'.cols = f.cols.map (DomainObj.Label.rename m) := by
  obtain ⟨vals, hv, hf⟩ := Option.bind_eq_some_iff.mp hr.table
  set rows := List.zipWith (fun a y => a :: y) T Y with hrows
  have hw : DomainObj.width rows = f.cols.length := by
    match T, Y, ht.some, ht.rows with
    | a :: T, y :: Y, _, _ =>
      rw [hrows, hr.width]
      simp [DomainObj.width, ht.cols y (by simp)]
  have hreg : d.register rows none = .ok { d with values := some (dset vals x ⟨f.cols, rows⟩) } := by
    unfold DomainObj.register DomainObj.target
    simp only [hr.last, ok_bind, hv, dgetE, hf, DomainObj.extend]
    rw [if_pos (by simp [DomainObj.Frame.isEmpty, hr.empty])]
    unfold DomainObj.mkFrame
    rw [if_pos hw]
    rfl
  refine ⟨{ d with values := some ((dset vals x ⟨f.cols, rows⟩).map fun p => (p.1, { p.2 with cols := p.2.cols.map (DomainObj.Label.rename m) })) },
    ⟨f.cols.map (DomainObj.Label.rename m), rows⟩, ?_, ?_, rfl, rfl⟩
  · have hg : (getD r : PyS K _) s = (.ok d, s) := by unfold getD; rw [hd]
    unfold record
    simp only
    rw [bind_of_ok hg, bind_lift_ok hreg, bind_of_ok (a := ()) (s1 := { s with doms := s.doms.set r { d with values := some (dset vals x ⟨f.cols, rows⟩) } }) (by rfl),
      bind_lift_ok (dgetE_of hm)]
    simp only
    rw [bind_lift_ok (a := { d with values := some ((dset vals x ⟨f.cols, rows⟩).map fun p => (p.1, { p.2 with cols := p.2.cols.map (DomainObj.Label.rename m) })) }) (by rfl)]
    show ((Except.ok () : Except Err Unit), _) = _
    simp [List.set_set]
  · simp only [Option.bind_some]
    have := dget_map_val (dset vals x ⟨f.cols, rows⟩) (fun _ (g : Frame K) => ({ g with cols := g.cols.map (DomainObj.Label.rename m) } : Frame K)) x
    rw [dget_dset_self] at this
    exact this

/-- C101: a run of a purely differential problem, with a domain that waits for its table, ends as the integrator does: with its exception, or else with the answer of the
integrator for the stated right sides and the declared initial values stored, and its table in the domain. -/
theorem run_ends_as_integrator {ext : Ext K} (I : Interp K) (hwell : Spec.Wellbehaved ext) {i : SRef} (a : RunArgs) {s : SimWorld K} {o : SimObj K} {c : Conf}
    {sv : CVal} {r : DRef} {l : LRef} {times : List String} {t0 t1 : Rat} {n : Nat} {comp : Bool} {m : Dict String String}
    (ho : s.sims[i]? = some o) (hoc : o.conf = some c) (hc : Spec.Timed c sv r l times t0 t1 n comp m) {b : Block} (hb : s.w.pr.block = some b)
    (hk : b.problemType = some .differential) {sys : List (String × Stmt)} (hsys : Spec.OdeSystem ext s.w b times sys) (hdis : ∀ t ∈ times, t ∉ sys.map Prod.fst)
    (hcomp : comp = false ∨ Spec.Compilable ext s.w b times sys) (htime : ∀ t ∈ times, (dget s.w.pr.initial t).isSome = true)
    {y0 : List Rat} (hy0 : List.Forall₂ (fun p y => dget s.w.pr.initial p.1 = some y) sys y0) (hl : (s.lists[l]?).isSome = true)
    {d : DomainObj K} (hd : s.doms[r]? = some d) {x : String} {f : Frame K} (hr : Spec.Ready d x sys.length f)
    (hsan : a.sanity = true → (dofTest ext.sr s.w).1 = .ok ())
    (hshape : ∀ T Y, Spec.integral ext (Spec.field I times sys) (y0.map fun q : ℚ => (q : K)) (linspace (t0 : K) (t1 : K) n) sv = .ok (T, Y) → Spec.Table sys.length T Y) :
    (runSimulation ext I i a s).1 = (Spec.integral ext (Spec.field I times sys) (y0.map fun q : ℚ => (q : K)) (linspace (t0 : K) (t1 : K) n) sv).map (fun _ => ()) ∧
    ∀ T Y, Spec.integral ext (Spec.field I times sys) (y0.map fun q : ℚ => (q : K)) (linspace (t0 : K) (t1 : K) n) sv = .ok (T, Y) →
      ∃ o' d' f', (runSimulation ext I i a s).2.sims[i]? = some o' ∧ o'.output = some (.series T Y) ∧
        (runSimulation ext I i a s).2.doms[r]? = some d' ∧ d'.values.bind (dget · x) = some f' ∧ f'.rows = List.zipWith (fun t y => t :: y) T Y ∧
        f'.cols = f.cols.map (DomainObj.Label.rename m) := by
  obtain ⟨v2, h2⟩ := hc.all "number_parameters_to_optimize" (by decide)
  obtain ⟨vl, hvl⟩ := hc.all "linear_solver" (by decide)
  obtain ⟨vn, hvn⟩ := hc.all "nonlinear_solver" (by decide)
  obtain ⟨va, hva⟩ := hc.all "differential_algebraic_solver" (by decide)
  obtain ⟨od, s1, hdi, hw1, hsim1, hdom1⟩ := dInit_run hc hb hk hsys htime hl
  obtain ⟨_, _, _, _, _, _, _, hosv, hodom, hots, _, honc⟩ := dInit_ok hdi
  have hod : od.domain = .dom r := by rw [dgetE_of hc.domain] at hodom; simpa using hodom.symm
  have hot : od.times = .none := by rw [dgetE_of hc.chosen] at hots; simpa using hots.symm
  obtain ⟨hnames, hrhs⟩ := ode_function_partial (I := I) hdi hb hsys (hcomp.imp_left fun hh => honc (by rw [dgetE_of hc.compile, hh]))
  have hi : i < s.sims.length := (List.getElem?_eq_some_iff.1 ho).1
  have hcreate : createSolver ext c s = (.ok (.d od), s1) := by
    unfold createSolver
    rw [bind_lift_ok (dgetE_of hvl), bind_lift_ok (dgetE_of hvn), bind_lift_ok (dgetE_of hc.integrator), bind_lift_ok (dgetE_of hva),
      bind_of_ok (getBlock_ok.2 ⟨hb, rfl⟩), hk]
    show (dInit sv c >>= fun o => PyS.pure (SolverObj.d o)) s = _
    rw [bind_of_ok hdi]; rfl
  have hsanity : Sloth.sanity ext a.sanity s1 = (.ok (), s1) := by
    unfold Sloth.sanity
    cases hs : a.sanity with
    | false => rfl
    | true =>
      have := hsan hs
      show ((dofTest ext.sr s1.w).1, ({ s1 with w := (dofTest ext.sr s1.w).2 } : SimWorld K)) = _
      rw [hw1, this, dofTest_world, ← hw1]
  have hrun : runSimulation ext I i a s = (solveStore ext I i c (.d od) >>= fun _ => epilogue i .none a.showMsg a.showResiduals) s1 := by
    unfold runSimulation
    rw [bind_of_ok (getSim_ok.2 ⟨ho, rfl⟩), bind_lift_ok (a := c) (by rw [hoc]), bind_lift_ok (dgetE_of hc.problemType), bind_lift_ok (dgetE_of h2),
      ask_run hb, bind_of_ok (a := ()) (s1 := s) (by rw [hk]; rfl), bind_of_ok hcreate, bind_of_ok hsanity]
  have hkeys : readKeys c ["initial_time", "end_time", "args", "number_of_time_steps", "times_for_solution", "configuration_args"] = .ok () := by
    obtain ⟨u1, e1⟩ := hc.all "args" (by decide)
    obtain ⟨u2, e2⟩ := hc.all "configuration_args" (by decide)
    unfold readKeys
    simp only [List.mapM_cons, List.mapM_nil, dgetE_of hc.start, dgetE_of hc.stop, dgetE_of e1, dgetE_of hc.steps, dgetE_of hc.chosen, dgetE_of e2]
    rfl
  have hys : (sys.map Prod.fst).mapM (fun v => dgetE s1.w.pr.initial v) = .ok y0 := by
    have : ∀ (sys : List (String × Stmt)) (y0 : List Rat), List.Forall₂ (fun p y => dget s.w.pr.initial p.1 = some y) sys y0 →
        (sys.map Prod.fst).mapM (fun v => dgetE s.w.pr.initial v) = .ok y0 := by
      intro sys y0 h
      induction h with
      | nil => rfl
      | cons hr _ ih => rw [List.map_cons, List.mapM_cons, ih, dgetE, hr]; rfl
    rw [hw1]; exact this _ _ hy0
  have htp : timePoints (K := K) (.num t0) (.num t1) (.num n) (if od.times = .none then .none else .none) = .ok (linspace (t0 : K) (t1 : K) n) := by
    rw [ite_self]
    show (if (n : ℚ).den = 1 ∧ 0 ≤ (n : ℚ) then Except.ok (linspace (t0 : K) (t1 : K) (n : ℚ).num.toNat) else Except.error Err.valueError) = _
    rw [if_pos ⟨by simp, by simp⟩]
    simp
  have hlen : (y0.map fun q : ℚ => (q : K)).length = (sys.map Prod.fst).length := by simp [hy0.length_eq]
  obtain ⟨s2, hw2, hsim2, hdom2, hint⟩ := integrate_eq (ext := ext) (I := I) (o := od) (y0 := y0.map fun q : ℚ => (q : K)) (tp := linspace (t0 : K) (t1 : K) n)
    (g := Spec.field I times sys) hwell (s := s1) (fun z hz q hq => ⟨by simp [Spec.field, hy0.length_eq],
      hrhs z hz q.1 q.2 _ (odeEnv_at hsys.distinct hdis (hq.trans hlen) q.2)⟩)
  rw [hosv] at hint
  have hsolve : SolverObj.solve ext I c (.d od) s1 = ((fun r => lift (hstack r.1 r.2) >>= fun rows => lift (printTable c r.1 r.2) >>= fun _ =>
      record c od.domain rows >>= fun _ => PyS.pure (Output.series r.1 r.2)) |> (PyS.bind (integrate ext I od (y0.map fun q : ℚ => (q : K)) (linspace (t0 : K) (t1 : K) n)))) s1 := by
    show dSolve ext I c od s1 = _
    unfold dSolve
    rw [bind_lift_ok hkeys, bind_lift_ok (dgetE_of hc.start), bind_lift_ok (dgetE_of hc.stop), bind_lift_ok (dgetE_of hc.steps), bind_lift_ok (dgetE_of hc.chosen), bind_get,
      bind_lift_ok hnames, bind_lift_ok hys, bind_of_ok (a := ()) (s1 := s1) (by rfl), bind_lift_ok htp]
    rfl
  rw [hrun]
  generalize hans : Spec.integral ext (Spec.field I times sys) (y0.map fun q : ℚ => (q : K)) (linspace (t0 : K) (t1 : K) n) sv = ans at hint hshape
  match ans, hint, hshape with
  | .error e, hint, _ =>
    have : SolverObj.solve ext I c (.d od) s1 = (.error e, s2) := by rw [hsolve]; exact bind_of_error hint
    rw [bind_of_error (solveStore_error this)]
    exact ⟨rfl, fun T Y h => by cases h⟩
  | .ok (T, Y), hint, hshape =>
    have ht := hshape T Y rfl
    have hd2 : s2.doms[r]? = some d := by rw [hdom2, hdom1]; exact hd
    obtain ⟨d', f', hrec, hf1, hf2, hf3⟩ := record_run (c := c) hc.names hd2 hr ht
    have hsol : SolverObj.solve ext I c (.d od) s1 = (.ok (.series T Y), { s2 with doms := s2.doms.set r d' }) := by
      rw [hsolve]
      refine (bind_of_ok hint).trans ?_
      rw [bind_lift_ok (a := List.zipWith (fun a y => a :: y) T Y) (by unfold hstack; rw [if_pos ht.rows]),
        bind_lift_ok (a := ()) (by unfold printTable; rw [dgetE_of hc.quiet]; rfl), hod, bind_of_ok hrec]
      rfl
    have hsims : s2.sims = s.sims := hsim2.trans hsim1
    have hr' : r < s2.doms.length := (List.getElem?_eq_some_iff.1 hd2).1
    rw [bind_of_ok (solveStore_run hsol (by show s2.sims[i]? = some o; rw [hsims]; exact ho) hc.domain)]
    set s3 : SimWorld K := { s2 with doms := s2.doms.set r d', sims := s2.sims.set i { o with output := some (.series T Y), domain := .dom r } } with hs3
    have ho3 : s3.sims[i]? = some { o with output := some (.series T Y), domain := .dom r } := List.getElem?_set_self (by rw [hsims]; exact hi)
    have hb3 : s3.w.pr.block = some b := by show s2.w.pr.block = _; rw [hw2, hw1]; exact hb
    have hd3 : s3.doms[r]? = some d' := List.getElem?_set_self hr'
    obtain ⟨vals, hv, _⟩ := Option.bind_eq_some_iff.mp hf1
    have hres : getResults i .list s3 = (.ok (.tables (vals.map fun p => p.2.rows)), s3) := by
      unfold getResults
      rw [bind_of_ok (getSim_ok.2 ⟨ho3, rfl⟩), bind_of_ok (getBlock_ok.2 ⟨hb3, rfl⟩), hk]
      simp only [timeResults, domainTables, hoc]
      have hg : (getD r : PyS K _) s3 = (.ok d', s3) := by unfold getD; rw [hd3]
      have hdt : (lift (dgetE c "domain") >>= fun d => (match d with
          | .dom r => getD r >>= fun d => (match d.values with
            | some v => PyS.pure v
            | none => PyS.raise .attributeError)
          | _ => PyS.raise .attributeError) : PyS K (Dict String (Frame K))) s3 = (.ok vals, s3) := by
        rw [bind_lift_ok (dgetE_of hc.domain)]
        simp only
        rw [bind_of_ok hg]
        simp only [hv]
        rfl
      exact bind_of_ok hdt
    have hep : ∃ st, epilogue i .none a.showMsg a.showResiduals s3 = (.ok (), { s3 with sims := s3.sims.set i { o with output := some (.series T Y), domain := .dom r, status := st } }) := by
      have hi3 : i < s3.sims.length := (List.getElem?_eq_some_iff.1 ho3).1
      have tail : ∀ z : SimWorld K, z.w = s3.w → (getBlock >>= fun b => when (a.showResiduals && !isDynamicType .none b.problemType) (residualTable i b.equationsList) :
          PyS K Unit) z = (.ok (), z) := by
        intro z hz
        rw [bind_of_ok (getBlock_ok.2 ⟨by rw [hz]; exact hb3, rfl⟩), hk, show (a.showResiduals && !isDynamicType .none (some .differential)) = false by simp [isDynamicType]]
        rfl
      unfold epilogue
      cases a.showMsg with
      | false =>
        refine ⟨o.status, ?_⟩
        rw [bind_of_ok (a := ()) (s1 := s3) (by rfl), tail s3 rfl]
        have : s3.sims.set i { o with output := some (.series T Y), domain := .dom r, status := o.status } = s3.sims := by
          rw [hs3]; simp
        rw [this]
      | true =>
        refine ⟨some 0, ?_⟩
        have hst : (when true (PyS.bind (getStatus i) fun _ => PyS.pure ()) : PyS K Unit) s3 =
            (.ok (), { s3 with sims := s3.sims.set i { o with output := some (.series T Y), domain := .dom r, status := some 0 } }) := by
          show PyS.bind (getStatus i) (fun _ => PyS.pure ()) s3 = _
          have : getStatus i s3 = (.ok 0, { s3 with sims := s3.sims.set i { o with output := some (.series T Y), domain := .dom r, status := some 0 } }) := by
            unfold getStatus
            rw [bind_of_ok hres, bind_of_ok (getSim_ok.2 ⟨ho3, rfl⟩)]
            rfl
          simp only [PyS.bind, this, PyS.pure]
        rw [bind_of_ok hst]; exact tail _ rfl
    obtain ⟨st, hep⟩ := hep
    rw [hep]
    refine ⟨rfl, fun T' Y' h => ?_⟩
    cases h
    exact ⟨_, d', f', List.getElem?_set_self (by rw [hs3]; simpa [hsims] using hi), rfl, hd3, hf1, hf2, hf3⟩

/-! ## Settings and domains a user makes -/

/-- The settings made from the keyword arguments `is_dynamic=True, domain=..., end_time=...` and others that leave the integration alone. -/
theorem timed_settings {times : List String} {kw : Conf} (hn : DNodup kw) (hk : ∀ k ∈ dkeys kw, k ∈ dkeys confDefaults ∧
      k ∉ ["problem_type", "differential_solver", "arg_names", "time_variable_name", "initial_time", "number_of_time_steps", "times_for_solution", "compile_equations",
        "print_output", "variable_name_map"]) {r : DRef} {t1 : Rat} (hd : dget kw "is_dynamic" = some (.bool true)) (hr : dget kw "domain" = some (.dom r))
    (ht : dget kw "end_time" = some (.num t1)) :
    ∃ c, configure (some times) kw none none = .ok c ∧ Spec.Timed c (.str "ODEINT") r 0 times 0 t1 100 true [] := by
  obtain ⟨c, hc, hfrom, htime⟩ := configure_args (some times) hn fun k h => (hk k h).1
  have hnone : ∀ k ∈ ["problem_type", "differential_solver", "arg_names", "time_variable_name", "initial_time", "number_of_time_steps", "times_for_solution", "compile_equations",
        "print_output", "variable_name_map"], dget kw k = none := fun k hkk => (dget_eq_none_iff _ _).mpr fun hc => (hk k hc).2 hkk
  have hnot : ∀ k ∈ ["problem_type", "differential_solver", "arg_names", "time_variable_name", "initial_time", "number_of_time_steps", "times_for_solution", "compile_equations",
        "print_output", "variable_name_map"], k ≠ "time_variable_name" → dget c k = dget confDefaults k := by
    intro k hkk hne
    rw [hfrom k hne, hnone k hkk]
    rfl
  have htime : dget c "time_variable_name" = some (.names times) := by
    rw [htime, if_pos ⟨hd, by rw [hnone _ (by decide)]; rfl⟩]; rfl
  refine ⟨c, hc, ⟨?_, ?_, ?_, ?_, ?_, htime, ?_, ?_, ?_, ?_, ?_, ?_, ?_⟩⟩
  · intro k hkk
    by_cases hne : k = "time_variable_name"
    · exact ⟨_, hne ▸ htime⟩
    · rw [hfrom k hne]
      obtain ⟨v, hv⟩ := Option.isSome_iff_exists.mp ((dget_isSome_iff confDefaults k).mpr hkk)
      rw [hv]
      cases dget kw k with
      | none => exact ⟨_, rfl⟩
      | some x => exact ⟨_, rfl⟩
  · exact hnot _ (by decide) (by decide)
  · exact hnot _ (by decide) (by decide)
  · rw [hfrom _ (by decide), hr]; rfl
  · exact hnot _ (by decide) (by decide)
  · exact hnot _ (by decide) (by decide)
  · rw [hfrom _ (by decide), ht]; rfl
  · exact hnot _ (by decide) (by decide)
  · exact hnot _ (by decide) (by decide)
  · exact hnot _ (by decide) (by decide)
  · exact hnot _ (by decide) (by decide)
  · exact hnot _ (by decide) (by decide)

/-- A domain of one variable over which different others are distributed waits for their table. -/
theorem fresh_domain (name x : String) (vs : List String) (hn : vs.Nodup) (hne : vs ≠ []) :
    Spec.Ready (vs.foldl (fun d v => d.distributeVar v) (DomainObj.init name [x] : DomainObj K)) x vs.length ⟨(x :: vs).map Label.name, []⟩ := by
  have key : ∀ (vs us : List String), (us ++ vs).Nodup → vs ≠ [] → ∀ d : DomainObj K, d.indep = [x] → d.deps = us →
      ∃ d', vs.foldl (fun d v => d.distributeVar v) d = d' ∧ d'.indep = [x] ∧ d'.values = some [(x, ⟨(x :: (us ++ vs)).map Label.name, []⟩)] := by
    intro vs
    induction vs with
    | nil => intro us _ h; exact absurd rfl h
    | cons v t ih =>
      intro us hn _ d hi hd
      have hdeps : (d.distributeVar v).deps = us ++ [v] := by
        show DomainObj.keysOf (d.deps ++ [v]) = _
        rw [hd]
        exact DomainObj.keysOf_of_nodup (hn.sublist (by simp))
      have hind : (d.distributeVar v).indep = [x] := hi
      cases t with
      | nil =>
        refine ⟨_, rfl, hind, ?_⟩
        show some (dofList (((none : Option (List String)).getD (d.distribute v).indep).map fun u => (u, (d.distribute v).proto))) = _
        have h1 : (d.distribute v).indep = [x] := hi
        have h2 : (d.distribute v).deps = us ++ [v] := hdeps
        simp [DomainObj.proto, h1, h2, dofList, dset]
      | cons u t =>
        obtain ⟨d', h1, h2, h3⟩ := ih (us ++ [v]) (by simpa using hn) (by simp) (d.distributeVar v) hind hdeps
        exact ⟨d', h1, h2, by simpa using h3⟩
  obtain ⟨d', h1, h2, h3⟩ := key vs [] (by simpa using hn) hne (DomainObj.init name [x]) rfl rfl
  rw [h1]
  exact ⟨by rw [h2]; rfl, by rw [h3]; simp [dget], rfl, by simp⟩

end

/-! ## Samples -/

/-- Keyword arguments of a user. -/
def Ex.kwDyn : Conf := [("is_dynamic", .bool true), ("domain", .dom 0), ("end_time", .num 5), ("verbosity_solver", .num 10)]

/-- They meet the hypotheses of `timed_settings`. -/
theorem Ex.kwDyn_timed : ∃ c, configure (some ["t_m"]) Ex.kwDyn none none = .ok c ∧ Spec.Timed c (.str "ODEINT") 0 0 ["t_m"] 0 5 100 true [] :=
  timed_settings (by unfold DNodup; decide +kernel) (by decide +kernel) rfl rfl rfl

/-- A simulation of the sample problem with these settings. -/
def Ex.pairReady : SimWorld Rat :=
  { w := Ex.pairW, lists := [[]], doms := [["x", "y"].foldl (fun d v => d.distributeVar v) (DomainObj.init "d" ["t"])],
    sims := [{ name := "s", conf := (configure (some ["t_m"]) Ex.kwDyn none none).toOption }] }

/-- The hypotheses of `run_ends_as_integrator` are met by the sample: its run ends as the sample integrator does. -/
example : ∃ b, Ex.pairReady.w.pr.block = some b ∧ (runSimulation Ex.ext Ex.ratI 0 {} Ex.pairReady).1 =
    (Spec.integral Ex.ext (Spec.field Ex.ratI ["t_m"] Ex.pairSys) [1, 2] (linspace 0 5 100) (.str "ODEINT")).map (fun _ => ()) := by
  obtain ⟨b, hb, hsys, hcomp⟩ := Ex.pair_system
  obtain ⟨c, hc, htimed⟩ := Ex.kwDyn_timed
  refine ⟨b, hb, ?_⟩
  have h := run_ends_as_integrator (K := Rat) Ex.ratI Ex.ext_wellbehaved (i := 0) {} (s := Ex.pairReady) (o := { name := "s", conf := some c }) (y0 := [1, 2]) (f := ⟨["t", "x", "y"].map Label.name, []⟩) (x := "t")
    (by rw [Ex.pairReady, hc]; rfl) rfl htimed hb hcomp.whole hsys (by decide +kernel) (Or.inr hcomp) (by decide +kernel)
    (.cons (by decide +kernel) (.cons (by decide +kernel) .nil)) rfl rfl (fresh_domain "d" "t" ["x", "y"] (by decide) (by decide)) ?_ ?_
  · simpa using h.1
  · intro _
    have : (dofTest Ex.ext.sr Ex.pairReady.w).1.toOption = some () := by decide +kernel
    revert this
    cases (dofTest Ex.ext.sr Ex.pairReady.w).1 with
    | ok u => intro _; rfl
    | error e => intro h; cases h
  · intro T Y h
    have h : (Except.ok (linspace _ _ 100, (linspace _ _ 100).map fun t => List.zipWith (fun y d => y + (t - (linspace _ _ 100).headD 0) * d.getD 0) _
      (Spec.field Ex.ratI ["t_m"] Ex.pairSys (_, (linspace _ _ 100).headD 0))) : Except Err (List Rat × List (List Rat))) = .ok (T, Y) := h
    simp only [Except.ok.injEq, Prod.mk.injEq] at h
    obtain ⟨rfl, rfl⟩ := h
    refine ⟨?_, by simp, ?_⟩
    · intro h0
      have := congrArg List.length h0
      simp [linspace] at this
    · intro y hy
      obtain ⟨t, _, rfl⟩ := List.mem_map.mp hy
      simp [Spec.field, Ex.pairSys]

end Sloth
