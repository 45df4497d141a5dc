import Verif.Props.Simulations

/-!
# Results of simulations (C41, C52, C55), independence of simulations (C60, C61)
-/

namespace Sloth
open PyS

/-! ## Sample library routines and sessions -/

namespace Ex
/-- Rational arithmetic with integer powers only. -/
def ratI : Interp Rat where
  fn _ _ := none
  pow x y := if y.den = 1 then (if x = 0 ∧ y.num < 0 then none else some (x ^ y.num)) else none
  pow_int x n := by simp only [Rat.den_intCast, Rat.num_intCast, if_true]; congr

/-- Libraries that know the answers of the samples: the algebraic solvers return 2 for the first and 1 for the
second unknown, the integrators take one explicit step. -/
def ext : Ext Rat where
  sr := Ex.sr
  arg0 _ := ""
  diffTerms _ := []
  indexed := true
  spSolve _ l := .ok [dofList (l.zip [2, 1])]
  linSolve _ _ := .ok [2, 1]
  symSys _ _ _ _ := .ok ([2, 1], true)
  root _ g := .ret (some g)
  odeint y0 tp := .ask (y0, tp.headD 0) fun f => .ret (tp.map fun t => List.zipWith (fun y d => y + (t - tp.headD 0) * d.getD 0) y0 f)
  cvode y0 tp := .ret (tp, tp.map fun _ => y0)
  ida _ y0 _ tp := .ret (tp, tp.map fun _ => y0)

/-- A linear problem in `x` and `y`. -/
def lin : List Op := [.newModel "m" "" {} none, .cmd 0 (dv "y"), .cmd 0 (dv "x"),
  .cmd 0 (eq_ "sum" (.res (.binN .sub (.bin .add (at_ "x") (at_ "y")) 3))), .cmd 0 (eq_ "dif" (.res (.binN .sub (.bin .sub (at_ "y") (at_ "x")) 1))),
  .addModels (.leaf 0), .resolve]

/-- `dx/dt = x*t`, with initial values. -/
def ode : List Op := [.newModel "m" "" {} none, .cmd 0 (dv "x"), .cmd 0 (dv "t"), .cmd 0 (.distribute { attr := "x" }),
  .cmd 0 (eq_ "ode" (.eqn (.diff { attr := "x" } (some { attr := "t" })) (.bin .mul (at_ "x") (at_ "t")))),
  .addModels (.leaf 0), .time ["t_m"], .initial [("x_m", 1), ("t_m", 0)], .resolve]
/-- The same with the unknown `flat` and the right side `flat*flat`; the name of time is a part of `flat_m`. -/
def flat : List Op := [.newModel "m" "" {} none, .cmd 0 (dv "flat"), .cmd 0 (dv "t"), .cmd 0 (.distribute { attr := "flat" }),
  .cmd 0 (eq_ "ode" (.eqn (.diff { attr := "flat" } (some { attr := "t" })) (.bin .mul (at_ "flat") (at_ "flat")))),
  .addModels (.leaf 0), .time ["t_m"], .initial [("flat_m", 1), ("t_m", 0)], .resolve]
/-- Settings of a dynamic simulation. -/
def dyn : Conf := [("is_dynamic", .bool true), ("end_time", .num 1), ("number_of_time_steps", .num 2), ("domain", .dom 0)]
/-- Two simulations of a problem with a domain, the first one run. -/
def odeRun (l : List Op) (kw : Conf) (a : RunArgs) : List (SOp Rat) := l.map .base ++
  [.newDomain "d" ["t"], .domain 0 (.distribute "x"), .newSim "s", .newSim "u", .configure 0 kw none none, .configure 1 kw none none, .run 0 a]

/-- A simulation of it, with some settings, run. -/
def linRun (kw : Conf) : List (SOp Rat) := lin.map .base ++ [.newSim "s", .configure 0 kw none none, .run 0 {}]
end Ex

section
variable {K : Type} [Field K] [LinearOrder K]

/-! ## C41: solutions under the names of the unknowns -/

/-- The dictionary has the `i`-th component of the vector under the `i`-th name, and nothing else. -/
structure Spec.Reports (names : List String) (x : List K) (d : Dict String K) : Prop where
  at_ : ∀ (i : Nat) n, names[i]? = some n → dget d n = x[i]?
  only : ∀ n, n ∉ names → dget d n = none
  once : (dkeys d).Nodup

theorem dget_zip {names : List String} (hn : names.Nodup) (x : List K) {i : Nat} {n : String} (h : names[i]? = some n) :
    dget (names.zip x) n = x[i]? := by
  induction names generalizing x i with
  | nil => simp at h
  | cons m t ih =>
    cases x with
    | nil => simp
    | cons a u =>
      rw [List.zip_cons_cons, dget_cons]
      cases i with
      | zero =>
        simp only [List.getElem?_cons_zero, Option.some.injEq] at h
        rw [if_pos h]; rfl
      | succ i =>
        simp only [List.getElem?_cons_succ] at h
        rw [if_neg, ih (List.nodup_cons.1 hn).2 u h, List.getElem?_cons_succ]
        rintro rfl
        exact (List.nodup_cons.1 hn).1 (List.mem_of_getElem? h)

theorem dkeys_zip_sublist (names : List String) (x : List K) : (dkeys (names.zip x)).Sublist names := by
  induction names generalizing x with
  | nil => simp [dkeys]
  | cons m t ih =>
    cases x with
    | nil => simp [dkeys]
    | cons a u => rw [List.zip_cons_cons, dkeys_cons]; exact (ih u).cons_cons m

theorem reports_zip {names : List String} (hn : names.Nodup) (x : List K) : Spec.Reports names x (dofList (names.zip x)) := by
  rw [dofList_of_nodup (show DNodup (names.zip x) from hn.sublist (dkeys_zip_sublist names x))]
  refine ⟨fun i n h => dget_zip hn x h, fun n h => ?_, hn.sublist (dkeys_zip_sublist names x)⟩
  rw [dget_eq_none_iff]
  exact fun hm => h ((dkeys_zip_sublist names x).subset hm)

/-- What the output of a solver has to do with the answers of the libraries: `b` is the system handed over. -/
def Spec.Solved (ext : Ext K) (b : Block) : SolverObj → Output K → Prop
  | .la (some .symbolicsys), out => ∃ g x d, ext.symSys true b.varList b.equationsList g = .ok (x, true) ∧ out = .dict d ∧
      Spec.Reports b.varList x d
  | .la (some .scipy), out => ∃ x d, ext.linSolve b.equationsList b.varList = .ok x ∧ out = .dict d ∧ Spec.Reports b.varList x d
  | .la (some .sympy), out | .nla .sympy, out => ∃ l d, ext.spSolve b.equationsList b.varList = .ok (l ++ [d]) ∧ out = .dict d
  | .la none, _ => False
  | .nla _, out => ∃ g x d, ext.symSys false b.varList b.equationsList g = .ok (x, true) ∧ out = .dict d ∧ Spec.Reports b.varList x d
  | .d _, _ | .dae _, _ => True

theorem called_ok {c : Routine} {s s' : SimWorld K} {u : Unit} (h : called c s = (.ok u, s')) : s'.w = s.w := by
  simp only [called, PyS.modify, Prod.mk.injEq, true_and] at h
  rw [← h]

theorem report_ok {names : List String} {r : List K × Bool} {d : Dict String K} (h : report names r = .ok d) :
    r.2 = true ∧ d = dofList (names.zip r.1) := by
  obtain ⟨x, b⟩ := r
  cases b
  · simp [report] at h
  · simp only [report, Except.ok.injEq] at h; exact ⟨rfl, h.symm⟩

theorem sympyMech_ok {ext : Ext K} {s s' : SimWorld K} {b : Block} (hb : s.w.pr.block = some b) {d : Dict String K}
    (h : sympyMech ext s = (.ok d, s')) : ∃ l, ext.spSolve b.equationsList b.varList = .ok (l ++ [d]) := by
  unfold sympyMech at h
  simp only [bind_ok, getBlock_ok, lift_ok] at h
  obtain ⟨b', s1, ⟨hb', rfl⟩, _, s2, _, l, s3, ⟨hl, rfl⟩, hd, rfl⟩ := h
  obtain rfl : b = b' := Option.some.inj (hb.symm.trans hb')
  refine ⟨l.dropLast, ?_⟩
  rw [hl]
  unfold lastOf at hd
  split at hd
  · next a ha =>
    simp only [Except.ok.injEq] at hd
    rw [← hd, List.dropLast_append_getLast? a ha]
  · cases hd

/-- C41: when an algebraic solver returns, it returns every unknown's name with the corresponding component of a vector for which the
library reported success. -/
theorem results_under_names {ext : Ext K} {I : Interp K} {conf : Conf} {s s' : SimWorld K} {b : Block} (hb : s.w.pr.block = some b)
    (hn : b.varList.Nodup) {sv : SolverObj} {out : Output K} (h : sv.solve ext I conf s = (.ok out, s')) : Spec.Solved ext b sv out := by
  have nla : ∀ m, nlaSymbolicMech ext I conf s = (.ok m, s') →
      ∃ g x, ext.symSys false b.varList b.equationsList g = .ok (x, true) ∧ Spec.Reports b.varList x m := by
    intro m h
    unfold nlaSymbolicMech at h
    simp only [bind_ok, getBlock_ok, lift_ok] at h
    obtain ⟨b', s1, ⟨hb', rfl⟩, g, s2, ⟨_, rfl⟩, x0, s3, ⟨_, rfl⟩, p, s4, ⟨_, rfl⟩, x1, s5, _, _, s6, _, ⟨x, f⟩, s7, ⟨hx, rfl⟩, hd, rfl⟩ := h
    obtain rfl : b = b' := Option.some.inj (hb.symm.trans hb')
    obtain ⟨hf, rfl⟩ := report_ok hd
    simp only at hf; subst hf
    exact ⟨x1, x, hx, reports_zip hn x⟩
  have key : ∀ {m : PyS K (Dict String K)}, (do let d ← m; PyS.pure (Output.dict d)) s = (.ok out, s') → ∃ d, out = .dict d ∧ m s = (.ok d, s') := by
    intro m h
    simp only [bind_ok, PyS.pure, Prod.mk.injEq, Except.ok.injEq] at h
    obtain ⟨d, s1, h1, h2, h3⟩ := h
    exact ⟨d, h2.symm, h3 ▸ h1⟩
  cases sv with
  | la m =>
    obtain ⟨d, rfl, hm⟩ := key (m := laSolve ext conf m) h
    cases m with
    | none => exact absurd hm raise_ok
    | some m =>
      cases m with
      | sympy => obtain ⟨l, hl⟩ := sympyMech_ok hb hm; exact ⟨l, d, hl, rfl⟩
      | scipy =>
        unfold laSolve scipyMech at hm
        simp only [bind_ok, getBlock_ok, lift_ok, PyS.pure, Prod.mk.injEq, Except.ok.injEq] at hm
        obtain ⟨b', s1, ⟨hb', rfl⟩, _, s2, _, x, s3, ⟨hx, rfl⟩, hd, rfl⟩ := hm
        obtain rfl : b = b' := Option.some.inj (hb.symm.trans hb')
        exact ⟨x, d, hx, rfl, hd ▸ reports_zip hn x⟩
      | symbolicsys =>
        unfold laSolve laSymbolicMech at hm
        simp only [bind_ok, getBlock_ok, lift_ok] at hm
        obtain ⟨b', s1, ⟨hb', rfl⟩, g, s2, ⟨_, rfl⟩, x0, s3, ⟨_, rfl⟩, _, s6, _, ⟨x, f⟩, s7, ⟨hx, rfl⟩, hd, rfl⟩ := hm
        obtain rfl : b = b' := Option.some.inj (hb.symm.trans hb')
        obtain ⟨hf, rfl⟩ := report_ok hd
        simp only at hf; subst hf
        exact ⟨x0, x, _, hx, rfl, reports_zip hn x⟩
  | nla m =>
    obtain ⟨d, rfl, hm⟩ := key (m := nlaSolve ext I conf m) h
    cases m with
    | sympy => obtain ⟨l, hl⟩ := sympyMech_ok hb hm; exact ⟨l, d, hl, rfl⟩
    | scipy => obtain ⟨g, x, h1, h2⟩ := nla d hm; exact ⟨g, x, d, h1, rfl, h2⟩
    | symbolicsys => obtain ⟨g, x, h1, h2⟩ := nla d hm; exact ⟨g, x, d, h1, rfl, h2⟩
  | d o => trivial
  | dae o => trivial

/-- C41: when the library reports failure, `NumericalError` is raised (both algebraic solvers; a starting point is needed). -/
theorem failed_solve_raises {ext : Ext K} {I : Interp K} {conf : Conf} {s : SimWorld K} {b : Block} (hb : s.w.pr.block = some b)
    {c : CVal} (hc : dget conf "initial_guess" = some c) {g : List K} (hg : guess b.varList c = .ok g) :
    (∀ x, ext.symSys true b.varList b.equationsList g = .ok (x, false) →
      ((SolverObj.la (some .symbolicsys)).solve ext I conf s).1 = .error .numerical) ∧
    (∀ p g' s', dget conf "initial_guess_solver" = some p → polished ext I g p s = (.ok g', s') →
      ∀ x, ext.symSys false b.varList b.equationsList g' = .ok (x, false) →
      ((SolverObj.nla .symbolicsys).solve ext I conf s).1 = .error .numerical) := by
  constructor
  · intro x hx
    have : laSymbolicMech ext conf s = (.error .numerical, { s with log := s.log ++ [.symbolicSys] }) := by
      unfold laSymbolicMech
      rw [bind_of_ok (getBlock_ok.2 ⟨hb, rfl⟩), bind_lift_ok (a := c) (by rw [dgetE, hc]), bind_lift_ok hg, called, bind_modify, bind_lift_ok hx]
      rfl
    show ((do let d ← laSymbolicMech ext conf; PyS.pure (Output.dict d) : PyS K _) s).1 = _
    rw [bind_of_error this]
  · intro p g' s' hp hp' x hx
    have : nlaSymbolicMech ext I conf s = (.error .numerical, { s' with log := s'.log ++ [.symbolicSys] }) := by
      unfold nlaSymbolicMech
      rw [bind_of_ok (getBlock_ok.2 ⟨hb, rfl⟩), bind_lift_ok (a := c) (by rw [dgetE, hc]), bind_lift_ok hg,
        bind_lift_ok (a := p) (by rw [dgetE, hp]), bind_of_ok hp', called, bind_modify, bind_lift_ok hx]
      rfl
    show ((do let d ← nlaSymbolicMech ext I conf; PyS.pure (Output.dict d) : PyS K _) s).1 = _
    rw [bind_of_error this]

/-- C41 fails for SymPy's solver: for a system without solution it raises `IndexError`, for every problem. -/
theorem sympy_failure_is_index_error {ext : Ext K} {I : Interp K} {conf : Conf} {s : SimWorld K} {b : Block} (hb : s.w.pr.block = some b)
    (h : ext.spSolve b.equationsList b.varList = .ok []) :
    ((SolverObj.la (some .sympy)).solve ext I conf s).1 = .error .indexError ∧
    ((SolverObj.nla .sympy).solve ext I conf s).1 = .error .indexError := by
  have : sympyMech ext s = (.error .indexError, { s with log := s.log ++ [.sympySolve] }) := by
    unfold sympyMech
    rw [bind_of_ok (getBlock_ok.2 ⟨hb, rfl⟩), called, bind_modify, bind_lift_ok h]
    rfl
  constructor
  · show ((do let d ← sympyMech ext; PyS.pure (Output.dict d) : PyS K _) s).1 = _
    rw [bind_of_error this]
  · show ((do let d ← sympyMech ext; PyS.pure (Output.dict d) : PyS K _) s).1 = _
    rw [bind_of_error this]

/-- The problem of a resolved session has distinct unknowns (see C36). -/
theorem resolved_unknowns {w w' : World} (hr : Reachable w) (h : resolve w = (.ok (), w')) : ∃ b, w'.pr.block = some b ∧ b.varList.Nodup := by
  obtain ⟨b, hb, hn, _⟩ := block_variables hr h
  exact ⟨b, hb, hn⟩

/-! ## A whole run -/

/-- A run that returns: what it did. -/
theorem run_parts {ext : Ext K} {I : Interp K} {i : SRef} {a : RunArgs} {s s' : SimWorld K} (h : runSimulation ext I i a s = (.ok (), s')) :
    ∃ o c pt b sv s1 s2 s3, s.sims[i]? = some o ∧ o.conf = some c ∧ dget c "problem_type" = some pt ∧ s.w.pr.block = some b ∧
      createSolver ext c s = (.ok sv, s1) ∧ Sloth.sanity ext a.sanity s1 = (.ok (), s2) ∧ solveStore ext I i c sv s2 = (.ok (), s3) ∧
      epilogue i pt a.showMsg a.showResiduals s3 = (.ok (), s') := by
  have h0 := h
  unfold runSimulation at h0
  simp only [bind_ok, getSim_ok, lift_ok] at h0
  obtain ⟨o, s1, ⟨ho, rfl⟩, c, s2, ⟨hc, rfl⟩, pt, s3, ⟨hpt, rfl⟩, n, s4, ⟨hn, rfl⟩, k, s5, hask, _, s6, hw, sv, s7, hsv, _, s8, hsan, _, s9, hst, hep⟩ := h0
  obtain rfl := askKind_same hask
  have hc' : o.conf = some c := by
    cases ho' : o.conf with
    | none => rw [ho'] at hc; cases hc
    | some c' => rw [ho'] at hc; cases hc; rfl
  have hpt' : dget c "problem_type" = some pt := by
    unfold dgetE at hpt
    split at hpt
    · next h => rw [h]; simpa using hpt
    · cases hpt
  have h6 : s6 = s5 := by
    rcases when_ok.1 hw with ⟨_, h⟩ | ⟨_, h⟩
    · exact absurd h raise_ok
    · exact h
  subst h6
  obtain ⟨b, -, hb, -⟩ := createSolver_kind hsv
  exact ⟨o, c, pt, b, sv, s7, s8, s9, ho, hc', hpt', hb, hsv, hsan, hst, hep⟩

theorem solveStore_ok {ext : Ext K} {I : Interp K} {i : SRef} {c : Conf} {sv : SolverObj} {s s' : SimWorld K}
    (h : solveStore ext I i c sv s = (.ok (), s')) :
    ∃ out s1 o d, sv.solve ext I c s = (.ok out, s1) ∧ s'.sims[i]? = some o ∧ o.output = some out ∧ dgetE c "domain" = .ok d ∧ o.domain = d ∧
      s'.w = s1.w := by
  unfold solveStore at h
  simp only [bind_ok, getSim_ok, lift_ok] at h
  obtain ⟨out, s1, hout, o, s2, ⟨ho, rfl⟩, _, s3, h3, d, s4, ⟨hd, rfl⟩, o', s5, ⟨ho', rfl⟩, h5⟩ := h
  simp only [setSim, PyS.modify, Prod.mk.injEq, true_and] at h3 h5
  subst h3
  have hi : i < s2.sims.length := (List.getElem?_eq_some_iff.1 ho).1
  simp only [List.getElem?_set_self hi, Option.some.injEq] at ho'
  subst h5
  refine ⟨out, s2, { o' with domain := d }, d, hout, ?_, ?_, hd, rfl, rfl⟩
  · exact List.getElem?_set_self (by simpa using hi)
  · rw [← ho']

/-- Nothing but `status` changes in the messages after a run. -/
theorem epilogue_output {i : SRef} {pt : CVal} {m r : Bool} {s s' : SimWorld K} {x : Except Err Unit} (h : epilogue i pt m r s = (x, s')) :
    (s'.sims.map fun o => (o.output, o.conf, o.domain)) = s.sims.map fun o => (o.output, o.conf, o.domain) := by
  have := keeps_epilogue (K := K) (i := i) (f := fun s => s.sims.map fun o => (o.output, o.conf, o.domain)) (fun s o st ho => by
    refine List.ext_getElem? fun j => ?_
    rw [List.getElem?_map, List.getElem?_map, List.getElem?_set]
    have hi : i < s.sims.length := (List.getElem?_eq_some_iff.1 ho).1
    by_cases hj : i = j
    · subst hj; rw [if_pos rfl, if_pos hi, ho]; rfl
    · simp [hj]) pt m r s
  rw [h] at this; exact this

theorem createSolver_algebraic {ext : Ext K} {conf : Conf} {s s' : SimWorld K} {sv : SolverObj} (h : createSolver ext conf s = (.ok sv, s'))
    {b : Block} (hb : s.w.pr.block = some b) (hk : b.problemType = some .linear ∨ b.problemType = some .nonlinear) : s' = s := by
  unfold createSolver at h
  simp only [bind_ok, lift_ok, getBlock_ok] at h
  obtain ⟨lin, s1, ⟨_, rfl⟩, non, s2, ⟨_, rfl⟩, dif, s3, ⟨_, rfl⟩, dae, s4, ⟨_, rfl⟩, b', s5, ⟨hb', rfl⟩, h⟩ := h
  obtain rfl : b = b' := Option.some.inj (hb.symm.trans hb')
  rcases hk with hk | hk
  · rw [hk] at h
    simp only [solverFor, PyS.pure, Prod.mk.injEq] at h
    exact h.2.symm
  · rw [hk] at h
    simp only [solverFor, bind_ok, lift_ok, PyS.pure, Prod.mk.injEq] at h
    obtain ⟨_, _, ⟨_, rfl⟩, _, h⟩ := h
    exact h.symm

/-- C41 for a whole run: after a run of an algebraic problem that returns, the simulation holds the solution under the names of the
unknowns. -/
theorem run_reports {ext : Ext K} {I : Interp K} {i : SRef} {a : RunArgs} {w : World} (hr : Reachable w) {s s' : SimWorld K}
    (hres : resolve w = (.ok (), s.w)) {b : Block} (hb : s.w.pr.block = some b)
    (hk : b.problemType = some .linear ∨ b.problemType = some .nonlinear) (h : runSimulation ext I i a s = (.ok (), s')) :
    ∃ o sv out, s'.sims[i]? = some o ∧ o.output = some out ∧ Spec.Solved ext b sv out ∧ (∀ k, b.problemType = some k → Spec.OfClass k sv) := by
  obtain ⟨b', hb', hn⟩ := resolved_unknowns hr hres
  obtain rfl : b = b' := Option.some.inj (hb.symm.trans hb')
  obtain ⟨o, c, pt, b', sv, s1, s2, s3, ho, hc, hpt, hb'', hsv, hsan, hst, hep⟩ := run_parts h
  obtain rfl := createSolver_algebraic hsv hb hk
  have h2 : s2.w.pr.block = some b := by
    have := keeps_sanity (fun s => s.w.pr.block) ext a.sanity s1
    rw [hsan] at this; exact this.trans hb
  obtain ⟨out, s4, o', d, hout, ho', hout', _⟩ := solveStore_ok hst
  have hs := epilogue_output hep
  have hi := congrArg (fun l => l[i]?) hs
  simp only [List.getElem?_map, ho', Option.map_some] at hi
  obtain ⟨o2, ho2, hi⟩ := Option.map_eq_some_iff.1 hi
  simp only [Prod.mk.injEq] at hi
  refine ⟨o2, sv, out, ho2, hi.1.trans hout', results_under_names h2 hn hout, fun k hk' => ?_⟩
  obtain ⟨b2, k2, hb2, hk2, hcl⟩ := createSolver_kind hsv
  obtain rfl : b = b2 := Option.some.inj (hb.symm.trans hb2)
  rw [hk'] at hk2; cases hk2; exact hcl

/-! ## C52: the status -/

/-- C52 (partial): `getStatus` returns exactly if results are available, stores what it returns and changes nothing else, and raises the exception of `getResults` otherwise.  Missing: it
returns 0 whatever the results are, see `status_of_no_results`. -/
theorem status_partial (i : SRef) (s : SimWorld K) :
    (∀ n s', getStatus i s = (.ok n, s') → n = 0 ∧ (∃ r, (getResults i .list s).1 = .ok r) ∧
      ∃ o, s.sims[i]? = some o ∧ s' = { s with sims := s.sims.set i { o with status := some n } }) ∧
    (∀ e, (getResults i .list s).1 = .error e → (getStatus i s).1 = .error e) ∧
    (∀ r, (getResults i .list s).1 = .ok r → (getStatus i s).1 = .ok 0) := by
  refine ⟨fun n s' h => ?_, fun e h => ?_, fun r h => ?_⟩
  · unfold getStatus at h
    simp only [bind_ok] at h
    obtain ⟨r, s1, h1, o, s2, h2, _, s3, h3, h4⟩ := h
    simp only [isNotNewList, if_true, PyS.pure, Prod.mk.injEq, Except.ok.injEq] at h4
    have hs : s1 = s := by
      have := keeps_getResults (fun s => s) i .list s
      rw [h1] at this; exact this
    subst hs
    obtain ⟨ho, rfl⟩ := getSim_ok.1 h2
    simp only [isNotNewList, if_true, setSim, PyS.modify, Prod.mk.injEq, true_and] at h3
    exact ⟨h4.1.symm, ⟨r, by rw [h1]⟩, o, ho, by rw [← h4.1, ← h4.2, ← h3]⟩
  · unfold getStatus
    cases hg : getResults i .list s with
    | mk x s1 => rw [hg] at h; simp only at h; subst h; rw [bind_of_error hg]
  · unfold getStatus
    cases hg : getResults i .list s with
    | mk x s1 =>
      rw [hg] at h; simp only at h; subst h
      rw [bind_of_ok hg]
      have hs : s1 = s := by
        have := keeps_getResults (fun s => s) i .list s
        rw [hg] at this; exact this
      subst hs
      have : ∃ o, s1.sims[i]? = some o := by
        unfold getResults at hg
        simp only [bind_ok, getSim_ok] at hg
        obtain ⟨o, _, ⟨ho, _⟩, _⟩ := hg
        exact ⟨o, ho⟩
      obtain ⟨o, ho⟩ := this
      rw [bind_of_ok (getSim_ok.2 ⟨ho, rfl⟩), setSim, bind_modify]
      rfl

/-! ## C55: results as dictionary and as list -/

/-- C55: for an algebraic problem, `getResults('dict')` are exactly the pairs of the output, sorted by name, and `getResults('list')` are
its values. -/
theorem results_dict_and_list {i : SRef} {s : SimWorld K} {o : SimObj K} (ho : s.sims[i]? = some o) {d : Dict String K} (hout : o.output = some (.dict d))
    (hd : DNodup d) {b : Block} (hb : s.w.pr.block = some b) (hk : b.problemType = some .linear ∨ b.problemType = some .nonlinear) :
    ∃ e, getResults i .dict s = (.ok (.dict e), s) ∧ getResults i .list s = (.ok (.list (dvalues d)), s) ∧
      e.Perm d ∧ (∀ k, dget e k = dget d k) ∧ (dkeys e).Pairwise (fun a b => a ≤ b) ∧ (dvalues d).Perm (dvalues e) := by
  have hp := psorted_perm (fun a b : String × K => strLe a.1 b.1) d
  have hkp : (dkeys (psorted (fun a b : String × K => strLe a.1 b.1) d)).Perm (dkeys d) := hp.map _
  have hnd : DNodup (psorted (fun a b : String × K => strLe a.1 b.1) d) := hkp.nodup_iff.2 hd
  have hred : ∀ rt, getResults i rt s = (algResults o.output rt, s) := by
    intro rt
    unfold getResults
    rw [bind_of_ok (getSim_ok.2 ⟨ho, rfl⟩), bind_of_ok (getBlock_ok.2 ⟨hb, rfl⟩)]
    rcases hk with hk | hk <;> rw [hk] <;> rfl
  refine ⟨psorted (fun a b => strLe a.1 b.1) d, ?_, ?_, hp, fun k => dget_perm hp hnd k, ?_, (hp.map _).symm⟩
  · rw [hred, hout]; simp only [algResults]; rw [dofList_of_nodup hnd]
  · rw [hred, hout]; rfl
  · have := psorted_sorted (fun a b : String × K => strLe a.1 b.1) (fun a b => strLe_total _ _) (fun a b c => strLe_trans _ _ _) d
    rw [dkeys, List.pairwise_map]
    exact this.imp fun h => by simpa [strLe] using h

/-! ## C60: simulations are independent; C61: a run leaves the problem alone -/

/-- The list a configuration refers to. -/
def Spec.argList (c : Conf) : Option LRef := match dget c "arg_names" with
  | some (.argNames r) => some r
  | _ => none

theorem getElem?_set_other {α : Type} {l : List α} {i j : Nat} (h : i ≠ j) (x : α) : (l.set i x)[j]? = l[j]? := by
  rw [List.getElem?_set, if_neg h]

theorem keeps_appendArg_other {r : LRef} (tvn c : CVal) (h : c ≠ .argNames r) :
    Keeps (fun s : SimWorld K => s.lists[r]?) (appendArg tvn c) := by
  cases c with
  | argNames q => exact Keeps.bind (Keeps.getL _ _) fun l => Keeps.when (Keeps.modify fun s => getElem?_set_other (fun e => h (by rw [e])) _)
  | _ => exact Keeps.raise _ _

theorem createSolver_lists {r : LRef} (ext : Ext K) {conf : Conf} (h : Spec.argList conf ≠ some r) :
    Keeps (fun s : SimWorld K => s.lists[r]?) (createSolver ext conf) := by
  have ha : ∀ c, dgetE conf "arg_names" = .ok c → c ≠ .argNames r := by
    rintro c hc rfl
    apply h
    unfold dgetE at hc
    unfold Spec.argList
    cases hd : dget conf "arg_names" with
    | none => rw [hd] at hc; cases hc
    | some c' => rw [hd] at hc; cases hc; rfl
  have hlift : ∀ {α : Type} (f : CVal → PyS K α), (∀ c, c ≠ .argNames r → Keeps (fun s : SimWorld K => s.lists[r]?) (f c)) →
      Keeps (fun s : SimWorld K => s.lists[r]?) (PyS.lift (dgetE conf "arg_names") >>= f) := by
    intro α f hf s
    cases hd : dgetE conf "arg_names" with
    | error e => rw [bind_lift_error rfl]
    | ok c => rw [bind_lift_ok rfl]; exact hf c (ha c hd) s
  unfold createSolver
  refine Keeps.bind (Keeps.lift _ _) fun _ => Keeps.bind (Keeps.lift _ _) fun _ => Keeps.bind (Keeps.lift _ _) fun _ =>
    Keeps.bind (Keeps.lift _ _) fun _ => Keeps.bind (Keeps.getBlock _) fun b => ?_
  unfold solverFor
  split
  · exact Keeps.pure _ _
  · exact Keeps.bind (Keeps.lift _ _) fun _ => Keeps.pure _ _
  · refine Keeps.bind ?_ fun _ => Keeps.pure _ _
    unfold dInit
    refine Keeps.bind (Keeps.lift _ _) fun _ => Keeps.bind (Keeps.lift _ _) fun _ => Keeps.bind (Keeps.lift _ _) fun _ => hlift _ fun c hc => ?_
    exact Keeps.bind (Keeps.get _) fun _ => Keeps.bind (Keeps.lift _ _) fun _ =>
      Keeps.bind (Keeps.when (Keeps.raise _ _)) fun _ => Keeps.bind (keeps_appendArg_other _ _ hc) fun _ => Keeps.bind (Keeps.getBlock _) fun _ =>
      Keeps.bind (Keeps.lift _ _) fun _ => Keeps.bind (Keeps.lift _ _) fun _ => Keeps.bind (Keeps.lift _ _) fun _ =>
      Keeps.bind (keeps_compileIf _ _ _) fun _ => Keeps.pure _ _
  · refine Keeps.bind ?_ fun _ => Keeps.pure _ _
    unfold daeInit
    refine Keeps.bind (Keeps.lift _ _) fun _ => Keeps.bind (Keeps.lift _ _) fun _ => hlift _ fun c hc => ?_
    exact Keeps.bind (Keeps.get _) fun _ => Keeps.bind (Keeps.lift _ _) fun _ =>
      Keeps.bind (Keeps.when (Keeps.raise _ _)) fun _ => Keeps.bind (keeps_appendArg_other _ _ hc) fun _ =>
      Keeps.bind (keeps_daeSystem (fun _ _ _ _ => rfl)) fun _ => Keeps.bind (Keeps.lift _ _) fun _ => Keeps.bind (Keeps.lift _ _) fun _ => Keeps.pure _ _
  · exact Keeps.raise _ _

/-- What a run keeps, given what is kept by creating the solver, by solving and by storing. -/
theorem keeps_run {τ : Type} {f : SimWorld K → τ} {ext : Ext K} {I : Interp K} {i : SRef} (a : RunArgs) {s : SimWorld K}
    (hc : ∀ o c, s.sims[i]? = some o → o.conf = some c → f (createSolver ext c s).2 = f s)
    (hl : ∀ s l, f { s with log := l } = f s) (hd : ∀ s l, f { s with doms := l } = f s)
    (h : ∀ o c sv s1, s.sims[i]? = some o → o.conf = some c → createSolver ext c s = (.ok sv, s1) →
      sv.extends → ∀ (s : SimWorld K) b l, s.w.pr.block = some b →
      f { s with w := { s.w with pr := { s.w.pr with block := some { b with varList := l } } } } = f s)
    (ho : ∀ s o p, s.sims[i]? = some o → f { s with sims := s.sims.set i { o with output := p } } = f s)
    (hd' : ∀ s o p, s.sims[i]? = some o → f { s with sims := s.sims.set i { o with domain := p } } = f s)
    (hs : ∀ s o p, s.sims[i]? = some o → f { s with sims := s.sims.set i { o with status := p } } = f s) :
    f (runSimulation ext I i a s).2 = f s := by
  cases hos : s.sims[i]? with
  | none =>
    unfold runSimulation
    rw [bind_of_error (e := .exception "dangling") (s1 := s) (by rw [PyS.getSim, hos])]
  | some o =>
    cases hcf : o.conf with
    | none =>
      unfold runSimulation
      rw [bind_of_ok (getSim_ok.2 ⟨hos, rfl⟩), hcf]; rfl
    | some c =>
      unfold runSimulation
      rw [bind_of_ok (getSim_ok.2 ⟨hos, rfl⟩), bind_lift_ok (a := c) (by rw [hcf])]
      cases h1 : dgetE c "problem_type" with
      | error e => rw [bind_lift_error rfl]
      | ok pt =>
        rw [bind_lift_ok rfl]
        cases h2 : dgetE c "number_parameters_to_optimize" with
        | error e => rw [bind_lift_error rfl]
        | ok n =>
          rw [bind_lift_ok rfl]
          rcases ha : askKind pt s with ⟨e | k, s0⟩
          · rw [bind_of_error ha]
            exact congrArg f (askKind_reads ha)
          · obtain rfl := (askKind_same ha).symm
            rw [bind_of_ok ha]
            cases hrun : runnable pt k with
            | false => rw [Bool.not_false, bind_when_raise]
            | true =>
              rw [Bool.not_true, bind_when_false]
              have hc' := hc o c hos hcf
              cases hcs : createSolver ext c s with
              | mk x s1 =>
                rw [hcs] at hc'
                cases x with
                | error e => rw [bind_of_error hcs]; exact hc'
                | ok sv =>
                  rw [bind_of_ok hcs]
                  refine (Keeps.bind (keeps_sanity f ext a.sanity) (fun _ => Keeps.bind
                    (keeps_solveStore hl hd (h o c sv s1 hos hcf hcs) ho hd' ext I c) (fun _ => keeps_epilogue hs pt a.showMsg a.showResiduals)) s1).trans hc'

/-- C60 (partial): a run, whether it returns or raises, leaves the other simulations as they are, and every list of argument names that is not the one
it is configured with.  Missing: two simulations that share the list, which is the default: see `simulations_share_arguments`. -/
theorem run_leaves_others_partial (ext : Ext K) (I : Interp K) (i : SRef) (a : RunArgs) (s : SimWorld K) :
    (∀ j, j ≠ i → (runSimulation ext I i a s).2.sims[j]? = s.sims[j]?) ∧
    (runSimulation ext I i a s).2.sims[i]?.map (fun o => (o.name, o.conf)) = s.sims[i]?.map (fun o => (o.name, o.conf)) ∧
    (∀ o c r, s.sims[i]? = some o → o.conf = some c → Spec.argList c ≠ some r → (runSimulation ext I i a s).2.lists[r]? = s.lists[r]?) := by
  refine ⟨fun j hj => ?_, ?_, fun o c r ho hc hr => ?_⟩
  · exact keeps_run (f := fun s => s.sims[j]?) a
      (fun _ c _ _ => keeps_createSolver (f := fun s => s.sims[j]?) (fun _ _ => rfl) (fun _ _ _ _ => rfl) ext c s) (fun _ _ => rfl) (fun _ _ => rfl)
      (fun _ _ _ _ _ _ _ _ _ _ _ _ => rfl) (fun s o p _ => getElem?_set_other hj.symm _)
      (fun s o p _ => getElem?_set_other hj.symm _) (fun s o p _ => getElem?_set_other hj.symm _)
  · have hset : ∀ (s : SimWorld K) (o o' : SimObj K), s.sims[i]? = some o → o'.name = o.name → o'.conf = o.conf →
        (s.sims.set i o')[i]?.map (fun o => (o.name, o.conf)) = s.sims[i]?.map (fun o => (o.name, o.conf)) := by
      intro s o o' ho h1 h2
      rw [List.getElem?_set_self (List.getElem?_eq_some_iff.1 ho).1, ho]
      simp [h1, h2]
    exact keeps_run (f := fun s => s.sims[i]?.map (fun o => (o.name, o.conf))) a
      (fun _ c _ _ => keeps_createSolver (f := fun s => s.sims[i]?.map (fun o => (o.name, o.conf))) (fun _ _ => rfl) (fun _ _ _ _ => rfl) ext c s)
      (fun _ _ => rfl) (fun _ _ => rfl) (fun _ _ _ _ _ _ _ _ _ _ _ _ => rfl) (fun s o p h => hset s o { o with output := p } h rfl rfl)
      (fun s o p h => hset s o { o with domain := p } h rfl rfl) (fun s o p h => hset s o { o with status := p } h rfl rfl)
  · refine keeps_run (f := fun s => s.lists[r]?) a (fun o' c' ho' hc' => ?_) (fun _ _ => rfl) (fun _ _ => rfl)
      (fun _ _ _ _ _ _ _ _ _ _ _ _ => rfl) (fun _ _ _ _ => rfl) (fun _ _ _ _ => rfl) (fun _ _ _ _ => rfl)
    obtain rfl : o = o' := Option.some.inj (ho.symm.trans ho')
    obtain rfl : c = c' := Option.some.inj (hc.symm.trans hc')
    exact createSolver_lists ext hr s

/-- The block up to the two lists solvers write to. -/
def Spec.core (w : World) : World := { w with pr := { w.pr with block := w.pr.block.map fun b => { b with varList := [], linearTail := [] } } }

/-- C61 (partial): a run, whether it returns or raises, changes nothing in the models, equations, quantities and the problem except the list
of unknowns and the linear group of the block; for an algebraic problem nothing at all.  Missing: see `dae_solver_changes_group` and
`ode_run_extends_unknowns`. -/
theorem run_keeps_problem_partial (ext : Ext K) (I : Interp K) (i : SRef) (a : RunArgs) (s : SimWorld K) :
    Spec.core (runSimulation ext I i a s).2.w = Spec.core s.w ∧
    (∀ b, s.w.pr.block = some b → b.problemType = some .linear ∨ b.problemType = some .nonlinear → (runSimulation ext I i a s).2.w = s.w) := by
  constructor
  · exact keeps_run (f := fun s => Spec.core s.w) a
      (fun _ c _ _ => keeps_createSolver (f := fun s => Spec.core s.w) (fun _ _ => rfl)
        (fun s b l hb => by simp [Spec.core, hb]) ext c s)
      (fun _ _ => rfl) (fun _ _ => rfl) (fun _ _ _ _ _ _ _ _ s b l hb => by simp [Spec.core, hb]) (fun _ _ _ _ => rfl) (fun _ _ _ _ => rfl)
      (fun _ _ _ _ => rfl)
  · intro b hb hk
    have hcr : ∀ c, (createSolver ext c s).2.w = s.w := by
      intro c
      unfold createSolver
      cases h1 : dgetE c "linear_solver" with
      | error e => rw [bind_lift_error rfl]
      | ok l1 =>
        rw [bind_lift_ok rfl]
        cases h2 : dgetE c "nonlinear_solver" with
        | error e => rw [bind_lift_error rfl]
        | ok l2 =>
          rw [bind_lift_ok rfl]
          cases h3 : dgetE c "differential_solver" with
          | error e => rw [bind_lift_error rfl]
          | ok l3 =>
            rw [bind_lift_ok rfl]
            cases h4 : dgetE c "differential_algebraic_solver" with
            | error e => rw [bind_lift_error rfl]
            | ok l4 =>
              rw [bind_lift_ok rfl, bind_of_ok (getBlock_ok.2 ⟨hb, rfl⟩)]
              rcases hk with hk | hk <;> rw [hk]
              · rfl
              · exact Keeps.bind (f := fun s : SimWorld K => s.w) (Keeps.lift _ _) (fun _ => Keeps.pure _ _) s
    refine keeps_run (f := fun s => s.w) a (fun _ c _ _ => hcr c) (fun _ _ => rfl) (fun _ _ => rfl) ?_ (fun _ _ _ _ => rfl) (fun _ _ _ _ => rfl)
      (fun _ _ _ _ => rfl)
    intro o c sv s1 _ _ hcs hex
    obtain ⟨b', k, hb', hk', hcl⟩ := createSolver_kind hcs
    obtain rfl : b = b' := Option.some.inj (hb.symm.trans hb')
    rw [hk'] at hk
    cases sv with
    | d o => rcases hk with hk | hk <;> cases hk <;> exact absurd hcl (by simp [Spec.OfClass])
    | _ => exact absurd hex (by simp [SolverObj.extends])

/-! ## C62: running again -/

/-- The outcome depends on models and problem only. -/
def Determined {α : Type} (x : PyS K α) : Prop := ∀ s t : SimWorld K, s.w = t.w → (x s).1 = (x t).1 ∧ (x s).2.w = (x t).2.w

namespace Determined
variable {α β : Type}

theorem pure (a : α) : Determined (PyS.pure a : PyS K α) := fun _ _ h => ⟨rfl, h⟩
theorem raise (e : Err) : Determined (PyS.raise e : PyS K α) := fun _ _ h => ⟨rfl, h⟩
theorem lift (x : Except Err α) : Determined (PyS.lift x : PyS K α) := fun _ _ h => ⟨rfl, h⟩
theorem called (c : Routine) : Determined (PyS.called c : PyS K Unit) := fun _ _ h => ⟨rfl, h⟩

theorem getBlock : Determined (PyS.getBlock : PyS K Block) := fun s t h => by
  simp only [PyS.getBlock]
  rw [h]
  cases t.w.pr.block <;> exact ⟨rfl, h⟩

theorem bind {x : PyS K α} {f : α → PyS K β} (hx : Determined x) (hf : ∀ a, Determined (f a)) : Determined (x >>= f) := fun s t h => by
  obtain ⟨h1, h2⟩ := hx s t h
  rw [bind_eq, PyS.bind, PyS.bind]
  cases hs : x s with
  | mk r s1 =>
    cases ht : x t with
    | mk r' t1 =>
      rw [hs, ht] at h1 h2
      simp only at h1 h2
      subst h1
      cases r with
      | ok a => exact hf a s1 t1 h2
      | error e => exact ⟨rfl, h2⟩

theorem prog {Q A R : Type} {g : Q → PyS K A} (h : ∀ q, Determined (g q)) (p : Prog Q A R) : Determined (p.run g) := by
  induction p with
  | ret r => exact pure _
  | fail e => exact raise _
  | ask q k ih => exact bind (h q) ih

end Determined

theorem determined_sympy (ext : Ext K) : Determined (sympyMech ext) := by
  unfold sympyMech
  exact .bind .getBlock fun _ => .bind (.called _) fun _ => .bind (.lift _) fun _ => .lift _

theorem determined_la (ext : Ext K) (conf : Conf) (m : Option Mech) : Determined (laSolve ext conf m) := by
  unfold laSolve
  split
  · exact determined_sympy ext
  · unfold scipyMech
    exact .bind .getBlock fun _ => .bind (.called _) fun _ => .bind (.lift _) fun _ => .pure _
  · unfold laSymbolicMech
    exact .bind .getBlock fun _ => .bind (.lift _) fun _ => .bind (.lift _) fun _ => .bind (.called _) fun _ => .bind (.lift _) fun _ => .lift _
  · exact .raise _

theorem determined_nla (ext : Ext K) (I : Interp K) (conf : Conf) (m : Mech) : Determined (nlaSolve ext I conf m) := by
  have hp : ∀ g p, Determined (polishRoot ext I g p) := by
    intro g p
    unfold polishRoot
    refine .bind .getBlock fun b => ?_
    split
    · exact .bind (.called _) fun _ => .prog (fun _ => .lift _) _
    · exact .bind (.called _) fun _ => .prog (fun _ => .lift _) _
    · exact .bind (.called _) fun _ => .prog (fun _ => .lift _) _
    · exact .bind (.called _) fun _ => .prog (fun _ => .lift _) _
    · exact .pure _
  have hp' : ∀ g p, Determined (polished ext I g p) := by
    intro g p
    unfold polished
    split
    · exact .pure _
    · exact .bind (hp _ _) fun _ => .pure _
  unfold nlaSolve
  split
  · exact determined_sympy ext
  · unfold nlaSymbolicMech
    exact .bind .getBlock fun _ => .bind (.lift _) fun _ => .bind (.lift _) fun _ => .bind (.lift _) fun _ => .bind (hp' _ _) fun _ =>
      .bind (.called _) fun _ => .bind (.lift _) fun _ => .lift _

/-- Residuals can be shown again if they could be shown for the same output. -/
theorem residualTable_again {i : SRef} {s t s' : SimWorld K} (hw : s.w = t.w) {o o' : SimObj K} (ho : s.sims[i]? = some o) (ho' : t.sims[i]? = some o')
    (hout : o.output = o'.output) {b : Block} (hb : s.w.pr.block = some b)
    (hk : b.problemType = some .linear ∨ b.problemType = some .nonlinear) (l : List SObj) (h : residualTable i l s = (.ok (), s')) :
    residualTable i l t = (.ok (), t) := by
  have hred : ∀ rt, getResults i rt s = (algResults o.output rt, s) := by
    intro rt
    unfold getResults
    rw [bind_of_ok (getSim_ok.2 ⟨ho, rfl⟩), bind_of_ok (getBlock_ok.2 ⟨hb, rfl⟩)]
    rcases hk with hk | hk <;> rw [hk] <;> rfl
  have hred' : ∀ rt, getResults i rt t = (algResults o'.output rt, t) := by
    intro rt
    unfold getResults
    rw [bind_of_ok (getSim_ok.2 ⟨ho', rfl⟩), bind_of_ok (getBlock_ok.2 ⟨hw ▸ hb, rfl⟩)]
    rcases hk with hk | hk <;> rw [hk] <;> rfl
  induction l with
  | nil => rfl
  | cons e r ih =>
    unfold residualTable at h ⊢
    cases he : e.isPy with
    | true =>
      rw [he, if_pos rfl] at h
      exact absurd (show ((.error .attributeError : Except Err Unit), s) = _ from h) (by simp)
    | false =>
      rw [he, if_neg (by simp)] at h
      rw [if_neg (by simp)]
      cases ha : algResults o.output .dict with
      | error e => rw [bind_of_error (by rw [hred, ha])] at h; cases h
      | ok v =>
        rw [bind_of_ok (a := v) (s1 := s) (by rw [hred, ha])] at h
        rw [bind_of_ok (a := v) (s1 := t) (by rw [hred', ← hout, ha])]
        exact ih h

/-- The status of an algebraic simulation with results. -/
theorem getStatus_algebraic {i : SRef} {s : SimWorld K} {o : SimObj K} (ho : s.sims[i]? = some o) {b : Block} (hb : s.w.pr.block = some b)
    (hk : b.problemType = some .linear ∨ b.problemType = some .nonlinear) {d : Dict String K} (hd : o.output = some (.dict d)) :
    getStatus i s = (.ok 0, { s with sims := s.sims.set i { o with status := some 0 } }) := by
  have hred : getResults i .list s = (.ok (.list (dvalues d)), s) := by
    unfold getResults
    rw [bind_of_ok (getSim_ok.2 ⟨ho, rfl⟩), bind_of_ok (getBlock_ok.2 ⟨hb, rfl⟩)]
    rcases hk with hk | hk <;> rw [hk, hd] <;> rfl
  unfold getStatus
  rw [bind_of_ok hred, bind_of_ok (getSim_ok.2 ⟨ho, rfl⟩)]
  rfl

theorem createSolver_again {ext : Ext K} {conf : Conf} {s t : SimWorld K} {sv : SolverObj} (h : createSolver ext conf s = (.ok sv, s))
    {b : Block} (hb : s.w.pr.block = some b) (hk : b.problemType = some .linear ∨ b.problemType = some .nonlinear) (hw : s.w = t.w) :
    createSolver ext conf t = (.ok sv, t) := by
  unfold createSolver at h ⊢
  simp only [bind_ok, lift_ok, getBlock_ok] at h
  obtain ⟨lin, s1, ⟨h1, rfl⟩, non, s2, ⟨h2, rfl⟩, dif, s3, ⟨h3, rfl⟩, dae, s4, ⟨h4, rfl⟩, b', s5, ⟨hb', rfl⟩, h⟩ := h
  obtain rfl : b = b' := Option.some.inj (hb.symm.trans hb')
  rw [bind_lift_ok h1, bind_lift_ok h2, bind_lift_ok h3, bind_lift_ok h4, bind_of_ok (getBlock_ok.2 ⟨hw ▸ hb, rfl⟩)]
  rcases hk with hk | hk
  · rw [hk] at h ⊢
    simp only [solverFor, PyS.pure, Prod.mk.injEq, and_true] at h ⊢
    exact h
  · rw [hk] at h ⊢
    simp only [solverFor, bind_ok, lift_ok, PyS.pure, Prod.mk.injEq] at h ⊢
    obtain ⟨m, _, ⟨hm, rfl⟩, h, _⟩ := h
    exact ⟨m, t, ⟨hm, rfl⟩, h, rfl⟩

theorem set_same {α : Type} {l : List α} {i : Nat} {x : α} (h : l[i]? = some x) : l.set i x = l := by
  refine List.ext_getElem? fun j => ?_
  rw [List.getElem?_set]
  split
  · next e => subst e; rw [if_pos (List.getElem?_eq_some_iff.1 h).1, h]
  · rfl

theorem set_same_sims {i : SRef} {s : SimWorld K} {o : SimObj K} (h : s.sims[i]? = some o) : { s with sims := s.sims.set i o } = s := by
  rw [set_same h]

/-- C62 (partial): a run of an algebraic problem that returned returns again, with the same results; models, problem and all simulations are
as after the first.  Missing: differential problems, see `second_dynamic_run_refused`. -/
theorem run_again_partial {ext : Ext K} {I : Interp K} {i : SRef} {a : RunArgs} {s s' : SimWorld K} {b : Block} (hb : s.w.pr.block = some b)
    (hk : b.problemType = some .linear ∨ b.problemType = some .nonlinear) (h : runSimulation ext I i a s = (.ok (), s')) :
    ∃ s'', runSimulation ext I i a s' = (.ok (), s'') ∧ s''.sims = s'.sims ∧ s''.w = s'.w ∧ s'.w = s.w := by
  have hw : s'.w = s.w := by
    have := (run_keeps_problem_partial ext I i a s).2 b hb hk
    rw [h] at this; exact this
  have hcf := (run_leaves_others_partial ext I i a s).2.1
  rw [h] at hcf
  obtain ⟨o, c, pt, b', sv, s1, s2, s3, ho, hc, hpt, hb', hsv, hsan, hst, hep⟩ := run_parts h
  obtain rfl : b = b' := Option.some.inj (hb.symm.trans hb')
  obtain rfl := createSolver_algebraic hsv hb hk
  have h2 : s2 = s1 := by
    have := keeps_sanity (fun s => s) ext a.sanity s1
    rw [hsan] at this; exact this
  subst h2
  obtain ⟨out, s4, o3, d, hout, ho3, hout3, hd, hd3, hw4⟩ := solveStore_ok hst
  -- the solver is algebraic
  have hcl : ∃ k, b.problemType = some k ∧ Spec.OfClass k sv := by
    obtain ⟨b2, k2, hb2, hk2, hcl⟩ := createSolver_kind hsv
    obtain rfl : b = b2 := Option.some.inj (hb.symm.trans hb2)
    exact ⟨k2, hk2, hcl⟩
  have hne : ¬ sv.extends := by
    obtain ⟨k, hk', hcl⟩ := hcl
    rw [hk'] at hk
    cases sv with
    | d o => rcases hk with hk | hk <;> cases hk <;> simp [Spec.OfClass] at hcl
    | _ => simp [SolverObj.extends]
  have hdet : Determined (sv.solve ext I c) := by
    obtain ⟨k, hk', hcl⟩ := hcl
    rw [hk'] at hk
    cases sv with
    | la m => exact .bind (determined_la _ _ _) fun _ => .pure _
    | nla m => exact .bind (determined_nla _ _ _ _) fun _ => .pure _
    | d o => rcases hk with hk | hk <;> cases hk <;> simp [Spec.OfClass] at hcl
    | dae o => rcases hk with hk | hk <;> cases hk <;> simp [Spec.OfClass] at hcl
  have hdict : ∃ m, out = .dict m := by
    obtain ⟨k, hk', hcl⟩ := hcl
    rw [hk'] at hk
    cases sv with
    | la m => simp only [SolverObj.solve, bind_ok, PyS.pure, Prod.mk.injEq, Except.ok.injEq] at hout; obtain ⟨m, _, _, h, _⟩ := hout; exact ⟨m, h.symm⟩
    | nla m => simp only [SolverObj.solve, bind_ok, PyS.pure, Prod.mk.injEq, Except.ok.injEq] at hout; obtain ⟨m, _, _, h, _⟩ := hout; exact ⟨m, h.symm⟩
    | d o => rcases hk with hk | hk <;> cases hk <;> simp [Spec.OfClass] at hcl
    | dae o => rcases hk with hk | hk <;> cases hk <;> simp [Spec.OfClass] at hcl
  obtain ⟨m, rfl⟩ := hdict
  have hsolve : ∀ t : SimWorld K, t.w = s2.w → ∃ t', sv.solve ext I c t = (.ok (.dict m), t') ∧ t'.sims = t.sims ∧ t'.w = t.w := by
    intro t ht
    have h1 := (hdet t s2 ht).1
    have h2 := keeps_solve (K := K) (sv := sv) (f := fun s => (s.sims, s.w)) (fun _ _ => rfl) (fun _ _ => rfl) (fun he => absurd he hne) ext I c t
    cases hs : sv.solve ext I c t with
    | mk r t' =>
      rw [hs] at h1 h2
      rw [hout] at h1
      simp only [Prod.mk.injEq] at h1 h2
      exact ⟨t', by rw [h1], h2.1, h2.2⟩
  have hw3 : s3.w = s2.w := by
    obtain ⟨t', ht', _, hw'⟩ := hsolve s2 rfl
    rw [hout] at ht'; cases ht'
    exact hw4.trans hw'
  have hb3 : s3.w.pr.block = some b := by rw [hw3]; exact hb
  -- the simulation after the first run
  have hsims := congrArg (fun l => l[i]?) (epilogue_output hep)
  simp only [List.getElem?_map, ho3, Option.map_some] at hsims
  obtain ⟨o2, ho2, hi⟩ := Option.map_eq_some_iff.1 hsims
  simp only [Prod.mk.injEq] at hi
  have hc2 : o2.conf = some c := by
    rw [ho2, ho] at hcf
    simp only [Option.map_some, Option.some.injEq, Prod.mk.injEq] at hcf
    exact hcf.2.trans hc
  have hb' : s'.w.pr.block = some b := by rw [hw]; exact hb
  unfold epilogue at hep
  simp only [bind_ok, getBlock_ok] at hep
  obtain ⟨_, s5, hmsg, b5, s6, ⟨hb5, rfl⟩, hres⟩ := hep
  have hst2 : a.showMsg = true → o2.status = some 0 := by
    intro hm
    rw [hm] at hmsg
    have hg := getStatus_algebraic ho3 hb3 hk hout3
    have hmsg' : ((.ok () : Except Err Unit), ({ s3 with sims := s3.sims.set i { o3 with status := some 0 } } : SimWorld K)) = (.ok (), s6) := by
      rw [← hmsg]
      show _ = PyS.bind (getStatus i) (fun _ => PyS.pure ()) s3
      rw [PyS.bind, hg]; rfl
    simp only [Prod.mk.injEq, true_and] at hmsg'
    have hlen : i < s3.sims.length := (List.getElem?_eq_some_iff.1 ho3).1
    have hs6 : s'.sims = s6.sims := by
      have := Keeps.when (b := a.showResiduals && !isDynamicType pt b5.problemType) (keeps_residualTable (K := K) (fun s => s.sims) i b5.equationsList) s6
      rw [hres] at this; exact this
    rw [hs6, ← hmsg'] at ho2
    simp only [List.getElem?_set_self hlen, Option.some.injEq] at ho2
    rw [← ho2]
  have hb5' : b5 = b := by
    have : s6.w = s3.w := by
      have := Keeps.when (b := a.showMsg) (Keeps.bind (f := fun s : SimWorld K => s.w) (keeps_getStatus (K := K) (i := i) (fun _ _ _ _ => rfl)) (fun _ => Keeps.pure _ ())) s3
      have h' : (PyS.when a.showMsg (PyS.bind (getStatus i) fun _ => PyS.pure ()) s3) = (.ok (), s6) := hmsg
      rw [show (PyS.when a.showMsg (getStatus i >>= fun _ => PyS.pure ()) s3) = (.ok (), s6) from h'] at this
      exact this
    rw [this, hb3] at hb5; exact (Option.some.inj hb5).symm
  subst hb5'
  -- the second run
  obtain ⟨n, hn⟩ : ∃ n, dget c "number_parameters_to_optimize" = some n := by
    have h0 := h
    unfold runSimulation at h0
    simp only [bind_ok, getSim_ok, lift_ok] at h0
    obtain ⟨o', _, ⟨ho', rfl⟩, c', _, ⟨hc', rfl⟩, pt', _, _, n, _, ⟨hn, _⟩, _⟩ := h0
    obtain rfl : o = o' := Option.some.inj (ho.symm.trans ho')
    rw [hc] at hc'; cases hc'
    refine ⟨n, ?_⟩
    unfold dgetE at hn
    split at hn
    · next h => rw [h]; simpa using hn
    · cases hn
  have hrunnable : runnable pt b5.problemType = true := by
    cases hr : runnable pt b5.problemType with
    | true => rfl
    | false => rw [run_unfold ho hc hpt hn hb, hr] at h; exact absurd h (by simpa using raise_ok)
  obtain ⟨t1, ht1, ht1s, ht1w⟩ := hsolve s' hw
  have hsan' : Sloth.sanity ext a.sanity s' = (.ok (), s') := by
    have h1 := keeps_sanity (fun s => s) ext a.sanity s'
    have h2 : (Sloth.sanity ext a.sanity s').1 = (Sloth.sanity ext a.sanity s2).1 := by
      cases a.sanity
      · rfl
      · simp only [Sloth.sanity, PyS.when, if_true, PyS.ofWorld, hw]
    rw [hsan] at h2
    exact Prod.ext h2 h1
  have hstore : solveStore ext I i c sv s' = (.ok (), t1) := by
    have hto : t1.sims[i]? = some o2 := by rw [ht1s]; exact ho2
    unfold solveStore
    rw [bind_of_ok ht1, bind_of_ok (getSim_ok.2 ⟨hto, rfl⟩), setSim, bind_modify,
      show ({ o2 with output := some (Output.dict m) } : SimObj K) = o2 by rw [← hout3, ← hi.1], set_same_sims hto,
      bind_lift_ok hd, bind_of_ok (getSim_ok.2 ⟨hto, rfl⟩), setSim,
      show ({ o2 with domain := d } : SimObj K) = o2 by rw [← hd3, ← hi.2.2], PyS.modify, set_same_sims hto]
  have hb1 : t1.w.pr.block = some b5 := by rw [ht1w]; exact hb'
  have hto : t1.sims[i]? = some o2 := by rw [ht1s]; exact ho2
  have hepi : epilogue i pt a.showMsg a.showResiduals t1 = (.ok (), t1) := by
    unfold epilogue
    have hm : PyS.when a.showMsg (PyS.bind (getStatus i) fun _ => PyS.pure ()) t1 = (.ok (), t1) := by
      cases hm : a.showMsg with
      | false => rfl
      | true =>
        have hg := getStatus_algebraic hto hb1 hk (hi.1.trans hout3)
        rw [show ({ o2 with status := some 0 } : SimObj K) = o2 by rw [← hst2 hm], set_same_sims hto] at hg
        show PyS.bind (getStatus i) (fun _ => PyS.pure ()) t1 = _
        rw [PyS.bind, hg]; rfl
    rw [bind_of_ok hm, bind_of_ok (getBlock_ok.2 ⟨hb1, rfl⟩)]
    cases hcond : a.showResiduals && !isDynamicType pt b5.problemType with
    | false => rfl
    | true =>
      rw [hcond] at hres
      have ho6 : s6.sims[i]? = some o2 := by
        have := keeps_residualTable (K := K) (fun s => s.sims) i b5.equationsList s6
        rw [show residualTable i b5.equationsList s6 = (.ok (), s') from hres] at this
        rw [← show s'.sims = s6.sims from this]; exact ho2
      have hw6 : s6.w = t1.w := by
        have := keeps_residualTable (K := K) (fun s => s.w) i b5.equationsList s6
        rw [show residualTable i b5.equationsList s6 = (.ok (), s') from hres] at this
        exact this.symm.trans ht1w.symm
      exact residualTable_again hw6 ho6 hto rfl hb5 hk _ hres
  refine ⟨t1, ?_, ht1s, ht1w, hw⟩
  rw [run_unfold ho2 hc2 hpt hn hb', hrunnable, if_pos rfl, bind_of_ok (createSolver_again hsv hb hk hw.symm), bind_of_ok hsan', bind_of_ok hstore]
  exact hepi

end

/-! ## Sample runs -/

/-- The hypotheses of C41, C42, C55 and C61 are met: the run returns, exactly one routine is called and the results are under their names. -/
example : ((simHistory Ex.ext Ex.ratI (Ex.linRun [])).sims.map fun o => (o.output, o.status)) = [(some (.dict [("y_m", 2), ("x_m", 1)]), some 0)] ∧
    (simHistory Ex.ext Ex.ratI (Ex.linRun [])).log = [.symbolicSys] ∧
    ((simHistory Ex.ext Ex.ratI (Ex.linRun [])).w.pr.block.map fun b => (b.varList, b.problemType)) = some (["y_m", "x_m"], some .linear) := by
  decide +kernel

/-- The other mechanisms. -/
example : ((simHistory Ex.ext Ex.ratI (Ex.linRun [("linear_solver", .str "scipy")])).log) = [.linearSolve] ∧
    ((simHistory Ex.ext Ex.ratI (Ex.linRun [("linear_solver", .str "sympy")])).log) = [.sympySolve] ∧
    ((simHistory Ex.ext Ex.ratI (Ex.linRun [("linear_solver", .str "sympy")])).sims.map fun o => o.output) =
      [some (.dict [("y_m", 2), ("x_m", 1)])] := by
  decide +kernel

/-- With the check on nothing is solved if an equation is missing (C42). -/
example : (simHistory Ex.ext Ex.ratI (((Ex.lin.eraseIdx 4).map .base) ++ [.newSim "s", .configure 0 [] none none, .run 0 {}])).log = [] ∧
    (simHistory Ex.ext Ex.ratI (((Ex.lin.eraseIdx 4).map .base) ++ [.newSim "s", .configure 0 [] none none, .run 0 { sanity := false }])).log =
      [.symbolicSys] := by
  decide +kernel

/-- A failing library (`failed_solve_raises`, `sympy_failure_is_index_error`): its hypotheses are met and the run raises. -/
def Ex.failing : Ext Rat := { Ex.ext with symSys := fun _ _ _ _ => .ok ([2, 1], false), spSolve := fun _ _ => .ok [] }

example : ((runSimulation Ex.failing Ex.ratI 0 {} (simHistory Ex.failing Ex.ratI (Ex.linRun []))).1.toOption = none) ∧
    ((simHistory Ex.failing Ex.ratI (Ex.linRun [])).sims.map fun o => o.output) = [none] ∧
    (guess (K := Rat) ["y_m", "x_m"] (.nums [])).toOption = some [1, 1] := by
  decide +kernel

/-- A solver chosen for each of the four kinds of problems would be of its class; here the two of the samples (C35), and a
configured type that is ignored (C54): the linear problem is solved by the linear solver although the nonlinear one is configured. -/
example : ((createSolver Ex.ext (confDefaults) (simHistory Ex.ext Ex.ratI (Ex.linRun []))).1.toOption = some (.la (some .symbolicsys))) ∧
    (simHistory Ex.ext Ex.ratI (Ex.linRun [("problem_type", .str "nonlinear"), ("linear_solver", .str "scipy")])).log = [.linearSolve] ∧
    (simHistory Ex.ext Ex.ratI (Ex.linRun [("problem_type", .str "quadratic")])).log = [] := by
  decide +kernel

/-- Creating the solver of a problem with differential and algebraic equations changes the linear group (`dae_solver_changes_group`, C51); for the
differential problem it does not. -/
example :
    let c : Conf := dset (dset confDefaults "time_variable_name" (.str "t_m")) "domain" (.dom 0)
    let s := simHistory Ex.ext Ex.ratI ((Ex.dae ++ [Op.initial [("x_m", 1), ("y_m", 1), ("z_m", 1), ("t_m", 0)], Op.resolve]).map .base)
    let s1 := simHistory Ex.ext Ex.ratI (Ex.ode.map .base)
    (s.w.pr.block.map fun b => b.linearTail) = some [] ∧
    ((createSolver Ex.ext c s).2.w.pr.block.map fun b => b.linearTail) = some [[1]] ∧
    ((createSolver Ex.ext c s).1.toOption.map fun sv => match sv with | .dae o => (o.solver, o.domain) | _ => (.none, .none)) = some (.str "IDA", .dom 0) ∧
    ((createSolver Ex.ext c s1).2.w.pr.block.map fun b => b.linearTail) = some [] ∧
    ((createSolver Ex.ext c s1).1.toOption.map fun sv => match sv with | .d o => o.diffY | _ => []) = some ["x_m"] := by
  decide +kernel

/-- C52 fails: a solver without any result gives status 0. -/
theorem status_of_no_results : ∃ (ext : Ext Rat) (ops : List (SOp Rat)),
    ((simHistory ext Ex.ratI ops).sims.map fun o => (o.output, o.status)) = [(some (.dict []), some 0)] :=
  ⟨{ Ex.ext with spSolve := fun _ _ => .ok [[]] }, Ex.linRun [("linear_solver", .str "sympy")], by decide +kernel⟩

/-- The list of results is in another order than the dictionary. -/
theorem results_order_differs : ∃ (ext : Ext Rat) (ops : List (SOp Rat)),
    (getResults 0 .list (simHistory ext Ex.ratI ops)).1.toOption = some (.list [2, 1]) ∧
    (getResults 0 .dict (simHistory ext Ex.ratI ops)).1.toOption = some (.dict [("x_m", 1), ("y_m", 2)]) :=
  ⟨Ex.ext, Ex.linRun [], by decide +kernel⟩

/-- The sample differential problem is solved: the function is asked once and the table of the domain has times and states. -/
example : (simHistory Ex.ext Ex.ratI (Ex.odeRun Ex.ode Ex.dyn {})).log = [.odeint] ∧
    ((simHistory Ex.ext Ex.ratI (Ex.odeRun Ex.ode Ex.dyn {})).sims.map fun o => (o.output, o.status)) =
      [(some (.series [0, 1/2, 1] [[1], [1], [1]]), some 0), (none, none)] ∧
    ((simHistory Ex.ext Ex.ratI (Ex.odeRun Ex.ode Ex.dyn {})).doms.map fun d => d.values) =
      [some [("t", { cols := [.name "t", .name "x"], rows := [[0, 1], [1/2, 1], [1, 1]] })]] := by
  decide +kernel

/-- C60 fails: two simulations configured without `arg_names` share a list, and running the first puts the name of time into the settings
of the second. -/
theorem simulations_share_arguments : ∃ (ops : List (SOp Rat)) (a : RunArgs),
    let s := simHistory Ex.ext Ex.ratI ops
    let s' := (runSimulation Ex.ext Ex.ratI 0 a s).2
    (s.sims[1]?.bind fun o => o.conf.bind Spec.argList) = some 0 ∧ s.lists[0]? = some [] ∧ s'.lists[0]? = some [.names ["t_m"]] :=
  ⟨Ex.ode.map .base ++ [.newDomain "d" ["t"], .domain 0 (.distribute "x"), .newSim "s", .newSim "u", .configure 0 Ex.dyn none none,
    .configure 1 Ex.dyn none none], {}, by decide +kernel⟩

/-- With a list of its own the second is not affected (the hypotheses of `run_leaves_others_partial` are met). -/
example :
    let ops : List (SOp Rat) := Ex.ode.map .base ++ [.newDomain "d" ["t"], .domain 0 (.distribute "x"), .newSim "s", .newSim "u", .newList [],
      .configure 0 Ex.dyn none none, .configure 1 (("arg_names", .argNames 1) :: Ex.dyn) none none, .run 0 {}]
    (simHistory Ex.ext Ex.ratI ops).lists = [[.names ["t_m"]], []] ∧ (simHistory Ex.ext Ex.ratI ops).log = [.odeint] := by
  decide +kernel

/-- C62 fails for differential problems: the second run of the same simulation is refused, because the domain cannot take the second table; after
a reset it is accepted. -/
theorem second_dynamic_run_refused : ∃ ops : List (SOp Rat),
    let s := simHistory Ex.ext Ex.ratI ops
    (s.sims.map fun o => o.status) = [some 0, none] ∧ ((runSimulation Ex.ext Ex.ratI 0 {} s).1.toOption = none) ∧
    ((runSimulation Ex.ext Ex.ratI 0 {} (resetSim 0 s).2).1.toOption = some ()) :=
  ⟨Ex.odeRun Ex.ode Ex.dyn {}, by decide +kernel⟩

/-- C61 fails for compiled differential problems: a run adds the name of time to the list of unknowns, because it is a part of another
name. -/
theorem ode_run_extends_unknowns : ∃ (ops : List (SOp Rat)) (a : RunArgs),
    let s := simHistory Ex.ext Ex.ratI ops
    let s' := (runSimulation Ex.ext Ex.ratI 0 a s).2
    (s.w.pr.block.map fun b => b.varList) = some ["flat_m"] ∧ (s'.w.pr.block.map fun b => b.varList) = some ["flat_m", "t_m"] :=
  ⟨(Ex.odeRun Ex.flat Ex.dyn {}).dropLast, { sanity := false }, by decide +kernel⟩

end Sloth
