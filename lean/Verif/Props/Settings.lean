import Verif.Props.Implicit

/-!
# With which settings a routine is called (C92)
-/

namespace Sloth
open PyS

section
variable {K : Type} [Field K] [LinearOrder K]

/-- Equally spaced times can be computed: two numbers and a number of steps that is a natural number. -/
def Spec.Grid (c : Conf) : Prop :=
  ∃ (a b : Rat) (n : Nat), dget c "initial_time" = some (.num a) ∧ dget c "end_time" = some (.num b) ∧ dget c "number_of_time_steps" = some (.num n)

/-- The times are given, or can be computed.  A number of steps has to be there in both cases. -/
def Spec.Times (c : Conf) : Prop :=
  (dget c "times_for_solution" = some .none ∧ Spec.Grid c) ∨
  (∃ l v, dget c "times_for_solution" = some (.vec l) ∧ dget c "number_of_time_steps" = some v ∧ v ≠ .none)

/-- A starting point is configured: nothing, so that all unknowns start at 1, or a number for each. -/
def Spec.Guess (names : List String) (c : Conf) : Prop :=
  names = [] ∨ ∃ d, dget c "initial_guess" = some (.nums d) ∧ (d = [] ∨ ∀ n ∈ names, ∃ q, dget d n = some q)

/-- The names of time have initial values. -/
def Spec.TimeStarts (c : Conf) (init : Dict String Rat) : Prop :=
  ∃ v, dget c "time_variable_name" = some v ∧ ((∃ n, v = .str n) ∨ ∃ l, v = .names l) ∧ ∀ n ∈ Spec.timeNames v, ∃ q, dget init n = some q

/-- A level of messages the integrator knows. -/
def Spec.Verbosity (v : CVal) : Prop := v = .num 0 ∨ v = .num 1 ∨ v = .num 2 ∨ v = .bool false ∨ v = .bool true

/-- What a routine for the kind of problem needs. -/
def Spec.Usable (c : Conf) (w : World) (b : Block) : ProblemKind → Prop
  | .linear => dget c "linear_solver" = some (.str "symbolicsys") → Spec.Guess b.varList c
  | .nonlinear => dget c "nonlinear_solver" ≠ some (.str "sympy") → Spec.Guess b.varList c ∧ ∃ v, dget c "initial_guess_solver" = some v
  | .differential => Spec.Times c ∧ Spec.TimeStarts c w.pr.initial ∧
      ∀ r ∈ b.differential, ∃ e x y, w.es[r]? = some e ∧ e.elem = some (x, y) ∧ x.sym.isPy = false ∧
        ∀ n t, x.sym.expr = .atom (.d n t) → ∃ q, dget w.pr.initial n = some q
  | .dae => Spec.Grid c ∧ Spec.TimeStarts c w.pr.initial ∧ (∃ v, dget c "verbosity_solver" = some v ∧ Spec.Verbosity v) ∧
      ∀ n ∈ b.varList, ∃ q, dget w.pr.initial n = some q

/-! ## Peeling -/

theorem log_after {α β : Type} {x : PyS K α} {f : α → PyS K β} {s : SimWorld K} (hx : Keeps (fun s => s.log) x)
    (h : ((x >>= f) s).2.log ≠ s.log) : ∃ a s1, x s = (.ok a, s1) ∧ (f a s1).2.log ≠ s1.log := by
  have hk := hx s
  cases hxs : x s with
  | mk r s1 =>
    rw [hxs] at hk
    cases r with
    | error e => rw [bind_of_error hxs] at h; exact absurd hk h
    | ok a => rw [bind_of_ok hxs] at h; exact ⟨a, s1, rfl, by simp only at hk; rwa [hk]⟩

theorem log_lift {α β : Type} {x : Except Err α} {f : α → PyS K β} {s : SimWorld K}
    (h : ((lift x >>= f) s).2.log ≠ s.log) : ∃ a, x = .ok a ∧ (f a s).2.log ≠ s.log := by
  obtain ⟨a, s1, h1, h2⟩ := log_after (Keeps.lift _ _) h
  obtain ⟨h3, e⟩ := lift_ok.1 h1
  exact ⟨a, h3, e ▸ h2⟩

theorem log_block {β : Type} {f : Block → PyS K β} {s : SimWorld K}
    (h : ((getBlock >>= f) s).2.log ≠ s.log) : ∃ b, s.w.pr.block = some b ∧ (f b s).2.log ≠ s.log := by
  obtain ⟨a, s1, h1, h2⟩ := log_after (Keeps.getBlock _) h
  obtain ⟨h3, e⟩ := getBlock_ok.1 h1
  exact ⟨a, h3, e ▸ h2⟩

theorem log_sim {β : Type} {i : SRef} {f : SimObj K → PyS K β} {s : SimWorld K}
    (h : ((getSim i >>= f) s).2.log ≠ s.log) : ∃ o, s.sims[i]? = some o ∧ (f o s).2.log ≠ s.log := by
  obtain ⟨a, s1, h1, h2⟩ := log_after (Keeps.getSim _ _) h
  obtain ⟨h3, e⟩ := getSim_ok.1 h1
  exact ⟨a, h3, e ▸ h2⟩

theorem log_get {β : Type} {f : SimWorld K → PyS K β} {s : SimWorld K} (h : ((PyS.get >>= f) s).2.log ≠ s.log) : (f s s).2.log ≠ s.log := h

theorem log_when {β : Type} {c : Bool} {e : Err} {f : Unit → PyS K β} {s : SimWorld K}
    (h : ((when c (PyS.raise e) >>= f) s).2.log ≠ s.log) : c = false ∧ (f () s).2.log ≠ s.log := by
  cases c with
  | false => exact ⟨rfl, h⟩
  | true => exact absurd rfl h

theorem log_before {α β : Type} {x : PyS K α} {f : α → PyS K β} {s : SimWorld K} (hf : ∀ a, Keeps (fun s => s.log) (f a))
    (h : ((x >>= f) s).2.log ≠ s.log) : (x s).2.log ≠ s.log := by
  cases hxs : x s with
  | mk r s1 =>
    cases r with
    | error e => rwa [bind_of_error hxs] at h
    | ok a =>
      rw [bind_of_ok hxs] at h
      have := hf a s1
      simp only at this
      rwa [this] at h

/-! ## The routines -/

theorem guess_ok {names : List String} {v : CVal} {g : List K} (h : guess names v = .ok g) {c : Conf} (hv : dget c "initial_guess" = some v) :
    Spec.Guess names c := by
  have other : (if names.isEmpty then (.ok [] : Except Err (List K)) else .error .typeError) = .ok g → Spec.Guess names c := by
    intro h
    split at h
    · next he => exact .inl (List.isEmpty_iff.1 he)
    · cases h
  cases v with
  | nums d =>
    refine .inr ⟨d, hv, ?_⟩
    by_cases hd : d = []
    · exact .inl hd
    · refine .inr fun n hn => ?_
      obtain ⟨i, hi, rfl⟩ := List.mem_iff_getElem.1 hn
      obtain ⟨q, hq, -⟩ := (guess_start h).given hd i names[i] (List.getElem?_eq_getElem hi)
      exact ⟨q, hq⟩
  | _ => exact other (by simpa [guess] using h)

theorem timePoints_grid {a b n : CVal} {tp : List K} (h : timePoints a b n .none = .ok tp) :
    ∃ (x y : Rat) (m : Nat), a = .num x ∧ b = .num y ∧ n = .num m := by
  unfold timePoints at h
  split at h
  · next x y q _ =>
    split at h
    · next hq =>
      refine ⟨x, y, q.num.toNat, rfl, rfl, ?_⟩
      rw [CVal.num.injEq]
      have h0 : 0 ≤ q.num := Rat.num_nonneg.2 hq.2
      apply Rat.ext
      · simp [Int.toNat_of_nonneg h0]
      · simp [hq.1]
    · cases h
  · next hv => cases hv
  · cases h

theorem usable_linear {ext : Ext K} {c : Conf} {v : CVal} (hv : dget c "linear_solver" = some v) {s : SimWorld K} {b : Block} (hb : s.w.pr.block = some b)
    (h : (laSolve ext c (laLookUp v) s).2.log ≠ s.log) : Spec.Usable c s.w b .linear := by
  intro hs
  obtain rfl : v = .str "symbolicsys" := Option.some.inj (hv.symm.trans hs)
  simp only [laLookUp, laSolve, laSymbolicMech] at h
  obtain ⟨b', hb', h5⟩ := log_block h
  clear h
  rename' h5 => h
  obtain rfl : b = b' := Option.some.inj (hb.symm.trans hb')
  obtain ⟨g, hg, h⟩ := log_lift h
  obtain ⟨x0, hx, h⟩ := log_lift h
  exact guess_ok hx (dgetE_ok.1 hg)

theorem usable_nonlinear {ext : Ext K} {I : Interp K} {c : Conf} {v : CVal} (hv : dget c "nonlinear_solver" = some v) {m : Mech} (hm : nlaLookUp v = .ok m)
    {s : SimWorld K} {b : Block} (hb : s.w.pr.block = some b) (h : (nlaSolve ext I c m s).2.log ≠ s.log) : Spec.Usable c s.w b .nonlinear := by
  intro hs
  have hm' : m = .symbolicsys := by
    unfold nlaLookUp at hm
    split at hm <;> first | (cases hm; rfl) | (exact absurd hv hs) | cases hm
  subst hm'
  simp only [nlaSolve, nlaSymbolicMech] at h
  obtain ⟨b', hb', h5⟩ := log_block h
  clear h
  rename' h5 => h
  obtain rfl : b = b' := Option.some.inj (hb.symm.trans hb')
  obtain ⟨g, hg, h⟩ := log_lift h
  obtain ⟨x0, hx, h⟩ := log_lift h
  obtain ⟨p, hp, h⟩ := log_lift h
  exact ⟨guess_ok hx (dgetE_ok.1 hg), p, dgetE_ok.1 hp⟩

theorem usable_differential {ext : Ext K} {I : Interp K} {c : Conf} {o : DObj} {ts : CVal} (hts : dget c "times_for_solution" = some ts) (ht : o.times = ts)
    {s : SimWorld K} {b : Block} (hs : o.diffSystem = b.differential) (h : (dSolve ext I c o s).2.log ≠ s.log) (hi : Spec.TimeStarts c s.w.pr.initial) :
    Spec.Usable c s.w b .differential := by
  unfold dSolve at h
  obtain ⟨_, _, h⟩ := log_lift h
  obtain ⟨a, ha, h⟩ := log_lift h
  obtain ⟨e, he, h⟩ := log_lift h
  obtain ⟨n, hn, h⟩ := log_lift h
  obtain ⟨ts', hts', h5⟩ := log_lift h
  clear h
  rename' h5 => h
  obtain rfl : ts = ts' := Option.some.inj (hts.symm.trans (dgetE_ok.1 hts'))
  replace h := log_get h
  obtain ⟨names, hnames, h⟩ := log_lift h
  obtain ⟨y0, hy, h⟩ := log_lift h
  obtain ⟨hnn, h⟩ := log_when h
  obtain ⟨tp, htp, h⟩ := log_lift h
  rw [dgetE_ok] at ha he hn
  refine ⟨?_, hi, ?_⟩
  · by_cases hz : ts = .none
    · rw [ht, if_pos hz] at htp
      obtain ⟨x, y, m, rfl, rfl, rfl⟩ := timePoints_grid htp
      exact .inl ⟨hz ▸ hts, x, y, m, ha, he, hn⟩
    · rw [ht, if_neg hz] at htp
      right
      have hnn' : n ≠ .none := by simpa using hnn
      unfold timePoints at htp
      split at htp
      · exact absurd rfl hz
      · exact ⟨_, n, hts, hn, hnn'⟩
      · cases htp
  · intro r hr
    have hf := mapM_forall2.1 hnames
    rw [hs] at hf
    obtain ⟨nm, hmem, hr'⟩ := forall2_mem_left hf hr
    cases hee : s.w.es[r]? with
    | none => rw [hee] at hr'; cases hr'
    | some e0 =>
      rw [hee] at hr'
      simp only at hr'
      cases hel : e0.elem with
      | none => rw [hel] at hr'; cases hr'
      | some p =>
        rw [hel] at hr'
        obtain ⟨x, y⟩ := p
        simp only at hr'
        refine ⟨e0, x, y, rfl, hel, ?_, fun n' t hx => ?_⟩
        · cases hp : x.sym.isPy with
          | false => rfl
          | true => simp [lhsName, hp] at hr'
        · have hp : x.sym.isPy = false := by
            cases hp : x.sym.isPy with
            | false => rfl
            | true => simp [lhsName, hp] at hr'
          have hnm : nm = n' := by
            simp only [lhsName, hp, hx, Except.ok.injEq] at hr'
            exact hr'.symm
          obtain ⟨q, _, hq⟩ := forall2_mem_left (mapM_forall2.1 hy) hmem
          exact ⟨q, dgetE_ok.1 (hnm ▸ hq)⟩

theorem verbosity_ok {v : CVal} (h : verbosityOk v = .ok ()) : Spec.Verbosity v := by
  unfold verbosityOk at h
  unfold Spec.Verbosity
  split at h
  · split at h
    · next hq => rcases hq with rfl | rfl | rfl <;> simp
    · cases h
  · next b => cases b <;> simp
  · cases h

theorem usable_dae {ext : Ext K} {I : Interp K} {c : Conf} {o : DaeObj} {s : SimWorld K} {b : Block} (hb : s.w.pr.block = some b)
    (h : (daeSolve ext I c o s).2.log ≠ s.log) :
    Spec.Grid c ∧ (∃ v, dget c "verbosity_solver" = some v ∧ Spec.Verbosity v) ∧ ∀ n ∈ b.varList, ∃ q, dget s.w.pr.initial n = some q := by
  unfold daeSolve at h
  obtain ⟨_, _, h⟩ := log_lift h
  obtain ⟨a, ha, h⟩ := log_lift h
  obtain ⟨e, he, h⟩ := log_lift h
  obtain ⟨n, hn, h⟩ := log_lift h
  obtain ⟨hnn, h⟩ := log_when h
  obtain ⟨tp, htp, h⟩ := log_lift h
  replace h := log_get h
  obtain ⟨b', hb', h5⟩ := log_block h
  clear h
  rename' h5 => h
  obtain rfl : b = b' := Option.some.inj (hb.symm.trans hb')
  obtain ⟨ds, hds, h⟩ := log_lift h
  obtain ⟨y0, hy, h⟩ := log_lift h
  obtain ⟨yd0, hyd, h⟩ := log_lift h
  rw [dgetE_ok] at ha he hn
  obtain ⟨x, y, m, hx1, hx2, hx3⟩ := timePoints_grid htp
  refine ⟨⟨x, y, m, hx1 ▸ ha, hx2 ▸ he, hx3 ▸ hn⟩, ?_, fun v hv => ?_⟩
  · clear htp
    have h' := log_before (fun _ => Keeps.bind (Keeps.lift _ _) fun _ => Keeps.bind (Keeps.lift _ _) fun _ =>
      Keeps.bind (keeps_record (fun _ _ => rfl) _ _ _) fun _ => Keeps.pure _ _) h
    unfold integrateDae at h'
    split at h'
    · obtain ⟨_, _, h'⟩ := log_lift h'
      obtain ⟨v, hv, h'⟩ := log_lift h'
      obtain ⟨u, hu, h'⟩ := log_lift h'
      exact ⟨v, dgetE_ok.1 hv, verbosity_ok hu⟩
    · exact absurd rfl h'
  · rw [dkeys_yMap] at hy
    obtain ⟨q, _, hq⟩ := forall2_mem_left (mapM_forall2.1 hy) (List.mem_eraseDups.2 hv)
    exact ⟨q, dgetE_ok.1 hq⟩

/-- **C92.** If a run calls a numerical routine, whether it then returns or raises, the settings and initial values the routine needs were there and of the right kind. -/
theorem called_with_usable_settings {ext : Ext K} {I : Interp K} {i : SRef} {a : RunArgs} {s : SimWorld K} (h : (runSimulation ext I i a s).2.log ≠ s.log) :
    ∃ o c b k, s.sims[i]? = some o ∧ o.conf = some c ∧ s.w.pr.block = some b ∧ b.problemType = some k ∧ Spec.Usable c s.w b k := by
  unfold runSimulation at h
  obtain ⟨o, ho, h⟩ := log_sim h
  obtain ⟨c, hc, h⟩ := log_lift h
  have hc' : o.conf = some c := by
    cases hoc : o.conf with
    | none => rw [hoc] at hc; cases hc
    | some c' => rw [hoc] at hc; cases hc; rfl
  obtain ⟨pt, hpt, h⟩ := log_lift h
  obtain ⟨np, hnp, h⟩ := log_lift h
  obtain ⟨k0, s1, hk0, h0⟩ := log_after (Keeps.askKind _ _) h
  obtain rfl := (askKind_same hk0).symm
  clear h
  rename' h0 => h
  obtain ⟨hr, h⟩ := log_when h
  obtain ⟨sv, s2, hsv, h⟩ := log_after (keeps_createSolver (fun _ _ => rfl) (fun _ _ _ _ => rfl) _ _) h
  obtain ⟨u, s3, hsan, h5⟩ := log_after (keeps_sanity _ _ _) h
  clear h
  rename' h5 => h
  have hs3 : s3 = s2 := by
    have := keeps_sanity (K := K) (fun s => s) ext a.sanity s2
    rwa [hsan] at this
  subst hs3
  clear hsan
  replace h := log_before (fun _ => keeps_epilogue (fun _ _ _ _ => rfl) _ _ _) h
  unfold solveStore at h
  replace h : (sv.solve ext I c s3).2.log ≠ s3.log := by
    refine log_before ?_ h
    exact fun _ => Keeps.bind (Keeps.getSim _ _) fun _ => Keeps.bind (Keeps.modify fun _ => rfl) fun _ =>
      Keeps.bind (Keeps.lift _ _) fun _ => Keeps.bind (Keeps.getSim _ _) fun _ => Keeps.modify fun _ => rfl
  obtain ⟨b, k, hb, hk, _⟩ := createSolver_kind hsv
  refine ⟨o, c, b, k, ho, hc', hb, hk, ?_⟩
  have hw : b.problemType ≠ some .dae → s3.w = s.w := fun hd => by
    have := create_keeps_problem_partial ext c s hb hd
    rwa [hsv] at this
  have hsv' := hsv
  unfold createSolver at hsv
  simp only [bind_ok, lift_ok, getBlock_ok] at hsv
  obtain ⟨lin, _, ⟨h1, rfl⟩, non, _, ⟨h2, rfl⟩, dif, _, ⟨h3, rfl⟩, dae, _, ⟨h4, rfl⟩, b', _, ⟨hb', rfl⟩, hsv⟩ := hsv
  obtain rfl : b = b' := Option.some.inj (hb.symm.trans hb')
  rw [hk] at hsv
  rw [dgetE_ok] at h1 h2 h3 h4
  cases k with
  | linear =>
    simp only [solverFor, PyS.pure, Prod.mk.injEq, Except.ok.injEq] at hsv
    obtain ⟨rfl, rfl⟩ := hsv
    exact usable_linear h1 hb (log_before (fun _ => Keeps.pure _ _) h)
  | nonlinear =>
    simp only [solverFor, bind_ok, lift_ok, PyS.pure, Prod.mk.injEq, Except.ok.injEq] at hsv
    obtain ⟨m, _, ⟨hm, rfl⟩, rfl, rfl⟩ := hsv
    exact usable_nonlinear h2 hm hb (log_before (fun _ => Keeps.pure _ _) h)
  | differential =>
    have hw := hw (by rw [hk]; simp)
    have hts := created_initial_time hsv' hb (.inl hk)
    simp only [solverFor, bind_ok, PyS.pure, Prod.mk.injEq, Except.ok.injEq] at hsv
    obtain ⟨d, _, hd, rfl, rfl⟩ := hsv
    unfold dInit at hd
    simp only [bind_ok, lift_ok, getBlock_ok, PyS.pure, Prod.mk.injEq, Except.ok.injEq] at hd
    obtain ⟨_, _, ⟨_, rfl⟩, ts, _, ⟨hts', rfl⟩, v, _, ⟨hv, rfl⟩, _, _, ⟨_, rfl⟩, st, s4, hg, has, _, ⟨hh, rfl⟩, _, s5, hwh, _, s6, hap, b', _, ⟨hb'', rfl⟩, dy, _,
      ⟨hdy, rfl⟩, _, _, ⟨_, rfl⟩, _, _, ⟨_, rfl⟩, f, s7, hf, rfl, rfl⟩ := hd
    have hbb : b' = b := by
      have e7 := (congrArg (fun p => p.2.w) hf).symm.trans (keeps_compileIf (K := K) (fun s => s.w) _ b' _)
      simp only at e7
      rw [← e7, hw, hb] at hb''
      exact (Option.some.inj hb'').symm
    rw [← hw]
    refine usable_differential (dgetE_ok.1 hts') rfl (by rw [hbb]) h ?_
    rw [hw]
    obtain ⟨v', hv', hor, hall⟩ := hts
    exact ⟨v', hv', hor.imp id fun h => h.2, hall⟩
  | dae =>
    obtain ⟨o', rfl, _, hw'⟩ := dae_created hb hk hsv'
    have := usable_dae (b := { b with linearTail := b.linearTail ++ [b.nonlinear] }) (by rw [hw']) h
    rw [hw'] at this
    obtain ⟨v', hv', hor, hall⟩ := created_initial_time hsv' hb (.inr hk)
    exact ⟨this.1, ⟨v', hv', hor.imp id fun h => h.2, hall⟩, this.2.1, this.2.2⟩

/-- C92: a differential problem with an equation stated by its residual (not by two sides) is refused, and no integrator is called. -/
theorem residual_form_refused {ext : Ext K} {I : Interp K} {i : SRef} {a : RunArgs} {s : SimWorld K} {b : Block} (hb : s.w.pr.block = some b)
    (hk : b.problemType = some .differential) {r : ERef} (hr : r ∈ b.differential) {e : EqObj} (he : s.w.es[r]? = some e) (hel : e.elem = none) :
    (∃ x, (runSimulation ext I i a s).1 = .error x) ∧ (runSimulation ext I i a s).2.log = s.log := by
  have hlog : (runSimulation ext I i a s).2.log = s.log := by
    by_contra h
    obtain ⟨o, c, b', k, _, _, hb', hk', hu⟩ := called_with_usable_settings h
    obtain rfl : b = b' := Option.some.inj (hb.symm.trans hb')
    obtain rfl : ProblemKind.differential = k := Option.some.inj (hk.symm.trans hk')
    obtain ⟨e', x, y, he', hel', _⟩ := hu.2.2 r hr
    obtain rfl : e = e' := Option.some.inj (he.symm.trans he')
    rw [hel] at hel'
    cases hel'
  refine ⟨?_, hlog⟩
  cases h : runSimulation ext I i a s with
  | mk x s' =>
    cases x with
    | error x => exact ⟨x, rfl⟩
    | ok u =>
      exfalso
      rw [h] at hlog
      obtain ⟨o, c, pt, b', sv, s1, s2, s3, ho, hc, hpt, hb', hsv, hsan, hst, hep⟩ := run_parts h
      obtain ⟨b'', k, hb'', hk', hcl⟩ := createSolver_kind hsv
      obtain rfl : b = b'' := Option.some.inj (hb.symm.trans hb'')
      obtain rfl : ProblemKind.differential = k := Option.some.inj (hk.symm.trans hk')
      cases sv with
      | d d =>
        have e1 := keeps_createSolver (K := K) (f := fun s => s.log) (fun _ _ => rfl) (fun _ _ _ _ => rfl) ext c s
        rw [hsv] at e1
        have e2 := keeps_sanity (K := K) (fun s => s.log) ext a.sanity s1
        rw [hsan] at e2
        have e4 := keeps_epilogue (K := K) (f := fun s => s.log) (i := i) (fun _ _ _ _ => rfl) pt a.showMsg a.showResiduals s3
        rw [hep] at e4
        have hcalls := calls_d ext I c d s2 (l := [(Spec.routine .differential d.solver).getD .root]) fun r hr => by rw [hr]; rfl
        have e3 : s3.log = s2.log ++ [(Spec.routine .differential d.solver).getD .root] := by
          have : Calls [(Spec.routine .differential d.solver).getD .root] (solveStore ext I i c (.d d)) s2 := by
            unfold solveStore
            exact Calls.before hcalls fun _ => Keeps.bind (Keeps.getSim _ _) fun _ => Keeps.bind (Keeps.modify fun _ => rfl) fun _ =>
              Keeps.bind (Keeps.lift _ _) fun _ => Keeps.bind (Keeps.getSim _ _) fun _ => Keeps.modify fun _ => rfl
          exact this.ok _ _ hst
        simp only at e1 e2 e4 hlog
        rw [e4, e3, e2, e1] at hlog
        simp at hlog
      | _ => simp [Spec.OfClass] at hcl

/-! ## What the residual function raises -/

/-- C92/C82: the residual function of a compiled system raises `NameError` if something in it was not replaced, and otherwise only `IndexError`, and only for a vector
shorter than the unknowns or the derivatives. -/
theorem residual_raises {ext : Ext K} {I : Interp K} {es : List EqObj} {b : Block} {c : List String × List Sym} (hc : residualSystem ext es b = .ok c)
    {t : K} {y yd : List K} {e : Err} (h : residualAt I c t y yd = .error e) :
    ((∃ s ∈ c.2, s.hasD = true ∨ ∃ n ∈ s.free, n ≠ "t" ∧ n ∉ c.1) ∧ e = .nameError) ∨
    ((∀ s ∈ c.2, s.hasD = false ∧ ∀ n ∈ s.free, n = "t" ∨ n ∈ c.1) ∧ e = .indexError ∧
      ∃ ds, Spec.Derivatives ext.diffTerms es b.differential ds ∧ (y.length < b.varList.length ∨ yd.length < ds.length)) := by
  obtain ⟨ds, _, hds, _, hnames, _⟩ := residualSystem_ok hc
  unfold residualAt at h
  split at h
  · next hall =>
    right
    have hall' : ∀ s ∈ c.2, s.hasD = false ∧ ∀ n ∈ s.free, n = "t" ∨ n ∈ c.1 := by
      simpa [List.all_eq_true] using hall
    split at h
    · cases h
    · next hno =>
      cases h
      refine ⟨hall', rfl, ds, hds, ?_⟩
      by_contra hlen
      push Not at hlen
      apply hno
      rw [List.all_eq_true]
      intro s hs
      rw [List.all_eq_true]
      intro n hn
      rcases (hall' s hs).2 n hn with rfl | hmem
      · simp [residualEnv, dget]
      · rw [hnames, List.mem_append, List.mem_map, List.mem_map] at hmem
        rcases hmem with ⟨⟨d, j⟩, hj, rfl⟩ | ⟨⟨v, j⟩, hj, rfl⟩
        · have hj' : j < ds.length := (List.mem_zipIdx' hj).1
          rw [residualEnv_yd, List.getElem?_eq_getElem (Nat.lt_of_lt_of_le hj' hlen.2)]
          rfl
        · have hj' : j < b.varList.length := (List.mem_zipIdx' hj).1
          rw [residualEnv_y, List.getElem?_eq_getElem (Nat.lt_of_lt_of_le hj' hlen.1)]
          rfl
  · next hall =>
    left
    cases h
    refine ⟨?_, rfl⟩
    by_contra hno
    push Not at hno
    apply hall
    rw [List.all_eq_true]
    intro s hs
    obtain ⟨h1, h2⟩ := hno s hs
    simp only [Bool.and_eq_true, Bool.not_eq_true', List.all_eq_true, Bool.or_eq_true, beq_iff_eq, List.contains_iff_mem]
    refine ⟨by simpa using h1, fun n hn => ?_⟩
    by_cases ht : n = "t"
    · exact .inl ht
    · exact .inr (h2 n hn ht)

/-- C92: examples of runs that call a routine. -/
example : (simHistory Ex.ext Ex.ratI (Ex.odeRun Ex.ode Ex.dyn {})).log = [.odeint] ∧
    (simHistory Ex.echo Ex.ratI (Ex.algRun Ex.start57)).log = [.symbolicSys] ∧
    (simHistory Ex.lax Ex.ratI (Ex.impRun Ex.daeTwice Ex.fit ["a", "b", "c"] Ex.quiet)).log = [.ida] := by
  decide +kernel

/-- With a level of messages that is unknown, or no number of steps, no integrator is called. -/
example : (simHistory Ex.echo Ex.ratI (Ex.daeRun Ex.daeInit [("time_variable_name", .str "t_m"), ("verbosity_solver", .num 2)])).log = [.ida] ∧
    (simHistory Ex.echo Ex.ratI (Ex.daeRun Ex.daeInit [("time_variable_name", .str "t_m"), ("verbosity_solver", .num 3)])).log = [] ∧
    (simHistory Ex.ext Ex.ratI (Ex.odeRun Ex.ode (dset Ex.dyn "number_of_time_steps" (.num (1/2))) {})).log = [] := by
  decide +kernel

/-- The sample differential problem, with its equation as a residual. -/
def Ex.odeResidual : List Op := Ex.ode.map fun o => match o with
  | .cmd m (.eqn a n d (.eqn l r) c) => .cmd m (.eqn a n d (.res (.bin .sub l r)) c)
  | o => o

/-- The hypotheses of `residual_form_refused` are met by it; its outcome is `TypeError`. -/
example : let s := simHistory Ex.ext Ex.ratI (Ex.odeRun Ex.odeResidual Ex.dyn {}).dropLast
    (s.w.pr.block.map fun b => (b.problemType, b.differential.map fun r => (s.w.es[r]?.map fun e => e.elem.isNone))) = some (some .differential, [some true]) ∧
    Ex.errOf (runSimulation Ex.ext Ex.ratI 0 {} s).1 = some .typeError := by
  decide +kernel

/-- A vector that is too short, in the sample with the unknowns `z` and `x`. -/
example : let c := daeCompile Ex.lax (resolve (history Ex.daeFirst World.init)).2
    (c.toOption.map fun c => (Ex.errOf (residualAt Ex.ratI c 0 [1] [1, 1]), (residualAt Ex.ratI c 0 [1, 1, 1] [1, 1]).toOption.isSome)) = some (some .indexError, true) := by
  decide +kernel

end
end Sloth
