import Verif.Props.Results

/-!
# What reaches the numerical routines (C66, C67, C68, C71, C72)
-/

namespace Sloth
open PyS

section
variable {K : Type} [Field K] [LinearOrder K]

theorem dgetE_ok {V : Type} {d : Dict String V} {k : String} {v : V} : dgetE d k = .ok v ↔ dget d k = some v := by
  unfold dgetE
  cases dget d k <;> simp

/-! ## C66: the starting point -/

/-- The starting point for the unknowns: 1 for each if no guess is configured, and otherwise the number configured for each. -/
structure Spec.Start (names : List String) (d : Dict String Rat) (g : List K) : Prop where
  length : g.length = names.length
  default : d = [] → ∀ x ∈ g, x = 1
  given : d ≠ [] → ∀ (i : Nat) n, names[i]? = some n → ∃ q, dget d n = some q ∧ g[i]? = some (q : K)

theorem mapM_forall2 {α β : Type} {f : α → Except Err β} : ∀ {l : List α} {m : List β}, l.mapM f = .ok m ↔ List.Forall₂ (fun a b => f a = .ok b) l m
  | [], m => by
    rw [List.mapM_nil]
    constructor
    · intro h; cases h; exact .nil
    · intro h; cases h; rfl
  | a :: t, m => by
    rw [List.mapM_cons]
    constructor
    · intro h
      cases ha : f a with
      | error e => rw [ha] at h; cases h
      | ok b =>
        rw [ha] at h
        cases ht : t.mapM f with
        | error e => rw [ht] at h; cases h
        | ok u => rw [ht] at h; cases h; exact .cons ha (mapM_forall2.1 ht)
    · intro h
      cases h with
      | cons ha ht => rw [ha, mapM_forall2.2 ht]; rfl

theorem guess_start {names : List String} {d : Dict String Rat} {g : List K} (h : guess names (.nums d) = .ok g) : Spec.Start names d g := by
  cases d with
  | nil =>
    simp only [guess, Except.ok.injEq] at h
    subst h
    exact ⟨by simp, (fun _ x hx => by simp only [List.mem_map] at hx; obtain ⟨y, hy, e⟩ := hx; exact e.symm), fun h => absurd rfl h⟩
  | cons p t =>
    simp only [guess] at h
    have hf := mapM_forall2.1 h
    refine ⟨hf.length_eq.symm, (fun h => by cases h), fun _ i n hn => ?_⟩
    obtain ⟨hi, rfl⟩ := List.getElem?_eq_some_iff.1 hn
    have hi' : i < g.length := hf.length_eq ▸ hi
    have := hf.get hi hi'
    simp only [List.get_eq_getElem] at this
    cases hq : dgetE (p :: t) names[i] with
    | error e => rw [hq] at this; cases this
    | ok q =>
      rw [hq] at this
      refine ⟨q, dgetE_ok.1 hq, ?_⟩
      rw [List.getElem?_eq_getElem hi']
      exact congrArg some (Except.ok.inj this).symm

/-- What a library routine ends with when its questions are answered by `f`. -/
def Spec.outcome {Q A R : Type} (f : Q → Except Err A) : Prog Q A R → Except Err R
  | .ret r => .ok r
  | .fail e => .error e
  | .ask q k => match f q with
    | .ok a => Spec.outcome f (k a)
    | .error e => .error e

theorem run_outcome {Q A R : Type} (f : Q → Except Err A) (p : Prog Q A R) (s : SimWorld K) :
    p.run (fun q => lift (f q)) s = (Spec.outcome f p, s) := by
  induction p with
  | ret r => rfl
  | fail e => rfl
  | ask q k ih =>
    simp only [Prog.run, Spec.outcome, PyS.bind, lift]
    cases f q with
    | error e => rfl
    | ok a => exact ih a

/-- The method for improving the starting point that a setting names; `None` and unknown names are none. -/
def Spec.polisher : CVal → Option String
  | .str s => if s = "" ∨ s = "hybr" then some "hybr" else if s = "anderson" then some "anderson" else none
  | _ => none

/-- The starting point `g` improved by the root finder, if one is asked for and succeeds. -/
def Spec.Improved (ext : Ext K) (I : Interp K) (b : Block) (p : CVal) (g x : List K) : Prop :=
  match Spec.polisher p with
  | none => x = g
  | some m => Spec.outcome (b.asFunction I) (ext.root m g) = .ok (some x) ∨ (Spec.outcome (b.asFunction I) (ext.root m g) = .ok none ∧ x = g)

theorem polishRoot_eq {ext : Ext K} {I : Interp K} {b : Block} {g : List K} {p : CVal} {s : SimWorld K} (hb : s.w.pr.block = some b) (hne : p ≠ .none) :
    (∀ m, Spec.polisher p = some m →
      polishRoot ext I g p s = (Spec.outcome (b.asFunction I) (ext.root m g), { s with log := s.log ++ [.root] })) ∧
    (Spec.polisher p = none → polishRoot ext I g p s = (.ok none, s)) := by
  have key : ∀ (m : String), (do called Routine.root; (ext.root m g).run fun x => lift (b.asFunction I x) : PyS K (Option (List K))) s =
      (Spec.outcome (b.asFunction I) (ext.root m g), { s with log := s.log ++ [.root] }) := fun m => run_outcome _ _ _
  unfold polishRoot
  rw [bind_of_ok (getBlock_ok.2 ⟨hb, rfl⟩)]
  split
  · exact absurd rfl hne
  · refine ⟨fun m hm => ?_, fun h => by simp [Spec.polisher] at h⟩
    obtain rfl : "hybr" = m := by simpa [Spec.polisher] using hm
    exact key _
  · refine ⟨fun m hm => ?_, fun h => by simp [Spec.polisher] at h⟩
    obtain rfl : "hybr" = m := by simpa [Spec.polisher] using hm
    exact key _
  · refine ⟨fun m hm => ?_, fun h => by simp [Spec.polisher] at h⟩
    obtain rfl : "anderson" = m := by simpa [Spec.polisher] using hm
    exact key _
  · next h1 h2 h3 h4 =>
    have : Spec.polisher p = none := by
      cases p with
      | str t =>
        simp only [Spec.polisher]
        rw [if_neg, if_neg]
        · rintro rfl; exact h4 rfl
        · rintro (rfl | rfl)
          · exact h2 rfl
          · exact h3 rfl
      | _ => rfl
    exact ⟨(fun m hm => by rw [this] at hm; cases hm), fun _ => rfl⟩

theorem polished_ok {ext : Ext K} {I : Interp K} {b : Block} {g x : List K} {p : CVal} {s s' : SimWorld K} (hb : s.w.pr.block = some b)
    (h : polished ext I g p s = (.ok x, s')) : Spec.Improved ext I b p g x := by
  unfold Spec.Improved
  unfold polished at h
  split at h
  · simp only [Spec.polisher, PyS.pure, Prod.mk.injEq, Except.ok.injEq] at h ⊢; exact h.1.symm
  · next hne =>
    rw [bind_ok] at h
    obtain ⟨r, s1, hr, hx⟩ := h
    simp only [PyS.pure, Prod.mk.injEq, Except.ok.injEq] at hx
    obtain ⟨h1, h2⟩ := polishRoot_eq (ext := ext) (I := I) (g := g) hb hne
    cases hp : Spec.polisher p with
    | none =>
      rw [h2 hp] at hr
      cases hr
      exact hx.1.symm
    | some m =>
      rw [h1 m hp] at hr
      simp only [Prod.mk.injEq] at hr
      cases r with
      | none => exact .inr ⟨hr.1, hx.1.symm⟩
      | some y => exact .inl (by rw [hr.1]; simpa using hx.1)

/-- C66: a linear system is solved from the starting point configured. -/
theorem start_linear {ext : Ext K} {I : Interp K} {conf : Conf} {s s' : SimWorld K} {b : Block} (hb : s.w.pr.block = some b)
    (hn : b.varList.Nodup) {d : Dict String Rat} (hd : dget conf "initial_guess" = some (.nums d)) {out : Output K}
    (h : (SolverObj.la (some .symbolicsys)).solve ext I conf s = (.ok out, s')) :
    ∃ g x r, Spec.Start b.varList d g ∧ ext.symSys true b.varList b.equationsList g = .ok (x, true) ∧ out = .dict r ∧ Spec.Reports b.varList x r := by
  unfold SolverObj.solve laSolve laSymbolicMech at h
  simp only [bind_ok, getBlock_ok, lift_ok, PyS.pure, Prod.mk.injEq, Except.ok.injEq] at h
  obtain ⟨r, s0, ⟨b', s1, ⟨hb', rfl⟩, g, s2, ⟨hg, rfl⟩, x0, s3, ⟨hx0, rfl⟩, _, s6, _, ⟨x, f⟩, s7, ⟨hx, rfl⟩, hr, rfl⟩, rfl, rfl⟩ := h
  obtain rfl : b = b' := Option.some.inj (hb.symm.trans hb')
  rw [dgetE_ok, hd, Option.some.injEq] at hg
  subst hg
  obtain ⟨hf, rfl⟩ := report_ok hr
  simp only at hf; subst hf
  exact ⟨x0, x, _, guess_start hx0, hx, rfl, reports_zip hn x⟩

/-- C66: a nonlinear system is solved from the starting point configured, improved by the root finder if one is asked for and succeeds. -/
theorem start_nonlinear {ext : Ext K} {I : Interp K} {conf : Conf} {s s' : SimWorld K} {b : Block} (hb : s.w.pr.block = some b)
    (hn : b.varList.Nodup) {d : Dict String Rat} (hd : dget conf "initial_guess" = some (.nums d)) {p : CVal}
    (hp : dget conf "initial_guess_solver" = some p) {out : Output K}
    (h : (SolverObj.nla .symbolicsys).solve ext I conf s = (.ok out, s')) :
    ∃ g g' x r, Spec.Start b.varList d g ∧ Spec.Improved ext I b p g g' ∧ ext.symSys false b.varList b.equationsList g' = .ok (x, true) ∧
      out = .dict r ∧ Spec.Reports b.varList x r := by
  unfold SolverObj.solve nlaSolve nlaSymbolicMech at h
  simp only [bind_ok, getBlock_ok, lift_ok, PyS.pure, Prod.mk.injEq, Except.ok.injEq] at h
  obtain ⟨r, s0, ⟨b', s1, ⟨hb', rfl⟩, g, s2, ⟨hg, rfl⟩, x0, s3, ⟨hx0, rfl⟩, q, s4, ⟨hq, rfl⟩, x1, s5, hx1, _, s6, _, ⟨x, f⟩, s7, ⟨hx, rfl⟩, hr, rfl⟩, rfl, rfl⟩ := h
  obtain rfl : b = b' := Option.some.inj (hb.symm.trans hb')
  rw [dgetE_ok, hd, Option.some.injEq] at hg
  rw [dgetE_ok, hp, Option.some.injEq] at hq
  subst hg hq
  obtain ⟨hf, rfl⟩ := report_ok hr
  simp only at hf; subst hf
  exact ⟨x0, x1, x, _, guess_start hx0, polished_ok hb hx1, hx, rfl, reports_zip hn x⟩

/-- C66: a guess that misses an unknown is refused with `KeyError` before any routine is called. -/
theorem start_incomplete {ext : Ext K} {I : Interp K} {conf : Conf} {s : SimWorld K} {b : Block} (hb : s.w.pr.block = some b)
    {d : Dict String Rat} (hd : dget conf "initial_guess" = some (.nums d)) (hne : d ≠ []) {n : String} (hn : n ∈ b.varList) (hm : dget d n = none) :
    (SolverObj.la (some .symbolicsys)).solve ext I conf s = (.error .keyError, s) ∧
    (SolverObj.nla .symbolicsys).solve ext I conf s = (.error .keyError, s) := by
  have hg : guess b.varList (.nums d) = (.error .keyError : Except Err (List K)) := by
    cases d with
    | nil => exact absurd rfl hne
    | cons p t =>
      simp only [guess]
      generalize b.varList = l at hn
      induction l with
      | nil => simp at hn
      | cons a u ih =>
        rw [List.mapM_cons]
        cases hq : dget (p :: t) a with
        | none => simp [dgetE, hq, bind, Except.bind]
        | some q =>
          have : n ∈ u := by
            rcases List.mem_cons.1 hn with rfl | h
            · rw [hm] at hq; cases hq
            · exact h
          have := ih this
          simp only [bind, Except.bind] at this
          simp [dgetE, hq, bind, Except.bind] at this ⊢
          rw [this]
  constructor
  · have : laSymbolicMech ext conf s = (.error .keyError, s) := by
      unfold laSymbolicMech
      rw [bind_of_ok (getBlock_ok.2 ⟨hb, rfl⟩), bind_lift_ok (dgetE_ok.2 hd), bind_lift_error hg]
    show ((do let d ← laSymbolicMech ext conf; PyS.pure (Output.dict d) : PyS K _) s) = _
    rw [bind_of_error this]
  · have : nlaSymbolicMech ext I conf s = (.error .keyError, s) := by
      unfold nlaSymbolicMech
      rw [bind_of_ok (getBlock_ok.2 ⟨hb, rfl⟩), bind_lift_ok (dgetE_ok.2 hd), bind_lift_error hg]
    show ((do let d ← nlaSymbolicMech ext I conf; PyS.pure (Output.dict d) : PyS K _) s) = _
    rw [bind_of_error this]

/-! ## C71: the solver asked for -/

/-- The setting that names the solver. -/
def Spec.solverSetting : ProblemKind → String
  | .linear => "linear_solver"
  | .nonlinear => "nonlinear_solver"
  | .differential => "differential_solver"
  | .dae => "differential_algebraic_solver"

/-- The routine a name stands for. -/
def Spec.routine : ProblemKind → CVal → Option Routine
  | .linear, .none => some .sympySolve
  | .linear, .str s => if s = "sympy" then some .sympySolve else if s = "scipy" then some .linearSolve else if s = "symbolicsys" then some .symbolicSys else none
  | .nonlinear, .none => some .symbolicSys
  | .nonlinear, .str s => if s = "*" ∨ s = "symbolicsys" then some .symbolicSys else if s = "sympy" then some .sympySolve else none
  | .differential, .none => some .odeint
  | .differential, .str s => if s = "ODEINT" then some .odeint else if s = "CVODE" then some .cvode else none
  | .dae, .none => some .ida
  | .dae, .str s => if s = "IDA" then some .ida else none
  | _, _ => none

/-- The routines that are called in a run, in order. -/
def Spec.routines (k : ProblemKind) (v p : CVal) : Option (List Routine) :=
  (Spec.routine k v).map fun r => if k = .nonlinear ∧ r = .symbolicSys ∧ (Spec.polisher p).isSome then [.root, r] else [r]

/-- From this state `x` calls the routines `l` if it returns, and otherwise some first ones of them. -/
structure Calls {α : Type} (l : List Routine) (x : PyS K α) (s : SimWorld K) : Prop where
  any : ∃ l', l' <+: l ∧ (x s).2.log = s.log ++ l'
  ok : ∀ a s', x s = (.ok a, s') → s'.log = s.log ++ l

theorem Calls.quiet {α : Type} {x : PyS K α} (h : Keeps (fun s => s.log) x) (s : SimWorld K) : Calls [] x s := by
  refine ⟨⟨[], List.nil_prefix, by simpa using h s⟩, fun a s' hs => ?_⟩
  have := h s
  rw [hs] at this; simpa using this

theorem Calls.raise {α : Type} (l : List Routine) (e : Err) (s : SimWorld K) : Calls l (PyS.raise e : PyS K α) s :=
  ⟨⟨[], List.nil_prefix, by simp [PyS.raise]⟩, fun _ _ h => absurd h raise_ok⟩

theorem Calls.one (r : Routine) (s : SimWorld K) : Calls [r] (called r) s :=
  ⟨⟨[r], List.prefix_refl _, rfl⟩, fun a s' h => by simp only [called, PyS.modify, Prod.mk.injEq] at h; rw [← h.2]⟩

theorem Calls.bind {α β : Type} {l m : List Routine} {x : PyS K α} {f : α → PyS K β} {s : SimWorld K} (hx : Calls l x s)
    (hf : ∀ a s', x s = (.ok a, s') → Calls m (f a) s') : Calls (l ++ m) (x >>= f) s := by
  cases hxs : x s with
  | mk r s1 =>
    cases r with
    | error e =>
      refine ⟨?_, fun a s' h => ?_⟩
      · obtain ⟨l', hl, h'⟩ := hx.any
        rw [hxs] at h'
        exact ⟨l', hl.trans (List.prefix_append _ _), by rw [bind_of_error hxs]; exact h'⟩
      · rw [bind_of_error hxs] at h; cases h
    | ok a =>
      have h1 := hx.ok a s1 hxs
      have h2 := hf a s1 hxs
      refine ⟨?_, fun b s' h => ?_⟩
      · obtain ⟨m', hm, h'⟩ := h2.any
        refine ⟨l ++ m', (List.prefix_append_right_inj l).2 hm, ?_⟩
        rw [bind_of_ok hxs, h', h1, List.append_assoc]
      · rw [bind_of_ok hxs] at h
        rw [h2.ok b s' h, h1, List.append_assoc]

/-- Nothing is called before. -/
theorem Calls.after {α β : Type} {m : List Routine} {x : PyS K α} {f : α → PyS K β} {s : SimWorld K} (hx : Keeps (fun s => s.log) x)
    (hf : ∀ a s', x s = (.ok a, s') → Calls m (f a) s') : Calls m (x >>= f) s := by
  simpa using Calls.bind (Calls.quiet hx s) hf

/-- Nothing is called afterwards. -/
theorem Calls.before {α β : Type} {m : List Routine} {x : PyS K α} {f : α → PyS K β} {s : SimWorld K} (hx : Calls m x s)
    (hf : ∀ a, Keeps (fun s => s.log) (f a)) : Calls m (x >>= f) s := by
  simpa using Calls.bind hx (fun a s' _ => Calls.quiet (hf a) s')

theorem calls_pure {α β : Type} {m : List Routine} {x : PyS K α} {f : α → β} {s : SimWorld K} (hx : Calls m x s) :
    Calls m (do let a ← x; PyS.pure (f a)) s := hx.before fun _ => Keeps.pure _ _

theorem calls_sympy (ext : Ext K) (s : SimWorld K) : Calls [.sympySolve] (sympyMech ext) s :=
  Calls.after (Keeps.getBlock _) fun _ _ _ => (Calls.one _ _).before fun _ => Keeps.bind (Keeps.lift _ _) fun _ => Keeps.lift _ _

theorem calls_la (ext : Ext K) (conf : Conf) (v : CVal) (s : SimWorld K) {l : List Routine}
    (hl : ∀ r, Spec.routine .linear v = some r → l = [r]) : Calls l (laSolve ext conf (laLookUp v)) s := by
  unfold laLookUp
  split
  · rw [hl _ rfl]; exact calls_sympy ext s
  · rw [hl _ rfl]; exact calls_sympy ext s
  · rw [hl _ rfl]
    exact Calls.after (Keeps.getBlock _) fun _ _ _ => (Calls.one _ _).before fun _ => Keeps.bind (Keeps.lift _ _) fun _ => Keeps.pure _ _
  · rw [hl _ rfl]
    exact Calls.after (Keeps.getBlock _) fun _ _ _ => Calls.after (Keeps.lift _ _) fun _ _ _ => Calls.after (Keeps.lift _ _) fun _ _ _ =>
      (Calls.one _ _).before fun _ => Keeps.bind (Keeps.lift _ _) fun _ => Keeps.lift _ _
  · exact Calls.raise _ _ _

theorem calls_polished (ext : Ext K) (I : Interp K) (g : List K) (p : CVal) (s : SimWorld K) :
    Calls (if (Spec.polisher p).isSome then [.root] else []) (polished ext I g p) s := by
  by_cases hne : p = .none
  · subst hne; exact Calls.quiet (Keeps.pure _ _) s
  · have : polished ext I g p = (do let r ← polishRoot ext I g p; PyS.pure (r.getD g)) := by
      cases p <;> first | rfl | exact absurd rfl hne
    rw [this]
    refine calls_pure ?_
    cases hb : s.w.pr.block with
    | none =>
      have : polishRoot ext I g p s = (.error .attributeError, s) := by
        unfold polishRoot
        rw [bind_of_error (e := .attributeError) (s1 := s)]
        simp [getBlock, hb]
      exact ⟨⟨[], List.nil_prefix, by rw [this]; simp⟩, fun a s' h => by rw [this] at h; cases h⟩
    | some b =>
      obtain ⟨h1, h2⟩ := polishRoot_eq (ext := ext) (I := I) (g := g) hb hne
      cases hp : Spec.polisher p with
      | none => exact ⟨⟨[], List.nil_prefix, by rw [h2 hp]; simp⟩, fun a s' h => by rw [h2 hp] at h; cases h; simp⟩
      | some m =>
        refine ⟨⟨[.root], List.prefix_refl _, by rw [h1 m hp]⟩, fun a s' h => ?_⟩
        rw [h1 m hp, Prod.mk.injEq] at h
        rw [← h.2]; rfl

theorem calls_nlaSymbolic (ext : Ext K) (I : Interp K) (conf : Conf) (s : SimWorld K) {p : CVal} (hp : dget conf "initial_guess_solver" = some p) :
    Calls ((if (Spec.polisher p).isSome then [.root] else []) ++ [.symbolicSys]) (nlaSymbolicMech ext I conf) s := by
  refine Calls.after (Keeps.getBlock _) fun _ _ _ => Calls.after (Keeps.lift _ _) fun _ _ _ => Calls.after (Keeps.lift _ _) fun _ _ _ =>
    Calls.after (Keeps.lift _ _) fun q s' hq => ?_
  obtain rfl : p = q := by
    have := (lift_ok.1 hq).1
    rw [dgetE_ok, hp] at this; exact Option.some.inj this
  exact Calls.bind (calls_polished ext I _ _ _) fun _ _ _ => (Calls.one _ _).before fun _ => Keeps.bind (Keeps.lift _ _) fun _ => Keeps.lift _ _

theorem calls_nla (ext : Ext K) (I : Interp K) (conf : Conf) (s : SimWorld K) {p : CVal} (hp : dget conf "initial_guess_solver" = some p) {v : CVal} {m : Mech}
    (hm : nlaLookUp v = .ok m) : ∃ l, Spec.routines .nonlinear v p = some l ∧ Calls l (nlaSolve ext I conf m) s := by
  have hs : ∀ m, m ≠ .sympy → Spec.routine .nonlinear v = some .symbolicSys →
      ∃ l, Spec.routines .nonlinear v p = some l ∧ Calls l (nlaSolve ext I conf m) s := by
    intro m hm hr
    refine ⟨_, by rw [Spec.routines, hr]; rfl, ?_⟩
    have := calls_nlaSymbolic ext I conf s hp
    cases m with
    | sympy => exact absurd rfl hm
    | _ =>
      simp only [nlaSolve, true_and]
      split at this <;> simpa [*] using this
  unfold nlaLookUp at hm
  split at hm
  · cases hm; exact hs _ (by simp) rfl
  · cases hm; exact hs _ (by simp) (by simp [Spec.routine])
  · cases hm; exact hs _ (by simp) (by simp [Spec.routine])
  · cases hm; exact ⟨[.sympySolve], by simp [Spec.routines, Spec.routine], calls_sympy ext s⟩
  · cases hm

theorem keeps_log_rhs (ext : Ext K) (I : Interp K) (o : DObj) (q : List K × K) : Keeps (fun s : SimWorld K => s.log) (o.rhs ext I q.1 q.2) :=
  keeps_rhs (fun _ _ _ _ _ => rfl) ext I q.1 q.2

theorem calls_d (ext : Ext K) (I : Interp K) (conf : Conf) (o : DObj) (s : SimWorld K) {l : List Routine}
    (hl : ∀ r, Spec.routine .differential o.solver = some r → l = [r]) : Calls l (dSolve ext I conf o) s := by
  have hi : ∀ y0 tp s, Calls l (integrate ext I o y0 tp) s := by
    intro y0 tp s
    unfold integrate
    split
    · next h => rw [hl .odeint (by rw [h]; rfl)]; exact (Calls.one _ _).before fun _ => Keeps.bind (Keeps.prog (fun q => keeps_log_rhs ext I o q) _) fun _ => Keeps.pure _ _
    · next h => rw [hl .odeint (by rw [h]; rfl)]; exact (Calls.one _ _).before fun _ => Keeps.bind (Keeps.prog (fun q => keeps_log_rhs ext I o q) _) fun _ => Keeps.pure _ _
    · next h => rw [hl .cvode (by rw [h]; simp [Spec.routine])]; exact (Calls.one _ _).before fun _ => Keeps.prog (fun q => keeps_log_rhs ext I o q) _
    · exact Calls.raise _ _ _
  exact Calls.after (Keeps.lift _ _) fun _ _ _ => Calls.after (Keeps.lift _ _) fun _ _ _ => Calls.after (Keeps.lift _ _) fun _ _ _ =>
    Calls.after (Keeps.lift _ _) fun _ _ _ => Calls.after (Keeps.lift _ _) fun _ _ _ => Calls.after (Keeps.get _) fun _ _ _ =>
    Calls.after (Keeps.lift _ _) fun _ _ _ => Calls.after (Keeps.lift _ _) fun _ _ _ => Calls.after (Keeps.when (Keeps.raise _ _)) fun _ _ _ =>
    Calls.after (Keeps.lift _ _) fun _ _ _ => (hi _ _ _).before fun _ => Keeps.bind (Keeps.lift _ _) fun _ =>
    Keeps.bind (Keeps.lift _ _) fun _ => Keeps.bind (keeps_record (fun _ _ => rfl) _ _ _) fun _ => Keeps.pure _ _

theorem calls_dae (ext : Ext K) (I : Interp K) (conf : Conf) (o : DaeObj) (s : SimWorld K) {l : List Routine}
    (hl : ∀ r, Spec.routine .dae o.solver = some r → l = [r]) : Calls l (daeSolve ext I conf o) s := by
  have hi : ∀ fl y0 yd0 tp s, Calls l (integrateDae ext I conf o fl y0 yd0 tp) s := by
    intro fl y0 yd0 tp s
    unfold integrateDae
    split
    · next h =>
      rw [hl .ida (by rcases h with h | h <;> rw [h] <;> simp [Spec.routine])]
      exact Calls.after (Keeps.lift _ _) fun _ _ _ => Calls.after (Keeps.lift _ _) fun _ _ _ => Calls.after (Keeps.lift _ _) fun _ _ _ =>
        (Calls.one _ _).before fun _ => Keeps.prog (fun _ => Keeps.lift _ _) _
    · exact Calls.raise _ _ _
  exact Calls.after (Keeps.lift _ _) fun _ _ _ => Calls.after (Keeps.lift _ _) fun _ _ _ => Calls.after (Keeps.lift _ _) fun _ _ _ =>
    Calls.after (Keeps.lift _ _) fun _ _ _ => Calls.after (Keeps.when (Keeps.raise _ _)) fun _ _ _ => Calls.after (Keeps.lift _ _) fun _ _ _ =>
    Calls.after (Keeps.get _) fun _ _ _ => Calls.after (Keeps.getBlock _) fun _ _ _ => Calls.after (Keeps.lift _ _) fun _ _ _ =>
    Calls.after (Keeps.lift _ _) fun _ _ _ => Calls.after (Keeps.lift _ _) fun _ _ _ => (hi _ _ _ _ _).before fun _ =>
    Keeps.bind (Keeps.lift _ _) fun _ => Keeps.bind (Keeps.lift _ _) fun _ => Keeps.bind (keeps_record (fun _ _ => rfl) _ _ _) fun _ => Keeps.pure _ _

/-- A created solver calls the routines of its name, if it is known. -/
theorem calls_created {ext : Ext K} {I : Interp K} {conf : Conf} {s s' : SimWorld K} {sv : SolverObj} (h : createSolver ext conf s = (.ok sv, s'))
    {b : Block} (hb : s.w.pr.block = some b) {k : ProblemKind} (hk : b.problemType = some k) {v p : CVal}
    (hv : dget conf (Spec.solverSetting k) = some v) (hp : dget conf "initial_guess_solver" = some p) (t : SimWorld K) {l : List Routine}
    (hl : ∀ l', Spec.routines k v p = some l' → l = l') : Calls l (sv.solve ext I conf) t := by
  unfold createSolver at h
  simp only [bind_ok, lift_ok, getBlock_ok] at h
  obtain ⟨lin, s1, ⟨h1, rfl⟩, non, s2, ⟨h2, rfl⟩, dif, s3, ⟨h3, rfl⟩, dae, s4, ⟨h4, rfl⟩, b', s5, ⟨hb', rfl⟩, h⟩ := h
  obtain rfl : b = b' := Option.some.inj (hb.symm.trans hb')
  rw [hk] at h
  cases k with
  | linear =>
    obtain rfl : v = lin := by rw [dgetE_ok] at h1; exact Option.some.inj (hv.symm.trans h1)
    simp only [solverFor, PyS.pure, Prod.mk.injEq, Except.ok.injEq] at h
    obtain ⟨rfl, _⟩ := h
    exact calls_pure (calls_la ext conf v t fun r hr => hl _ (by simp [Spec.routines, hr]))
  | nonlinear =>
    obtain rfl : v = non := by rw [dgetE_ok] at h2; exact Option.some.inj (hv.symm.trans h2)
    simp only [solverFor, bind_ok, lift_ok, PyS.pure, Prod.mk.injEq, Except.ok.injEq] at h
    obtain ⟨m, _, ⟨hm, rfl⟩, rfl, _⟩ := h
    obtain ⟨l', hl', hc⟩ := calls_nla ext I conf t hp hm
    rw [hl l' hl']
    exact calls_pure hc
  | differential =>
    obtain rfl : v = dif := by rw [dgetE_ok] at h3; exact Option.some.inj (hv.symm.trans h3)
    simp only [solverFor, bind_ok, PyS.pure, Prod.mk.injEq, Except.ok.injEq] at h
    obtain ⟨o, _, ho, rfl, _⟩ := h
    have hov : o.solver = v := by
      unfold dInit at ho
      simp only [bind_ok, PyS.pure, Prod.mk.injEq, Except.ok.injEq] at ho
      obtain ⟨_, _, _, _, _, _, _, _, _, _, _, _, _, _, _, _, _, _, _, _, _, _, _, _, _, _, _, _, _, _, _, _, _, _, _, _, _, _, _, rfl, _⟩ := ho
      rfl
    exact calls_d ext I conf o t fun r hr => hl _ (by rw [hov] at hr; simp [Spec.routines, hr])
  | dae =>
    obtain rfl : v = dae := by rw [dgetE_ok] at h4; exact Option.some.inj (hv.symm.trans h4)
    simp only [solverFor, bind_ok, PyS.pure, Prod.mk.injEq, Except.ok.injEq] at h
    obtain ⟨o, _, ho, rfl, _⟩ := h
    have hov : o.solver = v := by
      unfold daeInit at ho
      simp only [bind_ok, PyS.pure, Prod.mk.injEq, Except.ok.injEq] at ho
      obtain ⟨_, _, _, _, _, _, _, _, _, _, _, _, _, _, _, _, _, _, _, _, _, _, _, _, _, _, _, _, _, _, rfl, _⟩ := ho
      rfl
    exact calls_dae ext I conf o t fun r hr => hl _ (by rw [hov] at hr; simp [Spec.routines, hr])

theorem routines_prefix {k : ProblemKind} {v p : CVal} {l : List Routine} (h : Spec.routines k v p = some l) : l ≠ [] := by
  obtain ⟨r, _, rfl⟩ := Option.map_eq_some_iff.1 h
  split <;> simp

/-- C71: a run calls the routine that the setting for the kind of the problem names, preceded by the root finder if a better starting point is asked
for, and no other; when it raises, at most the first ones of these. -/
theorem solver_asked_for {ext : Ext K} {I : Interp K} {i : SRef} {a : RunArgs} {s : SimWorld K} {o : SimObj K} {c : Conf} (ho : s.sims[i]? = some o)
    (hc : o.conf = some c) {b : Block} (hb : s.w.pr.block = some b) {k : ProblemKind} (hk : b.problemType = some k) {v p : CVal}
    (hv : dget c (Spec.solverSetting k) = some v) (hp : dget c "initial_guess_solver" = some p) {l : List Routine}
    (hl : ∀ l', Spec.routines k v p = some l' → l = l') : Calls l (runSimulation ext I i a) s := by
  unfold runSimulation
  refine Calls.after (Keeps.getSim _ _) fun o' s1 h1 => ?_
  rw [getSim_ok] at h1
  obtain ⟨h1, rfl⟩ := h1
  obtain rfl : o = o' := Option.some.inj (ho.symm.trans h1)
  refine Calls.after (Keeps.lift _ _) fun c' s2 h2 => ?_
  rw [lift_ok, hc] at h2
  obtain ⟨h2, rfl⟩ := h2
  obtain rfl := Except.ok.inj h2
  refine Calls.after (Keeps.lift _ _) fun pt s3 h3 => Calls.after (Keeps.lift _ _) fun n s4 h4 => Calls.after (Keeps.askKind _ _) fun b' s5 h5 =>
    Calls.after (Keeps.when (Keeps.raise _ _)) fun _ s6 h6 => ?_
  obtain ⟨_, rfl⟩ := lift_ok.1 h3
  obtain ⟨_, rfl⟩ := lift_ok.1 h4
  obtain rfl := askKind_same h5
  have h6 : s6 = s5 := by
    rcases when_ok.1 h6 with ⟨_, h⟩ | ⟨_, h⟩
    · exact absurd h raise_ok
    · exact h
  subst h6
  refine Calls.after (keeps_createSolver (fun _ _ => rfl) (fun _ _ _ _ => rfl) _ _) fun sv s7 h7 => ?_
  refine Calls.after (keeps_sanity _ _ _) fun _ s8 _ => ?_
  refine Calls.before ?_ fun _ => keeps_epilogue (fun _ _ _ _ => rfl) _ _ _
  exact (calls_created h7 hb hk hv hp s8 hl).before fun _ => Keeps.bind (Keeps.getSim _ _) fun _ => Keeps.bind (Keeps.modify fun _ => rfl) fun _ =>
    Keeps.bind (Keeps.lift _ _) fun _ => Keeps.bind (Keeps.getSim _ _) fun _ => Keeps.modify fun _ => rfl

/-- C71: a name that stands for no routine is refused, and no routine is called. -/
theorem unknown_solver_refused {ext : Ext K} {I : Interp K} {i : SRef} {a : RunArgs} {s : SimWorld K} {o : SimObj K} {c : Conf} (ho : s.sims[i]? = some o)
    (hc : o.conf = some c) {b : Block} (hb : s.w.pr.block = some b) {k : ProblemKind} (hk : b.problemType = some k) {v p : CVal}
    (hv : dget c (Spec.solverSetting k) = some v) (hp : dget c "initial_guess_solver" = some p) (hn : Spec.routine k v = none) :
    (∃ e, (runSimulation ext I i a s).1 = .error e) ∧ (runSimulation ext I i a s).2.log = s.log := by
  have hno : ∀ l : List Routine, ∀ l', Spec.routines k v p = some l' → l = l' := fun l l' h => by simp [Spec.routines, hn] at h
  have h0 := solver_asked_for (ext := ext) (I := I) (a := a) ho hc hb hk hv hp (hno [])
  have h1 := solver_asked_for (ext := ext) (I := I) (a := a) ho hc hb hk hv hp (hno [.root])
  refine ⟨?_, ?_⟩
  · cases h : runSimulation ext I i a s with
    | mk r s' =>
      cases r with
      | error e => exact ⟨e, rfl⟩
      | ok u =>
        have := (h0.ok u s' h).symm.trans (h1.ok u s' h)
        simp at this
  · obtain ⟨l', hl, h⟩ := h0.any
    rw [List.prefix_nil.1 hl] at h
    simpa using h

/-! ## C67: time has to have an initial value -/

/-- The names of time in a setting. -/
def Spec.timeNames : CVal → List String
  | .str s => [s]
  | .names l => l
  | _ => []

theorem runs_class {ext : Ext K} {I : Interp K} {i : SRef} {a : RunArgs} {s s' : SimWorld K} (h : runSimulation ext I i a s = (.ok (), s')) :
    ∃ o c b k sv s1, s.sims[i]? = some o ∧ o.conf = some c ∧ s.w.pr.block = some b ∧ b.problemType = some k ∧ createSolver ext c s = (.ok sv, s1) := by
  obtain ⟨o, c, pt, b, sv, s1, s2, s3, ho, hc, hpt, hb, hsv, _⟩ := run_parts h
  obtain ⟨b', k, hb', hk, _⟩ := createSolver_kind hsv
  obtain rfl : b = b' := Option.some.inj (hb.symm.trans hb')
  exact ⟨o, c, b, k, sv, s1, ho, hc, hb, hk, hsv⟩

/-- A solver is only created if each name of time configured has an initial value. -/
theorem created_initial_time {ext : Ext K} {c : Conf} {s s1 : SimWorld K} {sv : SolverObj} (hsv : createSolver ext c s = (.ok sv, s1)) {b : Block}
    (hb : s.w.pr.block = some b) (hk : b.problemType = some .differential ∨ b.problemType = some .dae) :
    ∃ v, dget c "time_variable_name" = some v ∧ ((∃ n, v = .str n) ∨ (b.problemType = some .differential ∧ ∃ l, v = .names l)) ∧
      ∀ n ∈ Spec.timeNames v, ∃ q, dget s.w.pr.initial n = some q := by
  unfold createSolver at hsv
  simp only [bind_ok, lift_ok, getBlock_ok] at hsv
  obtain ⟨lin, s1, ⟨h1, rfl⟩, non, s2, ⟨h2, rfl⟩, dif, s3, ⟨h3, rfl⟩, dae, s4, ⟨h4, rfl⟩, b', s5, ⟨hb', rfl⟩, hsv⟩ := hsv
  obtain rfl : b = b' := Option.some.inj (hb.symm.trans hb')
  have hstr : ∀ {v : CVal}, hasInitial s5.w.pr.initial v = .ok true → (∃ n, v = .str n) ∧ ∀ n ∈ Spec.timeNames v, ∃ q, dget s5.w.pr.initial n = some q := by
    intro v hv
    cases v with
    | str n =>
      refine ⟨⟨n, rfl⟩, fun m hm => ?_⟩
      obtain rfl : m = n := by simpa [Spec.timeNames] using hm
      simpa [hasInitial, Option.isSome_iff_exists] using hv
    | _ => simp [hasInitial] at hv
  rcases hk with hk | hk
  · rw [hk] at hsv
    simp only [solverFor, bind_ok] at hsv
    obtain ⟨d, s6, hd, _⟩ := hsv
    unfold dInit at hd
    simp only [bind_ok, lift_ok] at hd
    obtain ⟨_, _, ⟨_, rfl⟩, _, _, ⟨_, rfl⟩, v, _, ⟨hv, rfl⟩, _, _, ⟨_, rfl⟩, st, _, hg, has, _, ⟨hh, rfl⟩, _, _, hw, _⟩ := hd
    simp only [PyS.get, Prod.mk.injEq, Except.ok.injEq] at hg
    obtain ⟨rfl, rfl⟩ := hg
    have hht : has = true := by
      rcases when_ok.1 hw with ⟨_, h⟩ | ⟨h, _⟩
      · exact absurd h raise_ok
      · simpa using h
    subst hht
    refine ⟨v, dgetE_ok.1 hv, ?_⟩
    cases v with
    | names l =>
      refine ⟨.inr ⟨hk, l, rfl⟩, fun n hn => ?_⟩
      simp only [hasInitialAll, Except.ok.injEq, List.all_eq_true, Option.isSome_iff_exists] at hh
      exact hh n hn
    | _ =>
      simp only [hasInitialAll] at hh
      obtain ⟨h1, h2⟩ := hstr hh
      exact ⟨.inl h1, h2⟩
  · rw [hk] at hsv
    simp only [solverFor, bind_ok] at hsv
    obtain ⟨d, s6, hd, _⟩ := hsv
    unfold daeInit at hd
    simp only [bind_ok, lift_ok] at hd
    obtain ⟨_, _, ⟨_, rfl⟩, v, _, ⟨hv, rfl⟩, _, _, ⟨_, rfl⟩, st, _, hg, has, _, ⟨hh, rfl⟩, _, _, hw, _⟩ := hd
    simp only [PyS.get, Prod.mk.injEq, Except.ok.injEq] at hg
    obtain ⟨rfl, rfl⟩ := hg
    have hht : has = true := by
      rcases when_ok.1 hw with ⟨_, h⟩ | ⟨h, _⟩
      · exact absurd h raise_ok
      · simpa using h
    subst hht
    obtain ⟨h1, h2⟩ := hstr hh
    exact ⟨v, dgetE_ok.1 hv, .inl h1, h2⟩

/-- C67: a differential problem only runs if each name of time configured has an initial value; an implicit one only if a single name is
configured, and it has one. -/
theorem run_needs_initial_time {ext : Ext K} {I : Interp K} {i : SRef} {a : RunArgs} {s s' : SimWorld K} (h : runSimulation ext I i a s = (.ok (), s'))
    {o : SimObj K} {c : Conf} (ho : s.sims[i]? = some o) (hc : o.conf = some c) {b : Block} (hb : s.w.pr.block = some b)
    (hk : b.problemType = some .differential ∨ b.problemType = some .dae) :
    ∃ v, dget c "time_variable_name" = some v ∧ ((∃ n, v = .str n) ∨ (b.problemType = some .differential ∧ ∃ l, v = .names l)) ∧
      ∀ n ∈ Spec.timeNames v, ∃ q, dget s.w.pr.initial n = some q := by
  obtain ⟨o', c', b', k, sv, s1, ho', hc', hb', hk', hsv⟩ := runs_class h
  obtain rfl : o = o' := Option.some.inj (ho.symm.trans ho')
  obtain rfl : c = c' := Option.some.inj (hc.symm.trans hc')
  obtain rfl : b = b' := Option.some.inj (hb.symm.trans hb')
  exact created_initial_time hsv hb hk

/-- Every setting is there, as after `setConfigurations` without a file. -/
def Spec.complete (c : Conf) : Prop := ∀ k ∈ dkeys confDefaults, ∃ v, dget c k = some v

/-- C67: without an initial value for time the run raises `AbsentRequiredObjectError` and changes nothing. -/
theorem initial_time_missing {ext : Ext K} {I : Interp K} {i : SRef} {a : RunArgs} {s : SimWorld K} {o : SimObj K} {c : Conf} (ho : s.sims[i]? = some o)
    (hc : o.conf = some c) (hcc : Spec.complete c) {b : Block} (hb : s.w.pr.block = some b) {k : ProblemKind} (hk : b.problemType = some k)
    (hpt : dget c "problem_type" = some .none) {v : CVal} (hv : dget c "time_variable_name" = some v)
    (hm : (k = .differential ∧ ∃ n ∈ Spec.timeNames v, dget s.w.pr.initial n = none) ∨ (k = .dae ∧ ∃ n, v = .str n ∧ dget s.w.pr.initial n = none)) :
    runSimulation ext I i a s = (.error .absentRequiredObject, s) := by
  have key : ∀ k ∈ dkeys confDefaults, ∃ v, dgetE c k = .ok v := fun k hk => (hcc k hk).imp fun v h => dgetE_ok.2 h
  have hcs : createSolver ext c s = (.error .absentRequiredObject, s) := by
    obtain ⟨_, h1⟩ := key "linear_solver" (by decide)
    obtain ⟨_, h2⟩ := key "nonlinear_solver" (by decide)
    obtain ⟨_, h3⟩ := key "differential_solver" (by decide)
    obtain ⟨_, h4⟩ := key "differential_algebraic_solver" (by decide)
    obtain ⟨_, h5⟩ := key "domain" (by decide)
    obtain ⟨_, h6⟩ := key "times_for_solution" (by decide)
    obtain ⟨_, h7⟩ := key "arg_names" (by decide)
    unfold createSolver
    rw [bind_lift_ok h1, bind_lift_ok h2, bind_lift_ok h3, bind_lift_ok h4, bind_of_ok (getBlock_ok.2 ⟨hb, rfl⟩), hk]
    rcases hm with ⟨rfl, n, hn, hm⟩ | ⟨rfl, n, rfl, hm⟩
    · have hh : hasInitialAll s.w.pr.initial v = .ok false := by
        cases v with
        | str m =>
          obtain rfl : n = m := by simpa [Spec.timeNames] using hn
          simp [hasInitialAll, hasInitial, hm]
        | names l =>
          have hn' : n ∈ l := hn
          simp only [hasInitialAll, Except.ok.injEq, List.all_eq_false]
          exact ⟨n, hn', by simp [hm]⟩
        | _ => simp [Spec.timeNames] at hn
      simp only [solverFor]
      refine bind_of_error ?_
      unfold dInit
      rw [bind_lift_ok h5, bind_lift_ok h6, bind_lift_ok (dgetE_ok.2 hv), bind_lift_ok h7, bind_get, bind_lift_ok hh, Bool.not_false, bind_when_raise]
    · have hh : hasInitial s.w.pr.initial (.str n) = .ok false := by simp [hasInitial, hm]
      simp only [solverFor]
      refine bind_of_error ?_
      unfold daeInit
      rw [bind_lift_ok h5, bind_lift_ok (dgetE_ok.2 hv), bind_lift_ok h7, bind_get, bind_lift_ok hh, Bool.not_false, bind_when_raise]
  obtain ⟨_, h8⟩ := key "number_parameters_to_optimize" (by decide)
  unfold runSimulation
  rw [bind_of_ok (getSim_ok.2 ⟨ho, rfl⟩), hc, bind_lift_ok rfl, bind_lift_ok (dgetE_ok.2 hpt), bind_lift_ok h8, ask_run hb, hk]
  show (when false _ >>= _) s = _
  rw [bind_when_false, bind_of_error hcs]

/-- C67 fails for implicit systems whose name of time comes from the problem: it is a list then, and the run raises `TypeError`. -/
theorem dae_time_from_problem {ext : Ext K} {I : Interp K} {i : SRef} {a : RunArgs} {s : SimWorld K} {o : SimObj K} {c : Conf} (ho : s.sims[i]? = some o)
    (hc : o.conf = some c) {kw : Conf} {l : List String} (htn : s.w.pr.timeName = some l) (hkw : DNodup kw)
    (hconf : configure s.w.pr.timeName kw none none = .ok c) (hdyn : dget kw "is_dynamic" = some (.bool true)) (ht : dget kw "time_variable_name" = none)
    {b : Block} (hb : s.w.pr.block = some b) (hk : b.problemType = some .dae) : ∃ e, (runSimulation ext I i a s).1 = .error e := by
  cases h : runSimulation ext I i a s with
  | mk r s' =>
    cases r with
    | error e => exact ⟨e, rfl⟩
    | ok u =>
      exfalso
      obtain ⟨v, hv, hv', _⟩ := run_needs_initial_time h ho hc hb (.inr hk)
      have := settings_from_args hkw hconf "time_variable_name"
      rw [if_pos ⟨rfl, .inl ht, hdyn⟩, htn, hv] at this
      obtain rfl := Option.some.inj this
      rcases hv' with ⟨n, hn⟩ | ⟨hd, _⟩
      · cases hn
      · rw [hk] at hd; cases hd

/-! ## C72: the list of argument names -/

theorem appendArg_ok {tvn c : CVal} {s s' : SimWorld K} {u : Unit} (h : appendArg tvn c s = (.ok u, s')) :
    ∃ r l, c = .argNames r ∧ s.lists[r]? = some l ∧ s'.lists = s.lists.set r (if tvn ∈ l then l else l ++ [tvn]) := by
  cases c with
  | argNames r =>
    simp only [appendArg, bind_ok] at h
    obtain ⟨l, s1, hl, hw⟩ := h
    have hl' : s.lists[r]? = some l ∧ s1 = s := by
      unfold getL at hl
      split at hl
      · next h => simp only [Prod.mk.injEq, Except.ok.injEq] at hl; exact ⟨hl.1 ▸ h, hl.2.symm⟩
      · simp at hl
    obtain ⟨hl', rfl⟩ := hl'
    refine ⟨r, l, rfl, hl', ?_⟩
    rcases when_ok.1 hw with ⟨hc, h⟩ | ⟨hc, rfl⟩
    · simp only [setL, PyS.modify, Prod.mk.injEq, true_and] at h
      rw [if_neg (by simpa using hc), ← h]
    · rw [if_pos (by simpa using hc)]
      exact (set_same hl').symm
  | _ => simp only [appendArg] at h; exact absurd h raise_ok

/-- C72: a dynamic run puts the name of time into the list given as `arg_names`, once, and changes no other list. -/
theorem arg_names_after {ext : Ext K} {I : Interp K} {i : SRef} {a : RunArgs} {s s' : SimWorld K} (h : runSimulation ext I i a s = (.ok (), s'))
    {o : SimObj K} {c : Conf} (ho : s.sims[i]? = some o) (hc : o.conf = some c) {b : Block} (hb : s.w.pr.block = some b)
    (hk : b.problemType = some .differential ∨ b.problemType = some .dae) :
    ∃ v r l, dget c "time_variable_name" = some v ∧ dget c "arg_names" = some (.argNames r) ∧ s.lists[r]? = some l ∧
      s'.lists = s.lists.set r (if v ∈ l then l else l ++ [v]) := by
  obtain ⟨o', c', pt, b', sv, s1, s2, s3, ho', hc', hpt, hb', hsv, hsan, hst, hep⟩ := run_parts h
  obtain rfl : o = o' := Option.some.inj (ho.symm.trans ho')
  obtain rfl : c = c' := Option.some.inj (hc.symm.trans hc')
  obtain rfl : b = b' := Option.some.inj (hb.symm.trans hb')
  have e1 : s2.lists = s1.lists := by
    have := keeps_sanity (fun s => s.lists) ext a.sanity s1
    rw [hsan] at this; exact this
  have e2 : s3.lists = s2.lists := by
    have := keeps_solveStore (f := fun s : SimWorld K => s.lists) (sv := sv) (i := i) (fun _ _ => rfl) (fun _ _ => rfl) (fun _ _ _ _ _ => rfl)
      (fun _ _ _ _ => rfl) (fun _ _ _ _ => rfl) ext I c s2
    rw [hst] at this; exact this
  have e3 : s'.lists = s3.lists := by
    have := keeps_epilogue (f := fun s : SimWorld K => s.lists) (i := i) (fun _ _ _ _ => rfl) pt a.showMsg a.showResiduals s3
    rw [hep] at this; exact this
  rw [e3, e2, e1]
  clear e1 e2 e3 hep hst hsan
  unfold createSolver at hsv
  simp only [bind_ok, lift_ok, getBlock_ok] at hsv
  obtain ⟨lin, _, ⟨h1, rfl⟩, non, _, ⟨h2, rfl⟩, dif, _, ⟨h3, rfl⟩, dae, _, ⟨h4, rfl⟩, b', s5, ⟨hb', rfl⟩, hsv⟩ := hsv
  obtain rfl : b = b' := Option.some.inj (hb.symm.trans hb')
  rcases hk with hk | hk
  · rw [hk] at hsv
    simp only [solverFor, bind_ok] at hsv
    obtain ⟨d, s6, hd, hp⟩ := hsv
    simp only [PyS.pure, Prod.mk.injEq] at hp
    obtain ⟨_, rfl⟩ := hp
    unfold dInit at hd
    simp only [bind_ok, lift_ok] at hd
    obtain ⟨_, _, ⟨_, rfl⟩, _, _, ⟨_, rfl⟩, v, _, ⟨hv, rfl⟩, args, _, ⟨ha, rfl⟩, st, _, hg, has, _, ⟨_, rfl⟩, _, s7, hw, _, s8, happ, b2, _, hb2, _, _, ⟨_, rfl⟩,
      _, _, ⟨_, rfl⟩, cc, _, ⟨_, rfl⟩, f, s9, hf, hfin⟩ := hd
    simp only [PyS.get, Prod.mk.injEq, Except.ok.injEq] at hg
    obtain ⟨rfl, rfl⟩ := hg
    rcases when_ok.1 hw with ⟨_, h⟩ | ⟨_, rfl⟩
    · exact absurd h raise_ok
    obtain ⟨r, l, rfl, hl, hs⟩ := appendArg_ok happ
    obtain ⟨_, rfl⟩ := getBlock_ok.1 hb2
    have e := congrArg (fun x => x.2.lists) hf
    rw [show (compileIf cc b2 _).2.lists = _ from keeps_compileIf (fun s : SimWorld K => s.lists) cc b2 _] at e
    refine ⟨v, r, l, dgetE_ok.1 hv, dgetE_ok.1 ha, hl, ?_⟩
    simp only [PyS.pure, Prod.mk.injEq] at hfin
    rw [← hfin.2, ← hs]; exact e.symm
  · rw [hk] at hsv
    simp only [solverFor, bind_ok] at hsv
    obtain ⟨d, s6, hd, hp⟩ := hsv
    simp only [PyS.pure, Prod.mk.injEq] at hp
    obtain ⟨_, rfl⟩ := hp
    unfold daeInit at hd
    simp only [bind_ok, lift_ok] at hd
    obtain ⟨_, _, ⟨_, rfl⟩, v, _, ⟨hv, rfl⟩, args, _, ⟨ha, rfl⟩, st, _, hg, has, _, ⟨_, rfl⟩, _, s7, hw, _, s8, happ, _, s9, hds, _, _, ⟨_, rfl⟩,
      _, _, ⟨_, rfl⟩, hfin⟩ := hd
    simp only [PyS.get, Prod.mk.injEq, Except.ok.injEq] at hg
    obtain ⟨rfl, rfl⟩ := hg
    rcases when_ok.1 hw with ⟨_, h⟩ | ⟨_, rfl⟩
    · exact absurd h raise_ok
    obtain ⟨r, l, rfl, hl, hs⟩ := appendArg_ok happ
    have e := keeps_daeSystem (K := K) (f := fun s : SimWorld K => s.lists) (fun _ _ _ _ => rfl) s8
    rw [hds] at e
    simp only at e
    refine ⟨v, r, l, dgetE_ok.1 hv, dgetE_ok.1 ha, hl, ?_⟩
    simp only [PyS.pure, Prod.mk.injEq] at hfin
    rw [← hfin.2, e, hs]

/-! ## C68: initial values of implicit systems -/

/-- The initial values for the names. -/
def Spec.Initial (init : Dict String Rat) (names : List String) (y : List K) : Prop :=
  List.Forall₂ (fun n x => ∃ q, dget init n = some q ∧ x = (q : K)) names y

theorem initial_of_mapM {init : Dict String Rat} {f : String → String} {names : List String} {y : List Rat}
    (h : names.mapM (fun v => dgetE init (f v)) = .ok y) : Spec.Initial init (names.map f) (y.map fun (q : Rat) => (q : K)) := by
  have := mapM_forall2.1 h
  unfold Spec.Initial
  rw [List.forall₂_map_left_iff, List.forall₂_map_right_iff]
  exact this.imp fun a b h => ⟨b, dgetE_ok.1 h, rfl⟩

/-- The library run with a function that may raise. -/
def Prog.exec {Q A R : Type} (f : Q → Except Err A) : Prog Q A R → Except Err R
  | .ret r => .ok r
  | .fail e => .error e
  | .ask q k => match f q with
    | .ok a => (k a).exec f
    | .error e => .error e

theorem run_exec {Q A R : Type} (f : Q → Except Err A) (p : Prog Q A R) (s : SimWorld K) : p.run (fun q => lift (f q)) s = (p.exec f, s) := by
  induction p with
  | ret r => rfl
  | fail e => rfl
  | ask q k ih =>
    unfold Prog.run Prog.exec PyS.bind lift
    cases h : f q with
    | ok a => exact ih a
    | error e => rfl

theorem dkeys_dofList {α β : Type} [DecidableEq α] (l : List (α × β)) : dkeys (dofList l) = (l.map Prod.fst).eraseDups := by
  suffices h : ∀ d : Dict α β, dkeys (dupdate d l) = dkeys d ++ ((l.map Prod.fst).filter fun n => !(dkeys d).contains n).eraseDups by
    simpa [dofList] using h []
  induction l with
  | nil => simp [dupdate]
  | cons p t ih =>
    intro d
    have e : dupdate d (p :: t) = dupdate (dset d p.1 p.2) t := rfl
    rw [e, ih, dkeys_dset]
    by_cases h : p.1 ∈ dkeys d
    · simp [h]
    · rw [if_neg h, List.map_cons, List.filter_cons_of_pos (by simpa using h), List.eraseDups_cons, List.filter_filter, List.append_assoc, List.singleton_append]
      congr 3
      refine List.filter_congr fun x _ => ?_
      by_cases hx : x = p.1
      · subst hx; simp
      · simp [hx]

theorem zipIdx_fst {α β : Type} (l : List α) (f : Nat → β) : (l.zipIdx.map fun p => (p.1, f p.2)).map Prod.fst = l := by
  rw [List.map_map]
  exact List.zipIdx_map_fst 0 l

theorem dkeys_yMap (l : List String) : dkeys (yMap l) = l.eraseDups := by rw [yMap, dkeys_dofList, zipIdx_fst l fun i => Sym.var (yName i)]

theorem dkeys_ydMap (l : List Sym) : dkeys (ydMap l) = l.eraseDups := by rw [ydMap, dkeys_dofList, zipIdx_fst l fun i => Sym.var (ydName i)]

/-- The derivatives of the equations: the parts with derivatives, as SymPy finds them in the residual of each equation, one after the other. -/
def Spec.Derivatives (terms : Sym → List Sym) (es : List EqObj) (l : List ERef) (ds : List Sym) : Prop :=
  ∃ rs : List SObj, List.Forall₂ (fun r s => ∃ e, es[r]? = some e ∧ e.symbolicObject (some .residual) .rhs = .ok s ∧ s.isPy = false) l rs ∧
    ds = rs.flatMap fun s => terms s.expr

theorem diffList_ok {terms : Sym → List Sym} {es : List EqObj} {l : List ERef} {ds : List Sym} :
    diffList terms es l = .ok ds ↔ Spec.Derivatives terms es l ds := by
  induction l generalizing ds with
  | nil =>
    unfold diffList Spec.Derivatives
    simp only [Except.ok.injEq, List.forall₂_nil_left_iff, exists_eq_left, List.flatMap_nil]
    exact eq_comm
  | cons r t ih =>
    unfold diffList
    constructor
    · intro h
      cases he : es[r]? with
      | none => rw [he] at h; cases h
      | some e =>
        simp only [he] at h
        cases hs : e.symbolicObject (some .residual) .rhs with
        | error x => rw [hs] at h; cases h
        | ok s =>
          simp only [hs, ok_bind] at h
          split at h
          · cases h
          · next hp =>
            cases hl : diffList terms es t with
            | error x => rw [hl] at h; cases h
            | ok l =>
              rw [hl] at h
              obtain ⟨rs, h1, h2⟩ := ih.1 hl
              cases h
              exact ⟨s :: rs, .cons ⟨e, he, hs, by simpa using hp⟩ h1, by rw [List.flatMap_cons, ← h2]⟩
    · rintro ⟨rs, h1, rfl⟩
      cases h1 with
      | cons h1 h2 =>
        obtain ⟨e, he, hs, hp⟩ := h1
        simp only [he, hs, ok_bind, hp, ih.2 ⟨_, h2, rfl⟩]
        rfl

/-- The initial values of the derivatives are kept under the names of the functions with `_d`. -/
def Spec.InitialRates (arg0 : Sym → String) (init : Dict String Rat) (ds : List Sym) (yd : List K) : Prop :=
  List.Forall₂ (fun d x => ∃ n q, ((∃ v t, d = .atom (.d v t) ∧ n = v) ∨ ((∀ a, d ≠ .atom a) ∧ (∀ a, d ≠ .num a) ∧ n = arg0 d)) ∧
    dget init (n ++ "_d") = some q ∧ x = (q : K)) ds yd

theorem initialRates_of_mapM {ext : Ext K} {init : Dict String Rat} {ds : List Sym} {yd : List Rat} (h : ds.mapM (initialRate ext init) = .ok yd) :
    Spec.InitialRates ext.arg0 init ds (yd.map fun (q : Rat) => (q : K)) := by
  have := mapM_forall2.1 h
  unfold Spec.InitialRates
  rw [List.forall₂_map_right_iff]
  refine this.imp fun d q h => ?_
  unfold initialRate at h
  cases hn : derivName ext d with
  | error e => rw [hn] at h; cases h
  | ok n =>
    rw [hn] at h
    refine ⟨n, q, ?_, dgetE_ok.1 h, rfl⟩
    unfold derivName at hn
    split at hn
    · cases hn; exact .inl ⟨_, _, rfl, rfl⟩
    · cases hn
    · cases hn
    · next h1 h2 h3 =>
      cases hn
      refine .inr ⟨fun a ha => ?_, fun a ha => h3 a ha, rfl⟩
      cases a with
      | v n => exact h2 n ha
      | d x t => exact h1 x t ha

/-- C68: when the solver of implicit systems returns, its result is that of the integrator, asking for the residuals compiled when the solver was
made, started from the initial values of the unknowns, and from the initial values of the derivatives, kept under the names with `_d`, with a 0 appended, at
equally spaced times, and with a flag for every equation. -/
theorem dae_initial_values {ext : Ext K} {I : Interp K} {conf : Conf} {o : DaeObj} {s s' : SimWorld K} {b : Block} (hb : s.w.pr.block = some b) {out : Output K}
    (h : daeSolve ext I conf o s = (.ok out, s')) :
    ∃ ds t0 t1 n y0 yd0 ts Y, Spec.Derivatives ext.diffTerms s.w.es b.differential ds ∧
      dget conf "initial_time" = some (.num t0) ∧ dget conf "end_time" = some (.num t1) ∧ dget conf "number_of_time_steps" = some (.num n) ∧
      Spec.Initial s.w.pr.initial b.varList.eraseDups y0 ∧ Spec.InitialRates ext.arg0 s.w.pr.initial ds.eraseDups yd0 ∧
      (ext.ida (b.equations.map fun r => if (s.w.es[r]?.bind EqObj.type) = some .differential then 1 else 0) y0 (yd0 ++ [0])
        ((List.range (n.num.toNat + 1)).map fun (i : Nat) => (t0 : K) + (i : K) * (((t1 : K) - (t0 : K)) / (n.num.toNat : K)))).exec
          (fun q => residualAt I o.compiled q.1 q.2.1 q.2.2) = .ok (ts, Y) ∧
      out = .series ts Y := by
  unfold daeSolve at h
  simp only [bind_ok, lift_ok] at h
  obtain ⟨_, _, ⟨_, rfl⟩, a, _, ⟨ha, rfl⟩, e, _, ⟨he, rfl⟩, n, s0, ⟨hn, rfl⟩, _, s1, hw, tp, _, ⟨htp, rfl⟩, st, s2, hst, bl, s3, hbl, ds, _, ⟨hds, rfl⟩,
    y0, _, ⟨hy0, rfl⟩, yd0, s4, ⟨hyd0, rfl⟩, r, s5, hr, rows, _, ⟨_, rfl⟩, _, _, ⟨_, rfl⟩, _, s6, _, hout⟩ := h
  simp only [PyS.get, Prod.mk.injEq, Except.ok.injEq] at hst
  obtain ⟨rfl, rfl⟩ := hst
  obtain ⟨hbl, rfl⟩ := getBlock_ok.1 hbl
  rcases when_ok.1 hw with ⟨_, h⟩ | ⟨_, rfl⟩
  · exact absurd h raise_ok
  obtain rfl : b = bl := Option.some.inj (hb.symm.trans hbl)
  simp only [PyS.pure, Prod.mk.injEq, Except.ok.injEq] at hout
  unfold integrateDae at hr
  split at hr
  · simp only [bind_ok, lift_ok] at hr
    obtain ⟨_, _, ⟨_, rfl⟩, _, _, ⟨_, rfl⟩, _, _, ⟨_, rfl⟩, _, s7, hc, hi⟩ := hr
    rw [run_exec, Prod.mk.injEq] at hi
    have hi := hi.1
    unfold timePoints at htp
    split at htp
    · split at htp
      · simp only [Except.ok.injEq] at htp
        rw [← htp] at hi
        rw [dkeys_yMap] at hy0
        rw [dkeys_ydMap] at hyd0
        have h1 := initial_of_mapM (K := K) (f := id) hy0
        rw [List.map_id] at h1
        exact ⟨ds, _, _, _, _, _, _, _, diffList_ok.1 hds, dgetE_ok.1 ha, dgetE_ok.1 he, dgetE_ok.1 hn, h1, initialRates_of_mapM hyd0, hi, hout.1.symm⟩
      · cases htp
    · simp_all
    · cases htp
  · exact absurd hr raise_ok

end

namespace Ex
/-- Libraries that show what they are given: algebraic solvers return their starting point, one of the root finders adds 1 and the other fails, the
integrator of implicit systems returns its initial vectors. -/
def echo : Ext Rat := { ext with
  symSys := fun _ _ _ g => .ok (g, true)
  root := fun m g => if m = "hybr" then .ask g fun _ => .ret (some (g.map (· + 1))) else .ret none
  diffTerms := fun _ => [.atom (.d "z_m" "t_m")]
  ida := fun _ y0 yd0 tp => .ret (tp, tp.map fun _ => y0 ++ yd0) }
/-- What the simulations hold. -/
def outputs (ops : List (SOp Rat)) : List (Option (Output Rat)) := (simHistory echo ratI ops).sims.map SimObj.output
/-- A run of the nonlinear sample. -/
def algRun (kw : Conf) : List (SOp Rat) := alg.map .base ++ [.base .resolve, .newSim "s", .configure 0 kw none none, .run 0 {}]
/-- The sample with algebraic and differential equations; its parameter has a value. -/
def daeP : List Op := dae.take 6 ++ [.setValue 4 (.float 2) none] ++ dae.drop 6
/-- A run of that sample. -/
def daeRun (init : Dict String Rat) (kw : Conf) : List (SOp Rat) := daeP.map .base ++ [.base (.initial init), .base .resolve, .newDomain "d" ["t"]] ++
  (["a", "b", "c", "d", "e", "f"].map fun s => .domain 0 (.distribute s)) ++ [.newSim "s", .configure 0 (dupdate dyn kw) none none,
  .run 0 { sanity := false, showMsg := false, showResiduals := false }]
/-- A guess for both unknowns. -/
def start57 : Conf := [("initial_guess", .nums [("x_m", 5), ("y_m", 7)])]
/-- Initial values for the sample. -/
def daeInit : Dict String Rat := [("x_m", 5), ("y_m", 7), ("z_m", 9), ("t_m", 0), ("p_m", 3), ("z_m_d", 2)]
end Ex

/-- The starting point reaches the solver: as given, 1 by default, improved, and not improved because the root finder fails or is unknown. -/
example : Ex.outputs (Ex.linRun Ex.start57) = [some (.dict [("y_m", 7), ("x_m", 5)])] ∧
    Ex.outputs (Ex.linRun []) = [some (.dict [("y_m", 1), ("x_m", 1)])] ∧
    Ex.outputs (Ex.algRun (Ex.start57 ++ [("initial_guess_solver", .str "")])) = [some (.dict [("x_m", 6), ("y_m", 8)])] ∧
    Ex.outputs (Ex.algRun (Ex.start57 ++ [("initial_guess_solver", .str "anderson")])) = [some (.dict [("x_m", 5), ("y_m", 7)])] ∧
    Ex.outputs (Ex.algRun (Ex.start57 ++ [("initial_guess_solver", .str "hydr")])) = [some (.dict [("x_m", 5), ("y_m", 7)])] ∧
    Ex.outputs (Ex.linRun [("initial_guess", .nums [("x_m", 5)])]) = [none] := by
  decide +kernel

/-- The routines called. -/
example : (simHistory Ex.echo Ex.ratI (Ex.algRun (Ex.start57 ++ [("initial_guess_solver", .str "hybr")]))).log = [.root, .symbolicSys] ∧
    (simHistory Ex.echo Ex.ratI (Ex.algRun [])).log = [.symbolicSys] ∧
    (simHistory Ex.echo Ex.ratI (Ex.algRun [("nonlinear_solver", .str "sympy")])).log = [.sympySolve] ∧
    (simHistory Ex.echo Ex.ratI (Ex.algRun [("nonlinear_solver", .str "newton")])).log = [] ∧
    (simHistory Ex.echo Ex.ratI (Ex.linRun [("linear_solver", .str "gauss")])).log = [] ∧
    (simHistory Ex.echo Ex.ratI (Ex.odeRun Ex.ode (dset Ex.dyn "differential_solver" (.str "CVODE")) {})).log = [.cvode] ∧
    (simHistory Ex.echo Ex.ratI (Ex.daeRun Ex.daeInit [("time_variable_name", .str "t_m")])).log = [.ida] := by
  decide +kernel

/-- A list given as argument names, after two runs. -/
example : (simHistory Ex.echo Ex.ratI ([.newList [.str "a"]] ++ Ex.odeRun Ex.ode (dset Ex.dyn "arg_names" (.argNames 1)) {} ++
    [.reset 0, .run 0 {}])).lists = [[], [.str "a", .names ["t_m"]]] ∧
    (simHistory Ex.echo Ex.ratI ([.newList [.str "a"]] ++ Ex.odeRun Ex.ode (dset Ex.dyn "arg_names" (.argNames 1)) {} ++
    [.reset 0, .run 0 {}])).log = [.odeint, .odeint] := by
  decide +kernel

/-- The initial vectors of the implicit system. -/
example : Ex.outputs (Ex.daeRun Ex.daeInit [("time_variable_name", .str "t_m")]) =
    [some (.series [0, 1 / 2, 1] [[5, 7, 9, 0, 2, 0], [5, 7, 9, 0, 2, 0], [5, 7, 9, 0, 2, 0]])] ∧
    -- the name of time taken from the problem: `TypeError`
    Ex.outputs (Ex.daeRun Ex.daeInit []) = [none] ∧
    -- no initial value for time
    Ex.outputs (Ex.daeRun (Ex.daeInit.filter fun p => p.1 ≠ "t_m") [("time_variable_name", .str "t_m")]) = [none] := by
  decide +kernel

/-- A differential problem without an initial value for time. -/
example : let s := simHistory Ex.ext Ex.ratI ((Ex.odeRun (Ex.ode.map fun o => match o with
      | .initial _ => .initial [("x_m", 1)]
      | o => o) Ex.dyn {}).dropLast)
    (s.w.pr.block.bind Block.problemType) = some .differential ∧ (s.sims[0]?.bind SimObj.conf).isSome ∧
    (((s.sims[0]?.bind SimObj.conf).bind fun c => dget c "time_variable_name") = some (.names ["t_m"])) ∧ dget s.w.pr.initial "t_m" = none ∧
    ((s.sims[0]?.bind SimObj.conf).map fun c => (dkeys confDefaults).all fun k => (dget c k).isSome) = some true ∧
    (runSimulation Ex.ext Ex.ratI 0 {} s).1.toOption = none := by
  decide +kernel

end Sloth
