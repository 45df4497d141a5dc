import Verif.Props.Odes
import Verif.Props.Reports

/-!
# Printing while running (C85)

A dynamic run can be asked to print its solution (`print_output`).  The table is built before the solution is kept.
-/

namespace Sloth
open PyS

section
variable {K : Type} [Field K] [LinearOrder K]

/-! ## Headers that cannot be used -/

/-- Headers a table can have: a list of different texts. -/
def Spec.Headers (v : CVal) (hs : List String) : Prop := v = .names hs ∧ hs.Nodup

/-- The call raises, and `f` of the state is as before. -/
def Loses {α τ : Type} (f : SimWorld K → τ) (x : PyS K α) : Prop := ∀ s, (∃ e, (x s).1 = .error e) ∧ f (x s).2 = f s

theorem Loses.after {α β τ : Type} {f : SimWorld K → τ} {x : PyS K α} {g : α → PyS K β} (hx : Keeps f x) (hg : ∀ a, Loses f (g a)) :
    Loses f (x >>= g) := by
  intro s
  have h := hx s
  cases hr : x s with
  | mk r s1 =>
    rw [hr] at h
    cases r with
    | error e => rw [bind_of_error hr]; exact ⟨⟨e, rfl⟩, h⟩
    | ok a => rw [bind_of_ok hr]; exact ⟨(hg a s1).1, (hg a s1).2.trans h⟩

theorem Loses.before {α β τ : Type} {f : SimWorld K → τ} {x : PyS K α} {g : α → PyS K β} (hx : Loses f x) : Loses f (x >>= g) := by
  intro s
  obtain ⟨⟨e, he⟩, h⟩ := hx s
  cases hr : x s with
  | mk r s1 =>
    rw [hr] at h he
    simp only at he
    subst he
    rw [bind_of_error hr]; exact ⟨⟨e, rfl⟩, h⟩

theorem Loses.lift {α τ : Type} (f : SimWorld K → τ) {x : Except Err α} (h : ∃ e, x = .error e) : Loses f (PyS.lift x) := fun _ => ⟨h, rfl⟩

theorem printTable_fails {conf : Conf} {p v : CVal} (hp : dget conf "print_output" = some p) (ht : p.isTrue = true)
    (hv : dget conf "output_headers" = some v) (hn : ∀ hs, ¬ Spec.Headers v hs) (t : List K) (y : List (List K)) : ∃ e, printTable conf t y = .error e := by
  have h1 : dgetE conf "print_output" = .ok p := dgetE_ok.2 hp
  have h2 : dgetE conf "output_headers" = .ok v := dgetE_ok.2 hv
  simp only [printTable, h1, h2, ok_bind, ht, if_true]
  have : ∃ e, showHeaders v = .error e := by
    cases v with
    | names l =>
      have hl : ¬ l.Nodup := fun h => hn l ⟨rfl, h⟩
      exact ⟨_, by simp only [showHeaders, if_neg hl]; rfl⟩
    | _ => exact ⟨_, rfl⟩
  obtain ⟨e, he⟩ := this
  exact ⟨e, by rw [he]; rfl⟩

/-- C85 fails: a dynamic run that is asked to print but has no usable headers (by default there are none) does all the work, then raises, and keeps
nothing: neither the domain nor the simulation has the solution. -/
theorem printing_loses_results {ext : Ext K} {I : Interp K} {i : SRef} {a : RunArgs} {s : SimWorld K} {o : SimObj K} {c : Conf}
    (ho : s.sims[i]? = some o) (hc : o.conf = some c) {b : Block} (hb : s.w.pr.block = some b)
    (hk : b.problemType = some .differential ∨ b.problemType = some .dae) {p v : CVal} (hp : dget c "print_output" = some p) (ht : Spec.Yes p)
    (hv : dget c "output_headers" = some v) (hn : ∀ hs, ¬ Spec.Headers v hs) :
    (∃ e, (runSimulation ext I i a s).1 = .error e) ∧ (runSimulation ext I i a s).2.doms = s.doms ∧ (runSimulation ext I i a s).2.sims = s.sims := by
  let f : SimWorld K → List (DomainObj K) × List (SimObj K) := fun s => (s.doms, s.sims)
  have hfail := fun t y => printTable_fails (K := K) hp (yes_iff.mpr ht) hv hn t y
  have hd : ∀ od : DObj, Loses f (dSolve ext I c od) := by
    intro od
    unfold dSolve
    exact Loses.after (Keeps.lift _ _) fun _ => Loses.after (Keeps.lift _ _) fun _ => Loses.after (Keeps.lift _ _) fun _ =>
      Loses.after (Keeps.lift _ _) fun _ => Loses.after (Keeps.lift _ _) fun _ => Loses.after (Keeps.get _) fun _ =>
      Loses.after (Keeps.lift _ _) fun _ => Loses.after (Keeps.lift _ _) fun _ => Loses.after (Keeps.when (Keeps.raise _ _)) fun _ =>
      Loses.after (Keeps.lift _ _) fun _ => Loses.after (keeps_integrate (fun _ _ => rfl) (fun _ _ _ _ _ => rfl) _ _ _ _) fun _ =>
      Loses.after (Keeps.lift _ _) fun _ => Loses.before (Loses.lift _ (hfail _ _))
  have hdae : ∀ od : DaeObj, Loses f (daeSolve ext I c od) := by
    intro od
    unfold daeSolve
    refine Loses.after (Keeps.lift _ _) fun _ => Loses.after (Keeps.lift _ _) fun _ => Loses.after (Keeps.lift _ _) fun _ =>
      Loses.after (Keeps.lift _ _) fun _ => Loses.after (Keeps.when (Keeps.raise _ _)) fun _ => Loses.after (Keeps.lift _ _) fun _ =>
      Loses.after (Keeps.get _) fun _ => Loses.after (Keeps.getBlock _) fun _ => Loses.after (Keeps.lift _ _) fun _ =>
      Loses.after (Keeps.lift _ _) fun _ => Loses.after (Keeps.lift _ _) fun _ => Loses.after ?_ fun _ => Loses.after (Keeps.lift _ _) fun _ =>
      Loses.before (Loses.lift _ (hfail _ _))
    unfold integrateDae
    split
    · exact Keeps.bind (Keeps.lift _ _) fun _ => Keeps.bind (Keeps.lift _ _) fun _ => Keeps.bind (Keeps.lift _ _) fun _ =>
        Keeps.bind (keeps_called (fun _ _ => rfl) _) fun _ => Keeps.prog (fun _ => Keeps.lift _ _) _
    · exact Keeps.raise _ _
  have hcs : Keeps f (createSolver ext c) := keeps_createSolver (fun _ _ => rfl) (fun _ _ _ _ => rfl) ext c
  have key : ∀ (pt : CVal), ∀ s, s.w.pr.block = some b →
      (∃ e, ((do let sv ← createSolver ext c; Sloth.sanity ext a.sanity; solveStore ext I i c sv; epilogue i pt a.showMsg a.showResiduals : PyS K Unit) s).1
        = .error e) ∧
      f ((do let sv ← createSolver ext c; Sloth.sanity ext a.sanity; solveStore ext I i c sv; epilogue i pt a.showMsg a.showResiduals : PyS K Unit) s).2
        = f s := by
    intro pt s hb
    have h := hcs s
    cases hr : createSolver ext c s with
    | mk r s1 =>
      rw [hr] at h
      cases r with
      | error e => rw [bind_of_error hr]; exact ⟨⟨e, rfl⟩, h⟩
      | ok sv =>
        rw [bind_of_ok hr]
        have hsv : Loses f (sv.solve ext I c) := by
          have hr' := hr
          unfold createSolver at hr'
          simp only [bind_ok, lift_ok, getBlock_ok] at hr'
          obtain ⟨lin, _, ⟨_, rfl⟩, non, _, ⟨_, rfl⟩, dif, _, ⟨_, rfl⟩, dae, _, ⟨_, rfl⟩, b2, t, ⟨hb2, q⟩, hsv⟩ := hr'
          obtain rfl := q.symm
          obtain rfl : b = b2 := Option.some.inj (hb.symm.trans hb2)
          rcases hk with hk | hk <;> rw [hk] at hsv <;> simp only [solverFor, bind_ok, PyS.pure, Prod.mk.injEq, Except.ok.injEq] at hsv <;>
            obtain ⟨od, s1', _, rfl, rfl⟩ := hsv
          · exact hd od
          · exact hdae od
        have := (Loses.after (g := fun _ : Unit => (do solveStore ext I i c sv; epilogue i pt a.showMsg a.showResiduals : PyS K Unit))
          (keeps_sanity f ext a.sanity) fun _ => Loses.before (f := f) (x := solveStore ext I i c sv) (by
            unfold solveStore; exact Loses.before hsv)) s1
        exact ⟨this.1, this.2.trans h⟩
  unfold runSimulation
  rw [bind_of_ok (getSim_ok.2 ⟨ho, rfl⟩), hc, bind_lift_ok (a := c) rfl]
  have fin : ∀ (x : Except Err Unit × SimWorld K), ((∃ e, x.1 = .error e) ∧ f x.2 = f s) → (∃ e, x.1 = .error e) ∧ x.2.doms = s.doms ∧ x.2.sims = s.sims :=
    fun x h => ⟨h.1, congrArg Prod.fst h.2, congrArg Prod.snd h.2⟩
  apply fin
  cases h1 : dgetE c "problem_type" with
  | error e => rw [bind_of_error (by rw [PyS.lift])]; exact ⟨⟨e, rfl⟩, rfl⟩
  | ok pt =>
    rw [bind_lift_ok rfl]
    cases h2 : dgetE c "number_parameters_to_optimize" with
    | error e => rw [bind_of_error (by rw [PyS.lift])]; exact ⟨⟨e, rfl⟩, rfl⟩
    | ok n =>
      rw [bind_lift_ok rfl, ask_run hb]
      cases hrun : runnable pt b.problemType with
      | false => rw [Bool.not_false, bind_when_raise]; exact ⟨⟨_, rfl⟩, rfl⟩
      | true => rw [Bool.not_true, bind_when_false]; exact key pt s hb

/-! ## Headers that fit -/

/-- The configuration with another answer to whether to print. -/
def Spec.printing (v : CVal) (conf : Conf) : Conf := dset conf "print_output" v

theorem dgetE_printing (v : CVal) (conf : Conf) {k : String} (h : k ≠ "print_output") : dgetE (Spec.printing v conf) k = dgetE conf k := by
  simp only [dgetE, Spec.printing, dget_dset_ne _ _ (Ne.symm h)]

theorem readKeys_printing (v : CVal) (conf : Conf) {l : List String} (h : "print_output" ∉ l) : readKeys (Spec.printing v conf) l = readKeys conf l := by
  simp only [readKeys]
  have : (l.mapM fun k => dgetE (Spec.printing v conf) k) = l.mapM fun k => dgetE conf k := by
    induction l with
    | nil => rfl
    | cons k t ih =>
      rw [List.mapM_cons, List.mapM_cons, dgetE_printing v conf (fun hk => h (hk ▸ List.mem_cons_self)), ih fun hk => h (List.mem_cons_of_mem _ hk)]
  rw [this]

theorem record_printing (v : CVal) (conf : Conf) (dom : CVal) (rows : List (List K)) : record (Spec.printing v conf) dom rows = record conf dom rows := by
  unfold record
  rw [dgetE_printing v conf (by decide)]

theorem dSolve_printing {ext : Ext K} {I : Interp K} {conf : Conf} {o : DObj} {s s' : SimWorld K} {out : Output K} {v : CVal}
    (h : dSolve ext I conf o s = (.ok out, s'))
    (hp : ∀ t y, out = .series t y → t.length = y.length → printTable conf t y = .ok () → printTable (Spec.printing v conf) t y = .ok ()) :
    dSolve ext I (Spec.printing v conf) o s = (.ok out, s') := by
  unfold dSolve at h ⊢
  rw [readKeys_printing v conf (by decide), dgetE_printing v conf (by decide), dgetE_printing v conf (by decide), dgetE_printing v conf (by decide),
    dgetE_printing v conf (by decide)]
  simp only [record_printing]
  simp only [bind_ok] at h ⊢
  obtain ⟨_, t1, q1, a, t2, q2, e, t3, q3, n, t4, q4, ts, t5, q5, sg, s3, hget, names, t6, q6, y0, t7, q7, _, s4, hwh, tp, t8, q8, r, s5, hint, rows, t9, hrows,
    _, t10, hpr, _, s6, hrec, hout⟩ := h
  have hpr' := (lift_ok.1 hpr)
  have hlen : r.1.length = r.2.length := by
    have := (lift_ok.1 hrows).1
    unfold hstack at this
    split at this
    · assumption
    · cases this
  have ho : out = .series r.1 r.2 := by
    simp only [PyS.pure, Prod.mk.injEq, Except.ok.injEq] at hout
    exact hout.1.symm
  exact ⟨_, t1, q1, a, t2, q2, e, t3, q3, n, t4, q4, ts, t5, q5, sg, s3, hget, names, t6, q6, y0, t7, q7, _, s4, hwh, tp, t8, q8, r, s5, hint, rows, t9, hrows,
    _, t10, lift_ok.2 ⟨hp _ _ ho hlen hpr'.1, hpr'.2⟩, _, s6, hrec, hout⟩

theorem integrateDae_printing {ext : Ext K} {I : Interp K} {conf : Conf} {o : DaeObj} {v : CVal} (flags y0 yd0 tp : List K) :
    integrateDae ext I (Spec.printing v conf) o flags y0 yd0 tp = integrateDae ext I conf o flags y0 yd0 tp := by
  unfold integrateDae
  rw [dgetE_printing v conf (by decide)]

theorem daeSolve_printing {ext : Ext K} {I : Interp K} {conf : Conf} {o : DaeObj} {s s' : SimWorld K} {out : Output K} {v : CVal}
    (h : daeSolve ext I conf o s = (.ok out, s'))
    (hp : ∀ t t' y, out = .series t y → t'.length = y.length → printTable conf t' y = .ok () → printTable (Spec.printing v conf) t' y = .ok ()) :
    daeSolve ext I (Spec.printing v conf) o s = (.ok out, s') := by
  unfold daeSolve at h ⊢
  rw [readKeys_printing v conf (by decide), dgetE_printing v conf (by decide), dgetE_printing v conf (by decide), dgetE_printing v conf (by decide)]
  simp only [record_printing, integrateDae_printing]
  simp only [bind_ok] at h ⊢
  obtain ⟨_, t1, q1, a, t2, q2, e, t3, q3, n, t4, q4, _, s4, hwh, tp, t5, q5, sg, s3, hget, bl, t6, q6, ds, t7, q7, y0, t8, q8, yd0, t9, q9, r, s5, hint, rows, t10, hrows,
    _, t11, hpr, _, s6, hrec, hout⟩ := h
  have hpr' := (lift_ok.1 hpr)
  have hlen : tp.length = r.2.length := by
    have := (lift_ok.1 hrows).1
    unfold hstack at this
    split at this
    · assumption
    · cases this
  have ho : out = .series r.1 r.2 := by
    simp only [PyS.pure, Prod.mk.injEq, Except.ok.injEq] at hout
    exact hout.1.symm
  exact ⟨_, t1, q1, a, t2, q2, e, t3, q3, n, t4, q4, _, s4, hwh, tp, t5, q5, sg, s3, hget, bl, t6, q6, ds, t7, q7, y0, t8, q8, yd0, t9, q9, r, s5, hint, rows, t10, hrows,
    _, t11, lift_ok.2 ⟨hp _ _ _ ho hlen hpr'.1, hpr'.2⟩, _, s6, hrec, hout⟩

theorem printTable_quiet {conf : Conf} {v : CVal} (hv : v.isTrue = false) (t : List K) (y : List (List K)) : printTable (Spec.printing v conf) t y = .ok () := by
  have h1 : dgetE (Spec.printing v conf) "print_output" = .ok v := dgetE_ok.2 (dget_dset_self _ _ _)
  simp [printTable, h1, ok_bind, hv]

theorem printTable_fits {conf : Conf} {v w : CVal} {hs : List String} (hw : dget conf "output_headers" = some w) (hh : Spec.Headers w hs) {t : List K}
    {y : List (List K)} (hl : t.length = y.length) (hy : ∀ r ∈ y, r.length + 1 = hs.length) : printTable (Spec.printing v conf) t y = .ok () := by
  cases hv : v.isTrue with
  | false => exact printTable_quiet hv t y
  | true =>
    have h1 : dgetE (Spec.printing v conf) "print_output" = .ok v := dgetE_ok.2 (dget_dset_self _ _ _)
    have h2 : dgetE (Spec.printing v conf) "output_headers" = .ok w := by rw [dgetE_printing v conf (by decide)]; exact dgetE_ok.2 hw
    obtain ⟨rfl, hn⟩ := hh
    simp only [printTable, h1, h2, ok_bind, hv, if_true, showHeaders, if_pos hn]
    rw [showRows_ok (by omega) (fun r hr => Or.inr (hy r hr))]
    rfl

/-- C85 (partial): with a list of different headers, one for time and one per state, a dynamic solver that is asked to print computes and keeps
exactly what it does when it is not asked.  Missing: headers that do not fit (`printing_loses_results`). -/
theorem printing_harmless_partial {ext : Ext K} {I : Interp K} {conf : Conf} {sv : SolverObj} {s s' : SimWorld K} {t : List K} {y : List (List K)}
    (hk : (∃ o, sv = .d o) ∨ ∃ o, sv = .dae o) (h : sv.solve ext I conf s = (.ok (.series t y), s')) {w : CVal} {hs : List String}
    (hw : dget conf "output_headers" = some w) (hh : Spec.Headers w hs) (hy : ∀ r ∈ y, r.length + 1 = hs.length) (v : CVal) :
    sv.solve ext I (Spec.printing v conf) s = (.ok (.series t y), s') := by
  rcases hk with ⟨o, rfl⟩ | ⟨o, rfl⟩
  · refine dSolve_printing h fun t' y' ho hl _ => ?_
    cases ho
    exact printTable_fits hw hh hl hy
  · refine daeSolve_printing h fun t' t'' y' ho hl _ => ?_
    cases ho
    exact printTable_fits hw hh hl hy

/-- C85 (partial), the other direction: a dynamic solver that returns whatever it is asked to print computes and keeps the same without printing. -/
theorem quiet_run_same {ext : Ext K} {I : Interp K} {conf : Conf} {sv : SolverObj} {s s' : SimWorld K} {out : Output K}
    (hk : (∃ o, sv = .d o) ∨ ∃ o, sv = .dae o) (h : sv.solve ext I conf s = (.ok out, s')) {v : CVal} (hv : ¬ Spec.Yes v) :
    sv.solve ext I (Spec.printing v conf) s = (.ok out, s') := by
  rcases hk with ⟨o, rfl⟩ | ⟨o, rfl⟩
  · exact dSolve_printing h fun t' y' _ _ _ => printTable_quiet (no_iff.mpr hv) _ _
  · exact daeSolve_printing h fun t' t'' y' _ _ _ => printTable_quiet (no_iff.mpr hv) _ _

end

/-! ## Samples -/

/-- The system `dx/dt = x*y`, `dy/dt = y*t`, configured with the settings and run. -/
def Ex.printed (c : Conf) : List (SOp Rat) :=
  (Ex.pair ++ [Op.resolve]).map .base ++ [.newDomain "d" ["t"], .domain 0 (.distribute "x"), .domain 0 (.distribute "y"), .newSim "s",
    .configure 0 (c ++ Ex.dyn) none none]

/-- What a run leaves in the simulation and in the domain. -/
structure Ex.Left where
  err : Option Err
  outputs : List (Option (Output Rat))
  tables : List (List (List (List Rat)))
  deriving DecidableEq

def Ex.leaves (c : Conf) : Ex.Left :=
  let r := runSimulation Ex.ext Ex.ratI 0 {} (simHistory Ex.ext Ex.ratI (Ex.printed c))
  ⟨match r.1 with | .error e => some e | .ok _ => none, r.2.sims.map (·.output), r.2.doms.map fun d => (dvalues (d.values.getD [])).map (·.rows)⟩

/-- Not printing; printing without headers; with a header too few; with repeated headers; with fitting ones. -/
example : Ex.leaves [] = ⟨none, [some (.series [0, 1/2, 1] [[1, 2], [2, 2], [3, 2]])], [[[[0, 1, 2], [1/2, 2, 2], [1, 3, 2]]]]⟩ ∧
    Ex.leaves [("print_output", .bool true)] = ⟨some .typeError, [none], [[[]]]⟩ ∧
    Ex.leaves [("print_output", .bool true), ("output_headers", .names ["t", "x"])] = ⟨some .valueError, [none], [[[]]]⟩ ∧
    Ex.leaves [("print_output", .num 1), ("output_headers", .names ["t", "x", "x"])] = ⟨some .valueError, [none], [[[]]]⟩ ∧
    Ex.leaves [("print_output", .bool true), ("output_headers", .names ["t", "x", "y"])] = Ex.leaves [] := by
  refine ⟨?_, ?_, ?_, ?_, ?_⟩ <;> decide +kernel

/-- The hypotheses of the theorems: the default headers cannot be used, and a solver is created. -/
example : (simHistory Ex.ext Ex.ratI (Ex.printed [("print_output", .bool true)])).w.pr.block.map Block.problemType = some (some .differential) ∧
    dget confDefaults "output_headers" = some .none ∧ dget confDefaults "print_output" = some (.bool false) ∧ (∀ hs, ¬ Spec.Headers .none hs) ∧
    Spec.Headers (.names ["t", "x", "y"]) ["t", "x", "y"] :=
  ⟨by decide +kernel, by decide +kernel, by decide +kernel, fun hs h => (nomatch h.1), rfl, by decide⟩

end Sloth
