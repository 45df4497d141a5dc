import Verif.Props.Dynamic
import Verif.Props.Again
import Verif.Props.Solvers

/-!
# The times in the table of a domain (C120)
-/

set_option linter.unusedSectionVars false

namespace Sloth
open PyS

section
variable {K : Type} [Field K] [LinearOrder K]

/-- What a successful recording leaves in a domain that waits for its table. -/
theorem record_rows {c : Conf} {r : DRef} {rows : List (List K)} {s s' : SimWorld K} (h : record c (.dom r) rows s = (.ok (), s')) {d : DomainObj K} (hd : s.doms[r]? = some d)
    {x : String} {k : Nat} {f : Frame K} (hr : Spec.Ready d x k f) :
    ∃ d' f', s'.doms[r]? = some d' ∧ d'.values.bind (dget · x) = some f' ∧ f'.rows = rows := by
  obtain ⟨vals, hv, hf⟩ := Option.bind_eq_some_iff.mp hr.table
  have hlt : r < s.doms.length := (List.getElem?_eq_some_iff.mp hd).1
  unfold record at h
  have hg : (getD r : PyS K _) s = (.ok d, s) := by unfold getD; rw [hd]
  simp only at h
  rw [bind_of_ok hg] at h
  simp only [bind_ok, lift_ok] at h
  obtain ⟨d1, s0, ⟨h1, e0⟩, _, s9, h2, m, s1, ⟨hm, rfl⟩, h3⟩ := h
  subst e0
  have hs1 : s1 = { s0 with doms := s0.doms.set r d1 } := by
    simp only [setD, PyS.modify, Prod.mk.injEq] at h2
    exact h2.2.symm
  have hd1 : d1 = { d with values := some (dset vals x ⟨f.cols, rows⟩) } := by
    unfold DomainObj.register DomainObj.target at h1
    simp only [hr.last, ok_bind, hv, dgetE, hf, DomainObj.extend] at h1
    rw [if_pos (by simp [DomainObj.Frame.isEmpty, hr.empty])] at h1
    unfold DomainObj.mkFrame at h1
    split at h1
    · exact (Except.ok.inj h1).symm
    · cases h1
  cases m with
  | renames m =>
    simp only [bind_ok, lift_ok] at h3
    obtain ⟨d2, _, ⟨h4, rfl⟩, h5⟩ := h3
    have hd2 : d2 = { d with values := some ((dset vals x ⟨f.cols, rows⟩).map fun p => (p.1, { p.2 with cols := p.2.cols.map (DomainObj.Label.rename m) })) } := by
      rw [hd1] at h4
      exact (Except.ok.inj h4).symm
    simp only [setD, PyS.modify, Prod.mk.injEq] at h5
    refine ⟨d2, ⟨f.cols.map (DomainObj.Label.rename m), rows⟩, ?_, ?_, rfl⟩
    · rw [← h5.2, hs1]; simp [hlt]
    · rw [hd2]
      simp only [Option.bind_some]
      have := dget_map_val (dset vals x ⟨f.cols, rows⟩) (fun _ (g : Frame K) => ({ g with cols := g.cols.map (DomainObj.Label.rename m) } : Frame K)) x
      rw [dget_dset_self] at this
      exact this
  | _ => exact absurd h3 raise_ok

/-- Nothing is recorded in a domain. -/
def DomsKept {α : Type} (x : PyS K α) : Prop := ∀ s, (x s).2.doms = s.doms

namespace DomsKept

theorem bind {α β : Type} {x : PyS K α} {f : α → PyS K β} (hx : DomsKept x) (hf : ∀ a, DomsKept (f a)) : DomsKept (x >>= f) := by
  intro s
  have h := hx s
  show (PyS.bind x f s).2.doms = s.doms
  unfold PyS.bind
  rcases hq : x s with ⟨_ | a, s1⟩
  · rw [hq] at h; exact h
  · rw [hq] at h; exact (hf a s1).trans h

theorem pure {α : Type} (a : α) : DomsKept (PyS.pure a : PyS K α) := fun _ => rfl
theorem raise {α : Type} (e : Err) : DomsKept (PyS.raise e : PyS K α) := fun _ => rfl
theorem lift {α : Type} (a : Except Err α) : DomsKept (PyS.lift a : PyS K α) := fun _ => rfl
theorem get : DomsKept (PyS.get : PyS K _) := fun _ => rfl
theorem called (c : Routine) : DomsKept (PyS.called c : PyS K Unit) := fun _ => rfl
theorem getBlock : DomsKept (PyS.getBlock : PyS K Block) := by
  intro s
  simp only [PyS.getBlock]
  split <;> rfl

theorem prog {Q A B : Type} (p : Prog Q A B) {f : Q → PyS K A} (hf : ∀ q, DomsKept (f q)) : DomsKept (p.run f) := by
  induction p with
  | ret b => exact pure b
  | fail e => exact raise e
  | ask q k ih => exact bind (hf q) fun a => ih a

end DomsKept

theorem integrate_doms (ext : Ext K) (I : Interp K) (o : DObj) (y0 tp : List K) : DomsKept (integrate ext I o y0 tp) := by
  have hrhs : ∀ q : List K × K, DomsKept (o.rhs ext I q.1 q.2) := by
    intro q
    unfold DObj.rhs
    refine .bind .get fun s => .bind .getBlock fun b => .bind (.lift _) fun m => ?_
    split
    · refine .bind ?_ fun keys => .bind (.lift _) fun vals => .lift _
      intro s
      unfold extendKeys
      exact DomsKept.bind .getBlock (fun b => .bind (fun s => rfl) fun _ => .pure _) s
    · exact .lift _
  unfold integrate
  split
  · exact .bind (.called _) fun _ => .bind (.prog _ hrhs) fun Y => .pure _
  · exact .bind (.called _) fun _ => .bind (.prog _ hrhs) fun Y => .pure _
  · exact .bind (.called _) fun _ => .prog _ hrhs
  · exact .raise _

theorem integrateDae_doms (ext : Ext K) (I : Interp K) (c : Conf) (o : DaeObj) (fl y0 yd0 tp : List K) : DomsKept (integrateDae ext I c o fl y0 yd0 tp) := by
  unfold integrateDae
  split
  · exact .bind (.lift _) fun _ => .bind (.lift _) fun v => .bind (.lift _) fun _ => .bind (.called _) fun _ => .prog _ fun q => .lift _
  · exact .raise _

/-- C120 for explicit systems: the table recorded in a domain that waits for it consists of the times and values that the run returns. -/
theorem d_recorded {ext : Ext K} {I : Interp K} {conf : Conf} {o : DObj} {r : DRef} (ho : o.domain = .dom r) {s s' : SimWorld K} {d : DomainObj K} (hd : s.doms[r]? = some d)
    {x : String} {k : Nat} {f : Frame K} (hr : Spec.Ready d x k f) {out : Output K} (h : dSolve ext I conf o s = (.ok out, s')) :
    ∃ ts Y d' f', out = .series ts Y ∧ ts.length = Y.length ∧ s'.doms[r]? = some d' ∧ d'.values.bind (dget · x) = some f' ∧
      f'.rows = List.zipWith (fun a y => a :: y) ts Y := by
  unfold dSolve at h
  simp only [bind_ok, lift_ok] at h
  obtain ⟨_, _, ⟨_, rfl⟩, a, _, ⟨ha, rfl⟩, e, _, ⟨he, rfl⟩, n, _, ⟨hn, rfl⟩, tt, s0, ⟨ht, rfl⟩, st, s2, hst, names, _, ⟨_, rfl⟩, y0, s3, ⟨_, rfl⟩, _, s4, hw, tp, s4', ⟨htp, rfl⟩,
    r', s5', hi, rows, s5'', ⟨hrows, rfl⟩, _, s5, ⟨_, rfl⟩, _, s6, hrec, hout⟩ := h
  simp only [PyS.get, Prod.mk.injEq, Except.ok.injEq] at hst
  obtain ⟨rfl, rfl⟩ := hst
  rcases when_ok.1 hw with ⟨_, h⟩ | ⟨_, rfl⟩
  · exact absurd h raise_ok
  simp only [PyS.pure, Prod.mk.injEq, Except.ok.injEq] at hout
  obtain ⟨rfl, rfl⟩ := hout
  have hk := integrate_doms ext I o (y0.map fun (q : Rat) => (q : K)) tp s4'
  rw [hi] at hk
  rw [ho] at hrec
  unfold hstack at hrows
  split at hrows
  · next hl =>
    obtain ⟨d', f', h1, h2, h3⟩ := record_rows hrec (by rw [show s5.doms = s4'.doms from hk]; exact hd) hr
    exact ⟨_, _, d', f', rfl, hl, h1, h2, h3.trans (Except.ok.inj hrows).symm⟩
  · cases hrows

/-- The same for implicit systems, whose rows carry the times that were asked for instead of the times of the library. -/
theorem dae_recorded {ext : Ext K} {I : Interp K} {conf : Conf} {o : DaeObj} {r : DRef} (ho : o.domain = .dom r) {s s' : SimWorld K} {d : DomainObj K} (hd : s.doms[r]? = some d)
    {x : String} {k : Nat} {f : Frame K} (hr : Spec.Ready d x k f) {out : Output K} (h : daeSolve ext I conf o s = (.ok out, s')) :
    ∃ ts Y t0 t1 n d' f', out = .series ts Y ∧ dget conf "initial_time" = some (.num t0) ∧ dget conf "end_time" = some (.num t1) ∧
      dget conf "number_of_time_steps" = some (.num n) ∧ Y.length = n.num.toNat + 1 ∧ s'.doms[r]? = some d' ∧ d'.values.bind (dget · x) = some f' ∧
      f'.rows = List.zipWith (fun a y => a :: y) ((List.range (n.num.toNat + 1)).map fun (i : Nat) => (t0 : K) + (i : K) * (((t1 : K) - (t0 : K)) / (n.num.toNat : K))) Y ∧
      ((∀ fl y yd tp g q, (ext.ida fl y yd tp).exec g = .ok q → q.1 = tp) →
        ts = (List.range (n.num.toNat + 1)).map fun (i : Nat) => (t0 : K) + (i : K) * (((t1 : K) - (t0 : K)) / (n.num.toNat : K))) := by
  unfold daeSolve at h
  simp only [bind_ok, lift_ok] at h
  obtain ⟨_, _, ⟨_, rfl⟩, a, _, ⟨ha, rfl⟩, e, _, ⟨he, rfl⟩, n, s0, ⟨hn, rfl⟩, _, s1, hw, tp, _, ⟨htp, rfl⟩, st, s2, hst, bl, s3, hbl, ds, _, ⟨hds, rfl⟩,
    y0, _, ⟨hy0, rfl⟩, yd0, s4, ⟨hyd0, rfl⟩, r', s5', hi, rows, s5'', ⟨hrows, rfl⟩, _, s5, ⟨_, rfl⟩, _, s6, hrec, hout⟩ := h
  simp only [PyS.get, Prod.mk.injEq, Except.ok.injEq] at hst
  obtain ⟨rfl, rfl⟩ := hst
  obtain ⟨hbl, rfl⟩ := getBlock_ok.1 hbl
  rcases when_ok.1 hw with ⟨_, h⟩ | ⟨_, rfl⟩
  · exact absurd h raise_ok
  simp only [PyS.pure, Prod.mk.injEq, Except.ok.injEq] at hout
  obtain ⟨rfl, rfl⟩ := hout
  unfold hstack at hrows
  split at hrows
  · next hl =>
    have hk := integrateDae_doms ext I conf o (diffFlags s4.w.es bl.equations) (y0.map fun (q : Rat) => (q : K)) (yd0.map fun (q : Rat) => (q : K)) tp s4
    rw [hi] at hk
    rw [ho] at hrec
    obtain ⟨d', f', h1, h2, h3⟩ := record_rows hrec (by rw [show s5.doms = s4.doms from hk]; exact hd) hr
    unfold timePoints at htp
    split at htp
    · split at htp
      · simp only [Except.ok.injEq] at htp
        refine ⟨_, _, _, _, _, d', f', rfl, dgetE_ok.1 ha, dgetE_ok.1 he, dgetE_ok.1 hn, ?_, h1, h2, h3.trans ?_, fun hida => ?_⟩
        · rw [← hl, ← htp]; simp [linspace]
        · rw [← Except.ok.inj hrows, ← htp]; rfl
        · have : r'.1 = tp := by
            unfold integrateDae at hi
            split at hi
            · simp only [bind_ok, lift_ok] at hi
              obtain ⟨_, _, ⟨_, rfl⟩, _, _, ⟨_, rfl⟩, _, _, ⟨_, rfl⟩, _, s7, hc, hi⟩ := hi
              rw [run_exec, Prod.mk.injEq] at hi
              exact hida _ _ _ _ _ _ hi.1
            · exact absurd hi raise_ok
          rw [this, ← htp]; rfl
      · cases htp
    · simp_all
    · cases htp
  · cases hrows

/-- What solving and storing leaves: the domains as the solver left them. -/
theorem solveStore_doms {ext : Ext K} {I : Interp K} {i : SRef} {c : Conf} {sv : SolverObj} {s s' : SimWorld K} (h : solveStore ext I i c sv s = (.ok (), s')) :
    ∃ out s1 o, sv.solve ext I c s = (.ok out, s1) ∧ s'.sims[i]? = some o ∧ o.output = some out ∧ s'.doms = s1.doms := by
  unfold solveStore at h
  simp only [bind_ok, getSim_ok, lift_ok] at h
  obtain ⟨out, s1, hout, o, s2, ⟨ho, rfl⟩, _, s3, h3, d, s4, ⟨hd, rfl⟩, o', s5, ⟨ho', rfl⟩, h5⟩ := h
  simp only [setSim, PyS.modify, Prod.mk.injEq, true_and] at h3 h5
  subst h3
  have hi : i < s2.sims.length := (List.getElem?_eq_some_iff.1 ho).1
  simp only [List.getElem?_set_self hi, Option.some.injEq] at ho'
  subst h5
  refine ⟨out, s2, { o' with domain := d }, hout, ?_, ?_, rfl⟩
  · exact List.getElem?_set_self (by simpa using hi)
  · rw [← ho']

/-- The times of the rows of a table. -/
def Spec.equallySpaced (t0 t1 : Rat) (n : Nat) : List K := (List.range (n + 1)).map fun (i : Nat) => (t0 : K) + (i : K) * (((t1 : K) - (t0 : K)) / (n : K))

/-- A table whose rows are the given times, each before its values. -/
structure Spec.Tabulates (s : SimWorld K) (r : DRef) (x : String) (ts : List K) (Y : List (List K)) : Prop where
  same : ts.length = Y.length
  table : ∃ d f, s.doms[r]? = some d ∧ d.values.bind (dget · x) = some f ∧ f.rows.length = Y.length ∧
    ∀ (j : Nat) (t : K) (y : List K), ts[j]? = some t → Y[j]? = some y → f.rows[j]? = some (t :: y)

theorem Spec.Tabulates.of_rows {s : SimWorld K} {r : DRef} {x : String} {ts : List K} {Y : List (List K)} (hl : ts.length = Y.length) {d : DomainObj K} {f : Frame K}
    (hd : s.doms[r]? = some d) (hf : d.values.bind (dget · x) = some f) (hr : f.rows = List.zipWith (fun a y => a :: y) ts Y) : Spec.Tabulates s r x ts Y := by
  refine ⟨hl, d, f, hd, hf, ?_, fun j t y ht hy => ?_⟩
  · rw [hr, List.length_zipWith, hl, Nat.min_self]
  · rw [hr, List.getElem?_zipWith, ht, hy]

/-- **C120 (partial).** After a run over a domain that waited for its table, the simulation holds times and values, and the rows of the table are, one by one, a time and the values
that the simulation holds for it.  For explicit systems the times are those the simulation holds.  For implicit systems they are the equally spaced times of the configuration.
If the integrator of implicit systems answers at the times asked for, these are also those the simulation holds.  Missing: otherwise they differ
(`dae_times_disagree`). -/
theorem table_times_partial {ext : Ext K} {I : Interp K} {i : SRef} {a : RunArgs} {s s' : SimWorld K} (h : runSimulation ext I i a s = (.ok (), s'))
    {b : Block} (hb : s.w.pr.block = some b) (hk : b.problemType = some .differential ∨ b.problemType = some .dae)
    {o : SimObj K} (ho : s.sims[i]? = some o) {c : Conf} (hc : o.conf = some c) {r : DRef} (hr : dget c "domain" = some (.dom r))
    {d : DomainObj K} (hd : s.doms[r]? = some d) {x : String} {k : Nat} {f : Frame K} (hf : Spec.Ready d x k f) :
    ∃ o' ts Y, s'.sims[i]? = some o' ∧ o'.output = some (.series ts Y) ∧
      (b.problemType = some .differential → Spec.Tabulates s' r x ts Y) ∧
      (b.problemType = some .dae → ∃ t0 t1 n, dget c "initial_time" = some (.num t0) ∧ dget c "end_time" = some (.num t1) ∧
        dget c "number_of_time_steps" = some (.num n) ∧ Spec.Tabulates s' r x (Spec.equallySpaced t0 t1 n.num.toNat) Y ∧
        ((∀ fl y yd tp g q, (ext.ida fl y yd tp).exec g = .ok q → q.1 = tp) → Spec.Tabulates s' r x ts Y)) := by
  obtain ⟨o', c', pt, b', sv, t1, t2, t3, ho', hc', hpt, hb', hsv, hsan, hst, hep⟩ := run_parts h
  obtain rfl : o = o' := Option.some.inj (ho.symm.trans ho')
  obtain rfl : c = c' := Option.some.inj (hc.symm.trans hc')
  have hdm := createSolver_domain hsv hr
  have e1 : t1.doms = s.doms := by
    have := keeps_createSolver (f := fun s : SimWorld K => s.doms) (fun _ _ => rfl) (fun _ _ _ _ => rfl) ext c s
    rwa [hsv] at this
  have e2 : t2.doms = t1.doms := by have := keeps_sanity (fun s : SimWorld K => s.doms) ext a.sanity t1; rwa [hsan] at this
  have e4 : s'.doms = t3.doms := by
    have := keeps_epilogue (f := fun s : SimWorld K => s.doms) (i := i) (fun _ _ _ _ => rfl) pt a.showMsg a.showResiduals t3
    rwa [hep] at this
  obtain ⟨out, s4, o2, hout, ho2, hout2, e3⟩ := solveStore_doms hst
  have hs := congrArg (fun l => l[i]?) (epilogue_output hep)
  simp only [List.getElem?_map, ho2, Option.map_some] at hs
  obtain ⟨o3, ho3, hs⟩ := Option.map_eq_some_iff.1 hs
  simp only [Prod.mk.injEq] at hs
  have hd2 : t2.doms[r]? = some d := by rw [e2, e1]; exact hd
  obtain ⟨b2, k2, hb2, hk2, hcl⟩ := createSolver_kind hsv
  obtain rfl : b = b2 := Option.some.inj (hb.symm.trans hb2)
  have hdoms : s'.doms = s4.doms := e4.trans e3
  rcases hk with hk | hk
  · obtain rfl : k2 = .differential := Option.some.inj (hk2.symm.trans hk)
    cases sv with
    | d o =>
      obtain ⟨ts, Y, d', f', rfl, hl, h1, h2, h3⟩ := d_recorded (hdm.1 o rfl) hd2 hf hout
      refine ⟨o3, ts, Y, ho3, hs.1.trans hout2, fun _ => .of_rows hl (by rw [hdoms]; exact h1) h2 h3, fun h => ?_⟩
      rw [hk] at h; cases h
    | _ => exact hcl.elim
  · obtain rfl : k2 = .dae := Option.some.inj (hk2.symm.trans hk)
    cases sv with
    | dae o =>
      obtain ⟨ts, Y, t0, t1, n, d', f', rfl, a1, a2, a3, hl, h1, h2, h3, h4⟩ := dae_recorded (hdm.2 o rfl) hd2 hf hout
      have htab : Spec.Tabulates s' r x (Spec.equallySpaced t0 t1 n.num.toNat) Y :=
        .of_rows (by rw [hl]; simp [Spec.equallySpaced]) (by rw [hdoms]; exact h1) h2 h3
      refine ⟨o3, ts, Y, ho3, hs.1.trans hout2, fun h => ?_, fun _ => ⟨t0, t1, n, a1, a2, a3, htab, fun hida => ?_⟩⟩
      · rw [hk] at h; cases h
      · rw [h4 hida]; exact htab
    | _ => exact hcl.elim

end

namespace Ex
/-- An integrator of implicit systems that answers at later times than those asked for. -/
def lateIda : Ext Rat := { echo with ida := fun _ y0 yd0 tp => .ret (tp.map (· + 1), tp.map fun _ => y0 ++ yd0) }
end Ex

/-- C120 fails for implicit systems: with an integrator that answers at later times, a run that returns leaves a table whose times are not those the simulation holds. -/
theorem dae_times_disagree : let s := simHistory Ex.lateIda Ex.ratI (Ex.daeRun Ex.daeInit [("time_variable_name", .str "t_m")])
    (s.sims.map fun o => o.output.bind fun
      | .series ts _ => some ts
      | _ => none) = [some [1, 3 / 2, 2]] ∧
    (s.doms.map fun d => (d.values.bind (dget · "t")).map fun f => f.rows.map fun l => l.head?) = [some [some 0, some (1 / 2), some 1]] := by
  decide +kernel

/-- The hypotheses of `table_times_partial` are met by the sample differential problem. -/
example : let s := simHistory Ex.ext Ex.ratI (Ex.odeRun Ex.ode Ex.dyn {}).dropLast
    (runSimulation Ex.ext Ex.ratI 0 {} s).1.toOption = some () ∧ (s.w.pr.block.map Block.problemType) = some (some .differential) ∧
    (s.sims[0]?.bind fun o => o.conf.bind fun c => dget c "domain") = some (.dom 0) ∧
    (s.doms.map fun d => (d.indep.getLast?, (d.values.bind (dget · "t")).map fun f => (f.rows.length, f.cols.length))) = [(some "t", some (0, 2))] := by
  decide +kernel

/-- And by the sample with algebraic and differential equations. -/
example : let s := simHistory Ex.echo Ex.ratI (Ex.daeRun Ex.daeInit [("time_variable_name", .str "t_m")]).dropLast
    (runSimulation Ex.echo Ex.ratI 0 { sanity := false, showMsg := false, showResiduals := false } s).1.toOption = some () ∧ (s.w.pr.block.map Block.problemType) = some (some .dae) ∧
    (s.sims[0]?.bind fun o => o.conf.bind fun c => dget c "domain") = some (.dom 0) ∧
    (s.doms.map fun d => (d.indep.getLast?, (d.values.bind (dget · "t")).map fun f => (f.rows.length, f.cols.length))) = [(some "t", some (0, 7))] ∧
    ∀ fl y yd tp g q, (Ex.echo.ida fl y yd tp).exec g = .ok q → q.1 = tp := by
  refine ⟨by decide +kernel, by decide +kernel, by decide +kernel, by decide +kernel, fun fl y yd tp g q h => ?_⟩
  exact (congrArg Prod.fst (Except.ok.inj h)).symm

end Sloth
