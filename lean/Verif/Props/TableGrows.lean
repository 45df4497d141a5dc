import Verif.Props.AskedTimes

/-!
# A run only appends to the table of its domain (C120, without a fresh domain)
-/

set_option linter.unusedSectionVars false

namespace Sloth
open PyS

section
variable {K : Type} [Field K] [LinearOrder K]

/-- The table of a domain named after its last independent variable, with the given rows. -/
def Spec.HasRows (s : SimWorld K) (r : DRef) (x : String) (rows : List (List K)) : Prop :=
  ∃ d f, s.doms[r]? = some d ∧ d.indep.getLast? = some x ∧ d.values.bind (dget · x) = some f ∧ f.rows = rows

/-- A successful recording puts the rows behind those that were there, unless the table has no columns. -/
theorem record_appends {c : Conf} {r : DRef} {rows : List (List K)} {s s' : SimWorld K} (h : record c (.dom r) rows s = (.ok (), s')) :
    ∃ d x f, s.doms[r]? = some d ∧ d.indep.getLast? = some x ∧ d.values.bind (dget · x) = some f ∧
      Spec.HasRows s' r x ((if f.cols = [] then [] else f.rows) ++ rows) := by
  unfold record at h
  simp only [bind_ok, lift_ok] at h
  obtain ⟨d, s00, hg, d1, s0, ⟨h1, e0⟩, _, s9, h2, m, s1, ⟨hm, rfl⟩, h3⟩ := h
  subst e0
  obtain ⟨hd, rfl⟩ : s.doms[r]? = some d ∧ s0 = s := by
    unfold getD at hg
    split at hg
    · next hd => simp only [Prod.mk.injEq, Except.ok.injEq] at hg; exact ⟨by rw [hd, hg.1], hg.2.symm⟩
    · cases hg
  have hlt : r < s0.doms.length := (List.getElem?_eq_some_iff.mp hd).1
  have hs1 : s1 = { s0 with doms := s0.doms.set r d1 } := by
    simp only [setD, PyS.modify, Prod.mk.injEq] at h2
    exact h2.2.symm
  obtain ⟨x, vals, f, f1, hx, hv, hf, hd1, hf1⟩ : ∃ x vals f f1, d.indep.getLast? = some x ∧ d.values = some vals ∧ dget vals x = some f ∧
      d1 = { d with values := some (dset vals x f1) } ∧ f1.rows = (if f.cols = [] then [] else f.rows) ++ rows := by
    unfold DomainObj.register DomainObj.target at h1
    simp only at h1
    cases hx : d.indep.getLast? with
    | none => rw [hx] at h1; cases h1
    | some x =>
      rw [hx] at h1
      cases hv : d.values with
      | none => rw [hv] at h1; cases h1
      | some vals =>
        rw [hv] at h1
        simp only [ok_bind, bind_eq_ok, Except.ok.injEq] at h1
        obtain ⟨f, hf, f1, hf1, rfl⟩ := h1
        refine ⟨x, vals, f, f1, rfl, rfl, dgetE_ok.1 hf, rfl, ?_⟩
        unfold DomainObj.extend at hf1
        split at hf1
        · next he =>
          unfold DomainObj.mkFrame at hf1
          split at hf1
          · have : (if f.cols = [] then [] else f.rows) = ([] : List (List K)) := by
              simp only [DomainObj.Frame.isEmpty, Bool.or_eq_true, List.isEmpty_iff] at he
              split
              · rfl
              · next hne => exact he.resolve_right hne
            rw [this, ← Except.ok.inj hf1]
            rfl
          · cases hf1
        · next he =>
          split at hf1
          · simp only [bind_eq_ok] at hf1
            obtain ⟨rs, hrs, hf1⟩ := hf1
            simp only [DomainObj.Frame.isEmpty, Bool.or_eq_true, List.isEmpty_iff, not_or] at he
            rw [if_neg he.2]
            unfold DomainObj.mkFrame at hf1
            split at hf1
            · rw [← Except.ok.inj hf1]
              unfold DomainObj.vstack at hrs
              split at hrs
              · exact (Except.ok.inj hrs).symm
              · cases hrs
            · cases hf1
          · cases hf1
  refine ⟨d, x, f, hd, hx, by rw [hv]; exact hf, ?_⟩
  cases m with
  | renames m =>
    simp only [bind_ok, lift_ok] at h3
    obtain ⟨d2, _, ⟨h4, rfl⟩, h5⟩ := h3
    have hd2 : d2 = { d with values := some ((dset vals x f1).map fun p => (p.1, { p.2 with cols := p.2.cols.map (DomainObj.Label.rename m) })) } := by
      rw [hd1] at h4
      exact (Except.ok.inj h4).symm
    simp only [setD, PyS.modify, Prod.mk.injEq] at h5
    refine ⟨d2, ⟨f1.cols.map (DomainObj.Label.rename m), f1.rows⟩, ?_, ?_, ?_, hf1⟩
    · rw [← h5.2, hs1]; simp [hlt]
    · rw [hd2]; exact hx
    · rw [hd2]
      simp only [Option.bind_some]
      have := dget_map_val (dset vals x f1) (fun _ (g : Frame K) => ({ g with cols := g.cols.map (DomainObj.Label.rename m) } : Frame K)) x
      rw [dget_dset_self] at this
      exact this
  | _ => exact absurd h3 raise_ok

/-- What the solver of explicit systems records. -/
theorem d_records {ext : Ext K} {I : Interp K} {conf : Conf} {o : DObj} {s s' : SimWorld K} {out : Output K} (h : dSolve ext I conf o s = (.ok out, s')) :
    ∃ ts Y s5, out = .series ts Y ∧ ts.length = Y.length ∧ s5.doms = s.doms ∧ record conf o.domain (List.zipWith (fun a y => a :: y) ts Y) s5 = (.ok (), s') := by
  unfold dSolve at h
  simp only [bind_ok, lift_ok] at h
  obtain ⟨_, _, ⟨_, rfl⟩, a, _, ⟨ha, rfl⟩, e, _, ⟨he, rfl⟩, n, _, ⟨hn, rfl⟩, tt, s0, ⟨ht, rfl⟩, st, s2, hst, names, _, ⟨_, rfl⟩, y0, s3, ⟨_, rfl⟩, _, s4, hw, tp, s4', ⟨htp, rfl⟩,
    r', s5', hi, rows, s5'', ⟨hrows, rfl⟩, _, s5, ⟨_, rfl⟩, _, s6, hrec, hout⟩ := h
  simp only [PyS.get, Prod.mk.injEq, Except.ok.injEq] at hst
  obtain ⟨rfl, rfl⟩ := hst
  rcases when_ok.1 hw with ⟨_, h⟩ | ⟨_, rfl⟩
  · exact absurd h raise_ok
  simp only [PyS.pure, Prod.mk.injEq, Except.ok.injEq] at hout
  obtain ⟨rfl, rfl⟩ := hout
  have hk := integrate_doms ext I o (y0.map fun (q : Rat) => (q : K)) tp s4'
  rw [hi] at hk
  unfold hstack at hrows
  split at hrows
  · next hl =>
    rw [← Except.ok.inj hrows] at hrec
    exact ⟨_, _, s5, rfl, hl, hk, hrec⟩
  · cases hrows

/-- What the solver of implicit systems records. -/
theorem dae_records {ext : Ext K} {I : Interp K} {conf : Conf} {o : DaeObj} {s s' : SimWorld K} {out : Output K} (h : daeSolve ext I conf o s = (.ok out, s')) :
    ∃ ts Y t0 t1 n s5, out = .series ts Y ∧ dget conf "initial_time" = some (.num t0) ∧ dget conf "end_time" = some (.num t1) ∧
      dget conf "number_of_time_steps" = some (.num n) ∧ Y.length = n.num.toNat + 1 ∧ s5.doms = s.doms ∧
      record conf o.domain (List.zipWith (fun a y => a :: y) (Spec.equallySpaced t0 t1 n.num.toNat) Y) s5 = (.ok (), s') := by
  unfold daeSolve at h
  simp only [bind_ok, lift_ok] at h
  obtain ⟨_, _, ⟨_, rfl⟩, a, _, ⟨ha, rfl⟩, e, _, ⟨he, rfl⟩, n, s0, ⟨hn, rfl⟩, _, s1, hw, tp, _, ⟨htp, rfl⟩, st, s2, hst, bl, s3, hbl, ds, _, ⟨hds, rfl⟩,
    y0, _, ⟨hy0, rfl⟩, yd0, s4, ⟨hyd0, rfl⟩, r', s5', hi, rows, s5'', ⟨hrows, rfl⟩, _, s5, ⟨_, rfl⟩, _, s6, hrec, hout⟩ := h
  simp only [PyS.get, Prod.mk.injEq, Except.ok.injEq] at hst
  obtain ⟨rfl, rfl⟩ := hst
  obtain ⟨hbl, rfl⟩ := getBlock_ok.1 hbl
  rcases when_ok.1 hw with ⟨_, h⟩ | ⟨_, rfl⟩
  · exact absurd h raise_ok
  simp only [PyS.pure, Prod.mk.injEq, Except.ok.injEq] at hout
  obtain ⟨rfl, rfl⟩ := hout
  have hk := integrateDae_doms ext I conf o (diffFlags s4.w.es bl.equations) (y0.map fun (q : Rat) => (q : K)) (yd0.map fun (q : Rat) => (q : K)) tp s4
  rw [hi] at hk
  unfold hstack at hrows
  split at hrows
  · next hl =>
    rw [← Except.ok.inj hrows] at hrec
    unfold timePoints at htp
    split at htp
    · split at htp
      · simp only [Except.ok.injEq] at htp
        refine ⟨_, _, _, _, _, s5, rfl, dgetE_ok.1 ha, dgetE_ok.1 he, dgetE_ok.1 hn, ?_, hk, ?_⟩
        · rw [← hl, ← htp]; simp [linspace]
        · rw [← htp] at hrec; exact hrec
      · cases htp
    · simp_all
    · cases htp
  · cases hrows

/-- C120 for any domain: a dynamic run that returns only appends to the table named after the last independent variable of its domain.  The rows appended are the times (for implicit systems:
the equally spaced ones) each followed by the values the simulation then holds.  Nothing is assumed of the domain; a table without columns has no rows to keep. -/
theorem run_appends {ext : Ext K} {I : Interp K} {i : SRef} {a : RunArgs} {s s' : SimWorld K} (h : runSimulation ext I i a s = (.ok (), s'))
    {b : Block} (hb : s.w.pr.block = some b) (hk : b.problemType = some .differential ∨ b.problemType = some .dae)
    {o : SimObj K} (ho : s.sims[i]? = some o) {c : Conf} (hc : o.conf = some c) {r : DRef} (hr : dget c "domain" = some (.dom r)) :
    ∃ o' ts Y T d x f, s'.sims[i]? = some o' ∧ o'.output = some (.series ts Y) ∧ T.length = Y.length ∧
      s.doms[r]? = some d ∧ d.indep.getLast? = some x ∧ d.values.bind (dget · x) = some f ∧
      Spec.HasRows s' r x ((if f.cols = [] then [] else f.rows) ++ List.zipWith (fun t y => t :: y) T Y) ∧
      (b.problemType = some .differential → T = ts) ∧
      (b.problemType = some .dae → ∃ t0 t1 n, dget c "initial_time" = some (.num t0) ∧ dget c "end_time" = some (.num t1) ∧
        dget c "number_of_time_steps" = some (.num n) ∧ T = Spec.equallySpaced t0 t1 n.num.toNat) := by
  obtain ⟨o', c', pt, b', sv, t1, t2, t3, ho', hc', hpt, hb', hsv, hsan, hst, hep⟩ := run_parts h
  obtain rfl : o = o' := Option.some.inj (ho.symm.trans ho')
  obtain rfl : c = c' := Option.some.inj (hc.symm.trans hc')
  have hdm := createSolver_domain hsv hr
  have e1 : t1.doms = s.doms := by
    have := keeps_createSolver (f := fun s : SimWorld K => s.doms) (fun _ _ => rfl) (fun _ _ _ _ => rfl) ext c s
    rwa [hsv] at this
  have e2 : t2.doms = t1.doms := by have := keeps_sanity (fun s : SimWorld K => s.doms) ext a.sanity t1; rwa [hsan] at this
  have e4 : s'.doms = t3.doms := by
    have := keeps_epilogue (f := fun s : SimWorld K => s.doms) (i := i) (fun _ _ _ _ => rfl) pt a.showMsg a.showResiduals t3
    rwa [hep] at this
  obtain ⟨out, s4, o2, hout, ho2, hout2, e3⟩ := solveStore_doms hst
  have hs := congrArg (fun l => l[i]?) (epilogue_output hep)
  simp only [List.getElem?_map, ho2, Option.map_some] at hs
  obtain ⟨o3, ho3, hs⟩ := Option.map_eq_some_iff.1 hs
  simp only [Prod.mk.injEq] at hs
  have hdoms : s'.doms = s4.doms := e4.trans e3
  have hrows : ∀ {x : String} {rows : List (List K)}, Spec.HasRows s4 r x rows → Spec.HasRows s' r x rows := by
    rintro x rows ⟨d, f, h1, h2⟩
    exact ⟨d, f, by rw [hdoms]; exact h1, h2⟩
  obtain ⟨b2, k2, hb2, hk2, hcl⟩ := createSolver_kind hsv
  obtain rfl : b = b2 := Option.some.inj (hb.symm.trans hb2)
  rcases hk with hk | hk
  · obtain rfl : k2 = .differential := Option.some.inj (hk2.symm.trans hk)
    cases sv with
    | d o =>
      obtain ⟨ts, Y, s5, rfl, hl, e5, hrec⟩ := d_records hout
      rw [hdm.1 o rfl] at hrec
      obtain ⟨d, x, f, h1, h2, h3, h4⟩ := record_appends hrec
      refine ⟨o3, ts, Y, ts, d, x, f, ho3, hs.1.trans hout2, hl, by rw [← e1, ← e2, ← e5]; exact h1, h2, h3, hrows h4, fun _ => rfl, fun h => ?_⟩
      rw [hk] at h; cases h
    | _ => exact hcl.elim
  · obtain rfl : k2 = .dae := Option.some.inj (hk2.symm.trans hk)
    cases sv with
    | dae o =>
      obtain ⟨ts, Y, u0, u1, n, s5, rfl, a1, a2, a3, hl, e5, hrec⟩ := dae_records hout
      rw [hdm.2 o rfl] at hrec
      obtain ⟨d, x, f, h1, h2, h3, h4⟩ := record_appends hrec
      refine ⟨o3, ts, Y, _, d, x, f, ho3, hs.1.trans hout2, by rw [hl]; simp [Spec.equallySpaced], by rw [← e1, ← e2, ← e5]; exact h1, h2, h3, hrows h4, fun h => ?_,
        fun _ => ⟨u0, u1, n, a1, a2, a3, rfl⟩⟩
      rw [hk] at h; cases h
    | _ => exact hcl.elim

end

namespace Ex
/-- Two runs over one domain: with one step the table has as many rows as columns, so that a second table is accepted. -/
def ranTwice : List (SOp Rat) := odeRun ode (dset dyn "number_of_time_steps" (.num 1)) {} ++ [.run 0 {}]
end Ex

/-- The hypotheses of `run_appends` are met by a run over a domain that already has a table, and by a first run. -/
example : let s := simHistory Ex.ext Ex.ratI Ex.ranTwice.dropLast
    (runSimulation Ex.ext Ex.ratI 0 {} s).1.toOption = some () ∧ (s.sims[0]?.bind fun o => o.conf.bind fun c => dget c "domain") = some (.dom 0) ∧
    (s.w.pr.block.map Block.problemType) = some (some .differential) ∧
    Ex.tableTimes s = ([some [some 0, some 1]], [true, false]) ∧
    Ex.tableTimes (runSimulation Ex.ext Ex.ratI 0 {} s).2 = ([some [some 0, some 1, some 0, some 1]], [true, false]) := by
  decide +kernel

end Sloth
