import Verif.Props.TableTimes
import Verif.Props.Odes
import Mathlib.Tactic.FieldSimp
import Mathlib.Tactic.Ring

/-!
# The times a run is asked for (C121)
-/

set_option linter.unusedSectionVars false

namespace Sloth
open PyS

section
variable {K : Type} [Field K] [LinearOrder K]

/-- The times a configuration asks for: those listed, or else equally spaced ones. -/
def Spec.Asked (c : Conf) (ts : List K) : Prop :=
  (∃ l, dget c "times_for_solution" = some (.vec l) ∧ ts = l.map fun (q : Rat) => (q : K)) ∨
  (dget c "times_for_solution" = some .none ∧ ∃ t0 t1 n, dget c "initial_time" = some (.num t0) ∧ dget c "end_time" = some (.num t1) ∧
    dget c "number_of_time_steps" = some (.num n) ∧ n.den = 1 ∧ 0 ≤ n ∧ ts = Spec.equallySpaced t0 t1 n.num.toNat)

/-- Whatever it is told on the way, a numerical routine ends with an error or with an answer of the given kind. -/
def Spec.Ends {Q A R : Type} (P : R → Prop) : Prog Q A R → Prop
  | .ret r => P r
  | .fail _ => True
  | .ask _ k => ∀ a, Spec.Ends P (k a)

theorem ends_run {Q A R : Type} {P : R → Prop} {p : Prog Q A R} (hp : Spec.Ends P p) {f : Q → PyS K A} {s s' : SimWorld K} {r : R} (h : p.run f s = (.ok r, s')) : P r := by
  induction p generalizing s with
  | ret b => cases h; exact hp
  | fail e => cases h
  | ask q k ih =>
    obtain ⟨a, s1, -, h2⟩ := bind_ok.1 (show (f q >>= fun a => (k a).run f) s = (.ok r, s') from h)
    exact ih a (hp a) h2

/-- The solver made for a problem of differential equations keeps the settings. -/
theorem createSolver_settings {ext : Ext K} {conf : Conf} {s s' : SimWorld K} {o : DObj} (h : createSolver ext conf s = (.ok (.d o), s')) :
    dget conf "differential_solver" = some o.solver ∧ dget conf "times_for_solution" = some o.times := by
  unfold createSolver at h
  simp only [bind_ok, lift_ok, getBlock_ok] at h
  obtain ⟨lin, s1, ⟨_, rfl⟩, non, s2, ⟨_, rfl⟩, dif, s3, ⟨hdif, rfl⟩, dae, s4, ⟨_, rfl⟩, b', s5, ⟨hb', rfl⟩, h⟩ := h
  generalize b'.problemType = k at h
  rcases k with _ | k
  · cases h
  cases k <;> simp only [solverFor] at h
  · cases h
  · rw [bind_ok] at h
    obtain ⟨m, t, h1, h2⟩ := h
    cases h2
  · rw [bind_ok] at h
    obtain ⟨m, t, h1, h2⟩ := h
    cases h2
    obtain ⟨-, b, dy, -, -, -, -, hs, -, ht, -⟩ := dInit_ok h1
    exact ⟨by rw [hs]; exact dgetE_ok.1 hdif, dgetE_ok.1 ht⟩
  · rw [bind_ok] at h
    obtain ⟨m, t, h1, h2⟩ := h
    cases h2

/-- The integrator is asked for the configured times. -/
theorem d_asked {ext : Ext K} {I : Interp K} {conf : Conf} {o : DObj} (ho : dget conf "times_for_solution" = some o.times)
    (hs : o.solver = .str "CVODE" → ∀ y tp, Spec.Ends (fun q => q.1 = tp) (ext.cvode y tp)) {s s' : SimWorld K} {ts : List K} {Y : List (List K)}
    (h : dSolve ext I conf o s = (.ok (.series ts Y), s')) : Spec.Asked conf ts := by
  unfold dSolve at h
  simp only [bind_ok, lift_ok] at h
  obtain ⟨_, _, ⟨_, rfl⟩, a, _, ⟨ha, rfl⟩, e, _, ⟨he, rfl⟩, n, _, ⟨hn, rfl⟩, tt, s0, ⟨ht, rfl⟩, st, s2, hst, names, _, ⟨_, rfl⟩, y0, s3, ⟨_, rfl⟩, _, s4, hw, tp, s4', ⟨htp, rfl⟩,
    r', s5', hi, rows, s5'', ⟨hrows, rfl⟩, _, s5, ⟨_, rfl⟩, _, s6, hrec, hout⟩ := h
  simp only [PyS.pure, Prod.mk.injEq, Except.ok.injEq, Output.series.injEq] at hout
  obtain ⟨⟨rfl, rfl⟩, -⟩ := hout
  have h1 : r'.1 = tp := by
    clear hrows hrec
    unfold integrate at hi
    generalize hq : o.solver = q at hi
    split at hi
    · simp only [bind_ok] at hi
      obtain ⟨_, _, _, Y, _, _, hi⟩ := hi
      cases hi; rfl
    · simp only [bind_ok] at hi
      obtain ⟨_, _, _, Y, _, _, hi⟩ := hi
      cases hi; rfl
    · simp only [bind_ok] at hi
      obtain ⟨_, _, _, hi⟩ := hi
      exact ends_run (hs hq _ _) hi
    · exact absurd hi raise_ok
  have htt : tt = o.times := by
    have := dgetE_ok.1 ht
    rw [ho] at this
    exact (Option.some.inj this).symm
  subst htt
  have htp' : timePoints a e n o.times = .ok tp := by
    split at htp
    · next h0 => rw [h0]; exact htp
    · exact htp
  rw [h1]
  unfold timePoints at htp'
  split at htp'
  · next h0 =>
    split at htp'
    · next hnum =>
      exact .inr ⟨by rw [ho, h0], _, _, _, dgetE_ok.1 ha, dgetE_ok.1 he, dgetE_ok.1 hn, hnum.1, hnum.2, (Except.ok.inj htp').symm⟩
    · cases htp'
  · next h0 => exact .inl ⟨_, by rw [ho, h0], (Except.ok.inj htp').symm⟩
  · cases htp'

/-- **C121 (partial).** After a run of a system of explicit differential equations over a domain that waited for its table, the simulation and the table hold exactly the times the
configuration asks for, one by one.  Integrators that choose times of their own are trusted to answer at those asked for.  Missing: implicit systems, for which the times listed in the configuration
are ignored (`dae_times_ignored`). -/
theorem asked_times_partial {ext : Ext K} (hans : ∀ y tp, Spec.Ends (fun q => q.1 = tp) (ext.cvode y tp))
    {I : Interp K} {i : SRef} {a : RunArgs} {s s' : SimWorld K} (h : runSimulation ext I i a s = (.ok (), s'))
    {b : Block} (hb : s.w.pr.block = some b) (hk : b.problemType = some .differential)
    {o : SimObj K} (ho : s.sims[i]? = some o) {c : Conf} (hc : o.conf = some c) {r : DRef} (hr : dget c "domain" = some (.dom r))
    {d : DomainObj K} (hd : s.doms[r]? = some d) {x : String} {k : Nat} {f : Frame K} (hf : Spec.Ready d x k f) :
    ∃ o' ts Y, s'.sims[i]? = some o' ∧ o'.output = some (.series ts Y) ∧ Spec.Tabulates s' r x ts Y ∧ Spec.Asked c ts := by
  obtain ⟨o', ts, Y, h1, h2, h3, -⟩ := table_times_partial h hb (.inl hk) ho hc hr hd hf
  refine ⟨o', ts, Y, h1, h2, h3 hk, ?_⟩
  obtain ⟨o1, c', pt, b', sv, t1, t2, t3, ho', hc', hpt, hb', hsv, hsan, hst, hep⟩ := run_parts h
  obtain rfl : o = o1 := Option.some.inj (ho.symm.trans ho')
  obtain rfl : c = c' := Option.some.inj (hc.symm.trans hc')
  obtain ⟨out, s4, o2, hout, ho2, hout2, e3⟩ := solveStore_doms hst
  have hs := congrArg (fun l => l[i]?) (epilogue_output hep)
  simp only [List.getElem?_map, ho2, h1, Option.map_some, Option.some.injEq, Prod.mk.injEq] at hs
  obtain rfl : out = .series ts Y := Option.some.inj (hout2.symm.trans (hs.1.symm.trans h2))
  obtain ⟨b2, k2, hb2, hk2, hcl⟩ := createSolver_kind hsv
  obtain rfl : b = b2 := Option.some.inj (hb.symm.trans hb2)
  obtain rfl : k2 = .differential := Option.some.inj (hk2.symm.trans hk)
  cases sv with
  | d od => exact d_asked (createSolver_settings hsv).2 (fun _ => hans) hout
  | _ => exact hcl.elim

end

section
variable {K : Type} [Field K] [LinearOrder K] [IsStrictOrderedRing K]

/-- Equally spaced times begin with the initial time, end with the end time, and increase if the end is after the beginning. -/
theorem equallySpaced_covers (t0 t1 : Rat) {n : Nat} (hn : 0 < n) :
    (Spec.equallySpaced t0 t1 n : List K).length = n + 1 ∧ (Spec.equallySpaced t0 t1 n : List K)[0]? = some (t0 : K) ∧
    (Spec.equallySpaced t0 t1 n : List K)[n]? = some (t1 : K) ∧ (t0 < t1 → (Spec.equallySpaced t0 t1 n : List K).Pairwise (· < ·)) := by
  have hn' : (n : K) ≠ 0 := by exact_mod_cast hn.ne'
  refine ⟨by simp [Spec.equallySpaced], by simp [Spec.equallySpaced], ?_, fun ht => ?_⟩
  · simp only [Spec.equallySpaced, List.getElem?_map, List.getElem?_range (Nat.lt_succ_self n), Option.map_some, Option.some.injEq]
    field_simp
    ring
  · unfold Spec.equallySpaced
    rw [List.pairwise_map]
    refine List.pairwise_lt_range.imp fun {i j} hij => ?_
    have hd : (0 : K) < ((t1 : K) - (t0 : K)) / (n : K) := div_pos (sub_pos.2 (by exact_mod_cast ht)) (by exact_mod_cast hn)
    have : (i : K) < (j : K) := by exact_mod_cast hij
    exact add_lt_add_right (mul_lt_mul_of_pos_right this hd) _

/-- C121, coverage: a run without listed times and with at least one step leaves a table that has a row more than there are steps, the first at the initial time and the last at the
end time. -/
theorem run_covers {ext : Ext K} (hans : ∀ y tp, Spec.Ends (fun q => q.1 = tp) (ext.cvode y tp))
    {I : Interp K} {i : SRef} {a : RunArgs} {s s' : SimWorld K} (h : runSimulation ext I i a s = (.ok (), s'))
    {b : Block} (hb : s.w.pr.block = some b) (hk : b.problemType = some .differential ∨ b.problemType = some .dae)
    {o : SimObj K} (ho : s.sims[i]? = some o) {c : Conf} (hc : o.conf = some c) {r : DRef} (hr : dget c "domain" = some (.dom r))
    (hnone : dget c "times_for_solution" = some .none) {n : Nat} (hn : dget c "number_of_time_steps" = some (.num n)) (hpos : 0 < n)
    {d : DomainObj K} (hd : s.doms[r]? = some d) {x : String} {k : Nat} {f : Frame K} (hf : Spec.Ready d x k f) :
    ∃ t0 t1 d' f' y y', dget c "initial_time" = some (.num t0) ∧ dget c "end_time" = some (.num t1) ∧ s'.doms[r]? = some d' ∧ d'.values.bind (dget · x) = some f' ∧
      f'.rows.length = n + 1 ∧ f'.rows[0]? = some ((t0 : K) :: y) ∧ f'.rows[n]? = some ((t1 : K) :: y') := by
  have key : ∃ t0 t1 Y, dget c "initial_time" = some (.num t0) ∧ dget c "end_time" = some (.num t1) ∧ Spec.Tabulates s' r x (Spec.equallySpaced t0 t1 n) Y := by
    rcases hk with hk | hk
    · obtain ⟨o', ts, Y, -, -, h3, h4⟩ := asked_times_partial hans h hb hk ho hc hr hd hf
      rcases h4 with ⟨l, hl, -⟩ | ⟨-, t0, t1, m, e1, e2, e3, -, -, rfl⟩
      · rw [hnone] at hl; cases hl
      · rw [hn] at e3; cases e3
        exact ⟨t0, t1, Y, e1, e2, h3⟩
    · obtain ⟨o', ts, Y, -, -, -, h4⟩ := table_times_partial h hb (.inr hk) ho hc hr hd hf
      obtain ⟨t0, t1, m, e1, e2, e3, h5, -⟩ := h4 hk
      rw [hn] at e3; cases e3
      exact ⟨t0, t1, Y, e1, e2, h5⟩
  obtain ⟨t0, t1, Y, e1, e2, hl, d', f', h1, h2, h3, h4⟩ := key
  obtain ⟨c1, c2, c3, -⟩ := equallySpaced_covers (K := K) t0 t1 hpos
  have hY : Y.length = n + 1 := by rw [← hl, c1]
  exact ⟨t0, t1, d', f', Y[0], Y[n], e1, e2, h1, h2, h3.trans hY, h4 0 _ _ c2 (List.getElem?_eq_getElem (by omega)), h4 n _ _ c3 (List.getElem?_eq_getElem (by omega))⟩

/-- C121 for the settings a user writes: with `is_dynamic=True, domain=..., end_time=T` and others that leave the integration alone, a run that returns leaves 101 rows,
the first at 0 and the last at `T`. -/
theorem default_run_covers {ext : Ext K} (hans : ∀ y tp, Spec.Ends (fun q => q.1 = tp) (ext.cvode y tp)) {times : List String} {kw : Conf} (hn : DNodup kw)
    (hkw : ∀ k ∈ dkeys kw, k ∈ dkeys confDefaults ∧
      k ∉ ["problem_type", "differential_solver", "arg_names", "time_variable_name", "initial_time", "number_of_time_steps", "times_for_solution", "compile_equations",
        "print_output", "variable_name_map"]) {r : DRef} {T : Rat} (hdyn : dget kw "is_dynamic" = some (.bool true)) (hr : dget kw "domain" = some (.dom r))
    (hT : dget kw "end_time" = some (.num T))
    {I : Interp K} {i : SRef} {a : RunArgs} {s s' : SimWorld K} (h : runSimulation ext I i a s = (.ok (), s'))
    {b : Block} (hb : s.w.pr.block = some b) (hk : b.problemType = some .differential ∨ b.problemType = some .dae)
    {o : SimObj K} (ho : s.sims[i]? = some o) (hc : o.conf = (configure (some times) kw none none).toOption)
    {d : DomainObj K} (hd : s.doms[r]? = some d) {x : String} {k : Nat} {f : Frame K} (hf : Spec.Ready d x k f) :
    ∃ d' f' y y', s'.doms[r]? = some d' ∧ d'.values.bind (dget · x) = some f' ∧ f'.rows.length = 101 ∧ f'.rows[0]? = some (0 :: y) ∧ f'.rows[100]? = some ((T : K) :: y') := by
  obtain ⟨c, hconf, htimed⟩ := timed_settings (times := times) hn hkw hdyn hr hT
  rw [hconf] at hc
  obtain ⟨t0, t1, d', f', y, y', e1, e2, h1, h2, h3, h4, h5⟩ :=
    run_covers hans h hb hk ho hc htimed.domain htimed.chosen (n := 100) htimed.steps (by norm_num) hd hf
  rw [htimed.start] at e1; cases e1
  rw [htimed.stop] at e2; cases e2
  exact ⟨d', f', y, y', h1, h2, h3, by simpa using h4, h5⟩

end

namespace Ex
/-- The times in the tables of the domains, and whether the simulations have results. -/
def tableTimes (s : SimWorld Rat) : List (Option (List (Option Rat))) × List Bool :=
  (s.doms.map fun d => (d.values.bind (dget · "t")).map fun f => f.rows.map fun l => l.head?, s.sims.map fun o => o.output.isSome)
end Ex

/-- C121 fails for implicit systems: the times listed in the configuration are ignored. -/
theorem dae_times_ignored :
    Ex.tableTimes (simHistory Ex.echo Ex.ratI (Ex.daeRun Ex.daeInit [("time_variable_name", .str "t_m"), ("times_for_solution", .vec [0, 3])])) =
      ([some [some 0, some (1 / 2), some 1]], [true]) := by
  decide +kernel

/-- Without steps a run returns although it never reaches the end time. -/
theorem no_steps : Ex.tableTimes (simHistory Ex.ext Ex.ratI (Ex.odeRun Ex.ode (dset Ex.dyn "number_of_time_steps" (.num 0)) {})) =
    ([some [some 0]], [true, false]) := by
  decide +kernel

/-- The hypotheses of `asked_times_partial` are met, with listed times and without, and of `run_covers` (see also the examples of `table_times_partial`). -/
example : Ex.tableTimes (simHistory Ex.ext Ex.ratI (Ex.odeRun Ex.ode (dset Ex.dyn "times_for_solution" (.vec [0, 3])) {})) =
      ([some [some 0, some 3]], [true, false]) ∧
    Ex.tableTimes (simHistory Ex.ext Ex.ratI (Ex.odeRun Ex.ode Ex.dyn {})) =
      ([some [some 0, some (1 / 2), some 1]], [true, false]) ∧
    (let s := simHistory Ex.ext Ex.ratI (Ex.odeRun Ex.ode Ex.dyn {})
     s.sims[0]?.bind fun o => o.conf.bind fun c => dget c "times_for_solution") = some .none := by
  decide +kernel

/-- The sample integrator answers at the times asked for. -/
example : ∀ y tp, Spec.Ends (fun q => q.1 = tp) (Ex.ext.cvode y tp) := fun _ _ => rfl

/-- The hypotheses of `default_run_covers` are met by the sample with the settings of a user: the run returns, from a domain that waits for its table. -/
example : (runSimulation Ex.ext Ex.ratI 0 {} Ex.pairReady).1.toOption = some () ∧ (Ex.pairReady.w.pr.block.map Block.problemType) = some (some .differential) ∧
    (Ex.pairReady.sims.map SimObj.conf) = [(configure (some ["t_m"]) Ex.kwDyn none none).toOption] ∧
    (∃ d f, Ex.pairReady.doms[0]? = some d ∧ Spec.Ready d "t" 2 f) ∧
    (runSimulation Ex.ext Ex.ratI 0 {} Ex.pairReady).2.doms.map (fun d => (d.values.bind (dget · "t")).map fun f => (f.rows.length, f.rows[100]?)) = [some (101, some [5, 11, 2])] := by
  refine ⟨by decide +kernel, by decide +kernel, rfl, ⟨_, _, rfl, fresh_domain "d" "t" ["x", "y"] (by decide) (by decide)⟩, by decide +kernel⟩

end Sloth
