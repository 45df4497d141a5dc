import Verif.Props.TableGrows

/-!
# No run loses rows (C122, for runs that raise as well)
-/

set_option linter.unusedSectionVars false

namespace Sloth
open PyS

section
variable {K : Type} [Field K] [LinearOrder K]

/-- Every table of a domain is still there, with its rows first. -/
def Spec.Extends (d d' : DomainObj K) : Prop :=
  ∀ y f, d.values.bind (dget · y) = some f → f.cols ≠ [] → ∃ f', d'.values.bind (dget · y) = some f' ∧ f'.cols ≠ [] ∧ f.rows <+: f'.rows

/-- Every domain is still there, with its tables. -/
def Spec.RowsKept (s s' : SimWorld K) : Prop := ∀ (r : DRef) (d : DomainObj K), s.doms[r]? = some d → ∃ d', s'.doms[r]? = some d' ∧ Spec.Extends d d'

theorem Spec.Extends.refl (d : DomainObj K) : Spec.Extends d d := fun _ f h hc => ⟨f, h, hc, List.prefix_rfl⟩

theorem Spec.Extends.trans {d e g : DomainObj K} (h1 : Spec.Extends d e) (h2 : Spec.Extends e g) : Spec.Extends d g := by
  intro y f h hc
  obtain ⟨f', a1, a2, a3⟩ := h1 y f h hc
  obtain ⟨f'', b1, b2, b3⟩ := h2 y f' a1 a2
  exact ⟨f'', b1, b2, a3.trans b3⟩

theorem Spec.RowsKept.refl (s : SimWorld K) : Spec.RowsKept s s := fun _ d h => ⟨d, h, Spec.Extends.refl d⟩

theorem Spec.RowsKept.trans {s t u : SimWorld K} (h1 : Spec.RowsKept s t) (h2 : Spec.RowsKept t u) : Spec.RowsKept s u := by
  intro r d h
  obtain ⟨d', a1, a2⟩ := h1 r d h
  obtain ⟨d'', b1, b2⟩ := h2 r d' a1
  exact ⟨d'', b1, a2.trans b2⟩

theorem Spec.RowsKept.of_doms {s s' : SimWorld K} (h : s'.doms = s.doms) : Spec.RowsKept s s' := fun r d hd => ⟨d, by rw [h]; exact hd, Spec.Extends.refl d⟩

theorem register_extends {rows : List (List K)} {v : Option String} {d d' : DomainObj K} (h : d.register rows v = .ok d') : Spec.Extends d d' := by
  unfold DomainObj.register at h
  rw [bind_eq_ok] at h
  obtain ⟨x, -, h⟩ := h
  split at h
  · cases h
  · next vals hv =>
    simp only [bind_eq_ok, Except.ok.injEq] at h
    obtain ⟨f, hf, f1, hf1, rfl⟩ := h
    have hf := dgetE_ok.1 hf
    intro y g hg hc
    simp only [hv, Option.bind_some] at hg ⊢
    by_cases hy : y = x
    · subst hy
      obtain rfl : f = g := Option.some.inj (hf.symm.trans hg)
      refine ⟨f1, dget_dset_self .., ?_⟩
      unfold DomainObj.extend at hf1
      split at hf1
      · next he =>
        unfold DomainObj.mkFrame at hf1
        split at hf1
        · simp only [DomainObj.Frame.isEmpty, Bool.or_eq_true, List.isEmpty_iff] at he
          rw [he.resolve_right hc, ← Except.ok.inj hf1]
          exact ⟨hc, List.nil_prefix⟩
        · cases hf1
      · next he =>
        split at hf1
        · simp only [bind_eq_ok] at hf1
          obtain ⟨rs, hrs, hf1⟩ := hf1
          simp only [DomainObj.Frame.isEmpty, Bool.or_eq_true, List.isEmpty_iff, not_or] at he
          unfold DomainObj.mkFrame at hf1
          split at hf1
          · rw [← Except.ok.inj hf1]
            unfold DomainObj.vstack at hrs
            split at hrs
            · rw [← Except.ok.inj hrs]
              exact ⟨by simp [DomainObj.index, he.1], List.prefix_append _ _⟩
            · cases hrs
          · cases hf1
        · cases hf1
    · exact ⟨g, by rw [dget_dset_ne _ _ (Ne.symm hy)]; exact hg, hc, List.prefix_rfl⟩

theorem renameHeaders_extends {m : Dict String String} {d d' : DomainObj K} (h : d.renameHeaders m = .ok d') : Spec.Extends d d' := by
  unfold DomainObj.renameHeaders at h
  split at h
  · cases h
  · next vals hv =>
    cases h
    intro y g hg hc
    simp only [hv, Option.bind_some] at hg ⊢
    have := dget_map_val vals (fun _ (g : Frame K) => ({ g with cols := g.cols.map (DomainObj.Label.rename m) } : Frame K)) y
    rw [hg] at this
    exact ⟨_, this, by simpa using hc, List.prefix_rfl⟩

theorem rowsKept_set {s : SimWorld K} {r : DRef} {d d' : DomainObj K} (hd : s.doms[r]? = some d) (h : Spec.Extends d d') : Spec.RowsKept s { s with doms := s.doms.set r d' } := by
  intro r' e he
  have hlt : r < s.doms.length := (List.getElem?_eq_some_iff.mp hd).1
  by_cases hr : r = r'
  · subst hr
    obtain rfl : d = e := Option.some.inj (hd.symm.trans he)
    exact ⟨d', by simp [hlt], h⟩
  · exact ⟨e, by simp only [List.getElem?_set_ne hr]; exact he, Spec.Extends.refl e⟩

/-- Whatever happens, rows are kept. -/
def Spec.KeepsRows {α : Type} (x : PyS K α) : Prop := ∀ s, Spec.RowsKept s (x s).2

namespace Spec.KeepsRows

theorem of_keeps {α : Type} {x : PyS K α} (h : Keeps (fun s : SimWorld K => s.doms) x) : Spec.KeepsRows x := fun s => .of_doms (h s)

theorem bind {α β : Type} {x : PyS K α} {f : α → PyS K β} (hx : Spec.KeepsRows x) (hf : ∀ a, Spec.KeepsRows (f a)) : Spec.KeepsRows (x >>= f) := by
  intro s
  have h := hx s
  show Spec.RowsKept s (PyS.bind x f s).2
  unfold PyS.bind
  rcases hq : x s with ⟨_ | a, s1⟩
  · rw [hq] at h; exact h
  · rw [hq] at h; exact h.trans (hf a s1)

theorem recording (conf : Conf) (dom : CVal) (rows : List (List K)) : Spec.KeepsRows (record conf dom rows) := by
  intro s
  cases dom with
  | dom r =>
    simp only [Sloth.record]
    cases hr : s.doms[r]? with
    | none => rw [bind_of_error (e := .exception "dangling") (s1 := s) (by rw [getD, hr])]; exact .refl s
    | some d =>
      rw [bind_of_ok (a := d) (s1 := s) (by rw [getD, hr])]
      cases h1 : d.register rows none with
      | error e => rw [bind_lift_error rfl]; exact .refl s
      | ok d1 =>
        rw [bind_lift_ok rfl]
        have k1 := rowsKept_set (s := s) hr (register_extends h1)
        show Spec.RowsKept s ((PyS.lift (dgetE conf "variable_name_map") >>= _) { s with doms := s.doms.set r d1 }).2
        cases h2 : dgetE conf "variable_name_map" with
        | error e => rw [bind_lift_error rfl]; exact k1
        | ok m =>
          rw [bind_lift_ok rfl]
          split
          · next m =>
            cases h3 : d1.renameHeaders m with
            | error e => rw [bind_lift_error rfl]; exact k1
            | ok d2 =>
              rw [bind_lift_ok rfl]
              have hi := (List.getElem?_eq_some_iff.1 hr).1
              exact k1.trans (rowsKept_set (s := { s with doms := s.doms.set r d1 }) (List.getElem?_set_self hi) (renameHeaders_extends h3))
          · exact k1
  | _ => exact .refl s

theorem lift {α : Type} (a : Except Err α) : Spec.KeepsRows (PyS.lift a : PyS K α) := .of_keeps (Keeps.lift _ _)

theorem solve (sv : SolverObj) (ext : Ext K) (I : Interp K) (conf : Conf) : Spec.KeepsRows (sv.solve ext I conf) := by
  have hl : ∀ (s : SimWorld K) l, (fun s : SimWorld K => s.doms) { s with log := l } = s.doms := fun _ _ => rfl
  cases sv with
  | la m => exact .of_keeps (Keeps.bind (keeps_laSolve hl _ _ _) fun _ => Keeps.pure _ _)
  | nla m => exact .of_keeps (Keeps.bind (keeps_nlaSolve hl _ _ _ _) fun _ => Keeps.pure _ _)
  | d o =>
    show Spec.KeepsRows (dSolve ext I conf o)
    unfold dSolve
    exact bind (lift _) fun _ => bind (lift _) fun _ => bind (lift _) fun _ => bind (lift _) fun _ => bind (lift _) fun _ => bind (of_keeps (Keeps.get _)) fun _ =>
      bind (lift _) fun _ => bind (lift _) fun _ => bind (of_keeps (Keeps.when (Keeps.raise _ _))) fun _ => bind (lift _) fun _ =>
      bind (fun s => .of_doms (integrate_doms _ _ _ _ _ s)) fun _ => bind (lift _) fun _ => bind (lift _) fun _ => bind (recording _ _ _) fun _ => of_keeps (Keeps.pure _ _)
  | dae o =>
    show Spec.KeepsRows (daeSolve ext I conf o)
    unfold daeSolve
    exact bind (lift _) fun _ => bind (lift _) fun _ => bind (lift _) fun _ => bind (lift _) fun _ => bind (of_keeps (Keeps.when (Keeps.raise _ _))) fun _ =>
      bind (lift _) fun _ => bind (of_keeps (Keeps.get _)) fun _ => bind (of_keeps (Keeps.getBlock _)) fun _ => bind (lift _) fun _ => bind (lift _) fun _ => bind (lift _) fun _ =>
      bind (fun s => .of_doms (integrateDae_doms _ _ _ _ _ _ _ _ s)) fun _ => bind (lift _) fun _ => bind (lift _) fun _ => bind (recording _ _ _) fun _ => of_keeps (Keeps.pure _ _)

end Spec.KeepsRows

/-- C122 for every run: whether it returns or raises, whatever the problem, every table of every domain keeps its rows, in front of those added. -/
theorem run_keeps_rows (ext : Ext K) (I : Interp K) (i : SRef) (a : RunArgs) (s : SimWorld K) : Spec.RowsKept s (runSimulation ext I i a s).2 := by
  have : Spec.KeepsRows (runSimulation ext I i a) := by
    unfold runSimulation
    refine Spec.KeepsRows.bind (.of_keeps (Keeps.getSim _ _)) fun o => Spec.KeepsRows.bind (.lift _) fun c => Spec.KeepsRows.bind (.lift _) fun pt => Spec.KeepsRows.bind (.lift _) fun _ =>
      Spec.KeepsRows.bind ?_ fun k => Spec.KeepsRows.bind (.of_keeps (Keeps.when (Keeps.raise _ _))) fun _ =>
      Spec.KeepsRows.bind (.of_keeps (keeps_createSolver (fun _ _ => rfl) (fun _ _ _ _ => rfl) ext c)) fun sv =>
      Spec.KeepsRows.bind (.of_keeps (keeps_sanity _ ext a.sanity)) fun _ => Spec.KeepsRows.bind ?_ fun _ =>
      .of_keeps (keeps_epilogue (fun _ _ _ _ => rfl) pt a.showMsg a.showResiduals)
    · unfold askKind
      split
      · exact .of_keeps (Keeps.bind (Keeps.getBlock _) fun _ => Keeps.pure _ _)
      · exact .of_keeps (Keeps.pure _ _)
    · unfold solveStore
      exact Spec.KeepsRows.bind (.solve sv ext I c) fun out => .of_keeps (keeps_setSim (fun s o h => rfl) fun _ =>
        Keeps.bind (Keeps.lift _ _) fun d => Keeps.bind (Keeps.getSim _ _) fun _ => Keeps.modify fun _ => rfl)
  exact this s

/-- And for any number of runs, some of which may raise. -/
theorem runs_keep_rows (ext : Ext K) (I : Interp K) (l : List (SRef × RunArgs)) (s : SimWorld K) :
    Spec.RowsKept s (l.foldl (fun s p => (runSimulation ext I p.1 p.2 s).2) s) := by
  induction l generalizing s with
  | nil => exact .refl s
  | cons p l ih => exact (run_keeps_rows ext I p.1 p.2 s).trans (ih _)

end

/-- A session to which `runs_keep_rows` applies: the table has rows and columns, and both runs change the domain or raise. -/
example : let s := simHistory Ex.ext Ex.ratI Ex.ranTwice.dropLast
    Ex.tableTimes s = ([some [some 0, some 1]], [true, false]) ∧ (s.doms.map fun d => (d.values.bind (dget · "t")).map fun f => f.cols.length) = [some 2] ∧
    Ex.tableTimes ([(0, {}), (0, {})].foldl (fun s p => (runSimulation Ex.ext Ex.ratI p.1 p.2 s).2) s) = ([some [some 0, some 1, some 0, some 1]], [true, false]) := by
  decide +kernel

end Sloth
