import Verif.Props.Solvers
import Verif.Props.Odes

/-!
# Systems of differential and algebraic equations (C82)

The residual function the code compiles, against the stated equations.
-/

namespace Sloth

open PyS

section
variable {K : Type} [Field K] [LinearOrder K]

/-! ## Specification -/

/-- The symbols and derivatives that occur in an expression. -/
def Spec.atoms : Sym → List Atom
  | .num _ => []
  | .atom a => [a]
  | .add a b | .sub a b | .mul a b | .div a b | .pow a b | .mm _ a b => Spec.atoms a ++ Spec.atoms b
  | .fn _ a => Spec.atoms a

/-- The last place of `d` in the list. -/
def Spec.LastAt {α : Type} (l : List α) (d : α) (i : Nat) : Prop := l[i]? = some d ∧ ∀ j, i < j → l[j]? ≠ some d

/-- The assignment that belongs to vectors `y` and `yd`: the unknowns have the values of `y`, the derivatives those of `yd`, in order; of
several places of a derivative the last one counts. -/
structure Spec.AtPoint (vs : List String) (ds : List Sym) (y yd : List K) (ρ : Atom → K) : Prop where
  state : ∀ (i : Nat) n, vs[i]? = some n → y[i]? = some (ρ (.v n))
  rate : ∀ (i : Nat) x t, Spec.LastAt ds (.atom (.d x t)) i → yd[i]? = some (ρ (.d x t))

/-- A symbol or derivative has a place in one of the vectors. -/
def Spec.Placed (vs : List String) (ds : List Sym) : Atom → Prop
  | .v n => n ∈ vs
  | .d x t => Sym.atom (.d x t) ∈ ds

/-- The equations of the block are those of the statements, and their residuals contain only unknowns and derivatives that are placed. -/
def Spec.ImplicitSystem (es : List EqObj) (b : Block) (ds : List Sym) (sts : List Stmt) : Prop :=
  List.Forall₂ (fun r st => ∃ e n, es[r]? = some e ∧ e.States st ∧ e.expr = some n ∧ ∀ a ∈ Spec.atoms n.sym.expr, Spec.Placed b.varList ds a)
    b.equations sts

/-! ## Names -/

theorem yName_inj {i j : Nat} : yName i = yName j ↔ i = j := by
  refine ⟨fun h => ?_, fun h => by rw [h]⟩
  unfold yName at h
  have h1 := congrArg String.toList h
  simp only [String.toList_append, List.append_assoc, List.append_cancel_left_eq, List.append_cancel_right_eq] at h1
  exact Nat.repr_injective (String.toList_inj.1 h1)

theorem ydName_inj {i j : Nat} : ydName i = ydName j ↔ i = j := by
  refine ⟨fun h => ?_, fun h => by rw [h]⟩
  unfold ydName at h
  have h1 := congrArg String.toList h
  simp only [String.toList_append, List.append_assoc, List.append_cancel_left_eq, List.append_cancel_right_eq] at h1
  exact Nat.repr_injective (String.toList_inj.1 h1)

theorem yName_head (i : Nat) : (yName i).toList.take 2 = ['y', '['] := by
  unfold yName; simp [String.toList_append]

theorem ydName_head (i : Nat) : (ydName i).toList.take 2 = ['y', 'd'] := by
  unfold ydName; simp [String.toList_append]

theorem yName_ne_ydName (i j : Nat) : yName i ≠ ydName j := by
  intro h
  have := yName_head i
  rw [h, ydName_head] at this
  simp at this

theorem yName_ne_t (i : Nat) : yName i ≠ "t" := by
  intro h
  have := yName_head i
  rw [h] at this
  simp at this

theorem ydName_ne_t (i : Nat) : ydName i ≠ "t" := by
  intro h
  have := ydName_head i
  rw [h] at this
  simp at this

/-! ## The dictionaries -/

theorem dget_zipIdx_names {f : Nat → String} (hf : ∀ i j, f i = f j → i = j) (y : List K) (k i : Nat) (rest : Dict String K) (hr : dget rest (f (k + i)) = none) :
    dget ((y.zipIdx k).map (fun p => (f p.2, p.1)) ++ rest) (f (k + i)) = y[i]? := by
  induction y generalizing k i with
  | nil => simpa using hr
  | cons x t ih =>
    rw [List.zipIdx_cons, List.map_cons, List.cons_append, dget_cons]
    cases i with
    | zero => simp
    | succ i =>
      have hne : f k ≠ f (k + (i + 1)) := fun h => by have := hf _ _ h; omega
      rw [if_neg (by simpa using hne), List.getElem?_cons_succ, ← ih (k + 1) i (by rw [Nat.add_right_comm, Nat.add_assoc]; exact hr)]
      congr 2
      omega

theorem dget_names_none {f : Nat → String} {s : String} (hs : ∀ i, f i ≠ s) (y : List K) (k : Nat) : dget ((y.zipIdx k).map fun p => (f p.2, p.1)) s = none := by
  rw [dget_eq_none_iff]
  unfold dkeys
  rw [List.map_map, List.mem_map]
  rintro ⟨p, _, h⟩
  exact hs _ h

theorem dget_append_none {d e : Dict String K} {s : String} (h : dget d s = none) : dget (d ++ e) s = dget e s := by
  induction d with
  | nil => rfl
  | cons p t ih =>
    obtain ⟨x, v⟩ := p
    rw [dget_cons] at h
    rw [List.cons_append, dget_cons]
    split at h
    · cases h
    · next hx => rw [if_neg hx]; exact ih h

theorem residualEnv_y (t : K) (y yd : List K) (i : Nat) : dget (residualEnv t y yd) (yName i) = y[i]? := by
  unfold residualEnv
  rw [dget_cons, if_neg (yName_ne_t i).symm]
  have := dget_zipIdx_names (f := yName) (fun i j => yName_inj.1) y 0 i (yd.zipIdx.map fun p => (ydName p.2, p.1))
    (dget_names_none (f := ydName) (s := yName (0 + i)) (fun j h => yName_ne_ydName (0 + i) j h.symm) yd 0)
  simpa using this

theorem residualEnv_yd (t : K) (y yd : List K) (i : Nat) : dget (residualEnv t y yd) (ydName i) = yd[i]? := by
  unfold residualEnv
  rw [dget_cons, if_neg (ydName_ne_t i).symm, dget_append_none (dget_names_none (fun j h => yName_ne_ydName j i h) _ _)]
  have := dget_zipIdx_names (f := ydName) (fun i j => ydName_inj.1) yd 0 i [] rfl
  simpa using this

theorem dget_lastAt {α β : Type} [DecidableEq α] (f : Nat → β) (l : List α) (a : α) (k : Nat) (d0 : Dict α β) :
    (a ∉ l → dget (dupdate d0 ((l.zipIdx k).map fun p => (p.1, f p.2))) a = dget d0 a) ∧
    (a ∈ l → ∃ i, Spec.LastAt l a i ∧ dget (dupdate d0 ((l.zipIdx k).map fun p => (p.1, f p.2))) a = some (f (k + i))) := by
  induction l generalizing k d0 with
  | nil => simp [dupdate]
  | cons x t ih =>
    have e : dupdate d0 (((x :: t).zipIdx k).map fun p => (p.1, f p.2)) = dupdate (dset d0 x (f k)) ((t.zipIdx (k + 1)).map fun p => (p.1, f p.2)) := rfl
    rw [e]
    obtain ⟨h1, h2⟩ := ih (k + 1) (dset d0 x (f k))
    refine ⟨fun h => ?_, fun h => ?_⟩
    · rw [List.mem_cons, not_or] at h
      rw [h1 h.2, dget_dset_ne _ _ (fun q => h.1 q.symm)]
    · by_cases ht : a ∈ t
      · obtain ⟨i, ⟨q1, q2⟩, q3⟩ := h2 ht
        refine ⟨i + 1, ⟨by simpa using q1, fun j hj => ?_⟩, by rw [q3]; congr 2; omega⟩
        cases j with
        | zero => omega
        | succ j => simpa using q2 j (by omega)
      · obtain rfl : a = x := (List.mem_cons.1 h).resolve_right ht
        refine ⟨0, ⟨rfl, fun j hj => ?_⟩, by rw [h1 ht, dget_dset_self]; rfl⟩
        cases j with
        | zero => omega
        | succ j => exact fun q => ht (List.mem_of_getElem? (by simpa using q))

theorem dget_ydMap {ds : List Sym} {d : Sym} (h : d ∈ ds) : ∃ i, Spec.LastAt ds d i ∧ dget (ydMap ds) d = some (.var (ydName i)) := by
  obtain ⟨i, h1, h2⟩ := (dget_lastAt (fun i => Sym.var (ydName i)) ds d 0 []).2 h
  exact ⟨i, h1, by rw [Nat.zero_add] at h2; exact h2⟩

theorem dget_yMap {vs : List String} {n : String} (h : n ∈ vs) : ∃ i, Spec.LastAt vs n i ∧ dget (yMap vs) n = some (.var (yName i)) := by
  obtain ⟨i, h1, h2⟩ := (dget_lastAt (fun i => Sym.var (yName i)) vs n 0 []).2 h
  exact ⟨i, h1, by rw [Nat.zero_add] at h2; exact h2⟩

theorem dkeys_vars (d : Dict String Sym) : dkeys (d.map fun p => (Sym.var p.1, p.2)) = (dkeys d).map Sym.var := by
  unfold dkeys; rw [List.map_map, List.map_map]; rfl

theorem nodup_vars {d : Dict String Sym} (h : DNodup d) : DNodup (d.map fun p => (Sym.var p.1, p.2)) := by
  unfold DNodup; rw [dkeys_vars]
  exact h.map (fun a b q => by simpa using q)

theorem dget_vars (d : Dict String Sym) (n : String) : dget (d.map fun p => (Sym.var p.1, p.2)) (.var n) = dget d n := by
  induction d with
  | nil => rfl
  | cons p t ih =>
    obtain ⟨x, v⟩ := p
    rw [List.map_cons, dget_cons, dget_cons, ih]
    by_cases h : x = n <;> simp [h]

theorem yMap_nodup (vs : List String) : DNodup (yMap vs) := dofList_nodup _

theorem rewriteMap_var {ds : List Sym} {vs : List String} {n : String} (h : n ∈ vs) :
    ∃ i, Spec.LastAt vs n i ∧ dget (rewriteMap ds vs) (.atom (.v n)) = some (.var (yName i)) := by
  obtain ⟨i, h1, h2⟩ := dget_yMap h
  refine ⟨i, h1, ?_⟩
  unfold rewriteMap
  rw [dget_dupdate _ (nodup_vars (yMap_nodup vs)), dget_vars, h2]
  rfl

theorem rewriteMap_other {ds : List Sym} {vs : List String} {s : Sym} (h : ∀ n ∈ vs, s ≠ .var n) : dget (rewriteMap ds vs) s = dget (ydMap ds) s := by
  unfold rewriteMap
  rw [dget_dupdate_of_not_mem]
  rw [dkeys_vars, dkeys_yMap, List.mem_map]
  rintro ⟨n, hn, rfl⟩
  exact h n (by simpa using hn) rfl

theorem rewriteMap_d {ds : List Sym} {vs : List String} {x t : String} (h : Sym.atom (.d x t) ∈ ds) :
    ∃ i, Spec.LastAt ds (.atom (.d x t)) i ∧ dget (rewriteMap ds vs) (.atom (.d x t)) = some (.var (ydName i)) := by
  obtain ⟨i, h1, h2⟩ := dget_ydMap h
  refine ⟨i, h1, ?_⟩
  rw [rewriteMap_other (fun n _ => by simp), h2]

/-- Only derivatives and unknowns are replaced. -/
theorem rewriteMap_none {ds : List Sym} {vs : List String} (hat : ∀ d ∈ ds, ∃ x t, d = .atom (.d x t)) {s : Sym} (hs : ∀ a, s ≠ .atom a) :
    dget (rewriteMap ds vs) s = none := by
  rw [rewriteMap_other (fun n _ => hs _), dget_eq_none_iff, dkeys_ydMap]
  intro h
  obtain ⟨x, t, rfl⟩ := hat s (by simpa using h)
  exact hs _ rfl

/-! ## Rewritten expressions -/

/-- What a symbol or derivative is rewritten to. -/
theorem rewritten_atom {ds : List Sym} {vs : List String} (a : Atom) (h : Spec.Placed vs ds a) :
    ∃ n, dget (rewriteMap ds vs) (.atom a) = some (.var n) ∧
      ((∃ m i, a = .v m ∧ Spec.LastAt vs m i ∧ n = yName i) ∨ (∃ x t i, a = .d x t ∧ Spec.LastAt ds (.atom (.d x t)) i ∧ n = ydName i)) := by
  cases a with
  | v m =>
    obtain ⟨i, h1, h2⟩ := rewriteMap_var (ds := ds) h
    exact ⟨_, h2, .inl ⟨m, i, rfl, h1, rfl⟩⟩
  | d x t =>
    obtain ⟨i, h1, h2⟩ := rewriteMap_d (vs := vs) h
    exact ⟨_, h2, .inr ⟨x, t, i, rfl, h1, rfl⟩⟩

theorem replace_facts (I : Interp K) {m : Dict Sym Sym} (hm : ∀ s : Sym, (∀ a, s ≠ .atom a) → dget m s = none) {ρ σ : Atom → K} {P : String → Prop} (s : Sym)
    (hs : ∀ a ∈ Spec.atoms s, ∃ n, dget m (.atom a) = some (.var n) ∧ P n ∧ σ (.v n) = ρ a) :
    (s.replace m).hasD = false ∧ (∀ n ∈ (s.replace m).free, P n) ∧ (s.replace m).eval I σ = s.eval I ρ := by
  induction s with
  | num q => simp [Sym.replace, hm, Sym.hasD, Sym.free, Sym.eval]
  | atom a =>
    obtain ⟨n, h1, h2, h3⟩ := hs a (by simp [Spec.atoms])
    simp [Sym.replace, h1, Sym.hasD, Sym.free, Sym.eval, h2, h3]
  | fn f a ih =>
    obtain ⟨h1, h2, h3⟩ := ih hs
    rw [Sym.replace, hm]
    · simp only [Option.getD_none, Sym.hasD, Sym.free, Sym.eval, h3]
      exact ⟨h1, h2, trivial⟩
    · intro _ h; cases h
  | add a b iha ihb | sub a b iha ihb | mul a b iha ihb | div a b iha ihb | pow a b iha ihb | mm _ a b iha ihb =>
    simp only [Spec.atoms, List.mem_append] at hs
    obtain ⟨a1, a2, a3⟩ := iha fun x hx => hs x (.inl hx)
    obtain ⟨b1, b2, b3⟩ := ihb fun x hx => hs x (.inr hx)
    rw [Sym.replace, hm]
    · simp only [Option.getD_none, Sym.hasD, Sym.free, Sym.eval, a3, b3, a1, b1, Bool.or_false, List.mem_append, true_and, and_true]
      rintro n (h | h)
      · exact a2 n h
      · exact b2 n h
    · intro _ h; cases h

/-! ## The residual function -/

theorem residualSystem_ok {ext : Ext K} {es : List EqObj} {b : Block} {c : List String × List Sym} (h : residualSystem ext es b = .ok c) :
    ∃ ds l, Spec.Derivatives ext.diffTerms es b.differential ds ∧ Block.getEquationList es (some .residual) .rhs b.equations = .ok l ∧
      c.1 = ds.zipIdx.map (fun p => ydName p.2) ++ b.varList.zipIdx.map (fun p => yName p.2) ∧
      List.Forall₂ (fun (s : SObj) r => s.isPy = false ∧ r = s.expr.replace (rewriteMap ds b.varList)) l c.2 := by
  unfold residualSystem at h
  simp only [bind_eq_ok] at h
  obtain ⟨ds, h1, l, h2, r, h3, h4⟩ := h
  cases h4
  refine ⟨ds, l, diffList_ok.1 h1, h2, rfl, (mapM_forall2.1 h3).imp fun s r hr => ?_⟩
  unfold rewriteEqn at hr
  split at hr
  · cases hr
  · next hp =>
    split at hr
    · cases hr
    · cases hr; exact ⟨by simpa using hp, rfl⟩

theorem residual_expr {e : EqObj} {n : ENode} {s : SObj} (hn : e.expr = some n) (h : e.symbolicObject (some .residual) .rhs = .ok s) : s = n.sym := by
  simp only [EqObj.symbolicObject, EqObj.getNode, Option.getD_some, hn, ok_bind, Except.ok.injEq] at h
  exact h.symm

theorem lastAt_unique {α : Type} {l : List α} {a : α} {i j : Nat} (hi : Spec.LastAt l a i) (hj : Spec.LastAt l a j) : i = j := by
  rcases Nat.lt_trichotomy i j with h | h | h
  · exact absurd hj.1 (hi.2 j h)
  · exact h
  · exact absurd hi.1 (hj.2 i h)

theorem mem_places (f : Nat → String) {α : Type} (l : List α) (i : Nat) (h : i < l.length) : f i ∈ l.zipIdx.map fun p => f p.2 :=
  List.mem_map.2 ⟨(l[i], i), by simp [List.mem_zipIdx_iff_getElem?, h], rfl⟩

/-- C82 (partial): the residual function compiled for a system of differential and algebraic equations has, for vectors `y` and `yd`, one entry for
each equation of the block, in order: the stated residual (left minus right side), where the unknowns have the values of `y` and the derivatives those of `yd`.
Here SymPy finds whole derivatives, and all unknowns and derivatives have a place.
Missing: the derivatives are numbered in the order in which they occur, not as the unknowns (`dae_derivatives_misplaced`). -/
theorem dae_function_partial {ext : Ext K} {I : Interp K} {es : List EqObj} {b : Block} {c : List String × List Sym} (hc : residualSystem ext es b = .ok c)
    {ds : List Sym} (hds : Spec.Derivatives ext.diffTerms es b.differential ds) (hat : ∀ d ∈ ds, ∃ x t, d = .atom (.d x t))
    {sts : List Stmt} (hsys : Spec.ImplicitSystem es b ds sts) {y yd : List K} {ρ : Atom → K} (hρ : Spec.AtPoint b.varList ds y yd ρ) (t : K) :
    residualAt I c t y yd = .ok (sts.map (Spec.residual I ρ)) := by
  obtain ⟨ds', l, h1, h2, h3, h4⟩ := residualSystem_ok hc
  obtain rfl : ds = ds' := by
    have e1 := diffList_ok.2 hds
    rw [diffList_ok.2 h1] at e1
    exact (Except.ok.inj e1).symm
  let σ : Atom → K := fun a => match a with
    | .v n => (dget (residualEnv t y yd) n).getD 0
    | .d _ _ => 0
  let P : String → Prop := fun n => n ∈ c.1 ∧ (dget (residualEnv t y yd) n).isSome
  have hatom : ∀ a, Spec.Placed b.varList ds a → ∃ n, dget (rewriteMap ds b.varList) (.atom a) = some (.var n) ∧ P n ∧ σ (.v n) = ρ a := by
    intro a ha
    obtain ⟨n, q1, q2⟩ := rewritten_atom a ha
    refine ⟨n, q1, ?_⟩
    rcases q2 with ⟨m, i, rfl, hl, rfl⟩ | ⟨x, u, i, rfl, hl, rfl⟩
    · have hv := hρ.state i m hl.1
      refine ⟨⟨?_, by rw [residualEnv_y, hv]; rfl⟩, by simp only [σ]; rw [residualEnv_y, hv]; rfl⟩
      rw [h3]
      exact List.mem_append_right _ (mem_places yName _ i (List.getElem?_eq_some_iff.1 hl.1).1)
    · have hv := hρ.rate i x u hl
      refine ⟨⟨?_, by rw [residualEnv_yd, hv]; rfl⟩, by simp only [σ]; rw [residualEnv_yd, hv]; rfl⟩
      rw [h3]
      exact List.mem_append_left _ (mem_places ydName _ i (List.getElem?_eq_some_iff.1 hl.1).1)
  have hall : List.Forall₂ (fun (r : Sym) st => (r.hasD = false ∧ ∀ n ∈ r.free, P n) ∧ r.eval I σ = Spec.residual I ρ st) c.2 sts := by
    refine (forall2_compose h4 (forall2_compose (getEquationList_ok h2) hsys)).imp ?_
    rintro r st ⟨s, ⟨_, rfl⟩, k, ⟨e, he, hs⟩, e', n, he', hst, hn, hp⟩
    rw [he] at he'
    cases he'
    obtain rfl := residual_expr hn hs
    obtain ⟨f1, f2, f3⟩ := replace_facts I (fun s => rewriteMap_none hat) (σ := σ) (ρ := ρ) (P := P) n.sym.expr fun a ha => hatom a (hp a ha)
    obtain ⟨n', hn', hv⟩ := (hst I ρ).1
    rw [hn] at hn'
    cases hn'
    exact ⟨⟨f1, f2⟩, f3.trans hv⟩
  have hmem : ∀ r ∈ c.2, r.hasD = false ∧ ∀ n ∈ r.free, P n := by
    intro r hr
    obtain ⟨i, hi⟩ := List.mem_iff_get.1 hr
    have := hall.get i.2 (hall.length_eq ▸ i.2)
    rw [show c.2.get ⟨i.1, i.2⟩ = r from hi] at this
    exact this.1
  have e1 : (c.2.all fun s => !s.hasD && s.free.all fun n => n == "t" || c.1.contains n) = true := by
    rw [List.all_eq_true]
    intro r hr
    simp only [(hmem r hr).1, Bool.not_false, Bool.true_and, List.all_eq_true]
    intro n hn
    simp [((hmem r hr).2 n hn).1]
  have e2 : (c.2.all fun s => s.free.all fun n => (dget (residualEnv t y yd) n).isSome) = true := by
    rw [List.all_eq_true]
    intro r hr
    rw [List.all_eq_true]
    exact fun n hn => ((hmem r hr).2 n hn).2
  unfold residualAt
  rw [if_pos e1, if_pos e2]
  congr 1
  exact forall2_map hall fun r st h => h.2

/-- C82 (partial), in a session: after `resolve` in any session of written equations the equations of the block stand for statements, and, under the
conditions of `dae_function_partial`, the compiled residuals are all zero exactly when all of these statements hold. -/
theorem dae_system_partial (ops : List Op) (hs : Spec.Session ops) {w' : World} (h : resolve (history ops World.init) = (.ok (), w')) :
    ∃ (b : Block) (sts : List Stmt), w'.pr.block = some b ∧ Spec.Equations w' b.equations ∧
      List.Forall₂ (fun r st => ∃ e, w'.es[r]? = some e ∧ e.States st) b.equations sts ∧
      ∀ {K : Type} [Field K] [LinearOrder K] (ext : Ext K) (I : Interp K) (c : List String × List Sym), daeCompile ext w' = .ok c →
        ∀ ds, Spec.Derivatives ext.diffTerms w'.es b.differential ds → (∀ d ∈ ds, ∃ x t, d = .atom (.d x t)) →
        (∀ r ∈ b.equations, ∀ e n, w'.es[r]? = some e → e.expr = some n → ∀ a ∈ Spec.atoms n.sym.expr, Spec.Placed b.varList ds a) →
        ∀ (y yd : List K) (ρ : Atom → K), Spec.AtPoint b.varList ds y yd ρ → ∀ t, ∃ v, residualAt I c t y yd = .ok v ∧ v.length = b.equations.length ∧
          ((∀ x ∈ v, x = some 0) ↔ ∀ st ∈ sts, Spec.residual I ρ st = some 0) := by
  obtain ⟨b, sts, hb, he, hst, h6⟩ := solved_system_partial ops hs h
  refine ⟨b, sts, hb, he, hst, ?_⟩
  intro K _ _ ext I c hc ds hds hat hp y yd ρ hρ t
  have hsys : Spec.ImplicitSystem w'.es b ds sts := by
    unfold Spec.ImplicitSystem
    clear h6
    revert hst
    generalize b.equations = l at hp ⊢
    intro hst
    induction hst with
    | nil => exact .nil
    | cons hd _ ih =>
      obtain ⟨e, he, hd⟩ := hd
      obtain ⟨n, hn, _⟩ := (hd I ρ).1
      exact .cons ⟨e, n, he, hd, hn, hp _ (by simp) e n he hn⟩ (ih fun r hr => hp r (by simp [hr]))
  unfold daeCompile at hc
  rw [hb] at hc
  refine ⟨_, dae_function_partial hc hds hat hsys hρ t, by simp [hst.length_eq], by simp⟩

/-! ## When the function is compiled, and where it has values -/

theorem forall2_mem_left {α β : Type} {R : α → β → Prop} {l : List α} {m : List β} (h : List.Forall₂ R l m) {a : α} (ha : a ∈ l) : ∃ b ∈ m, R a b := by
  induction h with
  | nil => cases ha
  | cons hd _ ih =>
    rcases List.mem_cons.1 ha with rfl | h
    · exact ⟨_, by simp, hd⟩
    · obtain ⟨b, hb, hr⟩ := ih h
      exact ⟨b, by simp [hb], hr⟩

/-- The equation has a residual that SymPy can rewrite. -/
def Spec.Symbolic (es : List EqObj) (r : ERef) : Prop := ∃ e n, es[r]? = some e ∧ e.expr = some n ∧ n.sym.isPy = false

theorem symbolic_iff {es : List EqObj} {r : ERef} :
    Spec.Symbolic es r ↔ ∃ e s, es[r]? = some e ∧ e.symbolicObject (some .residual) .rhs = .ok s ∧ s.isPy = false := by
  constructor
  · rintro ⟨e, n, h1, h2, h3⟩
    exact ⟨e, n.sym, h1, by simp only [EqObj.symbolicObject, EqObj.getNode, Option.getD_some, h2, ok_bind], h3⟩
  · rintro ⟨e, s, h1, h2, h3⟩
    cases hn : e.expr with
    | none => simp [EqObj.symbolicObject, EqObj.getNode, hn] at h2
    | some n => exact ⟨e, n, h1, hn, residual_expr hn h2 ▸ h3⟩

theorem getEquationList_exists {es : List EqObj} {l : List ERef} (h : ∀ r ∈ l, Spec.Symbolic es r) :
    ∃ ss, Block.getEquationList es (some .residual) .rhs l = .ok ss ∧ ∀ s ∈ ss, s.isPy = false := by
  induction l with
  | nil => exact ⟨[], rfl, by simp⟩
  | cons r t ih =>
    obtain ⟨ss, h1, h2⟩ := ih fun r hr => h r (by simp [hr])
    obtain ⟨e, s, q1, q2, q3⟩ := symbolic_iff.1 (h r (by simp))
    refine ⟨s :: ss, ?_, by simpa [q3] using h2⟩
    unfold Block.getEquationList
    simp only [q1, q2, h1, ok_bind]

theorem derivatives_exists {terms : Sym → List Sym} {es : List EqObj} {l : List ERef} (h : ∀ r ∈ l, Spec.Symbolic es r) :
    ∃ ds, Spec.Derivatives terms es l ds := by
  suffices g : ∃ rs : List SObj, List.Forall₂ (fun r s => ∃ e, es[r]? = some e ∧ e.symbolicObject (some .residual) .rhs = .ok s ∧ s.isPy = false) l rs by
    obtain ⟨rs, g⟩ := g
    exact ⟨_, rs, g, rfl⟩
  induction l with
  | nil => exact ⟨[], .nil⟩
  | cons r t ih =>
    obtain ⟨rs, g⟩ := ih fun r hr => h r (by simp [hr])
    obtain ⟨e, s, q1, q2, q3⟩ := symbolic_iff.1 (h r (by simp))
    exact ⟨s :: rs, .cons ⟨e, q1, q2, q3⟩ g⟩

/-- C82: the residual function of a system with unknowns is compiled exactly when SymPy makes expressions of the texts and every equation has a
symbolic residual. -/
theorem dae_compiles_iff {ext : Ext K} {w : World} {b : Block} (hb : w.pr.block = some b) (hp : Spec.Partition w.es b) (hv : b.varList ≠ [])
    (he : b.equations ≠ []) : (∃ c, daeCompile ext w = .ok c) ↔ ext.indexed = true ∧ ∀ r ∈ b.equations, Spec.Symbolic w.es r := by
  have hsub : ∀ r ∈ b.differential, r ∈ b.equations := fun r hr => hp.differentialSub.subset hr
  have hne : ∀ ds, (rewriteMap ds b.varList).isEmpty = false := by
    intro ds
    obtain ⟨n, hn⟩ := List.exists_mem_of_ne_nil _ hv
    obtain ⟨i, _, h⟩ := rewriteMap_var (ds := ds) hn
    cases hm : rewriteMap ds b.varList with
    | nil => rw [hm] at h; cases h
    | cons _ _ => rfl
  unfold daeCompile
  rw [hb]
  constructor
  · rintro ⟨c, hc⟩
    refine ⟨?_, fun r hr => ?_⟩
    · cases hi : ext.indexed with
      | true => rfl
      | false =>
        simp only [residualSystem, bind_eq_ok] at hc
        obtain ⟨ds, h1, l, h2, r, h3, h4⟩ := hc
        cases l with
        | nil =>
          have := (getEquationList_ok h2).length_eq
          exact absurd (List.length_eq_zero_iff.1 this) he
        | cons s t =>
          have := mapM_forall2.1 h3
          cases this with
          | cons hd _ =>
            unfold rewriteEqn at hd
            rw [hi, hne] at hd
            split at hd
            · cases hd
            · simp at hd
    · obtain ⟨ds, l, h1, h2, h3, h4⟩ := residualSystem_ok hc
      obtain ⟨s, hs, e, q1, q2⟩ := forall2_mem_left (getEquationList_ok h2) hr
      obtain ⟨_, _, q3, _⟩ := forall2_mem_left h4 hs
      exact symbolic_iff.2 ⟨e, s, q1, q2, q3⟩
  · rintro ⟨hi, hall⟩
    obtain ⟨ds, hds⟩ := derivatives_exists (terms := ext.diffTerms) fun r hr => hall r (hsub r hr)
    obtain ⟨l, hl, hpy⟩ := getEquationList_exists hall
    have hm : l.mapM (rewriteEqn ext.indexed (rewriteMap ds b.varList)) = .ok (l.map fun s => s.expr.replace (rewriteMap ds b.varList)) := by
      refine mapM_ok_map fun s hs => ?_
      simp [rewriteEqn, hpy s hs, hi]
    exact ⟨_, by simp only [residualSystem, diffList_ok.2 hds, hl, hm, ok_bind]; rfl⟩

theorem replace_keeps {m : Dict Sym Sym} (hm : ∀ s : Sym, (∀ a, s ≠ .atom a) → dget m s = none) {a : Atom} (ha : dget m (.atom a) = none) (s : Sym)
    (h : a ∈ Spec.atoms s) : a ∈ Spec.atoms (s.replace m) := by
  induction s with
  | num q => simp [Spec.atoms] at h
  | atom x =>
    simp only [Spec.atoms, List.mem_singleton] at h
    subst h
    simp [Sym.replace, ha, Spec.atoms]
  | fn f x ih =>
    rw [Sym.replace, hm]
    · exact ih h
    · intro _ h; cases h
  | add x y ihx ihy | sub x y ihx ihy | mul x y ihx ihy | div x y ihx ihy | pow x y ihx ihy | mm _ x y ihx ihy =>
    rw [Sym.replace, hm]
    · simp only [Spec.atoms, List.mem_append, Option.getD_none] at h ⊢
      exact h.imp ihx ihy
    · intro _ h; cases h

theorem atoms_free {s : Sym} {n : String} (h : Atom.v n ∈ Spec.atoms s) : n ∈ s.free := by
  induction s with
  | num q => simp [Spec.atoms] at h
  | atom x => simp only [Spec.atoms, List.mem_singleton] at h; subst h; simp [Sym.free]
  | fn f x ih => exact ih h
  | add x y ihx ihy | sub x y ihx ihy | mul x y ihx ihy | div x y ihx ihy | pow x y ihx ihy | mm _ x y ihx ihy =>
    simp only [Spec.atoms, List.mem_append, Sym.free] at h ⊢
    exact h.imp ihx ihy

theorem atoms_hasD {s : Sym} {x t : String} (h : Atom.d x t ∈ Spec.atoms s) : s.hasD = true := by
  induction s with
  | num q => simp [Spec.atoms] at h
  | atom x => simp only [Spec.atoms, List.mem_singleton] at h; subst h; simp [Sym.hasD]
  | fn f x ih => exact ih h
  | add x y ihx ihy | sub x y ihx ihy | mul x y ihx ihy | div x y ihx ihy | pow x y ihx ihy | mm _ x y ihx ihy =>
    simp only [Spec.atoms, List.mem_append, Sym.hasD, Bool.or_eq_true] at h ⊢
    exact h.imp ihx ihy

/-- A symbol that is none of the texts the code makes. -/
def Spec.Ordinary : Atom → Prop
  | .v n => n ≠ "t" ∧ ∀ i : Nat, n ≠ "y[" ++ i.repr ++ "]" ∧ n ≠ "yd[" ++ i.repr ++ "]"
  | .d _ _ => True

/-- C82: if some equation contains a symbol without place (a parameter without value), or a derivative that SymPy does not find, the compiled function has
no value anywhere: it raises `NameError`. -/
theorem dae_unplaced_fails {ext : Ext K} {I : Interp K} {es : List EqObj} {b : Block} {c : List String × List Sym} (hc : residualSystem ext es b = .ok c)
    {ds : List Sym} (hds : Spec.Derivatives ext.diffTerms es b.differential ds) (hat : ∀ d ∈ ds, ∃ x t, d = .atom (.d x t))
    {r : ERef} (hr : r ∈ b.equations) {e : EqObj} {n : ENode} (he : es[r]? = some e) (hn : e.expr = some n) {a : Atom} (ha : a ∈ Spec.atoms n.sym.expr)
    (hnot : ¬ Spec.Placed b.varList ds a) (ho : Spec.Ordinary a) (t : K) (y yd : List K) : residualAt I c t y yd = .error .nameError := by
  obtain ⟨ds', l, h1, h2, h3, h4⟩ := residualSystem_ok hc
  obtain rfl : ds = ds' := by
    have e1 := diffList_ok.2 hds
    rw [diffList_ok.2 h1] at e1
    exact (Except.ok.inj e1).symm
  obtain ⟨s, hs, e', q1, q2⟩ := forall2_mem_left (getEquationList_ok h2) hr
  rw [he] at q1
  cases q1
  obtain rfl := residual_expr hn q2
  obtain ⟨x, hx, _, rfl⟩ := forall2_mem_left h4 hs
  have hnone : dget (rewriteMap ds b.varList) (.atom a) = none := by
    rw [rewriteMap_other, dget_eq_none_iff, dkeys_ydMap]
    · intro h
      have h : Sym.atom a ∈ ds := by simpa using h
      obtain ⟨x, t, q⟩ := hat _ h
      cases q
      exact hnot h
    · rintro m hm q
      cases q
      exact hnot hm
  have hk := replace_keeps (fun s => rewriteMap_none hat) hnone n.sym.expr ha
  unfold residualAt
  rw [if_neg]
  intro hall
  rw [List.all_eq_true] at hall
  have := hall _ hx
  rw [Bool.and_eq_true] at this
  cases a with
  | d x u => rw [atoms_hasD hk] at this; simp at this
  | v m =>
    have := List.all_eq_true.1 this.2 m (atoms_free hk)
    simp only [Bool.or_eq_true, beq_iff_eq, List.contains_iff_mem, h3, List.mem_append, List.mem_map] at this
    rcases this with h | ⟨p, _, h⟩ | ⟨p, _, h⟩
    · exact ho.1 h
    · exact (ho.2 p.2).2 h.symm
    · exact (ho.2 p.2).1 h.symm

open Classical in
theorem exists_atPoint {vs : List String} {ds : List Sym} {y yd : List K} (hn : vs.Nodup) (hy : vs.length ≤ y.length) (hyd : ds.length ≤ yd.length) :
    ∃ ρ : Atom → K, Spec.AtPoint vs ds y yd ρ := by
  refine ⟨fun a => match a with
    | .v n => (y[vs.idxOf n]?).getD 0
    | .d x t => if h : ∃ i, Spec.LastAt ds (.atom (.d x t)) i then (yd[h.choose]?).getD 0 else 0, fun i n hi => ?_, fun i x t hi => ?_⟩
  · obtain ⟨hl, rfl⟩ := List.getElem?_eq_some_iff.1 hi
    simp only [hn.idxOf_getElem, List.getElem?_eq_getElem (Nat.lt_of_lt_of_le hl hy), Option.getD_some]
  · have h : ∃ i, Spec.LastAt ds (.atom (.d x t)) i := ⟨i, hi⟩
    have e : h.choose = i := lastAt_unique h.choose_spec hi
    simp only [dif_pos h, e]
    rw [List.getElem?_eq_getElem (Nat.lt_of_lt_of_le (List.getElem?_eq_some_iff.1 hi.1).1 hyd)]
    rfl

/-- C82 fails: the compiled function does not depend on its time: time is one of the unknowns. -/
theorem dae_ignores_time {ext : Ext K} {I : Interp K} {es : List EqObj} {b : Block} {c : List String × List Sym} (hc : residualSystem ext es b = .ok c)
    {ds : List Sym} (hds : Spec.Derivatives ext.diffTerms es b.differential ds) (hat : ∀ d ∈ ds, ∃ x t, d = .atom (.d x t))
    {sts : List Stmt} (hsys : Spec.ImplicitSystem es b ds sts) (hn : b.varList.Nodup) {y yd : List K} (hy : y.length = b.varList.length)
    (hyd : ds.length ≤ yd.length) (t u : K) : residualAt I c t y yd = residualAt I c u y yd := by
  obtain ⟨ρ, hρ⟩ := exists_atPoint hn hy.ge hyd
  rw [dae_function_partial hc hds hat hsys hρ t, dae_function_partial hc hds hat hsys hρ u]

/-- C82 fails: a derivative with a coefficient (`2*Diff(x)`), for which SymPy gives the coefficient, cannot be started. -/
theorem dae_coefficient_fails {ext : Ext K} {I : Interp K} {conf : Conf} {o : DaeObj} {s : SimWorld K} {b : Block} (hb : s.w.pr.block = some b)
    {ds : List Sym} (hds : Spec.Derivatives ext.diffTerms s.w.es b.differential ds) {q : Rat} (hq : Sym.num q ∈ ds) (out : Output K) (s' : SimWorld K) :
    daeSolve ext I conf o s ≠ (.ok out, s') := by
  intro h
  obtain ⟨ds', _, _, _, _, _, _, _, h1, _, _, _, _, h2, _⟩ := dae_initial_values hb h
  obtain rfl : ds = ds' := by
    have e1 := diffList_ok.2 hds
    rw [diffList_ok.2 h1] at e1
    exact (Except.ok.inj e1).symm
  obtain ⟨_, _, n, x, h3, _⟩ := forall2_mem_left h2 (List.mem_eraseDups.2 hq)
  rcases h3 with ⟨v, t, h, _⟩ | ⟨_, h, _⟩
  · cases h
  · exact h q rfl

/-! ## Derivatives in the order of the unknowns -/

/-- The assignment of a state `y` and its derivative `yd`: both in the order of the unknowns, the derivatives with respect to time. -/
structure Spec.Motion (vs : List String) (tm : String) (y yd : List K) (ρ : Atom → K) : Prop where
  state : ∀ (i : Nat) n, vs[i]? = some n → y[i]? = some (ρ (.v n))
  rate : ∀ (i : Nat) n, vs[i]? = some n → yd[i]? = some (ρ (.d n tm))

/-- The derivatives are those of the first unknowns, in their order. -/
def Spec.Aligned (vs : List String) (tm : String) (ds : List Sym) : Prop := ∃ k, k ≤ vs.length ∧ ds = (vs.take k).map fun n => .atom (.d n tm)

/-- C82 (partial): if the derivatives occur in the order of the unknowns, and those without come last, then the compiled function is the
stated system: for a state and *its* derivative it gives the stated residuals.
Missing: other orders (`dae_derivatives_misplaced`), unknowns without derivative, for which `yd` has no entries (`dae_never_solved`). -/
theorem dae_aligned_partial {ext : Ext K} {I : Interp K} {es : List EqObj} {b : Block} {c : List String × List Sym} (hc : residualSystem ext es b = .ok c)
    {ds : List Sym} (hds : Spec.Derivatives ext.diffTerms es b.differential ds) {tm : String} (ha : Spec.Aligned b.varList tm ds)
    {sts : List Stmt} (hsys : Spec.ImplicitSystem es b ds sts) {y yd : List K} {ρ : Atom → K} (hρ : Spec.Motion b.varList tm y yd ρ) (t : K) :
    residualAt I c t y yd = .ok (sts.map (Spec.residual I ρ)) := by
  obtain ⟨k, hk, rfl⟩ := ha
  refine dae_function_partial hc hds ?_ hsys ⟨hρ.state, fun i x u hi => ?_⟩ t
  · intro d hd
    obtain ⟨n, _, rfl⟩ := List.mem_map.1 hd
    exact ⟨n, tm, rfl⟩
  · have := hi.1
    rw [List.getElem?_map, Option.map_eq_some_iff] at this
    obtain ⟨n, hn, h⟩ := this
    cases h
    refine hρ.rate i x ?_
    rw [List.getElem?_take] at hn
    split at hn
    · exact hn
    · cases hn

/-! ## Lengths -/

theorem eraseDups_length_le {α : Type} [DecidableEq α] (l : List α) : l.eraseDups.length ≤ l.length := by
  suffices h : ∀ (n : Nat) (l : List α), l.length ≤ n → l.eraseDups.length ≤ l.length from h _ l le_rfl
  intro n
  induction n with
  | zero => intro l hl; rw [List.length_eq_zero_iff.1 (Nat.le_zero.1 hl)]; simp
  | succ n ih =>
    intro l hl
    cases l with
    | nil => simp
    | cons x t =>
      rw [List.eraseDups_cons, List.length_cons, List.length_cons]
      have h1 : (t.filter fun b => !b == x).length ≤ t.length := List.length_filter_le _ _
      have := ih (t.filter fun b => !b == x) (by simp only [List.length_cons] at hl; omega)
      omega

theorem nodup_eraseDups_eq {α : Type} [DecidableEq α] {l : List α} (h : l.Nodup) : l.eraseDups = l := by
  induction l with
  | nil => simp
  | cons x t ih =>
    rw [List.nodup_cons] at h
    rw [List.eraseDups_cons, List.filter_eq_self.2, ih h.2]
    intro a ha
    simp only [Bool.not_eq_true', beq_eq_false_iff_ne, ne_eq]
    rintro rfl
    exact h.1 ha

/-- Lengths of the vectors of a solver that returns. -/
theorem dae_lengths {ext : Ext K} {I : Interp K} {conf : Conf} {o : DaeObj} {s s' : SimWorld K} {b : Block} (hb : s.w.pr.block = some b)
    (hperm : (b.linear ++ b.nonlinear ++ b.differential).Perm b.equations) (hn : b.varList.Nodup) (hk : b.linear ++ b.nonlinear ≠ [])
    (hdof : b.varList.length = b.equations.length + 1)
    {ds : List Sym} (hds : Spec.Derivatives ext.diffTerms s.w.es b.differential ds) (hone : ds.length ≤ b.differential.length)
    (hida : ∀ f y yd tp, yd.length ≠ y.length → ∃ e, ext.ida f y yd tp = .fail e) (out : Output K) :
    daeSolve ext I conf o s ≠ (.ok out, s') := by
  intro h
  obtain ⟨ds', _, _, _, y0, yd0, _, _, h1, _, _, _, h2, h3, h4, _⟩ := dae_initial_values hb h
  obtain rfl : ds = ds' := by
    have e1 := diffList_ok.2 hds
    rw [diffList_ok.2 h1] at e1
    exact (Except.ok.inj e1).symm
  have l1 : y0.length = b.varList.length := by
    rw [← h2.length_eq, nodup_eraseDups_eq hn]
  have l2 : yd0.length ≤ ds.length := by
    rw [← h3.length_eq]
    exact eraseDups_length_le ds
  have l3 : b.differential.length < b.equations.length := by
    rw [← hperm.length_eq]
    have : 0 < (b.linear ++ b.nonlinear).length := List.length_pos_iff.2 hk
    simp only [List.length_append] at this ⊢
    omega
  obtain ⟨e, he⟩ := hida (b.equations.map fun r => if (s.w.es[r]?.bind EqObj.type) = some .differential then 1 else 0) y0 (yd0 ++ [0]) _
    (by simp only [List.length_append, List.length_singleton]; omega)
  rw [he] at h4
  cases h4

/-- The solver made for a system of differential and algebraic equations. -/
theorem dae_created {ext : Ext K} {conf : Conf} {s s' : SimWorld K} {b : Block} (hb : s.w.pr.block = some b)
    (hk : b.problemType = some .dae) {sv : SolverObj} (h : createSolver ext conf s = (.ok sv, s')) :
    ∃ o, sv = .dae o ∧ daeCompile ext s.w = .ok o.compiled ∧
      s'.w = { s.w with pr := { s.w.pr with block := some { b with linearTail := b.linearTail ++ [b.nonlinear] } } } := by
  unfold createSolver at h
  simp only [bind_ok, lift_ok, getBlock_ok] at h
  obtain ⟨lin, s1, ⟨_, rfl⟩, non, s2, ⟨_, rfl⟩, dif, s3, ⟨_, rfl⟩, dae, s4, ⟨_, rfl⟩, b', s5, ⟨hb', rfl⟩, h⟩ := h
  obtain rfl : b = b' := Option.some.inj (hb.symm.trans hb')
  rw [hk] at h
  simp only [solverFor, daeInit, bind_ok] at h
  obtain ⟨o, s6, ⟨dom, t1, h1, tvn, t2, h2, args, t3, h3, st, t4, h4, has, t5, h5, u1, t6, h6, u2, t7, h7, u3, t8, h8, cm, t9, h9, u4, t10, h10, h11⟩, h12⟩ := h
  have e1 := (lift_ok.1 h1).2
  have e2 := (lift_ok.1 h2).2
  have e3 := (lift_ok.1 h3).2
  have e4 : t3 = st ∧ t4 = t3 := by
    simp only [PyS.get, Prod.mk.injEq, Except.ok.injEq] at h4
    exact ⟨h4.1, h4.2.symm⟩
  have e5 := (lift_ok.1 h5).2
  have e6 : t6 = t5 := by
    rcases when_ok.1 h6 with ⟨_, h⟩ | ⟨_, h⟩
    · exact absurd h raise_ok
    · exact h
  have e7 : t7.w = s5.w := by
    have := keeps_appendArg (f := fun s : SimWorld K => s.w) (fun _ _ => rfl) tvn args t6
    rw [h7] at this
    rw [show t7.w = t6.w from this, e6, e5, e4.2, e3, e2, e1]
  have e9 := (lift_ok.1 h9).2
  have e10 := lift_ok.1 h10
  simp only [PyS.pure, Prod.mk.injEq, Except.ok.injEq] at h11 h12
  refine ⟨o, h12.1.symm, ?_, ?_⟩
  · rw [← h11.1, ← e10.1, ← e4.1, e3, e2, e1]
  · unfold daeSystem at h8
    rw [bind_of_ok (getBlock_ok.2 ⟨by rw [e7]; exact hb, rfl⟩)] at h8
    simp only [PyS.modify, Prod.mk.injEq] at h8
    rw [← h12.2, ← h11.2, e10.2, e9, ← h8.2, e7]

/-- A run of a system of differential and algebraic equations. -/
theorem dae_run_parts {ext : Ext K} {I : Interp K} {i : SRef} {a : RunArgs} {s s' : SimWorld K} (h : runSimulation ext I i a s = (.ok (), s'))
    {b : Block} (hb : s.w.pr.block = some b) (hk : b.problemType = some .dae) :
    ∃ (so so' : SimObj K) (c : Conf) (o : DaeObj) (out : Output K) (s1 s2 : SimWorld K), s.sims[i]? = some so ∧ so.conf = some c ∧
      daeCompile ext s.w = .ok o.compiled ∧ daeSolve ext I c o s1 = (.ok out, s2) ∧ (a.sanity = true → (dofTest ext.sr s1.w).1 = .ok ()) ∧
      s1.w = { s.w with pr := { s.w.pr with block := some { b with linearTail := b.linearTail ++ [b.nonlinear] } } } ∧
      s'.sims[i]? = some so' ∧ so'.output = some out := by
  obtain ⟨so, c, pt, b', sv, s1, s2, s3, ho, hcf, hpt, hb', hsv, hsan, hst, hep⟩ := run_parts h
  obtain ⟨o, rfl, hc, hw⟩ := dae_created hb hk hsv
  have h2 : s2.w = s1.w := by
    have := keeps_sanity (fun s => s.w) ext a.sanity s1
    rw [hsan] at this; exact this
  obtain ⟨out, s4, o', d, hout, ho', hout', _⟩ := solveStore_ok hst
  have hs := epilogue_output hep
  have hi := congrArg (fun l => l[i]?) hs
  simp only [List.getElem?_map, ho', Option.map_some] at hi
  obtain ⟨o2, ho2, hi⟩ := Option.map_eq_some_iff.1 hi
  simp only [Prod.mk.injEq] at hi
  refine ⟨so, o2, c, o, out, s2, s4, ho, hcf, hc, hout, fun ha => ?_, h2.trans hw, ho2, hi.1.trans hout'⟩
  rw [ha] at hsan
  rw [h2]
  exact sanity_ok hsan

/-- C82 fails: a run with the sanity check on a problem with differential and algebraic equations in which time is seen, the parameters have values, and each
differential equation has one derivative, hands vectors of different lengths to the integrator.  With an integrator that refuses these, no such run
returns. -/
theorem dae_never_solved {ext : Ext K} (hida : ∀ f y yd tp, yd.length ≠ y.length → ∃ e, ext.ida f y yd tp = .fail e) {I : Interp K} {s : SimWorld K}
    {b : Block} (hb : s.w.pr.block = some b) (hp : Spec.Partition s.w.es b) (hk : b.problemType = some .dae) (hn : b.varList.Nodup)
    (hl : b.equationsList.length = b.equations.length) {names : List String} (ht : s.w.pr.timeName = some names)
    (hseen : Spec.TimeSeen ext.sr s.w b.equations names) (hpar : ∀ r ∈ dvalues b.parameterDict, ∀ q, s.w.qs[r]? = some q → q.isSpecified = true)
    {ds : List Sym} (hds : Spec.Derivatives ext.diffTerms s.w.es b.differential ds) (hone : ds.length ≤ b.differential.length)
    (i : SRef) {a : RunArgs} (ha : a.sanity = true) (s' : SimWorld K) : runSimulation ext I i a s ≠ (.ok (), s') := by
  intro h
  obtain ⟨_, _, c, o, out, s1, s2, _, _, _, hsol, hdof, hw, _, _⟩ := dae_run_parts h hb hk
  have hb1 : s1.w.pr.block = some { b with linearTail := b.linearTail ++ [b.nonlinear] } := by rw [hw]
  obtain ⟨t, h1, h2⟩ := timeDeclared_iff (sr := ext.sr) hp (names := names)
  rw [h2.2 hseen, ← ht] at h1
  have hd := ((dofTest_verdict (sr := ext.sr) hb1 (t := true) (by rw [hw]; exact h1)).2.square).1 (hdof ha)
  have hz : unspecParams s1.w.qs b.parameterDict = 0 := by
    rw [hw]
    unfold unspecParams
    rw [List.length_eq_zero_iff, List.filter_eq_nil_iff]
    intro r hr
    cases hq : s.w.qs[r]? with
    | none => simp
    | some q => simp [hpar r hr q hq]
  simp only [hz, hl, if_true, Nat.add_zero] at hd
  refine dae_lengths (b := { b with linearTail := b.linearTail ++ [b.nonlinear] }) hb1 hp.perm hn ?_ hd (by rw [hw]; exact hds) hone hida out hsol
  intro hnil
  rw [List.append_eq_nil_iff] at hnil
  unfold Block.problemType at hk
  rw [hnil.1, hnil.2, hp.tail] at hk
  cases b.differential.isEmpty <;> simp at hk

/-- C82 (partial) for a whole simulation: after a run of a problem with differential and algebraic equations that returns, the simulation holds what the
integrator makes of the residual function compiled from the problem, started at the declared initial values. -/
theorem dae_run_partial {ext : Ext K} {I : Interp K} {i : SRef} {a : RunArgs} {s s' : SimWorld K} (h : runSimulation ext I i a s = (.ok (), s'))
    {b : Block} (hb : s.w.pr.block = some b) (hk : b.problemType = some .dae) :
    ∃ (so so' : SimObj K) (c : Conf) (F : List String × List Sym) (ds : List Sym) (t0 t1 n : Rat) (y0 yd0 T : List K) (Y : List (List K)),
      s.sims[i]? = some so ∧ so.conf = some c ∧ s'.sims[i]? = some so' ∧ so'.output = some (.series T Y) ∧
      daeCompile ext s.w = .ok F ∧ Spec.Derivatives ext.diffTerms s.w.es b.differential ds ∧
      dget c "initial_time" = some (.num t0) ∧ dget c "end_time" = some (.num t1) ∧ dget c "number_of_time_steps" = some (.num n) ∧
      Spec.Initial s.w.pr.initial b.varList.eraseDups y0 ∧ Spec.InitialRates ext.arg0 s.w.pr.initial ds.eraseDups yd0 ∧
      (ext.ida (b.equations.map fun r => if (s.w.es[r]?.bind EqObj.type) = some .differential then 1 else 0) y0 (yd0 ++ [0])
        ((List.range (n.num.toNat + 1)).map fun (i : Nat) => (t0 : K) + (i : K) * (((t1 : K) - (t0 : K)) / (n.num.toNat : K)))).exec
          (fun q => residualAt I F q.1 q.2.1 q.2.2) = .ok (T, Y) := by
  obtain ⟨so, so', c, o, out, s1, s2, h1, h2, h3, hsol, _, hw, h4, h5⟩ := dae_run_parts h hb hk
  have hb1 : s1.w.pr.block = some { b with linearTail := b.linearTail ++ [b.nonlinear] } := by rw [hw]
  obtain ⟨ds, t0, t1, n, y0, yd0, T, Y, g1, g2, g3, g4, g5, g6, g7, rfl⟩ := dae_initial_values hb1 hsol
  rw [hw] at g1 g5 g6 g7
  exact ⟨so, so', c, _, ds, t0, t1, n, y0, yd0, T, Y, h1, h2, h4, h5, h3, g1, g2, g3, g4, g5, g6, g7⟩

end
/-! ## Samples -/

namespace Ex
/-- What SymPy gives for the parts of a sum that contain a derivative: the derivative, or its coefficient. -/
def term : Sym → List Sym
  | .atom (.d x t) => [.atom (.d x t)]
  | .mul (.num q) (.atom (.d _ _)) | .mul (.atom (.d _ _)) (.num q) => [.num q]
  | .add a b | .sub a b => term a ++ term b
  | _ => []
def terms : Sym → List Sym
  | .add a b | .sub a b => term a ++ term b
  | _ => []
/-- An integrator that computes the residuals once and returns them. -/
def lax : Ext Rat := { ext with
  diffTerms := terms
  ida := fun _ y0 yd0 tp => .ask (tp.headD 0, y0, yd0) fun v => .ret (tp, tp.map fun _ => v.map fun x => x.getD 0) }
/-- The same; it refuses vectors of different lengths. -/
def strict : Ext Rat := { lax with
  ida := fun f y0 yd0 tp => if yd0.length = y0.length then lax.ida f y0 yd0 tp else .fail .valueError }
/-- The problem of the sample after `resolve`. -/
def daeW : World := (resolve (history daeP World.init)).2
/-- A run with time `t_m` and a domain of the given quantities. -/
def impRun (ops : List Op) (init : Dict String Rat) (cols : List String) (a : RunArgs) : List (SOp Rat) :=
  ops.map .base ++ [.base (.initial init), .base .resolve, .newDomain "d" ["t"]] ++ (cols.map fun s => .domain 0 (.distribute s)) ++
  [.newSim "s", .configure 0 (dset dyn "time_variable_name" (.str "t_m")) none none, .run 0 a]
def quiet : RunArgs := { sanity := false, showMsg := false, showResiduals := false }
/-- `x - y`, and two equations with the derivative of `z`. -/
def daeTwice : List Op := [.newModel "m" "" {} none, .cmd 0 (dv "x"), .cmd 0 (dv "y"), .cmd 0 (dv "z"), .cmd 0 (dv "t"), .cmd 0 (.distribute { attr := "z" }),
  .cmd 0 (eq_ "a" (.res (.bin .sub (at_ "x") (at_ "y")))),
  .cmd 0 (eq_ "b" (.res (.bin .sub (.diff { attr := "z" } (some { attr := "t" })) (.bin .mul (at_ "x") (at_ "t"))))),
  .cmd 0 (eq_ "c" (.res (.bin .sub (.diff { attr := "z" } (some { attr := "t" })) (.bin .mul (at_ "y") (at_ "t"))))),
  .addModels (.leaf 0), .time ["t_m"]]
/-- `x - y`, and `2*Diff(z) - x*t`. -/
def coefficient : List Op := daeTwice.take 7 ++
  [.cmd 0 (eq_ "b" (.res (.bin .sub (.nbin .mul 2 (.diff { attr := "z" } (some { attr := "t" }))) (.bin .mul (at_ "x") (at_ "t"))))),
  .addModels (.leaf 0), .time ["t_m"]]
/-- The differential unknown first. -/
def daeFirst : List Op := [.newModel "m" "" {} none, .cmd 0 (dv "z"), .cmd 0 (dv "x"), .cmd 0 (dv "t"), .cmd 0 (.distribute { attr := "z" }),
  .cmd 0 (eq_ "a" (.res (.bin .sub (at_ "x") (at_ "z")))),
  .cmd 0 (eq_ "b" (.eqn (.diff { attr := "z" } (some { attr := "t" })) (.bin .mul (at_ "x") (at_ "t")))),
  .addModels (.leaf 0), .time ["t_m"]]
/-- The exception. -/
def errOf {α : Type} : Except Err α → Option Err
  | .ok _ => none
  | .error e => some e
/-- Initial values of `daeTwice` and `coefficient` that fit the equations. -/
def fit : Dict String Rat := [("x_m", 1), ("y_m", 1), ("z_m", 0), ("t_m", 4), ("z_m_d", 4)]
end Ex

theorem Ex.daeW_own : Spec.Session Ex.daeP ∧ Spec.Session Ex.daeFirst := by
  constructor
  · intro o ho
    simp only [Ex.daeP, Ex.dae, List.take, List.drop, List.cons_append, List.nil_append, List.mem_cons, List.not_mem_nil, or_false] at ho
    rcases ho with rfl | rfl | rfl | rfl | rfl | rfl | rfl | rfl | rfl | rfl | rfl | rfl | rfl <;> trivial
  · intro o ho
    simp only [Ex.daeFirst, List.mem_cons, List.not_mem_nil, or_false] at ho
    rcases ho with rfl | rfl | rfl | rfl | rfl | rfl | rfl | rfl | rfl <;> trivial

/-- The sample: the equations `x + y - 3`, `x*y - 2`, `Diff(z) == x*t`; the places are `x`, `y`, `z`, `t` and the derivative of `z`. -/
example : Spec.Session Ex.daeP ∧ (resolve (history Ex.daeP World.init)).1 = .ok () ∧
    (Ex.daeW.pr.block.map fun b => (b.varList, b.equations, b.differential, b.problemType)) =
      some (["x_m", "y_m", "z_m", "t_m"], [0, 1, 2], [2], some .dae) ∧
    (diffList Ex.lax.diffTerms Ex.daeW.es [2]).toOption = some [.atom (.d "z_m" "t_m")] ∧
    ((Ex.daeW.es.map fun e => (e.expr.map fun n => Spec.atoms n.sym.expr)) =
      [some [.v "x_m", .v "y_m"], some [.v "x_m", .v "y_m"], some [.d "z_m" "t_m", .v "x_m", .v "t_m"]]) ∧
    ((daeCompile Ex.lax Ex.daeW).toOption.bind fun c => (residualAt Ex.ratI c 0 [1, 2, 9, 4] [5]).toOption) = some [some 0, some 0, some 1] := by
  refine ⟨Ex.daeW_own.1, ?_⟩
  decide +kernel

/-- The differential unknown first: the derivatives are in the order of the unknowns. -/
example : Spec.Session Ex.daeFirst ∧ (resolve (history Ex.daeFirst World.init)).1 = .ok () ∧
    ((resolve (history Ex.daeFirst World.init)).2.pr.block.map fun b => (b.varList, diffList Ex.lax.diffTerms (resolve (history Ex.daeFirst World.init)).2.es b.differential |>.toOption)) =
      some (["z_m", "x_m", "t_m"], some ((["z_m", "x_m", "t_m"].take 1).map fun n => .atom (.d n "t_m"))) ∧
    ((daeCompile Ex.lax (resolve (history Ex.daeFirst World.init)).2).toOption.bind fun c => (residualAt Ex.ratI c 0 [2, 2, 3] [6, 0, 1]).toOption) =
      some [some 0, some 0] := by
  refine ⟨Ex.daeW_own.2, ?_⟩
  decide +kernel

/-- C82 fails: the entries of the derivative vector are not the derivatives of the entries of the state.  In the sample the compiled residuals vanish for a
state and derivative for which `Diff(z) == x*t` does not hold: the derivative of the *first* unknown is used for that of `z`. -/
theorem dae_derivatives_misplaced : Spec.Session Ex.daeP ∧ ∃ b c e n, Ex.daeW.pr.block = some b ∧ daeCompile Ex.lax Ex.daeW = .ok c ∧ 2 ∈ b.equations ∧
    Ex.daeW.es[2]? = some e ∧ e.expr = some n ∧
    ∃ (y yd : List Rat) (ρ : Atom → Rat), Spec.Motion b.varList "t_m" y yd ρ ∧
      residualAt Ex.ratI c 4 y yd = .ok [some 0, some 0, some 0] ∧ n.sym.expr.eval Ex.ratI ρ = some (-4 : Rat) := by
  refine ⟨Ex.daeW_own.1, ?_⟩
  have h : (Ex.daeW.pr.block.map fun b => (b.varList, b.equations)) = some (["x_m", "y_m", "z_m", "t_m"], [0, 1, 2]) ∧
      ((daeCompile Ex.lax Ex.daeW).toOption.bind fun c => (residualAt Ex.ratI c 4 [1, 2, 9, 4] [4, 0, 0, 1]).toOption) = some [some 0, some 0, some 0] ∧
      ((Ex.daeW.es[2]?.bind fun e => e.expr).map fun n => n.sym.expr.eval Ex.ratI (fun a => match a with
        | .v "x_m" => 1 | .v "y_m" => 2 | .v "z_m" => 9 | .v _ => 4
        | .d "x_m" _ => 4 | .d "t_m" _ => 1 | .d _ _ => 0 : Atom → Rat)) = some (some (-4 : Rat)) := by decide +kernel
  obtain ⟨h1, h2, h3⟩ := h
  generalize Ex.daeW = w at h1 h2 h3 ⊢
  simp only [Option.map_eq_some_iff, Option.bind_eq_some_iff, Prod.mk.injEq] at h1 h2 h3
  obtain ⟨b, hb, hv, he⟩ := h1
  obtain ⟨c, hc, hr⟩ := h2
  obtain ⟨n, ⟨e, he2, hn⟩, hval⟩ := h3
  have hc' : daeCompile Ex.lax w = .ok c := by
    cases hx : daeCompile Ex.lax w with
    | error e => rw [hx] at hc; cases hc
    | ok v => rw [hx] at hc; cases hc; rfl
  have hr' : residualAt Ex.ratI c 4 [1, 2, 9, 4] [4, 0, 0, 1] = .ok [some 0, some 0, some 0] := by
    cases hx : residualAt Ex.ratI c 4 [1, 2, 9, 4] [4, 0, 0, 1] with
    | error e => rw [hx] at hr; cases hr
    | ok v => rw [hx] at hr; cases hr; rfl
  refine ⟨b, c, e, n, hb, hc', by simp [he], he2, hn, [1, 2, 9, 4], [4, 0, 0, 1], _, ⟨?_, ?_⟩, hr', hval⟩
  · rw [hv]
    intro i m hi
    match i, hi with
    | 0, hi | 1, hi | 2, hi | 3, hi => cases hi; rfl
  · rw [hv]
    intro i m hi
    match i, hi with
    | 0, hi | 1, hi | 2, hi | 3, hi => cases hi; rfl

/-- C82 fails: a derivative that occurs in two equations is read from its last place, of which the initial derivatives only have the appended 0.
The initial values fit the equations, but the residuals computed from them are `0 - x*t`. -/
theorem dae_repeated_derivative : ((simHistory Ex.lax Ex.ratI (Ex.impRun Ex.daeTwice Ex.fit ["a", "b", "c"] Ex.quiet)).sims.map SimObj.output) =
    [some (.series [0, 1 / 2, 1] [[0, -4, -4], [0, -4, -4], [0, -4, -4]])] := by
  decide +kernel

/-- C82 fails: with a coefficient no run returns, and the integrator is not even called. -/
example : (simHistory Ex.lax Ex.ratI (Ex.impRun Ex.coefficient Ex.fit ["a", "b", "c"] Ex.quiet)).sims.map SimObj.output = [none] ∧
    (simHistory Ex.lax Ex.ratI (Ex.impRun Ex.coefficient Ex.fit ["a", "b", "c"] Ex.quiet)).log = [] ∧
    ((resolve (history Ex.coefficient World.init)).2.pr.block.map fun b =>
      (diffList Ex.lax.diffTerms (resolve (history Ex.coefficient World.init)).2.es b.differential).toOption) = some (some [.num 2]) := by
  decide +kernel

/-- A parameter without value: the function is compiled and raises `NameError`.  Without expressions for texts no solver is made. -/
example : ((daeCompile Ex.lax (resolve (history Ex.dae World.init)).2).toOption.map fun c => Ex.errOf (residualAt Ex.ratI c 0 [1, 2, 9, 4] [5])) =
      some (some .nameError) ∧
    Ex.errOf (daeCompile { Ex.lax with indexed := false } Ex.daeW) = some .typeError := by
  decide +kernel

/-- A run of the sample with sanity check: the test accepts it, the integrator is called and refuses. -/
example : let s := simHistory Ex.strict Ex.ratI (Ex.impRun Ex.daeP Ex.daeInit ["a", "b", "c"] {}).dropLast
    (dofTest Ex.strict.sr s.w).1 = .ok () ∧ s.w.pr.timeName = some ["t_m"] ∧
    (s.w.pr.block.map fun b => (b.problemType, b.varList.length, b.equations.length, b.equationsList.length)) = some (some .dae, 4, 3, 3) ∧
    (s.w.pr.block.map fun b => ((timeDeclared Ex.strict.sr s.w.es b s.w.pr.timeName).toOption,
      (dvalues b.parameterDict).map fun r => s.w.qs[r]?.map Quantity.isSpecified)) = some (some true, [some true]) ∧
    Ex.errOf (runSimulation Ex.strict Ex.ratI 0 {} s).1 = some .valueError ∧ (runSimulation Ex.strict Ex.ratI 0 {} s).2.log = [.ida] ∧
    ∀ f y yd tp, yd.length ≠ y.length → ∃ e, Ex.strict.ida f y yd tp = .fail e := by
  intro s
  refine ⟨by decide +kernel, by decide +kernel, by decide +kernel, by decide +kernel, by decide +kernel, by decide +kernel, fun f y yd tp h => ⟨.valueError, ?_⟩⟩
  exact if_neg h

end Sloth
