import Verif.Props.Linear
import Verif.Props.Implicit

/-!
# The linear system of a problem called linear (C15, C83)
-/

namespace Sloth
open PyM UnitObj

section
variable {K : Type} [Field K] [LinearOrder K]

/-- Whether the expression has a value does not depend on the assignment. -/
def Spec.DefinedAlike (I : Interp K) (e : PyExpr) : Prop := ∀ ρ ρ' : Atom → K, (Spec.val I ρ e).isSome = (Spec.val I ρ' e).isSome

theorem DefinedAlike.closed (I : Interp K) {e : PyExpr} (h : Spec.Closed e) : Spec.DefinedAlike I e := fun ρ ρ' => by rw [Spec.val_closed I ρ ρ' e h]

/-- In the fragment, an expression flagged linear has a value everywhere or nowhere. -/
theorem linear_defined (I : Interp K) (e : PyExpr) (hf : Spec.AffineFragment e) {n : ENode} (h : e.build = .ok n) (hl : n.ty.linear = true) :
    Spec.DefinedAlike I e := by
  induction e generalizing n with
  | q r x => intro ρ ρ'; rfl
  | bin op a b iha ihb =>
    obtain ⟨fa, fb, fd⟩ := hf
    simp only [PyExpr.build, bind_eq_ok] at h
    obtain ⟨m, hm, k, hk, h⟩ := h
    have ht := (op_node_ok h).2.2.2.2
    have hsum : (m.ty.prec k.ty).linear = true → Spec.DefinedAlike I a ∧ Spec.DefinedAlike I b := by
      intro hp
      obtain ⟨⟨d1, d2⟩, n1, n2⟩ := prec_linear hp
      exact ⟨iha fa hm (linear_of_one (expr_one_class a hm) n1 d1), ihb fb hk (linear_of_one (expr_one_class b hk) n2 d2)⟩
    -- both parts have a value, and so has the result
    have both : (∀ x y, (Spec.opVal I op x y).isSome = true) → Spec.DefinedAlike I a → Spec.DefinedAlike I b → Spec.DefinedAlike I (.bin op a b) := by
      intro ho ha hb ρ ρ'
      have e : ∀ ρ, (Spec.val I ρ (.bin op a b)).isSome = ((Spec.val I ρ a).isSome && (Spec.val I ρ b).isSome) := fun ρ => by
        simp only [Spec.val]
        cases Spec.val I ρ a <;> cases Spec.val I ρ b <;> simp [ho]
      rw [e, e, ha ρ ρ', hb ρ ρ']
    cases op with
    | add =>
      simp only at ht; rw [ht] at hl
      exact both (fun _ _ => rfl) (hsum hl).1 (hsum hl).2
    | sub =>
      simp only at ht; rw [ht] at hl
      exact both (fun _ _ => rfl) (hsum hl).1 (hsum hl).2
    | mul =>
      simp only at ht; rw [ht] at hl
      unfold ENode.mulType at hl
      split at hl
      · rename_i hc
        exact both (fun _ _ => rfl) (iha fa hm hl) (DefinedAlike.closed I ((varMap_nil_iff b hk).mp hc))
      · split at hl
        · rename_i hc
          exact both (fun _ _ => rfl) (DefinedAlike.closed I ((varMap_nil_iff a hm).mp hc)) (ihb fb hk hl)
        · simp [EqType.nonlin] at hl
    | div =>
      simp only at ht; rw [ht] at hl
      unfold ENode.mulType at hl
      split at hl
      · rename_i hc
        have hcl := (varMap_nil_iff b hk).mp hc
        intro ρ ρ'
        have ha := iha fa hm hl ρ ρ'
        simp only [Spec.val, Spec.val_closed I ρ ρ' b hcl]
        cases hx : Spec.val I ρ a <;> cases hx' : Spec.val I ρ' a <;> simp [hx, hx'] at ha
        · rfl
        · cases Spec.val I ρ' b with
          | none => rfl
          | some y => by_cases hy : y = 0 <;> simp [Spec.opVal, hy]
      · rename_i hb
        split at hl
        · rename_i hc
          exact absurd ((varMap_nil_iff b hk).mpr (fd rfl ((varMap_nil_iff a hm).mp hc))) hb
        · simp [EqType.nonlin] at hl
    | pow =>
      simp only at ht; rw [ht] at hl
      have := (prec_linear hl).2.2
      simp [EqType.nonlin] at this
  | binN op a q iha =>
    simp only [PyExpr.build, bind_eq_ok] at h
    obtain ⟨m, hm, h⟩ := h
    have ht := (op_num_ok h).2.2.2.2
    by_cases hop : op = .pow
    · rw [if_pos hop] at ht; rw [ht] at hl
      have := (prec_linear hl).2.2
      simp [EqType.nonlin] at this
    · rw [if_neg hop] at ht; rw [ht] at hl
      intro ρ ρ'
      have ha := iha hf hm hl ρ ρ'
      simp only [Spec.val]
      cases hx : Spec.val I ρ a <;> cases hx' : Spec.val I ρ' a <;> simp [hx, hx'] at ha
      · rfl
      · cases op with
        | pow => exact absurd rfl hop
        | div => by_cases hy : (q : K) = 0 <;> simp [Spec.opVal, hy]
        | _ => rfl
  | nbin op q a iha =>
    simp only [PyExpr.build, bind_eq_ok] at h
    obtain ⟨m, hm, h⟩ := h
    have ht := (rop_maps h).2.2
    by_cases hop : op = .div
    · rw [if_pos hop] at ht; rw [ht] at hl
      have := (prec_linear hl).2.2
      simp [EqType.nonlin] at this
    · rw [if_neg hop] at ht; rw [ht] at hl
      intro ρ ρ'
      have ha := iha hf hm hl ρ ρ'
      simp only [Spec.val]
      cases hx : Spec.val I ρ a <;> cases hx' : Spec.val I ρ' a <;> simp [hx, hx'] at ha
      · rfl
      · cases op with
        | pow => simp [ENode.rop] at h
        | div => exact absurd rfl hop
        | _ => rfl
  | fn f a iha =>
    simp only [PyExpr.build, bind_eq_ok] at h
    obtain ⟨m, hm, h⟩ := h
    rw [(fn_ok h).2.2.2.2.1] at hl; simp [EqType.nonlin] at hl
  | mmN isMax a q iha => exact DefinedAlike.closed I hf.2
  | diff r x ind =>
    rw [(diff_node h).2.2.2.2] at hl; simp [EqType.diff] at hl

/-- `f` has no value at all, or is everywhere the affine function with coefficients `c` and constant `-d` of the variables named in `S`: `row` is `none`
or the coefficients and the right side of the equation `∑ c x = d`. -/
def Spec.Row (f : (Atom → K) → Option K) (S : Finset String) (row : Option ((String → K) × K)) : Prop :=
  ∀ ρ, f ρ = row.map fun p => ∑ s ∈ S, p.1 s * ρ (.v s) - p.2

theorem AffineOn.row {f : (Atom → K) → Option K} {S : Finset String} (h : AffineOn f S) (hd : ∀ ρ ρ', (f ρ).isSome = (f ρ').isSome) :
    ∃ row, Spec.Row f S row := by
  obtain ⟨c0, c, hc⟩ := h
  cases h0 : f (fun _ => 0) with
  | none =>
    refine ⟨none, fun ρ => ?_⟩
    have := hd ρ (fun _ => 0)
    rw [h0] at this
    simpa using this
  | some v0 =>
    refine ⟨some (c, -c0), fun ρ => ?_⟩
    have := hd ρ (fun _ => 0)
    rw [h0] at this
    obtain ⟨v, hv⟩ := Option.isSome_iff_exists.mp this
    rw [hv, hc ρ v hv]
    simp [add_comm]

/-- C15 (partial): in the fragment, a node flagged linear has no value at all (a division by a zero constant), or is everywhere an affine function of the unspecified
quantities of the expression.  Missing: as in `linear_is_affine_partial`. -/
theorem linear_everywhere_partial (I : Interp K) (e : PyExpr) (hf : Spec.AffineFragment e) {n : ENode} (h : e.build = .ok n) (hl : n.ty.linear = true) :
    ∃ row, Spec.Row (fun ρ => n.sym.expr.eval I ρ) (Spec.unknowns e) row := by
  refine AffineOn.row (linear_is_affine_partial I e hf h hl) fun ρ ρ' => ?_
  rw [expr_value I ρ e h, expr_value I ρ' e h]
  exact linear_defined I e hf h hl ρ ρ'

theorem Spec.Row.mono {f : (Atom → K) → Option K} {S T : Finset String} {row : Option ((String → K) × K)} (h : Spec.Row f S row) (hST : S ⊆ T) :
    ∃ row', Spec.Row f T row' := by
  cases row with
  | none => exact ⟨none, h⟩
  | some p =>
    refine ⟨some (fun s => if s ∈ S then p.1 s else 0, p.2), fun ρ => ?_⟩
    rw [h ρ]
    simp only [Option.map_some, Option.some.injEq]
    congr 1
    rw [← Finset.sum_subset hST (fun x _ hx => by simp [hx])]
    exact Finset.sum_congr rfl (fun x hx => by simp [hx])

/-- Renaming. -/
theorem Spec.Row.moved {f : (Atom → K) → Option K} {S : Finset String} {row : Option ((String → K) × K)} (h : Spec.Row f S row) (g : String → String) :
    ∃ row', Spec.Row (fun ρ => f fun a => ρ (a.ren g)) (S.image g) row' := by
  cases row with
  | none => exact ⟨none, fun ρ => h _⟩
  | some p =>
    refine ⟨some (fun t => ∑ s ∈ S with g s = t, p.1 s, p.2), fun ρ => ?_⟩
    show f _ = _
    rw [h]
    simp only [Option.map_some, Option.some.injEq]
    congr 1
    rw [← Finset.sum_fiberwise_of_maps_to (s := S) (t := S.image g) (g := g) (fun i hi => Finset.mem_image_of_mem g hi)]
    refine Finset.sum_congr rfl fun t _ => ?_
    rw [Finset.sum_mul]
    refine Finset.sum_congr rfl fun s hs => ?_
    rw [(Finset.mem_filter.mp hs).2.symm]; rfl


end

/-! ### The fragment, read off the symbolic expressions -/

/-- The fragment of `Spec.AffineFragment`, for symbolic expressions: no quotient of a number by an expression with symbols, no `Min`/`Max` of an expression with
symbols. -/
def Spec.SymAffine : Sym → Prop
  | .num _ | .atom _ => True
  | .add a b | .sub a b | .mul a b | .pow a b => Spec.SymAffine a ∧ Spec.SymAffine b
  | .div a b => Spec.SymAffine a ∧ Spec.SymAffine b ∧ (Spec.atoms a = [] → Spec.atoms b = [])
  | .fn _ a => Spec.SymAffine a
  | .mm _ a b => Spec.SymAffine a ∧ Spec.SymAffine b ∧ Spec.atoms a = [] ∧ Spec.atoms b = []

instance Spec.SymAffine.dec : (s : Sym) → Decidable (Spec.SymAffine s)
  | .num _ | .atom _ => isTrue trivial
  | .add a b | .sub a b | .mul a b | .pow a b => @instDecidableAnd _ _ (dec a) (dec b)
  | .div a b => @instDecidableAnd _ _ (dec a) (@instDecidableAnd _ _ (dec b) inferInstance)
  | .fn _ a => dec a
  | .mm _ a b => @instDecidableAnd _ _ (dec a) (@instDecidableAnd _ _ (dec b) inferInstance)

theorem atoms_nil_iff (s : Sym) : Spec.atoms s = [] ↔ s.free = [] := by
  induction s with
  | atom a => cases a <;> simp [Spec.atoms, Sym.free]
  | num q => simp [Spec.atoms, Sym.free]
  | fn f a ih => exact ih
  | add a b iha ihb | sub a b iha ihb | mul a b iha ihb | div a b iha ihb | pow a b iha ihb | mm _ a b iha ihb =>
    simp [Spec.atoms, Sym.free, iha, ihb]

theorem atoms_nil_ren (f : String → String) (s : Sym) : Spec.atoms (s.ren f) = [] ↔ Spec.atoms s = [] := by
  rw [atoms_nil_iff, atoms_nil_iff, Sym.free_ren, List.map_eq_nil_iff]

theorem symAffine_ren (f : String → String) (s : Sym) : Spec.SymAffine (s.ren f) ↔ Spec.SymAffine s := by
  induction s with
  | atom a => exact Iff.rfl
  | num q => exact Iff.rfl
  | fn f a ih => exact ih
  | add a b iha ihb | sub a b iha ihb | mul a b iha ihb | div a b iha ihb | pow a b iha ihb | mm _ a b iha ihb =>
    simp only [Sym.ren, Spec.SymAffine, iha, ihb, atoms_nil_ren]

/-- Closed expressions are those whose symbolic expression has no symbols. -/
theorem closed_iff_atoms (e : PyExpr) {n : ENode} (h : e.build = .ok n) : Spec.Closed e ↔ Spec.atoms n.sym.expr = [] := by
  rw [← varMap_nil_iff e h, atoms_nil_iff, List.eq_nil_iff_forall_not_mem (l := n.sym.expr.free)]
  constructor
  · intro hv s hs
    have := ((build_free e h).1 s).mp hs
    rw [hv] at this; simp at this
  · intro hs
    cases hv : n.varMap with
    | nil => rfl
    | cons p t => exact absurd (((build_free e h).1 p.1).mpr (by simp [hv, dkeys])) (hs p.1)

theorem fragment_of_sym (e : PyExpr) {n : ENode} (h : e.build = .ok n) (hs : Spec.SymAffine n.sym.expr) : Spec.AffineFragment e := by
  induction e generalizing n with
  | q r x => trivial
  | bin op a b iha ihb =>
    simp only [PyExpr.build, bind_eq_ok] at h
    obtain ⟨m, hm, k, hk, h⟩ := h
    rw [(op_node_ok h).1] at hs
    have hs' : Spec.SymAffine (opSym op m.sym.expr k.sym.expr) := hs
    cases op with
    | div => exact ⟨iha hm hs'.1, ihb hk hs'.2.1, fun _ hc => (closed_iff_atoms b hk).mpr (hs'.2.2 ((closed_iff_atoms a hm).mp hc))⟩
    | _ => exact ⟨iha hm hs'.1, ihb hk hs'.2, fun h => by cases h⟩
  | binN op a q iha =>
    simp only [PyExpr.build, bind_eq_ok] at h
    obtain ⟨m, hm, h⟩ := h
    rw [(op_num_ok h).1] at hs
    have hs' : Spec.SymAffine (opSym op m.sym.expr (.num q)) := hs
    cases op <;> exact iha hm hs'.1
  | nbin op q a iha =>
    simp only [PyExpr.build, bind_eq_ok] at h
    obtain ⟨m, hm, h⟩ := h
    cases op with
    | add => simp only [ENode.rop, ENode.radd, ENode.add, Except.ok.injEq] at h; subst h; exact iha hm hs.1
    | sub => simp only [ENode.rop, ENode.rsub, ENode.mul, ok_bind, ENode.add, Except.ok.injEq] at h; subst h; exact iha hm hs.1.1
    | mul => simp only [ENode.rop, ENode.rmul, ENode.mul, Except.ok.injEq] at h; subst h; exact iha hm hs.1
    | div =>
      simp only [ENode.rop, ENode.rdiv, bind_eq_ok] at h
      obtain ⟨k, hk, h⟩ := h
      simp only [ENode.mul, Except.ok.injEq] at h; subst h
      have h1 := (op_num_ok (m := m) (op := .pow) (q := -1) hk).1
      have h2 : Spec.SymAffine k.sym.expr := hs.1
      rw [h1] at h2
      exact iha hm h2.1
    | pow => simp [ENode.rop] at h
  | fn f a iha =>
    simp only [PyExpr.build, bind_eq_ok] at h
    obtain ⟨m, hm, h⟩ := h
    rw [(fn_ok h).1] at hs
    exact iha hm hs
  | mmN isMax a q iha =>
    simp only [PyExpr.build, bind_eq_ok] at h
    obtain ⟨m, hm, h⟩ := h
    obtain ⟨r, hr, _, h1, _⟩ := mmN_eq isMax m q
    rw [hr] at h; simp only [Except.ok.injEq] at h; subst h
    rw [h1] at hs
    exact ⟨iha hm hs.1, (closed_iff_atoms a hm).mpr hs.2.2.1⟩
  | diff r x ind => trivial

section
variable {K : Type} [Field K] [LinearOrder K]

theorem eval_atoms (I : Interp K) {ρ σ : Atom → K} (s : Sym) (h : ∀ a ∈ Spec.atoms s, ρ a = σ a) : s.eval I ρ = s.eval I σ := by
  induction s with
  | num q => rfl
  | atom a => simp [Sym.eval, h a (by simp [Spec.atoms])]
  | fn f a ih => simp only [Sym.eval]; rw [ih h]
  | add a b iha ihb | sub a b iha ihb | mul a b iha ihb | div a b iha ihb | pow a b iha ihb | mm _ a b iha ihb =>
    simp only [Sym.eval]
    rw [iha (fun x hx => h x (by simp [Spec.atoms, hx])), ihb (fun x hx => h x (by simp [Spec.atoms, hx]))]

/-- Names that do not occur do not count. -/
theorem Spec.Row.restrict (I : Interp K) {s : Sym} {T S : Finset String} {row : Option ((String → K) × K)} (h : Spec.Row (fun ρ => s.eval I ρ) T row)
    (hS : ∀ n, Atom.v n ∈ Spec.atoms s → n ∈ S) : ∃ row', Spec.Row (fun ρ => s.eval I ρ) S row' := by
  cases row with
  | none => exact ⟨none, h⟩
  | some p =>
    refine ⟨some (fun n => if n ∈ T then p.1 n else 0, p.2), fun ρ => ?_⟩
    have e : s.eval I ρ = s.eval I (fun a => match a with | .v n => if n ∈ S then ρ (.v n) else 0 | .d x t => ρ (.d x t)) :=
      eval_atoms I s fun a ha => by
        cases a with
        | v n => simp [hS n ha]
        | d x t => rfl
    show s.eval I ρ = _
    rw [e]
    refine (h _).trans ?_
    simp only [Option.map_some, Option.some.injEq]
    congr 1
    simp only [mul_ite, mul_zero, ite_mul, zero_mul]
    rw [← Finset.sum_filter, ← Finset.sum_filter]
    refine Finset.sum_congr ?_ fun _ _ => rfl
    ext n; simp [and_comm]

end

/-! ### The expressions handed on -/

/-- What the equation hands on is a number, or an expression as it was built, with renamed symbols; if the equation is called linear, the node was flagged linear. -/
def EqObj.Shaped (e : EqObj) : Prop :=
  ∀ n, e.getNode none .rhs = .ok n → n.sym.Closed ∧ ((∃ q, n.sym.expr = .num q) ∨
    ∃ (x : PyExpr) (m : ENode) (f : String → String), x.build = .ok m ∧ n.sym.expr = m.sym.expr.ren f ∧ (e.type = some .linear → m.ty.linear = true))

theorem Sym.ren_ren (f g : String → String) (s : Sym) : (s.ren f).ren g = s.ren (g ∘ f) := by
  induction s with
  | num q => rfl
  | atom a => cases a <;> rfl
  | fn f a ih => simp only [Sym.ren, ih]
  | add a b iha ihb | sub a b iha ihb | mul a b iha ihb | div a b iha ihb | pow a b iha ihb | mm _ a b iha ihb => simp only [Sym.ren, iha, ihb]

theorem Stmt.shaped (st : Stmt) {t : String} {e0 e : EqObj} {a : ResArg} (ha : st.arg = .ok a) (hf : e0.Fresh a) (h : e0.setResidual t a = (.ok (), e))
    (n o : String) (d : Option (Dict String Ref)) : EqObj.Shaped { e with name := n, owner := o, objects := d } := by
  have hty : e.type = some .linear → ∀ x ∈ Spec.parts st, ∃ m, x.build = .ok m ∧ m.ty.linear = true := fun ht => by
    obtain ⟨m, k, _, hk, h1, _, _, _, h3⟩ := equation_kind st t e0 e ha h
    exact h3.1 (h1.1 (Option.some.inj (hk.symm.trans ht)))
  have hpart : ∀ x ∈ Spec.parts st, ∀ m, x.build = .ok m → e.type = some .linear → m.ty.linear = true := fun x hx m hm ht => by
    obtain ⟨m', hm', hl⟩ := hty ht x hx
    rw [hm] at hm'; cases hm'; exact hl
  cases st with
  | eqn l r =>
    simp only [Stmt.arg, bind_eq_ok, Except.ok.injEq] at ha
    obtain ⟨nl, hl, nr, hr, rfl⟩ := ha
    have hp := hpart r (by simp [Spec.parts]) nr hr
    simp only [EqObj.setResidual] at h
    split at h
    · simp at h
    · obtain ⟨k, hk, h'⟩ := EqObj.finish_ok h
      intro n hn
      have : n = nr := by
        rw [h'] at hn
        simpa [EqObj.getNode] using hn.symm
      subst this
      exact ⟨build_closed r hr, .inr ⟨r, n, id, hr, (Sym.ren_id _).symm, hp⟩⟩
  | eqnNum l q =>
    simp only [Stmt.arg, bind_eq_ok, Except.ok.injEq] at ha
    obtain ⟨nl, hl, rfl⟩ := ha
    simp only [EqObj.setResidual] at h
    split at h
    · simp at h
    · obtain ⟨k, hk, h'⟩ := EqObj.finish_ok h
      intro n hn
      have : n = EqObj.numNode t q nl.unit := by
        rw [h'] at hn
        simpa [EqObj.getNode] using hn.symm
      subst this
      exact ⟨fun _ _ => rfl, .inl ⟨q, rfl⟩⟩
  | res x =>
    have hform := fun nl (hl : a = .node nl) => EqObj.setResidual_node_form (hl ▸ h)
    simp only [Stmt.arg, bind_eq_ok, Except.ok.injEq] at ha
    obtain ⟨nl, hl, rfl⟩ := ha
    have hp := hpart x (by simp [Spec.parts]) nl hl
    have hform := hform nl rfl
    rcases hf with hf | hf
    · simp only [EqObj.setResidual] at h
      obtain ⟨k, hk, h'⟩ := EqObj.finish_ok h
      intro n hn
      have : n = nl := by
        simp only [EqObj.getNode, Option.getD_none, hform, hf] at hn
        rw [h'] at hn
        simpa using hn.symm
      subst this
      exact ⟨build_closed x hl, .inr ⟨x, n, id, hl, (Sym.ren_id _).symm, hp⟩⟩
    · exact absurd rfl (hf nl)

theorem EqObj.Shaped.convert {e e' : EqObj} (hs : e.Shaped) {n o : String} {names : Dict String String} {whole : Dict String Ref}
    (h : EqObj.convert { e with name := n, owner := o } names whole = .ok e') : e'.Shaped := by
  have hty : e'.type = e.type := by
    obtain ⟨_, _, _, _, _, g⟩ := EqObj.convert_keeps h; exact g
  have step : ∀ (k k' : ENode), e.getNode none .rhs = .ok k → k'.sym.expr = k.sym.expr.ren (oneByOne names) → k'.sym.Closed →
      k'.sym.Closed ∧ ((∃ q, k'.sym.expr = .num q) ∨
        ∃ (x : PyExpr) (m : ENode) (f : String → String), x.build = .ok m ∧ k'.sym.expr = m.sym.expr.ren f ∧ (e'.type = some .linear → m.ty.linear = true)) := by
    intro k k' hk hr hc
    refine ⟨hc, ?_⟩
    rcases (hs k hk).2 with ⟨q, hq⟩ | ⟨x, m, f, hx, he, hl⟩
    · exact .inl ⟨q, by rw [hr, hq]; rfl⟩
    · exact .inr ⟨x, m, _, hx, by rw [hr, he, Sym.ren_ren], fun ht => hl (hty ▸ ht)⟩
  unfold EqObj.convert at h
  cases hx : e.expr with
  | none => simp [hx] at h
  | some k =>
    simp only [hx, EqObj.convertNode, bind_eq_ok] at h
    obtain ⟨s, hsu, el, hel, mp, _, h⟩ := h
    obtain ⟨k', hk', h'⟩ := EqObj.sweep_ok h
    intro n' hn'
    cases hf : e.form with
    | residual =>
      have hn : n' = k' := by
        rw [h'] at hn'
        simp only [EqObj.getNode, Option.getD_none, hf] at hn'
        simp only [Option.some.injEq] at hk'
        subst hk'
        simpa using hn'.symm
      subst hn
      simp only [Option.some.injEq] at hk'
      have hk0 : e.getNode none .rhs = .ok k := by simp only [EqObj.getNode, Option.getD_none, hf, hx]
      have hse : s = ⟨false, k.sym.expr.ren (oneByOne names)⟩ := by
        unfold EqObj.subsObj at hsu
        split at hsu
        · simp at hsu
        · simpa [subsNames_oneByOne] using hsu.symm
      subst hk'
      exact step k _ hk0 (by simp [hse]) (fun h => by simp [hse] at h)
    | elementary =>
      cases he : e.elem with
      | none =>
        simp only [he, EqObj.convertElem, Except.ok.injEq] at hel
        rw [h'] at hn'
        simp [EqObj.getNode, hf, ← hel] at hn'
      | some p =>
        obtain ⟨l0, r0⟩ := p
        simp only [he, EqObj.convertElem] at hel
        split at hel
        · cases hel
        · simp only [bind_eq_ok, Except.ok.injEq] at hel
          obtain ⟨ml, _, mr, _, hel⟩ := hel
          have hk0 : e.getNode none .rhs = .ok r0 := by simp only [EqObj.getNode, Option.getD_none, hf, he]
          have hn : n'.sym = EqObj.subsObjQuiet names r0.sym := by
            rw [h'] at hn'
            simp only [EqObj.getNode, Option.getD_none, hf, ← hel, Except.ok.injEq] at hn'
            rw [← hn']
          have hc := (hs r0 hk0).1
          refine step r0 n' hk0 ?_ ?_
          · rw [hn]; unfold EqObj.subsObjQuiet
            cases hp : r0.sym.isPy
            · simp [subsNames_oneByOne]
            · simp [hc hp]
          · rw [hn]; unfold EqObj.subsObjQuiet
            cases hp : r0.sym.isPy
            · exact fun h => by simp at h
            · simpa using hc

theorem shaped_stable : Stable Spec.written (fun w w' => (∀ e ∈ w.es, e.Shaped) → ∀ e ∈ w'.es, e.Shaped) :=
  (eqInv_elem Spec.written EqObj.Shaped (fun st a h => ⟨st, h⟩) (fun t e0 e a n o d ⟨st, hst⟩ hf h => st.shaped hst hf h n o _)
    (fun fl _ _ e e' n o names whole hst h => hst.convert h)).stable trivial

section
variable {K : Type} [Field K] [LinearOrder K]

/-- What a linear equation hands on is a row, over any set of names that contains its symbols. -/
theorem shaped_row (I : Interp K) {e : EqObj} (h : e.Shaped) (ht : e.type = some .linear) {s : SObj} (hs : e.symbolicObject none .rhs = .ok s)
    (ha : Spec.SymAffine s.expr) {S : Finset String} (hS : ∀ n, Atom.v n ∈ Spec.atoms s.expr → n ∈ S) : ∃ row, Spec.Row (fun ρ => s.expr.eval I ρ) S row := by
  simp only [EqObj.symbolicObject, bind_eq_ok, Except.ok.injEq] at hs
  obtain ⟨n, hn, rfl⟩ := hs
  rcases (h n hn).2 with ⟨q, hq⟩ | ⟨x, m, f, hx, he, hl⟩
  · refine ⟨some (fun _ => 0, -(q : K)), fun ρ => ?_⟩
    simp [hq, Sym.eval]
  · rw [he] at ha
    obtain ⟨row, hr⟩ := linear_everywhere_partial I x (fragment_of_sym x hx ((symAffine_ren f _).mp ha)) hx (hl ht)
    obtain ⟨row', hr'⟩ := hr.moved f
    refine Spec.Row.restrict I (row := row') (T := (Spec.unknowns x).image f) (fun ρ => ?_) hS
    rw [← hr' ρ]
    simp only [he, Sym.eval_ren]

/-- Rows with values are zero exactly at the solutions. -/
theorem rows_zero (I : Interp K) {ss : List SObj} {S : Finset String} {sys : List ((String → K) × K)}
    (h : List.Forall₂ (fun (s : SObj) row => Spec.Row (fun ρ => s.expr.eval I ρ) S row) ss (sys.map some)) (ρ : Atom → K) :
    (∀ s ∈ ss, s.expr.eval I ρ = some 0) ↔ ∀ p ∈ sys, ∑ n ∈ S, p.1 n * ρ (.v n) = p.2 := by
  induction sys generalizing ss with
  | nil => cases h; simp
  | cons p t ih =>
    cases h with
    | cons hd h =>
      have := hd ρ
      simp only [Option.map_some] at this
      rw [List.forall_mem_cons, List.forall_mem_cons, ih h, this, Option.some.injEq, sub_eq_zero]

end

/-- C83 (partial), the whole system: in any session of written equations, if `resolve` calls the problem linear, and the expressions handed to the linear solver (those of
copied equations included) contain no quotient of a number by symbols and no `Min`/`Max` of symbols, they are the rows of a linear system: for every set of names that contains
the symbols handed on there are coefficients and right sides such that each expression is everywhere `∑ c x - d` (or has no value at all).  Hence, if all have a value, they
are zero exactly at the solutions of the linear system.
Missing: quotients of a closed by an open expression and `Min`/`Max` (`linear_problem_not_linear`). -/
theorem linear_system_partial (ops : List Op) (hs : Spec.Session ops) {w' : World} (h : resolve (history ops World.init) = (.ok (), w')) :
    ∃ b : Block, w'.pr.block = some b ∧ Spec.Equations w' b.equations ∧ b.equationsList.length = b.equations.length ∧
      (b.problemType = some .linear → (∀ s ∈ b.equationsList, Spec.SymAffine s.expr) →
        ∀ S : Finset String, (∀ s ∈ b.equationsList, ∀ n, Atom.v n ∈ Spec.atoms s.expr → n ∈ S) → ∀ {K : Type} [Field K] [LinearOrder K] (I : Interp K),
          ∃ rows : List (Option ((String → K) × K)), List.Forall₂ (fun s row => Spec.Row (fun ρ => s.expr.eval I ρ) S row) b.equationsList rows ∧
            ∀ sys : List ((String → K) × K), rows = sys.map some → ∀ ρ : Atom → K,
              ((∀ s ∈ b.equationsList, s.expr.eval I ρ = some 0) ↔ ∀ p ∈ sys, ∑ n ∈ S, p.1 n * ρ (.v n) = p.2)) := by
  obtain ⟨b, g, hb, hg, _, _, _, _, hga, hgr, _, _, _, hl⟩ := resolved_block h
  have hes : ∀ e ∈ w'.es, e.Shaped := by
    rw [history_resolve ops h]
    exact shaped_stable.history _ hs.resolve World.init (by simp [World.init])
  have hf := getEquationList_ok hl
  refine ⟨b, hb, gather_equations hga hg, hf.length_eq.symm, fun hk hfr S hS => ?_⟩
  intro K _ _ I
  have ht : ∀ r ∈ b.equations, ∀ e, w'.es[r]? = some e → e.type = some .linear := fun r hr e he => by
    obtain ⟨h1, h2⟩ := linear_only hgr hk hr he
    obtain ⟨m, _, hone, ht⟩ := session_typed hs.resolve e (by rw [← history_resolve ops h]; exact List.mem_of_getElem? he)
    rw [ht] at h1 h2 ⊢
    rcases hone with ⟨a, b, c⟩ | ⟨a, b, c⟩ | ⟨a, b, c⟩ <;> simp [EqObj.kindOf, a, b, c] at h1 h2 ⊢
  have key : ∀ (l : List ERef) (ss : List SObj), List.Forall₂ (fun r s => ∃ e, w'.es[r]? = some e ∧ e.symbolicObject none .rhs = .ok s) l ss →
      (∀ r ∈ l, ∀ e, w'.es[r]? = some e → e.type = some .linear) → (∀ s ∈ ss, Spec.SymAffine s.expr) →
      (∀ s ∈ ss, ∀ n, Atom.v n ∈ Spec.atoms s.expr → n ∈ S) →
      ∃ rows : List (Option ((String → K) × K)), List.Forall₂ (fun s row => Spec.Row (fun ρ => s.expr.eval I ρ) S row) ss rows := by
    intro l ss hf
    induction hf with
    | nil => exact fun _ _ _ => ⟨[], .nil⟩
    | cons hd _ ih =>
      intro h1 h2 h3
      obtain ⟨e, he, hse⟩ := hd
      obtain ⟨rows, hr⟩ := ih (fun r hr => h1 r (by simp [hr])) (fun s hs => h2 s (by simp [hs])) (fun s hs => h3 s (by simp [hs]))
      obtain ⟨row, hrow⟩ := shaped_row I (hes e (List.mem_of_getElem? he)) (h1 _ (by simp) e he) hse (h2 _ (by simp)) (h3 _ (by simp))
      exact ⟨row :: rows, .cons hrow hr⟩
  obtain ⟨rows, hrows⟩ := key _ _ hf ht hfr hS
  refine ⟨rows, hrows, ?_⟩
  rintro sys rfl ρ
  exact rows_zero I hrows ρ

namespace Ex
/-- A tank with `3*x - y + 1` and `x - y/2 - 4` which is copied into the valve; only the valve is added. -/
def lineSession : List Op := [.newModel "tank" "" {} none, .newModel "valve" "" {} none, .cmd 0 (dv "x"), .cmd 0 (dv "y"),
  .cmd 0 (eq_ "a" (.res (.binN .add (.bin .sub (.nbin .mul 3 (at_ "x")) (at_ "y")) 1))),
  .cmd 0 (eq_ "b" (.res (.binN .sub (.bin .sub (at_ "x") (.binN .div (at_ "y") 2)) 4))),
  .incorporate 1 0 {}, .addModels (.leaf 1)]
end Ex

/-- The hypotheses: the session is one of written equations, resolving it returns, the problem is called linear, and the two expressions handed on are
`3*x - y + 1` and `x - y/2 - 4` of the copied variables; both are of the fragment. -/
example : Spec.Session Ex.lineSession ∧ (resolve (history Ex.lineSession World.init)).1 = .ok () ∧
    ((resolve (history Ex.lineSession World.init)).2.pr.block.map fun b => (b.problemType, b.varList)) = some (some .linear, ["x_valve", "y_valve"]) ∧
    ((resolve (history Ex.lineSession World.init)).2.pr.block.map fun b => b.equationsList.map fun s => s.expr) =
      some [.add (.sub (.mul (.atom (.v "x_valve")) (.num 3)) (.atom (.v "y_valve"))) (.num 1),
        .sub (.sub (.atom (.v "x_valve")) (.div (.atom (.v "y_valve")) (.num 2))) (.num 4)] ∧
    (∀ b, (resolve (history Ex.lineSession World.init)).2.pr.block = some b → ∀ s ∈ b.equationsList, Spec.SymAffine s.expr) := by
  refine ⟨?_, by decide +kernel, by decide +kernel, by decide +kernel, fun b hb => ?_⟩
  swap
  · have h : ((resolve (history Ex.lineSession World.init)).2.pr.block.map fun b => decide (∀ s ∈ b.equationsList, Spec.SymAffine s.expr)) = some true := by
      decide +kernel
    rw [hb] at h
    simpa using h
  intro o ho
  simp only [Ex.lineSession, List.mem_cons, List.not_mem_nil, or_false] at ho
  rcases ho with rfl | rfl | rfl | rfl | rfl | rfl | rfl | rfl <;> trivial

end Sloth
