import Verif.Lemmas.Affine

/-!
# Properties of node classes and of the operator functions (C15-C19)
-/

namespace Sloth

section
variable {K : Type} [Field K] [LinearOrder K]

/-! ## C15 -/

/-- The fragment for which "linear" is right: no quotient of a closed expression by an open one, no `Min`/`Max` of an open one. -/
def Spec.AffineFragment : PyExpr → Prop
  | .q _ _ | .diff _ _ _ => True
  | .bin op a b => Spec.AffineFragment a ∧ Spec.AffineFragment b ∧ (op = .div → Spec.Closed a → Spec.Closed b)
  | .binN _ a _ | .nbin _ _ a | .fn _ a => Spec.AffineFragment a
  | .mmN _ a _ => Spec.AffineFragment a ∧ Spec.Closed a

/-- C15 (partial): in the fragment, a node flagged linear is an affine function of the unspecified quantities of the
expression, with coefficients that do not depend on the assignment.  Missing: closed/open quotients and `Min`/`Max`, which the
code flags linear although they are not affine (`linear_flag_on_reciprocal`, `linear_flag_on_min`). -/
theorem linear_is_affine_partial (I : Interp K) (e : PyExpr) (hf : Spec.AffineFragment e) {n : ENode} (h : e.build = .ok n)
    (hl : n.ty.linear = true) :
    ∃ (c0 : K) (c : String → K), ∀ ρ v, n.sym.expr.eval I ρ = some v → v = c0 + ∑ s ∈ Spec.unknowns e, c s * ρ (.v s) := by
  suffices h' : AffineOn (fun ρ => Spec.val I ρ e) (Spec.unknowns e) by
    obtain ⟨c0, c, hc⟩ := h'
    exact ⟨c0, c, fun ρ v hv => hc ρ v ((expr_value I ρ e h).symm.trans hv)⟩
  induction e generalizing n with
  | q r x =>
    cases hx : x.isSpecified
    · refine ⟨0, fun _ => 1, fun ρ v hv => ?_⟩
      simp only [Spec.val, Spec.qVal, hx, Option.some.injEq] at hv
      simp [Spec.unknowns, Spec.quantities, hx, ← hv]
    · exact AffineOn.const _ (some (x.value : K)) (fun ρ => by simp [Spec.val, Spec.qVal, hx])
  | bin op a b iha ihb =>
    obtain ⟨fa, fb, fd⟩ := hf
    simp only [PyExpr.build, bind_eq_ok] at h
    obtain ⟨m, hm, k, hk, h⟩ := h
    have ht := (op_node_ok h).2.2.2.2
    have hsum : (m.ty.prec k.ty).linear = true →
        AffineOn (fun ρ => Spec.val I ρ a) (Spec.unknowns (.bin op a b)) ∧ AffineOn (fun ρ => Spec.val I ρ b) (Spec.unknowns (.bin op a b)) := by
      intro hp
      obtain ⟨⟨d1, d2⟩, n1, n2⟩ := prec_linear hp
      exact ⟨(iha fa hm (linear_of_one (expr_one_class a hm) n1 d1)).mono (unknowns_bin_left op a b),
        (ihb fb hk (linear_of_one (expr_one_class b hk) n2 d2)).mono (unknowns_bin_right op a b)⟩
    cases op with
    | add =>
      simp only at ht; rw [ht] at hl
      obtain ⟨ha, hb⟩ := hsum hl
      refine AffineOn.comb ha hb 1 1 0 (fun ρ v hv => ?_)
      simp only [Spec.val, Option.bind_eq_bind, Option.bind_eq_some_iff, Spec.opVal, Option.some.injEq] at hv
      obtain ⟨x, hx, y, hy, rfl⟩ := hv
      exact ⟨x, y, hx, hy, by ring⟩
    | sub =>
      simp only at ht; rw [ht] at hl
      obtain ⟨ha, hb⟩ := hsum hl
      refine AffineOn.comb ha hb 1 (-1) 0 (fun ρ v hv => ?_)
      simp only [Spec.val, Option.bind_eq_bind, Option.bind_eq_some_iff, Spec.opVal, Option.some.injEq] at hv
      obtain ⟨x, hx, y, hy, rfl⟩ := hv
      exact ⟨x, y, hx, hy, by ring⟩
    | mul =>
      simp only at ht; rw [ht] at hl
      unfold ENode.mulType at hl
      split at hl
      · rename_i hc
        have hcl := (varMap_nil_iff b hk).mp hc
        refine AffineOn.scale ((iha fa hm hl).mono (unknowns_bin_left _ a b)) (Spec.val I (fun _ => 0) b) (fun ρ v hv => ?_)
        simp only [Spec.val, Option.bind_eq_bind, Option.bind_eq_some_iff, Spec.opVal, Option.some.injEq] at hv
        obtain ⟨x, hx, y, hy, rfl⟩ := hv
        exact ⟨x, y, hx, by rw [← Spec.val_closed I ρ _ b hcl]; exact hy, rfl⟩
      · split at hl
        · rename_i hc
          have hcl := (varMap_nil_iff a hm).mp hc
          refine AffineOn.scale ((ihb fb hk hl).mono (unknowns_bin_right _ a b)) (Spec.val I (fun _ => 0) a) (fun ρ v hv => ?_)
          simp only [Spec.val, Option.bind_eq_bind, Option.bind_eq_some_iff, Spec.opVal, Option.some.injEq] at hv
          obtain ⟨x, hx, y, hy, rfl⟩ := hv
          exact ⟨y, x, hy, by rw [← Spec.val_closed I ρ _ a hcl]; exact hx, mul_comm _ _⟩
        · simp [EqType.nonlin] at hl
    | div =>
      simp only at ht; rw [ht] at hl
      unfold ENode.mulType at hl
      split at hl
      · rename_i hc
        have hcl := (varMap_nil_iff b hk).mp hc
        refine AffineOn.scale ((iha fa hm hl).mono (unknowns_bin_left _ a b)) ((Spec.val I (fun _ => 0) b).map (·⁻¹)) (fun ρ v hv => ?_)
        simp only [Spec.val, Option.bind_eq_bind, Option.bind_eq_some_iff, Spec.opVal] at hv
        obtain ⟨x, hx, y, hy, hv⟩ := hv
        split at hv
        · simp at hv
        · simp only [Option.some.injEq] at hv; subst hv
          refine ⟨x, y⁻¹, hx, ?_, div_eq_mul_inv _ _⟩
          rw [← Spec.val_closed I ρ _ b hcl, hy]; rfl
      · rename_i hb
        split at hl
        · rename_i hc
          exact absurd ((varMap_nil_iff b hk).mpr (fd rfl ((varMap_nil_iff a hm).mp hc))) hb
        · simp [EqType.nonlin] at hl
    | pow =>
      simp only at ht; rw [ht] at hl
      have := (prec_linear hl).2.2
      simp [EqType.nonlin] at this
  | binN op a q iha =>
    simp only [PyExpr.build, bind_eq_ok] at h
    obtain ⟨m, hm, h⟩ := h
    have ht := (op_num_ok h).2.2.2.2
    by_cases hop : op = .pow
    · rw [if_pos hop] at ht; rw [ht] at hl
      have := (prec_linear hl).2.2
      simp [EqType.nonlin] at this
    · rw [if_neg hop] at ht; rw [ht] at hl
      have ha : AffineOn (fun ρ => Spec.val I ρ a) (Spec.unknowns (.binN op a q)) := iha hf hm hl
      cases op with
      | add =>
        refine AffineOn.comb ha ha 1 0 q (fun ρ v hv => ?_)
        simp only [Spec.val, Option.bind_eq_bind, Option.bind_eq_some_iff, Spec.opVal, Option.some.injEq] at hv
        obtain ⟨x, hx, rfl⟩ := hv
        exact ⟨x, x, hx, hx, by ring⟩
      | sub =>
        refine AffineOn.comb ha ha 1 0 (-q) (fun ρ v hv => ?_)
        simp only [Spec.val, Option.bind_eq_bind, Option.bind_eq_some_iff, Spec.opVal, Option.some.injEq] at hv
        obtain ⟨x, hx, rfl⟩ := hv
        exact ⟨x, x, hx, hx, by ring⟩
      | mul =>
        refine AffineOn.comb ha ha q 0 0 (fun ρ v hv => ?_)
        simp only [Spec.val, Option.bind_eq_bind, Option.bind_eq_some_iff, Spec.opVal, Option.some.injEq] at hv
        obtain ⟨x, hx, rfl⟩ := hv
        exact ⟨x, x, hx, hx, by ring⟩
      | div =>
        refine AffineOn.comb ha ha (q : K)⁻¹ 0 0 (fun ρ v hv => ?_)
        simp only [Spec.val, Option.bind_eq_bind, Option.bind_eq_some_iff, Spec.opVal] at hv
        obtain ⟨x, hx, hv⟩ := hv
        split at hv
        · simp at hv
        · simp only [Option.some.injEq] at hv
          exact ⟨x, x, hx, hx, by rw [← hv]; ring⟩
      | pow => exact absurd rfl hop
  | nbin op q a iha =>
    simp only [PyExpr.build, bind_eq_ok] at h
    obtain ⟨m, hm, h⟩ := h
    have ht := (rop_maps h).2.2
    by_cases hop : op = .div
    · rw [if_pos hop] at ht; rw [ht] at hl
      have := (prec_linear hl).2.2
      simp [EqType.nonlin] at this
    · rw [if_neg hop] at ht; rw [ht] at hl
      have ha : AffineOn (fun ρ => Spec.val I ρ a) (Spec.unknowns (.nbin op q a)) := iha hf hm hl
      cases op with
      | add =>
        refine AffineOn.comb ha ha 1 0 q (fun ρ v hv => ?_)
        simp only [Spec.val, Option.bind_eq_bind, Option.bind_eq_some_iff, Spec.opVal, Option.some.injEq] at hv
        obtain ⟨x, hx, rfl⟩ := hv
        exact ⟨x, x, hx, hx, by ring⟩
      | sub =>
        refine AffineOn.comb ha ha (-1) 0 q (fun ρ v hv => ?_)
        simp only [Spec.val, Option.bind_eq_bind, Option.bind_eq_some_iff, Spec.opVal, Option.some.injEq] at hv
        obtain ⟨x, hx, rfl⟩ := hv
        exact ⟨x, x, hx, hx, by ring⟩
      | mul =>
        refine AffineOn.comb ha ha q 0 0 (fun ρ v hv => ?_)
        simp only [Spec.val, Option.bind_eq_bind, Option.bind_eq_some_iff, Spec.opVal, Option.some.injEq] at hv
        obtain ⟨x, hx, rfl⟩ := hv
        exact ⟨x, x, hx, hx, by ring⟩
      | div => exact absurd rfl hop
      | pow => simp [ENode.rop] at h
  | fn f a iha =>
    simp only [PyExpr.build, bind_eq_ok] at h
    obtain ⟨m, hm, h⟩ := h
    rw [(fn_ok h).2.2.2.2.1] at hl; simp [EqType.nonlin] at hl
  | mmN isMax a q iha =>
    exact AffineOn.const _ (Spec.val I (fun _ => 0) (.mmN isMax a q)) (fun ρ => Spec.val_closed I ρ _ _ hf.2)
  | diff r x ind =>
    rw [(diff_node h).2.2.2.2] at hl; simp [EqType.diff] at hl

end

/-- `3*x - (p*y)/k + 1` is flagged linear and is in the fragment. -/
example : ∃ n, (PyExpr.binN .add (.bin .sub (.nbin .mul 3 Ex.X) (.bin .div (.bin .mul Ex.C Ex.Y) Ex.C)) 1).build = .ok n ∧ n.ty = .lin :=
  ok_sat (by decide +kernel)
example : Spec.AffineFragment (PyExpr.binN .add (.bin .sub (.nbin .mul 3 Ex.X) (.bin .div (.bin .mul Ex.C Ex.Y) Ex.C)) 1) := by
  refine ⟨trivial, ⟨⟨trivial, trivial, by simp⟩, trivial, fun _ _ => ?_⟩, by simp⟩
  simp [Spec.Closed, Spec.quantities, Ex.k, mkParameter]

/-- No affine function takes the values of `f` at three equally spaced points of one variable. -/
theorem not_affine_of_three {f : (Atom → ℚ) → Option ℚ} {S : Finset String} {ρ : ℚ → Atom → ℚ} {a b c : ℚ}
    (h1 : f (ρ 1) = some a) (h2 : f (ρ 2) = some b) (h3 : f (ρ 3) = some c) (hρ : ∀ s, ρ 3 (.v s) - ρ 2 (.v s) = ρ 2 (.v s) - ρ 1 (.v s))
    (hne : c - b ≠ b - a) : ¬ AffineOn f S := by
  rintro ⟨c0, c', h⟩
  apply hne
  rw [h _ _ h1, h _ _ h2, h _ _ h3]
  have : ∑ s ∈ S, c' s * ρ 3 (.v s) - ∑ s ∈ S, c' s * ρ 2 (.v s) = ∑ s ∈ S, c' s * ρ 2 (.v s) - ∑ s ∈ S, c' s * ρ 1 (.v s) := by
    rw [← Finset.sum_sub_distrib, ← Finset.sum_sub_distrib]
    refine Finset.sum_congr rfl (fun s _ => ?_)
    rw [← mul_sub, ← mul_sub, hρ]
  linarith

/-- C15 fails: `p()/x()` with `p` specified is flagged linear but is no affine function of anything. -/
theorem linear_flag_on_reciprocal : ∃ (e : PyExpr) (n : ENode), e.build = .ok n ∧ n.ty.linear = true ∧
    ∀ S, ¬ AffineOn (fun ρ : Atom → ℚ => n.sym.expr.eval Ex.I ρ) S := by
  obtain ⟨n, hn, hl, h1, h2, h3⟩ : ∃ n, (PyExpr.bin .div Ex.P Ex.X).build = .ok n ∧ n.ty.linear = true ∧
      n.sym.expr.eval Ex.I (fun _ => 1) = some 2 ∧ n.sym.expr.eval Ex.I (fun _ => 2) = some 1 ∧
      n.sym.expr.eval Ex.I (fun _ => 3) = some (2/3) := ok_sat (by decide +kernel)
  refine ⟨_, n, hn, hl, fun S => not_affine_of_three (ρ := fun q _ => q) h1 h2 h3 (fun _ => by norm_num) (by norm_num)⟩

/-- C15 fails: `Min(x(), 2)` is flagged linear but is no affine function. -/
theorem linear_flag_on_min : ∃ (e : PyExpr) (n : ENode), e.build = .ok n ∧ n.ty.linear = true ∧
    ∀ S, ¬ AffineOn (fun ρ : Atom → ℚ => n.sym.expr.eval Ex.I ρ) S := by
  obtain ⟨n, hn, hl, h1, h2, h3⟩ : ∃ n, (PyExpr.mmN false Ex.X 2).build = .ok n ∧ n.ty.linear = true ∧
      n.sym.expr.eval Ex.I (fun _ => 1) = some 1 ∧ n.sym.expr.eval Ex.I (fun _ => 2) = some 2 ∧
      n.sym.expr.eval Ex.I (fun _ => 3) = some 2 := ok_sat (by decide +kernel)
  refine ⟨_, n, hn, hl, fun S => not_affine_of_three (ρ := fun q _ => q) h1 h2 h3 (fun _ => by norm_num) (by norm_num)⟩

/-! ## C16 -/

/-- C16 fails: a derivative times an unspecified variable, and a function of a derivative, are not flagged differential. -/
theorem derivative_not_flagged : ∃ (e e' : PyExpr) (n n' : ENode), e.build = .ok n ∧ e'.build = .ok n' ∧
    Spec.hasDeriv e = true ∧ Spec.hasDeriv e' = true ∧ n.ty.differential = false ∧ n'.ty.differential = false := by
  obtain ⟨n, hn, h1⟩ : ∃ n, (PyExpr.bin .mul Ex.DX Ex.Y).build = .ok n ∧ n.ty.differential = false := ok_sat (by decide +kernel)
  obtain ⟨n', hn', h2⟩ : ∃ n, (PyExpr.fn .exp (.bin .div (.bin .mul Ex.DX Ex.T) Ex.X)).build = .ok n ∧ n.ty.differential = false :=
    ok_sat (by decide +kernel)
  exact ⟨_, _, n, n', hn, hn', rfl, rfl, h1, h2⟩

/-- The fragment for which derivatives are recognised: derivatives do not occur under a function or `Min`/`Max`, in an
exponent, or in a product or quotient with another open factor or in the closed factor. -/
def Spec.DerivFragment : PyExpr → Prop
  | .q _ _ | .diff _ _ _ => True
  | .bin op a b => Spec.DerivFragment a ∧ Spec.DerivFragment b ∧
      (op = .pow → Spec.hasDeriv b = false) ∧
      (op = .mul ∨ op = .div →
        (Spec.hasDeriv a = true → Spec.Closed b) ∧ (Spec.hasDeriv b = true → Spec.hasDeriv a = false ∧ Spec.Closed a ∧ ¬ Spec.Closed b))
  | .binN _ a _ | .nbin _ _ a => Spec.DerivFragment a
  | .fn _ a | .mmN _ a _ => Spec.hasDeriv a = false

theorem prec_diff {a b : EqType} : (a.prec b).differential = true ↔ a.differential = true ∨ b.differential = true := by
  unfold EqType.prec
  split
  · rename_i h; simpa [EqType.diff] using h
  · rename_i h
    split <;> simpa [EqType.nonlin, EqType.lin] using h

/-- C16: only expressions with a derivative are flagged differential. -/
theorem differential_only_with_derivative (e : PyExpr) {n : ENode} (h : e.build = .ok n) (hd : n.ty.differential = true) :
    Spec.hasDeriv e = true := by
  induction e generalizing n with
  | q r x =>
    simp only [PyExpr.build, Except.ok.injEq] at h; subst h
    rw [(call_maps r x).2.2.1] at hd; simp [EqType.lin] at hd
  | bin op a b iha ihb =>
    simp only [PyExpr.build, bind_eq_ok] at h
    obtain ⟨m, hm, k, hk, h⟩ := h
    have ht := (op_node_ok h).2.2.2.2
    rw [ht] at hd
    have hs : (m.ty.prec k.ty).differential = true → Spec.hasDeriv (.bin op a b) = true := by
      intro h
      rcases prec_diff.mp h with h | h
      · simp [Spec.hasDeriv, iha hm h]
      · simp [Spec.hasDeriv, ihb hk h]
    have hmul : (m.mulType k).differential = true → Spec.hasDeriv (.bin op a b) = true := by
      unfold ENode.mulType
      intro h
      split at h
      · simp [Spec.hasDeriv, iha hm h]
      · split at h
        · simp [Spec.hasDeriv, ihb hk h]
        · simp [EqType.nonlin] at h
    cases op with
    | add => exact hs hd
    | sub => exact hs hd
    | mul => exact hmul hd
    | div => exact hmul hd
    | pow =>
      rcases prec_diff.mp hd with h | h
      · simp [Spec.hasDeriv, iha hm h]
      · simp [EqType.nonlin] at h
  | binN op a q iha =>
    simp only [PyExpr.build, bind_eq_ok] at h
    obtain ⟨m, hm, h⟩ := h
    rw [(op_num_ok h).2.2.2.2] at hd
    split at hd
    · rcases prec_diff.mp hd with h | h
      · exact iha hm h
      · simp [EqType.nonlin] at h
    · exact iha hm hd
  | nbin op q a iha =>
    simp only [PyExpr.build, bind_eq_ok] at h
    obtain ⟨m, hm, h⟩ := h
    rw [(rop_maps h).2.2] at hd
    split at hd
    · rcases prec_diff.mp hd with h | h
      · exact iha hm h
      · simp [EqType.nonlin] at h
    · exact iha hm hd
  | fn f a iha =>
    simp only [PyExpr.build, bind_eq_ok] at h
    obtain ⟨m, hm, h⟩ := h
    rw [(fn_ok h).2.2.2.2.1] at hd; simp [EqType.nonlin] at hd
  | mmN isMax a q iha =>
    simp only [PyExpr.build, bind_eq_ok] at h
    obtain ⟨m, hm, h⟩ := h
    obtain ⟨r, hr, _, _, _, _, _, hty⟩ := mmN_eq isMax m q
    rw [hr] at h; simp only [Except.ok.injEq] at h; subst h
    rw [hty] at hd; simp [EqType.lin] at hd
  | diff r x ind => rfl

/-- C16 (partial): in the fragment, a node is flagged differential iff the expression contains a derivative.
Missing: derivatives inside functions, exponents and products with other unknowns (`derivative_not_flagged`). -/
theorem derivative_is_differential_partial (e : PyExpr) (hf : Spec.DerivFragment e) {n : ENode} (h : e.build = .ok n) :
    n.ty.differential = true ↔ Spec.hasDeriv e = true := by
  refine ⟨differential_only_with_derivative e h, fun hd => ?_⟩
  induction e generalizing n with
  | q r x => simp [Spec.hasDeriv] at hd
  | bin op a b iha ihb =>
    obtain ⟨fa, fb, fp, fm⟩ := hf
    simp only [PyExpr.build, bind_eq_ok] at h
    obtain ⟨m, hm, k, hk, h⟩ := h
    have ht := (op_node_ok h).2.2.2.2
    rw [ht]
    simp only [Spec.hasDeriv, Bool.or_eq_true] at hd
    have hs : (m.ty.prec k.ty).differential = true := prec_diff.mpr (hd.imp (iha fa hm) (ihb fb hk))
    have hmul : (op = .mul ∨ op = .div) → (m.mulType k).differential = true := by
      intro hop
      obtain ⟨f1, f2⟩ := fm hop
      unfold ENode.mulType
      rcases hd with hd | hd
      · rw [if_pos ((varMap_nil_iff b hk).mpr (f1 hd))]; exact iha fa hm hd
      · obtain ⟨_, ca, cb⟩ := f2 hd
        rw [if_neg (fun h => cb ((varMap_nil_iff b hk).mp h)), if_pos ((varMap_nil_iff a hm).mpr ca)]
        exact ihb fb hk hd
    cases op with
    | add => exact hs
    | sub => exact hs
    | mul => exact hmul (Or.inl rfl)
    | div => exact hmul (Or.inr rfl)
    | pow =>
      have := fp rfl
      rw [this] at hd
      exact prec_diff.mpr (Or.inl (iha fa hm (by simpa using hd)))
  | binN op a q iha =>
    simp only [PyExpr.build, bind_eq_ok] at h
    obtain ⟨m, hm, h⟩ := h
    rw [(op_num_ok h).2.2.2.2]
    split
    · exact prec_diff.mpr (Or.inl (iha hf hm hd))
    · exact iha hf hm hd
  | nbin op q a iha =>
    simp only [PyExpr.build, bind_eq_ok] at h
    obtain ⟨m, hm, h⟩ := h
    rw [(rop_maps h).2.2]
    split
    · exact prec_diff.mpr (Or.inl (iha hf hm hd))
    · exact iha hf hm hd
  | fn f a iha => simp only [Spec.DerivFragment] at hf; simp [Spec.hasDeriv, hf] at hd
  | mmN isMax a q iha => simp only [Spec.DerivFragment] at hf; simp [Spec.hasDeriv, hf] at hd
  | diff r x ind => rw [(diff_node h).2.2.2.2]; rfl

/-- `2*dx/dt - (x*y)/(x*t)` -/
example : ∃ n, (PyExpr.bin .sub (.nbin .mul 2 Ex.DX) (.bin .div (.bin .mul Ex.X Ex.Y) (.bin .mul Ex.X Ex.T))).build = .ok n ∧
    n.ty.differential = true := ok_sat (by decide +kernel)
example : Spec.DerivFragment (PyExpr.bin .sub (.nbin .mul 2 Ex.DX) (.bin .div (.bin .mul Ex.X Ex.Y) (.bin .mul Ex.X Ex.T))) := by
  simp [Spec.DerivFragment, Spec.hasDeriv]

/-! ## C17 -/

/-- C17: on a node, every function accepts exactly the dimensionless arguments (`TypeError` otherwise), applies itself to
both expressions of the argument, and keeps its maps and unit; the result is nonlinear.  With the check disabled any argument is
accepted and its unit kept. -/
theorem function_arguments (f : Fn) (m : ENode) (hm : UReachSI m.unit) :
    (m.unit.dimVec = Spec.Dim.one → ∃ r, applyFn f (.node m) = .ok r ∧ r.sym.expr = .fn f m.sym.expr ∧ r.repr = .fn f m.repr ∧
      r.symMap = m.symMap ∧ r.varMap = m.varMap ∧ r.unit = m.unit ∧ r.ty = .nonlin) ∧
    (m.unit.dimVec ≠ Spec.Dim.one → applyFn f (.node m) = .error .typeError) ∧
    (∃ r, wrapper f (.node m) false = .ok r ∧ r.unit = m.unit ∧ r.sym.expr = .fn f m.sym.expr) := by
  refine ⟨fun h => ?_, fun h => ?_, ?_⟩
  · have := (dimless_iff hm).mpr h
    simp only [applyFn, wrapper, this, true_or, if_true]
    exact ⟨_, rfl, rfl, rfl, rfl, rfl, rfl, rfl⟩
  · have := mt (dimless_iff hm).mp h
    simp [applyFn, wrapper, this]
  · simp only [wrapper, or_true, if_true]
    exact ⟨_, rfl, rfl, rfl⟩

/-- C17 fails for numbers: every function of a plain number raises `NameError`. -/
theorem function_of_number_raises (f : Fn) (q : ℚ) : applyFn f (.num q) = .error .nameError := rfl

example : UReachSI (Ex.w.call 5).unit ∧ (Ex.w.call 5).unit.dimVec = Spec.Dim.one ∧ (Ex.x.call 0).unit.dimVec ≠ Spec.Dim.one :=
  ⟨dimless_reach, by decide +kernel, by decide +kernel⟩

/-! ## C18 -/

section
variable {K : Type} [Field K] [LinearOrder K]

/-- C18 fails: with node arguments only, `Min` and `Max` always raise. -/
theorem minmax_of_nodes_raises (isMax : Bool) (n : ENode) (l : List ENode) :
    minMax isMax (.node n) (l.map .node) = .error .unexpectedValue := by
  have h : (l.map MArg.node).all MArg.isNode = true := by simp [MArg.isNode, MArg.isNum]
  simp [minMax, MArg.isNum, MArg.isNode]

/-- C18 fails: with a number among the arguments, different dimensions are accepted. -/
theorem minmax_mixes_dimensions : ∃ (a b : ENode) (q : ℚ) (r : ENode),
    a.unit.dimVec ≠ b.unit.dimVec ∧ minMax false (.node a) [.node b, .num q] = .ok r := by
  obtain ⟨r, hr, _⟩ : ∃ r, minMax false (.node (Ex.x.call 0)) [.node (Ex.t.call 2), .num 3] = .ok r ∧ True := ok_sat (by decide +kernel)
  exact ⟨_, _, _, r, by decide +kernel, hr⟩

/-- Value of an argument. -/
def MArg.evalIn (I : Interp K) (ρ : Atom → K) (a : MArg) : Option K := a.sym.eval I ρ

theorem mmSym_eval (I : Interp K) (ρ : Atom → K) (isMax : Bool) (a : Sym) (l : List Sym) {x : K} {xs : List K}
    (ha : a.eval I ρ = some x) (hl : l.mapM (fun s => s.eval I ρ) = some xs) :
    ∃ v, (mmSym isMax a l).eval I ρ = some v ∧ v ∈ x :: xs ∧ ∀ y ∈ x :: xs, if isMax then y ≤ v else v ≤ y := by
  induction l generalizing a x xs with
  | nil =>
    simp at hl; subst hl
    exact ⟨x, ha, by simp, by simp⟩
  | cons s t ih =>
    simp only [List.mapM_cons, Option.bind_eq_bind, Option.bind_eq_some_iff, Option.pure_def, Option.some.injEq] at hl
    obtain ⟨y, hy, ys, hys, rfl⟩ := hl
    have hmm : (Sym.mm isMax a s).eval I ρ = some (if isMax then max x y else min x y) := by
      simp [Sym.eval, ha, hy]
    obtain ⟨v, h1, h2, h3⟩ := ih (.mm isMax a s) hmm hys
    refine ⟨v, h1, ?_, ?_⟩
    · rcases List.mem_cons.mp h2 with h | h
      · cases isMax
        · rcases min_choice x y with h' | h' <;> simp [h, h']
        · rcases max_choice x y with h' | h' <;> simp [h, h']
      · simp [h]
    · intro z hz
      have h0 := h3 _ (List.mem_cons_self ..)
      rcases List.mem_cons.mp hz with rfl | hz
      · cases isMax
        · simp only [Bool.false_eq_true, if_false] at h0 ⊢; exact h0.trans (min_le_left _ _)
        · simp only [if_true] at h0 ⊢; exact (le_max_left _ _).trans h0
      · rcases List.mem_cons.mp hz with rfl | hz
        · cases isMax
          · simp only [Bool.false_eq_true, if_false] at h0 ⊢; exact h0.trans (min_le_right _ _)
          · simp only [if_true] at h0 ⊢; exact (le_max_right _ _).trans h0
        · exact h3 z (by simp [hz])

/-- C18 (partial): whenever at least one argument is a number, `Min`/`Max` succeed, the result evaluates to the least/greatest of
the argument values, is bound to the unit of the first node argument (dimensionless without node) and mentions what its arguments
mention.  Missing: calls with node arguments only, which raise, and the rejection of mixed dimensions. -/
theorem minmax_partial (isMax : Bool) (a : MArg) (l : List MArg) (hn : ∃ x ∈ a :: l, x.isNum = true) :
    ∃ r, minMax isMax a l = .ok r ∧
      r.unit = (((a :: l).filterMap MArg.unit?).head?.getD Tmpl.dimless) ∧
      (∀ (I : Interp K) ρ x xs, a.evalIn I ρ = some x → l.mapM (MArg.evalIn I ρ) = some xs →
        ∃ v, r.sym.expr.eval I ρ = some v ∧ v ∈ x :: xs ∧ ∀ y ∈ x :: xs, if isMax then y ≤ v else v ≤ y) ∧
      (∀ s, s ∈ dkeys r.symMap ↔ ∃ x ∈ a :: l, s ∈ dkeys x.symMap) ∧
      (∀ s, s ∈ dkeys r.varMap ↔ ∃ x ∈ a :: l, s ∈ dkeys x.varMap) := by
  have hnode : (a :: l).all MArg.isNode = false := by
    obtain ⟨x, hx, hxn⟩ := hn
    rw [List.all_eq_false]
    exact ⟨x, hx, by simp [MArg.isNode, hxn]⟩
  have hkeys : ∀ (f : MArg → Dict String Ref) (l : List MArg) (d : Dict String Ref) (s : String),
      s ∈ dkeys (l.foldl (fun m x => dupdate m (f x)) d) ↔ s ∈ dkeys d ∨ ∃ x ∈ l, s ∈ dkeys (f x) := by
    intro f l
    induction l with
    | nil => simp
    | cons x t ih => intro d s; rw [List.foldl_cons, ih, mem_dkeys_dupdate]; simp [or_assoc]
  have hev : ∀ (I : Interp K) ρ x xs, a.evalIn I ρ = some x → l.mapM (MArg.evalIn I ρ) = some xs →
        ∃ v, (mmSym isMax a.sym (l.map MArg.sym)).eval I ρ = some v ∧ v ∈ x :: xs ∧ ∀ y ∈ x :: xs, if isMax then y ≤ v else v ≤ y := by
    intro I ρ x xs hx hxs
    apply mmSym_eval I ρ isMax _ _ hx
    rw [List.mapM_map]; exact hxs
  have hs : ∀ s, s ∈ dkeys ((a :: l).foldl (fun m x => dupdate m x.symMap) []) ↔ ∃ x ∈ a :: l, s ∈ dkeys x.symMap := by
    intro s; rw [hkeys MArg.symMap]; simp [dkeys]
  have hv : ∀ s, s ∈ dkeys ((a :: l).foldl (fun m x => dupdate m x.varMap) []) ↔ ∃ x ∈ a :: l, s ∈ dkeys x.varMap := by
    intro s; rw [hkeys MArg.varMap]; simp [dkeys]
  by_cases hall : (a :: l).all MArg.isNum = true
  · have hnone : (a :: l).filterMap MArg.unit? = [] := by
      rw [List.filterMap_eq_nil_iff]
      intro x hx
      have := List.all_eq_true.mp hall x hx
      cases x <;> simp_all [MArg.unit?, MArg.isNum]
    unfold minMax
    simp only [hall, if_true, ok_bind, hnone]
    exact ⟨_, rfl, rfl, hev, hs, hv⟩
  · obtain ⟨u, t, hut⟩ : ∃ u t, (a :: l).filterMap MArg.unit? = u :: t := by
      cases h : (a :: l).filterMap MArg.unit? with
      | cons u t => exact ⟨u, t, rfl⟩
      | nil =>
        rw [List.filterMap_eq_nil_iff] at h
        exfalso; apply hall
        rw [List.all_eq_true]
        intro x hx
        have := h x hx
        cases x <;> simp_all [MArg.unit?, MArg.isNum]
    unfold minMax
    simp only [hall, hnode, hut, ok_bind, if_false, Bool.false_eq_true]
    exact ⟨_, rfl, rfl, hev, hs, hv⟩

example : ∃ r, minMax true (.node (Ex.x.call 0)) [.num 5, .node (Ex.y.call 1)] = .ok r ∧
    r.sym.expr.eval Ex.I (fun a => if a = .v "x" then 7 else 6) = some 7 := ok_sat (by decide +kernel)

/-! ## C19 -/

/-- C19: the derivative of a variable distributed on a domain with respect to an unspecified quantity has the quotient
dimension, is differential, mentions the variable, and denotes the derivative (0 for a specified variable).
Without a domain `AbsentRequiredObjectError` is raised. -/
theorem diff_node_properties (r rt : Ref) (x t : Quantity) (hx : UReachSI x.units) (ht : UReachSI t.units) :
    (x.hasDomain = true → t.isSpecified = false → ∃ n, x.diff r (some (rt, t)) = .ok n ∧
      n.unit.dimVec = Spec.Dim.div x.units.dimVec t.units.dimVec ∧ n.ty = .diff ∧
      dget n.symMap x.name = some r ∧ (x.isSpecified = false → dget n.varMap x.name = some r) ∧
      ∀ (I : Interp K) ρ, n.repr.eval I ρ = some (ρ (.d x.name t.name)) ∧
        n.sym.expr.eval I ρ = some (if x.isSpecified then 0 else ρ (.d x.name t.name))) ∧
    (x.hasDomain = false → ∀ ind, x.diff r ind = .error .absentRequiredObject) := by
  constructor
  · intro hd hs
    have hok : ∃ n, x.diff r (some (rt, t)) = .ok n := by
      simp only [Quantity.diff, hd, if_true, diffNode, hs, Bool.false_eq_true, if_false, ok_bind]; exact ⟨_, rfl⟩
    obtain ⟨n, hn⟩ := hok
    obtain ⟨h1, h2, h3, h4, h5⟩ := diff_node hn
    refine ⟨n, hn, (diff_unit hx (by rintro p hp; cases hp; exact ht) hn).2.2, h5, ?_, ?_, fun I ρ => ⟨?_, ?_⟩⟩
    · rw [h3]; simp [dget]
    · intro hxs; rw [h4]; simp [dget, hxs]
    · rw [h2]; rfl
    · rw [h1]; cases hxs : x.isSpecified <;> simp [Sym.eval, indName]
  · intro hd ind; simp [Quantity.diff, hd]

example : ∃ n, Ex.x.diff 0 (some (2, Ex.t)) = .ok n ∧ n.unit.dimVec = Tmpl.m_s.dimVec ∧ n.ty = .diff := ok_sat (by decide +kernel)

end
end Sloth
