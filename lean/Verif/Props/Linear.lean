import Verif.Props.Blocks
import Verif.Props.Classes

/-!
# Problems called linear (C83)
-/

namespace Sloth
open PyM UnitObj

section
variable {K : Type} [Field K] [LinearOrder K]

/-- Names of the unspecified quantities of a statement. -/
def Spec.unknownsOf (st : Stmt) : Finset String := (Spec.parts st).foldr (fun x s => Spec.unknowns x ∪ s) ∅

theorem unknowns_part {st : Stmt} {x : PyExpr} (h : x ∈ Spec.parts st) : Spec.unknowns x ⊆ Spec.unknownsOf st := by
  cases st <;> simp only [Spec.parts, List.mem_cons, List.not_mem_nil, or_false] at h
  · rcases h with rfl | rfl <;> intro s hs <;> simp [Spec.unknownsOf, Spec.parts, hs]
  · subst h; intro s hs; simp [Spec.unknownsOf, Spec.parts, hs]
  · subst h; intro s hs; simp [Spec.unknownsOf, Spec.parts, hs]

/-- A statement whose sides are affine has affine sides and an affine residual. -/
theorem stmt_affine (I : Interp K) (st : Stmt) (h : ∀ x ∈ Spec.parts st, AffineOn (fun ρ => Spec.val I ρ x) (Spec.unknownsOf st)) :
    AffineOn (fun ρ => Spec.residual I ρ st) (Spec.unknownsOf st) ∧ ∀ side, AffineOn (fun ρ => Spec.sideVal I ρ side st) (Spec.unknownsOf st) := by
  cases st with
  | eqn l r =>
    have hl := h l (by simp [Spec.parts])
    have hr := h r (by simp [Spec.parts])
    refine ⟨AffineOn.comb hl hr 1 (-1) 0 (fun ρ v hv => ?_), fun side => by cases side; exacts [hl, hr]⟩
    simp only [Spec.residual, Option.bind_eq_bind, Option.bind_eq_some_iff, Option.some.injEq] at hv
    obtain ⟨x, hx, y, hy, rfl⟩ := hv
    exact ⟨x, y, hx, hy, by ring⟩
  | eqnNum l q =>
    have hl := h l (by simp [Spec.parts])
    refine ⟨AffineOn.comb hl hl 1 0 (-(q : K)) (fun ρ v hv => ?_), fun side => by
      cases side
      · exact hl
      · exact AffineOn.const _ (some (q : K)) (fun _ => rfl)⟩
    simp only [Spec.residual, Option.bind_eq_bind, Option.bind_eq_some_iff, Option.some.injEq] at hv
    obtain ⟨x, hx, rfl⟩ := hv
    exact ⟨x, x, hx, hx, by ring⟩
  | res x =>
    have hx := h x (by simp [Spec.parts])
    exact ⟨hx, fun side => by cases side <;> exact hx⟩

/-- A linear statement of the fragment is affine. -/
theorem linear_stmt_affine (I : Interp K) (st : Stmt) (hf : ∀ x ∈ Spec.parts st, Spec.AffineFragment x)
    (hl : ∀ x ∈ Spec.parts st, ∃ m, x.build = .ok m ∧ m.ty.linear = true) :
    AffineOn (fun ρ => Spec.residual I ρ st) (Spec.unknownsOf st) ∧ ∀ side, AffineOn (fun ρ => Spec.sideVal I ρ side st) (Spec.unknownsOf st) := by
  refine stmt_affine I st fun x hx => ?_
  obtain ⟨m, hm, ht⟩ := hl x hx
  obtain ⟨c0, c, hc⟩ := linear_is_affine_partial I x (hf x hx) hm ht
  exact AffineOn.mono ⟨c0, c, fun ρ v hv => hc ρ v ((expr_value I ρ x hm).trans hv)⟩ (unknowns_part hx)

/-- In a problem called linear no equation is of another kind. -/
theorem linear_only {es : List EqObj} {b : Block} (hg : b = Block.assignGroups es b) (hk : b.problemType = some .linear) {r : ERef} {e : EqObj}
    (hr : r ∈ b.equations) (he : es[r]? = some e) : e.type ≠ some .nonlinear ∧ e.type ≠ some .differential := by
  have hn : b.nonlinear = [] ∧ b.differential = [] := by
    unfold Block.problemType at hk
    cases h1 : b.nonlinear <;> cases h2 : b.differential <;> cases h3 : b.linear <;> cases h4 : b.linearTail <;> simp [h1, h2, h3, h4] at hk <;> simp
  have hmem : ∀ k, e.type = some k → r ∈ Block.group es k b.equations := fun k ht => by
    unfold Block.group
    rw [List.mem_filter]
    exact ⟨hr, by simp [he, ht]⟩
  refine ⟨fun ht => ?_, fun ht => ?_⟩
  · have h1 : b.nonlinear = Block.group es .nonlinear b.equations := (congrArg Block.nonlinear hg).trans rfl
    have := hmem _ ht
    rw [← h1, hn.1] at this; cases this
  · have h1 : b.differential = Block.group es .differential b.equations := (congrArg Block.differential hg).trans rfl
    have := hmem _ ht
    rw [← h1, hn.2] at this; cases this

/-- C83 (partial): state an equation, do anything else, and resolve.  If the problem is then called linear and the equation is one of its equations, the expression
handed to the solver for it is an affine function of the unspecified quantities of the statement, and so is left minus right; the coefficients do not depend on
the assignment.  Missing: quotients of a closed by an open expression and `Min`/`Max`, for which a problem is called linear though it is not
(`linear_problem_not_linear`). -/
theorem linear_problem_affine_partial (I : Interp K) (st : Stmt) {a : ResArg} (ha : st.arg = .ok a) (hf : ∀ x ∈ Spec.parts st, Spec.AffineFragment x)
    {w w1 w' : World} {m : MRef} {name d : String} {c : Bool} {r : ERef} (hc : createEquation m name d (some a) c w = (.ok r, w1)) (ops : List Op)
    (h : resolve (history ops w1) = (.ok (), w')) {b : Block} (hb : w'.pr.block = some b) (hk : b.problemType = some .linear) (i : Nat)
    (hi : b.equations[i]? = some r) :
    ∃ s, b.equationsList[i]? = some s ∧
      (∃ (c0 : K) (c : String → K), ∀ ρ v, s.expr.eval I ρ = some v → v = c0 + ∑ n ∈ Spec.unknownsOf st, c n * ρ (.v n)) ∧
      (∃ (c0 : K) (c : String → K), ∀ ρ v, Spec.residual I ρ st = some v → v = c0 + ∑ n ∈ Spec.unknownsOf st, c n * ρ (.v n)) := by
  obtain ⟨b', hb', hs⟩ := handed_expression st ha hc ops h
  obtain rfl : b = b' := Option.some.inj (hb.symm.trans hb')
  obtain ⟨s, hs1, hs2⟩ := hs i hi
  obtain ⟨b'', g, hb'', hg, _, _, _, _, hga, hgr, _⟩ := resolved_block h
  obtain rfl : b = b'' := Option.some.inj (hb.symm.trans hb'')
  have he1 : ∃ e k, w1.es[r]? = some e ∧ e.type = some k ∧ (k = .linear → ∀ x ∈ Spec.parts st, ∃ m, x.build = .ok m ∧ m.ty.linear = true) := by
    cases hm : w.ms[m]? with
    | none => rw [createEquation_none hm] at hc; simp at hc
    | some mo =>
      rcases createEquation_run hm name d (some a) c with ⟨x, u, he⟩ | ⟨t, t', e, e', u, he, hin, hsw, _⟩
      · rw [he] at hc; simp at hc
      · rw [he] at hc
        simp only [Prod.mk.injEq, Except.ok.injEq] at hc
        obtain ⟨rfl, rfl⟩ := hc
        obtain ⟨k, hk, rfl⟩ := EqObj.sweep_ok hsw
        obtain ⟨e0, e1, _, h1, rfl⟩ := EqObj.init_fresh hin
        obtain ⟨n, k', hn, ht, h2, _, _, _, h3⟩ := equation_kind st t' e0 e1 ha h1
        exact ⟨{ e1 with name := e1.name ++ "_" ++ mo.name, owner := mo.name, objects := some k.symMap }, k',
          by simp [World.withM, World.addE, World.withUid], ht, fun hk => h3.1 (h2.1 hk)⟩
  obtain ⟨e, k, he, ht, hlin⟩ := he1
  have hle : w1.Le w' := by
    rw [history_resolve ops h]; exact history_le _ w1
  obtain ⟨h1, h2⟩ := linear_only hgr hk (List.mem_of_getElem? hi) (hle.es r e he)
  have hkl : k = .linear := by
    rw [ht] at h1 h2
    cases k <;> first | rfl | exact absurd rfl h1 | exact absurd rfl h2
  obtain ⟨⟨c0, cs, hr⟩, hside⟩ := linear_stmt_affine I st hf (hlin hkl)
  obtain ⟨d0, ds, hd⟩ := hside .rhs
  exact ⟨s, hs1, ⟨d0, ds, fun ρ v hv => hd ρ v ((hs2 I ρ).symm.trans hv)⟩, c0, cs, hr⟩

end

namespace Ex
/-- Two variables. -/
def twovar : World := history [.newModel "m" "" {} none, .cmd 0 (dv "x"), .cmd 0 (dv "y")] World.init
def twovarQ (i : Nat) : Quantity := (twovar.qs[i]?).getD x
/-- `3*x - y + 1`, stated in a model with two variables. -/
def plane : Stmt := .res (.binN .add (.bin .sub (.nbin .mul 3 (.q 0 (twovarQ 0))) (.q 1 (twovarQ 1))) 1)
/-- `x - 4`, stated afterwards, and the model added. -/
def planeRest : List Op := [.cmd 0 (eq_ "b" (.res (.binN .sub (at_ "x") 4))), .addModels (.leaf 0)]
def planeArg : ResArg := match plane.arg with | .ok a => a | .error _ => .other
end Ex

/-- The hypotheses are met by `3*x - y + 1` next to `x - 4`. -/
example : Ex.plane.arg = .ok Ex.planeArg ∧ (∀ x ∈ Spec.parts Ex.plane, Spec.AffineFragment x) ∧
    ∃ w1 b, createEquation 0 "a" "" (some Ex.planeArg) true Ex.twovar = (.ok 0, w1) ∧ (resolve (history Ex.planeRest w1)).1 = .ok () ∧
      (resolve (history Ex.planeRest w1)).2.pr.block = some b ∧ b.problemType = some .linear ∧ b.equations = [0, 1] ∧
      Spec.unknownsOf Ex.plane = {"x_m", "y_m"} := by
  refine ⟨?_, ?_, (createEquation 0 "a" "" (some Ex.planeArg) true Ex.twovar).2, ?_⟩
  · have : Ex.plane.arg.toOption.isSome = true := by decide +kernel
    unfold Ex.planeArg
    cases h : Ex.plane.arg with
    | ok a => rfl
    | error x => rw [h] at this; cases this
  · intro x hx
    simp only [Ex.plane, Spec.parts, List.mem_cons, List.not_mem_nil, or_false] at hx
    subst hx
    exact ⟨trivial, trivial, by simp⟩
  · have h1 : (resolve (history Ex.planeRest (createEquation 0 "a" "" (some Ex.planeArg) true Ex.twovar).2)).2.pr.block.map
        (fun b => (b.problemType, b.equations)) = some (some .linear, [0, 1]) := by decide +kernel
    rw [Option.map_eq_some_iff] at h1
    obtain ⟨b, hb, hb'⟩ := h1
    simp only [Prod.mk.injEq] at hb'
    refine ⟨b, Prod.ext (by decide +kernel) rfl, by decide +kernel, hb, hb'.1, hb'.2, by decide +kernel⟩

/-- `p/x - 1` with `p` set to 2. -/
def Ex.recip : List Op := [.newModel "m" "" {} none, .cmd 0 (Ex.dv "x"), .cmd 0 (Ex.dp "p"), .setValue 1 (.int 2) none,
  .cmd 0 (Ex.eq_ "e" (.res (.binN .sub (.bin .div (Ex.at_ "p") (Ex.at_ "x")) 1))), .addModels (.leaf 0)]

/-- C83 fails: the problem with the single equation `p/x - 1`, `p` set to 2, is called linear, and the expression handed to the linear solver is no affine function
of anything. -/
theorem linear_problem_not_linear : ∃ w' b s, resolve (history Ex.recip World.init) = (.ok (), w') ∧ w'.pr.block = some b ∧
    b.problemType = some .linear ∧ b.varList = ["x_m"] ∧ b.equationsList = [s] ∧
    ∀ S : Finset String, ¬ ∃ (c0 : ℚ) (c : String → ℚ), ∀ ρ v, s.expr.eval Ex.I ρ = some v → v = c0 + ∑ n ∈ S, c n * ρ (.v n) := by
  have h1 : (resolve (history Ex.recip World.init)).1 = .ok () := by decide +kernel
  have h2 : (resolve (history Ex.recip World.init)).2.pr.block.map (fun b => (b.problemType, b.varList)) = some (some .linear, ["x_m"]) := by decide +kernel
  have h3 : (resolve (history Ex.recip World.init)).2.pr.block.map (fun b => b.equationsList.map fun s =>
      [1, 2, 3].map fun q : ℚ => s.expr.eval Ex.I fun _ => q) = some [[some 1, some 0, some (-1/3)]] := by decide +kernel
  generalize hr : resolve (history Ex.recip World.init) = r at h1 h2 h3
  obtain ⟨o, w'⟩ := r
  simp only at h1 h2 h3
  subst h1
  rw [Option.map_eq_some_iff] at h2
  obtain ⟨b, hb, h4⟩ := h2
  simp only [Prod.mk.injEq] at h4
  rw [hb] at h3
  obtain ⟨s, hs, h7⟩ := List.map_eq_singleton_iff.1 (Option.some.inj h3)
  simp only [List.map_cons, List.map_nil, List.cons.injEq, and_true] at h7
  exact ⟨w', b, s, rfl, hb, h4.1, h4.2, hs, fun S => not_affine_of_three (f := fun ρ => s.expr.eval Ex.I ρ) (ρ := fun q _ => q) h7.1 h7.2.1 h7.2.2
    (fun _ => by norm_num) (by norm_num)⟩

end Sloth
