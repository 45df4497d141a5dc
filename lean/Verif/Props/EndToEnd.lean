import Verif.Props.Solvers

/-!
# From stated equations to reported values (C74)
-/

namespace Sloth
open PyS

section
variable {K : Type} [Field K] [LinearOrder K]

/-- The values `x` of the unknowns make every expression, under every assignment with these values, defined and small (`P`). -/
def Spec.Solves (I : Interp K) (P : K → Prop) (names : List String) (es : List SObj) (x : List K) : Prop :=
  x.length = names.length ∧ ∀ ρ : Atom → K, (∀ (i : Nat) n, names[i]? = some n → x[i]? = some (ρ (.v n))) → ∀ s ∈ es, ∃ v, s.expr.eval I ρ = some v ∧ P v

/-- The algebraic solvers are right whenever they report success. -/
structure Spec.Sound (ext : Ext K) (I : Interp K) (P : K → Prop) : Prop where
  symSys : ∀ m names es g x, ext.symSys m names es g = .ok (x, true) → Spec.Solves I P names es x
  linSolve : ∀ names es x, ext.linSolve es names = .ok x → Spec.Solves I P names es x
  spSolve : ∀ names es l, ext.spSolve es names = .ok l → ∀ d ∈ l, ∀ ρ : Atom → K, (∀ n v, dget d n = some v → ρ (.v n) = v) →
    ∀ s ∈ es, ∃ v, s.expr.eval I ρ = some v ∧ P v

theorem solves_reports {I : Interp K} {P : K → Prop} {names : List String} {es : List SObj} {x : List K} (h : Spec.Solves I P names es x)
    {d : Dict String K} (hd : Spec.Reports names x d) (ρ : Atom → K) (hρ : ∀ n v, dget d n = some v → ρ (.v n) = v) :
    ∀ s ∈ es, ∃ v, s.expr.eval I ρ = some v ∧ P v := by
  refine h.2 ρ fun i n hn => ?_
  have h1 := hd.at_ i n hn
  have hi : i < x.length := h.1 ▸ (List.getElem?_eq_some_iff.1 hn).1
  rw [List.getElem?_eq_getElem hi] at h1 ⊢
  rw [hρ n _ h1]

/-- With sound libraries, the reported values make every handed expression small. -/
theorem solved_small {ext : Ext K} {I : Interp K} {P : K → Prop} (hs : Spec.Sound ext I P) {b : Block} {sv : SolverObj} {k : ProblemKind} {out : Output K}
    (h : Spec.Solved ext b sv out) (hk : Spec.OfClass k sv) (ha : k = .linear ∨ k = .nonlinear) :
    ∃ d, out = .dict d ∧ ∀ ρ : Atom → K, (∀ n v, dget d n = some v → ρ (.v n) = v) → ∀ s ∈ b.equationsList, ∃ v, s.expr.eval I ρ = some v ∧ P v := by
  have sp : (∃ l d, ext.spSolve b.equationsList b.varList = .ok (l ++ [d]) ∧ out = .dict d) →
      ∃ d, out = .dict d ∧ ∀ ρ : Atom → K, (∀ n v, dget d n = some v → ρ (.v n) = v) → ∀ s ∈ b.equationsList, ∃ v, s.expr.eval I ρ = some v ∧ P v := by
    rintro ⟨l, d, h1, h2⟩
    exact ⟨d, h2, fun ρ hρ => hs.spSolve _ _ _ h1 d (by simp) ρ hρ⟩
  cases sv with
  | la m =>
    cases m with
    | none => exact absurd h id
    | some m =>
      cases m with
      | sympy => exact sp h
      | scipy =>
        obtain ⟨x, d, h1, h2, h3⟩ := h
        exact ⟨d, h2, fun ρ hρ => solves_reports (hs.linSolve _ _ _ h1) h3 ρ hρ⟩
      | symbolicsys =>
        obtain ⟨g, x, d, h1, h2, h3⟩ := h
        exact ⟨d, h2, fun ρ hρ => solves_reports (hs.symSys _ _ _ _ _ h1) h3 ρ hρ⟩
  | nla m =>
    cases m with
    | sympy => exact sp h
    | _ =>
      obtain ⟨g, x, d, h1, h2, h3⟩ := h
      exact ⟨d, h2, fun ρ hρ => solves_reports (hs.symSys _ _ _ _ _ h1) h3 ρ hρ⟩
  | d o => rcases ha with rfl | rfl <;> exact absurd hk id
  | dae o => rcases ha with rfl | rfl <;> exact absurd hk id

/-- C74 (partial): if the algebraic libraries are right up to a tolerance, the values that a run reports make the right side of every stated equation
small.  For equations in residual form (those written as expressions understood to be zero) this is their residual, and with exact libraries it is zero.
Missing: equations written `lhs == rhs`, see `reported_values_violate_equalities`. -/
theorem reported_values_solve_partial {ext : Ext K} {I : Interp K} {P : K → Prop} (hsound : Spec.Sound ext I P) (ops : List Op) (hown : Spec.Session ops)
    {s s' : SimWorld K} (hres : resolve (history ops World.init) = (.ok (), s.w)) {b : Block} (hb : s.w.pr.block = some b)
    (hk : b.problemType = some .linear ∨ b.problemType = some .nonlinear) {i : SRef} {a : RunArgs} (h : runSimulation ext I i a s = (.ok (), s')) :
    ∃ (sts : List Stmt) (o : SimObj K) (d : Dict String K), Spec.Equations s.w b.equations ∧ s'.sims[i]? = some o ∧ o.output = some (.dict d) ∧
      List.Forall₂ (fun r st => ∃ e, s.w.es[r]? = some e ∧ e.States st ∧
        ∀ ρ : Atom → K, (∀ n v, dget d n = some v → ρ (.v n) = v) →
          (∃ v, Spec.sideVal I ρ .rhs st = some v ∧ P v) ∧
          (e.form = .residual → (∃ v, Spec.residual I ρ st = some v ∧ P v) ∧ ((∀ v, P v → v = 0) → Spec.residual I ρ st = some 0))) b.equations sts := by
  obtain ⟨b', sts, hb', heqs, hst, hval⟩ := solved_system_partial ops hown hres
  obtain rfl : b = b' := Option.some.inj (hb.symm.trans hb')
  have hr : Reachable (history ops World.init) := ⟨ops, rfl⟩
  obtain ⟨o, sv, out, ho, hout, hsol, hcl⟩ := run_reports hr hres hb hk h
  obtain ⟨k, hk', hkk⟩ : ∃ k, b.problemType = some k ∧ (k = .linear ∨ k = .nonlinear) := by
    rcases hk with hk | hk
    · exact ⟨_, hk, .inl rfl⟩
    · exact ⟨_, hk, .inr rfl⟩
  obtain ⟨d, rfl, hsmall⟩ := solved_small hsound hsol (hcl k hk') hkk
  have hrhs : ∀ st ∈ sts, ∀ ρ : Atom → K, (∀ n v, dget d n = some v → ρ (.v n) = v) → ∃ v, Spec.sideVal I ρ .rhs st = some v ∧ P v := by
    intro st hmem ρ hρ
    have hm : Spec.sideVal I ρ .rhs st ∈ b.equationsList.map (fun s => s.expr.eval I ρ) := by
      rw [(hval I ρ).1]; exact List.mem_map_of_mem hmem
    obtain ⟨e, he, hv⟩ := List.mem_map.1 hm
    obtain ⟨v, h1, h2⟩ := hsmall ρ hρ e he
    exact ⟨v, hv.symm.trans h1, h2⟩
  refine ⟨sts, o, d, heqs, ho, hout, ?_⟩
  clear hval heqs
  revert hst
  generalize b.equations = l
  intro hst
  induction hst with
  | nil => exact .nil
  | cons hd _ ih =>
    obtain ⟨e, he, hs⟩ := hd
    refine .cons ⟨e, he, hs, fun ρ hρ => ?_⟩ (ih fun st h => hrhs st (by simp [h]))
    have h := hrhs _ List.mem_cons_self ρ hρ
    refine ⟨h, fun hf => ?_⟩
    rw [hs.side_residual hf I ρ .rhs] at h
    exact ⟨h, fun h0 => by obtain ⟨v, h1, h2⟩ := h; rw [h1, h0 v h2]⟩

end

namespace Ex
/-- Libraries that know the answer to one system and refuse all others. -/
def knows (es : List SObj) (x : List Rat) : Ext Rat := { ext with
  symSys := fun _ names es' _ => if names = ["x_m", "y_m"] ∧ es' = es then .ok (x, true) else .error .valueError
  linSolve := fun _ _ => .error .valueError
  spSolve := fun _ _ => .error .valueError }

theorem knows_sound {es : List SObj} {x : List Rat} (h : Spec.Solves ratI (· = 0) ["x_m", "y_m"] es x) : Spec.Sound (knows es x) ratI (· = 0) := by
  refine ⟨fun m names es' g y hy => ?_, (fun _ _ _ h => by simp [knows] at h), (fun _ _ _ h => by simp [knows] at h)⟩
  simp only [knows] at hy
  split at hy
  · next hc =>
    simp only [Except.ok.injEq, Prod.mk.injEq, and_true] at hy
    obtain ⟨rfl, rfl⟩ := hc
    exact hy ▸ h
  · cases hy

/-- `x + y - 3`, `x*y - 2`, solved by 1 and 2. -/
def algSys : List SObj := [⟨false, .sub (.add (.atom (.v "x_m")) (.atom (.v "y_m"))) (.num 3)⟩, ⟨false, .sub (.mul (.atom (.v "x_m")) (.atom (.v "y_m"))) (.num 2)⟩]

theorem algSys_solved : Spec.Solves ratI (· = 0) ["x_m", "y_m"] algSys [1, 2] := by
  refine ⟨rfl, fun ρ h s hs => ?_⟩
  have h0 : ρ (.v "x_m") = 1 := by simpa [eq_comm] using h 0 "x_m" rfl
  have h1 : ρ (.v "y_m") = 2 := by simpa [eq_comm] using h 1 "y_m" rfl
  simp only [algSys, List.mem_cons, List.not_mem_nil, or_false] at hs
  rcases hs with rfl | rfl <;> simp [Sym.eval, h0, h1] <;> norm_num

/-- `x == 2*y`, `x - 1`. -/
def twice : List Op := [.newModel "m" "" {} none, .cmd 0 (dv "x"), .cmd 0 (dv "y"),
  .cmd 0 (eq_ "a" (.eqn (at_ "x") (.binN .mul (at_ "y") 2))), .cmd 0 (eq_ "b" (.res (.binN .sub (at_ "x") 1))), .addModels (.list [.leaf 0])]

/-- What is handed over for it: `2*y`, `x - 1`, solved by 1 and 0. -/
def twiceSys : List SObj := [⟨false, .mul (.atom (.v "y_m")) (.num 2)⟩, ⟨false, .sub (.atom (.v "x_m")) (.num 1)⟩]

theorem twiceSys_solved : Spec.Solves ratI (· = 0) ["x_m", "y_m"] twiceSys [1, 0] := by
  refine ⟨rfl, fun ρ h s hs => ?_⟩
  have h0 : ρ (.v "x_m") = 1 := by simpa [eq_comm] using h 0 "x_m" rfl
  have h1 : ρ (.v "y_m") = 0 := by simpa [eq_comm] using h 1 "y_m" rfl
  simp only [twiceSys, List.mem_cons, List.not_mem_nil, or_false] at hs
  rcases hs with rfl | rfl <;> simp [Sym.eval, h0, h1]

/-- The state before the run: the problem resolved and a simulation with default settings. -/
def ready (w : World) : SimWorld Rat := [SOp.newSim "s", .configure 0 [] none none].foldl (fun s o => (o.exec ext ratI s).2) { w := w }

theorem ready_w (w : World) : (ready w).w = w := rfl

theorem resolved {ops : List Op} (h : (resolve (history ops World.init)).1.toOption = some ()) :
    resolve (history ops World.init) = (.ok (), (ready (resolve (history ops World.init)).2).w) := by
  rw [ready_w]
  generalize resolve (history ops World.init) = r at h
  obtain ⟨r, w⟩ := r
  cases r with
  | ok u => rfl
  | error e => cases h
end Ex

/-- An exact library, and the run of the nonlinear sample. -/
example : Spec.Sound (Ex.knows Ex.algSys [1, 2]) Ex.ratI (· = 0) ∧ Spec.Session Ex.alg ∧
    resolve (history Ex.alg World.init) = (.ok (), (Ex.ready (resolve (history Ex.alg World.init)).2).w) ∧
    (runSimulation (Ex.knows Ex.algSys [1, 2]) Ex.ratI 0 {} (Ex.ready (resolve (history Ex.alg World.init)).2)).1.toOption = some () :=
  ⟨Ex.knows_sound Ex.algSys_solved, Ex.alg_session, Ex.resolved (by decide +kernel), by decide +kernel⟩

/-- C74 fails for equalities: with an exact library the run of `x == 2*y`, `x - 1` returns and reports `x = 1`, `y = 0`, where the residual of the first
equation is 1. -/
theorem reported_values_violate_equalities : ∃ (ext : Ext Rat) (ops : List Op), Spec.Sound ext Ex.ratI (· = 0) ∧ Spec.Session ops ∧
    let s := Ex.ready (resolve (history ops World.init)).2
    let s' := (runSimulation ext Ex.ratI 0 {} s).2
    (runSimulation ext Ex.ratI 0 {} s).1.toOption = some () ∧ (s.w.pr.block.map fun b => b.equations) = some [0, 1] ∧
    (s'.sims.map SimObj.output) = [some (.dict [("x_m", 1), ("y_m", 0)])] ∧
    ((s.w.es[0]?.bind EqObj.expr).map fun n => n.sym.expr.eval Ex.ratI fun a => if a = .v "x_m" then 1 else 0) = some (some 1) := by
  refine ⟨Ex.knows Ex.twiceSys [1, 0], Ex.twice, Ex.knows_sound Ex.twiceSys_solved, ?_, by decide +kernel, by decide +kernel, by decide +kernel, by decide +kernel⟩
  intro o ho
  simp only [Ex.twice, List.mem_cons, List.not_mem_nil, or_false] at ho
  rcases ho with rfl | rfl | rfl | rfl | rfl | rfl <;> trivial

end Sloth
