import Verif.Lemmas.Equation

/-!
# Properties of equations (C20-C24, C57, C58)
-/

namespace Sloth

section
variable {K : Type} [Field K] [LinearOrder K]

/-! ## C20 -/

/-- C20: the residual of a stated equation evaluates to left minus right, hence it is zero exactly where the equation holds. -/
theorem equation_residual (I : Interp K) (ρ : Atom → K) (st : Stmt) (tag : String) (e e' : EqObj) {a : ResArg}
    (ha : st.arg = .ok a) (h : e.setResidual tag a = (.ok (), e')) :
    ∃ n, e'.expr = some n ∧ n.sym.expr.eval I ρ = Spec.residual I ρ st ∧
      (n.sym.expr.eval I ρ = some 0 ↔ Spec.Holds I ρ st) := by
  have hsub : ∀ (o p : Option K), (do some ((← o) - (← p)) : Option K) = some 0 ↔ ∃ v, o = some v ∧ p = some v := by
    intro o p
    cases o <;> cases p <;> simp [sub_eq_zero]
    exact eq_comm
  cases st with
  | eqn l r =>
    simp only [Stmt.arg, bind_eq_ok, Except.ok.injEq] at ha
    obtain ⟨nl, hl, nr, hr, rfl⟩ := ha
    simp only [EqObj.setResidual] at h
    split at h
    · simp at h
    · rename_i d hd
      obtain ⟨n, hn, rfl⟩ := EqObj.finish_ok h
      simp only [Option.some.injEq] at hn; subst hn
      have hv := (op_node_eval I ρ (m := nl) (n := nr) (op := .sub) hd).1
      rw [expr_value I ρ l hl, expr_value I ρ r hr] at hv
      have hv' : d.sym.expr.eval I ρ = Spec.residual I ρ (.eqn l r) := by rw [hv]; rfl
      exact ⟨d, rfl, hv', by rw [hv']; exact hsub _ _⟩
  | eqnNum l q =>
    simp only [Stmt.arg, bind_eq_ok, Except.ok.injEq] at ha
    obtain ⟨nl, hl, rfl⟩ := ha
    simp only [EqObj.setResidual] at h
    split at h
    · simp at h
    · rename_i d hd
      obtain ⟨n, hn, rfl⟩ := EqObj.finish_ok h
      simp only [Option.some.injEq] at hn; subst hn
      have hv := (op_node_eval I ρ (m := nl) (op := .sub) hd).1
      rw [expr_value I ρ l hl] at hv
      have hv' : d.sym.expr.eval I ρ = Spec.residual I ρ (.eqnNum l q) := by rw [hv]; rfl
      refine ⟨d, rfl, hv', ?_⟩
      rw [hv']
      have := hsub (Spec.val I ρ l) (some (q : K))
      simpa [Spec.residual, Spec.Holds] using this
  | res x =>
    simp only [Stmt.arg, bind_eq_ok, Except.ok.injEq] at ha
    obtain ⟨nl, hl, rfl⟩ := ha
    simp only [EqObj.setResidual] at h
    obtain ⟨n, hn, rfl⟩ := EqObj.finish_ok h
    simp only [Option.some.injEq] at hn; subst hn
    exact ⟨nl, rfl, expr_value I ρ x hl, by rw [expr_value I ρ x hl]; rfl⟩

/-- The expressions a user wrote on the two sides; an expression understood to be zero is its own single side. -/
def Spec.sideVal (I : Interp K) (ρ : Atom → K) : EqObj.Side → Stmt → Option K
  | .lhs, .eqn l _ => Spec.val I ρ l
  | .rhs, .eqn _ r => Spec.val I ρ r
  | .lhs, .eqnNum l _ => Spec.val I ρ l
  | .rhs, .eqnNum _ q => some (q : K)
  | _, .res x => Spec.val I ρ x

/-- C20, the sides: what a newly stated equation hands on as its left and right side evaluates to the sides as written, asking for
the residual form gives left minus right, and an equation is marked elementary exactly when it was written as an equality. -/
theorem equation_sides (I : Interp K) (ρ : Atom → K) (st : Stmt) (tag : String) (e e' : EqObj) {a : ResArg}
    (hf : e.form = .residual) (ha : st.arg = .ok a) (h : e.setResidual tag a = (.ok (), e')) (side : EqObj.Side) :
    (∃ s, e'.symbolicObject none side = .ok s ∧ s.expr.eval I ρ = Spec.sideVal I ρ side st) ∧
    (∃ s, e'.symbolicObject (some .residual) side = .ok s ∧ s.expr.eval I ρ = Spec.residual I ρ st) ∧
    (e'.form = .residual ↔ ∃ x, st = .res x) := by
  obtain ⟨n, hn, hv, _⟩ := equation_residual I ρ st tag e e' ha h
  refine and_left_comm.mp ⟨⟨n.sym, by simp only [EqObj.symbolicObject, EqObj.getNode, Option.getD_some, hn, ok_bind], hv⟩, ?_⟩
  cases st with
  | eqn l r =>
    simp only [Stmt.arg, bind_eq_ok, Except.ok.injEq] at ha
    obtain ⟨nl, hl, nr, hr, rfl⟩ := ha
    simp only [EqObj.setResidual] at h
    split at h
    · simp at h
    · obtain ⟨n, hn, rfl⟩ := EqObj.finish_ok h
      refine ⟨?_, by simp⟩
      cases side
      · exact ⟨nl.sym, rfl, expr_value I ρ l hl⟩
      · exact ⟨nr.sym, rfl, expr_value I ρ r hr⟩
  | eqnNum l q =>
    simp only [Stmt.arg, bind_eq_ok, Except.ok.injEq] at ha
    obtain ⟨nl, hl, rfl⟩ := ha
    simp only [EqObj.setResidual] at h
    split at h
    · simp at h
    · obtain ⟨n, hn, rfl⟩ := EqObj.finish_ok h
      refine ⟨?_, by simp⟩
      cases side
      · exact ⟨nl.sym, rfl, expr_value I ρ l hl⟩
      · exact ⟨_, rfl, rfl⟩
  | res x =>
    simp only [Stmt.arg, bind_eq_ok, Except.ok.injEq] at ha
    obtain ⟨nl, hl, rfl⟩ := ha
    simp only [EqObj.setResidual] at h
    obtain ⟨n', hn', rfl⟩ := EqObj.finish_ok h
    simp only [Option.some.injEq] at hn'; subst hn'
    refine ⟨⟨nl.sym, ?_, ?_⟩, ?_⟩
    · simp only [EqObj.symbolicObject, EqObj.getNode, Option.getD_none, hf, ok_bind]
    · cases side <;> exact expr_value I ρ x hl
    · simp [hf]

/-- The side an index names, counted from either end: 0 is the left, 1 the right one. -/
def Spec.sideOf (i : Int) : Option EqObj.Side := if i = 0 ∨ i = -2 then some .lhs else if i = 1 ∨ i = -1 then some .rhs else none

/-- C20, calling an equation: a newly stated equality called with an index gives the side of this index as written, without an index the right one,
and refuses an index that names no side; an expression understood to be zero gives itself whatever the index. -/
theorem equation_call (I : Interp K) (ρ : Atom → K) (st : Stmt) (tag : String) (e e' : EqObj) {a : ResArg}
    (hf : e.form = .residual) (ha : st.arg = .ok a) (h : e.setResidual tag a = (.ok (), e')) (i : Int) :
    (∀ side, Spec.sideOf i = some side → ∃ n, e'.call i = .ok (some n) ∧ n.sym.expr.eval I ρ = Spec.sideVal I ρ side st) ∧
    (Spec.sideOf i = none → (∀ x, st ≠ .res x) → e'.call i = .error .unexpectedValue) ∧
    (∀ x, st = .res x → ∃ n, e'.call i = .ok (some n) ∧ n.sym.expr.eval I ρ = Spec.val I ρ x) ∧
    e'.call = e'.call 1 := by
  have pair : ∀ (l r : ENode) (e' : EqObj), e'.form = .elementary → e'.elem = some (l, r) →
      (∀ side, Spec.sideOf i = some side → e'.call i = .ok (some (match side with | .lhs => l | .rhs => r))) ∧
      (Spec.sideOf i = none → e'.call i = .error .unexpectedValue) := by
    intro l r e' h1 h2
    unfold Spec.sideOf EqObj.call
    rw [h1, h2]
    by_cases c1 : i = 0 ∨ i = -2
    · simp only [c1, if_true]
      exact ⟨fun s hs => by cases hs; rfl, fun hs => by cases hs⟩
    · by_cases c2 : i = 1 ∨ i = -1
      · simp only [c1, c2, if_true, if_false]
        exact ⟨fun s hs => by cases hs; rfl, fun hs => by cases hs⟩
      · simp only [c1, c2, if_false]
        exact ⟨fun s hs => (by cases hs), fun _ => trivial⟩
  cases st with
  | eqn l r =>
    simp only [Stmt.arg, bind_eq_ok, Except.ok.injEq] at ha
    obtain ⟨nl, hl, nr, hr, rfl⟩ := ha
    simp only [EqObj.setResidual] at h
    split at h
    · simp at h
    · have he : e'.form = .elementary ∧ e'.elem = some (nl, nr) := by
        obtain ⟨n, hn, rfl⟩ := EqObj.finish_ok h
        exact ⟨rfl, rfl⟩
      obtain ⟨p1, p2⟩ := pair nl nr e' he.1 he.2
      refine ⟨fun side hs => ⟨_, p1 side hs, ?_⟩, fun hs _ => p2 hs, fun x hx => (by cases hx), rfl⟩
      cases side
      · exact expr_value I ρ l hl
      · exact expr_value I ρ r hr
  | eqnNum l q =>
    simp only [Stmt.arg, bind_eq_ok, Except.ok.injEq] at ha
    obtain ⟨nl, hl, rfl⟩ := ha
    simp only [EqObj.setResidual] at h
    split at h
    · simp at h
    · have he : e'.form = .elementary ∧ e'.elem = some (nl, EqObj.numNode tag q nl.unit) := by
        obtain ⟨n, hn, rfl⟩ := EqObj.finish_ok h
        exact ⟨rfl, rfl⟩
      obtain ⟨p1, p2⟩ := pair nl (EqObj.numNode tag q nl.unit) e' he.1 he.2
      refine ⟨fun side hs => ⟨_, p1 side hs, ?_⟩, fun hs _ => p2 hs, fun x hx => (by cases hx), rfl⟩
      cases side
      · exact expr_value I ρ l hl
      · rfl
  | res x =>
    simp only [Stmt.arg, bind_eq_ok, Except.ok.injEq] at ha
    obtain ⟨nl, hl, rfl⟩ := ha
    simp only [EqObj.setResidual] at h
    obtain ⟨n', hn', rfl⟩ := EqObj.finish_ok h
    simp only [Option.some.injEq] at hn'; subst hn'
    have hc : EqObj.call { e with expr := some nl, objects := none, type := EqObj.kindOf nl.ty } i = .ok (some nl) := by
      simp only [EqObj.call, hf]
    refine ⟨fun side _ => ⟨nl, hc, ?_⟩, fun _ hx => absurd rfl (hx x), fun y hy => ?_, rfl⟩
    · cases side <;> exact expr_value I ρ x hl
    · cases hy; exact ⟨nl, hc, expr_value I ρ x hl⟩

/-- `x + y == 2*p` called with 0, without index and with 2. -/
example : ∃ a, (Stmt.eqn (.bin .add Ex.X Ex.Y) (.nbin .mul 2 Ex.P)).arg = .ok a ∧
    (fun e : EqObj => ((e.call 0).toOption.map fun n => n.map (·.name), (e.call).toOption.map fun n => n.map (·.name), (e.call 2).toOption))
      (({ name := "eq" } : EqObj).setResidual "1" a).2 = (some (some "x+y"), some (some "p*2"), none) := by
  refine ⟨_, rfl, ?_⟩; decide +kernel

/-- `x + y == 2*p` is accepted and its residual is 1 at x = 2, y = 3 (p = 2). -/
example : ∃ a, (Stmt.eqn (.bin .add Ex.X Ex.Y) (.nbin .mul 2 Ex.P)).arg = .ok a ∧
    (({ name := "eq" } : EqObj).setResidual "1" a).1 = .ok () ∧
    ((({ name := "eq" } : EqObj).setResidual "1" a).2.expr.bind fun n =>
      n.sym.expr.eval Ex.I fun v => if v = .v "x" then 2 else 3) = some 1 := by
  refine ⟨_, rfl, ?_, ?_⟩ <;> decide +kernel

end

/-! ## C21 -/

/-- C21: stating `l == r` for nodes with SI units succeeds exactly when both sides have the same dimension
(`DimensionalCoherenceError` otherwise); `l == number` always succeeds, and the number takes the dimension of `l`. -/
theorem equation_coherent (tag : String) (e : EqObj) (l r : ENode) (q : ℚ) (hl : UReachSI l.unit) (hr : UReachSI r.unit) :
    (((e.setResidual tag (.eqn l r)).1 = .ok () ↔ l.unit.dimVec = r.unit.dimVec) ∧
     (l.unit.dimVec ≠ r.unit.dimVec → (e.setResidual tag (.eqn l r)).1 = .error .dimensionalCoherence)) ∧
    ∃ e' d c, e.setResidual tag (.eqnNum l q) = (.ok (), e') ∧ e'.expr = some d ∧ e'.elem = some (l, c) ∧
      d.unit.dimVec = l.unit.dimVec ∧ c.unit.dimVec = l.unit.dimVec := by
  have key : ∀ r : ENode, UReachSI r.unit → (∃ d, l.sub (.node r) = .ok d ∧ d.unit = l.unit ∧ l.unit.dimVec = r.unit.dimVec) ∨
      (l.sub (.node r) = .error .dimensionalCoherence ∧ l.unit.dimVec ≠ r.unit.dimVec) := by
    intro r hr
    by_cases h : l.unit.dimVec = r.unit.dimVec
    · refine Or.inl ?_
      have hs : l.unit.sub r.unit = .ok l.unit := by rw [sub_SI hl hr, if_pos h]
      simp only [ENode.sub, hs, ok_bind]
      exact ⟨_, rfl, rfl, h⟩
    · refine Or.inr ⟨?_, h⟩
      have hs : l.unit.sub r.unit = .error .dimensionalCoherence := by rw [sub_SI hl hr, if_neg h]
      simp only [ENode.sub, hs, error_bind]
  refine ⟨⟨⟨fun h => ?_, fun h => ?_⟩, fun h => ?_⟩, ?_⟩
  · rcases key r hr with ⟨d, _, _, h'⟩ | ⟨hd, _⟩
    · exact h'
    · simp [EqObj.setResidual, hd] at h
  · rcases key r hr with ⟨d, hd, _, _⟩ | ⟨_, h'⟩
    · simp [EqObj.setResidual, hd, EqObj.finish]
    · exact absurd h h'
  · rcases key r hr with ⟨d, _, _, h'⟩ | ⟨hd, _⟩
    · exact absurd h' h
    · simp [EqObj.setResidual, hd]
  · rcases key (EqObj.numNode tag q l.unit) hl with ⟨d, hd, hu, _⟩ | ⟨_, h'⟩
    · simp only [EqObj.setResidual, hd, EqObj.finish]
      exact ⟨_, d, _, rfl, rfl, rfl, by rw [hu], rfl⟩
    · exact absurd rfl h'

example : UReachSI (Ex.x.call 0).unit ∧ UReachSI (Ex.t.call 2).unit ∧ (Ex.x.call 0).unit.dimVec ≠ (Ex.t.call 2).unit.dimVec ∧
    (Ex.x.call 0).unit.dimVec = (Ex.y.call 1).unit.dimVec :=
  ⟨Ex.m_si, Ex.s_si, by decide +kernel, by decide +kernel⟩

/-! ## C23 -/

/-- C23: after stating an equation its kind is the unique flag of its residual: differential if a side is, otherwise nonlinear if
a side is, otherwise linear. -/
theorem equation_kind (st : Stmt) (tag : String) (e e' : EqObj) {a : ResArg}
    (ha : st.arg = .ok a) (h : e.setResidual tag a = (.ok (), e')) :
    ∃ n k, e'.expr = some n ∧ e'.type = some k ∧
      (k = .linear ↔ n.ty.linear = true) ∧ (k = .nonlinear ↔ n.ty.nonlinear = true) ∧ (k = .differential ↔ n.ty.differential = true) ∧
      (n.ty.differential = true ↔ ∃ x ∈ Spec.parts st, ∃ m, x.build = .ok m ∧ m.ty.differential = true) ∧
      (n.ty.linear = true ↔ ∀ x ∈ Spec.parts st, ∃ m, x.build = .ok m ∧ m.ty.linear = true) := by
  have fin : ∀ n : ENode, n.ty.One → ∃ k, EqObj.kindOf n.ty = some k ∧ (k = .linear ↔ n.ty.linear = true) ∧
      (k = .nonlinear ↔ n.ty.nonlinear = true) ∧ (k = .differential ↔ n.ty.differential = true) := by
    intro n hn
    rcases hn with h | h | h <;> simp [EqObj.kindOf, h]
  have hprec : ∀ a b : EqType, a.One → b.One → (a.prec b).One ∧ ((a.prec b).linear = true ↔ a.linear = true ∧ b.linear = true) := by
    rintro ⟨a1, a2, a3⟩ ⟨b1, b2, b3⟩ ha hb
    rcases ha with ⟨rfl, rfl, rfl⟩ | ⟨rfl, rfl, rfl⟩ | ⟨rfl, rfl, rfl⟩ <;> rcases hb with ⟨rfl, rfl, rfl⟩ | ⟨rfl, rfl, rfl⟩ | ⟨rfl, rfl, rfl⟩ <;>
      simp [EqType.prec, EqType.One, EqType.lin, EqType.nonlin, EqType.diff]
  cases st with
  | eqn l r =>
    simp only [Stmt.arg, bind_eq_ok, Except.ok.injEq] at ha
    obtain ⟨nl, hl, nr, hr, rfl⟩ := ha
    simp only [EqObj.setResidual] at h
    split at h
    · simp at h
    · rename_i d hd
      obtain ⟨n, hn, rfl⟩ := EqObj.finish_ok h
      simp only [Option.some.injEq] at hn; subst hn
      have ht : d.ty = nl.ty.prec nr.ty := (op_node_ok (op := .sub) hd).2.2.2.2
      obtain ⟨o, hlin⟩ := hprec _ _ (expr_one_class l hl) (expr_one_class r hr)
      obtain ⟨k, hk, h1, h2, h3⟩ := fin d (ht ▸ o)
      refine ⟨d, k, rfl, hk, h1, h2, h3, ?_, ?_⟩
      · rw [ht, prec_diff]; simp [Spec.parts, hl, hr]
      · rw [ht, hlin]; simp [Spec.parts, hl, hr]
  | eqnNum l q =>
    simp only [Stmt.arg, bind_eq_ok, Except.ok.injEq] at ha
    obtain ⟨nl, hl, rfl⟩ := ha
    simp only [EqObj.setResidual] at h
    split at h
    · simp at h
    · rename_i d hd
      obtain ⟨n, hn, rfl⟩ := EqObj.finish_ok h
      simp only [Option.some.injEq] at hn; subst hn
      have ht : d.ty = nl.ty.prec .lin := (op_node_ok (op := .sub) hd).2.2.2.2
      obtain ⟨o, hlin⟩ := hprec _ .lin (expr_one_class l hl) (by simp [EqType.One, EqType.lin])
      obtain ⟨k, hk, h1, h2, h3⟩ := fin d (ht ▸ o)
      refine ⟨d, k, rfl, hk, h1, h2, h3, ?_, ?_⟩
      · rw [ht, prec_diff]; simp [Spec.parts, hl, EqType.lin]
      · rw [ht, hlin]; simp [Spec.parts, hl, EqType.lin]
  | res x =>
    simp only [Stmt.arg, bind_eq_ok, Except.ok.injEq] at ha
    obtain ⟨nl, hl, rfl⟩ := ha
    simp only [EqObj.setResidual] at h
    obtain ⟨n, hn, rfl⟩ := EqObj.finish_ok h
    simp only [Option.some.injEq] at hn; subst hn
    obtain ⟨k, hk, h1, h2, h3⟩ := fin nl (expr_one_class x hl)
    refine ⟨nl, k, rfl, hk, h1, h2, h3, ?_, ?_⟩ <;> simp [Spec.parts, hl]

example : ∃ a, (Stmt.eqn Ex.DX (.bin .div Ex.Y Ex.T)).arg = .ok a ∧
    (({ name := "eq" } : EqObj).setResidual "1" a).2.type = some .differential := ⟨_, rfl, by decide +kernel⟩

/-! ## C22 -/

/-- The `i`-th name handed to one thread. -/
def Spec.nthName (i : Nat) : String := Nat.repr (i + 1)

theorem Spec.nthName_inj {i j : Nat} (h : Spec.nthName i = Spec.nthName j) : i = j := by
  have := Nat.repr_inj.mp h; omega

/-- Invariant of a thread that has been given `k` names. -/
def Thr.Inv (a : Thr) (k : Nat) : Prop :=
  match a.pc with
  | .test => (k = 0 ∧ a.uid = none) ∨ (a.tid.isSome ∧ a.uid = some k)
  | .setTid => k = 0 ∧ a.uid = none
  | .setUid => k = 0 ∧ a.uid = none ∧ a.tid.isSome
  | .load => a.tid.isSome ∧ a.uid = some k
  | .store n => a.tid.isSome ∧ a.uid = some k ∧ n = k + 1
  | .ret => a.tid.isSome ∧ a.uid = some (k + 1)

/-- Names given to thread `t`, in order. -/
def GenState.names (s : GenState) (t : Nat) : List String := (s.out.filter fun p => p.1 = t).map Prod.snd

/-- Invariant of the process. -/
def GenState.Inv (s : GenState) : Prop :=
  ∀ t, (s.thr t).Inv (s.names t).length ∧ s.names t = (List.range (s.names t).length).map Spec.nthName

theorem GenState.step_inv {s : GenState} (h : s.Inv) (t : Nat) : ∃ s', s.step t = some s' ∧ s'.Inv := by
  have ht := (h t).1
  have keep : ∀ b : Thr, b.Inv (s.names t).length → GenState.Inv ⟨fun u => if u = t then b else s.thr u, s.out⟩ := by
    intro b hb u
    refine ⟨?_, (h u).2⟩
    by_cases hu : u = t
    · subst hu; simpa [GenState.names] using hb
    · simpa [hu, GenState.names] using (h u).1
  unfold GenState.step
  simp only
  generalize s.thr t = a at ht ⊢
  obtain ⟨pc, tid, uid⟩ := a
  cases pc with
  | test =>
    refine ⟨_, rfl, keep _ ?_⟩
    simp only [Thr.Inv] at ht
    rcases ht with ⟨h1, h2⟩ | ⟨h1, h2⟩ <;> simp_all [Thr.Inv]
  | setTid => exact ⟨_, rfl, keep _ (by simp_all [Thr.Inv])⟩
  | setUid => exact ⟨_, rfl, keep _ (by simp_all [Thr.Inv])⟩
  | load =>
    simp only [Thr.Inv] at ht
    obtain ⟨h1, rfl⟩ := ht
    exact ⟨_, rfl, keep _ (by simp_all [Thr.Inv])⟩
  | store n => exact ⟨_, rfl, keep _ (by simp_all [Thr.Inv])⟩
  | ret =>
    simp only [Thr.Inv] at ht
    obtain ⟨h1, rfl⟩ := ht
    obtain ⟨i, rfl⟩ := Option.isSome_iff_exists.mp h1
    refine ⟨_, rfl, fun u => ?_⟩
    by_cases hu : u = t
    · subst hu
      have hn : ∀ f, (GenState.names ⟨f, s.out ++ [(u, Nat.repr ((s.names u).length + 1))]⟩ u) = s.names u ++ [Spec.nthName (s.names u).length] := by
        intro f; simp [GenState.names, Spec.nthName]
      simp only [hn]
      constructor
      · simp [Thr.Inv]
      · rw [List.length_append, List.length_singleton, List.range_succ, List.map_append, ← (h u).2]; rfl
    · have hn : ∀ f n, (GenState.names ⟨f, s.out ++ [(t, n)]⟩ u) = s.names u := by
        intro f n; simp [GenState.names, Ne.symm hu]
      simp only [hn]
      exact ⟨by simpa [hu] using (h u).1, (h u).2⟩

theorem GenState.run_inv {s : GenState} (h : s.Inv) (l : List Nat) : ∃ s', s.run l = some s' ∧ s'.Inv := by
  induction l generalizing s with
  | nil => exact ⟨s, rfl, h⟩
  | cons t l ih =>
    obtain ⟨s1, h1, i1⟩ := GenState.step_inv h t
    obtain ⟨s2, h2, i2⟩ := ih i1
    exact ⟨s2, by simp [GenState.run, h1, h2], i2⟩

theorem GenState.init_inv : GenState.init.Inv := fun t => by simp [GenState.init, GenState.names, Thr.Inv]

/-- C22 (partial): for every interleaving of any number of threads, no step fails, thread `t` has received the names
"1", "2", ... in this order, so the names given to one thread are pairwise distinct.
Missing: distinctness across threads, which fails (`generated_names_clash_across_threads`). -/
theorem generated_names_partial (sched : List Nat) : ∃ s, GenState.init.run sched = some s ∧
    ∀ t, (s.names t).Nodup ∧ s.names t = (List.range (s.names t).length).map Spec.nthName := by
  obtain ⟨s, h, hi⟩ := GenState.run_inv GenState.init_inv sched
  refine ⟨s, h, fun t => ⟨?_, (hi t).2⟩⟩
  rw [(hi t).2]
  exact List.Nodup.map (fun _ _ => Spec.nthName_inj) List.nodup_range

/-- C22 fails: in every interleaving, as soon as two threads have each received a name, both have received "1". -/
theorem generated_names_clash_across_threads (sched : List Nat) (s : GenState) (h : GenState.init.run sched = some s)
    (t u : Nat) (ht : s.names t ≠ []) (hu : s.names u ≠ []) : (s.names t).head? = some "1" ∧ (s.names u).head? = some "1" := by
  obtain ⟨s', h', hi⟩ := GenState.run_inv GenState.init_inv sched
  rw [h] at h'; cases h'
  have key : ∀ t, s.names t ≠ [] → (s.names t).head? = some "1" := by
    intro t ht
    rw [(hi t).2]
    cases hn : (s.names t).length with
    | zero => exact absurd (List.length_eq_zero_iff.mp hn) ht
    | succ n =>
      have : Spec.nthName 0 = "1" := by decide
      simp [List.range_succ_eq_map, this]
  exact ⟨key t ht, key u hu⟩

/-- Two threads interleaved line by line; thread 0 calls twice. -/
example : ∃ s, GenState.init.run [0, 1, 0, 1, 0, 1, 0, 1, 0, 1, 0, 1, 0, 0, 0, 0] = some s ∧
    s.out = [(0, "1"), (1, "1"), (0, "2")] := ⟨_, rfl, by decide⟩

/-- The uninterrupted function is the step machine run by one thread alone. -/
theorem genRndStr_is_run (s : GenState) (h : s.Inv) (t : Nat) (hpc : (s.thr t).pc = .test) :
    ∃ k s', s.run (List.replicate k t) = some s' ∧ s'.out = s.out ++ [(t, (genRndStr (s.thr t).uid).1)] ∧
      (s'.thr t).uid = (genRndStr (s.thr t).uid).2 ∧ (s'.thr t).pc = .test := by
  have ht := (h t).1
  rw [Thr.Inv, hpc] at ht
  rcases ht with ⟨h1, h2⟩ | ⟨h1, h2⟩
  · exact ⟨6, _, by simp [List.replicate, GenState.run, GenState.step, hpc, h2]; rfl, by simp [genRndStr, h2], by simp [genRndStr, h2], by simp⟩
  · obtain ⟨i, hi⟩ := Option.isSome_iff_exists.mp h1
    exact ⟨4, _, by simp [List.replicate, GenState.run, GenState.step, hpc, h2, hi]; rfl, by simp [genRndStr, h2], by simp [genRndStr, h2], by simp⟩

/-! ## C24 -/

section
variable {K : Type} [Field K] [LinearOrder K]

/-- The assignment `ρ'` gives the renamed atom the value `ρ` gives the atom. -/
def Spec.Renamed (f : String → String) (ρ ρ' : Atom → K) : Prop :=
  (∀ s, ρ' (.v (f s)) = ρ (.v s)) ∧ ∀ x t, ρ' (.d (f x) (f t)) = ρ (.d x t)

/-- C24 (partial): a successful rewriting with a table in which no new name is also an old one gives an equation whose residual under
the renamed assignment is the residual of the original, which mentions exactly the renamed symbols of the original
and refers them to the objects of the given map; kind and form are kept.
Missing: tables in which a new name is an old one (`rename_chain_merges_variables`), and equations with a numeric side or without
unknowns, on which the code raises (`rename_numeric_side_raises`). -/
theorem equation_rename_partial (I : Interp K) (e e' : EqObj) (names : Dict String String) (whole : Dict String Ref)
    (hn : DNodup names) (hc : NoChain names) (h : e.convert names whole = .ok e') :
    ∃ n n', e.expr = some n ∧ e'.expr = some n' ∧ e'.form = e.form ∧ e'.type = e.type ∧ n'.ty = n.ty ∧
      e'.objects = some n'.symMap ∧
      (∀ ρ ρ', Spec.Renamed (nameOf names) ρ ρ' → n'.sym.expr.eval I ρ' = n.sym.expr.eval I ρ ∧ n'.repr.eval I ρ' = n.repr.eval I ρ) ∧
      (∀ s, s ∈ dkeys n'.symMap ↔ ∃ k ∈ n.repr.free, s = nameOf names k) ∧
      (∀ s r, dget n'.symMap s = some r → dget whole s = some r) ∧
      (∀ l r, e.elem = some (l, r) → ∃ l' r', e'.elem = some (l', r') ∧ ∀ ρ ρ', Spec.Renamed (nameOf names) ρ ρ' →
        ((l.sym.isPy = false → l'.sym.expr.eval I ρ' = l.sym.expr.eval I ρ) ∧ (l.sym.isPy = true → l'.sym = l.sym)) ∧
        ((r.sym.isPy = false → r'.sym.expr.eval I ρ' = r.sym.expr.eval I ρ) ∧ (r.sym.isPy = true → r'.sym = r.sym))) := by
  have hev : ∀ (a : Sym) ρ ρ', Spec.Renamed (nameOf names) ρ ρ' → (a.subsNames names).eval I ρ' = a.eval I ρ := by
    intro a ρ ρ' hr
    rw [subsNames_eq names hn hc, Sym.eval_ren]
    congr 1
    funext x
    cases x with
    | v s => exact hr.1 s
    | d x t => exact hr.2 x t
  have hquiet : ∀ (s : SObj) ρ ρ', Spec.Renamed (nameOf names) ρ ρ' →
      (s.isPy = false → (EqObj.subsObjQuiet names s).expr.eval I ρ' = s.expr.eval I ρ) ∧ (s.isPy = true → EqObj.subsObjQuiet names s = s) := by
    intro s ρ ρ' hr
    unfold EqObj.subsObjQuiet
    cases hs : s.isPy
    · simp [hev _ _ _ hr]
    · simp
  unfold EqObj.convert at h
  cases hx : e.expr with
  | none => simp [hx] at h
  | some n =>
    simp only [hx, EqObj.convertNode, bind_eq_ok, EqObj.sweep, Except.ok.injEq] at h
    obtain ⟨s, hs, el, hel, m, hm, rfl⟩ := h
    obtain ⟨_, m2, m3⟩ := mapOf_ok hm
    have hs' : s = ⟨false, n.sym.expr.subsNames names⟩ := by
      unfold EqObj.subsObj at hs; split at hs
      · simp at hs
      · simpa using hs.symm
    refine ⟨n, _, rfl, rfl, rfl, rfl, rfl, rfl, ?_, ?_, m3, ?_⟩
    · intro ρ ρ' hr
      refine ⟨?_, hev _ _ _ hr⟩
      rw [hs']; exact hev _ _ _ hr
    · intro a
      rw [m2]
      simp only [subsNames_eq names hn hc, Sym.free_ren, List.mem_map]
      exact ⟨fun ⟨k, h1, h2⟩ => ⟨k, h1, h2.symm⟩, fun ⟨k, h1, h2⟩ => ⟨k, h1, h2.symm⟩⟩
    · intro l r hlr
      simp only [hlr, EqObj.convertElem] at hel
      split at hel
      · simp at hel
      · simp only [bind_eq_ok, Except.ok.injEq] at hel
        obtain ⟨ml, _, mr, _, rfl⟩ := hel
        exact ⟨_, _, rfl, fun ρ ρ' hr => ⟨hquiet _ _ _ hr, hquiet _ _ _ hr⟩⟩

/-- `x + y == 2*p` with every name given the suffix `_b`. -/
example : ∃ e', ((({ name := "eq" } : EqObj).setResidual "1" (.eqn ((Ex.x.call 0)) (Ex.y.call 1))).2.convert
      [("x", "x_b"), ("y", "y_b")] [("x_b", 7), ("y_b", 8), ("z_b", 9)]) = .ok e' ∧
    e'.objects = some [("x_b", 7), ("y_b", 8)] := ok_sat (by decide +kernel)
example : DNodup [("x", "x_b"), ("y", "y_b")] ∧ NoChain [("x", "x_b"), ("y", "y_b")] := by
  refine ⟨by decide, ?_⟩
  intro p hp h
  simp [dkeys] at hp h
  rcases hp with rfl | rfl <;> simp at h

/-- C24 fails: with an injective table in which a new name is also an old one, two different variables are merged
(`a - a_x`, with `a` renamed to `a_x` and `a_x` to `a_x_x`, becomes `a_x_x - a_x_x`, which vanishes identically). -/
theorem rename_chain_merges_variables : ∃ (e e' : EqObj) (n n' : ENode) (names : Dict String String) (whole : Dict String Ref),
    DNodup names ∧ (names.map Prod.snd).Nodup ∧ e.convert names whole = .ok e' ∧ e.expr = some n ∧ e'.expr = some n' ∧
    (∃ ρ : Atom → ℚ, n.sym.expr.eval Ex.I ρ = some 1) ∧ ∀ ρ : Atom → ℚ, n'.sym.expr.eval Ex.I ρ = some 0 := by
  let names := [("x", "y"), ("y", "z")]
  let e0 := (({ name := "eq" } : EqObj).setResidual "1" (.eqn (Ex.x.call 0) (Ex.y.call 1))).2
  obtain ⟨e', h1, h2⟩ : ∃ e', e0.convert names [("z", 7)] = .ok e' ∧ e'.expr.map (fun n => n.sym.expr) = some (.sub (.var "z") (.var "z")) :=
    ok_sat (by decide +kernel)
  cases hx : e'.expr with
  | none => rw [hx] at h2; cases h2
  | some n' =>
    rw [hx] at h2
    simp only [Option.map_some, Option.some.injEq] at h2
    refine ⟨e0, e', _, n', names, [("z", 7)], by decide, by decide, h1, rfl, hx, ⟨fun a => if a = .v "x" then 1 else 0, by decide +kernel⟩, ?_⟩
    intro ρ
    rw [h2]; simp [Sym.eval]

/-- C24 fails: rewriting an equation stated with a numeric side always raises. -/
theorem rename_numeric_side_raises (tag : String) (e e' : EqObj) (l : ENode) (q : ℚ) (names : Dict String String) (whole : Dict String Ref)
    (h : e.setResidual tag (.eqnNum l q) = (.ok (), e')) : e'.convert names whole = .error .attributeError := by
  simp only [EqObj.setResidual] at h
  split at h
  · simp at h
  · obtain ⟨n, hn, rfl⟩ := EqObj.finish_ok h
    simp only [Option.some.injEq] at hn; subst hn
    simp only [EqObj.convert, EqObj.convertNode, EqObj.convertElem, if_true]
    rename_i d hd
    cases hs : EqObj.subsObj names d.sym with
    | error x =>
      simp only [error_bind]
      unfold EqObj.subsObj at hs
      split at hs
      · simpa using hs.symm
      · simp at hs
    | ok s => simp

example : (({ name := "eq" } : EqObj).setResidual "1" (.eqnNum (Ex.x.call 0) 2)).1 = .ok () := by decide +kernel

/-! ## C57 -/

/-- C57 fails: an equation stated as `l == r` and restated by an expression keeps reporting the right side of the old statement:
what the equation hands on is neither the new residual nor has anything to do with it. -/
theorem restated_equation_is_stale (tag : String) (e e1 e2 : EqObj) (l r n : ENode)
    (h1 : e.setResidual tag (.eqn l r) = (.ok (), e1)) (h2 : e1.setResidual tag (.node n) = (.ok (), e2)) :
    e2.symbolicObject = .ok r.sym ∧ e2.expr = some n := by
  simp only [EqObj.setResidual] at h1
  split at h1
  · simp at h1
  · obtain ⟨d, _, rfl⟩ := EqObj.finish_ok h1
    simp only [EqObj.setResidual] at h2
    obtain ⟨d', hd', rfl⟩ := EqObj.finish_ok h2
    exact ⟨rfl, rfl⟩

/-- C57 (partial): restating by an equality replaces the previous statement completely.
Missing: restating by an expression an equation stated by an equality (`restated_equation_is_stale`). -/
theorem restated_equation_partial (tag : String) (e e1 e2 : EqObj) (l r : ENode) (a : ResArg)
    (h1 : e.setResidual tag a = (.ok (), e1)) (h2 : e1.setResidual tag (.eqn l r) = (.ok (), e2)) :
    e2 = (e.setResidual tag (.eqn l r)).2 ∧ e2.elem = some (l, r) ∧ e2.form = .elementary := by
  have base : e1.name = e.name ∧ e1.description = e.description ∧ e1.owner = e.owner := by
    cases a with
    | eqn l r =>
      simp only [EqObj.setResidual] at h1
      split at h1
      · simp at h1
      · obtain ⟨_, _, rfl⟩ := EqObj.finish_ok h1; exact ⟨rfl, rfl, rfl⟩
    | eqnNum l q =>
      simp only [EqObj.setResidual] at h1
      split at h1
      · simp at h1
      · obtain ⟨_, _, rfl⟩ := EqObj.finish_ok h1; exact ⟨rfl, rfl, rfl⟩
    | eqnOther l => simp only [EqObj.setResidual] at h1; obtain ⟨_, _, rfl⟩ := EqObj.finish_ok h1; exact ⟨rfl, rfl, rfl⟩
    | node n => simp only [EqObj.setResidual] at h1; obtain ⟨_, _, rfl⟩ := EqObj.finish_ok h1; exact ⟨rfl, rfl, rfl⟩
    | other => simp [EqObj.setResidual] at h1
  simp only [EqObj.setResidual] at h2 ⊢
  split at h2
  · simp at h2
  · rename_i d hd
    obtain ⟨n, hn, rfl⟩ := EqObj.finish_ok h2
    simp only [Option.some.injEq] at hn; subst hn
    simp [EqObj.finish, base]

example : ∃ e1 e2 : EqObj, ({ name := "eq" } : EqObj).setResidual "1" (.eqn (Ex.x.call 0) (Ex.y.call 1)) = (.ok (), e1) ∧
    e1.setResidual "1" (.node (Ex.t.call 2)) = (.ok (), e2) ∧ e2.symbolicObject ≠ .ok (Ex.t.call 2).sym :=
  ⟨_, _, rfl, rfl, by decide +kernel⟩

/-! ## C58 -/

/-- C58: the function compiled from a stated equation without derivatives by a mechanism SymPy knows, called with one number per quantity of the
equation (in the order of the symbolic map), returns left minus right side at these numbers, specified quantities keeping their own value; with
any other number of arguments it raises. -/
theorem compiled_function (known : String → Bool) (mech : String) (hm : known mech = true) (I : Interp K) (st : Stmt) (tag : String) (e e' : EqObj) {a : ResArg}
    (ha : st.arg = .ok a) (h : e.setResidual tag a = (.ok (), e')) (hnd : ∀ x ∈ Spec.parts st, Spec.hasDeriv x = false) :
    ∃ (keys : List String) (f : List K → Except Err (Option K)), e'.asFunction known I none none mech = .ok f ∧ keys.Nodup ∧
      (∀ s, s ∈ keys ↔ ∃ x ∈ Spec.parts st, ∃ p ∈ Spec.quantities x, p.2.name = s) ∧
      (∀ (ρ : Atom → K), f (keys.map fun s => ρ (.v s)) = .ok (Spec.residual I ρ st)) ∧
      (∀ xs, xs.length ≠ keys.length → f xs = .error .typeError) := by
  obtain ⟨n, hn, hk, _, hfree, _, hsub, hD, hnames, _⟩ := stmt_free st tag e e' ha h
  have hd : n.sym.expr.hasD = false := by
    by_contra hc
    obtain ⟨x, hx, hx'⟩ := hD (by simpa using hc)
    rw [hnd x hx] at hx'; cases hx'
  have hf : ∀ s ∈ n.sym.expr.free, s ∈ dkeys n.symMap := fun s hs => hsub s ((hfree s).mp hs)
  have hev : ∀ (ρ : Atom → K) (a : Sym), a.hasD = false → (∀ s ∈ a.free, s ∈ dkeys n.symMap) →
      (a.eval I fun x => match x with
        | .v s => (dget ((dkeys n.symMap).zip ((dkeys n.symMap).map fun s => ρ (.v s))) s).getD 0
        | .d _ _ => 0) = a.eval I ρ := by
    intro ρ
    have hz : ∀ (ks : List String) (s : String), s ∈ ks → dget (ks.zip (ks.map fun s => ρ (.v s))) s = some (ρ (.v s)) := by
      intro ks
      induction ks with
      | nil => simp
      | cons a t ih =>
        intro s hs
        simp only [List.map_cons, List.zip_cons_cons, dget_cons]
        by_cases has : a = s
        · subst has; simp
        · simp only [has, if_false]
          exact ih s ((List.mem_cons.mp hs).resolve_left (fun h => has h.symm))
    intro a
    induction a with
    | num q => intros; rfl
    | atom b =>
      intro h1 h2
      cases b with
      | v s => simp only [Sym.eval]; rw [hz _ s (h2 s (by simp [Sym.free]))]; rfl
      | d x t => simp [Sym.hasD] at h1
    | fn f a ih => intro h1 h2; simp only [Sym.eval]; rw [ih h1 h2]
    | add a b iha ihb | sub a b iha ihb | mul a b iha ihb | div a b iha ihb | pow a b iha ihb | mm _ a b iha ihb =>
      intro h1 h2
      simp only [Sym.hasD, Bool.or_eq_false_iff] at h1
      simp only [Sym.free, List.mem_append] at h2
      simp only [Sym.eval]
      rw [iha h1.1 (fun s hs => h2 s (Or.inl hs)), ihb h1.2 (fun s hs => h2 s (Or.inr hs))]
  have hkeys : e'.functionKeys none = .ok (dkeys n.symMap) := by simp [EqObj.functionKeys, hn]
  have hnode : e'.sideNode none = .ok n := by simp [EqObj.sideNode, hn]
  refine ⟨dkeys n.symMap, _, by simp only [EqObj.asFunction, hnode, hkeys, ok_bind, hm]; rfl, hk, hnames, fun ρ => ?_, fun xs hx => ?_⟩
  · simp only [List.length_map, if_true]
    rw [if_pos ⟨hd, hf⟩]
    obtain ⟨n', hn', hv, _⟩ := equation_residual I ρ st tag e e' ha h
    rw [hn] at hn'; cases hn'
    rw [← hv]
    exact congrArg Except.ok (hev ρ _ hd hf)
  · simp only [hx, if_false]

/-- `x + y == 2*p` compiled: arguments x, y, p; `p` is specified, its argument is ignored. -/
example : ∃ a f, (Stmt.eqn (.bin .add Ex.X Ex.Y) (.nbin .mul 2 Ex.P)).arg = .ok a ∧
    (({ name := "eq" } : EqObj).setResidual "1" a).2.asFunction (fun s => s == "numpy") Ex.I none none "numpy" = .ok f ∧ f [2, 3, 9] = .ok (some 1) :=
  ⟨_, _, rfl, rfl, by decide +kernel⟩

/-- C58, the other mechanisms: by one SymPy does not know nothing is ever compiled.  SymPy does not know the default `'llvm'`, though the
documentation of the method says that the default is `'numpy'`. -/
theorem unknown_mechanism (known : String → Bool) (I : Interp K) (e : EqObj) (keys : Option (List String)) (side : Option EqObj.Side) :
    (∀ mech, known mech = false → ∀ f, e.asFunction known I keys side mech ≠ .ok f) ∧
    (known "llvm" = false → (∀ f, e.asFunction known I keys side ≠ .ok f) ∧
      ∀ (st : Stmt) (tag : String) (e0 : EqObj) {a : ResArg}, st.arg = .ok a → e0.setResidual tag a = (.ok (), e) →
        e.asFunction known I none none = .error .nameError) := by
  have key : ∀ mech, known mech = false → ∀ f, e.asFunction known I keys side mech ≠ .ok f := by
    intro mech hm f h
    simp only [EqObj.asFunction, bind_eq_ok] at h
    obtain ⟨_, _, _, _, h⟩ := h
    simp [hm] at h
  refine ⟨key, fun hl => ⟨key _ hl, fun st tag e0 a ha h => ?_⟩⟩
  obtain ⟨n, hn, _⟩ := equation_residual Ex.I (fun _ => 0) st tag e0 e ha h
  simp [EqObj.asFunction, EqObj.sideNode, EqObj.functionKeys, hn, hl, ok_bind]

/-- `x + y == 2*p` compiled without naming a mechanism. -/
example : ∃ a, (Stmt.eqn (.bin .add Ex.X Ex.Y) (.nbin .mul 2 Ex.P)).arg = .ok a ∧
    ((({ name := "eq" } : EqObj).setResidual "1" a).2.asFunction (fun s => s == "numpy") Ex.I none none) = .error .nameError :=
  ⟨_, rfl, rfl⟩

end
end Sloth
