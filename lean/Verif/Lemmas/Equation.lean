import Verif.Props.Classes
import Verif.Spec.Stmt
import Std.Data.String.ToNat

/-! Helper lemmas on equations. -/

namespace Sloth

section
variable {K : Type} [Field K] [LinearOrder K]

theorem Sym.eval_ren (I : Interp K) (ρ : Atom → K) (f : String → String) (e : Sym) :
    (e.ren f).eval I ρ = e.eval I (fun a => ρ (a.ren f)) := by
  induction e with
  | num q => rfl
  | atom a => rfl
  | add a b iha ihb => simp only [Sym.ren, Sym.eval, iha, ihb]
  | sub a b iha ihb => simp only [Sym.ren, Sym.eval, iha, ihb]
  | mul a b iha ihb => simp only [Sym.ren, Sym.eval, iha, ihb]
  | div a b iha ihb => simp only [Sym.ren, Sym.eval, iha, ihb]
  | pow a b iha ihb => simp only [Sym.ren, Sym.eval, iha, ihb]
  | fn g a ih => simp only [Sym.ren, Sym.eval, ih]
  | mm k a b iha ihb => simp only [Sym.ren, Sym.eval, iha, ihb]

theorem Atom.ren_comp (f g : String → String) (a : Atom) : (a.ren f).ren g = a.ren (g ∘ f) := by cases a <;> rfl

theorem Sym.ren_comp (f g : String → String) (e : Sym) : (e.ren f).ren g = e.ren (g ∘ f) := by
  induction e <;> simp_all [Sym.ren, Atom.ren_comp]

theorem Sym.ren_id (e : Sym) : e.ren id = e := by
  induction e with
  | atom a => cases a <;> rfl
  | _ => simp_all [Sym.ren]

theorem Sym.free_ren (f : String → String) (e : Sym) : (e.ren f).free = e.free.map f := by
  induction e with
  | atom a => cases a <;> rfl
  | num q => rfl
  | _ => simp_all [Sym.ren, Sym.free]

/-- Value of a renaming table. -/
def nameOf (names : Dict String String) (s : String) : String := (dget names s).getD s

/-- Replacing one after the other never replaces a replacement. -/
def NoChain (names : Dict String String) : Prop := ∀ p ∈ names, p.2 ∈ dkeys names → p.2 = p.1

theorem foldl_ren (l : List (String × String)) (e : Sym) :
    l.foldl (fun e p => e.ren (ren1 p.1 p.2)) e = e.ren (fun s => l.foldl (fun s p => ren1 p.1 p.2 s) s) := by
  induction l generalizing e with
  | nil => exact (Sym.ren_id e).symm
  | cons p t ih => rw [List.foldl_cons, ih, Sym.ren_comp]; rfl

theorem foldl_ren1_not_mem (l : List (String × String)) (s : String) (h : s ∉ dkeys l) : l.foldl (fun s p => ren1 p.1 p.2 s) s = s := by
  induction l with
  | nil => rfl
  | cons p t ih =>
    simp only [dkeys_cons, List.mem_cons, not_or] at h
    rw [List.foldl_cons]
    have : ren1 p.1 p.2 s = s := by simp [ren1, h.1]
    rw [this, ih h.2]

theorem foldl_ren1 (l : Dict String String) (hn : DNodup l) (hc : NoChain l) (s : String) :
    l.foldl (fun s p => ren1 p.1 p.2 s) s = nameOf l s := by
  induction l with
  | nil => rfl
  | cons p t ih =>
    obtain ⟨k, v⟩ := p
    have hn' : k ∉ dkeys t ∧ DNodup t := by simpa [DNodup] using hn
    have hc' : NoChain t := fun p hp h => hc p (by simp [hp]) (by simp [h])
    rw [List.foldl_cons]
    by_cases hs : s = k
    · subst hs
      have h1 : ren1 s v s = v := by simp [ren1]
      simp only [h1, nameOf, dget_cons, if_true, Option.getD_some]
      apply foldl_ren1_not_mem
      intro hv
      have := hc (s, v) (by simp) (by simp [hv])
      simp only at this; subst this; exact hn'.1 hv
    · have h1 : ren1 k v s = s := by simp [ren1, hs]
      rw [h1, ih hn'.2 hc']
      simp [nameOf, dget_cons, Ne.symm hs]

theorem subsNames_eq (names : Dict String String) (hn : DNodup names) (hc : NoChain names) (e : Sym) :
    e.subsNames names = e.ren (nameOf names) := by
  unfold Sym.subsNames
  have hp := psorted_perm (fun a b : String × String => strLe a.1 b.1) names
  have hnp : DNodup (psorted (fun a b : String × String => strLe a.1 b.1) names) := by
    unfold DNodup dkeys; exact (hp.map _).nodup_iff.mpr hn
  rw [foldl_ren]
  congr 1
  funext s
  rw [foldl_ren1 _ hnp]
  · simp only [nameOf]; rw [dget_perm hp hnp]
  · intro p h1 h2
    refine hc p (hp.mem_iff.mp h1) ?_
    unfold dkeys at h2 ⊢; exact (hp.map _).mem_iff.mp h2

end

theorem EqObj.finish_ok {e e' : EqObj} (h : e.finish = (.ok (), e')) : ∃ n, e.expr = some n ∧ e' = { e with objects := none, type := EqObj.kindOf n.ty } := by
  unfold EqObj.finish at h
  split at h
  · rename_i n hn; exact ⟨n, hn, by simpa using h.symm⟩
  · simp at h

theorem mapOf_ok {whole : Dict String Ref} {l : List String} {m : Dict String Ref} (h : EqObj.mapOf whole l = .ok m) :
    DNodup m ∧ (∀ s, s ∈ dkeys m ↔ s ∈ l) ∧ ∀ s r, dget m s = some r → dget whole s = some r := by
  unfold EqObj.mapOf at h
  simp only [bind_eq_ok, Except.ok.injEq] at h
  obtain ⟨ps, hps, rfl⟩ := h
  have key : ∀ (l : List String) (ps : List (String × Ref)),
      (l.mapM fun k => (do .ok (k, ← dgetE whole k) : Except Err (String × Ref))) = .ok ps →
      ps.map Prod.fst = l ∧ ∀ p ∈ ps, dget whole p.1 = some p.2 := by
    intro l
    induction l with
    | nil => intro ps h; simp [pure, Except.pure] at h; subst h; simp
    | cons a t ih =>
      intro ps h
      simp only [List.mapM_cons, bind_eq_ok, pure, Except.pure, Except.ok.injEq] at h
      obtain ⟨p, ⟨r, hr, rfl⟩, qs, hqs, rfl⟩ := h
      obtain ⟨h1, h2⟩ := ih qs hqs
      refine ⟨by simp [h1], ?_⟩
      intro p hp
      rcases List.mem_cons.mp hp with rfl | hp
      · unfold dgetE at hr; split at hr
        · rename_i v hv; simp only [Except.ok.injEq] at hr; subst hr; exact hv
        · simp at hr
      · exact h2 p hp
  obtain ⟨h1, h2⟩ := key l ps hps
  refine ⟨dofList_nodup _, fun s => ?_, fun s r hs => ?_⟩
  · simp only [dofList, mem_dkeys_dupdate, dkeys_nil, List.not_mem_nil, false_or]
    rw [← h1]; rfl
  · have hgen : ∀ (ps : List (String × Ref)) (d : Dict String Ref), (∀ p ∈ ps, dget whole p.1 = some p.2) →
        (∀ s r, dget d s = some r → dget whole s = some r) → ∀ s r, dget (dupdate d ps) s = some r → dget whole s = some r := by
      intro ps
      induction ps with
      | nil => intro d _ hd; simpa using hd
      | cons p t ih =>
        intro d hp hd
        rw [dupdate_cons]
        refine ih _ (fun q hq => hp q (by simp [hq])) ?_
        intro s r hs
        rw [dget_dset] at hs
        split at hs
        · rename_i he; subst he; simp only [Option.some.injEq] at hs; subst hs; exact hp p (by simp)
        · exact hd s r hs
    exact hgen ps [] h2 (by simp) s r hs

/-! ### free symbols of built nodes -/

theorem Sym.free_opSym (op : BOp) (a b : Sym) : (opSym op a b).free = a.free ++ b.free ∧ (opSym op a b).hasD = (a.hasD || b.hasD) := by
  cases op <;> exact ⟨rfl, rfl⟩

theorem rop_free {m r : ENode} {op : BOp} {q : ℚ} (h : m.rop op q = .ok r) :
    r.sym.expr.free = m.sym.expr.free ∧ r.repr.free = m.repr.free ∧ r.sym.expr.hasD = m.sym.expr.hasD := by
  cases op with
  | add => simp only [ENode.rop, ENode.radd, ENode.add, Except.ok.injEq] at h; subst h; simp [SObj.add, SObj.num, Sym.free, Sym.hasD]
  | sub =>
    simp only [ENode.rop, ENode.rsub, ENode.mul, ok_bind, ENode.add, Except.ok.injEq] at h; subst h
    simp [SObj.add, SObj.mul, SObj.num, Sym.free, Sym.hasD]
  | mul => simp only [ENode.rop, ENode.rmul, ENode.mul, Except.ok.injEq] at h; subst h; simp [SObj.mul, SObj.num, Sym.free, Sym.hasD]
  | div =>
    simp only [ENode.rop, ENode.rdiv, bind_eq_ok] at h
    obtain ⟨k, hk, h⟩ := h
    have h1 := op_num_ok (op := .pow) hk
    simp only [ENode.mul, Except.ok.injEq] at h; subst h
    simp [SObj.mul, SObj.num, Sym.free, Sym.hasD, h1.1, h1.2.1, opSym]
  | pow => simp [ENode.rop] at h

/-- The symbols of a built node: those of `symbolic_object` are the keys of `variable_map`, those of `repr_symbolic` are among the keys
of `symbolic_map`; a derivative symbol comes from a derivative. -/
theorem build_free (e : PyExpr) {n : ENode} (h : e.build = .ok n) :
    (∀ s, s ∈ n.sym.expr.free ↔ s ∈ dkeys n.varMap) ∧ (∀ s, s ∈ n.repr.free → s ∈ dkeys n.symMap) ∧
      (n.sym.expr.hasD = true → Spec.hasDeriv e = true) ∧ ∀ s ∈ dkeys n.varMap, s ∈ dkeys n.symMap := by
  refine and_assoc.mp (and_assoc.mp ⟨?_, ?_⟩)
  · induction e generalizing n with
    | q r x =>
      simp only [PyExpr.build, Except.ok.injEq] at h; subst h
      unfold Quantity.call
      cases hx : x.isSpecified <;> simp [SObj.num, Sym.free, Sym.hasD, dkeys]
    | bin op a b iha ihb =>
      simp only [PyExpr.build, bind_eq_ok] at h
      obtain ⟨m, hm, k, hk, h⟩ := h
      obtain ⟨h1, h2, h3, h4, _⟩ := op_node_ok h
      obtain ⟨⟨a1, a2⟩, a3⟩ := iha hm
      obtain ⟨⟨b1, b2⟩, b3⟩ := ihb hk
      rw [h1, h2, h3, h4]
      simp only [(Sym.free_opSym op _ _).1, (Sym.free_opSym op _ _).2, List.mem_append, mem_dkeys_dupdate, Spec.hasDeriv, Bool.or_eq_true]
      exact ⟨⟨fun s => or_congr (a1 s) (b1 s), fun s => Or.imp (a2 s) (b2 s)⟩, Or.imp a3 b3⟩
    | binN op a q iha =>
      simp only [PyExpr.build, bind_eq_ok] at h
      obtain ⟨m, hm, h⟩ := h
      obtain ⟨h1, h2, h3, h4, _⟩ := op_num_ok h
      obtain ⟨⟨a1, a2⟩, a3⟩ := iha hm
      rw [h1, h2, h3, h4]
      simp only [(Sym.free_opSym op _ _).1, (Sym.free_opSym op _ _).2]
      simpa [Sym.free, Sym.hasD, Spec.hasDeriv] using ⟨⟨a1, a2⟩, a3⟩
    | nbin op q a iha =>
      simp only [PyExpr.build, bind_eq_ok] at h
      obtain ⟨m, hm, h⟩ := h
      obtain ⟨h1, h2, h3⟩ := rop_free h
      obtain ⟨h4, h5, _⟩ := rop_maps h
      rw [h1, h2, h3, h4, h5]; exact iha hm
    | fn f a iha =>
      simp only [PyExpr.build, bind_eq_ok] at h
      obtain ⟨m, hm, h⟩ := h
      obtain ⟨h1, h2, h3, h4, _⟩ := fn_ok h
      rw [h1, h2, h3, h4]; exact iha hm
    | mmN isMax a q iha =>
      simp only [PyExpr.build, bind_eq_ok] at h
      obtain ⟨m, hm, h⟩ := h
      obtain ⟨r, hr, _, h1, h2, h3, h4, _⟩ := mmN_eq isMax m q
      rw [hr] at h; simp only [Except.ok.injEq] at h; subst h
      obtain ⟨⟨a1, a2⟩, a3⟩ := iha hm
      rw [h1, h2, h3, h4]
      have hsub : ∀ s ∈ dkeys m.varMap, s ∈ dkeys m.symMap := fun s hs => by
        obtain ⟨p, hp, _, hps⟩ := ((expr_names_partial a hm s).2).mp hs
        exact ((expr_names_partial a hm s).1).mpr ⟨p, hp, hps⟩
      simp only [Sym.free, List.append_nil, dupdate_nil, mem_dkeys_dupdate, dkeys_nil, List.not_mem_nil, false_or, Sym.hasD, Bool.or_false]
      exact ⟨⟨a1, fun s hs => hsub s ((a1 s).mp hs)⟩, a3⟩
    | diff r x ind =>
      obtain ⟨h1, h2, h3, h4, _⟩ := diff_node h
      rw [h1, h2, h3, h4]
      cases hx : x.isSpecified <;> simp [Sym.free, Sym.hasD, dkeys, Spec.hasDeriv]
  · intro s hs
    obtain ⟨p, hp, _, hps⟩ := ((expr_names_partial e h s).2).mp hs
    exact ((expr_names_partial e h s).1).mpr ⟨p, hp, hps⟩

/-- The same for the residual of a stated equation. -/
theorem stmt_free (st : Stmt) (tag : String) (e e' : EqObj) {a : ResArg} (ha : st.arg = .ok a) (h : e.setResidual tag a = (.ok (), e')) :
    ∃ n, e'.expr = some n ∧ DNodup n.symMap ∧ DNodup n.varMap ∧ (∀ s, s ∈ n.sym.expr.free ↔ s ∈ dkeys n.varMap) ∧
      (∀ s, s ∈ n.repr.free → s ∈ dkeys n.symMap) ∧ (∀ s ∈ dkeys n.varMap, s ∈ dkeys n.symMap) ∧
      (n.sym.expr.hasD = true → ∃ x ∈ Spec.parts st, Spec.hasDeriv x = true) ∧
      (∀ s, s ∈ dkeys n.symMap ↔ ∃ x ∈ Spec.parts st, ∃ p ∈ Spec.quantities x, p.2.name = s) ∧
      (∀ s, s ∈ dkeys n.varMap ↔ ∃ x ∈ Spec.parts st, ∃ p ∈ Spec.quantities x, p.2.isSpecified = false ∧ p.2.name = s) := by
  cases st with
  | eqn l r =>
    simp only [Stmt.arg, bind_eq_ok, Except.ok.injEq] at ha
    obtain ⟨nl, hl, nr, hr, rfl⟩ := ha
    simp only [EqObj.setResidual] at h
    split at h
    · simp at h
    · rename_i d hd
      obtain ⟨n, hn, rfl⟩ := EqObj.finish_ok h
      simp only [Option.some.injEq] at hn; subst hn
      obtain ⟨h1, h2, h3, h4, _⟩ := op_node_ok (op := .sub) hd
      obtain ⟨a1, a2, a3, a4⟩ := build_free l hl
      obtain ⟨b1, b2, b3, b4⟩ := build_free r hr
      obtain ⟨ma, mb, _⟩ := expr_maps_partial l hl
      refine ⟨d, rfl, h3 ▸ ma.dupdate _, h4 ▸ mb.dupdate _, ?_⟩
      rw [h1, h2, h3, h4]
      simp only [(Sym.free_opSym .sub _ _).1, (Sym.free_opSym .sub _ _).2, List.mem_append, mem_dkeys_dupdate, Bool.or_eq_true, Spec.parts,
        List.mem_cons, List.not_mem_nil, or_false, exists_eq_or_imp, exists_eq_left]
      exact ⟨fun s => or_congr (a1 s) (b1 s), fun s => Or.imp (a2 s) (b2 s), fun s => Or.imp (a4 s) (b4 s), Or.imp a3 b3,
        fun s => or_congr (expr_names_partial l hl s).1 (expr_names_partial r hr s).1,
        fun s => or_congr (expr_names_partial l hl s).2 (expr_names_partial r hr s).2⟩
  | eqnNum l q =>
    simp only [Stmt.arg, bind_eq_ok, Except.ok.injEq] at ha
    obtain ⟨nl, hl, rfl⟩ := ha
    simp only [EqObj.setResidual] at h
    split at h
    · simp at h
    · rename_i d hd
      obtain ⟨n, hn, rfl⟩ := EqObj.finish_ok h
      simp only [Option.some.injEq] at hn; subst hn
      obtain ⟨h1, h2, h3, h4, _⟩ := op_node_ok (op := .sub) hd
      obtain ⟨a1, a2, a3, a4⟩ := build_free l hl
      obtain ⟨ma, mb, _⟩ := expr_maps_partial l hl
      refine ⟨d, rfl, h3 ▸ ma.dupdate _, h4 ▸ mb.dupdate _, ?_⟩
      rw [h1, h2, h3, h4]
      simp only [(Sym.free_opSym .sub _ _).1, (Sym.free_opSym .sub _ _).2, Spec.parts, EqObj.numNode, SObj.num, Sym.free, Sym.hasD, dupdate_nil,
        List.append_nil, Bool.or_false, List.mem_cons, List.not_mem_nil, or_false, exists_eq_left]
      exact ⟨a1, a2, a4, a3, fun s => (expr_names_partial l hl s).1, fun s => (expr_names_partial l hl s).2⟩
  | res x =>
    simp only [Stmt.arg, bind_eq_ok, Except.ok.injEq] at ha
    obtain ⟨nl, hl, rfl⟩ := ha
    simp only [EqObj.setResidual] at h
    obtain ⟨n, hn, rfl⟩ := EqObj.finish_ok h
    simp only [Option.some.injEq] at hn; subst hn
    obtain ⟨a1, a2, a3, a4⟩ := build_free x hl
    obtain ⟨ma, mb, _⟩ := expr_maps_partial x hl
    refine ⟨nl, rfl, ma, mb, a1, a2, a4, ?_⟩
    simp only [Spec.parts, List.mem_cons, List.not_mem_nil, or_false, exists_eq_left]
    exact ⟨a3, fun s => (expr_names_partial x hl s).1, fun s => (expr_names_partial x hl s).2⟩

end Sloth
