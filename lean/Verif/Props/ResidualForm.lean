import Verif.Props.Blocks

/-!
# Differential equations converted to residual form (C87)
-/

namespace Sloth
open PyM

/-! ## Specification -/

/-- The converted equation: in residual form, with the kind and the two sides it had, and with the same residual. -/
structure Spec.Converted (e e' : EqObj) : Prop where
  form : e'.form = .residual
  kind : e'.type = e.type
  sides : e'.elem = e.elem
  residual : ∃ n n', e.expr = some n ∧ e'.expr = some n' ∧ n'.sym.expr = n.sym.expr

/-! ## Equalities keep the two sides of their residual -/

/-- An equation in elementary form has two sides that can be subtracted, and its residual is their difference. -/
def EqObj.Split (e : EqObj) : Prop :=
  e.form = .elementary → ∃ l r n u, e.elem = some (l, r) ∧ e.expr = some n ∧ l.unit.sub r.unit = .ok u ∧ n.sym.expr = .sub l.sym.expr r.sym.expr ∧
    n.ty = l.ty.prec r.ty ∧ l.sym.Closed ∧ r.sym.Closed

theorem ENode.sub_node {l r d : ENode} (h : l.sub (.node r) = .ok d) :
    (∃ u, l.unit.sub r.unit = .ok u) ∧ d.sym.expr = .sub l.sym.expr r.sym.expr ∧ d.ty = l.ty.prec r.ty := by
  simp only [ENode.sub, bind_eq_ok, Except.ok.injEq] at h
  obtain ⟨u, hu, rfl⟩ := h
  exact ⟨⟨u, hu⟩, rfl, rfl⟩

theorem Stmt.split (st : Stmt) {t : String} {e0 e : EqObj} {a : ResArg} (ha : st.arg = .ok a) (hf : e0.Fresh a) (h : e0.setResidual t a = (.ok (), e))
    (n o : String) (d : Option (Dict String Ref)) : EqObj.Split { e with name := n, owner := o, objects := d } := by
  cases st with
  | eqn l r =>
    simp only [Stmt.arg, bind_eq_ok, Except.ok.injEq] at ha
    obtain ⟨nl, hl, nr, hr, rfl⟩ := ha
    simp only [EqObj.setResidual] at h
    split at h
    · simp at h
    · rename_i d0 hd
      obtain ⟨k, hk, h'⟩ := EqObj.finish_ok h
      obtain ⟨⟨u, hu⟩, h1, h2⟩ := ENode.sub_node hd
      intro _
      exact ⟨nl, nr, d0, u, by rw [h'], by rw [h'], hu, h1, h2, build_closed l hl, build_closed r hr⟩
  | eqnNum l q =>
    simp only [Stmt.arg, bind_eq_ok, Except.ok.injEq] at ha
    obtain ⟨nl, hl, rfl⟩ := ha
    simp only [EqObj.setResidual] at h
    split at h
    · simp at h
    · rename_i d0 hd
      obtain ⟨k, hk, h'⟩ := EqObj.finish_ok h
      obtain ⟨⟨u, hu⟩, h1, h2⟩ := ENode.sub_node hd
      intro _
      exact ⟨nl, _, d0, u, by rw [h'], by rw [h'], hu, h1, h2, build_closed l hl, fun _ _ => rfl⟩
  | res x =>
    simp only [Stmt.arg, bind_eq_ok, Except.ok.injEq] at ha
    obtain ⟨nl, hl, rfl⟩ := ha
    have hform := EqObj.setResidual_node_form h
    rcases hf with hf | hf
    · intro he
      simp only at he
      rw [hform, hf] at he
      cases he
    · exact absurd rfl (hf nl)

theorem EqObj.Split.convert {e e' : EqObj} (hs : e.Split) {n o : String} {names : Dict String String} {whole : Dict String Ref}
    (h : EqObj.convert { e with name := n, owner := o } names whole = .ok e') : e'.Split := by
  unfold EqObj.convert at h
  cases hx : e.expr with
  | none => simp [hx] at h
  | some k =>
    simp only [hx, EqObj.convertNode, bind_eq_ok] at h
    obtain ⟨s, hsu, el, hel, mp, _, h⟩ := h
    obtain ⟨k', hk', h'⟩ := EqObj.sweep_ok h
    intro hf
    have hf0 : e.form = .elementary := by rw [h'] at hf; exact hf
    obtain ⟨l, r, n0, u, h1, h2, h3, h4, h5, h6, h7⟩ := hs hf0
    rw [hx] at h2; cases h2
    simp only [h1, EqObj.convertElem] at hel
    split at hel
    · cases hel
    · simp only [bind_eq_ok, Except.ok.injEq] at hel
      obtain ⟨ml, _, mr, _, hel⟩ := hel
      have hse : s = ⟨false, k.sym.expr.ren (oneByOne names)⟩ := by
        unfold EqObj.subsObj at hsu
        split at hsu
        · simp at hsu
        · simpa [subsNames_oneByOne] using hsu.symm
      have hq : ∀ x : SObj, x.Closed → (EqObj.subsObjQuiet names x).expr = x.expr.ren (oneByOne names) ∧ (EqObj.subsObjQuiet names x).Closed := by
        intro x hx
        unfold EqObj.subsObjQuiet
        cases hp : x.isPy
        · exact ⟨by simp [subsNames_oneByOne], fun h => by simp at h⟩
        · exact ⟨by simp [hx hp], by simpa using hx⟩
      refine ⟨{ l with repr := l.repr.subsNames names, sym := EqObj.subsObjQuiet names l.sym, symMap := ml },
        { r with repr := r.repr.subsNames names, sym := EqObj.subsObjQuiet names r.sym, symMap := mr },
        { k with repr := k.repr.subsNames names, sym := s, symMap := mp }, u, by rw [h', ← hel], by rw [h'], h3, ?_, h5, (hq _ h6).2, (hq _ h7).2⟩
      show s.expr = .sub (EqObj.subsObjQuiet names l.sym).expr (EqObj.subsObjQuiet names r.sym).expr
      rw [hse, (hq _ h6).1, (hq _ h7).1, h4]; rfl

theorem split_stable : Stable Spec.written (fun w w' => (∀ e ∈ w.es, e.Split) → ∀ e ∈ w'.es, e.Split) :=
  (eqInv_elem Spec.written EqObj.Split (fun st a h => ⟨st, h⟩) (fun t e0 e a n o d ⟨st, hst⟩ hf h => st.split hst hf h n o _)
    (fun fl _ _ e e' n o names whole hst h => hst.convert h)).stable trivial

/-! ## Conversion -/

/-- One equation: a differential one is converted, the others are left alone. -/
theorem toResidualForm_ok {e : EqObj} (ht : e.Typed) (hs : e.Split) : ∃ e', e.toResidualForm = .ok e' ∧
    (e.type = some .differential → Spec.Converted e e' ∧ e'.Typed) ∧ ((e.type ≠ some .differential ∨ e.form = .residual) → e' = e) := by
  obtain ⟨n, hn, hone, hty⟩ := ht
  have hg : e.getType = .ok e := by
    unfold EqObj.getType
    split
    · next m hm => rw [hn] at hm; cases hm; rw [← hty]
    · next hm => rw [hn] at hm; cases hm
  unfold EqObj.toResidualForm
  rw [hg, ok_bind]
  by_cases hd : e.type = some .differential ∧ e.form ≠ .residual
  · rw [if_pos hd]
    have hf : e.form = .elementary := by
      cases h : e.form with
      | residual => exact absurd h hd.2
      | elementary => rfl
    obtain ⟨l, r, n0, u, h1, h2, h3, h4, h5, _, _⟩ := hs hf
    rw [hn] at h2; cases h2
    simp only [h1, ENode.sub, h3, ok_bind]
    refine ⟨_, rfl, fun _ => ⟨⟨rfl, rfl, h1.symm ▸ rfl, n, _, hn, rfl, ?_⟩, ⟨_, rfl, ?_, ?_⟩⟩, fun h => ?_⟩
    · rw [h4]; rfl
    · show (l.ty.prec r.ty).One
      rw [← h5]; exact hone
    · show e.type = EqObj.kindOf (l.ty.prec r.ty)
      rw [← h5]; exact hty
    · rcases h with h | h
      · exact absurd hd.1 h
      · exact absurd h hd.2
  · rw [if_neg hd]
    refine ⟨e, rfl, fun h => ⟨⟨?_, rfl, rfl, n, n, hn, hn, rfl⟩, n, hn, hone, hty⟩, fun _ => rfl⟩
    by_contra hf
    exact hd ⟨h, hf⟩

theorem Spec.Converted.trans {a b c : EqObj} (h : Spec.Converted a b) (h' : Spec.Converted b c) : Spec.Converted a c := by
  obtain ⟨n, n1, h1, h2, h3⟩ := h.residual
  obtain ⟨n2, n3, h4, h5, h6⟩ := h'.residual
  rw [h2] at h4; cases h4
  exact ⟨h'.form, h'.kind.trans h.kind, h'.sides.trans h.sides, n, n3, h1, h5, h6.trans h3⟩

/-- The loop. -/
theorem convert_each (l : List ERef) (w : World) (hall : ∀ e ∈ w.es, e.Typed ∧ e.Split) (hl : ∀ r ∈ l, ∃ e, w.es[r]? = some e ∧ e.type = some .differential) :
    ∃ es, each l (fun r => do
        let e ← getE r
        if e.form = .residual then PyM.pure ()
        else do
          let e ← lift e.toResidualForm
          setE r e) w = (.ok (), { w with es := es }) ∧ es.length = w.es.length ∧
      ∀ (r : ERef) e, w.es[r]? = some e → ∃ e', es[r]? = some e' ∧ ((r ∉ l ∨ e.form = .residual) → e' = e) ∧ (r ∈ l → Spec.Converted e e') := by
  induction l generalizing w with
  | nil => exact ⟨w.es, rfl, rfl, fun r e h => ⟨e, h, fun _ => rfl, fun h => by cases h⟩⟩
  | cons r t ih =>
    obtain ⟨e, he, hd⟩ := hl r (by simp)
    obtain ⟨hty, hsp⟩ := hall e (List.mem_of_getElem? he)
    have hg : getE r w = (.ok e, w) := by simp only [getE, he]
    by_cases hf : e.form = .residual
    · obtain ⟨es, h1, h2, h3⟩ := ih w hall (fun r' hr' => hl r' (by simp [hr']))
      refine ⟨es, ?_, h2, fun r' e0 h0 => ?_⟩
      · rw [← h1, each_cons, PyM.bind_of_ok (a := ()) (w1 := w)]
        rw [PyM.bind_of_ok hg, if_pos hf]; rfl
      · obtain ⟨e', h4, h5, h6⟩ := h3 r' e0 h0
        by_cases hrr : r' ∈ t
        · exact ⟨e', h4, fun h => h5 (h.imp (fun h' => by simp at h'; exact h'.2) id), fun _ => h6 hrr⟩
        · have heq := h5 (.inl hrr)
          refine ⟨e', h4, fun _ => heq, fun hm => ?_⟩
          have hre : r' = r := by simpa [hrr] using hm
          subst hre
          rw [he] at h0; cases h0
          subst heq
          obtain ⟨n, hn, _⟩ := hty
          exact ⟨hf, rfl, rfl, n, n, hn, hn, rfl⟩
    · obtain ⟨e1, hc1, hc2, _⟩ := toResidualForm_ok hty hsp
      obtain ⟨hconv, hty1⟩ := hc2 hd
      have hlt : r < w.es.length := (List.getElem?_eq_some_iff.mp he).1
      have hset : ∀ (r' : ERef) e0, (w.es.set r e1)[r']? = some e0 → (r' = r ∧ e0 = e1) ∨ (r' ≠ r ∧ w.es[r']? = some e0) := fun r' e0 h0 => by
        by_cases h : r' = r
        · subst h
          rw [List.getElem?_set_self hlt] at h0
          exact .inl ⟨rfl, (Option.some.inj h0).symm⟩
        · rw [List.getElem?_set_ne (Ne.symm h)] at h0
          exact .inr ⟨h, h0⟩
      have hkeep : ∀ (r' : ERef) e0, w.es[r']? = some e0 → (w.es.set r e1)[r']? = some (if r' = r then e1 else e0) := fun r' e0 h0 => by
        by_cases h : r' = r
        · subst h
          rw [List.getElem?_set_self hlt, if_pos rfl]
        · rw [List.getElem?_set_ne (Ne.symm h), h0, if_neg h]
      obtain ⟨es, h1, h2, h3⟩ := ih { w with es := w.es.set r e1 } (fun e0 h0 => by
          rcases List.mem_or_eq_of_mem_set h0 with h0 | rfl
          · exact hall e0 h0
          · exact ⟨hty1, fun hf' => by rw [hconv.form] at hf'; cases hf'⟩) (fun r' hr' => by
          obtain ⟨e0, h0, hd0⟩ := hl r' (by simp [hr'])
          refine ⟨_, hkeep r' e0 h0, ?_⟩
          by_cases h : r' = r
          · rw [if_pos h, hconv.kind, hd]
          · rw [if_neg h, hd0])
      refine ⟨es, ?_, h2.trans (by simp), fun r' e0 h0 => ?_⟩
      · rw [each_cons, PyM.bind_of_ok (a := ()) (w1 := { w with es := w.es.set r e1 })]
        · exact h1
        · rw [PyM.bind_of_ok hg, if_neg hf]
          show (lift e.toResidualForm >>= fun e => setE r e) w = _
          rw [PyM.bind_of_ok (a := e1) (w1 := w) (by rw [hc1]; rfl)]
          rfl
      · obtain ⟨e', h4, h5, h6⟩ := h3 r' _ (hkeep r' e0 h0)
        by_cases h : r' = r
        · subst h
          rw [he] at h0; cases h0
          rw [if_pos rfl] at h5 h6
          have heq : e' = e1 := h5 (.inr hconv.form)
          subst heq
          exact ⟨e', h4, fun h => h.elim (fun h => absurd (by simp) h) (fun h => absurd h hf), fun _ => hconv⟩
        · rw [if_neg h] at h5 h6
          exact ⟨e', h4, fun hh => h5 (hh.imp (fun h' => by simp [h] at h'; exact h') id), fun hm => h6 (by simpa [h] using hm)⟩

/-- C87: after resolving in any session of written equations, converting the differential equations of the block returns.  It changes equations only: each
differential equation of the block is afterwards in residual form, with its kind, its sides and its residual; all other equations, and those already in
residual form, are as before.  Afterwards the block collects, for the differential equations and for either side, the residuals of the statements they stand for. -/
theorem differential_residual_form (ops : List Op) (hs : Spec.Session ops) {w' : World} (h : resolve (history ops World.init) = (.ok (), w')) {b : Block}
    (hb : w'.pr.block = some b) :
    ∃ es, b.convertDifferential w' = (.ok (), { w' with es := es }) ∧ es.length = w'.es.length ∧
      (∀ (r : ERef) e, w'.es[r]? = some e → ∃ e', es[r]? = some e' ∧ ((r ∉ b.differential ∨ e.form = .residual) → e' = e) ∧
        (r ∈ b.differential → Spec.Converted e e')) ∧
      ∀ side, ∃ ss sts, Block.getEquationList es none side b.differential = .ok ss ∧
        List.Forall₂ (fun r st => ∃ e, w'.es[r]? = some e ∧ e.type = some .differential ∧ e.States st) b.differential sts ∧
        ∀ {K : Type} [Field K] [LinearOrder K] (I : Interp K) (ρ : Atom → K), ss.map (fun s => s.expr.eval I ρ) = sts.map (Spec.residual I ρ) := by
  obtain ⟨b', g, hb', _, _, _, _, _, _, hgr, _, _, _, _⟩ := resolved_block h
  rw [hb] at hb'; cases hb'
  have hw := history_resolve ops h
  have hall : ∀ e ∈ w'.es, e.Typed ∧ e.Split := fun e he =>
    ⟨session_typed hs.resolve e (by rw [← hw]; exact he), by
      rw [hw] at he
      exact split_stable.history _ hs.resolve World.init (by simp [World.init]) e he⟩
  have hst : ∀ e ∈ w'.es, ∃ st, e.States st := fun e he => by
    rw [hw] at he
    obtain ⟨st, hst⟩ := states_stable.history _ hs.resolve World.init (by simp [World.init]) e he
    exact ⟨st, hst.1⟩
  have hd : ∀ r ∈ b.differential, ∃ e, w'.es[r]? = some e ∧ e.type = some .differential := fun r hr => by
    rw [hgr] at hr
    simp only [Block.assignGroups, Block.group, List.mem_filter] at hr
    obtain ⟨_, hr⟩ := hr
    split at hr
    · next e he => exact ⟨e, he, by simpa using hr⟩
    · cases hr
  obtain ⟨es, h1, h2, h3⟩ := convert_each b.differential w' hall hd
  refine ⟨es, h1, h2, h3, fun side => ?_⟩
  have key : ∀ l : List ERef, (∀ r ∈ l, r ∈ b.differential) → ∃ ss sts, Block.getEquationList es none side l = .ok ss ∧
        List.Forall₂ (fun r st => ∃ e, w'.es[r]? = some e ∧ e.type = some .differential ∧ e.States st) l sts ∧
        ∀ {K : Type} [Field K] [LinearOrder K] (I : Interp K) (ρ : Atom → K), ss.map (fun s => s.expr.eval I ρ) = sts.map (Spec.residual I ρ) := by
    intro l hl
    induction l with
    | nil => exact ⟨[], [], rfl, .nil, by intros; rfl⟩
    | cons r t ih =>
      obtain ⟨ss, sts, h4, h5, h6⟩ := ih fun r' hr' => hl r' (by simp [hr'])
      have hr := hl r (by simp)
      obtain ⟨e, he, hty⟩ := hd r hr
      obtain ⟨st, hste⟩ := hst e (List.mem_of_getElem? he)
      obtain ⟨e', he', _, hc⟩ := h3 r e he
      obtain ⟨n, n', h7, h8, h9⟩ := (hc hr).residual
      refine ⟨n'.sym :: ss, st :: sts, ?_, .cons ⟨e, he, hty, hste⟩ h5, ?_⟩
      · simp only [Block.getEquationList, he', EqObj.symbolicObject, EqObj.getNode, Option.getD_none, (hc hr).form, h8, ok_bind, h4]
      · intro K _ _ I ρ
        obtain ⟨⟨n2, h10, h11⟩, _⟩ := hste I ρ
        rw [h7] at h10; cases h10
        rw [List.map_cons, List.map_cons, h6 I ρ, h9, h11]
  exact key _ fun _ h => h

/-- The sample with `z'(t) == x*t`: before the conversion only this equation is in elementary form. -/
example : Spec.Session Ex.dae ∧ (resolve (history Ex.dae World.init)).1.toOption = some () ∧
    ((resolve (history Ex.dae World.init)).2.pr.block.map fun b => b.differential) = some [2] ∧
    ((resolve (history Ex.dae World.init)).2.es.map fun e => e.form) = [.residual, .residual, .elementary] ∧
    ((resolve (history Ex.dae World.init)).2.pr.block.map fun b =>
        ((b.convertDifferential (resolve (history Ex.dae World.init)).2).2.es.map fun e => e.form)) = some [.residual, .residual, .residual] :=
  ⟨Ex.dae_session, by decide +kernel, by decide +kernel, by decide +kernel, by decide +kernel⟩

end Sloth
