import Verif.Lemmas.Invariant
import Verif.Props.Equations

/-! Helper lemmas on the incorporation of a model. -/

namespace Sloth
open PyM

/-- Only model `m` changes; quantities and equations are only added. -/
structure Grown (m : MRef) (w w' : World) : Prop where
  qs : w.qs <+: w'.qs
  es : w.es <+: w'.es
  ms : ∀ k, k ≠ m → w'.ms[k]? = w.ms[k]?
  ps : w'.ps = w.ps
  pr : w'.pr = w.pr
  uid : w'.uid = w.uid

theorem grown_preRel (m : MRef) : PreRel (Grown m) where
  refl := fun _ => ⟨List.prefix_refl _, List.prefix_refl _, fun _ _ => rfl, rfl, rfl, rfl⟩
  trans := fun _ _ _ h h' => ⟨h.qs.trans h'.qs, h.es.trans h'.es, fun k hk => (h'.ms k hk).trans (h.ms k hk), h'.ps.trans h.ps,
    h'.pr.trans h.pr, h'.uid.trans h.uid⟩

theorem Grown.addQ_withM (w : World) (q : Quantity) (m : MRef) (mo : ModelObj) : Grown m w ((w.addQ q).withM m mo) where
  qs := List.prefix_append _ _
  es := List.prefix_refl _
  ms := fun k hk => by simp [World.withM, World.addQ, List.getElem?_set_ne (Ne.symm hk)]
  ps := rfl
  pr := rfl
  uid := rfl

theorem Grown.addE_withM (w : World) (e : EqObj) (m : MRef) (mo : ModelObj) : Grown m w ((w.addE e).withM m mo) where
  qs := List.prefix_refl _
  es := List.prefix_append _ _
  ms := fun k hk => by simp [World.withM, World.addE, List.getElem?_set_ne (Ne.symm hk)]
  ps := rfl
  pr := rfl
  uid := rfl

theorem Grown.getQ {m : MRef} {w w' : World} (h : Grown m w w') {r : Ref} {q : Quantity} (hq : w.qs[r]? = some q) : w'.qs[r]? = some q := by
  obtain ⟨t, ht⟩ := h.qs
  rw [← ht, List.getElem?_append_left (List.getElem?_eq_some_iff.mp hq).1, hq]

theorem Grown.getE {m : MRef} {w w' : World} (h : Grown m w w') {r : ERef} {q : EqObj} (hq : w.es[r]? = some q) : w'.es[r]? = some q := by
  obtain ⟨t, ht⟩ := h.es
  rw [← ht, List.getElem?_append_left (List.getElem?_eq_some_iff.mp hq).1, hq]

/-! ## Copying quantities -/

/-- What one of the three functions copying a quantity does when it returns. -/
structure CopyStep (m : MRef) (get : ModelObj → Dict String Ref) (Same : ModelObj → ModelObj → Prop) (P : Quantity → Prop) (f : Ref → PyM Unit) : Prop where
  refl : ∀ a, Same a a
  trans : ∀ a b c, Same a b → Same b c → Same a c
  name : ∀ a b, Same a b → b.name = a.name
  step : ∀ w mo r q w', w.ms[m]? = some mo → w.qs[r]? = some q → f r w = (.ok (), w') →
    P q ∧ ∃ mo', w' = (w.addQ (q.copyTo true mo.name)).withM m mo' ∧
      get mo' = dset (get mo) (q.copyTo true mo.name).name w.qs.length ∧ Same mo mo'

/-- The loop over the quantities of one class. -/
theorem copyLoop {m : MRef} {get : ModelObj → Dict String Ref} {Same : ModelObj → ModelObj → Prop} {P : Quantity → Prop} {f : Ref → PyM Unit}
    (S : CopyStep m get Same P f) (l : List Ref) : ∀ (w w' : World) (mo : ModelObj), w.ms[m]? = some mo →
    (∀ r ∈ l, ∃ q, w.qs[r]? = some q) → each l f w = (.ok (), w') →
    Grown m w w' ∧ w'.es = w.es ∧ ∃ mo', w'.ms[m]? = some mo' ∧ Same mo mo' ∧
      (∀ k, (∀ r ∈ l, ∀ q, w.qs[r]? = some q → (q.copyTo true mo.name).name ≠ k) → dget (get mo') k = dget (get mo) k) ∧
      (∀ k, k ∈ dkeys (get mo) → k ∈ dkeys (get mo')) ∧
      (∀ r ∈ l, ∀ q, w.qs[r]? = some q → P q ∧
        ((∀ r' ∈ l, ∀ q', w.qs[r']? = some q' → (q'.copyTo true mo.name).name = (q.copyTo true mo.name).name → q' = q) →
          ∃ r', dget (get mo') (q.copyTo true mo.name).name = some r' ∧ w'.qs[r']? = some (q.copyTo true mo.name))) := by
  induction l with
  | nil =>
    intro w w' mo hm _ h
    simp only [each_nil, PyM.pure_run, Prod.mk.injEq, true_and] at h
    subst h
    exact ⟨(grown_preRel m).refl _, rfl, mo, hm, S.refl mo, fun _ _ => rfl, fun _ => id, by simp⟩
  | cons r t ih =>
    intro w w' mo hm hl h
    rw [each_cons, PyM.bind_ok] at h
    obtain ⟨_, w1, h1, h2⟩ := h
    obtain ⟨q, hq⟩ := hl r (by simp)
    obtain ⟨hP, mo1, rfl, hg, hs⟩ := S.step w mo r q w1 hm hq h1
    have hG := Grown.addQ_withM w (q.copyTo true mo.name) m mo1
    have hm1 : ((w.addQ (q.copyTo true mo.name)).withM m mo1).ms[m]? = some mo1 := withM_getM (w := w.addQ _) hm mo1
    obtain ⟨g1, g0, mo', g2, g3, g4, g5, g6⟩ := ih _ w' mo1 hm1 (fun r' hr' => (hl r' (by simp [hr'])).imp fun _ hx => hG.getQ hx) h2
    have hn : mo1.name = mo.name := S.name _ _ hs
    refine ⟨(grown_preRel m).trans _ _ _ hG g1, g0, mo', g2, S.trans _ _ _ hs g3, ?_, ?_, ?_⟩
    · intro k hk
      rw [g4 k, hg, dget_dset_ne]
      · exact hk r (by simp) q hq
      · intro r' hr' q' hq'
        obtain ⟨q0, hq0⟩ := hl r' (by simp [hr'])
        rw [hG.getQ hq0] at hq'; cases hq'
        rw [hn]; exact hk r' (by simp [hr']) _ hq0
    · intro k hk
      exact g5 k (by rw [hg, mem_dkeys_dset]; exact Or.inr hk)
    · intro r' hr' q' hq'
      have htail : r' ∈ t → P q' ∧ ((∀ r'' ∈ r :: t, ∀ q'', w.qs[r'']? = some q'' → (q''.copyTo true mo.name).name = (q'.copyTo true mo.name).name → q'' = q') →
          ∃ r'', dget (get mo') (q'.copyTo true mo.name).name = some r'' ∧ w'.qs[r'']? = some (q'.copyTo true mo.name)) := by
        intro ht
        obtain ⟨p1, p2⟩ := g6 r' ht q' (hG.getQ hq')
        refine ⟨p1, fun hinj => ?_⟩
        rw [hn] at p2
        apply p2
        intro r2 hr2 q2 hq2 he
        obtain ⟨q0, hq0⟩ := hl r2 (by simp [hr2])
        rw [hG.getQ hq0] at hq2; cases hq2
        exact hinj r2 (by simp [hr2]) _ hq0 he
      by_cases ht : r' ∈ t
      · exact htail ht
      · have : r' = r := by simpa [ht] using hr'
        subst this
        rw [hq] at hq'; cases hq'
        refine ⟨hP, fun hinj => ?_⟩
        by_cases hex : ∃ r2 ∈ t, ∃ q2, w.qs[r2]? = some q2 ∧ (q2.copyTo true mo.name).name = (q.copyTo true mo.name).name
        · obtain ⟨r2, hr2, q2, hq2, he⟩ := hex
          have := hinj r2 (by simp [hr2]) q2 hq2 he
          subst this
          have := (g6 r2 hr2 q2 (hG.getQ hq2)).2
          rw [hn] at this
          apply this
          intro r3 hr3 q3 hq3 he3
          obtain ⟨q0, hq0⟩ := hl r3 (by simp [hr3])
          rw [hG.getQ hq0] at hq3; cases hq3
          exact hinj r3 (by simp [hr3]) _ hq0 he3
        · refine ⟨w.qs.length, ?_, ?_⟩
          · rw [g4, hg, dget_dset_self]
            intro r2 hr2 q2 hq2 he
            obtain ⟨q0, hq0⟩ := hl r2 (by simp [hr2])
            rw [hG.getQ hq0] at hq2; cases hq2
            rw [hn] at he
            exact hex ⟨r2, hr2, _, hq0, he⟩
          · apply g1.getQ
            simp [World.withM, World.addQ]

/-- The models agree up to their variables and attributes. -/
def ModelObj.SameButVars (a b : ModelObj) : Prop := b = { a with vars := b.vars, attrs := b.attrs }
def ModelObj.SameButPars (a b : ModelObj) : Prop := b = { a with pars := b.pars, attrs := b.attrs }
def ModelObj.SameButCons (a b : ModelObj) : Prop := b = { a with cons := b.cons, attrs := b.attrs }
def ModelObj.SameButEqns (a b : ModelObj) : Prop := b = { a with eqns := b.eqns, attrs := b.attrs }

theorem copyVars (m : MRef) : CopyStep m ModelObj.vars ModelObj.SameButVars (fun q => q.isExposed = false) (addVariableDirectly m true) where
  refl := fun _ => rfl
  trans := fun a b c h h' => by unfold ModelObj.SameButVars at *; rw [h', h]
  name := fun a b h => by rw [h]
  step := fun w mo r q w' hm hq h => by
    rw [addVariableDirectly_run hm hq] at h
    split at h
    · simp at h
    · rename_i he
      simp only [Prod.mk.injEq, true_and] at h
      exact ⟨by simpa using he, _, h.symm, rfl, rfl⟩

theorem copyPars (m : MRef) : CopyStep m ModelObj.pars ModelObj.SameButPars (fun _ => True) (addParameterDirectly m true) where
  refl := fun _ => rfl
  trans := fun a b c h h' => by unfold ModelObj.SameButPars at *; rw [h', h]
  name := fun a b h => by rw [h]
  step := fun w mo r q w' hm hq h => by
    rw [addParameterDirectly_run hm hq] at h
    simp only [Prod.mk.injEq, true_and] at h
    exact ⟨trivial, _, h.symm, rfl, rfl⟩

theorem copyCons (m : MRef) : CopyStep m ModelObj.cons ModelObj.SameButCons (fun _ => True) (addConstantDirectly m true) where
  refl := fun _ => rfl
  trans := fun a b c h h' => by unfold ModelObj.SameButCons at *; rw [h', h]
  name := fun a b h => by rw [h]
  step := fun w mo r q w' hm hq h => by
    rw [addConstantDirectly_run hm hq] at h
    simp only [Prod.mk.injEq, true_and] at h
    exact ⟨trivial, _, h.symm, rfl, rfl⟩

/-- The copy of an equation before its names are rewritten. -/
def EqObj.copyTo (e : EqObj) (owner : String) : EqObj := { e with name := newName true e.name e.owner owner, owner := owner }

/-- The loop over the equations. -/
theorem copyEqns {m : MRef} {names : Dict String String} {whole : Dict String Ref} (l : List ERef) :
    ∀ (w w' : World) (mo : ModelObj), w.ms[m]? = some mo →
    (∀ r ∈ l, ∃ e, w.es[r]? = some e) → each l (addEquationDirectly m names whole true) w = (.ok (), w') →
    Grown m w w' ∧ w'.qs = w.qs ∧ ∃ mo', w'.ms[m]? = some mo' ∧ mo.SameButEqns mo' ∧
      (∀ k, (∀ r ∈ l, ∀ e, w.es[r]? = some e → (e.copyTo mo.name).name ≠ k) → dget mo'.eqns k = dget mo.eqns k) ∧
      (∀ r ∈ l, ∀ e, w.es[r]? = some e → ∃ e', (e.copyTo mo.name).convert names whole = .ok e' ∧
        ((∀ r' ∈ l, ∀ e'', w.es[r']? = some e'' → (e''.copyTo mo.name).name = (e.copyTo mo.name).name → e'' = e) →
          ∃ r', dget mo'.eqns (e.copyTo mo.name).name = some r' ∧ w'.es[r']? = some e')) := by
  induction l with
  | nil =>
    intro w w' mo hm _ h
    simp only [each_nil, PyM.pure_run, Prod.mk.injEq, true_and] at h
    subst h
    exact ⟨(grown_preRel m).refl _, rfl, mo, hm, rfl, fun _ _ => rfl, by simp⟩
  | cons r t ih =>
    intro w w' mo hm hl h
    rw [each_cons, PyM.bind_ok] at h
    obtain ⟨_, w1, h1, h2⟩ := h
    obtain ⟨e, he⟩ := hl r (by simp)
    rw [addEquationDirectly_run hm he] at h1
    split at h1
    · simp at h1
    · rename_i e1 hc
      have hc' : (e.copyTo mo.name).convert names whole = .ok e1 := hc
      have hnm : e1.name = (e.copyTo mo.name).name := (EqObj.convert_fields hc').1
      simp only [Prod.mk.injEq, true_and] at h1
      subst h1
      have hG := Grown.addE_withM w e1 m
        { mo.storeEqn e1.name w.es.length with attrs := dset mo.attrs (objectName e.name e.owner) (.eqn w.es.length) }
      have hm1 := withM_getM (w := w.addE e1) hm
        { mo.storeEqn e1.name w.es.length with attrs := dset mo.attrs (objectName e.name e.owner) (.eqn w.es.length) }
      obtain ⟨g1, g0, mo', g2, g3, g4, g6⟩ := ih _ w' _ hm1 (fun r' hr' => (hl r' (by simp [hr'])).imp fun _ hx => hG.getE hx) h2
      refine ⟨(grown_preRel m).trans _ _ _ hG g1, g0, mo', g2, ?_, ?_, ?_⟩
      · unfold ModelObj.SameButEqns at *; rw [g3]; rfl
      · intro k hk
        rw [g4 k]
        · show dget (dset mo.eqns e1.name _) k = _
          rw [dget_dset_ne]
          rw [hnm]; exact hk r (by simp) e he
        · intro r' hr' q' hq'
          obtain ⟨q0, hq0⟩ := hl r' (by simp [hr'])
          rw [hG.getE hq0] at hq'; cases hq'
          exact hk r' (by simp [hr']) _ hq0
      · intro r' hr' q' hq'
        by_cases ht : ∃ r2 ∈ t, w.es[r2]? = some q'
        · obtain ⟨r2, hr2, hq2⟩ := ht
          obtain ⟨e', p1, p2⟩ := g6 r2 hr2 q' (hG.getE hq2)
          refine ⟨e', p1, fun hinj => p2 ?_⟩
          intro r3 hr3 q3 hq3 he3
          obtain ⟨q0, hq0⟩ := hl r3 (by simp [hr3])
          rw [hG.getE hq0] at hq3; cases hq3
          exact hinj r3 (by simp [hr3]) _ hq0 he3
        · have : r' = r := by
            rcases List.mem_cons.mp hr' with h | h
            · exact h
            · exact absurd ⟨r', h, hq'⟩ ht
          subst this
          rw [he] at hq'; cases hq'
          refine ⟨e1, hc', fun hinj => ⟨w.es.length, ?_, ?_⟩⟩
          · rw [g4]
            · show dget (dset mo.eqns e1.name _) _ = _
              rw [hnm, dget_dset_self]
            · intro r2 hr2 q2 hq2 he2
              obtain ⟨q0, hq0⟩ := hl r2 (by simp [hr2])
              rw [hG.getE hq0] at hq2; cases hq2
              have := hinj r2 (by simp [hr2]) _ hq0 he2
              exact ht ⟨r2, hr2, this ▸ hq0⟩
          · apply g1.getE
            simp [World.withM, World.addE]

end Sloth
