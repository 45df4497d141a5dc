import Verif.Props.UnitOps
import Verif.Props.Values

/-!
# Streams and outlets of unit operations (C99)
-/

namespace Sloth.Lib
open Sloth PyM

/-! ## What a stream of several phases carries -/

/-- The quantities of a stream of these phases: fluxes, pressure, enthalpy, temperature, and for each phase a molar and a mass fraction. -/
def Spec.streamAttrs (phases : List String) : List String :=
  ["mdot", "ndot", "P", "H", "T"] ++ phases.flatMap fun p => ["z_" ++ p, "w_" ++ p]

section
variable {K : Type} [Field K] [LinearOrder K] {I : Interp K} {w : World} {m : MRef} {n : String} {b : Body} {S : List String} {E : List (String × AExpr)}

theorem St.fracPar (h : St I w m n b S E) {a d : String} (ha : a ∉ S) (hf : isFrac a = true) :
    ∃ w', (Lib.par a Tmpl.dimless d).run m w = (.ok (), w') ∧ St I w' m n b (S ++ [a]) E ∧ (Unset w m S → Unset w' m (S ++ [a])) := by
  obtain ⟨w', r, s, u, -⟩ := h.par (x := { name := a, units := Tmpl.dimless, description := d }) ha (by rintro rfl; simp [isFrac] at hf) rfl dimless_reach
    (by rw [frac_dim hf]; exact (by decide +kernel : Tmpl.dimless.dimVec = Spec.Dim.one))
  exact ⟨w', r, s, u⟩

theorem streamFrac_ne (p q : String) : "z_" ++ p ≠ "w_" ++ q := fun h => by
  have := congrArg (fun s => s.toList.head?) h
  simp at this

theorem streamFrac_inj {p q a : String} (h : a ∈ ["z_" ++ p, "w_" ++ p]) (h' : a ∈ ["z_" ++ q, "w_" ++ q]) : p = q := by
  have hz : ∀ c : String, c ++ p = c ++ q → p = q := fun c h => by
    have := congrArg String.toList h
    simp only [String.toList_append, List.append_cancel_left_eq] at this
    exact String.toList_inj.mp this
  simp only [List.mem_cons, List.not_mem_nil, or_false] at h h'
  rcases h with rfl | rfl <;> rcases h' with h' | h'
  · exact hz _ h'
  · exact absurd h' (streamFrac_ne _ _)
  · exact absurd h'.symm (streamFrac_ne _ _)
  · exact hz _ h'

theorem isFrac_stream {a p : String} (h : a ∈ ["z_" ++ p, "w_" ++ p]) : isFrac a = true := by
  simp only [List.mem_cons, List.not_mem_nil, or_false] at h
  rcases h with rfl | rfl <;> simp [isFrac]

theorem St.streamFracs (h : St I w m n b S E) {l : List String} (hn : l.Nodup) (hi : ∀ p ∈ l, identTail p = true)
    (hp : ∀ p ∈ l, ∀ a ∈ ["z_" ++ p, "w_" ++ p], a ∉ S) :
    ∃ w', each (l.flatMap Lib.streamFracs) (Cmd.run m) w = (.ok (), w') ∧ St I w' m n b (S ++ l.flatMap fun p => ["z_" ++ p, "w_" ++ p]) E ∧
      (Unset w m S → Unset w' m (S ++ l.flatMap fun p => ["z_" ++ p, "w_" ++ p])) := by
  induction l generalizing w S with
  | nil => exact ⟨w, rfl, by simpa using h, by simpa using id⟩
  | cons p t ih =>
    obtain ⟨w1, r1, s1, u1⟩ := h.fracPar (a := "z_" ++ p) (d := "Molar fraction for " ++ p ++ " phase") (hp p (by simp) _ (by simp)) (isFrac_stream (p := p) (by simp))
    obtain ⟨w2, r2, s2, u2⟩ := s1.fracPar (a := "w_" ++ p) (d := "Mass fraction for " ++ p ++ " phase")
      (by
        intro hc
        rcases List.mem_append.mp hc with hc | hc
        · exact hp p (by simp) _ (by simp) hc
        · exact streamFrac_ne p p (List.mem_singleton.mp hc).symm) (isFrac_stream (p := p) (by simp))
    obtain ⟨w3, r3, s3, u3⟩ := ih s2 (List.nodup_cons.mp hn).2 (fun x hx => hi x (by simp [hx])) (by
      intro x hx a ha hc
      have hc : a ∈ S ∨ a ∈ ["z_" ++ p, "w_" ++ p] := by simpa [or_assoc] using hc
      rcases hc with hc | hc
      · exact hp x (by simp [hx]) a ha hc
      · have := streamFrac_inj ha hc
        subst this
        exact (List.nodup_cons.mp hn).1 hx)
    refine ⟨w3, ?_, by simpa [List.flatMap_cons, List.append_assoc] using s3,
      fun hu => by simpa [List.flatMap_cons, List.append_assoc] using u3 (u2 (u1 hu))⟩
    rw [List.flatMap_cons, Lib.streamFracs, if_pos (hi p (by simp)), List.cons_append, List.cons_append, List.nil_append, each_cons, PyM.bind_of_ok r1,
      each_cons, PyM.bind_of_ok r2]
    exact r3

theorem streamAttrs_nodup {l : List String} (hn : l.Nodup) : (Spec.streamAttrs l).Nodup := by
  refine List.nodup_append.mpr ⟨by decide +kernel, ?_, ?_⟩
  · refine List.nodup_flatMap.mpr ⟨fun p _ => by simpa using streamFrac_ne p p, hn.imp fun {p q} hpq => ?_⟩
    intro a ha ha'
    exact hpq (streamFrac_inj ha ha')
  · rintro a ha b hb rfl
    obtain ⟨p, _, hb⟩ := List.mem_flatMap.mp hb
    have hk : ∀ k ∈ ["mdot", "ndot", "P", "H", "T"], isFrac k = false := by decide +kernel
    have := isFrac_stream hb
    rw [hk a ha] at this; cases this
end

/-- C99: creating a stream for a package whose phases have names that can stand in Python code succeeds, and the stream has all its quantities, each under its own
name, of its dimension, and without value. -/
theorem stream_quantities {w : World} (hw : Reachable w) (name description : String) (v : View) (hn : v.names.Nodup) (hi : ∀ p ∈ v.names, Spec.PhaseName p) :
    ∃ m w', newMultiStream name description (some v) w = (.ok m, w') ∧ (Spec.streamAttrs v.names).Nodup ∧
      ∀ a ∈ Spec.streamAttrs v.names, ∃ q, Holds w' m a q ∧ q.name = a ++ "_" ++ name ∧ q.units.dimVec = Spec.dimOf a ∧ q.isSpecified = false := by
  obtain ⟨wa, ra, sa, ua, -⟩ := (St.start (I := noFn) name description {} w).run (C := []) (K' := []) (l := streamPars)
    (by decide +kernel) (by simp) (by simp) (by simp)
  have ua := ua (by simp [Unset])
  obtain ⟨wb, rb, sb, ub⟩ := (show St noFn wa _ _ _ ["mdot", "ndot", "P", "H", "T"] [] from sa).streamFracs hn (phaseNames hi) (by
    intro p _ a ha hc
    have hk : ∀ k ∈ ["mdot", "ndot", "P", "H", "T"], isFrac k = false := by decide +kernel
    have := isFrac_stream ha
    rw [hk a hc] at this; cases this)
  have ub := ub ua
  refine ⟨w.ms.length, wb, ?_, streamAttrs_nodup hn, fun a ha => ?_⟩
  · show (newModel name description {} none >>= fun m => each streamPars (Cmd.run m) >>= fun _ => each (v.names.flatMap Lib.streamFracs) (Cmd.run m) >>= fun _ =>
      PyM.pure m) w = _
    rw [PyM.bind_of_ok (newModel_ok _ _ _ hw), PyM.bind_of_ok ra, PyM.bind_of_ok rb]
    rfl
  · obtain ⟨mo, h1, -, -, -, h5, -⟩ := sb.obj
    obtain ⟨r, q, g1, g2, g3, -, g5, -⟩ := h5 a ha
    exact ⟨q, ⟨mo, r, h1, g1, g2⟩, g3, g5, ub a ha q ⟨mo, r, h1, g1, g2⟩⟩

/-- A package of two phases meets the hypotheses. -/
example : (["liq", "vap"] : List String).Nodup ∧ (∀ p ∈ ["liq", "vap"], Spec.PhaseName p) ∧
    Spec.streamAttrs ["liq", "vap"] = ["mdot", "ndot", "P", "H", "T", "z_liq", "w_liq", "z_vap", "w_vap"] := by decide +kernel

/-! ## What an outlet receives -/

/-- Every model but `m` is the same, and the quantities are, up to new ones. -/
def Spec.OthersSame (m : MRef) (w w' : World) : Prop :=
  (∀ (r : Ref) (q : Quantity), w.qs[r]? = some q → w'.qs[r]? = some q) ∧ (∀ k : MRef, k ≠ m → w'.ms[k]? = w.ms[k]?) ∧
    ∀ mo, w.ms[m]? = some mo → ∃ mo', w'.ms[m]? = some mo' ∧ mo'.name = mo.name

theorem othersSame_preRel (m : MRef) : PreRel (Spec.OthersSame m) where
  refl w := ⟨fun _ _ h => h, fun _ _ => rfl, fun mo h => ⟨mo, h, rfl⟩⟩
  trans a b c h h' := ⟨fun r q g => h'.1 r q (h.1 r q g), fun k hk => (h'.2.1 k hk).trans (h.2.1 k hk), fun mo g => by
    obtain ⟨mo1, g1, n1⟩ := h.2.2 mo g
    obtain ⟨mo2, g2, n2⟩ := h'.2.2 mo1 g1
    exact ⟨mo2, g2, n2.trans n1⟩⟩

theorem othersSame_addQ_withM {w : World} {m : MRef} {mo mo' : ModelObj} (h : w.ms[m]? = some mo) (hn : mo'.name = mo.name) (q : Quantity) :
    Spec.OthersSame m w ((w.addQ q).withM m mo') := by
  refine ⟨fun r x hr => ?_, fun k hk => ?_, fun x hx => ⟨mo', withM_getM (w := w.addQ q) h _, ?_⟩⟩
  · show (w.qs ++ [q])[r]? = some x
    rw [List.getElem?_append_left (List.getElem?_eq_some_iff.mp hr).1]; exact hr
  · show (w.ms.set m mo')[k]? = _
    rw [List.getElem?_set_ne (Ne.symm hk)]
  · rw [h] at hx; cases hx; exact hn

theorem othersSame_incorporate (m s : MRef) : Pres (Spec.OthersSame m) (incorporate m s { eqns := false, rewrite := false }) := by
  have S := othersSame_preRel m
  unfold incorporate
  refine S.bind (S.getM _) fun _ => S.bind (S.when _ (S.each _ fun r => ?_)) fun _ => S.bind (S.getM _) fun _ =>
    S.bind (S.when _ (S.each _ fun r => ?_)) fun _ => S.bind (S.getM _) fun _ => S.bind (S.when _ (S.each _ fun r => ?_)) fun _ =>
    S.bind (S.getM _) fun _ => S.bind (S.getM _) fun _ => fun w => S.refl w
  · intro w
    cases h : w.ms[m]? with
    | none => unfold addVariableDirectly; rw [PyM.bind_of_error (getM_none h)]; exact S.refl w
    | some mo =>
      cases hq : w.qs[r]? with
      | none => unfold addVariableDirectly; rw [PyM.bind_of_ok (getM_of h), PyM.bind_of_error (getQ_none hq)]; exact S.refl w
      | some q =>
        rw [addVariableDirectly_run h hq]
        split
        · exact othersSame_addQ_withM h (by rfl) _
        · exact othersSame_addQ_withM h (by rfl) _
  · intro w
    cases h : w.ms[m]? with
    | none => unfold addParameterDirectly; rw [PyM.bind_of_error (getM_none h)]; exact S.refl w
    | some mo =>
      cases hq : w.qs[r]? with
      | none => unfold addParameterDirectly; rw [PyM.bind_of_ok (getM_of h), PyM.bind_of_error (getQ_none hq)]; exact S.refl w
      | some q => rw [addParameterDirectly_run h hq]; exact othersSame_addQ_withM h (by rfl) _
  · intro w
    cases h : w.ms[m]? with
    | none => unfold addConstantDirectly; rw [PyM.bind_of_error (getM_none h)]; exact S.refl w
    | some mo =>
      cases hq : w.qs[r]? with
      | none => unfold addConstantDirectly; rw [PyM.bind_of_ok (getM_of h), PyM.bind_of_error (getQ_none hq)]; exact S.refl w
      | some q => rw [addConstantDirectly_run h hq]; exact othersSame_addQ_withM h (by rfl) _

theorem Spec.OthersSame.holds {w w' : World} {m s : MRef} {a : String} {q : Quantity} (h : Spec.OthersSame m w w') (hs : s ≠ m) (hq : Holds w s a q) : Holds w' s a q := by
  obtain ⟨mo, r, h1, h2, h3⟩ := hq
  exact ⟨mo, r, (h.2.1 s hs).trans h1, h2, h.1 r q h3⟩

theorem lookup_holds {w : World} {self : MRef} {p : APath} {r : Ref} {q : Quantity} (h : w.lookup self p = .ok (r, q)) : Holds w (p.model.getD self) p.attr q := by
  unfold World.lookup at h
  split at h
  · cases h
  · rename_i mo hmo
    split at h
    · cases h
    · cases h
    · rename_i r' hr
      split at h
      · cases h
      · rename_i x hx
        cases h
        exact ⟨mo, _, hmo, hr, hx⟩

/-- The equation of model `m` under the key `k` states that `a` and `b` are equal. -/
def Spec.Equates (w : World) (m : MRef) (k : String) (a b : Quantity) : Prop :=
  ∃ mo r e n, w.ms[m]? = some mo ∧ dget mo.eqns k = some r ∧ w.es[r]? = some e ∧ e.expr = some n ∧
    ∀ {K : Type} [Field K] [LinearOrder K] (I : Interp K) (ρ : Atom → K), n.sym.expr.eval I ρ = some (Spec.qVal ρ a - Spec.qVal ρ b)

/-- C99: when the outlet of a unit operation is set up without an exception, the outlet was a stream, and the model of the operation has for each of the five
quantities of the stream an equation, of its own name, that equates the stream's quantity with the operation's inlet quantity. -/
theorem outlet_equations {w w' : World} {m s : MRef} {mo : ModelObj} (hm : w.ms[m]? = some mo) (hms : s ≠ m) (isStream : MRef → Bool)
    (h : UnitOp.totalizeOutlets m isStream [] [s] w = (.ok (), w')) :
    isStream s = true ∧ ∃ w1, incorporate m s { eqns := false, rewrite := false } w = (.ok (), w1) ∧
      ∀ a ∈ ["P", "T", "H", "ndot", "mdot"], ∃ q q', Holds w1 s a q ∧ (∀ x, Holds w s a x → x = q) ∧ Holds w1 m (a ++ "_in") q' ∧
        Spec.Equates w' m ("tot_" ++ a ++ "_out_" ++ mo.name) q q' := by
  simp only [UnitOp.totalizeOutlets] at h
  by_cases hs : isStream s = true
  case neg => rw [if_neg hs] at h; cases h
  rw [if_pos hs] at h
  refine ⟨hs, ?_⟩
  rw [PyM.bind_ok] at h
  obtain ⟨_, w1, h1, h⟩ := h
  rw [PyM.bind_ok] at h
  obtain ⟨so, w1', hso, h⟩ := h
  obtain rfl : w1 = w1' := by
    unfold getM at hso
    split at hso <;> simp_all
  rw [PyM.bind_ok] at h
  obtain ⟨_, w2, h2, h⟩ := h
  cases h
  have ho := othersSame_incorporate m s w
  rw [h1] at ho
  obtain ⟨mo1, hm1, hn1⟩ := ho.2.2 mo hm
  refine ⟨w1, h1, fun a ha => ?_⟩
  obtain ⟨d, hd⟩ : ∃ d, (a, d) ∈ outletAttrs := by
    have : ∀ a ∈ ["P", "T", "H", "ndot", "mdot"], (outletAttrs.any fun x => x.1 = a) = true := by decide +kernel
    obtain ⟨x, hx, hx'⟩ := List.any_eq_true.mp (this a ha)
    exact ⟨x.2, by rw [← of_decide_eq_true hx']; exact hx⟩
  have he : each (outletAttrs.map fun a => Cmd.eqn "" ("tot_" ++ a.1 ++ "_out") ("Tot. of " ++ a.2 ++ " for outlet stream " ++ so.name)
      (.res (.bin .sub (.q { model := some s, attr := a.1 }) (q (a.1 ++ "_in")))) true) (Cmd.run m) w1 = (.ok (), w') := h2
  obtain ⟨-, -, k⟩ := cmds_stated (by
    intro c hc
    obtain ⟨a, _, rfl⟩ := List.mem_map.mp hc
    exact ⟨_, _, _, _, _, rfl⟩) (Stated.refl w1) he
  have hne : "tot_" ++ a ++ "_out" ≠ "" := by
    have : ∀ a ∈ ["P", "T", "H", "ndot", "mdot"], "tot_" ++ a ++ "_out" ≠ "" := by decide +kernel
    exact this a ha
  obtain ⟨st, hst, hk⟩ := (k hm1 hne (show ∀ n ∈ ["tot_P_out", "tot_T_out", "tot_H_out", "tot_ndot_out", "tot_mdot_out"], n ≠ "" by decide +kernel)).2 _ _ _ _
    (List.mem_map.mpr ⟨(a, d), hd, rfl⟩) (show ["tot_P_out", "tot_T_out", "tot_H_out", "tot_ndot_out", "tot_mdot_out"].Nodup by decide +kernel)
  simp only [AStmt.toStmt, AExpr.toPy, q, bind_eq_ok] at hst
  obtain ⟨_, ⟨_, ⟨⟨r1, q1⟩, l1, x1⟩, _, ⟨⟨r2, q2⟩, l2, x2⟩, hb⟩, hst⟩ := hst
  cases x1; cases x2; cases hb; cases hst
  have H1 := lookup_holds l1
  have H2 := lookup_holds l2
  refine ⟨q1, q2, H1, fun x hx => Holds.unique (ho.holds hms hx) H1, H2, ?_⟩
  · obtain ⟨mo', r, e, g1, g2, g3, g4⟩ := hk
    obtain ⟨⟨n, g5, -⟩, -⟩ := g4 (K := Rat) noFn (fun _ => 0)
    refine ⟨mo', r, e, n, g1, by rw [← hn1]; simpa [String.append_assoc] using g2, g3, g5, fun I ρ => ?_⟩
    obtain ⟨⟨n', g6, g7⟩, -⟩ := g4 I ρ
    rw [g5] at g6; cases g6
    rw [g7]
    rfl

/-- A model with inlet quantities and a stream, as an operation and its outlet. -/
def Ex.outletHeap : World :=
  let b : Body := { pars := [par "P_in" Tmpl.Pa "", par "T_in" Tmpl.K "", par "H_in" Jmol "", par "ndot_in" mols "", par "mdot_in" kgs ""] }
  ((newModel "op" "" b none >>= fun m => each b.pars (Cmd.run m) >>= fun _ => newStream "out" "") World.init).2

/-- The hypotheses hold for it: the outlet can be set up. -/
example : Ex.outletHeap.ms[0]?.isSome = true ∧ (1 : Nat) ≠ 0 ∧ (UnitOp.totalizeOutlets 0 (fun _ => true) [] [1] Ex.outletHeap).1.toOption = some () := by
  decide +kernel

/-- C99: a single outlet that is not a `MaterialStream` is refused before anything is done, but the exception is not the `UnexpectedValueError` the code asks for: it is
given one argument too many. -/
theorem foreign_outlet_refused (m s : MRef) (isStream : MRef → Bool) (names : List String) (h : isStream s = false) (w : World) :
    UnitOp.totalizeOutlets m isStream names [s] w = (.error .typeError, w) := by
  simp only [UnitOp.totalizeOutlets, h]
  rfl

example : (fun k : MRef => k == 1) 0 = false := rfl

/-! ## What an inlet is fixed at -/

theorem fix_run {w w' : World} {m : MRef} {x : Ref × Quantity} {k : String} {mo : ModelObj} (hm : w.ms[m]? = some mo) (hk : k ≠ "")
    (h : (lift ((x.2.call x.1).sub (.num x.2.value)) >>= fun n => createEquation m k "" (some (.node n)) >>= fun _ => PyM.pure ()) w = (.ok (), w')) :
    ∃ e : EqObj, e.States (.res (.binN .sub (.q x.1 x.2) x.2.value)) ∧ w'.es = w.es ++ [e] ∧ w'.qs = w.qs ∧
      w'.ms = w.ms.set m { mo with eqns := dset mo.eqns (k ++ "_" ++ mo.name) w.es.length } := by
  rw [PyM.bind_ok] at h
  obtain ⟨n, w0, h0, h⟩ := h
  have h0' : (x.2.call x.1).sub (.num x.2.value) = .ok n ∧ w = w0 := by simpa [PyM.lift] using h0
  obtain ⟨hn, rfl⟩ := h0'
  rw [PyM.bind_ok] at h
  obtain ⟨r, w1, h1, h⟩ := h
  cases h
  obtain ⟨e, he, hs1⟩ := created_states (.res (.binN .sub (.q x.1 x.2) x.2.value)) (by
    show ((x.2.call x.1).op .sub (.num x.2.value) >>= fun n => Except.ok (ResArg.node n)) = _
    rw [show (x.2.call x.1).op .sub (.num x.2.value) = .ok n from hn]
    rfl) h1
  rcases createEquation_run hm k "" (some (.node n)) true with ⟨y, u, hc⟩ | ⟨t, t', e0, e', u, hc, hi, hs, _⟩ <;> rw [hc] at h1
  · simp at h1
  · simp only [Prod.mk.injEq, Except.ok.injEq] at h1
    obtain ⟨rfl, rfl⟩ := h1
    have hee : e = e' := by
      simp [World.withM, World.addE, World.withUid] at he
      exact he.symm
    subst hee
    refine ⟨e, hs1.1, rfl, rfl, ?_⟩
    have : e.name = k ++ "_" ++ mo.name := by
      obtain ⟨k', _, rfl⟩ := EqObj.sweep_ok hs
      simp only [(EqObj.init_fields hi).1]
      rw [if_neg hk]
    rw [← this]
    rfl

/-- The equation of model `m` under the key `k` states that `a` has the value that it has now. -/
def Spec.FixedNow (w : World) (m : MRef) (k : String) (a : Quantity) : Prop :=
  ∃ mo r e n, w.ms[m]? = some mo ∧ dget mo.eqns k = some r ∧ w.es[r]? = some e ∧ e.expr = some n ∧
    ∀ {K : Type} [Field K] [LinearOrder K] (I : Interp K) (ρ : Atom → K), n.sym.expr.eval I ρ = some (Spec.qVal ρ a - (a.value : K))

theorem fix_stated {w w' : World} {m : MRef} {mo : ModelObj} {d : Dict String ERef} (hm : w.ms[m]? = some mo) (hq : w'.qs = w.qs)
    (h : w'.ms = w.ms.set m { mo with eqns := d }) (s : MRef) (a : String) (q : Quantity) : Holds w' s a q ↔ Holds w s a q := by
  have hlt := (List.getElem?_eq_some_iff.mp hm).1
  constructor
  · rintro ⟨x, r, h1, h2, h3⟩
    rw [h] at h1
    rw [hq] at h3
    by_cases hs : s = m
    · subst hs
      rw [List.getElem?_set_self hlt] at h1; cases h1
      exact ⟨mo, r, hm, h2, h3⟩
    · rw [List.getElem?_set_ne (Ne.symm hs)] at h1
      exact ⟨x, r, h1, h2, h3⟩
  · rintro ⟨x, r, h1, h2, h3⟩
    by_cases hs : s = m
    · subst hs
      rw [hm] at h1; cases h1
      exact ⟨{ mo with eqns := d }, r, by rw [h, List.getElem?_set_self hlt], h2, hq ▸ h3⟩
    · exact ⟨x, r, by rw [h, List.getElem?_set_ne (Ne.symm hs)]; exact h1, h2, hq ▸ h3⟩

/-- Streams fixed one after the other; the equation about `a` is named after `b`. -/
theorem each_fixed {f : MRef → PyM Unit} {m : MRef} {a b c : String} (hc : ∀ n : String, c ++ n ≠ "")
    (hf : ∀ s w w', f s w = (.ok (), w') → ∃ x y : Ref × Quantity, w.lookup s { attr := a } = .ok x ∧ w.lookup s { attr := b } = .ok y ∧
      (lift ((x.2.call x.1).sub (.num x.2.value)) >>= fun n => createEquation m (c ++ y.2.name) "" (some (.node n)) >>= fun _ => PyM.pure ()) w = (.ok (), w'))
    {l : List MRef} {w w' : World} {mo : ModelObj} (hm : w.ms[m]? = some mo) (h : each l f w = (.ok (), w')) :
    (∀ s x q, Holds w' s x q ↔ Holds w s x q) ∧
    (∀ s ∈ l, ∃ q q', Holds w s a q ∧ Holds w s b q') ∧
    ∀ (k : String) (q : Quantity), (∀ s ∈ l, ∀ x y, Holds w s a x → Holds w s b y → c ++ y.name ++ "_" ++ mo.name = k → x = q) →
      (Spec.FixedNow w m k q ∨ ∃ s ∈ l, ∃ y, Holds w s b y ∧ c ++ y.name ++ "_" ++ mo.name = k) → Spec.FixedNow w' m k q := by
  induction l generalizing w mo with
  | nil => cases h; exact ⟨fun _ _ _ => Iff.rfl, by simp, fun k q _ hh => hh.resolve_right (by simp)⟩
  | cons s t ih =>
    rw [PyM.each_cons, PyM.bind_ok] at h
    obtain ⟨_, w1, h1, h⟩ := h
    obtain ⟨⟨r1, x⟩, ⟨r2, y⟩, l1, l2, h1⟩ := hf s w w1 h1
    obtain ⟨e, he, e1, e2, e3⟩ := fix_run hm (hc y.name) h1
    have hlt := (List.getElem?_eq_some_iff.mp hm).1
    have hiff := fix_stated hm e2 e3
    have hm1 : w1.ms[m]? = some { mo with eqns := dset mo.eqns (c ++ y.name ++ "_" ++ mo.name) w.es.length } := by
      rw [e3, List.getElem?_set_self hlt]
    obtain ⟨i1, i2, i3⟩ := ih hm1 h
    have Hx := lookup_holds l1
    have Hy := lookup_holds l2
    refine ⟨fun k z q => (i1 k z q).trans (hiff k z q), ?_, fun k q hu hh => ?_⟩
    · intro k hk
      rcases List.mem_cons.mp hk with rfl | hk
      · exact ⟨x, y, Hx, Hy⟩
      · obtain ⟨q, q', g1, g2⟩ := i2 k hk
        exact ⟨q, q', (hiff _ _ _).mp g1, (hiff _ _ _).mp g2⟩
    · refine i3 k q (fun z hz x' y' gx gy => hu z (by simp [hz]) x' y' ((hiff _ _ _).mp gx) ((hiff _ _ _).mp gy)) ?_
      by_cases hk : c ++ y.name ++ "_" ++ mo.name = k
      · left
        have := hu s (by simp) x y Hx Hy hk
        subst this
        obtain ⟨⟨n, g5, -⟩, -⟩ := he (K := Rat) noFn (fun _ => 0)
        refine ⟨_, w.es.length, e, n, hm1, by rw [← hk]; exact dget_dset_self _ _ _, by rw [e1]; simp, g5, fun I ρ => ?_⟩
        obtain ⟨⟨n', g6, g7⟩, -⟩ := he I ρ
        rw [g5] at g6; cases g6
        rw [g7]
        rfl
      · rcases hh with hh | ⟨z, hz, y', gy, hy'⟩
        · left
          obtain ⟨mo', r, e', n, f1, f2, f3, f4, f5⟩ := hh
          rw [hm] at f1; cases f1
          refine ⟨_, r, e', n, hm1, ?_, ?_, f4, f5⟩
          · show dget (dset _ _ _) k = _
            rw [dget_dset_ne _ _ hk]; exact f2
          · rw [e1, List.getElem?_append_left (List.getElem?_eq_some_iff.mp f3).1]; exact f3
        · rcases List.mem_cons.mp hz with rfl | hz
          · have := Holds.unique gy Hy
            subst this
            exact absurd hy' hk
          · exact Or.inr ⟨z, hz, y', (hiff _ _ _).mpr gy, hy'⟩

/-- C99: fixing the inlets of a model for a quantity, when it returns, has stated for each inlet stream the equation that its quantity has the value that it has
now, under a name made from the quantity's name; streams with different names do not disturb each other. -/
theorem inlets_fixed {w w' : World} {m : MRef} {mo : ModelObj} (hm : w.ms[m]? = some mo) {a : String} {l : List MRef}
    (h : fixInlets m a l w = (.ok (), w'))
    (hn : ∀ s ∈ l, ∀ s' ∈ l, ∀ x x', Holds w s a x → Holds w s' a x' → x.name = x'.name → x = x') :
    ∀ s ∈ l, ∃ q, Holds w s a q ∧ Holds w' s a q ∧ Spec.FixedNow w' m ("eq_" ++ a ++ "_" ++ q.name ++ "_" ++ mo.name) q := by
  have hne : ∀ n : String, ("eq_" ++ a ++ "_") ++ n ≠ "" := fun n hh => by simpa using congrArg String.toList hh
  obtain ⟨i1, i2, i3⟩ := each_fixed (f := fun s => do
      let x ← lookupM s { attr := a }
      let n ← lift ((x.2.call x.1).sub (.num x.2.value))
      let _ ← createEquation m ("eq_" ++ a ++ "_" ++ x.2.name) "" (some (.node n))
      PyM.pure ()) (m := m) (a := a) (b := a) (c := "eq_" ++ a ++ "_") hne (by
    intro s w w' h
    rw [PyM.bind_ok] at h
    obtain ⟨x, w0, h0, h⟩ := h
    have h0' : w.lookup s { attr := a } = .ok x ∧ w = w0 := by simpa [lookupM] using h0
    obtain ⟨g, rfl⟩ := h0'
    exact ⟨x, x, g, g, h⟩) hm h
  intro s hs
  obtain ⟨q, -, g, -⟩ := i2 s hs
  refine ⟨q, g, (i1 _ _ _).mpr g, i3 _ q (fun s' hs' x y gx gy hk => ?_) (Or.inr ⟨s, hs, q, g, rfl⟩)⟩
  have := Holds.unique gx gy
  subst this
  refine hn s' hs' s hs x q gx g ?_
  simpa [String.ext_iff] using hk

/-- C99: the molar fluxes, which `UnitOp` fixes under names made from the mass fluxes' names. -/
theorem fluxes_fixed {w w' : World} {m : MRef} {mo : ModelObj} (hm : w.ms[m]? = some mo) {l : List MRef}
    (h : fixNdot m l w = (.ok (), w'))
    (hn : ∀ s ∈ l, ∀ s' ∈ l, ∀ x x' y y', Holds w s "ndot" x → Holds w s' "ndot" x' → Holds w s "mdot" y → Holds w s' "mdot" y' → y.name = y'.name → x = x') :
    ∀ s ∈ l, ∃ q q', Holds w s "ndot" q ∧ Holds w s "mdot" q' ∧ Spec.FixedNow w' m ("eq_ndot_" ++ q'.name ++ "_" ++ mo.name) q := by
  have hne : ∀ n : String, "eq_ndot_" ++ n ≠ "" := fun n hh => by simpa using congrArg String.toList hh
  obtain ⟨i1, i2, i3⟩ := each_fixed (m := m) (a := "ndot") (b := "mdot") (c := "eq_ndot_") hne (by
    intro s w w' h
    rw [PyM.bind_ok] at h
    obtain ⟨x, w0, h0, h⟩ := h
    have h0' : w.lookup s { attr := "ndot" } = .ok x ∧ w = w0 := by simpa [lookupM] using h0
    obtain ⟨g, rfl⟩ := h0'
    rw [PyM.bind_ok] at h
    obtain ⟨y, w0, h0, h⟩ := h
    have h0' : w.lookup s { attr := "mdot" } = .ok y ∧ w = w0 := by simpa [lookupM] using h0
    obtain ⟨g', rfl⟩ := h0'
    exact ⟨x, y, g, g', h⟩) hm h
  intro s hs
  obtain ⟨q, q', g, g'⟩ := i2 s hs
  refine ⟨q, q', g, g', i3 _ q (fun s' hs' x y gx gy hk => ?_) (Or.inr ⟨s, hs, q', g', rfl⟩)⟩
  refine hn s' hs' s hs x q y q' gx g gy g' ?_
  simpa [String.ext_iff] using hk

/-- Two streams, incorporated into the model as the first step of the summation does. -/
def Ex.streamHeap : World :=
  ((newModel "op" "" {} none >>= fun _ => newStream "s1" "" >>= fun _ => newStream "s2" "" >>= fun _ =>
    each [1, 2] fun s => incorporate 0 s { eqns := false, rewrite := false }) World.init).2

/-- The calls return for the two streams, whose quantities have different names. -/
example : Ex.streamHeap.ms[0]?.isSome = true ∧ (fixInlets 0 "P" [1, 2] Ex.streamHeap).1.toOption = some () ∧
    (fixNdot 0 [1, 2] Ex.streamHeap).1.toOption = some () ∧
    (Ex.streamHeap.lookup 1 { attr := "mdot" }).toOption.map (fun x => x.2.name) = some "mdot_s1" ∧
    (Ex.streamHeap.lookup 2 { attr := "mdot" }).toOption.map (fun x => x.2.name) = some "mdot_s2" := by
  decide +kernel

end Sloth.Lib
