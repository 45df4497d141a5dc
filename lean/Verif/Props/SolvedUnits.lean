import Verif.Props.Usage
import Verif.Props.UnitFindings
import Mathlib.Tactic.LinearCombination

/-!
# Solved unit operations obey their balances (C115)
-/

namespace Sloth

section
variable {K : Type} [Field K] [LinearOrder K]

/-- A run of a resolved algebraic problem with sound libraries: the reported values solve what the models state. -/
theorem run_solves {ext : Ext K} {I : Interp K} {P : K → Prop} (hsound : Spec.Sound ext I P) {w : World} (hr : Reachable w)
    {s s' : SimWorld K} (hres : resolve w = (.ok (), s.w)) (hp : Spec.Stating w) {b : Block} (hb : s.w.pr.block = some b)
    (hk : b.problemType = some .linear ∨ b.problemType = some .nonlinear) {i : SRef} {a : RunArgs} (h : runSimulation ext I i a s = (.ok (), s')) :
    ∃ o d, s'.sims[i]? = some o ∧ o.output = some (.dict d) ∧ Spec.SolvesAt I P w d := by
  obtain ⟨o, sv, out, ho, hout, hsol, hcl⟩ := run_reports hr hres hb hk h
  obtain ⟨k, hk', hkk⟩ : ∃ k, b.problemType = some k ∧ (k = .linear ∨ k = .nonlinear) := by
    rcases hk with hk | hk
    · exact ⟨_, hk, .inl rfl⟩
    · exact ⟨_, hk, .inr rfl⟩
  obtain ⟨d, rfl, hsmall⟩ := solved_small hsound hsol (hcl k hk') hkk
  refine ⟨o, d, ho, hout, ?_⟩
  intro m hm mo hmo attr n descr st ck hc ρ hρ
  obtain ⟨hnd1, hns1⟩ := (hp m hm).2 mo hmo
  obtain ⟨b', _, _, _, e, hb', _, _, _, he', _, _, hval⟩ := values_core hres (fun m hm => (hp m hm).1) hm hmo hnd1 hns1 hc
  rw [hb] at hb'; cases hb'
  obtain ⟨z, h1, h2⟩ := hsmall ρ hρ e (List.mem_of_getElem? he')
  exact ⟨z, (hval I ρ).symm.trans h1, h2⟩
end

namespace Lib
open Sloth PyM

section
variable {K : Type} [Field K] [LinearOrder K]

/-- A unit operation is made by operations of a session. -/
theorem unit_reachable {k : Kind} {w w1 : World} (hw : Reachable w) {name description : String} {v : View} {m : MRef}
    (h : newUnit k name description (some v) w = (.ok m, w1)) (ops : List Op) : Reachable (history ops w1) := by
  obtain ⟨ops0, rfl⟩ := hw
  have hcmds : ∀ (m : MRef) (l : List Cmd) (w w' : World), each l (Cmd.run m) w = (.ok (), w') → w' = history (l.map (Op.cmd m)) w := by
    intro m l
    induction l with
    | nil => intro w w' h; simp only [each_nil, PyM.pure, Prod.mk.injEq] at h; exact h.2.symm
    | cons c t ih =>
      intro w w' h
      rw [PyM.each_cons, PyM.bind_ok] at h
      obtain ⟨_, w1, h1, h2⟩ := h
      rw [ih w1 w' h2, List.map_cons]
      show _ = history (t.map (Op.cmd m)) ((Op.cmd m c).run w).2
      simp only [Op.run, h1]
  simp only [newUnit] at h
  rw [PyM.bind_ok] at h
  obtain ⟨m', w2, h1, h2⟩ := h
  rw [PyM.bind_ok] at h2
  obtain ⟨_, w3, h3, h4⟩ := h2
  simp only [PyM.pure, Prod.mk.injEq] at h4
  obtain ⟨_, rfl⟩ := h4
  refine ⟨ops0 ++ (.newModel name description { eqns := k.eqs v } none :: ((k.init v).map (Op.cmd m') ++ ops)), ?_⟩
  have e1 : ((Op.newModel name description { eqns := k.eqs v } none).run (history ops0 World.init)).2 = w2 := by
    simp only [Op.run, PyM.void]
    rw [PyM.bind_of_ok h1]; rfl
  rw [hcmds _ _ _ _ h3, ← e1]
  simp only [history, List.foldl_append, List.foldl_cons]

/-- The value `x` that an attribute of a unit operation stands for after a run: the one given to it, or the one reported for it. -/
def Spec.Stands (w : World) (m : MRef) (ρ : Atom → K) (a : String) (x : K) : Prop :=
  ∃ q, Sloth.Spec.named w m { attr := a } = some q ∧ x = if q.isSpecified then (q.value : K) else ρ (.v q.name)

/-- `ρ` has the reported values. -/
def Spec.Reported (d : Dict String K) (ρ : Atom → K) : Prop := ∀ n v, dget d n = some v → ρ (.v n) = v

theorem stands_of_now {I : Interp K} {w : World} {m : MRef} {ρ : Atom → K} {a : String} {x : K} (h : Sloth.Spec.now I w m ρ (q a) = some x) :
    Spec.Stands w m ρ a x := by
  simp only [q, Sloth.Spec.now, Option.map_eq_some_iff] at h
  obtain ⟨y, h1, rfl⟩ := h
  exact ⟨y, h1, rfl⟩

/-- What a statement with the value zero says. -/
theorem solved_zero {I : Interp K} {w : World} {d : Dict String K} (h : Sloth.Spec.SolvesAt I (· = 0) w d) {m : MRef} (hm : m ∈ dvalues w.pr.models)
    {mo : ModelObj} (hmo : w.ms[m]? = some mo) {ρ : Atom → K} (hρ : Spec.Reported d ρ) {n descr : String} {e : AExpr} (he : eq n descr e ∈ mo.body.eqns) :
    Sloth.Spec.now I w m ρ e = some 0 := by
  obtain ⟨z, h1, rfl⟩ := h m hm mo hmo _ _ _ _ _ he ρ hρ
  exact h1

theorem now_bin {I : Interp K} {w : World} {m : MRef} {ρ : Atom → K} {op : BOp} {a b : AExpr} {z : K} (h : Sloth.Spec.now I w m ρ (.bin op a b) = some z) :
    ∃ x y, Sloth.Spec.now I w m ρ a = some x ∧ Sloth.Spec.now I w m ρ b = some y ∧ Sloth.Spec.opVal I op x y = some z := by
  simp only [Sloth.Spec.now, Option.bind_eq_bind, Option.bind_eq_some_iff] at h
  obtain ⟨x, h1, y, h2, h3⟩ := h
  exact ⟨x, y, h1, h2, h3⟩

theorem now_sub {I : Interp K} {w : World} {m : MRef} {ρ : Atom → K} {a b : AExpr} (h : Sloth.Spec.now I w m ρ (.bin .sub a b) = some 0) :
    ∃ x, Sloth.Spec.now I w m ρ a = some x ∧ Sloth.Spec.now I w m ρ b = some x := by
  obtain ⟨x, y, h1, h2, h3⟩ := now_bin h
  simp only [Sloth.Spec.opVal, Option.some.injEq, sub_eq_zero] at h3
  exact ⟨x, h1, h3 ▸ h2⟩

theorem phases_kept {I : Interp K} {w : World} {m : MRef} {ρ : Atom → K} {l : List String} {cs : List Cmd} (hc : ∀ p ∈ l, ∀ c ∈ phaseEqs p, c ∈ cs)
    (h : ∀ n descr e, eq n descr e ∈ cs → Sloth.Spec.now I w m ρ e = some 0) :
    (∀ p ∈ l, ∀ a ∈ ["z_" ++ p ++ "_in", "w_" ++ p ++ "_in", "z_" ++ p ++ "_out", "w_" ++ p ++ "_out"], ∃ x, Sloth.Spec.now I w m ρ (q a) = some x) ∧
    Spec.PhasesKept (fun a => (Sloth.Spec.now I w m ρ (q a)).getD 0) l := by
  have key : ∀ p ∈ l, (∃ x, Sloth.Spec.now I w m ρ (q (zOut p)) = some x ∧ Sloth.Spec.now I w m ρ (q (zIn p)) = some x) ∧
      ∃ x, Sloth.Spec.now I w m ρ (q (wOut p)) = some x ∧ Sloth.Spec.now I w m ρ (q (wIn p)) = some x := fun p hp =>
    ⟨now_sub (h _ _ _ (hc p hp _ List.mem_cons_self)), now_sub (h _ _ _ (hc p hp _ (List.mem_cons_of_mem _ List.mem_cons_self)))⟩
  simp only [zOut, zIn, wOut, wIn] at key
  refine ⟨fun p hp a ha => ?_, fun p hp => ?_⟩
  · obtain ⟨⟨x, h1, h2⟩, y, h3, h4⟩ := key p hp
    simp only [List.mem_cons, List.not_mem_nil, or_false] at ha
    rcases ha with rfl | rfl | rfl | rfl
    · exact ⟨x, h2⟩
    · exact ⟨y, h4⟩
    · exact ⟨x, h1⟩
    · exact ⟨y, h3⟩
  · obtain ⟨⟨x, h1, h2⟩, y, h3, h4⟩ := key p hp
    simp only [h1, h2, h3, h4, and_self]

/-- C115 for pumps: create a pump, do anything else, resolve the problem and run a simulation.  If the models of the problem only state equations when they are called
(`unit_stating`: pumps do) and the libraries are right when they report success, the values given and reported obey the balances of the pump. -/
theorem solved_pump {ext : Ext K} {I : Interp K} (hsound : Sloth.Spec.Sound ext I (· = 0)) {w0 w1 : World} (hw : Reachable w0) {name description : String} {v : View} {m : MRef}
    (hnew : newUnit .pump name description (some v) w0 = (.ok m, w1)) (ops : List Op) (hp : Sloth.Spec.Stating (history ops w1))
    (hm : m ∈ dvalues (history ops w1).pr.models) {s s' : SimWorld K} (hres : resolve (history ops w1) = (.ok (), s.w)) {b : Block} (hb : s.w.pr.block = some b)
    (hk : b.problemType = some .linear ∨ b.problemType = some .nonlinear) {i : SRef} {a : RunArgs} (h : runSimulation ext I i a s = (.ok (), s')) :
    ∃ o d, s'.sims[i]? = some o ∧ o.output = some (.dict d) ∧ ∀ ρ : Atom → K, Spec.Reported d ρ → ∃ X : String → K,
      (∀ a ∈ Spec.pumpAttrs v, Spec.Stands (history ops w1) m ρ a (X a)) ∧
      X "ndot_in" = X "ndot_out" ∧ X "mdot_in" = X "mdot_out" ∧ X "H_in" * X "ndot_in" = X "H_out" * X "ndot_out" ∧
      X "P_out" = X "P_in" + X "Delta_P" ∧ X "T_out" = X "T_in" ∧ (v.count ≥ 2 → Spec.PhasesKept X v.names) := by
  obtain ⟨mo1, h1, h2⟩ := newUnit_body hw hnew
  obtain ⟨mo, g1, g2⟩ := (history_le ops w1).ms m mo1 h1
  have hbody : mo.body.eqns = pumpEqs v := by rw [g2.body, h2]; rfl
  obtain ⟨o, d, ho, hout, hsol⟩ := run_solves hsound (unit_reachable hw hnew ops) hres hp hb hk h
  refine ⟨o, d, ho, hout, fun ρ hρ => ?_⟩
  have hz : ∀ n descr e, eq n descr e ∈ pumpEqs v → Sloth.Spec.now I (history ops w1) m ρ e = some 0 := fun n descr e he =>
    solved_zero hsol hm g1 hρ (hbody ▸ he)
  obtain ⟨n, n1, n2⟩ := now_sub (hz _ _ _ (List.mem_append_left _ (show molarConservation ∈ pumpFixed by simp [pumpFixed])))
  obtain ⟨c, c1, c2⟩ := now_sub (hz _ _ _ (List.mem_append_left _ (show massConservation ∈ pumpFixed by simp [pumpFixed])))
  obtain ⟨e, e1, e2⟩ := now_sub (hz _ _ _ (List.mem_append_left _ (show isoenthalpy ∈ pumpFixed by simp [pumpFixed])))
  obtain ⟨e3, e4, e5, e6, e7⟩ := now_bin e1
  obtain ⟨e8, e9, e10, e11, e12⟩ := now_bin e2
  obtain ⟨p, p1, p2⟩ := now_sub (hz "mechanical_equilibrium" "Mechanical Equilibrium" (.bin .sub (.bin .sub (q "P_out") (q "P_in")) (q "Delta_P")) (List.mem_append_left _ (by simp [pumpFixed])))
  obtain ⟨p3, p4, p5, p6, p7⟩ := now_bin p1
  obtain ⟨t, t1, t2⟩ := now_sub (hz "energy_balance" "Energy balance" (.bin .sub (q "T_out") (q "T_in")) (List.mem_append_left _ (by simp [pumpFixed])))
  have hph := fun hc : v.count ≥ 2 => phases_kept (l := v.names) (cs := pumpEqs v) (fun p hp c hc' => List.mem_append_right _ (by
    simp only [ifPhases, if_pos hc]; exact List.mem_flatMap.2 ⟨p, hp, hc'⟩)) hz
  refine ⟨fun a => (Sloth.Spec.now I (history ops w1) m ρ (q a)).getD 0, fun a ha => ?_, ?_⟩
  · have : ∃ x, Sloth.Spec.now I (history ops w1) m ρ (q a) = some x := by
      simp only [Spec.pumpAttrs, List.mem_append, List.mem_cons, List.not_mem_nil, or_false] at ha
      rcases ha with (rfl | rfl | rfl | rfl | rfl | rfl | rfl | rfl | rfl | rfl | rfl) | ha
      on_goal 12 =>
        split at ha
        · next hc =>
          obtain ⟨p, hp, ha⟩ := List.mem_flatMap.1 ha
          exact (hph hc).1 p hp a ha
        · cases ha
      all_goals exact ⟨_, by assumption⟩
    obtain ⟨x, hx⟩ := this
    simp only [hx, Option.getD_some]
    exact stands_of_now hx
  · simp only [Sloth.Spec.opVal, Option.some.injEq] at e7 e12 p7
    rw [n1] at e6; cases e6
    rw [n2] at e11; cases e11
    simp only [n1, n2, c1, c2, e5, e10, p5, p6, p2, t1, t2, Option.getD_some, true_and]
    exact ⟨e7.trans e12.symm, by rw [← p7]; ring, fun hc => (hph hc).2⟩

/-- C115 for heaters and coolers: as for pumps. -/
theorem solved_heater {ext : Ext K} {I : Interp K} (hsound : Sloth.Spec.Sound ext I (· = 0)) {w0 w1 : World} (hw : Reachable w0) {name description : String} {v : View} {m : MRef}
    (hnew : newUnit .heater name description (some v) w0 = (.ok m, w1)) (ops : List Op) (hp : Sloth.Spec.Stating (history ops w1))
    (hm : m ∈ dvalues (history ops w1).pr.models) {s s' : SimWorld K} (hres : resolve (history ops w1) = (.ok (), s.w)) {b : Block} (hb : s.w.pr.block = some b)
    (hk : b.problemType = some .linear ∨ b.problemType = some .nonlinear) {i : SRef} {a : RunArgs} (h : runSimulation ext I i a s = (.ok (), s')) :
    ∃ o d, s'.sims[i]? = some o ∧ o.output = some (.dict d) ∧ ∀ ρ : Atom → K, Spec.Reported d ρ → ∃ X : String → K,
      (∀ a ∈ ["ndot_in", "ndot_out", "mdot_in", "mdot_out", "P_in", "P_out", "Delta_P", "H_in", "H_out", "Q", "T_in", "T_out", "cp_mix"],
        Spec.Stands (history ops w1) m ρ a (X a)) ∧
      X "ndot_in" = X "ndot_out" ∧ X "mdot_in" = X "mdot_out" ∧ X "P_out" + X "Delta_P" = X "P_in" ∧ X "ndot_out" * X "H_out" = X "ndot_in" * X "H_in" + X "Q" ∧
      X "mdot_out" * X "cp_mix" ≠ 0 ∧ X "mdot_out" * X "cp_mix" * (X "T_out" - X "T_in") = X "Q" := by
  obtain ⟨mo1, h1, h2⟩ := newUnit_body hw hnew
  obtain ⟨mo, g1, g2⟩ := (history_le ops w1).ms m mo1 h1
  have hbody : mo.body.eqns = heaterEqs v := by rw [g2.body, h2]; rfl
  obtain ⟨o, d, ho, hout, hsol⟩ := run_solves hsound (unit_reachable hw hnew ops) hres hp hb hk h
  refine ⟨o, d, ho, hout, fun ρ hρ => ?_⟩
  have hz : ∀ n descr e, eq n descr e ∈ heaterEqs v → Sloth.Spec.now I (history ops w1) m ρ e = some 0 := fun n descr e he =>
    solved_zero hsol hm g1 hρ (hbody ▸ he)
  obtain ⟨n, n1, n2⟩ := now_sub (hz _ _ _ (show molarConservation ∈ heaterEqs v by simp [heaterEqs, heaterFixed]))
  obtain ⟨c, c1, c2⟩ := now_sub (hz _ _ _ (show massConservation ∈ heaterEqs v by simp [heaterEqs, heaterFixed]))
  obtain ⟨p1, p2, p3, p4, p5⟩ := now_bin (hz "mechanical_equilibrium" "Mechanical Equilibrium" (.bin .add (.bin .sub (q "P_out") (q "P_in")) (q "Delta_P"))
    (by simp [heaterEqs, heaterFixed]))
  obtain ⟨p6, p7, p8, p9, p10⟩ := now_bin p3
  obtain ⟨e, e1, e2⟩ := now_sub (hz "energy_balance" "Energy balance"
    (.bin .sub (.bin .sub (.bin .mul (q "ndot_out") (q "H_out")) (.bin .mul (q "ndot_in") (q "H_in"))) (q "Q")) (by simp [heaterEqs, heaterFixed]))
  obtain ⟨e3, e4, e5, e6, e7⟩ := now_bin e1
  obtain ⟨f1, f2, f3, f4, f5⟩ := now_bin e5
  obtain ⟨f6, f7, f8, f9, f10⟩ := now_bin e6
  obtain ⟨t, t1, t2⟩ := now_sub (hz "temperature_balance" "Temperature balance"
    (.bin .sub (.bin .sub (q "T_out") (q "T_in")) (.bin .div (q "Q") (.bin .mul (q "mdot_out") (q "cp_mix")))) (by simp [heaterEqs]))
  obtain ⟨t3, t4, t5, t6, t7⟩ := now_bin t1
  obtain ⟨u1, u2, u3, u4, u5⟩ := now_bin t2
  obtain ⟨u6, u7, u8, u9, u10⟩ := now_bin u4
  refine ⟨fun a => (Sloth.Spec.now I (history ops w1) m ρ (q a)).getD 0, fun a ha => ?_, ?_⟩
  · have : ∃ x, Sloth.Spec.now I (history ops w1) m ρ (q a) = some x := by
      simp only [List.mem_cons, List.not_mem_nil, or_false] at ha
      rcases ha with rfl | rfl | rfl | rfl | rfl | rfl | rfl | rfl | rfl | rfl | rfl | rfl | rfl
      all_goals exact ⟨_, by assumption⟩
    obtain ⟨x, hx⟩ := this
    simp only [hx, Option.getD_some]
    exact stands_of_now hx
  · simp only [Sloth.Spec.opVal, Option.some.injEq] at e7 f5 f10 p5 p10 t7 u10
    rw [n2] at f3; cases f3
    rw [n1] at f8; cases f8
    rw [c2] at u8; cases u8
    rw [e2] at u3; cases u3
    simp only [Sloth.Spec.opVal] at u5
    split at u5
    · cases u5
    next hne =>
    simp only [Option.some.injEq] at u5
    simp only [n1, n2, c1, c2, p4, p8, p9, e2, f4, f9, t5, t6, u9, Option.getD_some, true_and]
    subst u10
    refine ⟨?_, ?_, hne, ?_⟩
    · rw [← p10] at p5; linear_combination p5
    · rw [f5, f10]; linear_combination e7
    · rw [t7, ← u5, mul_comm]; exact div_mul_cancel₀ _ hne

/-- The names of the equations for the phases. -/
theorem mem_phaseNames {v : View} {n : String} (h : n ∈ Sloth.Spec.eqnNames (ifPhases v phaseEqs)) :
    ∃ p, n = "molar_fraction_conservation_for_" ++ p ∨ n = "mass_fraction_conservation_for_" ++ p := by
  simp only [Sloth.Spec.eqnNames, List.mem_filterMap] at h
  obtain ⟨c, hc, he⟩ := h
  unfold ifPhases at hc
  split at hc
  · obtain ⟨p, hp, hc⟩ := List.mem_flatMap.1 hc
    simp only [phaseEqs, List.mem_cons, List.not_mem_nil, or_false] at hc
    rcases hc with rfl | rfl
    · exact ⟨p, .inl (by simpa [eq] using he.symm)⟩
    · exact ⟨p, .inr (by simpa [eq] using he.symm)⟩
  · cases hc

theorem pre_ne {A n p : String} (k : Nat) (hk : k ≤ A.toList.length) (h : n.toList.take k ≠ A.toList.take k) : n ≠ A ++ p := by
  rintro rfl
  rw [String.toList_append, List.take_append_of_le_length hk] at h
  exact h rfl

theorem phaseNames_ne {v : View} {a b : String} (ha : a.toList.take 7 ≠ "molar_fraction_conservation_for_".toList.take 7 ∧
    a.toList.take 7 ≠ "mass_fraction_conservation_for_".toList.take 7) (hb : b ∈ Sloth.Spec.eqnNames (ifPhases v phaseEqs)) : a ≠ b := by
  obtain ⟨p, rfl | rfl⟩ := mem_phaseNames hb
  · exact pre_ne 7 (by decide) ha.1
  · exact pre_ne 7 (by decide) ha.2

theorem phaseNames_nodup {v : View} (hn : v.names.Nodup) : (Sloth.Spec.eqnNames (ifPhases v phaseEqs)).Nodup := by
  unfold ifPhases
  split
  · have key : ∀ l : List String, l.Nodup → (l.flatMap fun p => ["molar_fraction_conservation_for_" ++ p, "mass_fraction_conservation_for_" ++ p]).Nodup := by
      intro l hl
      have inj : ∀ A p p' : String, A ++ p = A ++ p' → p = p' := fun A p p' h => by
        have := congrArg String.toList h
        rw [String.toList_append, String.toList_append] at this
        exact String.toList_injective (List.append_cancel_left this)
      have cross : ∀ p p' : String, "mass_fraction_conservation_for_" ++ p ≠ "molar_fraction_conservation_for_" ++ p' := fun p p' =>
        pre_ne 7 (by decide) (by rw [String.toList_append, List.take_append_of_le_length (by decide)]; decide)
      rw [List.nodup_flatMap]
      refine ⟨fun p _ => by simp [(cross p p).symm], hl.imp fun {p p'} hne => ?_⟩
      intro n h1 h2
      simp only [List.mem_cons, List.not_mem_nil, or_false] at h1 h2
      rcases h1 with rfl | rfl <;> rcases h2 with h2 | h2
      · exact hne (inj _ _ _ h2)
      · exact cross _ _ h2.symm
      · exact cross _ _ h2
      · exact hne (inj _ _ _ h2)
    have e : Sloth.Spec.eqnNames (v.names.flatMap phaseEqs) = v.names.flatMap fun p => ["molar_fraction_conservation_for_" ++ p, "mass_fraction_conservation_for_" ++ p] := by
      induction v.names with
      | nil => rfl
      | cons p t ih =>
        rw [List.flatMap_cons, List.flatMap_cons, ← ih]
        exact List.filterMap_append
    rw [e]
    exact key _ hn
  · exact List.nodup_nil

/-- Pumps, heaters and mixers that were given no inlets only state equations when they are called, whatever else is done. -/
theorem unit_stating {k : Kind} (hk : k = .pump ∨ k = .heater ∨ k = .mixer) {w0 w1 : World} (hw : Reachable w0) {name description : String} {v : View} (hn : v.names.Nodup) {m : MRef}
    (hnew : newUnit k name description (some v) w0 = (.ok m, w1)) (ops : List Op) {mo : ModelObj} (hmo : (history ops w1).ms[m]? = some mo) (hin : mo.inlets = []) :
    Sloth.Spec.Equational (history ops w1) m ∧
      ∀ mo, (history ops w1).ms[m]? = some mo → (Sloth.Spec.eqnNames mo.body.eqns).Nodup ∧ ∀ n ∈ Sloth.Spec.eqnNames mo.body.eqns, n ≠ "" := by
  obtain ⟨mo1, h1, h2⟩ := newUnit_body hw hnew
  obtain ⟨mo', g1, g2⟩ := (history_le ops w1).ms m mo1 h1
  rw [hmo] at g1; cases g1
  have hbody : mo.body = { eqns := k.eqs v } := g2.body.trans h2
  refine ⟨⟨mo, hmo, hin, by rw [hbody], by rw [hbody], by rw [hbody], ?_⟩, fun mo2 hmo2 => ?_⟩
  · rw [hbody]
    intro c hc
    have : ∀ p ∈ v.names, ∀ c ∈ phaseEqs p, ∃ attr name d st ck, c = .eqn attr name d st ck := by
      intro p _ c hc
      simp only [phaseEqs, eq, List.mem_cons, List.not_mem_nil, or_false] at hc
      rcases hc with rfl | rfl <;> exact ⟨_, _, _, _, _, rfl⟩
    have hif : ∀ c ∈ ifPhases v phaseEqs, ∃ attr name d st ck, c = .eqn attr name d st ck := by
      intro c hc
      unfold ifPhases at hc
      split at hc
      · obtain ⟨p, hp, hc⟩ := List.mem_flatMap.1 hc
        exact this p hp c hc
      · cases hc
    rcases hk with rfl | rfl | rfl
    · simp only [Kind.eqs, pumpEqs, List.mem_append] at hc
      rcases hc with hc | hc
      · simp only [pumpFixed, molarConservation, massConservation, isoenthalpy, eq, List.mem_cons, List.not_mem_nil, or_false] at hc
        rcases hc with rfl | rfl | rfl | rfl | rfl <;> exact ⟨_, _, _, _, _, rfl⟩
      · exact hif c hc
    · simp only [Kind.eqs, heaterEqs, List.mem_append] at hc
      rcases hc with (hc | hc) | hc
      · exact hif c hc
      · simp only [heaterFixed, molarConservation, massConservation, eq, List.mem_cons, List.not_mem_nil, or_false] at hc
        rcases hc with rfl | rfl | rfl | rfl <;> exact ⟨_, _, _, _, _, rfl⟩
      · simp only [eq, List.mem_cons, List.not_mem_nil, or_false] at hc
        subst hc
        exact ⟨_, _, _, _, _, rfl⟩
    · cases hc
  · rw [hmo] at hmo2; cases hmo2
    rw [hbody]
    have happ : ∀ l l' : List Cmd, Sloth.Spec.eqnNames (l ++ l') = Sloth.Spec.eqnNames l ++ Sloth.Spec.eqnNames l' := fun l l' => List.filterMap_append
    rcases hk with rfl | rfl | rfl
    · simp only [Kind.eqs, pumpEqs, happ]
      have e1 : Sloth.Spec.eqnNames pumpFixed = ["molar_conservation", "mass_conservation", "isoenthalpy", "mechanical_equilibrium", "energy_balance"] := rfl
      rw [e1]
      refine ⟨List.nodup_append.2 ⟨by decide, phaseNames_nodup hn, ?_⟩, ?_⟩
      · intro a ha b hb
        exact phaseNames_ne (by revert a; decide) hb
      · intro n hn'
        rcases List.mem_append.1 hn' with h | h
        · clear hn'; revert n; decide
        · exact (phaseNames_ne (a := "") (by decide) h).symm
    · simp only [Kind.eqs, heaterEqs, happ, List.append_assoc]
      have e1 : Sloth.Spec.eqnNames heaterFixed ++ Sloth.Spec.eqnNames [eq "temperature_balance" "Temperature balance"
          (.bin .sub (.bin .sub (q "T_out") (q "T_in")) (.bin .div (q "Q") (.bin .mul (q "mdot_out") (q "cp_mix"))))] =
        ["molar_conservation", "mass_conservation", "mechanical_equilibrium", "energy_balance", "temperature_balance"] := rfl
      rw [e1]
      refine ⟨List.nodup_append.2 ⟨phaseNames_nodup hn, by decide, ?_⟩, ?_⟩
      · intro b hb a ha
        exact (phaseNames_ne (by revert a; decide) hb).symm
      · intro n hn'
        rcases List.mem_append.1 hn' with h | h
        · exact (phaseNames_ne (a := "") (by decide) h).symm
        · clear hn'; revert n; decide
    · exact ⟨List.nodup_nil, fun n hn => by cases hn⟩

/-! ## A pump that is solved -/

/-- What happens to a pump for water after it is made: the rise of pressure is given a value, equations for what goes in are added, and the problem is made. -/
def Ex.pumping : List Op := .cmd 0 (.setValue { attr := "Delta_P" } (.float 13) none) ::
  [("ndot_in", 2), ("mdot_in", 3), ("H_in", 5), ("P_in", 7), ("T_in", 11)].map
    (fun p => Op.cmd 0 (.eqn "" (p.1 ++ "_feed") "" (.res (.binN .sub (q p.1) p.2)) false)) ++ [.call 0, .addModels (.leaf 0)]

/-- The pump has been made. -/
def Ex.pumpMade : World := (newUnit .pump "P" "" (some Ex.water) World.init).2

/-- A library that solves this system and no other. -/
def Ex.pumpLib : Ext Rat := { Sloth.Ex.ext with
  symSys := fun _ names es _ =>
    let v := fun a => Sym.atom (.v (a ++ "_P"))
    if names = ["ndot_in_P", "ndot_out_P", "mdot_in_P", "mdot_out_P", "H_in_P", "H_out_P", "P_in_P", "P_out_P", "T_in_P", "T_out_P"] ∧
      es.map (·.expr) = [.sub (v "ndot_in") (.num 2), .sub (v "mdot_in") (.num 3), .sub (v "H_in") (.num 5), .sub (v "P_in") (.num 7), .sub (v "T_in") (.num 11),
        .sub (v "ndot_in") (v "ndot_out"), .sub (v "mdot_in") (v "mdot_out"), .sub (.mul (v "H_in") (v "ndot_in")) (.mul (v "H_out") (v "ndot_out")),
        .sub (.sub (v "P_out") (v "P_in")) (.num 13), .sub (v "T_out") (v "T_in")]
    then .ok ([2, 2, 3, 3, 5, 5, 7, 20, 11, 11], true) else .error .valueError
  linSolve := fun _ _ => .error .valueError
  spSolve := fun _ _ => .error .valueError }

theorem Ex.pumpLib_sound : Sloth.Spec.Sound Ex.pumpLib Sloth.Ex.ratI (· = 0) := by
  refine ⟨fun m names es g x hx => ?_, (fun _ _ _ h => by simp [Ex.pumpLib] at h), (fun _ _ _ h => by simp [Ex.pumpLib] at h)⟩
  simp only [Ex.pumpLib] at hx
  split at hx
  · next hc =>
    obtain ⟨rfl, he⟩ := hc
    simp only [Except.ok.injEq, Prod.mk.injEq, and_true] at hx
    subst hx
    refine ⟨rfl, fun ρ h s hs => ⟨0, ?_, rfl⟩⟩
    have h0 := h 0 _ rfl
    have h1 := h 1 _ rfl
    have h2 := h 2 _ rfl
    have h3 := h 3 _ rfl
    have h4 := h 4 _ rfl
    have h5 := h 5 _ rfl
    have h6 := h 6 _ rfl
    have h7 := h 7 _ rfl
    have h8 := h 8 _ rfl
    have h9 := h 9 _ rfl
    simp only [List.getElem?_cons_zero, List.getElem?_cons_succ, Option.some.injEq] at h0 h1 h2 h3 h4 h5 h6 h7 h8 h9
    have hm : s.expr ∈ es.map (·.expr) := List.mem_map_of_mem hs
    rw [he] at hm
    generalize s.expr = e at hm
    simp only [List.mem_cons, List.not_mem_nil, or_false] at hm
    rcases hm with rfl | rfl | rfl | rfl | rfl | rfl | rfl | rfl | rfl | rfl <;>
      simp [Sym.eval, ← h0, ← h1, ← h2, ← h3, ← h4, ← h5, ← h6, ← h7, ← h8, ← h9] <;> norm_num
  · cases hx

/-- The resolved problem, with a simulation of it. -/
def Ex.pumpReady : SimWorld Rat :=
  { w := (resolve (history Ex.pumping Ex.pumpMade)).2, sims := (setConfigurations 0 [] none none ({ w := World.init, sims := [{ name := "s" }] } : SimWorld Rat)).2.sims }

/-- The hypotheses are met, and a pump that gets water at pressure 7 delivers it at 20. -/
theorem solved_pump_use : newUnit .pump "P" "" (some Ex.water) World.init = (.ok 0, Ex.pumpMade) ∧ Sloth.Spec.Stating (history Ex.pumping Ex.pumpMade) ∧
    0 ∈ dvalues (history Ex.pumping Ex.pumpMade).pr.models ∧ resolve (history Ex.pumping Ex.pumpMade) = (.ok (), Ex.pumpReady.w) ∧
    (∃ b, Ex.pumpReady.w.pr.block = some b ∧ b.problemType = some .nonlinear) ∧
    ∃ s' o d, runSimulation Ex.pumpLib Sloth.Ex.ratI 0 {} Ex.pumpReady = (.ok (), s') ∧ s'.sims[0]? = some o ∧ o.output = some (.dict d) ∧ dget d "P_out_P" = some 20 := by
  have hnew : newUnit .pump "P" "" (some Ex.water) World.init = (.ok 0, Ex.pumpMade) := by
    have h : (newUnit .pump "P" "" (some Ex.water) World.init).1.toOption = some 0 := by decide +kernel
    unfold Ex.pumpMade
    generalize newUnit .pump "P" "" (some Ex.water) World.init = r at h ⊢
    obtain ⟨r, w⟩ := r
    cases r with
    | ok u => simp only [Except.toOption, Option.some.injEq] at h; rw [h]
    | error e => cases h
  have hw : Ex.pumpReady.w = (resolve (history Ex.pumping Ex.pumpMade)).2 := by simp only [Ex.pumpReady]
  have hmods : dvalues (history Ex.pumping Ex.pumpMade).pr.models = [0] := by decide +kernel
  refine ⟨hnew, ?_, by rw [hmods]; simp, ?_, ?_, ?_⟩
  · intro m hm
    rw [hmods, List.mem_singleton] at hm
    subst hm
    have : ((history Ex.pumping Ex.pumpMade).ms[0]?.map fun mo => mo.inlets) = some [] := by decide +kernel
    obtain ⟨mo, h1, h2⟩ := Option.map_eq_some_iff.1 this
    exact unit_stating (.inl rfl) init_reachable (by decide +kernel) hnew Ex.pumping h1 h2
  · rw [hw]
    have h : (resolve (history Ex.pumping Ex.pumpMade)).1.toOption = some () := by decide +kernel
    generalize resolve (history Ex.pumping Ex.pumpMade) = r at h ⊢
    obtain ⟨r, w⟩ := r
    cases r with
    | ok u => rfl
    | error e => cases h
  · have : (Ex.pumpReady.w.pr.block.map fun b => b.problemType) = some (some .nonlinear) := by decide +kernel
    exact Option.map_eq_some_iff.1 this
  · have h : (runSimulation Ex.pumpLib Sloth.Ex.ratI 0 {} Ex.pumpReady).1.toOption = some () := by decide +kernel
    have h2 : ((runSimulation Ex.pumpLib Sloth.Ex.ratI 0 {} Ex.pumpReady).2.sims[0]?.bind fun o => match o.output with
      | some (.dict d) => dget d "P_out_P"
      | _ => none) = some 20 := by decide +kernel
    generalize runSimulation Ex.pumpLib Sloth.Ex.ratI 0 {} Ex.pumpReady = r at h h2 ⊢
    obtain ⟨r, s'⟩ := r
    cases r with
    | error e => cases h
    | ok u =>
      obtain ⟨o, ho, h2⟩ := Option.bind_eq_some_iff.1 h2
      cases hout : o.output with
      | none => rw [hout] at h2; cases h2
      | some out =>
        rw [hout] at h2
        cases out with
        | dict d => exact ⟨s', o, d, rfl, ho, hout, h2⟩
        | _ => cases h2

end
end Lib
end Sloth
